/- Model of the training script from the recorded trajectories up to the learner
(pipeline/train_rate_learner.py:184-291, 294-515, 568-700): which files it reads, which pictures it leaves and what
the learner gets.  Printing is left out, and so is the look of pictures: marker shapes, colours, legends and axis
titles. -/
import Verif.Model.StackData
import Verif.Model.FramePictures
import Verif.Model.Records

namespace PD

/-! ### Loading -/

/-- The argument of `load_trajectories_from_records`: paths in a sequence, a directory with what it contains in
the order of `iterdir`, or anything else. -/
inductive RecordSource where
  | several (files : List (List Char))
  | directory (children : List (List Char))
  | single (file : List Char)

/-- train_rate_learner.py:641-646. -/
def RecordSource.files : RecordSource → List (List Char)
  | .several files => files
  | .directory children => children
  | .single file => [file]

/-- train_rate_learner.py:628-651 `load_trajectories_from_records`. -/
def loadTrajectories {B A : Type} (de : B → Except Err A) (fs : Files B) (source : RecordSource) :
    Except Err (List A) :=
  readSources de fs source.files

/-! ### Paths and pictures -/

/-- A path without `..`: absolute or relative to the working directory of the process.  `.` is the relative path
without parts. -/
structure OsPath where
  abs : Bool
  parts : List String
  deriving DecidableEq

/-- `os.path.join(a, b)`: an absolute `b` replaces `a`. -/
def OsPath.join (a b : OsPath) : OsPath := if b.abs then b else ⟨a.abs, a.parts ++ b.parts⟩

/-- The relative path with one part. -/
def OsPath.file (name : String) : OsPath := ⟨false, [name]⟩

/-- The points of one `plt.scatter` of `visualize_data`, with their opacities. -/
structure DataSeries where
  label : String
  points : List (V2 ℝ)
  alphas : List ℝ

/-- What `visualize_data` draws: the series, the silicon and the limits of both axes. -/
structure DataPicture where
  series : List DataSeries
  silicon : V2 ℝ
  limits : ℝ × ℝ

/-- What `plot_transition` draws, in pixels, and the label image. -/
structure TransitionPicture (Img : Type) where
  atomsBefore : List (V2 ℝ)
  atomsAfter : List (V2 ℝ)
  beam : V2 ℝ
  siliconBefore : V2 ℝ
  siliconAfter : V2 ℝ
  neighbors : List (V2 ℝ × Bool)
  label : Option Img

/-- A file the script leaves. -/
inductive ScriptFile (Img : Type) where
  | data (p : DataPicture)
  | transition (p : TransitionPicture Img)

/-- The file system as far as the script sees it: the working directory of the process, the directories there
are and the files written, oldest first, all by their absolute parts. -/
structure ScriptDisk (Img : Type) where
  cwd : List String
  dirs : List (List String)
  written : List (List String × ScriptFile Img)

variable {Img : Type}

/-- The absolute parts of a path. -/
def ScriptDisk.locate (d : ScriptDisk Img) (p : OsPath) : List String :=
  if p.abs then p.parts else d.cwd ++ p.parts

/-- `path.mkdir(parents=True, exist_ok=True)`.  A file in place of a directory is not modelled. -/
def ScriptDisk.makeDirs (d : ScriptDisk Img) (p : OsPath) : ScriptDisk Img :=
  { d with dirs := d.dirs ++ (d.locate p).inits }

/-- `with path.open('wb') as f: plt.savefig(f)`: without the directory of the file `FileNotFoundError`. -/
def ScriptDisk.save (d : ScriptDisk Img) (p : OsPath) (x : ScriptFile Img) : Except Err (ScriptDisk Img) :=
  if (d.locate p).dropLast ∈ d.dirs then .ok { d with written := d.written ++ [(d.locate p, x)] }
  else .error .notFound

/-! ### Pictures of transitions -/

/-- Python's `n[i]` for an integer `n`: integers have no entries (`TypeError`). -/
def intItem (_n _i : ℕ) : Except Err ℕ := .error .typeError

/-- A place in the unit square in pixels, the second axis downwards (train_rate_learner.py:218-219). -/
def toPixels (size : ℕ) (p : V2 ℝ) : V2 ℝ := ⟨p.x * size, size - p.y * size⟩

/-- The body of the loop of train_rate_learner.py:262-270. -/
noncomputable def plotNeighbor (fov : Fov ℝ) (imsize : ℕ) (nbrs : List (V2 ℝ)) (order : List ℕ) (nextState i : ℕ) :
    Except Err (V2 ℝ × Bool) :=
  match order[i]? with
  | none => .error .indexError
  | some k =>
    match nbrs[k + 1]? with
    | none => .error .indexError
    | some p =>
      let p := fov.toMicroscope p
      match intItem imsize 0 with
      | .error e => .error e
      | .ok w =>
        match intItem imsize 1 with
        | .error e => .error e
        | .ok h => .ok (⟨w * p.x, h - h * p.y⟩, decide (i + 1 = nextState))

/-- train_rate_learner.py:184-271, the picture of a transition; `height` is `image.shape[0]`.  An image without
axes, or one that `imshow` refuses, is not modelled. -/
noncomputable def plotTransition (height : Img → ℕ) (t : Transition ℝ Img) (nbrs : List (V2 ℝ)) (order : List ℕ)
    (si siAfter : V2 ℝ) (nextState : ℕ) : Except Err (TransitionPicture Img) :=
  let imsize := match t.imageBefore with
    | none => 512
    | some image => height image
  let gridAfter := t.fovBefore.gridToMicroscope (t.fovAfter.gridToMaterial t.gridAfter)
  match t.controls with
  | [] => .error .indexError
  | c :: _ =>
    match (List.range 3).mapM (plotNeighbor t.fovBefore imsize nbrs order nextState) with
    | .error e => .error e
    | .ok ns => .ok {
        atomsBefore := t.gridBefore.positions.map (toPixels imsize)
        atomsAfter := gridAfter.positions.map (toPixels imsize)
        beam := toPixels imsize c.position
        siliconBefore := toPixels imsize (t.fovBefore.toMicroscope si)
        siliconAfter := toPixels imsize (t.fovBefore.toMicroscope siAfter)
        neighbors := ns
        label := t.labelImageBefore }

/-- The values `plot_transition` is given (train_rate_learner.py:484-501), for a transition that was kept: the
silicon before and after, the silicon with its three neighbours and the order of these. -/
noncomputable def plotArguments (knn : Knn ℝ) (cutoff : ℝ) (t : Transition ℝ Img) :
    Except Err (V2 ℝ × V2 ℝ × List (V2 ℝ) × List ℕ) :=
  match t.controls with
  | [c] =>
    match getSiliconPositions (t.fovBefore.gridToMaterial t.gridBefore) with
    | [si] =>
      match checkBefore knn (t.fovBefore.gridToMaterial t.gridBefore) si with
      | .ok (.inr nbrs) =>
        match checkAfter knn cutoff (t.fovAfter.gridToMaterial t.gridAfter) si nbrs with
        | .ok (.inr siAfter) =>
          match standardize (t.fovBefore.toMaterial c.position - si) ((nbrs.map (fun p => p - si)).drop 1) with
          | .ok (_, _, order) => .ok (si, siAfter, nbrs, order)
          | .error e => .error e
        | _ => .error .valueError
      | _ => .error .valueError
    | _ => .error .valueError
  | _ => .error .valueError

/-- train_rate_learner.py:484-501: the picture of a kept transition, the `n`-th, in the directory of its class.
The second picture, of the label image, is part of the first here. -/
noncomputable def plotKept (knn : Knn ℝ) (cutoff : ℝ) (height : Img → ℕ) (plots : OsPath) (t : Transition ℝ Img)
    (d : DataPoint) (n : ℕ) : EStateM Err (ScriptDisk Img) Unit := fun s =>
  let dir := plots.join (.file s!"class_{d.nextState}")
  let s := s.makeDirs dir
  match plotArguments knn cutoff t with
  | .error e => .error e s
  | .ok (si, siAfter, nbrs, order) =>
    match plotTransition height t nbrs order si siAfter d.nextState with
    | .error e => .error e s
    | .ok pic =>
      match s.save (dir.join (.file s!"transition_{n}_transition.png")) (.transition pic) with
      | .error e => .error e s
      | .ok s => .ok () s

/-- train_rate_learner.py:330-501, the loop of `transitions_to_datapoints` with its pictures. -/
noncomputable def datapointsLoop (knn : Knn ℝ) (cutoff : ℝ) (plot : Bool) (height : Img → ℕ) (plots : OsPath) :
    List (Transition ℝ Img) → List DataPoint → Counters → EStateM Err (ScriptDisk Img) (List DataPoint × Counters)
  | [], data, counters => pure (data, counters)
  | t :: ts, data, counters =>
    match datapointOf knn cutoff t with
    | .error e => throw e
    | .ok (.inl x) => datapointsLoop knn cutoff plot height plots ts data (counters.bump x)
    | .ok (.inr d) => do
      if plot then plotKept knn cutoff height plots t d (data.length + 1)
      datapointsLoop knn cutoff plot height plots ts (data ++ [d]) counters

/-! ### Pictures of the data -/

/-- train_rate_learner.py:593-602: the name of a state. -/
def stateLabel : ℕ → Except Err String
  | 0 => .ok "No movement"
  | 1 => .ok "Moved right"
  | 2 => .ok "Moved up-left"
  | 3 => .ok "Moved down-left"
  | _ => .error .assertionError

/-- train_rate_learner.py:608: the opacities.  Dividing by zero gives infinities and `nan`; matplotlib accepts only
opacities between 0 and 1 (`ValueError`). -/
noncomputable def opacities (longest : ℝ) (ts : List ℝ) : Except Err (List ℝ) :=
  if longest = 0 then .error .valueError
  else
    let as := ts.map (fun t => t / longest)
    if as.all (fun a => decide (0 ≤ a) && decide (a ≤ 1)) then .ok as else .error .valueError

/-- train_rate_learner.py:587-609, the body of the loop: the series of state `i`, if it has points.  Masks of other
lengths raise `IndexError`. -/
noncomputable def dataSeries (states : List ℤ) (positions : List (V2 ℝ)) (dts : List ℝ) (i : ℕ) :
    Except Err (Option DataSeries) :=
  let mask := states.map (fun s => decide (s = (i : ℤ)))
  if positions.length ≠ states.length then .error .indexError
  else
    let places := maskSelect mask positions
    if places = [] then .ok none
    else
      match stateLabel i with
      | .error e => .error e
      | .ok label =>
        if dts.length ≠ states.length then .error .indexError
        else
          match greatestOf dts with
          | .error e => .error e
          | .ok longest =>
            match opacities longest (maskSelect mask dts) with
            | .error e => .error e
            | .ok alphas => .ok (some ⟨label, places, alphas⟩)

/-- train_rate_learner.py:568-625 `visualize_data`, up to saving. -/
noncomputable def visualizeData (states : List ℤ) (positions : List (V2 ℝ)) (dts : List ℝ) (numStates : ℕ) :
    Except Err DataPicture :=
  match (List.range (numStates + 1)).mapM (dataSeries states positions dts) with
  | .error e => .error e
  | .ok series => .ok ⟨series.filterMap id, ⟨0, 0⟩, (-5, 5)⟩

/-! ### The script -/

/-- The arguments of the script that matter here (train_rate_learner.py:61-89). -/
structure ScriptArgs where
  workdir : OsPath
  plotTransitions : Bool := false
  cutoff : ℝ
  useVoltage : Bool := true
  useCurrent : Bool := true
  rateNetwork : Bool := true
  previousControls : Bool := false

/-- train_rate_learner.py:669-672: how many points there are of each state.  Another state is a `KeyError`, here
`indexError`. -/
def countStates (data : List DataPoint) : Except Err (List ℕ) :=
  if data.all (fun d => decide (d.nextState ≤ 3)) then
    .ok ((List.range 4).map (fun k => (data.filter (fun d => decide (d.nextState = k))).length))
  else .error .indexError

/-- What the script has when it comes to the learner: the counts it printed, the data it trains on and the augmented
data it distills with. -/
structure LearnerInput where
  counts : List ℕ
  stacked : StackedData
  augmented : RateData

/-- Computations without effect on files. -/
def pureStep {α : Type} (x : Except Err α) : EStateM Err (ScriptDisk Img) α :=
  match x with
  | .error e => throw e
  | .ok a => pure a

/-- Draw and save one of the two pictures of the data. -/
noncomputable def saveDataPicture (path : OsPath) (states : List ℤ) (positions : List (V2 ℝ)) (dts : List ℝ) :
    EStateM Err (ScriptDisk Img) Unit := fun s =>
  match visualizeData states positions dts 3 with
  | .error e => .error e s
  | .ok pic =>
    match s.save path (.data pic) with
    | .error e => .error e s
    | .ok s => .ok () s

/-- train_rate_learner.py:656-705, `main` from the trajectories up to the choice of the learner. -/
noncomputable def scriptData (knn : Knn ℝ) (height : Img → ℕ) (args : ScriptArgs)
    (trajectories : List (List (Observation ℝ Img))) : EStateM Err (ScriptDisk Img) LearnerInput := do
  let transitions := trajectoriesToTransitions args.previousControls trajectories
  let plots := args.workdir.join (.file "data_plots")
  modify (fun s => s.makeDirs plots)
  let (data, _) ← datapointsLoop knn args.cutoff args.plotTransitions height plots transitions [] {}
  let counts ← pureStep (countStates data)
  let stacked ← pureStep (prepareData args.useCurrent args.useVoltage args.rateNetwork data)
  saveDataPicture (args.workdir.join (.file "raw_data.png")) (stacked.nextState.map (fun s : ℕ => (s : ℤ)))
    stacked.position stacked.dt
  let arrays ← pureStep stacked.toRateData
  let augmented ← pureStep (augmentData true 3 arrays)
  saveDataPicture (args.workdir.join (args.workdir.join (.file "augmented_data.png"))) augmented.states
    augmented.position augmented.dt
  pure ⟨counts, stacked, augmented⟩

end PD
