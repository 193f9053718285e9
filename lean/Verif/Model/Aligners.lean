/- Model of the two stateful aligners (alignment.py): `IterativeAlignmentFiltering` and `ImageAligner`. -/
import Verif.Model.Merge
import Verif.Model.PadCrop
import Verif.Model.Features

namespace PD

/-! ### `IterativeAlignmentFiltering` -/

/-- Routines the filtering aligner calls.  `fit` is `get_lattice_clusterer` (829-857), `predict` is what
`classify_lattice_types` (860-891) does after its assertion, with a fitted classifier, and `align` is
`align_latest` with the aligner's settings (`none`: the drift is not a number). -/
structure FilterOps (K C : Type) where
  fit : List (V2 K) → Except Err C
  predict : List (V2 K) → C → Except Err (List ℤ)
  align : List (V2 K) → List (V2 K) → List ℤ → List ℤ → Except Err (Option (V2 K))

/-- The settings of alignment.py:612-630 that are not passed on to `align_latest`. -/
structure FilterCfg (K : Type) where
  historyLength : ℤ := 10
  mergeCutoff : K
  accumulateMerged : Bool := false
  cliqueMerging : Bool := false

/-- alignment.py:634-638: the mutable attributes.  (`step`, which is set to 1 by every call and never
read, is left out.) -/
structure FilterState (K C : Type) where
  recent : List (List (V2 K))
  classes : List (List ℤ)
  classifier : Option C

/-- alignment.py:634-638 `reset`, also called by the constructor. -/
def FilterState.fresh {K C : Type} : FilterState K C := ⟨[], [], none⟩

section
variable {K C : Type}

/-- alignment.py:640-653 `apply_shift`. -/
def FilterState.applyShift [Add K] (shift : V2 K) (s : FilterState K C) : FilterState K C :=
  { s with recent := s.recent.map (fun obs => obs.map (fun p => p + shift)) }

/-- alignment.py:860-891 `classify_lattice_types`: too few atoms fail the assertion, and a classifier
that was never fitted is `None`. -/
def classifyLattice (ops : FilterOps K C) (ps : List (V2 K)) (classifier : Option C) :
    Except Err (List ℤ) :=
  if ps.length < 3 then .error .assertionError
  else match classifier with
    | none => .error .attributeError
    | some c => ops.predict ps c

/-- Replace the first array that is not empty. -/
def replaceFirst (new : List (V2 K)) : List (List (V2 K)) → List (List (V2 K))
  | [] => []
  | a :: rest => if a.isEmpty then a :: replaceFirst new rest else new :: rest

variable [Field K] [LinearOrder K]

/-- alignment.py:699-706: the joined positions, and the contents of the arrays afterwards
(`naive_merge` writes into the first one). -/
def mergeAll (cfg : FilterCfg K) (cf : CliqueFinder) (arrays : List (List (V2 K))) :
    Except Err (List (V2 K) × List (List (V2 K))) :=
  if cfg.cliqueMerging then
    .ok ((cliqueMerge cf cfg.mergeCutoff 100 arrays.flatten none).1, arrays)
  else
    match naiveMerge cfg.mergeCutoff arrays with
    | .error e => .error e
    | .ok st => .ok (st.positions, replaceFirst st.caller arrays)

/-- alignment.py:716-719: drop the oldest observations and classes. -/
def FilterState.cut (historyLength : ℤ) (s : FilterState K C) : FilterState K C :=
  if historyLength < s.recent.length then
    let toCut := (s.recent.length - historyLength).toNat
    { s with recent := s.recent.drop toCut, classes := s.classes.drop toCut }
  else s

/-- alignment.py:655-733 `__call__`: the merged grid and the offset.  Two simplifications: after a drift
that is not a number, the code goes on with arrays of nan when merging naively (clique merging raises
`ValueError` for them), where the model raises in both cases; and when naively merged arrays are
accumulated, the joined array may be the same object as the first one, which the model keeps as two
values. -/
def FilterState.call (cfg : FilterCfg K) (ops : FilterOps K C) (cf : CliqueFinder) (g : Grid K) :
    EStateM Err (FilterState K C) (Grid K × V2 K) := fun s =>
  if s.recent.isEmpty then
    let s1 : FilterState K C := { s with recent := s.recent ++ [g.positions] }
    match ops.fit g.positions with
    | .error e => .error e s1
    | .ok c =>
      let s2 : FilterState K C := { s1 with classifier := some c }
      match classifyLattice ops g.positions s2.classifier with
      | .error e => .error e s2
      | .ok classes => .ok (g, -0) { s2 with classes := s2.classes ++ [classes] }
  else
    match classifyLattice ops g.positions s.classifier with
    | .error e => .error e s
    | .ok classes =>
      if s.classes.isEmpty then .error .valueError s        -- np.concatenate of no arrays
      else
        match ops.align g.positions s.recent.flatten classes s.classes.flatten with
        | .error e => .error e s
        | .ok none => .error .valueError s
        | .ok (some drift) =>
          let shifted := g.shift drift
          match mergeAll cfg cf (s.recent ++ [shifted.positions]) with
          | .error e => .error e s
          | .ok (joined, arrays) =>
            let recent := arrays.dropLast
            let shifted : Grid K := ⟨arrays.getLastD [], shifted.numbers⟩
            let added : FilterState K C × Option Err :=
              if cfg.accumulateMerged then
                match classifyLattice ops joined s.classifier with
                | .error e => ({ s with recent := recent ++ [joined] }, some e)
                | .ok cl => ({ s with recent := recent ++ [joined], classes := s.classes ++ [cl] }, none)
              else
                ({ s with recent := recent ++ [shifted.positions], classes := s.classes ++ [classes] }, none)
            match added with
            | (s1, some e) => .error e s1
            | (s1, none) =>
              let s2 := s1.cut cfg.historyLength
              match propagateAtomicNumbers shifted.positions joined shifted.numbers none CARBON (8 / 10) with
              | .error e => .error e s2
              | .ok numbers => .ok (⟨joined, numbers⟩, -drift) s2

end

/-! ### `ImageAligner` -/

/-- Routines the image aligner calls: `prepare` is the normalising and resizing to 512 × 512 pixels of
alignment.py:518-533 (`None` has no `ndim`, so it may raise), `net` the saved model of 549-559 on a stack
of frames, which gives a drift and the class scores for every frame, and `detect` is
`process_detection_predictions` (405-458). -/
structure ImageOps (K P Img Probs : Type) where
  resizer : Resizer P
  black : P
  prepare : Img → Except Err (List (List P))
  net : List (List (List P)) → Except Err (List (Probs × V2 K))
  detect : Probs → Grid K

/-- Attributes of an image aligner that calls change (alignment.py:305-321).  `history` holds
`image_history` and `fov_history`, with their common maximal length. -/
structure ImageState (K C P : Type) where
  images : List (List (List P))
  fovs : List (Fov K)
  maxlen : ℕ
  needsReset : Bool
  post : FilterState K C

/-- `deque(maxlen=m).append`. -/
def pushBounded {α : Type} (m : ℕ) (l : List α) (x : α) : List α := (l ++ [x]).drop (l.length + 1 - m)

section
variable {K C P Img Probs : Type}

/-- A newly constructed image aligner (349-363).  The two deques do not exist before the first reset. -/
def ImageState.fresh : ImageState K C P := ⟨[], [], 0, true, FilterState.fresh⟩

/-- A black frame of 512 × 512 pixels (`np.zeros_like`, 336). -/
def blackFrame (black : P) : List (List P) := List.replicate 512 (List.replicate 512 black)

variable [Field K] [LinearOrder K]

/-- alignment.py:336-342: the field of view of the dummies. -/
def dummyFov : Fov K := ⟨⟨0, 0⟩, ⟨20, 20⟩⟩

/-- alignment.py:323-347 `reset` (for example images of 512 × 512 pixels): a deque cannot have a negative
maximal length.  Without a post-processing aligner, `post` is not used and its reset has no effect. -/
def ImageState.reset (black : P) (historyLength : ℤ) : EStateM Err (ImageState K C P) Unit := fun s =>
  if historyLength < 1 then .error .valueError s
  else
    let m := (historyLength - 1).toNat
    let n := historyLength.toNat
    .ok () { s with
      images := (List.replicate n (blackFrame black)).foldl (pushBounded m) []
      fovs := (List.replicate n dummyFov).foldl (pushBounded m) []
      maxlen := m
      post := FilterState.fresh
      needsReset := false }

/-- Python's `xs[i]`. -/
def pyGet {α : Type} (xs : List α) (i : ℤ) : Option α :=
  if 0 ≤ i then xs[i.toNat]? else if -i ≤ xs.length then xs[(xs.length + i).toNat]? else none

/-- alignment.py:354-363: the settings of the post-processing aligner. -/
def postCfg : FilterCfg K :=
  { historyLength := 1, mergeCutoff := BOND / 2, accumulateMerged := false, cliqueMerging := true }

/-- alignment.py:566-579: post-process a detected grid; any exception is caught and resets the
post-processing aligner. -/
def postprocess (ops : FilterOps K C) (cf : CliqueFinder) (fov : Fov K) (grid : Grid K) (drift : V2 K)
    (post : FilterState K C) : (Grid K × V2 K) × FilterState K C :=
  let shiftedFov := fov.shift (-drift)
  let materialGrid := shiftedFov.gridToMaterial grid
  match FilterState.call postCfg ops cf materialGrid post with
  | .error _ _ => ((grid, drift), FilterState.fresh)
  | .ok (g, d) post' =>
    let drift' := drift + d
    (((fov.shift (-drift')).gridToMicroscope g, drift'), post')

variable [FloorRing K]

/-- alignment.py:491-581 `__call__`: the grid, the drift and the class probabilities. -/
def ImageState.call (ops : ImageOps K P Img Probs) (hybrid : Option (FilterOps K C × CliqueFinder))
    (image : Img) (fov : Fov K) (grid : Option (Grid K)) (timeIndex : ℤ) :
    EStateM Err (ImageState K C P) (Grid K × V2 K × Probs) := fun s =>
  match ops.prepare image with
  | .error e => .error e s
  | .ok img =>
    let s1 := if s.needsReset then
      match ImageState.reset ops.black 5 s with | .ok _ s' => s' | .error _ s' => s' else s
    match (s1.images.zip s1.fovs).mapM (fun x => padAndCrop ops.resizer ops.black 512 512 x.1 x.2 fov) with
    | .error e => .error e s1
    | .ok padded =>
      match ops.net (padded ++ [img]) with
      | .error e => .error e s1
      | .ok outputs =>
        match pyGet outputs timeIndex with
        | none => .error .indexError s1
        | some (probs, drift) =>
          let found := grid.getD (ops.detect probs)
          let s2 := { s1 with images := pushBounded s1.maxlen s1.images img,
                              fovs := pushBounded s1.maxlen s1.fovs fov }
          match hybrid with
          | none => .ok (found, drift, probs) s2
          | some (fops, cf) =>
            let ((g, d), post') := postprocess fops cf fov found drift s2.post
            .ok (g, d, probs) { s2 with post := post' }

end
end PD
