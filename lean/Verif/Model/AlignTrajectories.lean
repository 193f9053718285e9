/- Model of the alignment of trajectories (pipeline/align_trajectories.py) and of drifts
(microscope_utils.py). -/
import Verif.Model.Aligners
import Verif.Model.Simulator

namespace PD

/-- pipeline/align_trajectories.py:35-45 `Args`, without the paths and `hybrid`. -/
structure AlignTrajArgs (K : Type) where
  historyLength : ℤ := 5
  alignmentIterations : ℤ := 1
  baseStepSize : K
  relabel : Bool := false

section
variable {K C P Img Probs : Type} [Field K] [LinearOrder K] [FloorRing K]

/-- align_trajectories.py:66. -/
def stepSize (base : K) (i n : ℤ) : K := base + (1 - base) * i / n

/-- align_trajectories.py:69-89: one pass over the observations, from the shift accumulated so far.
An observation without an image is passed on to the aligner as it is. -/
def alignObservations (ops : ImageOps K P (Option Img) Probs)
    (hybrid : Option (FilterOps K C × CliqueFinder)) (relabel : Bool) (step : K) :
    V2 K → List (Observation K Img) → EStateM Err (ImageState K C P) (List (Observation K Img))
  | _, [] => fun s => .ok [] s
  | cumulative, o :: os => fun s =>
    match ImageState.call ops hybrid o.image (o.fov.shift (-cumulative)) none (-1) s with
    | .error e s1 => .error e s1
    | .ok (extracted, newShift, _) s1 =>
      let cumulative := cumulative + V2.smul step newShift
      let aligned : Observation K Img :=
        { grid := if relabel then extracted else o.grid
          fov := o.fov.shift (-cumulative)
          controls := o.controls
          elapsedTime := o.elapsedTime
          image := o.image
          labelImage := o.labelImage }
      match alignObservations ops hybrid relabel step cumulative os s1 with
      | .error e s2 => .error e s2
      | .ok rest s2 => .ok (aligned :: rest) s2

/-- align_trajectories.py:62-91: the rounds with the given numbers. -/
def alignRounds (ops : ImageOps K P (Option Img) Probs) (hybrid : Option (FilterOps K C × CliqueFinder))
    (args : AlignTrajArgs K) :
    List ℤ → List (Observation K Img) → EStateM Err (ImageState K C P) (List (Observation K Img))
  | [], obs => fun s => .ok obs s
  | i :: is, obs => fun s =>
    match ImageState.reset ops.black args.historyLength s with
    | .error e s1 => .error e s1
    | .ok () s1 =>
      match alignObservations ops hybrid args.relabel
          (stepSize args.baseStepSize i args.alignmentIterations) 0 obs s1 with
      | .error e s2 => .error e s2
      | .ok obs' s2 => alignRounds ops hybrid args is obs' s2

/-- align_trajectories.py:47-91 `do_alignment`. -/
def doAlignment (ops : ImageOps K P (Option Img) Probs) (hybrid : Option (FilterOps K C × CliqueFinder))
    (args : AlignTrajArgs K) (obs : List (Observation K Img)) :
    EStateM Err (ImageState K C P) (List (Observation K Img)) :=
  alignRounds ops hybrid args ((List.range args.alignmentIterations.toNat).map (fun k : ℕ => (k : ℤ) + 1)) obs

end

/-! ### Drifts -/

/-- microscope_utils.py:761-772 `Drift`. -/
structure Drift (K : Type) where
  jitter : List (V2 K)
  drift : V2 K
  deriving DecidableEq

/-- microscope_utils.py:774-778 `cumulate_drift`. -/
def Drift.cumulate {K : Type} [Add K] (self other : Drift K) : Drift K :=
  ⟨self.jitter, self.drift + other.drift⟩

/-- numpy's subtraction of `(n, 2)` and `(m, 2)` arrays: a single row is repeated. -/
def rowsSub {K : Type} [Sub K] (a b : List (V2 K)) : Except Err (List (V2 K)) :=
  if a.length = b.length then .ok (List.zipWith (· - ·) a b)
  else match a, b with
    | _, [j] => .ok (a.map (fun p => p - j))
    | [p], _ => .ok (b.map (fun j => p - j))
    | _, _ => .error .valueError

/-- microscope_utils.py:780-807 `apply_to_observation`.  The label image is not passed on, so it is the
default, `None`. -/
def Drift.apply {K Img : Type} [Add K] [Sub K] (d : Drift K) (o : Observation K Img) :
    Except Err (Observation K Img) :=
  match rowsSub o.grid.positions d.jitter with
  | .error e => .error e
  | .ok positions => .ok {
      grid := ⟨positions, o.grid.numbers⟩
      fov := o.fov.shift d.drift
      controls := o.controls
      elapsedTime := o.elapsedTime
      image := o.image
      labelImage := none }

end PD
