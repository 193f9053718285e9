/- Model of the agents of agents/agent_lib.py. -/
import Verif.Model.Geometry

namespace PD
variable {K G : Type}

/-- `np.argmax` of a non-empty list: index of the first maximum (`none`: numpy's `ValueError`). -/
def argmax? [LinearOrder K] : List K → Option ℕ
  | [] => none
  | x :: xs =>
    match argmax? xs with
    | none => some 0
    | some i =>
      match xs[i]? with
      | none => some 0
      | some y => if y ≤ x then some 0 else some (i + 1)

/-- `np.linspace(low, high, n)`. -/
def linspace [Field K] (low high : K) (n : ℕ) : List K :=
  (List.range n).map (fun (i : ℕ) => if n = 1 then low else low + i * ((high - low) / ((n : K) - 1)))

/-- agent_lib.py:136-161 `find_argmax`, with `f` the first entry of the transition function's result
and scalar bounds.  `int(q // r)` is the floor; a zero resolution raises `ZeroDivisionError`, a
negative number of points `ValueError` (linspace), no points `ValueError` (`np.stack`).
The rounding of the grid to float32 is not modelled. -/
def findArgmax [Field K] [LinearOrder K] [FloorRing K] (low high : K) (f : V2 K → K)
    (resolution : K) : Except Err (V2 K) :=
  if resolution = 0 then .error .zeroDivision
  else
    let numPoints := ⌊(high - low) / resolution⌋
    if numPoints ≤ 0 then .error .valueError
    else
      let points1d := linspace low high numPoints.toNat
      let points := points1d.flatMap (fun y => points1d.map (fun x => (⟨x, y⟩ : V2 K)))
      match argmax? (points.map f) with
      | none => .error .valueError
      | some i => match points[i]? with
        | none => .error .indexError
        | some p => .ok p

/-- agent_lib.py:119-134: the attributes of a `GreedyAgent` (`low` and `high` are only used by
`find_argmax`). -/
structure Greedy where
  argmax : V2 ℝ
  fixedOffset : V2 ℝ
  sigma : ℝ

/-- agent_lib.py:99-134 `__init__` with scalar bounds. -/
noncomputable def Greedy.init (f : Option (V2 ℝ → ℝ)) (argmax : Option (V2 ℝ))
    (resolution sigma : ℝ) (fixedOffset : V2 ℝ) (low high : ℝ) : Except Err Greedy :=
  match f with
  | some f => match findArgmax low high f resolution with
    | .error e => .error e
    | .ok p => .ok ⟨p, fixedOffset, sigma⟩
  | none => match argmax with
    | some p => .ok ⟨p, fixedOffset, sigma⟩
    | none => .error .valueError

/-- `reshape(-1, 2)` of a flat list of even length. -/
def reshape2 : List K → List (V2 K)
  | x :: y :: r => ⟨x, y⟩ :: reshape2 r
  | _ => []

/-- agent_lib.py:163-183 `GreedyAgent.step` on the flat observation.  `normal sigma` is
`rng.normal(0, sigma, size=2)`. -/
noncomputable def Greedy.step (normal : ℝ → G → V2 ℝ × G) (a : Greedy) (obs : List ℝ) :
    EStateM Err G (V2 ℝ) := fun g =>
  if obs.length ≠ 10 then .error .assertionError g
  else
    let neighborDeltas := reshape2 ((obs.drop 2).take 6)
    match reshape2 (obs.drop 8) with
    | [goalDelta] =>
      let scores := neighborDeltas.map (fun d => norm2 (d - goalDelta))
      match argmin? scores with
      | none => .error .valueError g
      | some best =>
        match (getAngles neighborDeltas)[best]? with
        | none => .error .indexError g
        | some angle =>
          let beam := a.argmax + a.fixedOffset
          let (noise, g') := normal a.sigma g
          let beam := beam + noise
          .ok (rotate beam angle) g'
    | _ => .error .valueError g  -- impossible: ten entries

end PD
