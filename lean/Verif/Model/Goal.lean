/- Model of `SingleSiliconGoalReaching` (goals.py). -/
import Verif.Model.Simulator
import Mathlib.Analysis.SpecialFunctions.Pow.Real

namespace PD
variable {K G Img : Type}

/-- constants.py:35 `GAMMA_PER_SECOND = 0.9967`. -/
noncomputable def GAMMA : ℝ := 9967 / 10000

/-- `constants.GAMMA_PER_SECOND ** elapsed_time.total_seconds()` (goals.py:177-180,
putting_dune_environment.py:97-100 and 141-144). -/
noncomputable def gammaPow (t : Timedelta) : ℝ := GAMMA ^ (totalSeconds t : ℝ)

/-- goals.py:25-29 `GoalReturn`.  Rewards are real numbers because of the power of γ. -/
structure GoalReturn where
  reward : ℝ
  isTerminal : Bool
  isTruncated : Bool

/-- goals.py:56-67, the attributes of a `SingleSiliconGoalReaching`. -/
structure GoalState (K : Type) where
  required : ℕ
  rangeMin : K
  rangeMax : K
  goal : V2 K
  consecutive : ℕ

/-- goals.py:56-67 `__init__`. -/
def GoalState.fresh [Field K] : GoalState K := ⟨1, 1 / 10, 50, 0, 0⟩

/-- `np.linalg.norm(v) < r`, on squares. -/
def normLt [Field K] [LinearOrder K] (v : V2 K) (r : K) : Bool :=
  decide (0 < r) && decide (V2.normSq v < r * r)

/-- `np.linalg.norm(v) > r`, on squares. -/
def normGt [Field K] [LinearOrder K] (v : V2 K) (r : K) : Bool :=
  decide (r < 0) || decide (r * r < V2.normSq v)

/-- goals.py:69-121 `reset`.  Nothing is changed before an exception. -/
def GoalState.reset [Field K] [LinearOrder K] (rng : Rng K G) (o : Observation K Img)
    (s : GoalState K) (g : G) : Except Err (GoalState K × G) :=
  match getSingleSiliconPosition o.grid with
  | .error e => .error e
  | .ok si =>
    let scale : V2 K := ⟨o.fov.width, o.fov.height⟩
    let valid := o.grid.positions.map (fun p =>
      normLt (scale * (p - si)) s.rangeMax && normGt (scale * (p - si)) s.rangeMin)
    let validGoals := maskSelect valid o.grid.positions
    if validGoals.length = 0 then .error .runtimeError
    else
      let (idx, g') := rng.choice validGoals.length g
      match validGoals[idx]? with
      | none => .error .indexError
      | some p => .ok ({ s with goal := o.fov.toMaterial p, consecutive := 0 }, g')

/-- goals.py:123-128 `current_goal`. -/
def GoalState.currentGoal (s : GoalState K) : V2 K := s.goal

/-- goals.py:130-185 `calculate_reward_and_terminal`. -/
noncomputable def GoalState.calculate [Field K] [LinearOrder K] (o : Observation K Img) :
    EStateM Err (GoalState K) GoalReturn := fun s =>
  match getSingleSiliconPosition o.grid with
  | .error e => .error e s
  | .ok si =>
    let si' := o.fov.toMaterial si
    let goalRadius : K := BOND * (1 / 2)
    let n := if normLt (si' - s.goal) goalRadius then s.consecutive + 1 else 0
    let isTerminal := decide (n ≥ s.required)
    let reward := if isTerminal then gammaPow o.elapsedTime else 0
    .ok ⟨reward, isTerminal, false⟩ { s with consecutive := n }

/-- A history of calls to `calculate_reward_and_terminal`: the results in order and the final
state. -/
noncomputable def GoalState.run [Field K] [LinearOrder K] :
    List (Observation K Img) → GoalState K → List (Except Err GoalReturn) × GoalState K
  | [], s => ([], s)
  | o :: os, s =>
    match GoalState.calculate o s with
    | .ok r s' => let (rs, s2) := GoalState.run os s'; (.ok r :: rs, s2)
    | .error e s' => let (rs, s2) := GoalState.run os s'; (.error e :: rs, s2)

end PD
