/- Model of eval_lib.py. -/
import Verif.Model.Environment

namespace PD

/-- An agent as `evaluate` uses it (agents/agent_lib.py:35-52): `step` returns the action together
with the wall clock time the call took (eval_lib.py:130-132 and 138, already as a `timedelta`), or
raises. -/
structure Agent (α A F : Type) where
  setEvalMode : α → α
  step : TimeStep F → EStateM Err α (A × Timedelta)

/-- What `evaluate` uses of an environment.  `elapsed` is
`env.last_microscope_observation.elapsed_time`; `addObserver` and `removeObserver` attach and detach
the `EventObserver` it made; `saveVideo` is eval_lib.py:165-179. -/
structure EvalEnv (σ A F : Type) where
  like : EnvLike σ A F
  seed : ℤ → σ → σ
  elapsed : σ → Timedelta
  addObserver : σ → σ
  removeObserver : EStateM Err σ Unit
  saveVideo : ℤ → σ → Except Err Unit

/-- eval_lib.py:47-58 `EvalResult`; `none` is NaN. -/
structure EvalResult (K : Type) where
  seed : ℤ
  reachedGoal : Bool
  numActions : ℕ
  agentSeconds : Option K
  envSeconds : Option K
  totalReward : K

variable {σ α A F : Type}

/-- The variables of the loop eval_lib.py:128-145. -/
structure LoopVars (F : Type) where
  timeStep : TimeStep F
  numActions : ℕ
  totalReward : ℝ
  agentTime : Timedelta
  envTime : Timedelta

/-- eval_lib.py:128-145, the `while` loop; `fuel` bounds the number of rounds. -/
noncomputable def evalLoop (E : EvalEnv σ A F) (ag : Agent α A F) (timeout : Timedelta) :
    ℕ → LoopVars F → EStateM Err (σ × α) (LoopVars F)
  | 0, v => fun s => if v.agentTime + v.envTime < timeout then .error .diverges s else .ok v s
  | fuel + 1, v => fun (s, a) =>
    if v.agentTime + v.envTime < timeout then
      match ag.step v.timeStep a with
      | .error e a' => .error e (s, a')
      | .ok (action, spent) a' =>
        match E.like.step action s with
        | .error e s' => .error e (s', a')
        | .ok t s' =>
          let v' : LoopVars F :=
            ⟨t, v.numActions + 1, v.totalReward + t.reward, v.agentTime + spent,
              v.envTime + E.elapsed s'⟩
          if t.stepType = .last then .ok v' (s', a')
          else evalLoop E ag timeout fuel v' (s', a')
    else .ok v (s, a)

open Classical in
/-- eval_lib.py:111-163, the body of the loop over the seeds. -/
noncomputable def evalSeed (E : EvalEnv σ A F) (ag : Agent α A F) (timeout : Timedelta) (fuel : ℕ)
    (seed : ℤ) : EStateM Err (σ × α) (EvalResult ℝ) := fun (s, a) =>
  match E.like.reset (E.seed seed s) with
  | .error e s1 => .error e (s1, a)
  | .ok t s1 =>
    match evalLoop E ag timeout fuel ⟨t, 0, 0, 0, 0 + E.elapsed s1⟩ (s1, a) with
    | .error e p => .error e p
    | .ok v p =>
      let reached := decide (v.timeStep.stepType = .last) && decide (v.timeStep.discount = 0)
      let secs := fun (t : Timedelta) => if reached then some (totalSeconds t : ℝ) else none
      .ok ⟨seed, reached, v.numActions, secs v.agentTime, secs v.envTime, v.totalReward⟩ p

/-- eval_lib.py:111-179, the loop over the seeds. -/
noncomputable def evalSeeds (E : EvalEnv σ A F) (ag : Agent α A F) (timeout : Timedelta) (fuel : ℕ)
    (video : Bool) : List ℤ → EStateM Err (σ × α) (List (EvalResult ℝ))
  | [] => fun p => .ok [] p
  | seed :: seeds => fun p =>
    match evalSeed E ag timeout fuel seed p with
    | .error e p' => .error e p'
    | .ok r p' =>
      match (if video then E.saveVideo seed p'.1 else .ok ()) with
      | .error e => .error e p'
      | .ok () =>
        match evalSeeds E ag timeout fuel video seeds p' with
        | .error e p'' => .error e p''
        | .ok rs p'' => .ok (r :: rs) p''

/-- eval_lib.py:77-184 `evaluate`. -/
noncomputable def evaluate (E : EvalEnv σ A F) (ag : Agent α A F) (timeout : Timedelta) (fuel : ℕ)
    (video : Bool) (seeds : List ℤ) : EStateM Err (σ × α) (List (EvalResult ℝ)) := fun (s, a) =>
  let s1 := if video then E.addObserver s else s
  match evalSeeds E ag timeout fuel video seeds (s1, ag.setEvalMode a) with
  | .error e p => .error e p
  | .ok rs p =>
    if video then
      match E.removeObserver p.1 with
      | .error e s2 => .error e (s2, p.2)
      | .ok () s2 => .ok rs (s2, p.2)
    else .ok rs p

section env
variable {K G O P Img : Type} [Field K] [LinearOrder K] [FloorRing K]

/-- `evaluate` on a `PuttingDuneEnvironment` with `n` observers attached before: the one it adds is
the `n`-th. -/
noncomputable def evalEnv (cfg : EnvCfg K G O P Img F) (o : O) (n : ℕ)
    (video : ℤ → Env K G O P Img → Except Err Unit) :
    EvalEnv (Env K G O P Img) (List K) F where
  like := Env.like cfg
  seed := Env.seed cfg
  elapsed s := s.last.elapsedTime
  addObserver s := { s with sim := s.sim.addObserver o }
  removeObserver := fun s => match Sim.removeObserver n s.sim with
    | .ok () sim => .ok () { s with sim := sim }
    | .error e sim => .error e { s with sim := sim }
  saveVideo := video

/-- `evaluate` on an environment in a `StepLimitWrapper` (run_helpers.py:49-56, 64-81: everything
except `step` and `reset` is forwarded to the wrapped environment). -/
noncomputable def wrappedEvalEnv (E : EvalEnv σ A F) (limit : Option ℤ) : EvalEnv (σ × ℤ) A F where
  like := stepLimit E.like limit
  seed z p := (E.seed z p.1, p.2)
  elapsed p := E.elapsed p.1
  addObserver p := (E.addObserver p.1, p.2)
  removeObserver := fun p => match E.removeObserver p.1 with
    | .ok () s => .ok () (s, p.2)
    | .error e s => .error e (s, p.2)
  saveVideo z p := E.saveVideo z p.1

end env

/-- eval_lib.py:61-74 `AggregateEvalResults`. -/
structure AggregateResults (K : Type) where
  timesReachedGoal : K
  numActions : K
  agentSeconds : Option K
  envSeconds : Option K
  totalReward : K
  deriving DecidableEq

/-- Addition and division of floats that may be NaN. -/
def nanAdd {K : Type} [Add K] : Option K → Option K → Option K
  | some x, some y => some (x + y)
  | _, _ => none

/-- The accumulators of eval_lib.py:189-204. -/
structure AggVars (K : Type) where
  reached : ℕ
  numActions : ℕ
  agentSeconds : Option K
  envSeconds : Option K
  totalReward : K

/-- eval_lib.py:195-202, one round of the loop. -/
def aggStep {K : Type} [Add K] (v : AggVars K) (r : EvalResult K) : AggVars K :=
  let reached := v.reached + r.reachedGoal.toNat
  if r.reachedGoal then
    ⟨reached, v.numActions + r.numActions, nanAdd v.agentSeconds r.agentSeconds,
      nanAdd v.envSeconds r.envSeconds, v.totalReward + r.totalReward⟩
  else { v with reached := reached }

/-- eval_lib.py:187-214 `aggregate_results`. -/
def aggregateResults {K : Type} [Field K] (results : List (EvalResult K)) :
    Except Err (AggregateResults K) :=
  let v := results.foldl aggStep ⟨0, 0, some 0, some 0, 0⟩
  let denominator : ℕ := max v.reached 1
  if results.length = 0 then .error .zeroDivision
  else .ok ⟨v.reached / results.length, v.numActions / denominator,
    v.agentSeconds.map (· / denominator), v.envSeconds.map (· / denominator),
    v.totalReward / denominator⟩

end PD
