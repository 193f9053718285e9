/- Model of `PuttingDuneEnvironment` (putting_dune_environment.py) and of the step limit wrapper
(run_helpers.py). -/
import Verif.Model.Adapters
import Verif.Model.Features

namespace PD

/-- `dm_env.StepType`. -/
inductive StepType where
  | first | mid | last
  deriving DecidableEq, Repr

/-- `dm_env.TimeStep`. -/
structure TimeStep (F : Type) where
  stepType : StepType
  reward : ℝ
  discount : ℝ
  observation : F

/-- `dm_env.transition(reward, observation, discount)`. -/
def TimeStep.transition {F : Type} (reward : ℝ) (obs : F) (discount : ℝ) : TimeStep F :=
  ⟨.mid, reward, discount, obs⟩
/-- `dm_env.termination(reward, observation)`: discount 0. -/
def TimeStep.termination {F : Type} (reward : ℝ) (obs : F) : TimeStep F := ⟨.last, reward, 0, obs⟩
/-- `dm_env.truncation(reward, observation, discount)`. -/
def TimeStep.truncation {F : Type} (reward : ℝ) (obs : F) (discount : ℝ) : TimeStep F :=
  ⟨.last, reward, discount, obs⟩

/-- The collaborators of an environment that never change (putting_dune_environment.py:39-60).
`seedRng` is `np.random.default_rng(seed)`; `features` is `get_features`. -/
structure EnvCfg (K G O P Img F : Type) where
  sim : SimCfg K G O P Img
  adapter : Adapter K
  features : Observation K Img → AnyGoal K → Except Err F
  requiresImage : Bool
  seedRng : ℤ → G

/-- The mutable state of an environment.  The environment's generator `_rng` is the one handed to
the simulator, `sim.ctx.g`.  `adapterRng` is the delta adapter's own generator; `none` means that
it is the environment's (the same object, putting_dune_environment.py:84-85). -/
structure Env (K G O P Img : Type) where
  sim : Sim K G O P
  adapterRng : Option G
  beam : V2 K
  goal : GoalState K
  last : Observation K Img
  requiresReset : Bool

variable {K G O P Img F : Type} [Field K] [LinearOrder K] [FloorRing K]

/-- The placeholder observation of `__init__` (putting_dune_environment.py:62-71). -/
def placeholderObservation : Observation K Img :=
  ⟨⟨[0], [14]⟩, ⟨⟨0, 0⟩, ⟨1, 1⟩⟩, [], 0, none, none⟩

/-- putting_dune_environment.py:39-77 `__init__`: generator `g`, an adapter with generator `ga` and
beam position `beam`, a goal. -/
def Env.fresh (g : G) (ga : Option G) (beam : V2 K) (goal : GoalState K) : Env K G O P Img :=
  ⟨Sim.fresh g [], ga, beam, goal, placeholderObservation, true⟩

/-- putting_dune_environment.py:79-85 `seed`.  The delta adapter is the only one with a generator;
for the others `adapterRng` is never used. -/
def Env.seed (cfg : EnvCfg K G O P Img F) (seed : ℤ) (s : Env K G O P Img) : Env K G O P Img :=
  { s with sim := { s.sim with ctx := { s.sim.ctx with g := cfg.seedRng seed } }, adapterRng := none }

/-- `self._action_adapter.reset()` with whichever generator the adapter holds. -/
def Env.resetAdapter (cfg : EnvCfg K G O P Img F) (s : Env K G O P Img) : Env K G O P Img :=
  match s.adapterRng with
  | some ga =>
    let (beam, ga') := cfg.adapter.reset cfg.sim.rng s.beam ga
    { s with beam := beam, adapterRng := some ga' }
  | none =>
    let (beam, g') := cfg.adapter.reset cfg.sim.rng s.beam s.sim.ctx.g
    { s with beam := beam, sim := { s.sim with ctx := { s.sim.ctx with g := g' } } }

/-- putting_dune_environment.py:87-111 `reset`. -/
noncomputable def Env.reset (cfg : EnvCfg K G O P Img F) :
    EStateM Err (Env K G O P Img) (TimeStep F) := fun s0 =>
  let s1 := { s0 with requiresReset := false }
  match Sim.reset cfg.sim cfg.requiresImage s1.sim with
  | .error e sim => .error e { s1 with sim := sim }
  | .ok o sim =>
    let s2 := Env.resetAdapter cfg { s1 with sim := sim, last := o }
    match GoalState.reset cfg.sim.rng s2.last s2.goal s2.sim.ctx.g with
    | .error e => .error e s2
    | .ok (goal, g) =>
      let s3 := { s2 with goal := goal, sim := { s2.sim with ctx := { s2.sim.ctx with g := g } } }
      let discount := gammaPow s3.last.elapsedTime
      match cfg.features s3.last (.singleSilicon s3.goal) with
      | .error e => .error e s3
      | .ok f => .ok ⟨.first, 0, discount, f⟩ s3

/-- putting_dune_environment.py:113-158 `step`. -/
noncomputable def Env.step (cfg : EnvCfg K G O P Img F) (action : List K) :
    EStateM Err (Env K G O P Img) (TimeStep F) := fun s =>
  if s.requiresReset then Env.reset cfg s
  else
    match cfg.adapter.getAction s.last action s.beam with
    | .error e beam => .error e { s with beam := beam }
    | .ok controls beam =>
      let s1 := { s with beam := beam }
      match Sim.step cfg.sim controls cfg.requiresImage s1.sim with
      | .error e sim => .error e { s1 with sim := sim }
      | .ok o sim =>
        let s2 := { s1 with sim := sim, last := o }
        match cfg.features s2.last (.singleSilicon s2.goal) with
        | .error e => .error e s2
        | .ok f =>
          match GoalState.calculate s2.last s2.goal with
          | .error e goal => .error e { s2 with goal := goal }
          | .ok r goal =>
            let s3 := { s2 with goal := goal }
            let discount := gammaPow s3.last.elapsedTime
            if r.isTerminal then
              .ok (TimeStep.termination r.reward f) { s3 with requiresReset := true }
            else if r.isTruncated then
              .ok (TimeStep.truncation r.reward f discount) { s3 with requiresReset := true }
            else .ok (TimeStep.transition r.reward f discount) s3

/-- The calls of the `dm_env` interface. -/
inductive EnvCall (A : Type) where
  | reset
  | step (action : A)

/-- Any object with the `dm_env` interface. -/
structure EnvLike (σ A F : Type) where
  reset : EStateM Err σ (TimeStep F)
  step : A → EStateM Err σ (TimeStep F)

/-- Perform one call. -/
def EnvLike.call {σ A F : Type} (I : EnvLike σ A F) : EnvCall A → EStateM Err σ (TimeStep F)
  | .reset => I.reset
  | .step a => I.step a

/-- Perform a sequence of calls: each call with what it returned or raised, and the final state. -/
def EnvLike.run {σ A F : Type} (I : EnvLike σ A F) :
    σ → List (EnvCall A) → List (EnvCall A × Except Err (TimeStep F)) × σ
  | s, [] => ([], s)
  | s, c :: cs =>
    match I.call c s with
    | .ok t s' => let r := I.run s' cs; ((c, .ok t) :: r.1, r.2)
    | .error e s' => let r := I.run s' cs; ((c, .error e) :: r.1, r.2)

/-- `PuttingDuneEnvironment` as a `dm_env` environment. -/
noncomputable def Env.like (cfg : EnvCfg K G O P Img F) : EnvLike (Env K G O P Img) (List K) F :=
  ⟨Env.reset cfg, Env.step cfg⟩

/-- Everything a client can do to an environment. -/
inductive EnvOp (K O : Type) where
  | reset
  | step (action : List K)
  | seed (seed : ℤ)
  | addObserver (o : O)
  | removeObserver (i : ℕ)

/-- The state an environment is left in by an operation, whether it returned or raised. -/
noncomputable def Env.exec (cfg : EnvCfg K G O P Img F) (s : Env K G O P Img) :
    EnvOp K O → Env K G O P Img
  | .reset => match Env.reset cfg s with | .ok _ s' => s' | .error _ s' => s'
  | .step a => match Env.step cfg a s with | .ok _ s' => s' | .error _ s' => s'
  | .seed z => Env.seed cfg z s
  | .addObserver o => { s with sim := s.sim.addObserver o }
  | .removeObserver i => match Sim.removeObserver i s.sim with
    | .ok _ sim => { s with sim := sim }
    | .error _ sim => { s with sim := sim }

/-- The state after a history of operations. -/
noncomputable def Env.after (cfg : EnvCfg K G O P Img F) (s : Env K G O P Img)
    (ops : List (EnvOp K O)) : Env K G O P Img := ops.foldl (Env.exec cfg) s

/-- run_helpers.py:120-153 `StepLimitWrapper`; the state is the wrapped environment with
`_elapsed_steps`. -/
def stepLimit {σ A F : Type} (I : EnvLike σ A F) (limit : Option ℤ) : EnvLike (σ × ℤ) A F where
  reset := fun (s, _) =>
    match I.reset s with
    | .ok t s' => .ok t (s', 0)
    | .error e s' => .error e (s', 0)
  step := fun a (s, n) =>
    match (if n = -1 then I.reset s else I.step a s) with
    | .error e s' => .error e (s', n)
    | .ok t s' =>
      if t.stepType = .first then .ok t (s', 0)
      else
        let n' := n + 1
        match limit with
        | none => .ok t (s', n')
        | some l =>
          if n' ≥ l then .ok (TimeStep.truncation t.reward t.observation t.discount) (s', -1)
          else .ok t (s', n')

/-- run_helpers.py:27-56 `create_putting_dune_env`: the wrapped environment and its initial state
(default limit 600).  Adding the observers is left to the caller. -/
noncomputable def createEnv (cfg : EnvCfg K G O P Img F) (seed : ℤ) (limit : ℤ) (g : G)
    (ga : Option G) (beam : V2 K) (goal : GoalState K) :
    EnvLike (Env K G O P Img × ℤ) (List K) F × (Env K G O P Img × ℤ) :=
  (stepLimit (Env.like cfg) (some limit), (Env.seed cfg seed (Env.fresh g ga beam goal), 0))

end PD
