/- The goal, the action adapters and the environment, computed with floating point numbers. -/
import Verif.Model.FloatGoals
import Verif.Model.FloatSim
import Verif.Model.Environment

namespace PD
variable {G O P Img F : Type}

/-- goals.py:56-67 `__init__`. -/
noncomputable def GoalState.floatFresh : GoalState ℝ := ⟨1, f64 (1 / 10), f64 50, ⟨0, 0⟩, 0⟩

/-- goals.py:69-121 `reset`. -/
noncomputable def GoalState.floatReset (rng : Rng ℝ G) (o : Observation ℝ Img) (s : GoalState ℝ) (g : G) :
    Except Err (GoalState ℝ × G) :=
  match getSingleSiliconPosition o.grid with
  | .error e => .error e
  | .ok si =>
    let valid := o.grid.positions.map (fun p =>
      decide (floatGoalRange o.fov si p < s.rangeMax) && decide (s.rangeMin < floatGoalRange o.fov si p))
    let validGoals := maskSelect valid o.grid.positions
    if validGoals.length = 0 then .error .runtimeError
    else
      let (idx, g') := rng.choice validGoals.length g
      match validGoals[idx]? with
      | none => .error .indexError
      | some p => .ok ({ s with goal := o.fov.floatToMaterial p, consecutive := 0 }, g')

/-- goals.py:130-185 `calculate_reward_and_terminal`.  The power of γ is not rounded. -/
noncomputable def GoalState.floatCalculate (k : DotKind) (o : Observation ℝ Img) :
    EStateM Err (GoalState ℝ) GoalReturn := fun s =>
  match getSingleSiliconPosition o.grid with
  | .error e => .error e s
  | .ok si =>
    let n := if floatAtGoal k o.fov si s.goal then s.consecutive + 1 else 0
    let isTerminal := decide (n ≥ s.required)
    let reward := if isTerminal then gammaPow o.elapsedTime else 0
    .ok ⟨reward, isTerminal, false⟩ { s with consecutive := n }

/-- action_adapters.py:171-182, one coordinate: the silicon is seen at `si`, and the field of view goes from `lo` to
`hi`.  The product of float32 and float64 arrays is of type float64. -/
noncomputable def floatRelative (lo hi maxDistance si a : ℝ) : ℝ :=
  let cellRadius := f64 (maxDistance / f64 (hi - lo))
  clip (f64 (si + f64 (clip a (-1) 1 * cellRadius))) 0 1

/-- action_adapters.py:243-254, one coordinate. -/
noncomputable def floatMaterialRelative (lo hi si a : ℝ) : ℝ :=
  clip (floatNormalise lo hi (f64 (floatScale lo hi si + a))) 0 1

/-- `get_action`: action_adapters.py:60-78, 101-121, 154-199, 227-274, for an action that is an array of the given
type.  The state is the delta adapter's beam position, an array of type float64. -/
noncomputable def Adapter.floatGetAction (v : NumpyVersion) (p : Precision) (a : Adapter ℝ) (o : Observation ℝ Img)
    (action : List ℝ) : EStateM Err (V2 ℝ) (List (BeamControl ℝ)) :=
  fun beam =>
  match a with
  | .direct =>
    match action2 action with
    | .error e => .error e beam
    | .ok q => .ok [BeamControl.mk' (clip2 q 0 1) fixedDwell] beam
  | .delta =>
    match action2 action with
    | .error e => .error e beam
    | .ok q =>
      let beam' := clip2 ⟨f64 (beam.x + q.x), f64 (beam.y + q.y)⟩ 0 1
      .ok [BeamControl.mk' beam' fixedDwell] beam'
  | .relative minDwell maxDwell maxDistance =>
    match oneSilicon o.grid with
    | .error e => .error e beam
    | .ok si =>
      let ll := o.fov.lowerLeft
      let ur := o.fov.upperRight
      if f64 (ur.x - ll.x) = 0 ∨ f64 (ur.y - ll.y) = 0 then .error .zeroDivision beam
      else
        match actionPrefix2 action with
        | .error e => .error e beam
        | .ok q =>
          let control : V2 ℝ :=
            ⟨floatRelative ll.x ur.x maxDistance si.x q.x, floatRelative ll.y ur.y maxDistance si.y q.y⟩
          match floatDwell v p minDwell maxDwell action with
          | .error e => .error e beam
          | .ok d => .ok [BeamControl.mk' control d] beam
  | .materialFrame minDwell maxDwell _ =>
    match oneSilicon o.grid with
    | .error e => .error e beam
    | .ok si =>
      match actionPrefix2 action with
      | .error e => .error e beam
      | .ok q =>
        let ll := o.fov.lowerLeft
        let ur := o.fov.upperRight
        let control : V2 ℝ := ⟨floatMaterialRelative ll.x ur.x si.x q.x, floatMaterialRelative ll.y ur.y si.y q.y⟩
        match floatDwell v p minDwell maxDwell action with
        | .error e => .error e beam
        | .ok d => .ok [BeamControl.mk' control d] beam

/-- The collaborators of an environment (putting_dune_environment.py:39-60), and what the types and the roundings of its
numbers depend on: those of the simulator, the type of the actions, and the way numpy computes scalar products.  The
features are any function. -/
structure FloatEnvCfg (G O P Img F : Type) where
  sim : FloatSimCfg G O P Img
  adapter : Adapter ℝ
  features : Observation ℝ Img → AnyGoal ℝ → Except Err F
  requiresImage : Bool
  seedRng : ℤ → G
  actions : Precision
  dots : DotKind

/-- The parts in which there is nothing to round. -/
def FloatEnvCfg.plain (cfg : FloatEnvCfg G O P Img F) : EnvCfg ℝ G O P Img F :=
  ⟨cfg.sim.toSimCfg, cfg.adapter, cfg.features, cfg.requiresImage, cfg.seedRng⟩

/-- putting_dune_environment.py:87-111 `reset`. -/
noncomputable def Env.floatReset (cfg : FloatEnvCfg G O P Img F) :
    EStateM Err (Env ℝ G O P Img) (TimeStep F) := fun s0 =>
  let s1 := { s0 with requiresReset := false }
  match Sim.floatReset cfg.sim cfg.requiresImage s1.sim with
  | .error e sim => .error e { s1 with sim := sim }
  | .ok o sim =>
    let s2 := Env.resetAdapter cfg.plain { s1 with sim := sim, last := o }
    match GoalState.floatReset cfg.sim.rng s2.last s2.goal s2.sim.ctx.g with
    | .error e => .error e s2
    | .ok (goal, g) =>
      let s3 := { s2 with goal := goal, sim := { s2.sim with ctx := { s2.sim.ctx with g := g } } }
      let discount := gammaPow s3.last.elapsedTime
      match cfg.features s3.last (.singleSilicon s3.goal) with
      | .error e => .error e s3
      | .ok f => .ok ⟨.first, 0, discount, f⟩ s3

/-- putting_dune_environment.py:113-158 `step`. -/
noncomputable def Env.floatStep (cfg : FloatEnvCfg G O P Img F) (action : List ℝ) :
    EStateM Err (Env ℝ G O P Img) (TimeStep F) := fun s =>
  if s.requiresReset then Env.floatReset cfg s
  else
    match cfg.adapter.floatGetAction cfg.sim.numpy cfg.actions s.last action s.beam with
    | .error e beam => .error e { s with beam := beam }
    | .ok controls beam =>
      let s1 := { s with beam := beam }
      match Sim.floatStep cfg.sim controls cfg.requiresImage s1.sim with
      | .error e sim => .error e { s1 with sim := sim }
      | .ok o sim =>
        let s2 := { s1 with sim := sim, last := o }
        match cfg.features s2.last (.singleSilicon s2.goal) with
        | .error e => .error e s2
        | .ok f =>
          match GoalState.floatCalculate cfg.dots s2.last s2.goal with
          | .error e goal => .error e { s2 with goal := goal }
          | .ok r goal =>
            let s3 := { s2 with goal := goal }
            let discount := gammaPow s3.last.elapsedTime
            if r.isTerminal then
              .ok (TimeStep.termination r.reward f) { s3 with requiresReset := true }
            else if r.isTruncated then
              .ok (TimeStep.truncation r.reward f discount) { s3 with requiresReset := true }
            else .ok (TimeStep.transition r.reward f discount) s3

/-- The state an environment is left in by an operation, whether it returned or raised. -/
noncomputable def Env.floatExec (cfg : FloatEnvCfg G O P Img F) (s : Env ℝ G O P Img) :
    EnvOp ℝ O → Env ℝ G O P Img
  | .reset => match Env.floatReset cfg s with | .ok _ s' => s' | .error _ s' => s'
  | .step a => match Env.floatStep cfg a s with | .ok _ s' => s' | .error _ s' => s'
  | .seed z => Env.seed cfg.plain z s
  | .addObserver o => { s with sim := s.sim.addObserver o }
  | .removeObserver i => match Sim.removeObserver i s.sim with
    | .ok _ sim => { s with sim := sim }
    | .error _ sim => { s with sim := sim }

/-- The state after a history of operations. -/
noncomputable def Env.floatAfter (cfg : FloatEnvCfg G O P Img F) (s : Env ℝ G O P Img)
    (ops : List (EnvOp ℝ O)) : Env ℝ G O P Img := ops.foldl (Env.floatExec cfg) s

end PD
