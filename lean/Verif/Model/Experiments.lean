/- Model of the experiments that come with the package (experiments/experiments.py, experiments/registry.py:38-468)
and of eval.py. -/
import Verif.Model.Registry
import Verif.Model.Eval
import Verif.Model.GreedyAgent
import Verif.Model.Rates
import Verif.Model.Lattice

namespace PD
variable {K G O P Img : Type}

/-- The three feature constructors (feature_constructors.py:79-281). -/
inductive FeatureKind where
  | pristine | material | pixels
  deriving DecidableEq

/-- The agents of registry.py:41-164.  A trained one is loaded from the file of that name. -/
inductive AgentKind (K : Type) where
  | random
  | greedy (argmax : V2 K)
  | trained (name : String)

/-- The two rate functions of registry.py:238-258. -/
inductive RatesKind where
  | simple | humanPrior
  deriving DecidableEq

/-- experiments.py:29-33 `AdaptersAndGoal`; the goal is always `SingleSiliconGoalReaching()`. -/
structure AdaptersAndGoal (K : Type) where
  adapter : Adapter K
  features : FeatureKind

/-- experiments.py:49-52 `MicroscopeExperiment` -/
structure MicroscopeExperiment (K : Type) where
  agent : AgentKind K
  parts : AdaptersAndGoal K

/-- experiments.py:55-58 `TrainExperiment` -/
structure TrainExperiment (K : Type) where
  parts : AdaptersAndGoal K
  rates : RatesKind

/-- experiments.py:61-65 `EvalExperiment` -/
structure EvalExperiment (K : Type) where
  agent : AgentKind K
  parts : AdaptersAndGoal K
  rates : RatesKind

section
variable [Field K]

/-- registry.py:172-188 `_SingleSiliconGoalReaching` -/
def goalReaching (minDwell maxDwell : Timedelta := 1500000) (maxDistance : K := BOND) : AdaptersAndGoal K :=
  ⟨.relative minDwell maxDwell maxDistance, .pristine⟩

/-- registry.py:191-207 `_SingleSiliconGoalReachingMaterialFrame` -/
def goalReachingMaterial (minDwell maxDwell : Timedelta := 1500000) (maxDistance : K := BOND * 2) :
    AdaptersAndGoal K :=
  ⟨.materialFrame minDwell maxDwell maxDistance, .material⟩

/-- registry.py:210-224 `_SingleSiliconGoalReachingFromPixels` -/
def goalReachingPixels (minDwell maxDwell : Timedelta := 1500000) : AdaptersAndGoal K :=
  ⟨.relative minDwell maxDwell BOND, .pixels⟩

/-- registry.py:227-232 `_get_direct_goal_reaching_from_pixels` -/
def directPixels : AdaptersAndGoal K := ⟨.direct, .pixels⟩

/-- registry.py:262-416 `_MICROSCOPE_EXPERIMENTS` -/
def microscopeExperiments : List (String × MicroscopeExperiment K) :=
  [("relative_random", ⟨.random, goalReaching⟩),
   ("relative_random_long", ⟨.random, goalReaching 1000000 5000000 (2 * BOND)⟩),
   ("relative_random_extra_long", ⟨.random, goalReaching 1000000 5000000 (3 * BOND)⟩),
   ("greedy_on_neighbor", ⟨.greedy ⟨142 / 100, 0⟩, goalReachingMaterial 5000000 5000000 (2 * BOND)⟩),
   ("greedy_short_of_neighbor", ⟨.greedy ⟨58 / 100, 0⟩, goalReachingMaterial 5000000 5000000 (2 * BOND)⟩),
   ("greedy_on_neighbor_offset_horizontally",
     ⟨.greedy ⟨142 / 100, 42 / 100⟩, goalReachingMaterial 5000000 5000000 (2 * BOND)⟩),
   ("greedy_from_learned_rates_v3",
     ⟨.greedy ⟨18686869 / 10000000, 0⟩, goalReachingMaterial 5000000 5000000 (2 * BOND)⟩),
   ("greedy_from_learned_rates_v5",
     ⟨.greedy ⟨21717172 / 10000000, -(15151516 / 100000000)⟩, goalReachingMaterial 5000000 5000000 (2 * BOND)⟩),
   ("ppo_simple_images_tf", ⟨.trained "ppo_simple_images_tf", goalReachingPixels⟩),
   ("ppo_learned_tf_2s", ⟨.trained "230127_from_state_2s", goalReaching 1000000 10000000⟩),
   ("ppo_learned_tf_3s", ⟨.trained "230127_from_state_3s", goalReaching 1000000 10000000⟩),
   ("ppo_learned_tf_4s", ⟨.trained "230127_from_state_4s", goalReaching 1000000 10000000⟩),
   ("ppo_v3_2s", ⟨.trained "230422_ppo_v3_2s", goalReaching 1500000 20000000 (BOND * 3)⟩),
   ("ppo_v3_3s", ⟨.trained "230422_ppo_v3_3s", goalReaching 1500000 20000000 (BOND * 3)⟩),
   ("ppo_v3_4s", ⟨.trained "230422_ppo_v3_4s", goalReaching 1500000 20000000 (BOND * 3)⟩)]

/-- registry.py:418-448 `_TRAIN_EXPERIMENTS` -/
def trainExperiments : List (String × TrainExperiment K) :=
  [("relative_simple_rates", ⟨goalReaching, .simple⟩),
   ("relative_prior_rates", ⟨goalReaching, .humanPrior⟩),
   ("relative_simple_rates_from_images", ⟨goalReachingPixels, .simple⟩),
   ("relative_simple_rates_from_images_variable_time", ⟨goalReachingPixels 1000000 10000000, .simple⟩),
   ("direct_simple_rates_from_images", ⟨directPixels, .simple⟩)]

/-- registry.py:450-468 `_EVAL_EXPERIMENTS` -/
def evalExperiments : List (String × EvalExperiment K) :=
  [("relative_random_simple", ⟨.random, goalReaching, .simple⟩),
   ("relative_random_prior_rates", ⟨.random, goalReaching, .humanPrior⟩),
   ("ppo_simple_images_tf", ⟨.trained "ppo_simple_images_tf", goalReachingPixels, .simple⟩)]

/-- The tables as they are when the package is imported. -/
def shipped : Registry (MicroscopeExperiment K) (TrainExperiment K) (EvalExperiment K) :=
  ⟨microscopeExperiments, trainExperiments, evalExperiments⟩

/-- eval_lib.py:39-44 `EVAL_SUITES` -/
def evalSuites : List (String × List ℤ) :=
  [("tiny_eval", (List.range 10).map Int.ofNat), ("small_eval", (List.range 100).map Int.ofNat),
   ("medium_eval", (List.range 1000).map Int.ofNat), ("big_eval", (List.range 10000).map Int.ofNat)]

end

/-- An observation for an agent: a vector, or a picture and the way to the goal. -/
inductive Features (Img : Type) where
  | flat (values : List ℝ)
  | picture (image : Img) (goalDelta : V2 ℝ)

/-- A declared observation: the shape of the array, or of the arrays `'image'` and `'goal_delta_angstroms'`. -/
inductive ObservationSpec where
  | array (shape : List ℕ)
  | arrays (image goalDelta : List ℕ)
  deriving DecidableEq

/-- `observation_spec` (feature_constructors.py:145-149, 219-223, 269-276).  The element type float32 is not
modelled. -/
def FeatureKind.spec : FeatureKind → ObservationSpec
  | .pristine => .array [2 + 6 + 2]
  | .material => .array [2 + 6 + 2]
  | .pixels => .arrays [128, 128, 1] [2]

/-- `requires_image` (feature_constructors.py:151-154, 225-228, 278-280). -/
def FeatureKind.requiresImage : FeatureKind → Bool
  | .pristine => false
  | .material => false
  | .pixels => true

/-- The libraries around an environment: random numbers, nearest neighbours, pictures.  `resize img w h` is
`cv2.resize(img, (w, h))`, and `size` the height and width of a picture. -/
structure World (G O P Img : Type) where
  rng : Rng ℝ G
  knn : Knn ℝ
  resize : Img → ℕ → ℕ → Img
  size : Img → ℕ × ℕ
  render : Grid ℝ → Fov ℝ → P → G → Img × G
  sampleParams : G → P × G
  seedRng : ℤ → G
  handle : Event ℝ Img → O → O
  fuel : ℕ

/-- What is assumed of the libraries. -/
structure World.Lawful (w : World G O P Img) : Prop where
  rng : w.rng.Lawful
  resize : ∀ img width height, w.size (w.resize img width height) = (height, width)

/-- The shape of what `get_features` returned; `reshape(128, 128, 1)` (feature_constructors.py:253-257) adds the
last dimension to the picture. -/
def Features.shape (w : World G O P Img) : Features Img → ObservationSpec
  | .flat values => .array [values.length]
  | .picture image _ => .arrays [(w.size image).1, (w.size image).2, 1] [2]

/-- `get_features` of each of the feature constructors. -/
noncomputable def FeatureKind.get (w : World G O P Img) (k : FeatureKind) (o : Observation ℝ Img)
    (goal : AnyGoal ℝ) : Except Err (Features Img) :=
  match k with
  | .pristine => (pristineFeatures w.knn o goal).map .flat
  | .material => (materialFeatures w.knn o goal).map .flat
  | .pixels => (imageFeatures (fun img => w.resize img 128 128) o goal).map (fun x => .picture x.1 x.2)

/-- registry.py:238-258: the rate function. -/
noncomputable def RatesKind.rate (w : World G O P Img) : RatesKind → RateFunction ℝ
  | .simple => pristineRates w.knn simpleCanonicalRates
  | .humanPrior => pristineRates w.knn HumanPrior.default.predict

/-- run_helpers.py:37-48 with registry.py:238-258 and graphene.py:575: an environment for the parts of an
experiment, with two seconds for an image and a sheet of fifty columns. -/
noncomputable def envCfg (w : World G O P Img) (parts : AdaptersAndGoal ℝ) (rates : RatesKind) :
    EnvCfg ℝ G O P Img (Features Img) where
  sim := {
    rng := w.rng
    handle := w.handle
    rate := rates.rate w
    generate := generatePristineGraphene w.rng 50
    fuel := w.fuel
    imageDuration := 2000000
    sampleParams := w.sampleParams
    render := w.render }
  adapter := parts.adapter
  features := parts.features.get w
  requiresImage := parts.features.requiresImage
  seedRng := w.seedRng

/-- agent_lib.py:74-75 with registry.py:41-49: `rng.uniform(minimum, maximum, shape)`, one draw for each entry of
the declared actions. -/
def drawAction (rng : Rng K G) : List (K × K) → G → List K × G
  | [], g => ([], g)
  | (lo, hi) :: spec, g =>
    let (x, g1) := rng.uniform lo hi g
    let (xs, g2) := drawAction rng spec g1
    (x :: xs, g2)

/-- `UniformRandomAgent` (agent_lib.py:54-78) as `evaluate` uses it; `clock n` is the time the `n`-th call took. -/
noncomputable def randomAgent (rng : Rng ℝ G) (spec : List (ℝ × ℝ)) (clock : ℕ → Timedelta) :
    Agent (G × ℕ) (List ℝ) (Features Img) where
  setEvalMode := id
  step := fun _ (g, n) =>
    let (action, g') := drawAction rng spec g
    .ok (action, clock n) (g', n + 1)

/-- `GreedyAgent.step` (agent_lib.py:163-183) of the agents of registry.py:52-68: without noise or offset.  A
dictionary has no `shape`. -/
noncomputable def greedyAction (normal : ℝ → G → V2 ℝ × G) (argmax : V2 ℝ) (f : Features Img) :
    EStateM Err G (List ℝ) := fun g =>
  match f with
  | .picture _ _ => .error .attributeError g
  | .flat obs =>
    match Greedy.step normal ⟨argmax, 0, 0⟩ obs g with
    | .error e g' => .error e g'
    | .ok a g' => .ok [a.x, a.y] g'

/-- eval.py:40-65 `main` for experiments with a random agent and without videos: the results of the evaluation and
their aggregates.  The agent's generator is `np.random.default_rng(0)`, the environment is made with any generator
`g0` and then seeded with 0.  Trained agents are not modelled. -/
noncomputable def evalMain (w : World G O P Img) (clock : ℕ → Timedelta) (rounds : ℕ) (o : O) (g0 : G)
    (name suite : String) : Except Err (List (EvalResult ℝ) × AggregateResults ℝ) :=
  match (shipped (K := ℝ)).createEval name with
  | .error e => .error e
  | .ok e =>
    match e.agent with
    | .random =>
      match evalSuites.lookup suite with
      | none => .error .notFound
      | some seeds =>
        let cfg := envCfg w e.parts e.rates
        let E := wrappedEvalEnv (evalEnv cfg o 0 (fun _ _ => .ok ())) (some 600)
        let env := (createEnv cfg 0 600 g0 none 0 GoalState.fresh).2
        match evaluate E (randomAgent w.rng e.parts.adapter.actionSpec clock) 600000000 rounds false seeds
            (env, (w.seedRng 0, 0)) with
        | .error e _ => .error e
        | .ok results _ =>
          match aggregateResults results with
          | .error e => .error e
          | .ok a => .ok (results, a)
    | _ => .error .notImplemented

end PD
