/- Model of `PuttingDuneSimulator` (simulator.py) and `EventObserver` (simulator_observers.py). -/
import Verif.Model.Material

namespace PD

/-- microscope_utils.py:539-556 `MicroscopeObservation`. -/
structure Observation (K Img : Type) where
  grid : Grid K
  fov : Fov K
  controls : List (BeamControl K)
  elapsedTime : Timedelta
  image : Option Img
  labelImage : Option Img

/-- The collaborators of a simulator that never change: simulator.py:30-63.
`fuel` bounds the rounds of the material's transition loop.  `generate` is
`generate_pristine_graphene`, `sampleParams` is `imaging.sample_image_parameters` and `render` is
`imaging.generate_stem_image`; the last two are arbitrary functions here. -/
structure SimCfg (K G O P Img : Type) where
  rng : Rng K G
  handle : Event K Img → O → O
  rate : RateFunction K
  generate : G → List (V2 K) × G
  fuel : ℕ
  imageDuration : Timedelta
  sampleParams : G → P × G
  render : Grid K → Fov K → P → G → Img × G

/-- simulator.py:54-63, the mutable attributes of a simulator.  `_fov_scale`, `_fov` and
`_image_parameters` are only declared in `__init__`, so they start as `none`.  The generator handed
to each call is threaded through `ctx.g`. -/
structure Sim (K G O P : Type) where
  ctx : MatCtx K G O
  hasBeenReset : Bool
  fovScale : Option K
  fov : Option (Fov K)
  imageParams : Option P

variable {K G O P Img : Type}

/-- A newly constructed simulator around a newly constructed material. -/
def Sim.fresh (g : G) (observers : List O) : Sim K G O P :=
  ⟨⟨g, Material.fresh, observers⟩, false, none, none, none⟩

/-- simulator.py:184-185 `add_observer`. -/
def Sim.addObserver (o : O) (s : Sim K G O P) : Sim K G O P :=
  { s with ctx := { s.ctx with obs := s.ctx.obs ++ [o] } }

/-- simulator.py:187-190 `remove_observer`: `list.remove` deletes the first occurrence of the object
and raises `ValueError` if there is none.  Observers are identified by their index. -/
def Sim.removeObserver (i : ℕ) : EStateM Err (Sim K G O P) Unit := fun s =>
  if i < s.ctx.obs.length then
    .ok () { s with ctx := { s.ctx with obs := s.ctx.obs.eraseIdx i } }
  else .error .valueError s

section
variable [Field K] [LinearOrder K]

/-- The field of view of the given side centred on a point (simulator.py:79-82 and 162-165). -/
def centredFov (si : V2 K) (scale : K) : Fov K :=
  ⟨si - V2.const (scale / 2), si + V2.const (scale / 2)⟩

/-- simulator.py:192-210 `_get_observed_grid_and_elapsed_time`. -/
def Sim.observe (cfg : SimCfg K G O P Img) (fov : Fov K) : EStateM Err (Sim K G O P) (Grid K) :=
  fun s =>
    match s.ctx.mat.getAtomsInBounds fov.lowerLeft fov.upperRight with
    | .error e => .error e s
    | .ok grid => .ok grid { s with ctx := { s.ctx with
        obs := notify cfg.handle (.takeImage cfg.imageDuration fov) s.ctx.obs } }

/-- simulator.py:212-222 `_generate_image` under `if return_image:` (95-97, 172-174). -/
def Sim.maybeImage (cfg : SimCfg K G O P Img) (returnImage : Bool) (grid : Grid K) (fov : Fov K) :
    EStateM Err (Sim K G O P) (Option Img) := fun s =>
  if returnImage then
    match s.imageParams with
    | none => .error .attributeError s
    | some p =>
      let (img, g) := cfg.render grid fov p s.ctx.g
      .ok (some img) { s with ctx := { s.ctx with
        g := g, obs := notify cfg.handle (.generatedImage img) s.ctx.obs } }
  else .ok none s

/-- simulator.py:230-250 `_silicon_outside_of_safe_area`. -/
def siliconOutsideOfSafeArea (grid : Grid K) : Except Err Bool :=
  match getSiliconPositions grid with
  | [] => .ok true
  | [p] => .ok (decide (p.x < 1 / 4) || decide (p.x > 3 / 4) ||
      (decide (p.y < 1 / 4) || decide (p.y > 3 / 4)))
  | _ => .error .assertionError

variable [FloorRing K]

/-- simulator.py:65-105 `reset`. -/
def Sim.reset (cfg : SimCfg K G O P Img) (returnImage : Bool) :
    EStateM Err (Sim K G O P) (Observation K Img) := fun s0 =>
  let s1 := { s0 with hasBeenReset := true }
  match Material.reset cfg.generate s1.ctx with
  | .error e c => .error e { s1 with ctx := c }
  | .ok () c =>
    let (scale, g) := cfg.rng.uniform 15 30 c.g
    let s2 := { s1 with ctx := { c with g := g }, fovScale := some scale }
    match s2.ctx.mat.getSiliconPosition with
    | .error e => .error e s2
    | .ok si =>
      let fov := centredFov si scale
      let s3 := { s2 with fov := some fov }
      match s3.ctx.mat.grid with
      | none => .error .attributeError s3
      | some sheet =>
        let tell := fun o => cfg.handle (.fovChange fov) (cfg.handle (.reset sheet fov) o)
        let s4 := { s3 with ctx := { s3.ctx with obs := s3.ctx.obs.map tell } }
        match Sim.observe cfg fov s4 with
        | .error e s5 => .error e s5
        | .ok grid s5 =>
          let (params, g') := cfg.sampleParams s5.ctx.g
          let s6 := { s5 with ctx := { s5.ctx with g := g' }, imageParams := some params }
          match Sim.maybeImage cfg returnImage grid fov s6 with
          | .error e s7 => .error e s7
          | .ok img s7 => .ok ⟨grid, fov, [], cfg.imageDuration, img, none⟩ s7

/-- The loop over the controls, simulator.py:134-149.  A new `BeamControl` is built from the mapped
position and the dwell time only, so voltage and current become the defaults. -/
def applyControls (cfg : SimCfg K G O P Img) (fov : Fov K) :
    List (BeamControl K) → Timedelta → EStateM Err (MatCtx K G O) Timedelta
  | [], elapsed => fun s => .ok elapsed s
  | c :: cs, elapsed => fun s =>
    let c' := BeamControl.mk' (fov.toMaterial c.position) c.dwellTime
    let s1 := { s with obs := notify cfg.handle (.applyControl c') s.obs }
    match Material.applyControl cfg.rng cfg.handle cfg.rate cfg.fuel c' s1 with
    | .error e s2 => .error e s2
    | .ok () s2 => applyControls cfg fov cs (elapsed + c'.dwellTime) s2

/-- simulator.py:155-169: move the field of view if the silicon left the safe area, and image
again. -/
def Sim.recentre (cfg : SimCfg K G O P Img) (fov : Fov K) (grid : Grid K) (elapsed : Timedelta) :
    EStateM Err (Sim K G O P) (Grid K × Fov K × Timedelta) := fun s =>
  match siliconOutsideOfSafeArea grid with
  | .error e => .error e s
  | .ok false => .ok (grid, fov, elapsed) s
  | .ok true =>
    match s.ctx.mat.getSiliconPosition with
    | .error e => .error e s
    | .ok si =>
      match s.fovScale with
      | none => .error .attributeError s
      | some scale =>
        let fov' := centredFov si scale
        let s1 := { s with fov := some fov', ctx := { s.ctx with
          obs := notify cfg.handle (.fovChange fov') s.ctx.obs } }
        match Sim.observe cfg fov' s1 with
        | .error e s2 => .error e s2
        | .ok grid' s2 => .ok (grid', fov', elapsed + cfg.imageDuration) s2

/-- simulator.py:107-182 `step_and_image`.  Reading `self._fov` before it was set raises
`AttributeError` (at the first control or at the image, whichever comes first; nothing has
happened before either). -/
def Sim.step (cfg : SimCfg K G O P Img) (controls : List (BeamControl K)) (returnImage : Bool) :
    EStateM Err (Sim K G O P) (Observation K Img) := fun s =>
  if s.hasBeenReset then
    match s.fov with
    | none => .error .attributeError s
    | some fov =>
      match applyControls cfg fov controls 0 s.ctx with
      | .error e c => .error e { s with ctx := c }
      | .ok elapsed c =>
        match Sim.observe cfg fov { s with ctx := c } with
        | .error e s1 => .error e s1
        | .ok grid s1 =>
          match Sim.recentre cfg fov grid (elapsed + cfg.imageDuration) s1 with
          | .error e s2 => .error e s2
          | .ok (grid', fov', elapsed') s2 =>
            match Sim.maybeImage cfg returnImage grid' fov' s2 with
            | .error e s3 => .error e s3
            | .ok img s3 => .ok ⟨grid', fov', controls, elapsed', img, none⟩ s3
  else .error .runtimeError s

/-- The calls a client can make on a simulator. -/
inductive SimOp (K O : Type) where
  | reset (returnImage : Bool)
  | step (controls : List (BeamControl K)) (returnImage : Bool)
  | addObserver (o : O)
  | removeObserver (i : ℕ)

/-- Perform a call, yielding the observation or error it produced (if it is of a kind that returns
observations) and the simulator as the call left it. -/
def Sim.exec (cfg : SimCfg K G O P Img) (s : Sim K G O P) :
    SimOp K O → Option (Except Err (Observation K Img)) × Sim K G O P
  | .reset b => match Sim.reset cfg b s with
    | .ok o s' => (some (.ok o), s')
    | .error e s' => (some (.error e), s')
  | .step cs b => match Sim.step cfg cs b s with
    | .ok o s' => (some (.ok o), s')
    | .error e s' => (some (.error e), s')
  | .addObserver o => (none, s.addObserver o)
  | .removeObserver i => match Sim.removeObserver i s with
    | .ok _ s' => (none, s')
    | .error _ s' => (none, s')

/-- Perform a history of calls; the results in order and the final simulator. -/
def Sim.run (cfg : SimCfg K G O P Img) :
    Sim K G O P → List (SimOp K O) → List (Option (Except Err (Observation K Img))) × Sim K G O P
  | s, [] => ([], s)
  | s, op :: ops =>
    let (r, s1) := Sim.exec cfg s op
    let (rs, s2) := Sim.run cfg s1 ops
    (r :: rs, s2)

end

/-- simulator_observers.py:26-37 `SimulatorEvent`. -/
inductive LogEvent (K Img : Type) where
  | reset (grid : Grid K) (fov : Fov K)
  | transition (timeSinceControl : Timedelta) (grid : Grid K)
  | applyControl (dwellTime : Timedelta) (position : V2 K)
  | takeImage (duration : Timedelta) (fov : Fov K)
  | generatedImage (img : Img)

/-- simulator_observers.py:40-105 `EventObserver`: `observe_reset` replaces the list, the others
append; `observe_fov_change` is not overridden and does nothing
(microscope_utils.py:503-535). -/
def eventObserver : Event K Img → List (LogEvent K Img) → List (LogEvent K Img)
  | .reset g f, _ => [.reset g f]
  | .fovChange _, l => l
  | .applyControl c, l => l ++ [.applyControl c.dwellTime c.position]
  | .transition t g, l => l ++ [.transition t g]
  | .takeImage d f, l => l ++ [.takeImage d f]
  | .generatedImage i, l => l ++ [.generatedImage i]

end PD
