/- The simulator, computed with floating point numbers. -/
import Verif.Model.FloatSheet
import Verif.Model.FloatFrames
import Verif.Model.Simulator

namespace PD
variable {G O P Img : Type}

/-- The collaborators of a simulator (simulator.py:30-63), and what the types of its numbers depend on: the version of
numpy and the type of the rates. -/
structure FloatSimCfg (G O P Img : Type) extends SimCfg ℝ G O P Img where
  numpy : NumpyVersion
  rates : Precision

/-- graphene.py:533-559 `generate_pristine_graphene`.  Halving is exact. -/
noncomputable def floatGenerate (T : FloatTrig) (S : Summation) (k : DotKind) (rng : Rng ℝ G) (cols : ℕ) (g : G) :
    List (V2 ℝ) × G :=
  let half := f64 (142 / 100) / 2
  let (dx, g1) := rng.uniform (-half) half g
  let (dy, g2) := rng.uniform (-half) half g1
  let (angle, g3) := rng.uniform 0 (2 * f64 Real.pi) g2
  (floatLayOut T S k cols ⟨dx, dy⟩ angle, g3)

/-- graphene.py:590-598: place the silicon at the atom nearest the origin. -/
noncomputable def floatDopeSheet (positions : List (V2 ℝ)) : Except Err (Grid ℝ) :=
  match floatSiliconIndex positions with
  | none => .error .valueError                  -- np.argmin of an empty array
  | some si => .ok ⟨positions, (List.replicate positions.length CARBON).set si SILICON⟩

/-- graphene.py:584-598 `reset`. -/
noncomputable def Material.floatReset (generate : G → List (V2 ℝ) × G) : EStateM Err (MatCtx ℝ G O) Unit := fun s =>
  let m1 : Material ℝ := { s.mat with hasBeenReset := true }
  let (positions, g) := generate s.g
  match floatDopeSheet positions with
  | .error e => .error e { s with mat := m1, g := g }
  | .ok grid => .ok () { s with mat := { m1 with grid := some grid }, g := g }

/-- The draw of the next transition time, graphene.py:670-674.  `1.0 / total_rate` is of the type of the total rate.
With a total rate of zero it is `inf`, which is clipped to one hour; with no successor states at all the division
raises. A quotient too large for its type is not made infinite here; it is clipped all the same. -/
noncomputable def floatDrawTime (v : NumpyVersion) (p : Precision) (rng : Rng ℝ G) (ss : List (Successor ℝ)) (g : G) :
    Except Err (Timedelta × G) :=
  let total := floatTotalRate v p (ss.map (·.rate))
  if total = 0 then
    if ss.isEmpty then .error .zeroDivision
    else .ok (3600 * 1000000, (rng.exponential 0 g).2)
  else
    let (t, g') := rng.exponential ((withPythonNumber v p).round (1 / total)) g
    match timedeltaOf .double (min t 3600) with
    | .error e => .error e
    | .ok dt => .ok (dt, g')

/-- One round of the `while` loop body after the time was drawn, for the branch
`elapsed_time <= control.dwell_time` (graphene.py:676-694). -/
noncomputable def floatPerform (v : NumpyVersion) (p : Precision) (rng : Rng ℝ G) (handle : Event ℝ Img → O → O)
    (elapsed : Timedelta) (ss : List (Successor ℝ)) : EStateM Err (MatCtx ℝ G O) Unit := fun s =>
  if floatTotalRate v p (ss.map (·.rate)) = 0 then .error .valueError s            -- probabilities are NaN
  else
    match transitionProbs v p (ss.map (·.rate)) with
    | .error e => .error e s
    | .ok probs =>
      let (idx, g) := rng.choiceP probs s.g
      match ss[idx]? with
      | none => .error .indexError { s with g := g }
      | some next =>
        .ok () { s with
          g := g
          mat := { s.mat with grid := some next.grid }
          obs := notify handle (.transition elapsed next.grid) s.obs }

/-- The `while elapsed_time < control.dwell_time` loop, graphene.py:660-694.
`fuel` bounds the number of rounds; running out is reported as `Err.diverges`. -/
noncomputable def floatApplyLoop (v : NumpyVersion) (p : Precision) (rng : Rng ℝ G) (handle : Event ℝ Img → O → O)
    (rate : RateFunction ℝ) (c : BeamControl ℝ) : ℕ → Timedelta → EStateM Err (MatCtx ℝ G O) Unit
  | fuel, elapsed => fun s =>
    if elapsed < c.dwellTime then
      match fuel with
      | 0 => .error .diverges s
      | fuel + 1 =>
        match s.mat.read with
        | .error e => .error e s
        | .ok grid =>
          match rate grid c.position with
          | .error e => .error e s
          | .ok ss =>
            match floatDrawTime v p rng ss s.g with
            | .error e => .error e s
            | .ok (t, g) =>
              let elapsed' := elapsed + t
              let s1 := { s with g := g }
              if elapsed' ≤ c.dwellTime then
                match floatPerform v p rng handle elapsed' ss s1 with
                | .error e s2 => .error e s2
                | .ok () s2 => floatApplyLoop v p rng handle rate c fuel elapsed' s2
              else
                floatApplyLoop v p rng handle rate c fuel elapsed' s1
    else .ok () s

/-- graphene.py:646-694 `apply_control`. -/
noncomputable def Material.floatApplyControl (v : NumpyVersion) (p : Precision) (rng : Rng ℝ G)
    (handle : Event ℝ Img → O → O) (rate : RateFunction ℝ) (fuel : ℕ) (c : BeamControl ℝ) :
    EStateM Err (MatCtx ℝ G O) Unit := fun s =>
  if s.mat.hasBeenReset then floatApplyLoop v p rng handle rate c fuel 0 s
  else .error .runtimeError s

/-- The field of view of the given side centred on a point (simulator.py:79-82 and 162-165). -/
noncomputable def floatCentredFov (si : V2 ℝ) (scale : ℝ) : Fov ℝ :=
  let h := f64 (scale / 2)
  ⟨⟨f64 (si.x - h), f64 (si.y - h)⟩, ⟨f64 (si.x + h), f64 (si.y + h)⟩⟩

/-- simulator.py:192-210 `_get_observed_grid_and_elapsed_time`. -/
noncomputable def Sim.floatObserve (cfg : FloatSimCfg G O P Img) (fov : Fov ℝ) : EStateM Err (Sim ℝ G O P) (Grid ℝ) :=
  fun s =>
    match s.ctx.mat.floatAtomsInBounds fov.lowerLeft fov.upperRight with
    | .error e => .error e s
    | .ok grid => .ok grid { s with ctx := { s.ctx with
        obs := notify cfg.handle (.takeImage cfg.imageDuration fov) s.ctx.obs } }

/-- simulator.py:65-105 `reset`. -/
noncomputable def Sim.floatReset (cfg : FloatSimCfg G O P Img) (returnImage : Bool) :
    EStateM Err (Sim ℝ G O P) (Observation ℝ Img) := fun s0 =>
  let s1 := { s0 with hasBeenReset := true }
  match Material.floatReset cfg.generate s1.ctx with
  | .error e c => .error e { s1 with ctx := c }
  | .ok () c =>
    let (scale, g) := cfg.rng.uniform 15 30 c.g
    let s2 := { s1 with ctx := { c with g := g }, fovScale := some scale }
    match s2.ctx.mat.getSiliconPosition with
    | .error e => .error e s2
    | .ok si =>
      let fov := floatCentredFov si scale
      let s3 := { s2 with fov := some fov }
      match s3.ctx.mat.grid with
      | none => .error .attributeError s3
      | some sheet =>
        let tell := fun o => cfg.handle (.fovChange fov) (cfg.handle (.reset sheet fov) o)
        let s4 := { s3 with ctx := { s3.ctx with obs := s3.ctx.obs.map tell } }
        match Sim.floatObserve cfg fov s4 with
        | .error e s5 => .error e s5
        | .ok grid s5 =>
          let (params, g') := cfg.sampleParams s5.ctx.g
          let s6 := { s5 with ctx := { s5.ctx with g := g' }, imageParams := some params }
          match Sim.maybeImage cfg.toSimCfg returnImage grid fov s6 with
          | .error e s7 => .error e s7
          | .ok img s7 => .ok ⟨grid, fov, [], cfg.imageDuration, img, none⟩ s7

/-- The loop over the controls, simulator.py:134-149. -/
noncomputable def floatApplyControls (cfg : FloatSimCfg G O P Img) (fov : Fov ℝ) :
    List (BeamControl ℝ) → Timedelta → EStateM Err (MatCtx ℝ G O) Timedelta
  | [], elapsed => fun s => .ok elapsed s
  | c :: cs, elapsed => fun s =>
    let c' := BeamControl.mk' (fov.floatToMaterial c.position) c.dwellTime
    let s1 := { s with obs := notify cfg.handle (.applyControl c') s.obs }
    match Material.floatApplyControl cfg.numpy cfg.rates cfg.rng cfg.handle cfg.rate cfg.fuel c' s1 with
    | .error e s2 => .error e s2
    | .ok () s2 => floatApplyControls cfg fov cs (elapsed + c'.dwellTime) s2

/-- simulator.py:155-169: move the field of view if the silicon left the safe area, and image again.  The bounds of the
safe area are floating point numbers, so the comparisons are exact. -/
noncomputable def Sim.floatRecentre (cfg : FloatSimCfg G O P Img) (fov : Fov ℝ) (grid : Grid ℝ) (elapsed : Timedelta) :
    EStateM Err (Sim ℝ G O P) (Grid ℝ × Fov ℝ × Timedelta) := fun s =>
  match siliconOutsideOfSafeArea grid with
  | .error e => .error e s
  | .ok false => .ok (grid, fov, elapsed) s
  | .ok true =>
    match s.ctx.mat.getSiliconPosition with
    | .error e => .error e s
    | .ok si =>
      match s.fovScale with
      | none => .error .attributeError s
      | some scale =>
        let fov' := floatCentredFov si scale
        let s1 := { s with fov := some fov', ctx := { s.ctx with
          obs := notify cfg.handle (.fovChange fov') s.ctx.obs } }
        match Sim.floatObserve cfg fov' s1 with
        | .error e s2 => .error e s2
        | .ok grid' s2 => .ok (grid', fov', elapsed + cfg.imageDuration) s2

/-- simulator.py:107-182 `step_and_image`. -/
noncomputable def Sim.floatStep (cfg : FloatSimCfg G O P Img) (controls : List (BeamControl ℝ)) (returnImage : Bool) :
    EStateM Err (Sim ℝ G O P) (Observation ℝ Img) := fun s =>
  if s.hasBeenReset then
    match s.fov with
    | none => .error .attributeError s
    | some fov =>
      match floatApplyControls cfg fov controls 0 s.ctx with
      | .error e c => .error e { s with ctx := c }
      | .ok elapsed c =>
        match Sim.floatObserve cfg fov { s with ctx := c } with
        | .error e s1 => .error e s1
        | .ok grid s1 =>
          match Sim.floatRecentre cfg fov grid (elapsed + cfg.imageDuration) s1 with
          | .error e s2 => .error e s2
          | .ok (grid', fov', elapsed') s2 =>
            match Sim.maybeImage cfg.toSimCfg returnImage grid' fov' s2 with
            | .error e s3 => .error e s3
            | .ok img s3 => .ok ⟨grid', fov', controls, elapsed', img, none⟩ s3
  else .error .runtimeError s

/-- Perform a call, as `Sim.exec` does. -/
noncomputable def Sim.floatExec (cfg : FloatSimCfg G O P Img) (s : Sim ℝ G O P) :
    SimOp ℝ O → Option (Except Err (Observation ℝ Img)) × Sim ℝ G O P
  | .reset b => match Sim.floatReset cfg b s with
    | .ok o s' => (some (.ok o), s')
    | .error e s' => (some (.error e), s')
  | .step cs b => match Sim.floatStep cfg cs b s with
    | .ok o s' => (some (.ok o), s')
    | .error e s' => (some (.error e), s')
  | .addObserver o => (none, s.addObserver o)
  | .removeObserver i => match Sim.removeObserver i s with
    | .ok _ s' => (none, s')
    | .error _ s' => (none, s')

/-- Perform a history of calls; the results in order and the final simulator. -/
noncomputable def Sim.floatRun (cfg : FloatSimCfg G O P Img) :
    Sim ℝ G O P → List (SimOp ℝ O) → List (Option (Except Err (Observation ℝ Img))) × Sim ℝ G O P
  | s, [] => ([], s)
  | s, op :: ops =>
    let (r, s1) := Sim.floatExec cfg s op
    let (rs, s2) := Sim.floatRun cfg s1 ops
    (r :: rs, s2)

end PD
