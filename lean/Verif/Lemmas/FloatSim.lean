/- Lemmas about the simulator with floating point numbers. -/
import Verif.Lemmas.FloatView
import Verif.Lemmas.SimHistory
import Verif.Spec.FloatSim

set_option linter.unusedSectionVars false
set_option linter.unusedSimpArgs false

namespace PD
open PD.Spec PD.Props
variable {G O P Img : Type}

theorem Spec.DopedRates.keepsDoping {rate : RateFunction ℝ} (h : DopedRates rate) : KeepsDoping rate := h.doped

theorem Spec.SwapRates.dopedRates {rate : RateFunction ℝ} (h : SwapRates rate) : DopedRates rate := ⟨h.nonneg, h.doped⟩

/-! ### The material -/

/-- The material `m'` holds the same atoms as `m` at the same places, and again one silicon. -/
def KeepsSheet (m m' : Material ℝ) : Prop :=
  m'.hasBeenReset = m.hasBeenReset ∧ ∀ g, m.grid = some g → SingleDoped g →
    ∃ g', m'.grid = some g' ∧ SingleDoped g' ∧ g'.positions = g.positions

theorem KeepsSheet.refl (m : Material ℝ) : KeepsSheet m m := ⟨rfl, fun g hg hd => ⟨g, hg, hd, rfl⟩⟩

theorem KeepsSheet.trans {a b c : Material ℝ} (h1 : KeepsSheet a b) (h2 : KeepsSheet b c) : KeepsSheet a c := by
  refine ⟨h2.1.trans h1.1, fun g hg hd => ?_⟩
  obtain ⟨g1, a1, a2, a3⟩ := h1.2 g hg hd
  obtain ⟨g2, b1, b2, b3⟩ := h2.2 g1 a1 a2
  exact ⟨g2, b1, b2, b3.trans a3⟩

theorem floatPerform_keeps {v : NumpyVersion} {p : Precision} {rng : Rng ℝ G} {handle : Event ℝ Img → O → O}
    {el : Timedelta} {ss : List (Successor ℝ)} {s : MatCtx ℝ G O}
    (h : ∀ g, s.mat.grid = some g → SingleDoped g → ∀ x ∈ ss, SingleDoped x.grid ∧ x.grid.positions = g.positions) :
    KeepsSheet s.mat (endState (floatPerform v p rng handle el ss s)).mat := by
  unfold floatPerform
  split
  · exact .refl _
  · split
    · exact .refl _
    · rename_i probs _
      dsimp only
      cases hidx : ss[(rng.choiceP probs s.g).1]? with
      | none => exact .refl _
      | some next =>
        refine ⟨rfl, fun g hg hd => ?_⟩
        obtain ⟨h1, h2⟩ := h g hg hd next (List.mem_of_getElem? hidx)
        exact ⟨next.grid, rfl, h1, h2⟩

theorem floatApplyLoop_keeps (v : NumpyVersion) (p : Precision) (rng : Rng ℝ G) (handle : Event ℝ Img → O → O)
    {rate : RateFunction ℝ} (hk : KeepsDoping rate) (c : BeamControl ℝ) (fuel : ℕ) : ∀ (el : Timedelta) (s : MatCtx ℝ G O),
    KeepsSheet s.mat (endState (floatApplyLoop v p rng handle rate c fuel el s)).mat := by
  induction fuel with
  | zero =>
    intro el s
    rw [floatApplyLoop]
    split_ifs <;> exact .refl _
  | succ fuel ih =>
    intro el s
    rw [floatApplyLoop]
    by_cases h : el < c.dwellTime
    swap
    · simp only [h, if_false]; exact .refl _
    simp only [h, if_true]
    cases hr : s.mat.read with
    | error e => exact .refl _
    | ok grid =>
      obtain ⟨_, hgrid⟩ := read_ok hr
      simp only
      cases hrate : rate grid c.position with
      | error e => exact .refl _
      | ok ss =>
        simp only
        cases hd : floatDrawTime v p rng ss s.g with
        | error e => exact .refl _
        | ok tg =>
          obtain ⟨t, g⟩ := tg
          simp only
          by_cases hle : el + t ≤ c.dwellTime
          swap
          · simp only [hle, if_false]
            exact ih (el + t) { s with g := g }
          · simp only [hle, if_true]
            have hp := floatPerform_keeps (v := v) (p := p) (rng := rng) (handle := handle) (el := el + t) (ss := ss)
              (s := { s with g := g }) (by
                intro g0 hg0 hd0
                rw [hgrid] at hg0
                cases hg0
                exact hk _ _ _ hrate hd0)
            cases hf : floatPerform v p rng handle (el + t) ss { s with g := g } with
            | error e s2 => rw [hf] at hp; exact hp
            | ok u s2 =>
              rw [hf] at hp
              exact hp.trans (ih (el + t) s2)

theorem floatApplyControl_keeps (v : NumpyVersion) (p : Precision) (rng : Rng ℝ G) (handle : Event ℝ Img → O → O)
    {rate : RateFunction ℝ} (hk : KeepsDoping rate) (c : BeamControl ℝ) (fuel : ℕ) (s : MatCtx ℝ G O) :
    KeepsSheet s.mat (endState (Material.floatApplyControl v p rng handle rate fuel c s)).mat := by
  unfold Material.floatApplyControl
  split
  · exact floatApplyLoop_keeps v p rng handle hk c fuel 0 s
  · exact .refl _

theorem floatApplyControls_keeps (cfg : FloatSimCfg G O P Img) (hk : KeepsDoping cfg.rate) (f : Fov ℝ)
    (cs : List (BeamControl ℝ)) : ∀ (el : Timedelta) (s : MatCtx ℝ G O),
    KeepsSheet s.mat (endState (floatApplyControls cfg f cs el s)).mat ∧
    ∀ el' s', floatApplyControls cfg f cs el s = .ok el' s' → el' = el + (cs.map (·.dwellTime)).sum := by
  induction cs with
  | nil =>
    intro el s
    refine ⟨.refl _, ?_⟩
    intro el' s' h
    simp only [floatApplyControls, EStateM.Result.ok.injEq] at h
    simp [← h.1]
  | cons c cs ih =>
    intro el s
    rw [floatApplyControls]
    simp only
    have hp := floatApplyControl_keeps cfg.numpy cfg.rates cfg.rng cfg.handle hk
      (BeamControl.mk' (f.floatToMaterial c.position) c.dwellTime) cfg.fuel ⟨s.g, s.mat, notify cfg.handle
        (.applyControl (BeamControl.mk' (f.floatToMaterial c.position) c.dwellTime)) s.obs⟩
    cases hc : Material.floatApplyControl cfg.numpy cfg.rates cfg.rng cfg.handle cfg.rate cfg.fuel
      (BeamControl.mk' (f.floatToMaterial c.position) c.dwellTime)
      ⟨s.g, s.mat, notify cfg.handle
        (.applyControl (BeamControl.mk' (f.floatToMaterial c.position) c.dwellTime)) s.obs⟩ with
    | error e s2 =>
      rw [hc] at hp
      exact ⟨hp, fun el' s' h => by cases h⟩
    | ok u s2 =>
      rw [hc] at hp
      obtain ⟨i1, i2⟩ := ih (el + c.dwellTime) s2
      refine ⟨hp.trans i1, fun el' s' h => ?_⟩
      rw [i2 el' s' h, List.map_cons, List.sum_cons]; ring

theorem floatDopeSheet_ok {ps : List (V2 ℝ)} {g : Grid ℝ} (h : floatDopeSheet ps = .ok g) :
    g.positions = ps ∧ SingleDoped g := by
  unfold floatDopeSheet floatSiliconIndex at h
  cases ha : argmin? (ps.map (floatNorm .plain)) with
  | none => simp [ha] at h
  | some i =>
    simp only [ha, Except.ok.injEq] at h
    have hi : i < ps.length := by
      have := argmin?_lt ha
      simpa using this
    subst h
    refine ⟨rfl, by simp, i, by simpa using hi, ?_⟩
    intro j hj
    simp only [List.length_set, List.length_replicate] at hj
    rw [List.getElem?_set]
    by_cases e : i = j
    · simp [e, hj]
    · simp [e, hj, Ne.symm e]

/-! ### Observations -/

theorem floatAtoms_ok {m : Material ℝ} {sheet : Grid ℝ} (hr : m.hasBeenReset = true) (hm : m.grid = some sheet)
    (hd : SingleDoped sheet) {f : Fov ℝ} (hf : SoundView f) {si : V2 ℝ} (hsi : silicons sheet = [si]) :
    ∃ g, m.floatAtomsInBounds f.lowerLeft f.upperRight = .ok g ∧ g.WF ∧
      atoms g = ((atoms sheet).filter (fun a => decide (Inside f.lowerLeft f.upperRight a.1))).map
        (fun a => (f.floatToMicroscope a.1, a.2)) ∧ (∀ p ∈ g.positions, InUnit p) ∧
      silicons g = if Inside f.lowerLeft f.upperRight si then [f.floatToMicroscope si] else [] := by
  obtain ⟨g, h1, h2, h3, h4, _⟩ := C139_seen m sheet hr hm hd.wf f hf.rect
  refine ⟨g, h1, h2, h3, h4, ?_⟩
  have e : silicons g = ((silicons sheet).filter (fun p => decide (Inside f.lowerLeft f.upperRight p))).map
      f.floatToMicroscope := by
    unfold silicons
    rw [h3, List.filter_map, List.map_map, List.filter_map, List.map_map, List.filter_filter, List.filter_filter]
    have : (List.filter (fun a => ((fun a : V2 ℝ × ℤ => decide (a.2 = SILICON)) ∘ fun a =>
        (f.floatToMicroscope a.1, a.2)) a && decide (Inside f.lowerLeft f.upperRight a.1)) (atoms sheet)) =
        List.filter (fun a => ((fun p => decide (Inside f.lowerLeft f.upperRight p)) ∘ Prod.fst) a &&
          decide (a.2 = SILICON)) (atoms sheet) := by
      apply List.filter_congr
      intro a _
      simp [Bool.and_comm]
    rw [this]
    rfl
  rw [e, hsi]
  split_ifs with h <;> simp [h]

/-- A simulator that has been reset, with its sheet and its field of view. -/
structure FloatReady (s : Sim ℝ G O P) (sheet : Grid ℝ) (f : Fov ℝ) : Prop where
  flag : s.hasBeenReset = true
  matFlag : s.ctx.mat.hasBeenReset = true
  grid : s.ctx.mat.grid = some sheet
  fov : s.fov = some f
  doped : SingleDoped sheet
  within : ∀ p ∈ sheet.positions, Moderate p
  params : ∃ p, s.imageParams = some p
  shape : ∃ c sc, s.fovScale = some sc ∧ 15 ≤ sc ∧ sc ≤ 30 ∧ Moderate c ∧ f = floatCentredFov c sc

theorem FloatReady.sound {s : Sim ℝ G O P} {sheet : Grid ℝ} {f : Fov ℝ} (h : FloatReady s sheet f) : SoundView f := by
  obtain ⟨c, sc, _, h15, h30, hc, rfl⟩ := h.shape
  exact floatCentredFov_sound hc h15 h30

theorem doped_silicon {sheet : Grid ℝ} (h : SingleDoped sheet) :
    ∃ si, silicons sheet = [si] ∧ getSiliconPositions sheet = [si] ∧ si ∈ sheet.positions := by
  obtain ⟨i, si, hi, _, hsi⟩ := h.exists_index
  exact ⟨si, by rw [← getSiliconPositions_eq_silicons h.wf]; exact hsi, hsi, List.mem_of_getElem? hi⟩

/-- A simulator that has just returned an observation: the view it has of its sheet. -/
structure Viewing (s : Sim ℝ G O P) (sheet : Grid ℝ) (o : Observation ℝ Img) : Prop where
  ready : FloatReady s sheet o.fov
  wf : o.grid.WF
  atoms : atoms o.grid = ((atoms sheet).filter
    (fun a => decide (Inside o.fov.lowerLeft o.fov.upperRight a.1))).map (fun a => (o.fov.floatToMicroscope a.1, a.2))
  unit : ∀ p ∈ o.grid.positions, InUnit p
  safe : ∀ si, silicons sheet = [si] → Inside o.fov.lowerLeft o.fov.upperRight si ∧
    silicons o.grid = [o.fov.floatToMicroscope si] ∧ InSafeArea (o.fov.floatToMicroscope si)

theorem Viewing.shows {s : Sim ℝ G O P} {sheet : Grid ℝ} {o : Observation ℝ Img} (h : Viewing s sheet o) :
    FloatShows sheet o := by
  obtain ⟨si, hsi, _, _⟩ := doped_silicon h.ready.doped
  obtain ⟨h1, h2, h3⟩ := h.safe si hsi
  have hv := h.ready.sound
  refine ⟨h.wf, h.atoms, h.unit, ?_, ?_, si, _, hsi, h2, h3, shown_back hv h1⟩
  · have := hv.width
    unfold Fov.width
    rw [abs_le]
    constructor <;> linarith [this.1, this.2]
  · have := hv.height
    unfold Fov.height
    rw [abs_le]
    constructor <;> linarith [this.1, this.2]

/-! ### Resets -/

theorem maybeImage_ok (cfg : SimCfg ℝ G O P Img) (b : Bool) (grid : Grid ℝ) (f : Fov ℝ) (s : Sim ℝ G O P) {p : P}
    (hp : s.imageParams = some p) : ∃ img s', Sim.maybeImage cfg b grid f s = .ok img s' ∧ s'.ctx.mat = s.ctx.mat ∧
      s'.hasBeenReset = s.hasBeenReset ∧ s'.fov = s.fov ∧ s'.fovScale = s.fovScale ∧ s'.imageParams = s.imageParams := by
  cases b with
  | false => exact ⟨none, s, by simp [Sim.maybeImage], rfl, rfl, rfl, rfl, rfl⟩
  | true =>
    unfold Sim.maybeImage
    rw [if_pos rfl, hp]
    exact ⟨_, _, rfl, rfl, rfl, rfl, rfl, rfl⟩

theorem materialReset_eq (generate : G → List (V2 ℝ) × G) {c : MatCtx ℝ G O} {ps : List (V2 ℝ)} {g1 : G}
    (hq : generate c.g = (ps, g1)) : Material.floatReset generate c = match floatDopeSheet ps with
      | .error e => .error e ⟨g1, ⟨true, c.mat.grid⟩, c.obs⟩
      | .ok grid => .ok () ⟨g1, ⟨true, some grid⟩, c.obs⟩ := by
  unfold Material.floatReset
  simp only [hq]
  cases floatDopeSheet ps <;> rfl

theorem floatReset_cases (cfg : FloatSimCfg G O P Img) (hl : cfg.rng.Lawful)
    (hgen : ∀ g, ∀ p ∈ (cfg.generate g).1, Moderate p) (b : Bool) (s : Sim ℝ G O P) :
    (∃ e s', Sim.floatReset cfg b s = .error e s' ∧ s'.fov = s.fov ∧ s'.fovScale = s.fovScale ∧
      s'.imageParams = s.imageParams ∧ s'.hasBeenReset = true ∧ s'.ctx.mat.hasBeenReset = true ∧
      s'.ctx.mat.grid = s.ctx.mat.grid ∧ floatDopeSheet (cfg.generate s.ctx.g).1 = .error e) ∨
    (∃ o s' sheet, Sim.floatReset cfg b s = .ok o s' ∧ Viewing s' sheet o ∧
      floatDopeSheet (cfg.generate s.ctx.g).1 = .ok sheet ∧ sheet.positions = (cfg.generate s.ctx.g).1 ∧
      o.controls = [] ∧ o.elapsedTime = cfg.imageDuration) := by
  have hgen' := hgen s.ctx.g
  obtain ⟨ps, g1, hq⟩ : ∃ ps g1, cfg.generate s.ctx.g = (ps, g1) := ⟨_, _, rfl⟩
  rw [hq] at hgen' ⊢
  dsimp only at hgen' ⊢
  rw [Sim.floatReset]
  simp only [materialReset_eq _ hq]
  cases hd : floatDopeSheet ps with
  | error e =>
    left
    simp only [hd]
    exact ⟨e, _, rfl, rfl, rfl, rfl, rfl, rfl, rfl, rfl⟩
  | ok sheet =>
    right
    obtain ⟨hpos, hdop⟩ := floatDopeSheet_ok hd
    obtain ⟨si, hsi, hsi', hmem⟩ := doped_silicon hdop
    have hw : ∀ p ∈ sheet.positions, Moderate p := by rw [hpos]; exact hgen'
    have hu := hl.uniform_mem 15 30 g1 (by norm_num)
    obtain ⟨sc, g2, hu1⟩ : ∃ sc g2, cfg.rng.uniform 15 30 g1 = (sc, g2) := ⟨_, _, rfl⟩
    rw [hu1] at hu
    simp only [hd, hu1]
    dsimp only at hu
    have hv := floatCentredFov_sound (hw si hmem) hu.1 hu.2
    obtain ⟨_, hin, hsafe⟩ := floatCentredFov_centre (hw si hmem) hu.1 hu.2
    obtain ⟨g, k1, k2, k3, k4, k5⟩ := floatAtoms_ok (m := ⟨true, some sheet⟩) rfl rfl hdop hv hsi
    have hself := hin si (by rw [dist_self']; norm_num)
    rw [if_pos hself] at k5
    have hread : (⟨true, some sheet⟩ : Material ℝ).getSiliconPosition = .ok si := by
      simp [Material.getSiliconPosition, Material.read, hsi']
    obtain ⟨params, g3, hp⟩ : ∃ params g3, cfg.sampleParams g2 = (params, g3) := ⟨_, _, rfl⟩
    simp only [hread, Sim.floatObserve, k1, hp]
    obtain ⟨img, s', m1, m2, m3, m4, m5, m6⟩ := maybeImage_ok cfg.toSimCfg b g (floatCentredFov si sc)
      (⟨⟨g3, ⟨true, some sheet⟩,
        notify cfg.handle (.takeImage cfg.imageDuration (floatCentredFov si sc)) (s.ctx.obs.map fun o =>
          cfg.handle (.fovChange (floatCentredFov si sc)) (cfg.handle (.reset sheet (floatCentredFov si sc)) o))⟩,
        true, some sc, some (floatCentredFov si sc), some params⟩ : Sim ℝ G O P) rfl
    rw [m1]
    refine ⟨_, s', sheet, rfl, ⟨⟨m3, by rw [m2], by rw [m2], m4, hdop, hw, ⟨_, m6⟩, si, sc, m5, hu.1, hu.2, hw si hmem, rfl⟩,
      k2, k3, k4, ?_⟩, rfl, hpos, rfl, rfl⟩
    intro si2 hsi2
    rw [hsi] at hsi2
    cases hsi2
    exact ⟨hself, k5, hsafe⟩

/-! ### Steps -/

theorem floatStep_cases (cfg : FloatSimCfg G O P Img) (hk : KeepsDoping cfg.rate) (cs : List (BeamControl ℝ)) (b : Bool)
    {s : Sim ℝ G O P} {sheet : Grid ℝ} {f : Fov ℝ} (h : FloatReady s sheet f) :
    (∃ e s' c sheet', Sim.floatStep cfg cs b s = .error e s' ∧ floatApplyControls cfg f cs 0 s.ctx = .error e c ∧
      FloatReady s' sheet' f ∧ sheet'.positions = sheet.positions) ∨
    (∃ o s' sheet', Sim.floatStep cfg cs b s = .ok o s' ∧ Viewing s' sheet' o ∧ sheet'.positions = sheet.positions ∧
      o.controls = cs ∧
      ((o.fov = f ∧ o.elapsedTime = (cs.map (·.dwellTime)).sum + cfg.imageDuration) ∨
        ((∃ si sc, silicons sheet' = [si] ∧ 15 ≤ sc ∧ sc ≤ 30 ∧ o.fov = floatCentredFov si sc) ∧
          o.elapsedTime = (cs.map (·.dwellTime)).sum + cfg.imageDuration + cfg.imageDuration)) ∧
      ∃ el c, floatApplyControls cfg f cs 0 s.ctx = .ok el c ∧ s'.ctx.mat = c.mat) := by
  obtain ⟨hkeep, hel⟩ := floatApplyControls_keeps cfg hk f cs 0 s.ctx
  unfold Sim.floatStep
  rw [h.flag, if_pos rfl, h.fov]
  dsimp only
  obtain ⟨hmf, hkeep⟩ := hkeep
  obtain ⟨sheet', hg', hd', hpos'⟩ := hkeep sheet h.grid h.doped
  rw [h.matFlag] at hmf
  have hw' : ∀ p ∈ sheet'.positions, Moderate p := by rw [hpos']; exact h.within
  obtain ⟨params, hp⟩ := h.params
  cases hc : floatApplyControls cfg f cs 0 s.ctx with
  | error e c =>
    left
    rw [hc] at hmf hg'
    exact ⟨e, _, c, sheet', rfl, rfl, ⟨rfl, hmf, hg', rfl, hd', hw', h.params, h.shape⟩, hpos'⟩
  | ok el c =>
    right
    rw [hc] at hmf hg'
    have hel' := hel el c hc
    rw [zero_add] at hel'
    subst hel'
    obtain ⟨c0, sc, hsc, h15, h30, hc0, hf⟩ := h.shape
    have hv := h.sound
    obtain ⟨si, hsi, hsi', hmem⟩ := doped_silicon hd'
    have hmf' : c.mat.hasBeenReset = true := hmf
    have hg'' : c.mat.grid = some sheet' := hg'
    obtain ⟨g, k1, k2, k3, k4, k5⟩ := floatAtoms_ok hmf' hg'' hd' hv hsi
    dsimp only
    rw [Sim.floatObserve]
    simp only [k1]
    have hgs := getSiliconPositions_eq_silicons k2
    rw [k5] at hgs
    unfold Sim.floatRecentre
    cases ho : siliconOutsideOfSafeArea g with
    | error e =>
      exfalso
      unfold siliconOutsideOfSafeArea at ho
      rw [hgs] at ho
      split at ho
      · cases ho
      · cases ho
      · rename_i h1 h2
        split_ifs at h1 h2 with hi
        · exact h2 _ rfl
        · exact h1 rfl
    | ok out =>
      cases out with
      | false =>
        obtain ⟨q, hq, hsafe⟩ := outside_false ho
        rw [hgs] at hq
        split_ifs at hq with hi
        simp only [List.cons.injEq, and_true] at hq
        subst hq
        rw [if_pos hi] at k5
        dsimp only
        obtain ⟨img, s', m1, m2, m3, m4, m5, m6⟩ := maybeImage_ok cfg.toSimCfg b g f
          (⟨⟨c.g, c.mat, notify cfg.handle (.takeImage cfg.imageDuration f) c.obs⟩, s.hasBeenReset, s.fovScale, s.fov,
            s.imageParams⟩ : Sim ℝ G O P) hp
        have m1' := m1
        rw [h.flag, h.fov] at m1'
        simp only [m1, m1']
        refine ⟨_, s', sheet', rfl, ⟨⟨m3.trans h.flag, by rw [m2]; exact hmf', by rw [m2]; exact hg'', m4.trans h.fov, hd', hw',
          ⟨_, m6.trans hp⟩, c0, sc, m5.trans hsc, h15, h30, hc0, hf⟩, k2, k3, k4, ?_⟩, hpos', rfl, .inl ⟨rfl, rfl⟩, _, c, rfl, m2⟩
        intro si2 hsi2
        rw [hsi] at hsi2
        cases hsi2
        exact ⟨hi, k5, hsafe⟩
      | true =>
        have hread : c.mat.getSiliconPosition = .ok si := by
          simp [Material.getSiliconPosition, Material.read, hmf', hg'', hsi']
        dsimp only
        simp only [hread, hsc]
        have hv' := floatCentredFov_sound (hw' si hmem) h15 h30
        obtain ⟨_, hin, hsafe⟩ := floatCentredFov_centre (hw' si hmem) h15 h30
        obtain ⟨g2, l1, l2, l3, l4, l5⟩ := floatAtoms_ok hmf' hg'' hd' hv' hsi
        have hself := hin si (by rw [dist_self']; norm_num)
        rw [if_pos hself] at l5
        rw [Sim.floatObserve]
        simp only [l1]
        obtain ⟨img, s', m1, m2, m3, m4, m5, m6⟩ := maybeImage_ok cfg.toSimCfg b g2 (floatCentredFov si sc)
          (⟨⟨c.g, c.mat, notify cfg.handle (.takeImage cfg.imageDuration (floatCentredFov si sc))
            (notify cfg.handle (.fovChange (floatCentredFov si sc))
              (notify cfg.handle (.takeImage cfg.imageDuration f) c.obs))⟩, s.hasBeenReset, s.fovScale,
            some (floatCentredFov si sc), s.imageParams⟩ : Sim ℝ G O P) hp
        have m1' := m1
        rw [h.flag, hsc] at m1'
        simp only [m1, m1']
        refine ⟨_, s', sheet', rfl, ⟨⟨m3.trans h.flag, by rw [m2]; exact hmf', by rw [m2]; exact hg'', m4, hd', hw',
          ⟨_, m6.trans hp⟩, si, sc, m5.trans hsc, h15, h30, hw' si hmem, rfl⟩, l2, l3, l4, ?_⟩, hpos', rfl,
          .inr ⟨⟨si, sc, hsi, h15, h30, rfl⟩, rfl⟩, _, c, rfl, m2⟩
        intro si2 hsi2
        rw [hsi] at hsi2
        cases hsi2
        exact ⟨hself, l5, hsafe⟩

/-! ### Histories -/

/-- What holds of the simulator after any history of calls. -/
def FloatInv (s : Sim ℝ G O P) : Prop := ∀ f, s.fov = some f → ∃ sheet, FloatReady s sheet f

theorem FloatInv.fresh (g : G) (obs : List O) : FloatInv (Sim.fresh g obs : Sim ℝ G O P) := by
  intro f hf
  cases hf

theorem floatStep_unready (cfg : FloatSimCfg G O P Img) (cs : List (BeamControl ℝ)) (b : Bool) {s : Sim ℝ G O P}
    (hf : s.fov = none) : ∃ e, Sim.floatStep cfg cs b s = .error e s := by
  unfold Sim.floatStep
  rw [hf]
  split_ifs <;> exact ⟨_, rfl⟩

theorem FloatReady.congr {s s' : Sim ℝ G O P} {sheet : Grid ℝ} {f : Fov ℝ} (h : FloatReady s sheet f)
    (h1 : s'.hasBeenReset = s.hasBeenReset) (h2 : s'.ctx.mat = s.ctx.mat) (h3 : s'.fov = s.fov)
    (h4 : s'.fovScale = s.fovScale) (h5 : s'.imageParams = s.imageParams) : FloatReady s' sheet f :=
  ⟨h1.trans h.flag, by rw [h2]; exact h.matFlag, by rw [h2]; exact h.grid, h3.trans h.fov, h.doped, h.within,
    by rw [h5]; exact h.params, by rw [h4]; exact h.shape⟩

theorem FloatInv.exec {cfg : FloatSimCfg G O P Img} (hl : cfg.rng.Lawful)
    (hgen : ∀ g, ∀ p ∈ (cfg.generate g).1, Moderate p) (hk : KeepsDoping cfg.rate) {s : Sim ℝ G O P} (h : FloatInv s)
    (op : SimOp ℝ O) : FloatInv (Sim.floatExec cfg s op).2 ∧
      ∀ o, (Sim.floatExec cfg s op).1 = some (.ok o) → ∃ sheet, Viewing (Sim.floatExec cfg s op).2 sheet o := by
  cases op with
  | reset b =>
    simp only [Sim.floatExec]
    rcases floatReset_cases cfg hl hgen b s with ⟨e, s', h1, h2, h3, h4, h5, h6, h7, _⟩ | ⟨o, s', sheet, h1, h2, _⟩
    · rw [h1]
      refine ⟨fun f hf => ?_, fun o ho => by simp at ho⟩
      dsimp only at hf
      rw [h2] at hf
      obtain ⟨sheet, hr⟩ := h f hf
      exact ⟨sheet, h5, h6, h7.trans hr.grid, h2.trans hr.fov, hr.doped, hr.within, by rw [h4]; exact hr.params,
        by rw [h3]; exact hr.shape⟩
    · rw [h1]
      refine ⟨fun f hf => ?_, fun o' ho => ?_⟩
      · have := h2.ready.fov
        dsimp only at hf
        rw [this] at hf
        cases hf
        exact ⟨sheet, h2.ready⟩
      · simp only [Option.some.injEq, Except.ok.injEq] at ho
        subst ho
        exact ⟨sheet, h2⟩
  | step cs b =>
    simp only [Sim.floatExec]
    cases hf : s.fov with
    | none =>
      obtain ⟨e, he⟩ := floatStep_unready cfg cs b hf
      rw [he]
      exact ⟨h, fun o ho => by simp at ho⟩
    | some f =>
      obtain ⟨sheet, hr⟩ := h f hf
      rcases floatStep_cases cfg hk cs b hr with ⟨e, s', c, sheet', h1, _, h2, _⟩ | ⟨o, s', sheet', h1, h2, _⟩
      · rw [h1]
        refine ⟨fun f' hf' => ?_, fun o ho => by simp at ho⟩
        have := h2.fov
        dsimp only at hf'
        rw [this] at hf'
        cases hf'
        exact ⟨sheet', h2⟩
      · rw [h1]
        refine ⟨fun f' hf' => ?_, fun o' ho => ?_⟩
        · have := h2.ready.fov
          dsimp only at hf'
          rw [this] at hf'
          cases hf'
          exact ⟨sheet', h2.ready⟩
        · simp only [Option.some.injEq, Except.ok.injEq] at ho
          subst ho
          exact ⟨sheet', h2⟩
  | addObserver o =>
    refine ⟨fun f hf => ?_, fun o ho => by simp [Sim.floatExec] at ho⟩
    obtain ⟨sheet, hr⟩ := h f hf
    exact ⟨sheet, hr.congr rfl rfl rfl rfl rfl⟩
  | removeObserver i =>
    simp only [Sim.floatExec, Sim.removeObserver]
    split_ifs
    · refine ⟨fun f hf => ?_, fun o ho => by simp at ho⟩
      obtain ⟨sheet, hr⟩ := h f hf
      exact ⟨sheet, hr.congr rfl rfl rfl rfl rfl⟩
    · exact ⟨h, fun o ho => by simp at ho⟩

theorem FloatInv.run {cfg : FloatSimCfg G O P Img} (hl : cfg.rng.Lawful)
    (hgen : ∀ g, ∀ p ∈ (cfg.generate g).1, Moderate p) (hk : KeepsDoping cfg.rate) (ops : List (SimOp ℝ O)) :
    ∀ {s : Sim ℝ G O P}, FloatInv s → FloatInv (Sim.floatRun cfg s ops).2 := by
  induction ops with
  | nil => intro s h; exact h
  | cons op ops ih => intro s h; exact ih (h.exec hl hgen hk op).1

end PD
