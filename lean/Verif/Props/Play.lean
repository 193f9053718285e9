/- Property C99: playing an episode never fails. -/
import Verif.Props.Start
import Verif.Props.Adapters
import Verif.Props.Rates

set_option linter.unusedSectionVars false
set_option linter.unusedSimpArgs false

namespace PD.Props
open PD PD.Spec

section
variable {K G O P Img : Type} [Field K] [LinearOrder K] [IsStrictOrderedRing K] [FloorRing K]

/-- The rate function gives successors for every sheet with a single silicon and at least four atoms, at different
places, wherever the beam is. -/
def RatesDefined (rate : RateFunction K) : Prop :=
  ∀ g p, SingleDoped g → 4 ≤ g.positions.length → g.positions.Nodup → ∃ ss, rate g p = .ok ss ∧ ss ≠ []

/-- No waiting time is shorter than a microsecond. -/
def WaitsATick (rng : Rng K G) : Prop := ∀ s g, 1 / 1000000 ≤ (rng.exponential s g).1

theorem ofSeconds_hour : ofSeconds (3600 : K) = 3600000000 := by
  have : (3600 : K) = totalSeconds 3600000000 := by norm_num [totalSeconds]
  rw [this, ofSeconds_totalSeconds]

theorem ofSeconds_tick {x : K} (h : 1 / 1000000 ≤ x) : 1 ≤ ofSeconds x := by
  have : ofSeconds (1 / 1000000 : K) = 1 := by
    have h : (1 / 1000000 : K) = totalSeconds 1 := by norm_num [totalSeconds]
    rw [h, ofSeconds_totalSeconds]
  rw [← this]
  exact ofSeconds_mono h

theorem draw_ok (rng : Rng K G) {ss : List (Successor K)} (h : ss ≠ []) (g : G) :
    ∃ t g', drawTransitionTime rng ss g = .ok (t, g') ∧ (totalRate ss = 0 → t = 3600000000) ∧
      (WaitsATick rng → 1 ≤ t) := by
  unfold drawTransitionTime
  split_ifs with h1 h2
  · cases ss <;> simp at h h2
  · exact ⟨_, _, rfl, fun _ => ofSeconds_hour, fun _ => by rw [ofSeconds_hour]; norm_num⟩
  · refine ⟨_, _, rfl, fun h0 => absurd h0 h1, fun hw => ofSeconds_tick (le_min (hw _ _) (by norm_num))⟩

theorem probs_sum {ss : List (Successor K)} (h : totalRate ss ≠ 0) :
    (ss.map (fun x => x.rate / totalRate ss)).sum = 1 := by
  have : ∀ (l : List (Successor K)) (c : K), (l.map (fun x => x.rate / c)).sum = (l.map (·.rate)).sum / c := by
    intro l c
    induction l with
    | nil => simp
    | cons a l ih => simp [ih, add_div]
  rw [this]
  exact div_self h

/-- A control that is shorter than an hour returns, unless the loop takes too many rounds. -/
theorem loop_returns {rng : Rng K G} (hl : rng.Lawful) (handle : Event K Img → O → O) {rate : RateFunction K}
    (hr : SwapRates rate) (hd : RatesDefined rate) (c : BeamControl K) (hc : c.dwellTime < 3600000000) (fuel : ℕ)
    (elapsed : Timedelta) (h0 : 0 ≤ elapsed) (s : MatCtx K G O) (g : Grid K) (hflag : s.mat.hasBeenReset = true)
    (hg : s.mat.grid = some g) (hdop : SingleDoped g) (h4 : 4 ≤ g.positions.length) (hnd : g.positions.Nodup) :
    (∃ s', applyLoop rng handle rate c fuel elapsed s = .ok () s') ∨
    ((∃ s', applyLoop rng handle rate c fuel elapsed s = .error .diverges s') ∧
      (WaitsATick rng → (fuel : ℤ) < c.dwellTime - elapsed)) := by
  induction fuel generalizing elapsed s g with
  | zero =>
    rw [applyLoop]
    split_ifs with h
    · exact .inr ⟨⟨s, rfl⟩, fun _ => by push_cast; omega⟩
    · exact .inl ⟨s, rfl⟩
  | succ fuel ih =>
    rw [applyLoop]
    by_cases h : elapsed < c.dwellTime
    swap
    · simp only [h, if_false]; exact .inl ⟨s, rfl⟩
    simp only [h, if_true]
    have hread : s.mat.read = .ok g := by simp [Material.read, hflag, hg]
    obtain ⟨ss, hss, hne⟩ := hd g c.position hdop h4 hnd
    obtain ⟨t, g', ht, ht0, htick⟩ := draw_ok rng hne s.g
    have htn := drawTransitionTime_nonneg hl (hr.nonneg _ _ _ hss) ht
    simp only [hread, hss, ht]
    by_cases hle : elapsed + t ≤ c.dwellTime
    swap
    · simp only [hle, if_false]
      rcases ih (elapsed + t) (by omega) { s with g := g' } g hflag hg hdop h4 hnd with h1 | ⟨h1, h2⟩
      · exact .inl h1
      · exact .inr ⟨h1, fun hw => by have := h2 hw; have := htick hw; push_cast; omega⟩
    · simp only [hle, if_true]
      have htot : totalRate ss ≠ 0 := by
        intro h1
        have := ht0 h1
        omega
      have hpos := totalRate_nonneg (hr.nonneg _ _ _ hss)
      obtain ⟨q, hq, hq0⟩ := hl.choiceP_lt (ss.map (fun x => x.rate / totalRate ss)) g' (by
        intro q hq
        obtain ⟨x, hx, rfl⟩ := List.mem_map.1 hq
        exact div_nonneg (hr.nonneg _ _ _ hss x hx) hpos) (probs_sum htot)
      rw [List.getElem?_map] at hq
      cases hn : ss[(rng.choiceP (ss.map (fun x => x.rate / totalRate ss)) g').1]? with
      | none => rw [hn] at hq; cases hq
      | some next =>
        obtain ⟨hdop', hpos'⟩ := hr.doped g c.position ss hss hdop next (List.mem_of_getElem? hn)
        simp only [performTransition, htot, if_false, hn]
        rcases ih (elapsed + t) (by omega)
          { s with
            g := (rng.choiceP (ss.map (fun x => x.rate / totalRate ss)) g').2
            mat := { s.mat with grid := some next.grid }
            obs := notify handle (.transition (elapsed + t) next.grid) s.obs } next.grid hflag rfl hdop'
          (by rw [hpos']; exact h4) (by rw [hpos']; exact hnd) with h1 | ⟨h1, h2⟩
        · exact .inl h1
        · exact .inr ⟨h1, fun hw => by have := h2 hw; have := htick hw; push_cast; omega⟩

/-- The sheet of a material: one silicon, at least four atoms at different places. -/
structure GoodSheet (g : Grid K) : Prop where
  doped : SingleDoped g
  four : 4 ≤ g.positions.length
  nodup : g.positions.Nodup

theorem controls_return (cfg : SimCfg K G O P Img) (hl : cfg.rng.Lawful) (hr : SwapRates cfg.rate)
    (hd : RatesDefined cfg.rate) (fov : Fov K) (cs : List (BeamControl K))
    (hc : ∀ c ∈ cs, c.dwellTime < 3600000000) (el : Timedelta) (s : MatCtx K G O) (g : Grid K)
    (hflag : s.mat.hasBeenReset = true) (hg : s.mat.grid = some g) (hgood : GoodSheet g) :
    (∃ el' s', applyControls cfg fov cs el s = .ok el' s') ∨
    ((∃ s', applyControls cfg fov cs el s = .error .diverges s') ∧
      (WaitsATick cfg.rng → cfg.fuel < 3600000000)) := by
  induction cs generalizing el s g with
  | nil => exact .inl ⟨_, _, rfl⟩
  | cons c cs ih =>
    have hc' := hc c List.mem_cons_self
    set c' := BeamControl.mk' (fov.toMaterial c.position) c.dwellTime with hc'def
    set s1 : MatCtx K G O := { s with obs := notify cfg.handle (.applyControl c') s.obs } with hs1
    obtain ⟨trs, ht⟩ := applyControl_trace cfg.rng cfg.handle cfg.rate cfg.fuel c' s1
    rcases loop_returns hl cfg.handle hr hd c' hc' cfg.fuel 0 le_rfl s1 g hflag hg hgood.doped hgood.four hgood.nodup
      with ⟨s2, h2⟩ | ⟨⟨s2, h2⟩, h3⟩
    · have h2' : Material.applyControl cfg.rng cfg.handle cfg.rate cfg.fuel c' s1 = .ok () s2 := by
        simp only [Material.applyControl, show s1.mat.hasBeenReset = true from hflag, if_true]; exact h2
      rw [h2'] at ht
      have heff : ControlEffect cfg.rate c'.position c'.dwellTime g trs ((trs.getLast?.map Prod.snd).getD g) :=
        ⟨ht.chain g hg, rfl, ht.le⟩
      have happ := (Applied.cons (Img := Img) heff (.nil _)).doped hr.doped hgood.doped
      have hg2 : s2.mat.grid = some ((trs.getLast?.map Prod.snd).getD g) := by
        have := ht.grid
        simp only [endState] at this
        rw [this, show s1.mat.grid = some g from hg]
        cases trs.getLast? <;> simp
      rcases ih (fun c hc2 => hc c (List.mem_cons_of_mem _ hc2)) (el + c'.dwellTime) s2 _
        (ht.reset.trans hflag) hg2 ⟨happ.1, by rw [happ.2]; exact hgood.four, by rw [happ.2]; exact hgood.nodup⟩
        with ⟨el', s', h⟩ | ⟨⟨s', h⟩, h5⟩
      · exact .inl ⟨el', s', by simp only [applyControls, ← hc'def, ← hs1, h2', h]⟩
      · exact .inr ⟨⟨s', by simp only [applyControls, ← hc'def, ← hs1, h2', h]⟩, h5⟩
    · have h2' : Material.applyControl cfg.rng cfg.handle cfg.rate cfg.fuel c' s1 = .error .diverges s2 := by
        simp only [Material.applyControl, show s1.mat.hasBeenReset = true from hflag, if_true]; exact h2
      refine .inr ⟨⟨s2, by simp only [applyControls, ← hc'def, ← hs1, h2']⟩, fun hw => ?_⟩
      have := h3 hw
      have h6 : c'.dwellTime < 3600000000 := hc'
      omega

/-- A step of the simulator returns if its controls do. -/
theorem simStep_ok (cfg : SimCfg K G O P Img) (hr : SwapRates cfg.rate) (b : Bool) (cs : List (BeamControl K))
    (s : Sim K G O P) (hinv : SimInv s) (fov : Fov K) (hfov : s.fov = some fov) (g : Grid K)
    (hg : s.ctx.mat.grid = some g) (hgood : GoodSheet g) {el : Timedelta} {c' : MatCtx K G O}
    (h : applyControls cfg fov cs 0 s.ctx = .ok el c') : ∃ o s', Sim.step cfg cs b s = .ok o s' := by
  obtain ⟨hreset, hmat, _, p, hp⟩ := hinv.sheet fov hfov
  obtain ⟨c, sc, h5, h6, h7, h8⟩ := hinv.square fov hfov
  rw [step_eq hreset hfov]
  obtain ⟨n, evs, sheet', hn, happ, hobs, hmf, hgr, hok⟩ := applyControls_trace cfg fov cs 0 s.ctx g hg
  rw [h] at hmf hgr ⊢
  simp only [endState] at hmf hgr
  rw [hmat] at hmf
  obtain ⟨hdop, hpos⟩ := happ.doped hr.doped hgood.doped
  have hread : c'.mat.read = .ok sheet' := by simp [Material.read, hmf, hgr]
  obtain ⟨i, si, hi, hnn, hsi⟩ := hdop.exists_index
  obtain ⟨og, ho⟩ := getAtomsInBounds_ok hmf hgr fov
  have hsq := centredFov_square c sc
  have hsc : (0 : K) < sc := by linarith
  obtain ⟨hwf, hv⟩ := observed_silicons hdop hread hsi (f := fov)
    (by rw [h6, hsq.1]; exact hsc) (by rw [h6, hsq.2]; exact hsc) ho
  have hout : ∃ b', siliconOutsideOfSafeArea og = .ok b' := by
    unfold siliconOutsideOfSafeArea
    rw [hv]
    split_ifs <;> exact ⟨_, rfl⟩
  obtain ⟨b', hb'⟩ := hout
  simp only [Sim.observe, ho, Sim.recentre, hb']
  cases b' with
  | false => cases b <;> simp [Sim.maybeImage, hp]
  | true =>
    obtain ⟨og2, ho2⟩ := getAtomsInBounds_ok hmf hgr (centredFov si sc)
    simp only [Material.getSiliconPosition, hread, hsi, h5, Sim.observe, ho2]
    cases b <;> simp [Sim.maybeImage, hp]

/-- A step of the simulator returns, unless a control takes too many rounds. -/
theorem simStep_returns (cfg : SimCfg K G O P Img) (hl : cfg.rng.Lawful) (hr : SwapRates cfg.rate)
    (hd : RatesDefined cfg.rate) (b : Bool) (cs : List (BeamControl K))
    (hc : ∀ c ∈ cs, c.dwellTime < 3600000000) (s : Sim K G O P) (hinv : SimInv s) (fov : Fov K)
    (hfov : s.fov = some fov) (g : Grid K) (hg : s.ctx.mat.grid = some g) (hgood : GoodSheet g) :
    (∃ o s', Sim.step cfg cs b s = .ok o s') ∨
    ((∃ s', Sim.step cfg cs b s = .error .diverges s') ∧ (WaitsATick cfg.rng → cfg.fuel < 3600000000)) := by
  obtain ⟨hreset, hmat, _⟩ := hinv.sheet fov hfov
  rcases controls_return cfg hl hr hd fov cs hc 0 s.ctx g hmat hg hgood with ⟨el, c', h⟩ | ⟨⟨s', h⟩, h5⟩
  · exact .inl (simStep_ok cfg hr b cs s hinv fov hfov g hg hgood h)
  · exact .inr ⟨⟨_, by rw [step_eq hreset hfov, h]⟩, h5⟩

end

/-! ### The environment -/

section
variable {G O P Img F : Type}

/-- What is assumed of an environment: lawful draws, generated sheets of five or more columns, features that can be
computed for regular images, rates for regular sheets, and dwell times below an hour. -/
structure PlayCfg (cfg : EnvCfg ℝ G O P Img F) (n : ℕ) : Prop where
  lawful : cfg.sim.rng.Lawful
  wide : 5 ≤ n
  generate : cfg.sim.generate = generatePristineGraphene cfg.sim.rng n
  features : FeaturesDefined cfg.features cfg.requiresImage
  swaps : SwapRates cfg.sim.rate
  rates : RatesDefined cfg.sim.rate
  dwellOrder : (dwellRange cfg.adapter).1 ≤ (dwellRange cfg.adapter).2
  dwellHour : (dwellRange cfg.adapter).2 < 3600000000

/-- What holds between calls. -/
structure Playing (n : ℕ) (s : Env ℝ G O P Img) : Prop where
  inv : SimInv s.sim
  range : GoalRangeOk s.goal
  live : s.requiresReset = false → (∃ fov, s.sim.fov = some fov) ∧
    (∃ g off ang, s.sim.ctx.mat.grid = some g ∧ g.positions = layOutSheet n off ang) ∧
    s.last.grid.WF ∧ (∃ p, silicons s.last.grid = [p]) ∧ 0 < s.last.fov.width ∧ 0 < s.last.fov.height

theorem SimInv.reseed {s : Sim ℝ G O P} (h : SimInv s) (g : G) :
    SimInv { s with ctx := { s.ctx with g := g } } := ⟨h.doped, h.square, h.sheet⟩

/-- The simulator and the observation after a reset that returned. -/
theorem envReset_parts {cfg : EnvCfg ℝ G O P Img F} {s s' : Env ℝ G O P Img} {t : TimeStep F}
    (h : Env.reset cfg s = .ok t s') :
    ∃ o sim g, Sim.reset cfg.sim cfg.requiresImage s.sim = .ok o sim ∧ s'.last = o ∧
      s'.sim = { sim with ctx := { sim.ctx with g := g } } := by
  rw [envReset_eq] at h
  cases hr : Sim.reset cfg.sim cfg.requiresImage s.sim with
  | error e sim => rw [hr] at h; cases h
  | ok o sim =>
    rw [hr] at h
    dsimp only at h
    have hA : (Env.resetAdapter cfg { s with requiresReset := false, sim := sim, last := o }).last = o ∧
        ∃ g, (Env.resetAdapter cfg { s with requiresReset := false, sim := sim, last := o }).sim =
          { sim with ctx := { sim.ctx with g := g } } := by
      unfold Env.resetAdapter
      split
      · exact ⟨rfl, sim.ctx.g, rfl⟩
      · exact ⟨rfl, _, rfl⟩
    obtain ⟨h1, g1, h2⟩ := hA
    unfold Env.resetTail at h
    split at h
    · cases h
    · dsimp only at h
      split at h
      · cases h
      · rename_i g _ _ _
        simp only [EStateM.Result.ok.injEq] at h
        obtain ⟨_, rfl⟩ := h
        exact ⟨o, sim, _, rfl, h1, by dsimp only; rw [h2]⟩

theorem reset_plays {cfg : EnvCfg ℝ G O P Img F} {n : ℕ} (hc : PlayCfg cfg n) {s : Env ℝ G O P Img}
    (h : Playing n s) : ∃ t s', Env.reset cfg s = .ok t s' ∧ Playing n s' := by
  obtain ⟨t, s', hr⟩ := C69_reset_returns cfg hc.lawful n hc.wide hc.generate hc.features s h.range.1 h.range.2.1
    h.range.2.2
  refine ⟨t, s', hr, ?_⟩
  obtain ⟨o, sim, g, h1, h2, h3⟩ := envReset_parts hr
  have hrange := envReset_range cfg s
  rw [hr] at hrange
  simp only [endState] at hrange
  have hinv := h.inv.reset (cfg := cfg.sim) hc.lawful cfg.requiresImage
  rw [h1] at hinv
  simp only [endState] at hinv
  obtain ⟨si, sc, hv⟩ := firstView cfg.sim hc.lawful n hc.generate _ _ _ _ h1
  obtain ⟨sheet, si', sc', hf⟩ := reset_ok h1
  obtain ⟨off, ang, hsheet, _⟩ := C40_generated cfg.sim.rng hc.lawful n s.sim.ctx.g
  have hsq := centredFov_square si sc
  have hsc := hv.scale
  refine ⟨by rw [h3]; exact SimInv.reseed hinv g, by rw [GoalRangeOk, hrange.1, hrange.2]; exact h.range, fun _ => ?_⟩
  rw [h2, h3]
  refine ⟨⟨_, hf.fov⟩, ⟨sheet, off, ang, hf.grid, by rw [hf.positions, hc.generate, hsheet]⟩, hv.wf, ⟨_, hv.silicons⟩,
    ?_, ?_⟩
  · rw [hv.fov, hsq.1]; linarith
  · rw [hv.fov, hsq.2]; linarith

/-- A point in the safe area of a view of at least 15 Å is at least 3.75 Å from its borders. -/
theorem safe_room {ll ur p : V2 ℝ} (hp : InSafeArea p) (hx : 15 ≤ ur.x - ll.x) (hy : 15 ≤ ur.y - ll.y) :
    ∀ q, V2.distSq (lerp ll ur p) q ≤ (284 / 100) ^ 2 → Inside ll ur q := by
  intro q hq
  obtain ⟨⟨h1, h2⟩, h3, h4⟩ := hp
  refine inside_of_near (by norm_num) hq ?_ ?_ ?_ ?_ <;> simp only [lerp] <;> nlinarith

/-- A step of the simulator that returned shows a view for which the features are defined. -/
theorem step_shows {cfg : EnvCfg ℝ G O P Img F} {n : ℕ} (hc : PlayCfg cfg n) {s s' : Sim ℝ G O P} (hinv : SimInv s)
    {sheet : Grid ℝ} {off : V2 ℝ} {ang : ℝ} (hg : s.ctx.mat.grid = some sheet)
    (hpos : sheet.positions = layOutSheet n off ang) {cs : List (BeamControl ℝ)} {b : Bool} {o : Observation ℝ Img}
    (hs : Sim.step cfg.sim cs b s = .ok o s') :
    (∃ g, s'.ctx.mat.grid = some g ∧ g.positions = layOutSheet n off ang) ∧ s'.fov = some o.fov ∧ o.grid.WF ∧
    (∃ p, silicons o.grid = [p]) ∧ 0 < o.fov.width ∧ 0 < o.fov.height ∧ 4 ≤ o.grid.positions.length ∧
    o.grid.positions.Nodup ∧ o.image.isSome = b := by
  obtain ⟨p, hsil, hsafe, _⟩ := step_view hc.swaps.keepsDoping hinv hs
  obtain ⟨fov, sheet0, c, sc, evs, evs', sheet', hfov, hg0, hd, hsc, hcf, h15, h30, happ, hobs, hmf, hg', hsc',
    hfov', hctl, himg, hatoms, hm⟩ := step_ok hinv hs
  rw [hg] at hg0
  cases hg0
  obtain ⟨hd', hp'⟩ := happ.doped hc.swaps.keepsDoping hd
  have hsq : IsSquare o.fov sc := by
    rcases hm with ⟨_, h, _⟩ | ⟨si, _, _, _, _, h, _⟩
    · rw [h, hcf]; exact centredFov_square c sc
    · rw [h]; exact centredFov_square si sc
  have hw : 0 < o.fov.width := by rw [hsq.1]; linarith
  have hh : 0 < o.fov.height := by rw [hsq.2]; linarith
  obtain ⟨hwf, hview⟩ := view_positions hmf hg' hd'.wf hw hh hatoms
  rw [hp', hpos] at hview
  have hmem : p ∈ o.grid.positions := by
    have : p ∈ silicons o.grid := by rw [hsil]; simp
    obtain ⟨i, hi, _⟩ := exists_silicon_index this
    exact List.mem_of_getElem? hi
  have hsi : place o p ∈ layOutSheet n off ang := by
    have := List.mem_map_of_mem (f := place o) hmem
    rw [hview] at this
    exact (List.mem_filter.1 this).1
  obtain ⟨h4, hnd, _⟩ := four_in_view hc.wide hw hh hview hsi
    (safe_room hsafe (by have := hsq.1; simp only [Fov.width] at this; rw [this]; exact h15)
      (by have := hsq.2; simp only [Fov.height] at this; rw [this]; exact h15))
  exact ⟨⟨sheet', hg', by rw [hp', hpos]⟩, hfov', hwf, ⟨p, hsil⟩, hw, hh, h4, hnd, himg⟩

/-- A step that starts within an episode: with an action of the right size it returns or a control takes too many
rounds; either way, and with any other action, play can go on. -/
theorem step_plays {cfg : EnvCfg ℝ G O P Img F} {n : ℕ} (hc : PlayCfg cfg n) {s : Env ℝ G O P Img}
    (h : Playing n s) (a : List ℝ) :
    Playing n (endState (Env.step cfg a s)) ∧
    (a.length = actionSize cfg.adapter → (∃ t s', Env.step cfg a s = .ok t s') ∨
      ((∃ s', Env.step cfg a s = .error .diverges s') ∧ (WaitsATick cfg.sim.rng → cfg.sim.fuel < 3600000000))) := by
  by_cases hq : s.requiresReset = true
  · obtain ⟨t, s', hr, hp⟩ := reset_plays hc h
    have : Env.step cfg a s = .ok t s' := by rw [envStep_eq, if_pos hq, hr]
    exact ⟨by rw [this]; exact hp, fun _ => .inl ⟨t, s', this⟩⟩
  simp only [Bool.not_eq_true] at hq
  obtain ⟨⟨fov, hfov⟩, ⟨g, off, ang, hg, hgp⟩, hwf, ⟨p, hp⟩, hw, hh⟩ := h.live hq
  have hrange := envStep_range cfg a s
  have hr' : GoalRangeOk (endState (Env.step cfg a s)).goal := by
    rw [GoalRangeOk, hrange.1, hrange.2]; exact h.range
  have hgood : GoodSheet g := by
    refine ⟨h.inv.doped g hg, ?_, ?_⟩
    · rw [hgp]
      obtain ⟨x, hx⟩ := List.exists_mem_of_ne_nil _ (sheet_ne_nil n hc.wide off ang)
      obtain ⟨b, c, d, hnd, hall⟩ := four_near n hc.wide off ang x hx
      have := (hnd.subperm (fun q hq => (hall q hq).1)).length_le
      simpa using this
    · rw [hgp]; exact (C40_honeycomb n off ang).1
  unfold Env.step at hr' ⊢
  simp only [hq, Bool.false_eq_true, if_false] at hr' ⊢
  cases hact : cfg.adapter.getAction s.last a s.beam with
  | error e beam =>
    simp only [hact] at hr' ⊢
    refine ⟨⟨h.inv, hr', fun _ => h.live hq⟩, fun hlen => ?_⟩
    obtain ⟨cs, beam', hok⟩ := (C24_total cfg.adapter s.last hwf hw.ne' hh.ne' a hlen s.beam).1
      (fun _ => by rw [hp]; rfl)
    rw [hact] at hok
    cases hok
  | ok cs beam =>
    simp only [hact] at hr' ⊢
    obtain ⟨c, rfl, _, _, hdw⟩ := C24_one_control_in_view cfg.adapter hc.dwellOrder s.last a s.beam beam cs hact
    have hsi := h.inv.step hc.swaps.keepsDoping [c] cfg.requiresImage
    rcases simStep_returns cfg.sim hc.lawful hc.swaps hc.rates cfg.requiresImage [c] (by
      intro x hx
      rw [List.mem_singleton.1 hx]
      exact lt_of_le_of_lt hdw hc.dwellHour) s.sim h.inv fov hfov g hg hgood with ⟨o, sim, hs⟩ | ⟨⟨sim, hs⟩, hfuel⟩
    · rw [hs] at hsi
      simp only [endState] at hsi
      obtain ⟨⟨g', hg', hgp'⟩, hfov', hwf', hp', hw', hh', h4, hnd, himg⟩ := step_shows hc h.inv hg hgp hs
      obtain ⟨f, hf⟩ := hc.features o s.goal hwf' hnd h4 hp' hw'.ne' hh'.ne' himg
      obtain ⟨k, hk, _⟩ := calculate_ok o s.goal hwf' (by
        obtain ⟨p', hp'⟩ := hp'
        simp [ShowsSilicon, hp'])
      simp only [hs, hf, hk] at hr' ⊢
      have hlive : (∃ fov, sim.fov = some fov) ∧
          (∃ g off ang, sim.ctx.mat.grid = some g ∧ g.positions = layOutSheet n off ang) ∧
          o.grid.WF ∧ (∃ p, silicons o.grid = [p]) ∧ 0 < o.fov.width ∧ 0 < o.fov.height :=
        ⟨⟨_, hfov'⟩, ⟨g', off, ang, hg', hgp'⟩, hwf', hp', hw', hh'⟩
      split_ifs at hr' ⊢
      all_goals exact ⟨⟨hsi, hr', fun _ => hlive⟩, fun _ => .inl ⟨_, _, rfl⟩⟩
    · simp only [hs] at hr' ⊢
      rw [hs] at hsi
      simp only [endState] at hsi
      refine ⟨⟨hsi, hr', fun _ => ⟨⟨fov, ?_⟩, ?_, hwf, ⟨p, hp⟩, hw, hh⟩⟩, fun _ => .inr ⟨⟨_, rfl⟩, hfuel⟩⟩
      · rw [endState]; dsimp only; rw [step_error_fov h.inv hs]; exact hfov
      · cases step_end cfg.sim [c] cfg.requiresImage s.sim fov g (h.inv.sheet fov hfov).1 hfov hg with
        | failed e s2 hs2 m evs evs' sheet' applied imaging obs matFlag grid flag scale params fovs =>
          rw [hs] at hs2
          cases hs2
          exact ⟨sheet', off, ang, grid, by rw [(applied.doped hc.swaps.keepsDoping hgood.doped).2, hgp]⟩
        | ok o s2 hs2 => rw [hs] at hs2; cases hs2

/-- A step of the environment returns if that of the simulator does. -/
theorem envStep_ok {cfg : EnvCfg ℝ G O P Img F} {n : ℕ} (hc : PlayCfg cfg n) {s : Env ℝ G O P Img}
    (h : Playing n s) (hq : s.requiresReset = false) {a : List ℝ} {cs : List (BeamControl ℝ)} {beam : V2 ℝ}
    (hact : cfg.adapter.getAction s.last a s.beam = .ok cs beam) {o : Observation ℝ Img} {sim : Sim ℝ G O P}
    (hs : Sim.step cfg.sim cs cfg.requiresImage s.sim = .ok o sim) : ∃ t s', Env.step cfg a s = .ok t s' := by
  obtain ⟨⟨fov, hfov⟩, ⟨g, off, ang, hg, hgp⟩, hwf, ⟨p, hp⟩, hw, hh⟩ := h.live hq
  obtain ⟨c, rfl, _, _, hdw⟩ := C24_one_control_in_view cfg.adapter hc.dwellOrder s.last a s.beam beam cs hact
  obtain ⟨⟨g', hg', hgp'⟩, hfov', hwf', hp', hw', hh', h4, hnd, himg⟩ := step_shows hc h.inv hg hgp hs
  obtain ⟨f, hf⟩ := hc.features o s.goal hwf' hnd h4 hp' hw'.ne' hh'.ne' himg
  obtain ⟨k, hk, _⟩ := calculate_ok o s.goal hwf' (by
    obtain ⟨p', hp'⟩ := hp'
    simp [ShowsSilicon, hp'])
  unfold Env.step
  simp only [hq, Bool.false_eq_true, if_false, hact, hs, hf, hk]
  split_ifs <;> exact ⟨_, _, rfl⟩

theorem exec_plays {cfg : EnvCfg ℝ G O P Img F} {n : ℕ} (hc : PlayCfg cfg n) {s : Env ℝ G O P Img}
    (h : Playing n s) (op : EnvOp ℝ O) : Playing n (Env.exec cfg s op) := by
  cases op with
  | reset =>
    obtain ⟨t, s', hr, hp⟩ := reset_plays hc h
    simp only [Env.exec, hr]
    exact hp
  | step a =>
    have := (step_plays hc h a).1
    simp only [Env.exec]
    cases hs : Env.step cfg a s <;> rw [hs] at this <;> exact this
  | seed z => exact ⟨SimInv.reseed h.inv _, h.range, h.live⟩
  | addObserver o => exact ⟨⟨h.inv.doped, h.inv.square, h.inv.sheet⟩, h.range, h.live⟩
  | removeObserver i =>
    simp only [Env.exec, Sim.removeObserver]
    split_ifs
    · exact ⟨⟨h.inv.doped, h.inv.square, h.inv.sheet⟩, h.range, h.live⟩
    · exact h

theorem after_plays {cfg : EnvCfg ℝ G O P Img F} {n : ℕ} (hc : PlayCfg cfg n) (ops : List (EnvOp ℝ O))
    {s : Env ℝ G O P Img} (h : Playing n s) : Playing n (Env.after cfg s ops) := by
  induction ops generalizing s with
  | nil => exact h
  | cons op ops ih => exact ih (exec_plays hc h op)

theorem fresh_plays (n : ℕ) (g : G) (ga : Option G) (beam : V2 ℝ) {goal : GoalState ℝ} (hgoal : GoalRangeOk goal) :
    Playing n (Env.fresh g ga beam goal : Env ℝ G O P Img) :=
  ⟨SimInv.fresh g [], hgoal, fun h => by simp [Env.fresh] at h⟩

/-! ### C99 playing never fails -/

/-- After any history of resets, steps (with actions of any size and values), seeding and changes of observers, a
reset returns, and a step with an action of the right size returns a time step, whatever the values in it.  The only
other outcome is that the loop over the transitions of a control does not end within its rounds. -/
theorem C99_never_fails (cfg : EnvCfg ℝ G O P Img F) (n : ℕ) (hc : PlayCfg cfg n) (g : G) (ga : Option G)
    (beam : V2 ℝ) (goal : GoalState ℝ) (hgoal : GoalRangeOk goal) (history : List (EnvOp ℝ O)) :
    (∃ t s', Env.reset cfg (Env.after cfg (Env.fresh g ga beam goal) history) = .ok t s') ∧
    ∀ a : List ℝ, a.length = actionSize cfg.adapter →
      (∃ t s', Env.step cfg a (Env.after cfg (Env.fresh g ga beam goal) history) = .ok t s') ∨
      (∃ s', Env.step cfg a (Env.after cfg (Env.fresh g ga beam goal) history) = .error .diverges s') := by
  have h := after_plays hc history (fresh_plays (O := O) (P := P) (Img := Img) n g ga beam hgoal)
  obtain ⟨t, s', hr, _⟩ := reset_plays hc h
  refine ⟨⟨t, s', hr⟩, fun a ha => ?_⟩
  rcases (step_plays hc h a).2 ha with h1 | ⟨h1, _⟩
  · exact .inl h1
  · exact .inr h1

/-- If no waiting time between transitions is below a microsecond, the loop ends, and the step returns. -/
theorem C99_returns (cfg : EnvCfg ℝ G O P Img F) (n : ℕ) (hc : PlayCfg cfg n) (hw : WaitsATick cfg.sim.rng)
    (hfuel : 3600000000 ≤ cfg.sim.fuel) (g : G) (ga : Option G) (beam : V2 ℝ) (goal : GoalState ℝ)
    (hgoal : GoalRangeOk goal) (history : List (EnvOp ℝ O)) (a : List ℝ) (ha : a.length = actionSize cfg.adapter) :
    ∃ t s', Env.step cfg a (Env.after cfg (Env.fresh g ga beam goal) history) = .ok t s' := by
  have h := after_plays hc history (fresh_plays (O := O) (P := P) (Img := Img) n g ga beam hgoal)
  rcases (step_plays hc h a).2 ha with h1 | ⟨_, h2⟩
  · exact h1
  · exact absurd (h2 hw) (by omega)

end

/-- The rate functions of the package give rates for all such sheets: the simple one, the human prior and every
mixture with proper parameters. -/
theorem C99_rates_defined (knn : Knn ℝ) :
    RatesDefined (pristineRates knn simpleCanonicalRates) ∧
    RatesDefined (pristineRates knn HumanPrior.default.predict) ∧
    ∀ m : Gmm, ValidMixture m → RatesDefined (m.call knn) := by
  have key : ∀ canon : CanonicalRateFn ℝ, (∀ (g : Grid ℝ) (p si : V2 ℝ) (idx : List ℕ),
      (∀ j ∈ idx, j < g.positions.length) →
      ∃ rates, canon g p si idx = .ok rates ∧ rates.length = idx.length ∧ ∀ r ∈ rates, 0 ≤ r) →
      RatesDefined (pristineRates knn canon) := by
    intro canon hcanon g p hd h4 hnd
    obtain ⟨i, si, nbrs, rates, ss, _, _, _, h, hlen, _⟩ :=
      C39_three_neighbour_swaps knn canon g p hd h4 hnd (fun s n hn => hcanon g p s n hn)
    exact ⟨ss, h, by rintro rfl; simp at hlen⟩
  refine ⟨key _ ?_, key _ ?_, ?_⟩
  · intro g p si idx hidx
    obtain ⟨rs, hrs⟩ := takeRows_inRange hidx
    refine ⟨rs.map (simpleRate p si), by simp [simpleCanonicalRates, hrs], by simp [(takeRows_ok hrs).1], ?_⟩
    intro r hr
    obtain ⟨q, _, rfl⟩ := List.mem_map.1 hr
    exact (C36_range_and_order p si q q).1.le
  · intro g p si idx hidx
    obtain ⟨nbrs, hn⟩ := takeRows_inRange hidx
    have hlog : 0 < Real.log 2 / 3 := by have := Real.log_pos one_lt_two; positivity
    obtain ⟨rates, h3, h4, h5⟩ := mapM_ok (f := HumanPrior.default.rateAt (V2.smul (1 / BOND) (p - si)))
      (l := getAngles (nbrs.map (fun n => n - si))) (P := fun _ r => 0 < r) (by
        intro a _
        obtain ⟨r, h1, h2, _⟩ := singleSiliconPriorRates_le default_posDef (V2.smul (1 / BOND) (p - si))
          (rotate HumanPrior.default.mean (-a)) hlog
        exact ⟨r, h1, h2⟩)
    refine ⟨rates, by simp only [HumanPrior.predict, hn, h3], by simp [h4, getAngles, (takeRows_ok hn).1], ?_⟩
    intro r hr
    obtain ⟨k, hk⟩ := List.mem_iff_getElem?.1 hr
    have hkl : k < (getAngles (nbrs.map (fun n => n - si))).length := by
      rw [← h4]; exact (List.getElem?_eq_some_iff.1 hk).1
    obtain ⟨b, hb, _, hpos⟩ := h5 k _ (List.getElem?_eq_getElem hkl)
    rw [hk] at hb
    cases hb
    exact hpos.le
  · intro m hm g p hd h4 hnd
    obtain ⟨i, si, nbrs, ss, norm, _, _, _, _, h, hlen, _⟩ := gmm_call knn m hm g p hd h4 hnd
    exact ⟨ss, h, by rintro rfl; simp at hlen⟩

section
variable {K G O P Img : Type} [Field K] [LinearOrder K] [IsStrictOrderedRing K] [FloorRing K]

/-- The bound of an hour is needed: where all rates are zero, a control of an hour or more raises `ValueError`, since
the waiting time stands in for "never" but is treated as a transition. -/
theorem C99_long_dwell_raises (rng : Rng K G) (handle : Event K Img → O → O) (rate : RateFunction K) (fuel : ℕ)
    (c : BeamControl K) (hc : 3600000000 ≤ c.dwellTime) (s : MatCtx K G O) (g : Grid K)
    (hflag : s.mat.hasBeenReset = true) (hg : s.mat.grid = some g) (ss : List (Successor K))
    (hrate : rate g c.position = .ok ss) (hne : ss ≠ []) (hzero : ∀ x ∈ ss, x.rate = 0) :
    ∃ s', Material.applyControl rng handle rate (fuel + 1) c s = .error .valueError s' := by
  have htot : totalRate ss = 0 := by
    unfold totalRate
    apply List.sum_eq_zero
    intro x hx
    obtain ⟨y, hy, rfl⟩ := List.mem_map.1 hx
    exact hzero y hy
  obtain ⟨t, g', ht, ht0, _⟩ := draw_ok rng hne s.g
  have ht0 := ht0 htot
  have hread : s.mat.read = .ok g := by simp [Material.read, hflag, hg]
  have h1 : (0 : ℤ) < c.dwellTime := by omega
  have h2 : (0 : ℤ) + t ≤ c.dwellTime := by omega
  rw [Material.applyControl, if_pos hflag, applyLoop]
  dsimp only
  rw [if_pos h1]
  simp only [hread, hrate, ht]
  rw [if_pos h2]
  simp only [performTransition, htot, if_true]
  exact ⟨_, rfl⟩

end

/-- An environment with the default sheet width, the human prior's rates, the default features and dwell times from
1.5 to 10 seconds, used to show that the assumptions of C99 can be met. -/
noncomputable def playCfg : EnvCfg ℝ Unit Unit Unit Unit (List ℝ) where
  sim := {
    fuel := 3600000000
    rng := Witness.rng 1
    generate := generatePristineGraphene (Witness.rng 1) 50
    rate := pristineRates Witness.knn HumanPrior.default.predict
    render := fun _ _ _ g => ((), g)
    sampleParams := fun g => ((), g)
    imageDuration := 2000000
    handle := fun _ o => o }
  adapter := .relative 1500000 10000000 BOND
  features := pristineFeatures Witness.knn
  requiresImage := false
  seedRng := fun _ => ()

theorem playCfg_ok : PlayCfg playCfg 50 :=
  ⟨Witness.rng_lawful zero_le_one, by norm_num, rfl, (C69_features_defined Witness.knn id).1 _,
    C39_pristine_swaps _ _, (C99_rates_defined Witness.knn).2.1, by decide, by decide⟩

/-- A step with an action out of range, after a history with an action of the wrong size. -/
example : ∃ t s', Env.step playCfg [1 / 2, -3, 7] (Env.after playCfg
    (Env.fresh () none ⟨0, 0⟩ GoalState.fresh : Env ℝ Unit Unit Unit Unit)
    [.reset, .step [0, 0, 1], .step [5], .seed 3, .step [1, 0, 0]]) = .ok t s' :=
  C99_returns playCfg 50 playCfg_ok (fun _ _ => by norm_num [playCfg, Witness.rng]) le_rfl () none ⟨0, 0⟩ _
    ⟨by norm_num [GoalState.fresh], by norm_num [GoalState.fresh], by norm_num [GoalState.fresh]⟩ _ _ rfl

/-- Zero rates and a control of an hour. -/
example : ∃ s', Material.applyControl (Witness.rng (1 : ℚ)) (fun (_ : Event ℚ Unit) (o : Unit) => o)
    (fun g _ => .ok [⟨g, 0⟩]) 5 (BeamControl.mk' 0 3600000000) ⟨(), ⟨true, some ⟨[0], [14]⟩⟩, []⟩
      = .error .valueError s' :=
  C99_long_dwell_raises _ _ _ 4 _ le_rfl _ ⟨[0], [14]⟩ rfl rfl [⟨⟨[0], [14]⟩, 0⟩] rfl (by simp) (by simp)

end PD.Props
