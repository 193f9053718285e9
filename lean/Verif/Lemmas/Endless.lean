/- Lemmas for C134: where the generator is after a call, and calls that return for all sufficiently many rounds. -/
import Verif.Spec.Endless
import Verif.Props.Chance

set_option linter.unusedSectionVars false
set_option linter.unusedSimpArgs false

namespace PD.Props
open PD PD.Spec

section
variable {G O P Img F : Type} {Good : G → Prop}

theorem draw_good {rng : Rng ℝ G} (hp : Patient rng Good) {ss : List (Successor ℝ)} {g g' : G} {t : Timedelta}
    (h : drawTransitionTime rng ss g = .ok (t, g')) (hg : Good g) : Good g' := by
  unfold drawTransitionTime at h
  split_ifs at h
  · simp only [Except.ok.injEq, Prod.mk.injEq] at h; rw [← h.2]; exact hp.exponential _ _ hg
  · simp only [Except.ok.injEq, Prod.mk.injEq] at h; rw [← h.2]; exact hp.exponential _ _ hg

theorem applyLoop_good {rng : Rng ℝ G} (hp : Patient rng Good) (handle : Event ℝ Img → O → O) (rate : RateFunction ℝ)
    (c : BeamControl ℝ) (fuel : ℕ) (t : Timedelta) (s : MatCtx ℝ G O) (hg : Good s.g) :
    Good (endState (applyLoop rng handle rate c fuel t s)).g := by
  induction fuel generalizing t s with
  | zero => rw [applyLoop]; split_ifs <;> exact hg
  | succ fuel ih =>
    by_cases h1 : t < c.dwellTime
    swap
    · rw [applyLoop_over _ _ h1]; exact hg
    rw [applyLoop_round _ _ h1]
    cases s.mat.read with
    | error e => exact hg
    | ok grid =>
    simp only
    cases rate grid c.position with
    | error e => exact hg
    | ok ss =>
    simp only
    cases hd : drawTransitionTime rng ss s.g with
    | error e => exact hg
    | ok x =>
    obtain ⟨dt, g⟩ := x
    have hg' := draw_good hp hd hg
    simp only
    split_ifs with h2
    · unfold performTransition
      split_ifs
      · exact hg'
      · simp only
        have hg2 := hp.choiceP (ss.map (fun x => x.rate / totalRate ss)) g hg'
        cases ss[(rng.choiceP (ss.map (fun x => x.rate / totalRate ss)) g).1]? with
        | none => exact hg2
        | some next => exact ih _ _ hg2
    · exact ih _ _ hg'

theorem applyControls_good {cfg : SimCfg ℝ G O P Img} (hp : Patient cfg.rng Good) (fov : Fov ℝ)
    (cs : List (BeamControl ℝ)) (el : Timedelta) (s : MatCtx ℝ G O) (hg : Good s.g) :
    Good (endState (applyControls cfg fov cs el s)).g := by
  induction cs generalizing el s with
  | nil => exact hg
  | cons c cs ih =>
    simp only [applyControls]
    set c' := BeamControl.mk' (fov.toMaterial c.position) c.dwellTime
    have h : Good (endState (Material.applyControl cfg.rng cfg.handle cfg.rate cfg.fuel c'
        { s with obs := notify cfg.handle (.applyControl c') s.obs })).g := by
      unfold Material.applyControl
      split_ifs
      · exact applyLoop_good hp cfg.handle cfg.rate c' cfg.fuel 0 _ hg
      · exact hg
    cases ha : Material.applyControl cfg.rng cfg.handle cfg.rate cfg.fuel c'
        { s with obs := notify cfg.handle (.applyControl c') s.obs } with
    | error e s2 => rw [ha] at h; exact h
    | ok u s2 => rw [ha] at h; exact ih _ _ h

theorem observe_gen (cfg : SimCfg ℝ G O P Img) (fov : Fov ℝ) (s : Sim ℝ G O P) :
    (endState (Sim.observe cfg fov s)).ctx.g = s.ctx.g := by
  unfold Sim.observe
  split <;> rfl

theorem recentre_gen (cfg : SimCfg ℝ G O P Img) (fov : Fov ℝ) (grid : Grid ℝ) (el : Timedelta) (s : Sim ℝ G O P) :
    (endState (Sim.recentre cfg fov grid el s)).ctx.g = s.ctx.g := by
  unfold Sim.recentre
  split
  · rfl
  · rfl
  · split
    · rfl
    · split
      · rfl
      · simp only [Sim.observe]
        cases Material.getAtomsInBounds s.ctx.mat _ _ <;> rfl

theorem maybeImage_good {cfg : SimCfg ℝ G O P Img} (hi : ∀ grid fov p g, Good g → Good (cfg.render grid fov p g).2)
    (b : Bool) (grid : Grid ℝ) (fov : Fov ℝ) (s : Sim ℝ G O P) (hg : Good s.ctx.g) :
    Good (endState (Sim.maybeImage cfg b grid fov s)).ctx.g := by
  unfold Sim.maybeImage
  split_ifs
  · split
    · exact hg
    · exact hi _ _ _ _ hg
  · exact hg

theorem observe_cases (cfg : SimCfg ℝ G O P Img) (fov : Fov ℝ) (s : Sim ℝ G O P) :
    (∃ e, Sim.observe cfg fov s = .error e s) ∨ ∃ grid s', Sim.observe cfg fov s = .ok grid s' ∧ s'.ctx.g = s.ctx.g := by
  unfold Sim.observe
  cases s.ctx.mat.getAtomsInBounds fov.lowerLeft fov.upperRight with
  | error e => exact .inl ⟨e, rfl⟩
  | ok grid => exact .inr ⟨grid, _, rfl, rfl⟩

theorem simStep_good {cfg : SimCfg ℝ G O P Img} (hp : Patient cfg.rng Good)
    (hi : ∀ grid fov p g, Good g → Good (cfg.render grid fov p g).2) (cs : List (BeamControl ℝ)) (b : Bool)
    (s : Sim ℝ G O P) (hg : Good s.ctx.g) : Good (endState (Sim.step cfg cs b s)).ctx.g := by
  unfold Sim.step
  split_ifs
  swap
  · exact hg
  cases hf : s.fov with
  | none => exact hg
  | some fov =>
    simp only
    have h1 := applyControls_good hp fov cs 0 s.ctx hg
    cases ha : applyControls cfg fov cs 0 s.ctx with
    | error e c => rw [ha] at h1; exact h1
    | ok el c =>
      rw [ha] at h1
      simp only
      simp only [endState] at h1
      rcases observe_cases cfg fov ⟨c, s.hasBeenReset, s.fovScale, some fov, s.imageParams⟩ with
        ⟨e, ho⟩ | ⟨grid, s1, ho, hs1⟩
      · simp only [hf, ho]; exact h1
      · simp only [hf, ho]
        replace hs1 : Good s1.ctx.g := by rw [hs1]; exact h1
        have h3 := recentre_gen cfg fov grid (el + cfg.imageDuration) s1
        cases hr : Sim.recentre cfg fov grid (el + cfg.imageDuration) s1 with
        | error e s2 => rw [hr] at h3; simp only [endState] at h3 ⊢; rw [h3]; exact hs1
        | ok x s2 =>
          obtain ⟨grid', fov', el'⟩ := x
          rw [hr] at h3
          simp only
          have hs2 : Good s2.ctx.g := by simp only [endState] at h3; rw [h3]; exact hs1
          have h4 := maybeImage_good (cfg := cfg) hi b grid' fov' s2 hs2
          cases hm : Sim.maybeImage cfg b grid' fov' s2 with
          | error e s3 => rw [hm] at h4; exact h4
          | ok img s3 => rw [hm] at h4; exact h4

theorem simReset_good {cfg : EnvCfg ℝ G O P Img F} (hp : PatientEnv cfg Good) {n : ℕ}
    (hgen : cfg.sim.generate = generatePristineGraphene cfg.sim.rng n) (b : Bool) (s : Sim ℝ G O P)
    (hg : Good s.ctx.g) : Good (endState (Sim.reset cfg.sim b s)).ctx.g := by
  have h0 : Good (cfg.sim.generate s.ctx.g).2 := by
    rw [hgen]
    simp only [generatePristineGraphene]
    exact hp.rng.uniform _ _ _ (hp.rng.uniform _ _ _ (hp.rng.uniform _ _ _ hg))
  unfold Sim.reset
  simp only
  have h1 : Good (endState (Material.reset cfg.sim.generate s.ctx)).g := by
    unfold Material.reset
    simp only
    split <;> exact h0
  cases hm : Material.reset cfg.sim.generate s.ctx with
  | error e c => rw [hm] at h1; exact h1
  | ok u c =>
    rw [hm] at h1
    simp only [endState] at h1
    have h2 := hp.rng.uniform 15 30 c.g h1
    simp only
    split
    · exact h2
    · rename_i si _
      cases c.mat.grid with
      | none => exact h2
      | some sheet =>
        simp only [Sim.observe]
        cases Material.getAtomsInBounds c.mat _ _ with
        | error e => exact h2
        | ok grid =>
          simp only
          have h6 := hp.params _ h2
          unfold Sim.maybeImage
          cases b
          · exact h6
          · exact hp.images _ _ _ _ h6

/-- Holding the beam ends if a wait of an hour comes up sooner or later. -/
theorem loop_settles {rng : Rng ℝ G} (hl : rng.Lawful) (handle : Event ℝ Img → O → O) {rate : RateFunction ℝ}
    {c : BeamControl ℝ} (hc : c.dwellTime < 3600000000) {Sheets : Grid ℝ → Prop} {B : ℝ}
    (ho : Orderly rate c.position Sheets B) {g : G} (hw : WaitsLong rng (1 / max B 1) 3600 g) (t : Timedelta) (ht : 0 ≤ t)
    (s : MatCtx ℝ G O) (hsg : s.g = g) (hflag : s.mat.hasBeenReset = true) (sheet : Grid ℝ)
    (hgrid : s.mat.grid = some sheet) (hsheet : Sheets sheet) :
    ∃ fuel s', applyLoop rng handle rate c fuel t s = .ok () s' := by
  induction hw generalizing t s sheet with
  | now h =>
    rename_i g
    by_cases h1 : t < c.dwellTime
    swap
    · exact ⟨0, s, applyLoop_over _ _ h1⟩
    have hread : s.mat.read = .ok sheet := by simp [Material.read, hflag, hgrid]
    obtain ⟨ss, hss, hne, hall, hB⟩ := ho.rates sheet hsheet
    obtain ⟨dt, g', hd, hdt⟩ : ∃ dt g', drawTransitionTime rng ss s.g = .ok (dt, g') ∧ dt = 3600000000 := by
      unfold drawTransitionTime
      split_ifs with h2 h3
      · cases ss <;> simp at hne h3
      · exact ⟨_, _, rfl, ofSeconds_hour⟩
      · refine ⟨_, _, rfl, ?_⟩
        have hpos : 0 < totalRate ss := lt_of_le_of_ne (totalRate_nonneg fun y hy => (hall y hy).1) (Ne.symm h2)
        have := h (1 / totalRate ss) (one_div_le_one_div_of_le hpos (le_trans hB (le_max_left _ _)))
        rw [hsg, min_eq_right this, ofSeconds_hour]
    refine ⟨1, { s with g := g' }, ?_⟩
    rw [applyLoop_round _ _ h1]
    simp only [hread, hss, hd]
    rw [if_neg (by omega), applyLoop_over _ _ (by omega)]
  | later h ih =>
    rename_i g
    by_cases h1 : t < c.dwellTime
    swap
    · exact ⟨0, s, applyLoop_over _ _ h1⟩
    have hread : s.mat.read = .ok sheet := by simp [Material.read, hflag, hgrid]
    obtain ⟨ss, hss, hne, hall, hB⟩ := ho.rates sheet hsheet
    by_cases h2 : totalRate ss = 0
    · obtain ⟨dt, g', hd, hdt, -⟩ := draw_ok rng hne s.g
      refine ⟨1, { s with g := g' }, ?_⟩
      rw [applyLoop_round _ _ h1]
      simp only [hread, hss, hd]
      have := hdt h2
      rw [if_neg (by omega), applyLoop_over _ _ (by omega)]
    have hpos : 0 < totalRate ss := lt_of_le_of_ne (totalRate_nonneg fun y hy => (hall y hy).1) (Ne.symm h2)
    have hd : drawTransitionTime rng ss s.g = .ok (ofSeconds (min (rng.exponential (1 / totalRate ss) g).1 3600),
        (rng.exponential (1 / totalRate ss) g).2) := by
      unfold drawTransitionTime
      rw [if_neg h2, hsg]
    have h0 := drawTransitionTime_nonneg hl (fun y hy => (hall y hy).1) hd
    set dt := ofSeconds (min (rng.exponential (1 / totalRate ss) g).1 3600)
    by_cases h3 : t + dt ≤ c.dwellTime
    swap
    · refine ⟨1, { s with g := (rng.exponential (1 / totalRate ss) g).2 }, ?_⟩
      rw [applyLoop_round _ _ h1]
      simp only [hread, hss, hd]
      rw [if_neg h3, applyLoop_over _ _ (by omega)]
    obtain ⟨q, hq, -⟩ := hl.choiceP_lt (ss.map (fun x => x.rate / totalRate ss)) (rng.exponential (1 / totalRate ss) g).2
      (by
        intro q hq
        obtain ⟨x, hx, rfl⟩ := List.mem_map.1 hq
        exact div_nonneg (hall x hx).1 hpos.le) (probs_sum h2)
    rw [List.getElem?_map] at hq
    cases hn : ss[(rng.choiceP (ss.map (fun x => x.rate / totalRate ss)) (rng.exponential (1 / totalRate ss) g).2).1]? with
    | none => rw [hn] at hq; cases hq
    | some next =>
      obtain ⟨fuel, s', hs'⟩ := ih (1 / totalRate ss)
        (one_div_le_one_div_of_le hpos (le_trans hB (le_max_left _ _)))
        (ss.map (fun x => x.rate / totalRate ss)) (t + dt) (by omega)
        { s with
          g := (rng.choiceP (ss.map (fun x => x.rate / totalRate ss)) (rng.exponential (1 / totalRate ss) g).2).2
          mat := { s.mat with grid := some next.grid }
          obs := notify handle (.transition (t + dt) next.grid) s.obs } rfl hflag next.grid rfl
        (hall next (List.mem_of_getElem? hn)).2
      refine ⟨fuel + 1, s', ?_⟩
      rw [applyLoop_round _ _ h1]
      simp only [hread, hss, hd]
      rw [if_pos h3]
      simp only [performTransition, h2, if_false, hn]
      exact hs'

/-- All controls are applied, for all sufficiently many rounds. -/
theorem controls_settle {cfg : SimCfg ℝ G O P Img} (hp : Patient cfg.rng Good) (hl : cfg.rng.Lawful)
    (hr : SwapRates cfg.rate) (hdef : RatesDefined cfg.rate) (fov : Fov ℝ) (cs : List (BeamControl ℝ))
    (hd : ∀ c ∈ cs, c.dwellTime < 3600000000) (el : Timedelta) (s : MatCtx ℝ G O) (sheet : Grid ℝ)
    (hflag : s.mat.hasBeenReset = true) (hgrid : s.mat.grid = some sheet) (hgood : GoodSheet sheet) (hg : Good s.g) :
    ∃ rounds el' s', ∀ fuel, rounds ≤ fuel → applyControls { cfg with fuel := fuel } fov cs el s = .ok el' s' := by
  suffices h : ∃ fuel el' s', applyControls { cfg with fuel := fuel } fov cs el s = .ok el' s' by
    obtain ⟨fuel, el', s', h⟩ := h
    exact ⟨fuel, el', s', fun k hk => applyControls_more h k hk⟩
  induction cs generalizing el s sheet with
  | nil => exact ⟨0, _, _, rfl⟩
  | cons c cs ih =>
    set c' := BeamControl.mk' (fov.toMaterial c.position) c.dwellTime with hc'
    set s1 : MatCtx ℝ G O := { s with obs := notify cfg.handle (.applyControl c') s.obs } with hs1
    obtain ⟨B, ho⟩ := orderly hr hdef c'.position hgood
    obtain ⟨fuel1, s2, h1⟩ := loop_settles hl cfg.handle (c := c') (hd c List.mem_cons_self) ho
      (hp.waits s.g hg (1 / max B 1) 3600 (by positivity)) 0 le_rfl s1 rfl hflag sheet hgrid ⟨hgood.doped, rfl⟩
    have h1' : Material.applyControl cfg.rng cfg.handle cfg.rate fuel1 c' s1 = .ok () s2 := by
      simp only [Material.applyControl, show s1.mat.hasBeenReset = true from hflag, if_true]; exact h1
    have hg2 : Good s2.g := by
      have := applyLoop_good hp cfg.handle cfg.rate c' fuel1 0 s1 hg
      rw [h1] at this
      exact this
    obtain ⟨trs, ht⟩ := applyControl_trace cfg.rng cfg.handle cfg.rate fuel1 c' s1
    rw [h1'] at ht
    have heff : ControlEffect cfg.rate c'.position c'.dwellTime sheet trs ((trs.getLast?.map Prod.snd).getD sheet) :=
      ⟨ht.chain sheet hgrid, rfl, ht.le⟩
    have happ := (Applied.cons (Img := Img) heff (.nil _)).doped hr.doped hgood.doped
    have hgrid2 : s2.mat.grid = some ((trs.getLast?.map Prod.snd).getD sheet) := by
      have := ht.grid
      simp only [endState] at this
      rw [this, show s1.mat.grid = some sheet from hgrid]
      cases trs.getLast? <;> simp
    obtain ⟨fuel2, el', s', h2⟩ := ih (fun c hc => hd c (List.mem_cons_of_mem _ hc)) (el + c'.dwellTime) s2 _
      (ht.reset.trans hflag) hgrid2 ⟨happ.1, by rw [happ.2]; exact hgood.four, by rw [happ.2]; exact hgood.nodup⟩ hg2
    refine ⟨max fuel1 fuel2, el', s', ?_⟩
    simp only [applyControls]
    rw [← hc', ← hs1, applyControl_more h1' _ (le_max_left _ _)]
    exact applyControls_more h2 _ (le_max_right _ _)

/-- A step of the simulator depends on the bound on rounds only through its controls. -/
theorem simStep_rounds (cfg : SimCfg ℝ G O P Img) (cs : List (BeamControl ℝ)) (b : Bool) (s : Sim ℝ G O P) (fov : Fov ℝ)
    (hfov : s.fov = some fov) (k l : ℕ)
    (h : applyControls { cfg with fuel := k } fov cs 0 s.ctx = applyControls { cfg with fuel := l } fov cs 0 s.ctx) :
    Sim.step { cfg with fuel := k } cs b s = Sim.step { cfg with fuel := l } cs b s := by
  unfold Sim.step
  simp only [hfov, h]
  rfl

theorem withRounds_plays {cfg : EnvCfg ℝ G O P Img F} {n : ℕ} (hc : PlayCfg cfg n) (k : ℕ) :
    PlayCfg (withRounds cfg k) n :=
  ⟨hc.lawful, hc.wide, hc.generate, hc.features, hc.swaps, hc.rates, hc.dwellOrder, hc.dwellHour⟩

theorem withRounds_patient {cfg : EnvCfg ℝ G O P Img F} (hp : PatientEnv cfg Good) (k : ℕ) :
    PatientEnv (withRounds cfg k) Good := ⟨hp.rng, hp.params, hp.images, hp.seeds⟩

theorem reset_rounds (cfg : EnvCfg ℝ G O P Img F) (k : ℕ) (s : Env ℝ G O P Img) :
    Env.reset (withRounds cfg k) s = Env.reset cfg s := rfl

/-- Play can go on, with a good generator. -/
structure Ready (n : ℕ) (Good : G → Prop) (s : Env ℝ G O P Img) : Prop where
  plays : Playing n s
  good : Good s.sim.ctx.g

theorem envReset_good {cfg : EnvCfg ℝ G O P Img F} (hp : PatientEnv cfg Good) {n : ℕ}
    (hgen : cfg.sim.generate = generatePristineGraphene cfg.sim.rng n) (s : Env ℝ G O P Img) (hg : Good s.sim.ctx.g) :
    Good (endState (Env.reset cfg s)).sim.ctx.g := by
  have h1 := simReset_good hp hgen cfg.requiresImage s.sim hg
  rw [envReset_eq]
  cases hr : Sim.reset cfg.sim cfg.requiresImage s.sim with
  | error e sim => rw [hr] at h1; exact h1
  | ok o sim =>
    rw [hr] at h1
    simp only [endState] at h1
    dsimp only
    have h2 : Good (Env.resetAdapter cfg { s with requiresReset := false, sim := sim, last := o }).sim.ctx.g := by
      unfold Env.resetAdapter
      split
      · exact h1
      · dsimp only
        unfold Adapter.reset
        split
        · exact hp.rng.uniform _ _ _ (hp.rng.uniform _ _ _ h1)
        · exact h1
    generalize Env.resetAdapter cfg { s with requiresReset := false, sim := sim, last := o } = s2 at h2
    unfold Env.resetTail
    cases hgoal : GoalState.reset cfg.sim.rng s2.last s2.goal s2.sim.ctx.g with
    | error e => exact h2
    | ok x =>
      obtain ⟨goal, g⟩ := x
      have h3 : Good g := by
        unfold GoalState.reset at hgoal
        split at hgoal
        · cases hgoal
        · dsimp only at hgoal
          split_ifs at hgoal
          split at hgoal
          · cases hgoal
          · simp only [Except.ok.injEq, Prod.mk.injEq] at hgoal
            rw [← hgoal.2]
            exact hp.rng.choice _ _ h2
      dsimp only
      split <;> exact h3

theorem envStep_good {cfg : EnvCfg ℝ G O P Img F} (hp : PatientEnv cfg Good) {n : ℕ}
    (hgen : cfg.sim.generate = generatePristineGraphene cfg.sim.rng n) (a : List ℝ) (s : Env ℝ G O P Img)
    (hg : Good s.sim.ctx.g) : Good (endState (Env.step cfg a s)).sim.ctx.g := by
  unfold Env.step
  split_ifs
  · exact envReset_good hp hgen s hg
  cases cfg.adapter.getAction s.last a s.beam with
  | error e beam => exact hg
  | ok cs beam =>
    dsimp only
    have h1 := simStep_good hp.rng hp.images cs cfg.requiresImage s.sim hg
    cases hs : Sim.step cfg.sim cs cfg.requiresImage s.sim with
    | error e sim => rw [hs] at h1; exact h1
    | ok o sim =>
      rw [hs] at h1
      dsimp only
      split
      · exact h1
      · split
        · exact h1
        · split_ifs <;> exact h1

/-- A reset returns the same for every number of rounds, and play can go on. -/
theorem reset_settles {cfg : EnvCfg ℝ G O P Img F} {n : ℕ} (hc : PlayCfg cfg n) (hp : PatientEnv cfg Good)
    {s : Env ℝ G O P Img} (h : Ready n Good s) :
    ∃ t s', (∀ fuel, Env.reset (withRounds cfg fuel) s = .ok t s') ∧ Ready n Good s' := by
  obtain ⟨t, s', hr, hs'⟩ := reset_plays hc h.plays
  have := envReset_good hp hc.generate s h.good
  rw [hr] at this
  exact ⟨t, s', fun fuel => (reset_rounds cfg fuel s).trans hr, hs', this⟩

/-- A step with any action ends in the same way for all sufficiently many rounds; if the action has the right size, it
returns a time step. -/
theorem step_settles {cfg : EnvCfg ℝ G O P Img F} {n : ℕ} (hc : PlayCfg cfg n) (hp : PatientEnv cfg Good)
    {s : Env ℝ G O P Img} (h : Ready n Good s) (a : List ℝ) :
    ∃ rounds r, (∀ fuel, rounds ≤ fuel → Env.step (withRounds cfg fuel) a s = r) ∧ Ready n Good (endState r) ∧
      (a.length = actionSize cfg.adapter → ∃ t s', r = .ok t s') := by
  by_cases hq : s.requiresReset = true
  · obtain ⟨t, s', h1, h2⟩ := reset_settles hc hp h
    exact ⟨0, .ok t s', fun fuel _ => by rw [envStep_eq, if_pos hq, h1], h2, fun _ => ⟨t, s', rfl⟩⟩
  simp only [Bool.not_eq_true] at hq
  have hready : ∀ k, Ready n Good (endState (Env.step (withRounds cfg k) a s)) := fun k =>
    ⟨(step_plays (withRounds_plays hc k) h.plays a).1,
      envStep_good (withRounds_patient hp k) hc.generate a s h.good⟩
  obtain ⟨⟨fov, hfov⟩, ⟨sheet, off, ang, hg, hgp⟩, hwf, ⟨p, hpp⟩, hw, hh⟩ := h.plays.live hq
  cases hact : cfg.adapter.getAction s.last a s.beam with
  | error e beam =>
    have he : ∀ k, Env.step (withRounds cfg k) a s = .error e { s with beam := beam } := by
      intro k
      rw [envStep_eq, hq]
      simp only [Bool.false_eq_true, if_false, withRounds, hact]
    refine ⟨0, _, fun fuel _ => he fuel, by rw [← he 0]; exact hready 0, fun hlen => ?_⟩
    obtain ⟨cs, beam', hok⟩ := (C24_total cfg.adapter s.last hwf hw.ne' hh.ne' a hlen s.beam).1
      (fun _ => by rw [hpp]; rfl)
    rw [hact] at hok
    cases hok
  | ok cs beam =>
    obtain ⟨c, rfl, _, _, hdw⟩ := C24_one_control_in_view cfg.adapter hc.dwellOrder s.last a s.beam beam cs hact
    have hgood : GoodSheet sheet := by
      refine ⟨h.plays.inv.doped sheet hg, ?_, ?_⟩
      · rw [hgp]
        obtain ⟨x, hx⟩ := List.exists_mem_of_ne_nil _ (sheet_ne_nil n hc.wide off ang)
        obtain ⟨b, c, d, hnd, hall⟩ := four_near n hc.wide off ang x hx
        have := (hnd.subperm (fun q hq => (hall q hq).1)).length_le
        simpa using this
      · rw [hgp]; exact (C40_honeycomb n off ang).1
    have hflag := (h.plays.inv.sheet fov hfov).2.1
    obtain ⟨rounds, el, c', hcs⟩ := controls_settle hp.rng hc.lawful hc.swaps hc.rates fov [c] (by
      intro x hx
      rw [List.mem_singleton.1 hx]
      exact lt_of_le_of_lt hdw hc.dwellHour) 0 s.sim.ctx sheet hflag hg hgood h.good
    have hsame : ∀ fuel, rounds ≤ fuel → Env.step (withRounds cfg fuel) a s = Env.step (withRounds cfg rounds) a s := by
      intro fuel hfuel
      have h1 := simStep_rounds cfg.sim [c] cfg.requiresImage s.sim fov hfov fuel rounds
        ((hcs fuel hfuel).trans (hcs rounds le_rfl).symm)
      unfold Env.step
      simp only [hq, Bool.false_eq_true, if_false, withRounds, hact, h1]
    refine ⟨rounds, _, hsame, hready rounds, fun _ => ?_⟩
    obtain ⟨o, sim, hs⟩ := simStep_ok { cfg.sim with fuel := rounds } hc.swaps cfg.requiresImage [c] s.sim h.plays.inv fov
      hfov sheet hg hgood (hcs rounds le_rfl)
    exact envStep_ok (withRounds_plays hc rounds) h.plays hq hact hs

/-- The same for everything a client can do. -/
theorem exec_settles {cfg : EnvCfg ℝ G O P Img F} {n : ℕ} (hc : PlayCfg cfg n) (hp : PatientEnv cfg Good)
    {s : Env ℝ G O P Img} (h : Ready n Good s) (op : EnvOp ℝ O) :
    ∃ rounds s', (∀ fuel, rounds ≤ fuel → Env.exec (withRounds cfg fuel) s op = s') ∧ Ready n Good s' := by
  have hplays := fun k => exec_plays (withRounds_plays hc k) h.plays op
  cases op with
  | reset =>
    obtain ⟨t, s', h1, h2⟩ := reset_settles hc hp h
    exact ⟨0, s', fun fuel _ => by simp only [Env.exec, h1], h2⟩
  | step a =>
    obtain ⟨rounds, r, h1, h2, -⟩ := step_settles hc hp h a
    refine ⟨rounds, endState r, fun fuel hf => ?_, h2⟩
    simp only [Env.exec, h1 fuel hf]
    cases r <;> rfl
  | seed z => exact ⟨0, _, fun fuel _ => rfl, hplays 0, hp.seeds z⟩
  | addObserver o => exact ⟨0, _, fun fuel _ => rfl, hplays 0, h.good⟩
  | removeObserver i =>
    refine ⟨0, _, fun fuel _ => rfl, hplays 0, ?_⟩
    simp only [Env.exec, Sim.removeObserver]
    split_ifs
    · exact h.good
    · exact h.good

end
end PD.Props
