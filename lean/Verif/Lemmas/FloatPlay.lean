/- Lemmas about histories of the environment with floating point numbers. -/
import Verif.Lemmas.FloatEnv

set_option linter.unusedSectionVars false
set_option linter.unusedSimpArgs false

namespace PD
open PD.Spec PD.Props
variable {G O P Img F : Type}

/-! ### Actions -/

theorem floatDwell_mem (v : NumpyVersion) (p : Precision) {lo hi : Timedelta} (h0 : 0 ≤ lo) (hm : lo ≤ hi)
    (h1 : hi ≤ 86400000000) {act : List ℝ} {d : Timedelta} (h : floatDwell v p lo hi act = .ok d) : lo ≤ d ∧ d ≤ hi := by
  have key : ∀ v p, (v = .one ∨ p = .double) → floatDwell v p lo hi act = .ok d → lo ≤ d ∧ d ≤ hi := by
    intro v p hvp h
    obtain ⟨k1, k2⟩ := C137_dwell_partial v p hvp lo hi h0 hm h1 act
    cases he : dwellOf lo hi act with
    | error e => rw [k2 e he] at h; cases h
    | ok x =>
      obtain ⟨d', e1, e2, e3, _⟩ := k1 x he
      rw [h] at e1
      cases e1
      exact ⟨e2, e3⟩
  by_cases heq : lo = hi
  · refine key .one p (.inl rfl) ?_
    unfold floatDwell at h ⊢
    rw [if_pos heq] at h ⊢
    exact h
  · cases v with
    | one => exact key _ _ (.inl rfl) h
    | two =>
      cases p with
      | double => exact key _ _ (.inr rfl) h
      | single =>
        exfalso
        unfold floatDwell at h
        rw [if_neg heq] at h
        cases ha : act[2]? with
        | none => simp [ha] at h
        | some x => simp [ha, withPythonNumber, timedeltaOf] at h

theorem floatDwell_total {v : NumpyVersion} {p : Precision} {lo hi : Timedelta} (hvp : v = .one ∨ p = .double ∨ lo = hi)
    {act : List ℝ} (hlen : lo ≠ hi → 3 ≤ act.length) : ∃ d, floatDwell v p lo hi act = .ok d := by
  unfold floatDwell
  by_cases heq : lo = hi
  · rw [if_pos heq]
    exact ⟨_, rfl⟩
  · rw [if_neg heq, List.getElem?_eq_getElem (by have := hlen heq; omega)]
    have hq : withPythonNumber v p = .double := by
      rcases hvp with rfl | rfl | h
      · rfl
      · cases v <;> rfl
      · exact absurd h heq
    rw [hq]
    exact ⟨_, rfl⟩

theorem clip_unit (x : ℝ) : 0 ≤ clip x 0 1 ∧ clip x 0 1 ≤ 1 := by
  have := clip2_inUnit (K := ℝ) ⟨x, x⟩
  exact this.1

/-- An action that is accepted gives one control, within the image, for a time within the range of the adapter. -/
theorem floatAction_mem (v : NumpyVersion) (p : Precision) {a : Adapter ℝ} (h0 : 0 ≤ (dwellRange a).1)
    (hm : (dwellRange a).1 ≤ (dwellRange a).2) (h1 : (dwellRange a).2 ≤ 86400000000) {o : Observation ℝ Img}
    {act : List ℝ} {beam beam' : V2 ℝ} {cs : List (BeamControl ℝ)}
    (h : a.floatGetAction v p o act beam = .ok cs beam') :
    ∃ c, cs = [c] ∧ InUnit c.position ∧ (dwellRange a).1 ≤ c.dwellTime ∧ c.dwellTime ≤ (dwellRange a).2 := by
  unfold Adapter.floatGetAction at h
  cases a with
  | direct =>
    dsimp only at h
    cases hp : action2 act with
    | error e => simp [hp] at h
    | ok q =>
      simp only [hp, EStateM.Result.ok.injEq] at h
      exact ⟨_, h.1.symm, clip2_inUnit _, by simp [dwellRange, BeamControl.mk', fixedDwell]⟩
  | delta =>
    dsimp only at h
    cases hp : action2 act with
    | error e => simp [hp] at h
    | ok q =>
      simp only [hp, EStateM.Result.ok.injEq] at h
      exact ⟨_, h.1.symm, clip2_inUnit _, by simp [dwellRange, BeamControl.mk', fixedDwell]⟩
  | relative lo hi md =>
    dsimp only at h
    cases hs : oneSilicon o.grid with
    | error e => simp [hs] at h
    | ok si =>
      simp only [hs] at h
      split_ifs at h
      cases hp : actionPrefix2 act with
      | error e => simp [hp] at h
      | ok q =>
        simp only [hp] at h
        cases hd : floatDwell v p lo hi act with
        | error e => simp [hd] at h
        | ok d =>
          simp only [hd, EStateM.Result.ok.injEq] at h
          exact ⟨_, h.1.symm, ⟨clip_unit _, clip_unit _⟩, floatDwell_mem v p h0 hm h1 hd⟩
  | materialFrame lo hi md =>
    dsimp only at h
    cases hs : oneSilicon o.grid with
    | error e => simp [hs] at h
    | ok si =>
      simp only [hs] at h
      cases hp : actionPrefix2 act with
      | error e => simp [hp] at h
      | ok q =>
        simp only [hp] at h
        cases hd : floatDwell v p lo hi act with
        | error e => simp [hd] at h
        | ok d =>
          simp only [hd, EStateM.Result.ok.injEq] at h
          exact ⟨_, h.1.symm, ⟨clip_unit _, clip_unit _⟩, floatDwell_mem v p h0 hm h1 hd⟩

theorem floatAction_total {v : NumpyVersion} {p : Precision} {a : Adapter ℝ}
    (hvp : v = .one ∨ p = .double ∨ (dwellRange a).1 = (dwellRange a).2) {o : Observation ℝ Img} (hw : o.grid.WF)
    {q : V2 ℝ} (hq : silicons o.grid = [q]) (hf : FloatRect o.fov) {act : List ℝ} (hlen : act.length = actionSize a)
    (beam : V2 ℝ) : ∃ cs beam', a.floatGetAction v p o act beam = .ok cs beam' := by
  have hone : oneSilicon o.grid = .ok q := by simp [oneSilicon, getSiliconPositions_eq_silicons hw, hq]
  obtain ⟨px, py⟩ := hf.pos
  unfold Adapter.floatGetAction
  cases a with
  | direct =>
    obtain ⟨x, y, rfl⟩ := List.length_eq_two.1 hlen
    exact ⟨_, _, rfl⟩
  | delta =>
    obtain ⟨x, y, rfl⟩ := List.length_eq_two.1 hlen
    exact ⟨_, _, rfl⟩
  | relative lo hi md =>
    have hl2 : 2 ≤ act.length := by
      rw [hlen]
      simp only [actionSize]
      split_ifs <;> omega
    obtain ⟨d, hd⟩ := floatDwell_total (v := v) (p := p) (lo := lo) (hi := hi) (act := act) hvp (fun hne => by
      rw [hlen]; simp [actionSize, hne])
    obtain ⟨x, y, rest, rfl⟩ : ∃ x y rest, act = x :: y :: rest := by
      match act, hl2 with
      | x :: y :: rest, _ => exact ⟨x, y, rest, rfl⟩
    have hz : ¬ (f64 (o.fov.upperRight.x - o.fov.lowerLeft.x) = 0 ∨ f64 (o.fov.upperRight.y - o.fov.lowerLeft.y) = 0) := by
      rintro (h | h)
      · exact px.ne' h
      · exact py.ne' h
    simp only [hone, if_neg hz, actionPrefix2, hd]
    exact ⟨_, _, rfl⟩
  | materialFrame lo hi md =>
    have hl2 : 2 ≤ act.length := by
      rw [hlen]
      simp only [actionSize]
      split_ifs <;> omega
    obtain ⟨d, hd⟩ := floatDwell_total (v := v) (p := p) (lo := lo) (hi := hi) (act := act) hvp (fun hne => by
      rw [hlen]; simp [actionSize, hne])
    obtain ⟨x, y, rest, rfl⟩ : ∃ x y rest, act = x :: y :: rest := by
      match act, hl2 with
      | x :: y :: rest, _ => exact ⟨x, y, rest, rfl⟩
    simp only [hone, actionPrefix2, hd]
    exact ⟨_, _, rfl⟩

/-! ### Play -/

theorem maybeImage_isSome {cfg : SimCfg ℝ G O P Img} {b : Bool} {grid : Grid ℝ} {f : Fov ℝ} {s s' : Sim ℝ G O P}
    {img : Option Img} (h : Sim.maybeImage cfg b grid f s = .ok img s') : img.isSome = b := by
  unfold Sim.maybeImage at h
  cases b with
  | false =>
    simp only [Bool.false_eq_true, if_false, EStateM.Result.ok.injEq] at h
    rw [← h.1]; rfl
  | true =>
    rw [if_pos rfl] at h
    cases hp : s.imageParams with
    | none => simp [hp] at h
    | some p =>
      simp only [hp, EStateM.Result.ok.injEq] at h
      rw [← h.1]; rfl

theorem floatReset_image {cfg : FloatSimCfg G O P Img} {b : Bool} {s s' : Sim ℝ G O P} {o : Observation ℝ Img}
    (h : Sim.floatReset cfg b s = .ok o s') : o.image.isSome = b := by
  unfold Sim.floatReset at h
  repeat' (first | (split at h) | (dsimp only at h; split at h))
  all_goals first | (cases h; done) | skip
  all_goals
    rename_i hm
    cases h
    exact maybeImage_isSome hm

/-- What holds within an episode. -/
structure FloatLive (n : ℕ) (s : Env ℝ G O P Img) (sheet : Grid ℝ) : Prop where
  ready : FloatReady s.sim sheet s.last.fov
  laid : ∃ offset angle, |offset.x| ≤ 71 / 100 ∧ |offset.y| ≤ 71 / 100 ∧
    Displaced (1 / 1000) (layOutSheet n offset angle) sheet.positions
  wf : s.last.grid.WF
  silicon : ∃ q, silicons s.last.grid = [q] ∧ InUnit q
  goal : ∃ b, GoalOn sheet s.goal.goal b

/-- What holds between calls. -/
structure FloatPlaying (n : ℕ) (s : Env ℝ G O P Img) : Prop where
  range : s.goal.required = 1 ∧ s.goal.rangeMin = f64 (1 / 10) ∧ s.goal.rangeMax = f64 50
  live : s.requiresReset = false → ∃ sheet, FloatLive n s sheet

theorem Viewing.reseed {s : Sim ℝ G O P} {sheet : Grid ℝ} {o : Observation ℝ Img} (h : Viewing s sheet o) (g : G) :
    Viewing { s with ctx := { s.ctx with g := g } } sheet o :=
  ⟨h.ready.congr rfl rfl rfl rfl rfl, h.wf, h.atoms, h.unit, h.safe⟩

theorem Viewing.silicon {s : Sim ℝ G O P} {sheet : Grid ℝ} {o : Observation ℝ Img} (h : Viewing s sheet o) :
    ∃ q, silicons o.grid = [q] ∧ InUnit q := by
  obtain ⟨si, hsi, _, _⟩ := doped_silicon h.ready.doped
  obtain ⟨_, h2, h3⟩ := h.safe si hsi
  refine ⟨_, h2, ⟨?_, ?_⟩, ?_, ?_⟩ <;> have := h3.1 <;> have := h3.2 <;> linarith [h3.1.1, h3.1.2, h3.2.1, h3.2.2]

theorem resetAdapter_eq (cfg : EnvCfg ℝ G O P Img F) (s : Env ℝ G O P Img) :
    ∃ g beam ga, Env.resetAdapter cfg s =
      { s with sim := { s.sim with ctx := { s.sim.ctx with g := g } }, beam := beam, adapterRng := ga } := by
  unfold Env.resetAdapter
  split
  · exact ⟨s.sim.ctx.g, _, _, rfl⟩
  · rename_i h
    refine ⟨(cfg.adapter.reset cfg.sim.rng s.beam s.sim.ctx.g).2, (cfg.adapter.reset cfg.sim.rng s.beam s.sim.ctx.g).1,
      none, ?_⟩
    rw [← h]

/-- What a reset does: it returns unless the features cannot be computed. -/
theorem envFloatReset {T : FloatTrig} {S : Summation} {k : DotKind} {n : ℕ} {cfg : FloatEnvCfg G O P Img F}
    (hc : FloatWorld T S k n cfg) {s : Env ℝ G O P Img} (h : FloatPlaying n s) :
    ∃ s3 sheet b si, s3.requiresReset = false ∧ FloatPlaying n s3 ∧ FloatLive n s3 sheet ∧ Viewing s3.sim sheet s3.last ∧
      silicons sheet = [si] ∧ b ≠ si ∧ Spec.dist si b < 52 ∧ Inside s3.last.fov.lowerLeft s3.last.fov.upperRight b ∧
      GoalOn sheet s3.goal.goal b ∧ s3.last.image.isSome = cfg.requiresImage ∧
      s3.last.elapsedTime = cfg.sim.imageDuration ∧
      Env.floatReset cfg s = (match cfg.features s3.last (.singleSilicon s3.goal) with
        | .error e => .error e s3
        | .ok f => .ok ⟨.first, 0, gammaPow s3.last.elapsedTime, f⟩ s3) := by
  have hm := floatGenerate_moderate T S k hc.narrow hc.lawful hc.generate
  obtain ⟨offset, angle, hx, hy, he⟩ := floatGenerate_eq T S k hc.lawful n s.sim.ctx.g
  obtain ⟨i, p, q, h1, _⟩ := C141_start T S k hc.wide hc.narrow offset hx hy angle
  have hD := C141_sheet T S k hc.narrow offset (hx.trans (by norm_num)) (hy.trans (by norm_num)) angle
  rcases floatReset_cases cfg.sim hc.lawful hm cfg.requiresImage s.sim with
    ⟨e, s', _, _, _, _, _, _, _, hbad⟩ | ⟨o, sim, sheet, k1, k2, k3, k4, k5, k6⟩
  · rw [hc.generate, he] at hbad
    simp [floatDopeSheet, h1] at hbad
  have himg := floatReset_image k1
  have hpos : sheet.positions = floatLayOut T S k n offset angle := by rw [k4, hc.generate, he]
  rw [← hpos] at hD
  obtain ⟨h4, hnd⟩ := displaced_good hc.wide hx hy hD
  obtain ⟨si, hsi, _, hmem⟩ := doped_silicon k2.ready.doped
  obtain ⟨g1, beam, ga, hA⟩ := resetAdapter_eq cfg.plain { s with requiresReset := false, sim := sim, last := o }
  obtain ⟨goal, g2, b, m1, m2, m3, m4, m5, m6, m7, m8, m9, _⟩ := floatGoal_reset (by have := hc.wide; omega : 5 ≤ n) k2 hD
    hnd hc.lawful h.range.2.1 h.range.2.2 g1 hsi
  have hgoalrange : goal.required = 1 ∧ goal.rangeMin = f64 (1 / 10) ∧ goal.rangeMax = f64 50 :=
    ⟨m2.trans h.range.1, m3.trans h.range.2.1, m4.trans h.range.2.2⟩
  have hlive : FloatLive n (⟨{ sim with ctx := { sim.ctx with g := g2 } }, ga, beam, goal, o, false⟩ : Env ℝ G O P Img)
      sheet := ⟨(k2.reseed g2).ready, ⟨offset, angle, hx, hy, hD⟩, k2.wf, k2.silicon, b, m6⟩
  refine ⟨⟨{ sim with ctx := { sim.ctx with g := g2 } }, ga, beam, goal, o, false⟩, sheet, b, si, rfl,
    ⟨hgoalrange, fun _ => ⟨sheet, hlive⟩⟩, hlive, k2.reseed g2, hsi, m7, m8, m9, m6, himg, k6, ?_⟩
  unfold Env.floatReset
  simp only [k1, hA, m1]
  cases cfg.features o (.singleSilicon goal) <;> rfl

theorem floatCalculate_ok {n : ℕ} {offset : V2 ℝ} {angle : ℝ} {sim : Sim ℝ G O P} {sheet : Grid ℝ}
    {o : Observation ℝ Img} (h : Viewing sim sheet o)
    (hD : Displaced (1 / 1000) (layOutSheet n offset angle) sheet.positions) (hnd : sheet.positions.Nodup)
    {s : GoalState ℝ} (hr : s.required = 1) {b si : V2 ℝ} (hg : GoalOn sheet s.goal b) (hsi : silicons sheet = [si])
    (k : DotKind) :
    (si = b → ∃ m, GoalState.floatCalculate k o s = .ok ⟨gammaPow o.elapsedTime, true, false⟩ { s with consecutive := m }) ∧
    (si ≠ b → ∃ m, GoalState.floatCalculate k o s = .ok ⟨0, false, false⟩ { s with consecutive := m }) := by
  have hat := floatGoal_at h hD hnd hg hsi k
  obtain ⟨_, hs, _⟩ := h.safe si hsi
  unfold GoalState.floatCalculate
  rw [single_position h.wf hs]
  dsimp only
  constructor
  · intro e
    rw [if_pos (hat.2 e), hr]
    exact ⟨s.consecutive + 1, by simp⟩
  · intro e
    rw [if_neg (fun h => e (hat.1 h)), hr]
    exact ⟨0, by simp⟩

/-- What a step within an episode does. -/
theorem envFloatStep {T : FloatTrig} {S : Summation} {k : DotKind} {n : ℕ} {cfg : FloatEnvCfg G O P Img F}
    (hc : FloatWorld T S k n cfg) {s : Env ℝ G O P Img} (h : FloatPlaying n s) (hq : s.requiresReset = false)
    (a : List ℝ) {sheet : Grid ℝ} (hlive : FloatLive n s sheet) {b : V2 ℝ} (hb : GoalOn sheet s.goal.goal b) :
    (∃ e beam, cfg.adapter.floatGetAction cfg.sim.numpy cfg.actions s.last a s.beam = .error e beam ∧
      Env.floatStep cfg a s = .error e { s with beam := beam }) ∨
    (∃ cs beam, cfg.adapter.floatGetAction cfg.sim.numpy cfg.actions s.last a s.beam = .ok cs beam ∧
      ((∃ e sim sheet' c, Sim.floatStep cfg.sim cs cfg.requiresImage s.sim = .error e sim ∧
        floatApplyControls cfg.sim s.last.fov cs 0 s.sim.ctx = .error e c ∧
        Env.floatStep cfg a s = .error e { s with beam := beam, sim := sim } ∧
        FloatLive n { s with beam := beam, sim := sim } sheet' ∧ sheet'.positions = sheet.positions) ∨
      (∃ o sim sheet' si s3 goal, Sim.floatStep cfg.sim cs cfg.requiresImage s.sim = .ok o sim ∧ Viewing sim sheet' o ∧
        sheet'.positions = sheet.positions ∧ silicons sheet' = [si] ∧ o.image.isSome = cfg.requiresImage ∧
        o.controls = cs ∧
        4 ≤ o.grid.positions.length ∧ o.grid.positions.Nodup ∧
        goal.goal = s.goal.goal ∧
        s3 = { s with beam := beam, sim := sim, last := o, goal := goal } ∧ FloatPlaying n s3 ∧
        FloatPlaying n { s with beam := beam, sim := sim, last := o } ∧
        Env.floatStep cfg a s = (match cfg.features o (.singleSilicon s.goal) with
          | .error e => .error e { s with beam := beam, sim := sim, last := o }
          | .ok f => if si = b then .ok (TimeStep.termination (gammaPow o.elapsedTime) f) { s3 with requiresReset := true }
              else .ok (TimeStep.transition 0 f (gammaPow o.elapsedTime)) s3)))) := by
  obtain ⟨offset, angle, hx, hy, hD⟩ := hlive.laid
  unfold Env.floatStep
  rw [if_neg (by rw [hq]; exact Bool.false_ne_true)]
  cases hact : cfg.adapter.floatGetAction cfg.sim.numpy cfg.actions s.last a s.beam with
  | error e beam => exact .inl ⟨e, beam, rfl, rfl⟩
  | ok cs beam =>
    right
    refine ⟨cs, beam, rfl, ?_⟩
    rcases floatStep_cases cfg.sim hc.doped.keepsDoping cs cfg.requiresImage hlive.ready with
      ⟨e, sim, c, sheet', k1, k2, k3, k4⟩ | ⟨o, sim, sheet', k1, k2, k3, k4, _⟩
    · left
      refine ⟨e, sim, sheet', c, k1, k2, by simp only [k1], ⟨k3, ⟨offset, angle, hx, hy, by rw [k4]; exact hD⟩, hlive.wf,
        hlive.silicon, b, by rw [k4]; exact hb.1, hb.2⟩, k4⟩
    · right
      have hD' : Displaced (1 / 1000) (layOutSheet n offset angle) sheet'.positions := by rw [k3]; exact hD
      obtain ⟨h4, hnd⟩ := displaced_good hc.wide hx hy hD'
      obtain ⟨si, hsi, _, hmem⟩ := doped_silicon k2.ready.doped
      have hb' : GoalOn sheet' s.goal.goal b := ⟨by rw [k3]; exact hb.1, hb.2⟩
      obtain ⟨r4, rnd, _⟩ := viewing_regular (by have := hc.wide; omega : 5 ≤ n) k2 hD' hnd
      have himg : o.image.isSome = cfg.requiresImage := by
        obtain ⟨el, c, evs', _, _, hb, _⟩ := floatStep_told cfg.sim hlive.ready.fov k1
        exact hb
      obtain ⟨c1, c2⟩ := floatCalculate_ok k2 hD' hnd h.range.1 hb' hsi cfg.dots
      obtain ⟨m, hm⟩ : ∃ m, GoalState.floatCalculate cfg.dots o s.goal =
          (if si = b then .ok ⟨gammaPow o.elapsedTime, true, false⟩ { s.goal with consecutive := m }
            else .ok ⟨0, false, false⟩ { s.goal with consecutive := m }) := by
        by_cases e : si = b
        · obtain ⟨m, hm⟩ := c1 e
          exact ⟨m, by rw [hm, if_pos e]⟩
        · obtain ⟨m, hm⟩ := c2 e
          exact ⟨m, by rw [hm, if_neg e]⟩
      have live : ∀ goal : GoalState ℝ, goal.goal = s.goal.goal →
          FloatLive n { s with beam := beam, sim := sim, last := o, goal := goal } sheet' := by
        intro goal hgoal
        exact ⟨k2.ready, ⟨offset, angle, hx, hy, hD'⟩, k2.wf, k2.silicon, b, by dsimp only; rw [hgoal]; exact hb'⟩
      refine ⟨o, sim, sheet', si, { s with beam := beam, sim := sim, last := o, goal := { s.goal with consecutive := m } },
        { s.goal with consecutive := m }, k1, k2, k3, hsi, himg, k4, r4, rnd, rfl, rfl, ?_, ?_, ?_⟩
      · exact ⟨h.range, fun _ => ⟨sheet', live _ rfl⟩⟩
      · exact ⟨h.range, fun _ => ⟨sheet', live _ rfl⟩⟩
      · simp only [k1]
        cases hf : cfg.features o (.singleSilicon s.goal) with
        | error e => rfl
        | ok f =>
          dsimp only
          rw [hm]
          by_cases e : si = b
          · simp [e]
          · simp [e]

theorem envFloatReset_playing {T : FloatTrig} {S : Summation} {k : DotKind} {n : ℕ} {cfg : FloatEnvCfg G O P Img F}
    (hc : FloatWorld T S k n cfg) {s : Env ℝ G O P Img} (h : FloatPlaying n s) :
    FloatPlaying n (endState (Env.floatReset cfg s)) := by
  obtain ⟨s3, sheet, b, si, _, h3, _, _, _, _, _, _, _, _, _, he⟩ := envFloatReset hc h
  rw [he]
  split <;> exact h3

theorem envFloatStep_playing {T : FloatTrig} {S : Summation} {k : DotKind} {n : ℕ} {cfg : FloatEnvCfg G O P Img F}
    (hc : FloatWorld T S k n cfg) {s : Env ℝ G O P Img} (h : FloatPlaying n s) (a : List ℝ) :
    FloatPlaying n (endState (Env.floatStep cfg a s)) := by
  by_cases hq : s.requiresReset = true
  · have : Env.floatStep cfg a s = Env.floatReset cfg s := by unfold Env.floatStep; rw [if_pos hq]
    rw [this]
    exact envFloatReset_playing hc h
  simp only [Bool.not_eq_true] at hq
  obtain ⟨sheet, hlive⟩ := h.live hq
  obtain ⟨b, hb⟩ := hlive.goal
  rcases envFloatStep hc h hq a hlive hb with ⟨e, beam, _, he⟩ | ⟨cs, beam, _, ⟨e, sim, sheet', c, _, _, he, hl, _⟩ |
    ⟨o, sim, sheet', si, s3, goal, _, _, _, _, _, _, _, _, _, _, h3, h2, he⟩⟩
  · rw [he]
    exact ⟨h.range, fun _ => ⟨sheet, hlive.ready, hlive.laid, hlive.wf, hlive.silicon, hlive.goal⟩⟩
  · rw [he]
    exact ⟨h.range, fun _ => ⟨sheet', hl⟩⟩
  · rw [he]
    split
    · exact h2
    · split_ifs
      · exact ⟨h3.range, fun hf => by simp [endState] at hf⟩
      · exact h3

theorem floatExec_playing {T : FloatTrig} {S : Summation} {k : DotKind} {n : ℕ} {cfg : FloatEnvCfg G O P Img F}
    (hc : FloatWorld T S k n cfg) {s : Env ℝ G O P Img} (h : FloatPlaying n s) (op : EnvOp ℝ O) :
    FloatPlaying n (Env.floatExec cfg s op) := by
  have congr : ∀ (sim : Sim ℝ G O P) ga, (∀ sheet f, FloatReady s.sim sheet f → FloatReady sim sheet f) →
      FloatPlaying n { s with sim := sim, adapterRng := ga } := by
    intro sim ga hr
    refine ⟨h.range, fun hq => ?_⟩
    obtain ⟨sheet, hl⟩ := h.live hq
    exact ⟨sheet, hr _ _ hl.ready, hl.laid, hl.wf, hl.silicon, hl.goal⟩
  cases op with
  | reset =>
    have := envFloatReset_playing hc h
    simp only [Env.floatExec]
    cases hs : Env.floatReset cfg s <;> rw [hs] at this <;> exact this
  | step a =>
    have := envFloatStep_playing hc h a
    simp only [Env.floatExec]
    cases hs : Env.floatStep cfg a s <;> rw [hs] at this <;> exact this
  | seed z => exact congr _ _ (fun sheet f hr => hr.congr rfl rfl rfl rfl rfl)
  | addObserver o => exact congr _ _ (fun sheet f hr => hr.congr rfl rfl rfl rfl rfl)
  | removeObserver i =>
    simp only [Env.floatExec, Sim.removeObserver]
    split_ifs
    · exact congr _ _ (fun sheet f hr => hr.congr rfl rfl rfl rfl rfl)
    · exact h

theorem floatAfter_playing {T : FloatTrig} {S : Summation} {k : DotKind} {n : ℕ} {cfg : FloatEnvCfg G O P Img F}
    (hc : FloatWorld T S k n cfg) (ops : List (EnvOp ℝ O)) {s : Env ℝ G O P Img} (h : FloatPlaying n s) :
    FloatPlaying n (Env.floatAfter cfg s ops) := by
  induction ops generalizing s with
  | nil => exact h
  | cons op ops ih => exact ih (floatExec_playing hc h op)

theorem floatFresh_playing (n : ℕ) (g : G) (ga : Option G) (beam : V2 ℝ) :
    FloatPlaying n (Env.fresh g ga beam GoalState.floatFresh : Env ℝ G O P Img) :=
  ⟨⟨rfl, rfl, rfl⟩, fun h => by simp [Env.fresh] at h⟩

end PD
