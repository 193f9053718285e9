/- C157: an episode can be won. -/
import Verif.Props.Leading
import Verif.Props.Play
import Verif.Props.Middle
import Verif.Spec.Winning

set_option linter.unusedSectionVars false
set_option linter.unusedSimpArgs false

namespace PD.Props
open PD PD.Spec MeasureTheory ProbabilityTheory

section
variable {G O P Img F : Type}

theorem aims_at {o : Observation ℝ Img} {x c p : V2 ℝ} {sc : ℝ} (hwf : o.grid.WF) (hx : silicons o.grid = [x])
    (hf : o.fov = centredFov c sc) (h15 : 15 ≤ sc) (hsafe : InSafeArea x) (h1 : |(place o x).x - p.x| ≤ 2)
    (h2 : |(place o x).y - p.y| ≤ 2) (dwell : Timedelta) (d : ℝ) (beam : V2 ℝ) :
    Adapter.getAction (.materialFrame dwell dwell d) o (actionTo o x p) beam =
      .ok [BeamControl.mk' (o.fov.toMicroscope p) dwell] beam := by
  have hpos : 0 < sc := by linarith
  have hsq := centredFov_square c sc
  have hback : o.fov.toMicroscope (o.fov.toMaterial x) = x :=
    toMicroscope_toMaterial (by rw [hf, hsq.1]; exact hpos.ne') (by rw [hf, hsq.2]; exact hpos.ne') x
  have hplace : place o x = o.fov.toMaterial x := (fov_lerp _ _).symm
  rw [hplace] at h1 h2
  have hadd : o.fov.toMaterial x + ⟨p.x - (o.fov.toMaterial x).x, p.y - (o.fov.toMaterial x).y⟩ = p := by
    ext <;> simp
  have hmem : ∀ a b q : ℝ, |a - b| ≤ 2 → 1 / 4 ≤ (a - q) / sc + 1 / 2 → (a - q) / sc + 1 / 2 ≤ 3 / 4 →
      0 ≤ (b - q) / sc + 1 / 2 ∧ (b - q) / sc + 1 / 2 ≤ 1 := by
    intro a b q hab l1 l2
    have e : (b - q) / sc = (a - q) / sc - (a - b) / sc := by field_simp; ring
    have l3 : |(a - b) / sc| ≤ 2 / 15 := by
      rw [abs_div, abs_of_pos hpos]
      rw [div_le_div_iff₀ hpos (by norm_num)]
      nlinarith
    rw [abs_le] at l3
    rw [e]
    constructor <;> linarith [l3.1, l3.2]
  rw [hf, centredFov_toMicroscope' c _ hpos] at hback
  rw [← hback] at hsafe
  obtain ⟨⟨s1, s2⟩, s3, s4⟩ := hsafe
  rw [← hf] at s1 s2 s3 s4
  obtain ⟨m1, m2⟩ := hmem _ p.x c.x h1 s1 s2
  obtain ⟨m3, m4⟩ := hmem _ p.y c.y h2 s3 s4
  have hclip : clip2 (o.fov.toMicroscope p) 0 1 = o.fov.toMicroscope p := by
    rw [hf, centredFov_toMicroscope' c p hpos]
    simp only [clip2, clip, max_eq_left m1, max_eq_left m3, min_eq_right m2, min_eq_right m4]
  have hone : oneSilicon o.grid = .ok x := by
    unfold oneSilicon
    rw [getSiliconPositions_eq_silicons hwf, hx]
  have hdw : dwellOf dwell dwell (actionTo o x p) = .ok dwell := by
    simp only [dwellOf, if_true, ofSeconds_totalSeconds]
  simp only [Adapter.getAction, hone, hdw]
  simp only [actionTo, actionPrefix2, hplace, hadd, hclip]

theorem PlayCfg.fuelled {cfg : EnvCfg ℝ G O P Img F} {n : ℕ} (hc : PlayCfg cfg n) (fuel : ℕ) :
    PlayCfg (withFuel cfg fuel) n :=
  ⟨hc.lawful, hc.wide, hc.generate, hc.features, hc.swaps, hc.rates, hc.dwellOrder, hc.dwellHour⟩

/-- Within an episode: the last observation shows the silicon where it is. -/
structure InEpisode (s : Env ℝ G O P Img) (sheet : Grid ℝ) : Prop where
  running : s.requiresReset = false
  started : Started s.sim sheet
  view : s.sim.fov = some s.last.fov
  wf : s.last.grid.WF
  shown : ∃ x, silicons s.last.grid = [x] ∧ InSafeArea x ∧ silicons sheet = [place s.last x]

/-- What a reset of the environment leaves, besides the simulator. -/
theorem envReset_rest {cfg : EnvCfg ℝ G O P Img F} {s s' : Env ℝ G O P Img} {t : TimeStep F}
    (h : Env.reset cfg s = .ok t s') :
    s'.requiresReset = false ∧ ∃ g g', GoalState.reset cfg.sim.rng s'.last s.goal g = .ok (s'.goal, g') := by
  unfold Env.reset at h
  dsimp only at h
  split at h
  · cases h
  · rename_i o sim _
    have hA : (Env.resetAdapter cfg { s with requiresReset := false, sim := sim, last := o }).requiresReset = false ∧
        (Env.resetAdapter cfg { s with requiresReset := false, sim := sim, last := o }).goal = s.goal := by
      unfold Env.resetAdapter
      split <;> exact ⟨rfl, rfl⟩
    split at h
    · cases h
    · rename_i goal g hgoal
      split at h
      · cases h
      · simp only [EStateM.Result.ok.injEq] at h
        obtain ⟨_, rfl⟩ := h
        rw [hA.2] at hgoal
        exact ⟨hA.1, _, g, hgoal⟩

theorem dist_view {a b : V2 ℝ} {sc : ℝ} (h : Inside (centredFov a sc).lowerLeft (centredFov a sc).upperRight b)
    (hsc : sc ≤ 30) : Spec.dist a b ≤ 22 := by
  obtain ⟨⟨h1, h2⟩, h3, h4⟩ := h
  simp only [centredFov, V2.sub_x, V2.sub_y, V2.add_x, V2.add_y, V2.const] at h1 h2 h3 h4
  unfold Spec.dist
  rw [Real.sqrt_le_iff]
  refine ⟨by norm_num, ?_⟩
  nlinarith

/-- After a reset. -/
theorem reset_episode (cfg : EnvCfg ℝ G O P Img F) (n : ℕ) (hp : PlayCfg cfg n) (hn : 12 ≤ n) (s s' : Env ℝ G O P Img)
    (hs : Playing n s) (t : TimeStep F) (h : Env.reset cfg s = .ok t s') :
    Playing n s' ∧ ∃ sheet si offset angle, InEpisode s' sheet ∧ SingleDoped sheet ∧ silicons sheet = [si] ∧
      |offset.x| ≤ 71 / 100 ∧ |offset.y| ≤ 71 / 100 ∧ sheet.positions = layOutSheet n offset angle ∧
      Spec.dist ⟨0, 0⟩ si ≤ 31 / 20 ∧ s'.goal.goal ∈ sheet.positions ∧ s'.goal.goal ≠ si ∧
      Spec.dist si s'.goal.goal ≤ 22 ∧ s'.goal.required = s.goal.required := by
  obtain ⟨t1, s1, hr, hplay⟩ := reset_plays hp hs
  rw [h] at hr
  cases hr
  refine ⟨hplay, ?_⟩
  obtain ⟨hq, g1, g2, hgoal⟩ := envReset_rest h
  obtain ⟨o, sim, g, h1, h2, h3⟩ := envReset_parts h
  obtain ⟨sheet, si, sc, hf⟩ := reset_ok h1
  obtain ⟨g0, hsc⟩ := hf.scaleDraw
  have hu := hp.lawful.uniform_mem 15 30 g0 (by norm_num)
  rw [← hsc] at hu
  have hpos : 0 < sc := by linarith [hu.1]
  have hsq := centredFov_square si sc
  obtain ⟨offset, angle, he, hx, hy, _⟩ := C40_generated cfg.sim.rng hp.lawful n s.sim.ctx.g
  have hlay : sheet.positions = layOutSheet n offset angle := by rw [hf.positions, hp.generate, he]
  have hsi : silicons sheet = [si] := by rw [← getSiliconPositions_eq_silicons hf.doped.wf, hf.silicon]
  have hv := reset_view hp.lawful h1
  obtain ⟨hwf, hview⟩ := view_positions hf.matFlag hf.grid hf.doped.wf (o := o)
    (by rw [hf.ofov, hsq.1]; exact hpos) (by rw [hf.ofov, hsq.2]; exact hpos) hf.ogrid
  have hcentre : place o ⟨1 / 2, 1 / 2⟩ = si := by
    show lerp o.fov.lowerLeft o.fov.upperRight _ = si
    rw [← fov_lerp, hf.ofov, ← centredFov_toMicroscope si hpos]
    exact toMaterial_toMicroscope (by rw [hsq.1]; exact hpos.ne') (by rw [hsq.2]; exact hpos.ne') si
  obtain ⟨o2, sim2, sheet2, si2, _, c1, c2, c3, _, c5, _⟩ := C123_start cfg.sim hp.lawful n hn hp.generate cfg.requiresImage s.sim
  rw [h1] at c1
  cases c1
  rw [hf.grid] at c2
  cases c2
  rw [hsi, List.singleton_inj] at c3
  subst c3
  have hmat : sim.ctx.mat = ⟨true, some sheet⟩ := by
    have e1 := hf.matFlag
    have e2 := hf.grid
    cases hm : sim.ctx.mat
    rw [hm] at e1 e2
    simp only at e1 e2
    rw [e1, e2]
  rw [h2] at hgoal
  rcases C16_goal_choice cfg.sim.rng hp.lawful o hwf s.goal hs.range.1 (by linarith [hs.range.2.2]) g1 with
    ⟨e, _⟩ | ⟨q, hq1, ⟨_, e⟩ | ⟨p, hpm, hin, g3, e⟩⟩
  · rw [hv] at e; cases e
  · rw [hgoal] at e; cases e
  · rw [hgoal] at e
    simp only [Except.ok.injEq, Prod.mk.injEq] at e
    obtain ⟨e, _⟩ := e
    have hqc : q = ⟨1 / 2, 1 / 2⟩ := by
      obtain ⟨l, r, hlr, _⟩ := hq1
      have : q ∈ silicons o.grid := by rw [hlr]; simp
      rw [hv] at this
      exact List.mem_singleton.1 this
    rw [hqc, hcentre] at hin
    have hmem : place o p ∈ sheet.positions.filter (fun p => decide (Inside o.fov.lowerLeft o.fov.upperRight p)) := by
      rw [← hview]; exact List.mem_map_of_mem hpm
    obtain ⟨hm1, hm2⟩ := List.mem_filter.1 hmem
    rw [decide_eq_true_eq, hf.ofov] at hm2
    refine ⟨sheet, si, offset, angle, ⟨hq, ⟨?_, ?_, si, sc, ?_, ?_, hu.1, hu.2⟩, ?_, ?_, ⟨1 / 2, 1 / 2⟩, ?_, centre_safe, ?_⟩,
      hf.doped, hsi, hx, hy, hlay, c5, ?_, ?_, ?_, ?_⟩
    · rw [h3]; exact hf.flag
    · rw [h3]; exact hmat
    · rw [h3]; exact hf.scale
    · rw [h3]; exact hf.fov
    · rw [h3, h2, hf.ofov]; exact hf.fov
    · rw [h2]; exact hwf
    · rw [h2]; exact hv
    · rw [h2, hcentre]; exact hsi
    · rw [e]; exact hm1
    · rw [e]
      rintro e2
      have := hin.1
      simp only at e2
      rw [e2, V2.distSq] at this
      simp [V2.normSq] at this
      nlinarith [sq_nonneg s.goal.rangeMin]
    · rw [e]; exact dist_view hm2 hu.2
    · rw [e]

variable [MeasurableSpace G] {μ : Measure G}

theorem win_law (cfg : EnvCfg ℝ G O P Img F) (n : ℕ) (hp : PlayCfg cfg n) (hf : Fair cfg.sim.rng μ) (knn : Knn ℝ)
    (hr : cfg.sim.rate = pristineRates knn simpleCanonicalRates) (dwell : Timedelta)
    (h0 : 0 < dwell) (maxDistance : ℝ) (ha : cfg.adapter = .materialFrame dwell dwell maxDistance) (hi : cfg.requiresImage = false)
    (offset : V2 ℝ) (angle : ℝ) (path : List (V2 ℝ)) (sheet : Grid ℝ)
    (hpos : sheet.positions = layOutSheet n offset angle) (hdop : SingleDoped sheet)
    (si y : V2 ℝ) (hsi : silicons sheet = [si]) (ht : Trail sheet.positions si path y) :
    ∃ S : Set G, MeasurableSet S ∧ ENNReal.ofReal (arriveProb dwell ^ path.length) ≤ μ S ∧
      ∀ g ∈ S, ∀ s : Env ℝ G O P Img, Playing n s → InEpisode s sheet → s.sim.ctx.g = g → s.goal.required = 1 →
        V2.distSq y s.goal.goal < (71 / 100) ^ 2 → path ≠ [] → Won cfg s path := by
  have hd : dwell < 3600000000 := by
    have := hp.dwellHour
    rw [ha] at this
    exact this
  induction path generalizing sheet si with
  | nil => exact ⟨Set.univ, MeasurableSet.univ, by rw [hf.total]; simp, fun _ _ _ _ _ _ _ _ h => absurd rfl h⟩
  | cons p path ih =>
    obtain ⟨⟨nbrs, hbond, hpn⟩, ht⟩ := ht
    obtain ⟨nbrs', hbond'⟩ := trail_bonded ht
    have hD : Displaced (1 / 1000) (layOutSheet n offset angle) sheet.positions := by
      rw [hpos]
      exact List.forall₂_same.2 (fun p _ => by rw [dist_self']; norm_num)
    obtain ⟨next, y1, y2, y3, hlaw⟩ := arrive_law hf hp.lawful knn n offset angle sheet hD hdop si hsi nbrs nbrs' hbond p hpn
      hbond' (BeamControl.mk' p dwell) (by simp only [BeamControl.mk']; rw [dist_self']; norm_num)
      h0 hd
    obtain ⟨S, m, e, hS⟩ := ih next (by rw [y1]; exact hpos) y2 p y3 (by rw [y1]; exact ht)
    obtain ⟨m', e'⟩ := hlaw S m
    refine ⟨_, m', le_trans ?_ e', ?_⟩
    · rw [List.length_cons, pow_succ', ENNReal.ofReal_mul (arriveProb_nonneg h0)]
      exact mul_le_mul_right e _
    · rintro g hg s hplay hep hsg hreq hgoal -
      simp only [Set.mem_iUnion] at hg
      obtain ⟨time, _, g', sheet', hj, hg'⟩ := hg
      have hlast : sheet' = next := jumps_last hj
      subst hlast
      obtain ⟨x, hx, hsafe, hxs⟩ := hep.shown
      obtain ⟨c, sc, v1, v2, h15, h30⟩ := hep.started.view
      have hfov : s.last.fov = centredFov c sc := by
        have := hep.view
        rw [v2, Option.some.injEq] at this
        exact this.symm
      have hsc : 0 < sc := by linarith
      have hsq := centredFov_square c sc
      have hback : (centredFov c sc).toMaterial ((centredFov c sc).toMicroscope p) = p :=
        toMaterial_toMicroscope (by rw [hsq.1]; exact hsc.ne') (by rw [hsq.2]; exact hsc.ne') p
      rw [hsi, List.singleton_inj] at hxs
      have hnear := (hbond.bonds p hpn).2
      rw [abs_le] at hnear
      have hact := aims_at hep.wf hx hfov h15 hsafe (p := p)
        (by rw [← hxs]; exact (abs_x_le_dist si p).trans (by linarith [hnear.2]))
        (by rw [← hxs]; exact (abs_y_le_dist si p).trans (by linarith [hnear.2])) dwell maxDistance s.beam
      set c' := BeamControl.mk' p dwell with hc'
      set obs' := (notify cfg.sim.handle (.applyControl c') s.sim.ctx.obs).map
        (observeAll cfg.sim.handle ([(time, sheet')].map (fun e => Event.transition e.1 e.2))) with hobs'
      obtain ⟨fuel, h1⟩ := (C72_jump_process cfg.sim.rng cfg.sim.handle cfg.sim.rate c'
        ⟨g, ⟨true, some sheet⟩, notify cfg.sim.handle (.applyControl c') s.sim.ctx.obs⟩
        ⟨g', ⟨true, some sheet'⟩, obs'⟩ sheet rfl rfl).2 ⟨_, sheet', hr ▸ hj, rfl, rfl, rfl⟩
      have hpf := hp.fuelled fuel
      obtain ⟨o, sim, x', c2, k1, k2, k3, k4, k5, k6, k7, k8, k9, k10, k11⟩ := step_brings (withFuel cfg fuel).sim hsc
        hep.started.reset v1 v2 (cs := [BeamControl.mk' (s.last.fov.toMicroscope p) dwell]) (el := dwell)
        (ctx := ⟨g', ⟨true, some sheet'⟩, obs'⟩) (by
          have hctx : s.sim.ctx = ⟨g, ⟨true, some sheet⟩, s.sim.ctx.obs⟩ := by
            rw [← hsg, ← hep.started.sheet]
          rw [hctx, hfov]
          simp only [applyControls, BeamControl.mk', hback, withFuel]
          simp only [hc', BeamControl.mk'] at h1
          rw [h1]
          simp) rfl y2 y3
      have hgrid : s.sim.ctx.mat.grid = some sheet := by rw [hep.started.sheet]
      obtain ⟨_, _, hwf', hp', hw', hh', h4, hnd, himg⟩ := step_shows hpf hplay.inv hgrid hpos k1
      obtain ⟨f, hfe⟩ := hpf.features o s.goal hwf' hnd h4 hp' hw'.ne' hh'.ne' (himg.trans hi.symm)
      obtain ⟨k, hk, hk1, hk2⟩ := calculate_ok o s.goal hwf' (by simp [ShowsSilicon, k8])
      have hplace : place o x' = p := by rw [← k10]; exact (fov_lerp _ _).symm
      have hstep : Env.step (withFuel cfg fuel) (actionTo s.last x p) s =
          (if s.goal.required ≤ k then
            .ok (TimeStep.termination (gammaPow o.elapsedTime) f)
              { s with sim := sim, last := o, goal := { s.goal with consecutive := k }, requiresReset := true }
          else .ok (TimeStep.transition 0 f (gammaPow o.elapsedTime))
              { s with sim := sim, last := o, goal := { s.goal with consecutive := k } }) := by
        have hact' : (withFuel cfg fuel).adapter.getAction s.last (actionTo s.last x p) s.beam =
            .ok [BeamControl.mk' (s.last.fov.toMicroscope p) dwell] s.beam := by
          show cfg.adapter.getAction _ _ _ = _
          rw [ha]; exact hact
        have himg' : (withFuel cfg fuel).requiresImage = false := hi
        unfold Env.step
        simp only [hep.running, Bool.false_eq_true, if_false, hact', himg', k1, hfe, hk]
        by_cases hle : s.goal.required ≤ k
        · simp [hle]
        · simp [hle]
      have hat : AtGoal s.goal.goal o ↔ s.goal.required ≤ k := by
        rw [hreq]
        constructor
        · intro h
          rw [hk1 h]; omega
        · intro h
          by_contra hno
          rw [hk2 hno] at h
          omega
      by_cases hle : s.goal.required ≤ k
      · rw [if_pos hle] at hstep
        exact .last hx hstep rfl rfl rfl (hat.2 hle)
      · rw [if_neg hle] at hstep
        have hnext : Playing n (endState (Env.step (withFuel cfg fuel) (actionTo s.last x p) s)) :=
          (step_plays hpf hplay _).1
        rw [hstep] at hnext
        simp only [endState] at hnext
        cases path with
        | nil =>
          exfalso
          obtain ⟨rfl, _⟩ := ht
          refine hle (hat.1 ⟨x', ?_, ?_⟩)
          · exact ⟨[], [], by simp [k8], by simp, by simp⟩
          · rw [hplace]; exact hgoal
        | cons q path =>
          exact .more hx hstep rfl rfl rfl (hS g' hg' _ hnext ⟨hep.running, ⟨k4, k3, c2, sc, k5, by rw [k7, k6], h15, h30⟩, k7,
            hwf', x', k8, k9, by rw [y3, hplace]⟩ k2 hreq hgoal (by simp))

/-- C157.  After any history, an episode has just been started: if there is room, there is a path of at most four moves for
each Å between the silicon and the goal, and with at least the probability of a single move to the power of its length a player
who aims at one atom of it after the other wins the episode. -/
theorem C157_wins (cfg : EnvCfg ℝ G O P Img F) (n : ℕ) (hp : PlayCfg cfg n) (hn : 12 ≤ n) (hf : Fair cfg.sim.rng μ) (knn : Knn ℝ)
    (hr : cfg.sim.rate = pristineRates knn simpleCanonicalRates) (dwell : Timedelta)
    (h0 : 0 < dwell) (maxDistance : ℝ) (ha : cfg.adapter = .materialFrame dwell dwell maxDistance) (hi : cfg.requiresImage = false)
    (g0 : G) (ga : Option G) (beam : V2 ℝ) (goal : GoalState ℝ) (hgoal : GoalRangeOk goal) (history : List (EnvOp ℝ O))
    (t : TimeStep F) (s : Env ℝ G O P Img)
    (h : Env.reset cfg (Env.after cfg (Env.fresh g0 ga beam goal) history) = .ok t s) (hreq : s.goal.required = 1) :
    ∃ sheet si, s.sim.ctx.mat.grid = some sheet ∧ silicons sheet = [si] ∧ si ≠ s.goal.goal ∧ Spec.dist si s.goal.goal ≤ 22 ∧
      (31 / 20 + 2 * Spec.dist si s.goal.goal ≤ 71 / 100 * n - 64 / 10 →
        ∃ path : List (V2 ℝ), (path.length : ℝ) ≤ 4 * Spec.dist si s.goal.goal ∧
          ENNReal.ofReal (arriveProb dwell ^ path.length) ≤ μ {g | Won cfg (reseeded s g) path}) := by
  have hplay := after_plays hp history (fresh_plays (O := O) (P := P) (Img := Img) n g0 ga beam hgoal)
  obtain ⟨hplay', sheet, si, offset, angle, hep, hdop, hsi, hx, hy, hlay, hor, hgm, hgne, hgd, _⟩ :=
    reset_episode cfg n hp hn _ s hplay t h
  refine ⟨sheet, si, by rw [hep.started.sheet], hsi, hgne.symm, hgd, fun hroom => ?_⟩
  have hsim : si ∈ sheet.positions := by
    have : si ∈ silicons sheet := by rw [hsi]; exact List.mem_singleton_self si
    exact (List.of_mem_zip (mem_silicons.1 this)).1
  have hD : Displaced (1 / 1000) (layOutSheet n offset angle) sheet.positions := by
    rw [hlay]
    exact List.forall₂_same.2 (fun p _ => by rw [dist_self']; norm_num)
  obtain ⟨hbound, hway⟩ := C151_way n offset angle hx hy sheet.positions hD si s.goal.goal hsim hgm (by linarith)
  have htri := dist_triangle0 si s.goal.goal
  obtain ⟨m, hm⟩ := (hway (by linarith)).2
  have hdn := dist_nonneg' si s.goal.goal
  obtain ⟨nbrs, hbond⟩ := C146_bonds n offset angle hx hy _ hD s.goal.goal hgm (by linarith)
  obtain ⟨path, hlen, htrail⟩ := way_trail hm hbond
  have hne : path ≠ [] := by
    rintro rfl
    exact hgne htrail.1.symm
  obtain ⟨S, _, e, hS⟩ := win_law cfg n hp hf knn hr dwell h0 maxDistance ha hi offset angle path sheet hlay hdop si _ hsi htrail
  refine ⟨path, by rw [hlen]; exact (hbound m _ hm).1, e.trans (measure_mono ?_)⟩
  · intro g hg
    refine hS g hg (reseeded s g) ⟨SimInv.reseed hplay'.inv g, hplay'.range, hplay'.live⟩ ⟨hep.running, ⟨hep.started.reset,
      hep.started.sheet, hep.started.view⟩, hep.view, hep.wf, hep.shown⟩ rfl hreq ?_ hne
    simp [reseeded, V2.distSq, V2.normSq]

/-- C157.  With the dwell time of a second and a half, and room for every goal: the probability is at least one half to the
power of the number of moves. -/
theorem C157_half (cfg : EnvCfg ℝ G O P Img F) (n : ℕ) (hp : PlayCfg cfg n) (hn : 74 ≤ n) (hf : Fair cfg.sim.rng μ) (knn : Knn ℝ)
    (hr : cfg.sim.rate = pristineRates knn simpleCanonicalRates) (maxDistance : ℝ)
    (ha : cfg.adapter = .materialFrame 1500000 1500000 maxDistance) (hi : cfg.requiresImage = false)
    (g0 : G) (ga : Option G) (beam : V2 ℝ) (goal : GoalState ℝ) (hgoal : GoalRangeOk goal) (history : List (EnvOp ℝ O))
    (t : TimeStep F) (s : Env ℝ G O P Img)
    (h : Env.reset cfg (Env.after cfg (Env.fresh g0 ga beam goal) history) = .ok t s) (hreq : s.goal.required = 1) :
    ∃ path : List (V2 ℝ), path.length ≤ 88 ∧
      ENNReal.ofReal ((1 / 2) ^ path.length) ≤ μ {g | Won cfg (reseeded s g) path} := by
  obtain ⟨sheet, si, _, _, _, hd, hwin⟩ := C157_wins cfg n hp (by omega) hf knn hr 1500000 (by decide) maxDistance ha hi g0 ga beam
    goal hgoal history t s h hreq
  have hn' : (74 : ℝ) ≤ n := by exact_mod_cast hn
  obtain ⟨path, h1, h2⟩ := hwin (by linarith)
  refine ⟨path, ?_, le_trans (ENNReal.ofReal_le_ofReal (pow_le_pow_left₀ (by norm_num) arriveProb_half _)) h2⟩
  have : (path.length : ℝ) ≤ 88 := by linarith
  exact_mod_cast this

end

/-- The environment of the example: the simple rates and actions in the material frame, on a sheet of 80 columns. -/
noncomputable def winPlay : EnvCfg ℝ (ℕ → ℝ) Unit Unit Unit (List ℝ) where
  sim := {
    fuel := 10
    rng := Witness.streamRng
    generate := generatePristineGraphene Witness.streamRng 80
    rate := pristineRates Witness.knn simpleCanonicalRates
    render := fun _ _ _ g => ((), g)
    sampleParams := fun g => ((), g)
    imageDuration := 2000000
    handle := fun _ o => o }
  adapter := .materialFrame 1500000 1500000 10
  features := materialFeatures Witness.knn
  requiresImage := false
  seedRng := fun _ _ => 0

theorem winPlay_ok : PlayCfg winPlay 80 :=
  ⟨Witness.streamRng_lawful, by norm_num, rfl, (C69_features_defined Witness.knn id).2.1 _,
    C39_pristine_swaps _ _, (C99_rates_defined Witness.knn).1,
    show (1500000 : ℤ) ≤ 1500000 by decide, show (1500000 : ℤ) < 3600000000 by decide⟩

/-- The first episode of a new environment: whatever the goal, there is a path by which it can be won. -/
example : ∃ t s path, Env.reset winPlay (Env.fresh (fun _ => 0) none 0 GoalState.fresh) = .ok t s ∧ path ≠ [] ∧
    ENNReal.ofReal ((1 / 2) ^ path.length) ≤ Witness.streamLaw {g | Won winPlay (reseeded s g) path} := by
  have hrange : GoalRangeOk GoalState.fresh := by norm_num [GoalRangeOk, GoalState.fresh]
  obtain ⟨⟨t, s, h⟩, _⟩ := C99_never_fails winPlay 80 winPlay_ok (fun _ => 0) none 0 GoalState.fresh hrange []
  obtain ⟨_, _, _, _, _, _, _, _, _, _, _, _, _, _, hreq⟩ := reset_episode winPlay 80 winPlay_ok (by norm_num) _ s
    (fresh_plays 80 _ _ _ hrange) t h
  obtain ⟨path, _, h2⟩ := C157_half winPlay 80 winPlay_ok (by norm_num) Witness.streamRng_fair Witness.knn
    rfl 10 rfl rfl _ _ _ _ hrange [] t s h hreq.2
  refine ⟨t, s, path, h, ?_, h2⟩
  rintro rfl
  have he : {g | Won winPlay (reseeded s g) []} = ∅ := by
    ext g
    simp only [Set.mem_empty_iff_false, iff_false]
    intro hw
    cases hw
  rw [he] at h2
  simp at h2

end PD.Props
