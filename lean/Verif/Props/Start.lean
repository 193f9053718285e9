/- Properties C18 and C69: starting an episode on generated graphene. -/
import Verif.Lemmas.Start
import Verif.Props.Goal
import Verif.Props.Features
import Verif.Props.Environment
import Verif.Lemmas.EnvErase
import Verif.Lemmas.Witness

set_option linter.unusedSectionVars false
set_option linter.unusedSimpArgs false

namespace PD.Props
open PD PD.Spec
variable {G O P Img F : Type}

theorem resetAdapter_frame (cfg : EnvCfg ℝ G O P Img F) (s : Env ℝ G O P Img) :
    (Env.resetAdapter cfg s).last = s.last ∧ (Env.resetAdapter cfg s).goal = s.goal := by
  unfold Env.resetAdapter
  split <;> exact ⟨rfl, rfl⟩

/-- What the observation of a reset shows: the silicon in the middle, and the atoms of a generated
sheet around it. -/
structure FirstView (n : ℕ) (o : Observation ℝ Img) (si : V2 ℝ) (sc : ℝ) : Prop where
  wf : o.grid.WF
  silicons : silicons o.grid = [⟨1 / 2, 1 / 2⟩]
  fov : o.fov = centredFov si sc
  scale : 15 ≤ sc
  sheet : ∃ offset angle, si ∈ layOutSheet n offset angle ∧
    o.grid.positions.map (place o) = (layOutSheet n offset angle).filter
      (fun p => decide (Inside o.fov.lowerLeft o.fov.upperRight p))

theorem firstView (cfg : SimCfg ℝ G O P Img) (hl : cfg.rng.Lawful) (n : ℕ)
    (hgen : cfg.generate = generatePristineGraphene cfg.rng n) (b : Bool) (s s' : Sim ℝ G O P)
    (o : Observation ℝ Img) (h : Sim.reset cfg b s = .ok o s') : ∃ si sc, FirstView n o si sc := by
  have hv := reset_view hl h
  obtain ⟨sheet, si, sc, hf⟩ := reset_ok h
  obtain ⟨g, hsc⟩ := hf.scaleDraw
  have hu := hl.uniform_mem 15 30 g (by norm_num)
  rw [← hsc] at hu
  have hsq := centredFov_square si sc
  obtain ⟨offset, angle, hsheet, _⟩ := C40_generated cfg.rng hl n s.ctx.g
  have hpos := hf.positions
  rw [hgen, hsheet] at hpos
  obtain ⟨hwf, hp⟩ := view_positions hf.matFlag hf.grid hf.doped.wf (o := o)
    (by rw [hf.ofov, hsq.1]; linarith [hu.1]) (by rw [hf.ofov, hsq.2]; linarith [hu.1]) hf.ogrid
  rw [hpos] at hp
  refine ⟨si, sc, hwf, hv, hf.ofov, hu.1, offset, angle, ?_, hp⟩
  rw [← hpos]
  have : si ∈ Spec.silicons sheet := by
    rw [← getSiliconPositions_eq_silicons hf.doped.wf, hf.silicon]; simp
  obtain ⟨i, hi, _⟩ := exists_silicon_index this
  exact List.mem_of_getElem? hi

theorem place_centre {n : ℕ} {o : Observation ℝ Img} {si : V2 ℝ} {sc : ℝ} (h : FirstView n o si sc) :
    place o ⟨1 / 2, 1 / 2⟩ = si := by
  ext <;> simp [place, lerp, h.fov, centredFov] <;> ring

/-- After an environment reset on generated graphene, the goal is at least 1.42 Å away from the
silicon, and the first observation is not at the goal. -/
theorem C18_not_solved_at_start (cfg : EnvCfg ℝ G O P Img F) (hl : cfg.sim.rng.Lawful) (n : ℕ)
    (hgen : cfg.sim.generate = generatePristineGraphene cfg.sim.rng n) (s s' : Env ℝ G O P Img)
    (hlo : 0 ≤ s.goal.rangeMin) (hhi : 0 < s.goal.rangeMax) (t : TimeStep F)
    (h : Env.reset cfg s = .ok t s') :
    ∃ si, silicons s'.last.grid = [si] ∧
      142 / 100 ≤ Spec.dist (place s'.last si) s'.goal.currentGoal ∧
      ¬ AtGoal s'.goal.currentGoal s'.last := by
  unfold Env.reset at h
  dsimp only at h
  cases hr : Sim.reset cfg.sim cfg.requiresImage s.sim with
  | error e sim => simp only [hr] at h; cases h
  | ok o sim =>
    simp only [hr] at h
    obtain ⟨si, sc, hv⟩ := firstView cfg.sim hl n hgen _ _ _ _ hr
    obtain ⟨hlast, hgoal⟩ := resetAdapter_frame cfg { s with requiresReset := false, sim := sim, last := o }
    split at h
    · cases h
    · rename_i goal g hgr
      have hlast' : s'.last = o ∧ s'.goal = goal := by
        split at h
        · cases h
        · simp only [EStateM.Result.ok.injEq] at h
          obtain ⟨_, rfl⟩ := h
          exact ⟨hlast, rfl⟩
      rw [hlast, hgoal] at hgr
      obtain ⟨hl1, hl2⟩ := hlast'
      rw [hl1, hl2]
      obtain ⟨offset, angle, hsi, hpos⟩ := hv.sheet
      rcases C16_goal_choice cfg.sim.rng hl o hv.wf s.goal hlo hhi
        (Env.resetAdapter cfg { s with requiresReset := false, sim := sim, last := o }).sim.ctx.g with
        ⟨_, he⟩ | ⟨c, hc, ⟨_, he⟩ | ⟨p, hp, hrange, g', he⟩⟩
      · rw [he] at hgr; cases hgr
      · rw [he] at hgr; cases hgr
      · rw [he, Except.ok.injEq, Prod.mk.injEq] at hgr
        obtain ⟨rfl, _⟩ := hgr
        have hc' := centralSilicon_unique hc (centralSilicon_singleton hv.silicons)
        subst hc'
        rw [place_centre hv] at hrange
        have hmem : place o p ∈ layOutSheet n offset angle := by
          have := List.mem_map_of_mem (f := place o) hp
          rw [hpos] at this
          exact (List.mem_filter.1 this).1
        have hne : si ≠ place o p := by
          intro heq
          have h1 := hrange.1
          rw [← heq] at h1
          have : V2.distSq si si = 0 := by simp [V2.distSq, V2.normSq]
          rw [this] at h1
          exact absurd h1 (not_lt.2 (sq_nonneg _))
        have hd := C40_min_distance n offset angle si (place o p) hsi hmem hne
        refine ⟨_, hv.silicons, ?_, ?_⟩
        · rw [place_centre hv]; exact hd
        · rintro ⟨c, hc, hlt⟩
          have hc' := centralSilicon_unique hc (centralSilicon_singleton hv.silicons)
          subst hc'
          rw [place_centre hv] at hlt
          change V2.distSq si (place o p) < _ at hlt
          rw [dist_eq_sqrt] at hd
          have hd := (Real.le_sqrt' (by norm_num)).1 hd
          linarith

/-! ### C69 starting an episode never fails -/

theorem four_near (n : ℕ) (hn : 5 ≤ n) (offset : V2 ℝ) (angle : ℝ) (p : V2 ℝ)
    (hp : p ∈ layOutSheet n offset angle) :
    ∃ a b c, [p, a, b, c].Nodup ∧
      ∀ q ∈ [p, a, b, c], q ∈ layOutSheet n offset angle ∧ V2.distSq p q ≤ (284 / 100) ^ 2 := by
  rw [layOutSheet_eq] at hp ⊢
  obtain ⟨u, hu, rfl⟩ := List.mem_map.1 hp
  obtain ⟨X, Y, h1, h3, rfl, hX0, hX, hY0, hY⟩ := (mem_hexagonalGrid n u).1 hu
  set M := motion (meanPoint ((hexagonalGrid n).map (fun p => V2.smul BOND p))) offset angle with hM
  have hrows : 5 ≤ hexRows n := by
    rw [hexRows, Nat.le_floor_iff (div_nonneg (Nat.cast_nonneg n) hexRatio_pos.le),
      le_div_iff₀ hexRatio_pos]
    have : (5 : ℝ) ≤ n := by exact_mod_cast hn
    have := hexRatio_lt_one
    push_cast
    linarith
  have key : ∀ A B C D E H : ℤ,
      (A % 2 = B % 2 ∧ A % 3 ≠ 0 ∧ 0 ≤ A ∧ A < 2 * n ∧ 0 ≤ B ∧ B < hexRows n) →
      (C % 2 = D % 2 ∧ C % 3 ≠ 0 ∧ 0 ≤ C ∧ C < 2 * n ∧ 0 ≤ D ∧ D < hexRows n) →
      (E % 2 = H % 2 ∧ E % 3 ≠ 0 ∧ 0 ≤ E ∧ E < 2 * n ∧ 0 ≤ H ∧ H < hexRows n) →
      (X - A) ^ 2 + 3 * (Y - B) ^ 2 ≤ 16 → (X - C) ^ 2 + 3 * (Y - D) ^ 2 ≤ 16 →
      (X - E) ^ 2 + 3 * (Y - H) ^ 2 ≤ 16 → [(X, Y), (A, B), (C, D), (E, H)].Nodup →
      ∃ a b c, [M (site X Y), a, b, c].Nodup ∧
        ∀ q ∈ [M (site X Y), a, b, c], q ∈ (hexagonalGrid n).map M ∧
          V2.distSq (M (site X Y)) q ≤ (284 / 100) ^ 2 := by
    intro A B C D E H ha hb hc da db dc hnd
    refine ⟨M (site A B), M (site C D), M (site E H), ?_, ?_⟩
    · have hinj : Function.Injective (fun s : ℤ × ℤ => M (site s.1 s.2)) := by
        intro s t hst
        have := site_inj (motion_inj hst)
        exact Prod.ext this.1 this.2
      exact hnd.map hinj
    · have hd : ∀ A B : ℤ, (X - A) ^ 2 + 3 * (Y - B) ^ 2 ≤ 16 →
          V2.distSq (M (site X Y)) (M (site A B)) ≤ (284 / 100) ^ 2 := by
        intro A B h
        rw [hM, motion_distSq, distSq_site]
        have : (((X - A) ^ 2 + 3 * (Y - B) ^ 2 : ℤ) : ℝ) ≤ 16 := by exact_mod_cast h
        norm_num [BOND]
        push_cast at this
        linarith
      have hm : ∀ A B : ℤ,
          (A % 2 = B % 2 ∧ A % 3 ≠ 0 ∧ 0 ≤ A ∧ A < 2 * n ∧ 0 ≤ B ∧ B < hexRows n) →
          M (site A B) ∈ (hexagonalGrid n).map M := fun A B h => List.mem_map_of_mem
        ((mem_hexagonalGrid n _).2 ⟨A, B, h.1, h.2.1, rfl, h.2.2.1, h.2.2.2.1, h.2.2.2.2.1, h.2.2.2.2.2⟩)
      intro q hq
      simp only [List.mem_cons, List.not_mem_nil, or_false] at hq
      rcases hq with rfl | rfl | rfl | rfl
      · exact ⟨hp, hd X Y (by ring_nf; norm_num)⟩
      · exact ⟨hm A B ha, hd A B da⟩
      · exact ⟨hm C D hb, hd C D db⟩
      · exact ⟨hm E H hc, hd E H dc⟩
  -- a row above or below, and one two rows away
  obtain ⟨e, he, hY1, hY2⟩ : ∃ e : ℤ, (e = 1 ∨ e = -1) ∧ (0 ≤ Y + e ∧ Y + e < hexRows n) ∧
      (0 ≤ Y + 2 * e ∧ Y + 2 * e < hexRows n) := by
    by_cases h : 2 ≤ Y
    · exact ⟨-1, .inr rfl, by omega, by omega⟩
    · exact ⟨1, .inl rfl, by omega, by omega⟩
  have hee : e * e = 1 := by rcases he with rfl | rfl <;> norm_num
  have hpar : (Y + e) % 2 = (X + 1) % 2 := by omega
  have hmod : X % 3 = 1 ∨ X % 3 = 2 := by omega
  have d1 : ∀ k : ℤ, k ^ 2 ≤ 13 → (X - (X + k)) ^ 2 + 3 * (Y - (Y + e)) ^ 2 ≤ 16 := by
    intro k hk
    have : (X - (X + k)) ^ 2 + 3 * (Y - (Y + e)) ^ 2 = k ^ 2 + 3 * (e * e) := by ring
    rw [this, hee]; linarith
  have d0 : ∀ k : ℤ, k ^ 2 ≤ 16 → (X - (X + k)) ^ 2 + 3 * (Y - Y) ^ 2 ≤ 16 := by
    intro k hk
    have : (X - (X + k)) ^ 2 + 3 * (Y - Y) ^ 2 = k ^ 2 := by ring
    rw [this]; exact hk
  have d2 : (X - X) ^ 2 + 3 * (Y - (Y + 2 * e)) ^ 2 ≤ 16 := by
    have : (X - X) ^ 2 + 3 * (Y - (Y + 2 * e)) ^ 2 = 12 * (e * e) := by ring
    rw [this, hee]; norm_num
  have hne : ∀ {A B C D : ℤ}, (A ≠ C ∨ B ≠ D) → (A, B) ≠ (C, D) := by
    intro A B C D h heq
    simp only [Prod.mk.injEq] at heq
    omega
  have hnd4 : ∀ a b c d : ℤ × ℤ, a ≠ b → a ≠ c → a ≠ d → b ≠ c → b ≠ d → c ≠ d → [a, b, c, d].Nodup := by
    intro a b c d h1 h2 h3 h4 h5 h6
    simp [*]
  rcases hmod with h | h
  · -- X ≡ 1: X+1 and X±3 next row, X-2 and X+4 same row
    by_cases hx : 4 ≤ X
    · by_cases hx' : X + 1 < 2 * n
      · exact key (X + -3) (Y + e) (X + -2) Y (X + 1) (Y + e) (by omega) (by omega) (by omega)
          (d1 _ (by norm_num)) (d0 _ (by norm_num)) (d1 _ (by norm_num))
          (hnd4 _ _ _ _ (hne (by omega)) (hne (by omega)) (hne (by omega)) (hne (by omega))
            (hne (by omega)) (hne (by omega)))
      · exact key (X + -3) (Y + e) (X + -2) Y X (Y + 2 * e) (by omega) (by omega) (by omega)
          (d1 _ (by norm_num)) (d0 _ (by norm_num)) d2
          (hnd4 _ _ _ _ (hne (by omega)) (hne (by omega)) (hne (by omega)) (hne (by omega))
            (hne (by omega)) (hne (by omega)))
    · exact key (X + 1) (Y + e) (X + 3) (Y + e) X (Y + 2 * e) (by omega) (by omega) (by omega)
        (d1 _ (by norm_num)) (d1 _ (by norm_num)) d2
        (hnd4 _ _ _ _ (hne (by omega)) (hne (by omega)) (hne (by omega)) (hne (by omega))
          (hne (by omega)) (hne (by omega)))
  · -- X ≡ 2: X-1 and X±3 next row
    by_cases hx' : X + 3 < 2 * n
    · exact key (X + -1) (Y + e) (X + 3) (Y + e) X (Y + 2 * e) (by omega) (by omega) (by omega)
        (d1 _ (by norm_num)) (d1 _ (by norm_num)) d2
        (hnd4 _ _ _ _ (hne (by omega)) (hne (by omega)) (hne (by omega)) (hne (by omega))
          (hne (by omega)) (hne (by omega)))
    · exact key (X + -1) (Y + e) (X + -3) (Y + e) X (Y + 2 * e) (by omega) (by omega) (by omega)
        (d1 _ (by norm_num)) (d1 _ (by norm_num)) d2
        (hnd4 _ _ _ _ (hne (by omega)) (hne (by omega)) (hne (by omega)) (hne (by omega))
          (hne (by omega)) (hne (by omega)))

/-- The features can be computed for every image that shows one silicon and three or more other
atoms, at different places (and that has a picture, if one is asked for). -/
def FeaturesDefined (features : Observation ℝ Img → AnyGoal ℝ → Except Err F) (picture : Bool) : Prop :=
  ∀ (o : Observation ℝ Img) (goal : GoalState ℝ), o.grid.WF → o.grid.positions.Nodup →
    4 ≤ o.grid.positions.length → (∃ si, silicons o.grid = [si]) → o.fov.width ≠ 0 →
    o.fov.height ≠ 0 → o.image.isSome = picture → ∃ f, features o (.singleSilicon goal) = .ok f

/-- All three feature constructors are such. -/
theorem C69_features_defined (knn : Knn ℝ) (resize : Img → Img) :
    (∀ b, FeaturesDefined (Img := Img) (pristineFeatures knn) b) ∧
    (∀ b, FeaturesDefined (Img := Img) (materialFeatures knn) b) ∧
    FeaturesDefined (imageFeatures resize) true := by
  refine ⟨?_, ?_, ?_⟩
  · rintro b o goal hwf hnd h4 ⟨si, hsi⟩ hw hh _
    obtain ⟨i, a, b, c, pa, pb, pc, ua, ub, uc, h⟩ :=
      C27_pristine_features knn o hwf si hsi h4 hnd goal
    exact ⟨_, by simpa using h.2.2.2.2.2.2.2.2.2.2.2.2⟩
  · rintro b o goal hwf hnd h4 ⟨si, hsi⟩ hw hh _
    obtain ⟨i, a, b, c, pa, pb, pc, h⟩ := C27_material_features knn o hwf hw hh si hsi h4 hnd goal
    exact ⟨_, by simpa using h.2.2.2.2.2.2.2.2.2⟩
  · rintro o goal hwf hnd h4 ⟨si, hsi⟩ hw hh himg
    obtain ⟨img, himg⟩ := Option.isSome_iff_exists.1 himg
    exact ⟨_, (C27_image_features resize o hwf si hsi goal).1 img himg⟩

/-- Four atoms are in view around a silicon that is at least 2.84 Å from the borders of the view. -/
theorem four_in_view {n : ℕ} (hn : 5 ≤ n) {offset : V2 ℝ} {angle : ℝ} {o : Observation ℝ Img}
    (hw : 0 < o.fov.width) (hh : 0 < o.fov.height)
    (hpos : o.grid.positions.map (place o) = (layOutSheet n offset angle).filter
      (fun p => decide (Inside o.fov.lowerLeft o.fov.upperRight p)))
    {si : V2 ℝ} (hsi : si ∈ layOutSheet n offset angle)
    (hroom : ∀ q, V2.distSq si q ≤ (284 / 100) ^ 2 → Inside o.fov.lowerLeft o.fov.upperRight q) :
    4 ≤ o.grid.positions.length ∧ o.grid.positions.Nodup ∧
    ∃ q ∈ o.grid.positions, place o q ≠ si ∧ V2.distSq (place o q) si ≤ (284 / 100) ^ 2 := by
  obtain ⟨a, b, c, hnd, hall⟩ := four_near n hn offset angle si hsi
  have hsub : [si, a, b, c] ⊆ o.grid.positions.map (place o) := by
    intro q hq
    rw [hpos, List.mem_filter]
    exact ⟨(hall q hq).1, by simpa using hroom q (hall q hq).2⟩
  refine ⟨?_, ?_, ?_⟩
  · have := (hnd.subperm hsub).length_le
    simpa using this
  · refine List.Nodup.of_map (place o) ?_
    rw [hpos]
    exact (C40_honeycomb n offset angle).1.filter _
  · obtain ⟨q, hq, hqa⟩ := List.mem_map.1 (hsub (show a ∈ [si, a, b, c] by simp))
    refine ⟨q, hq, ?_, ?_⟩
    · rw [hqa]
      intro h
      rw [h] at hnd
      simp at hnd
    · rw [hqa]
      have := (hall a (by simp)).2
      rwa [show V2.distSq a si = V2.distSq si a by simp [V2.distSq, V2.normSq]; ring]

theorem inside_of_near {ll ur p q : V2 ℝ} {r : ℝ} (hr : 0 ≤ r) (hd : V2.distSq p q ≤ r ^ 2)
    (h1 : ll.x + r ≤ p.x) (h2 : p.x + r ≤ ur.x) (h3 : ll.y + r ≤ p.y) (h4 : p.y + r ≤ ur.y) :
    Inside ll ur q := by
  simp only [V2.distSq, V2.normSq, V2.sub_x, V2.sub_y] at hd
  have hx : |p.x - q.x| ≤ r := abs_le_of_sq_le_sq (by nlinarith [mul_self_nonneg (p.y - q.y)]) hr
  have hy : |p.y - q.y| ≤ r := abs_le_of_sq_le_sq (by nlinarith [mul_self_nonneg (p.x - q.x)]) hr
  rw [abs_le] at hx hy
  exact ⟨⟨by linarith, by linarith⟩, by linarith, by linarith⟩

theorem sheet_ne_nil (n : ℕ) (hn : 5 ≤ n) (offset : V2 ℝ) (angle : ℝ) :
    layOutSheet n offset angle ≠ [] := by
  have hrows : 1 ≤ hexRows n := by
    rw [hexRows, Nat.le_floor_iff (div_nonneg (Nat.cast_nonneg n) hexRatio_pos.le),
      le_div_iff₀ hexRatio_pos]
    have : (5 : ℝ) ≤ n := by exact_mod_cast hn
    have := hexRatio_lt_one
    push_cast
    linarith
  rw [layOutSheet_eq]
  intro h
  have : site 2 0 ∈ hexagonalGrid n := (mem_hexagonalGrid n _).2
    ⟨2, 0, by norm_num, by norm_num, rfl, by omega, by omega, by omega, by omega⟩
  rw [List.map_eq_nil_iff] at h
  rw [h] at this
  simp at this

/-- With generated sheets of five or more columns, every reset of an environment returns, whatever
happened before, for goal ranges that include one to two bond lengths (the default is 0.1 to
50 Å) and any of the feature constructors. -/
theorem C69_reset_returns (cfg : EnvCfg ℝ G O P Img F) (hl : cfg.sim.rng.Lawful) (n : ℕ) (hn : 5 ≤ n)
    (hgen : cfg.sim.generate = generatePristineGraphene cfg.sim.rng n)
    (hfeat : FeaturesDefined cfg.features cfg.requiresImage) (s : Env ℝ G O P Img)
    (hlo : 0 ≤ s.goal.rangeMin) (hlo' : s.goal.rangeMin < 142 / 100)
    (hhi : 284 / 100 < s.goal.rangeMax) :
    ∃ t s', Env.reset cfg s = .ok t s' := by
  obtain ⟨offset, angle, hsheet, _⟩ := C40_generated cfg.sim.rng hl n s.sim.ctx.g
  obtain ⟨o, sim, hr⟩ := sim_reset_returns cfg.sim cfg.requiresImage s.sim (by
    rw [hgen, hsheet]; exact sheet_ne_nil n hn _ _)
  obtain ⟨si, sc, hv⟩ := firstView cfg.sim hl n hgen _ _ _ _ hr
  obtain ⟨_, _, _, hf⟩ := reset_ok hr
  obtain ⟨hlast, hgoal⟩ := resetAdapter_frame cfg { s with requiresReset := false, sim := sim, last := o }
  obtain ⟨offset', angle', hsi, hpos⟩ := hv.sheet
  have hsq := centredFov_square si sc
  have hsc := hv.scale
  have hw : 0 < o.fov.width := by rw [hv.fov, hsq.1]; linarith
  have hh : 0 < o.fov.height := by rw [hv.fov, hsq.2]; linarith
  obtain ⟨h4, hnd, q, hq, hqne, hqd⟩ := four_in_view hn hw hh hpos hsi (by
    intro q hq
    refine inside_of_near (by norm_num) hq ?_ ?_ ?_ ?_ <;> rw [hv.fov] <;>
      simp [centredFov] <;> linarith)
  unfold Env.reset
  simp only [hr, hlast, hgoal]
  rcases C16_goal_choice cfg.sim.rng hl o hv.wf s.goal hlo (by linarith)
    (Env.resetAdapter cfg { s with requiresReset := false, sim := sim, last := o }).sim.ctx.g with
    ⟨he, _⟩ | ⟨c, hc, ⟨hnone, he⟩ | ⟨p, hp, hrange, g', he⟩⟩
  · rw [hv.silicons] at he; cases he
  · exfalso
    have hc' := centralSilicon_unique hc (centralSilicon_singleton hv.silicons)
    subst hc'
    refine hnone q hq ⟨?_, ?_⟩
    · rw [place_centre hv]
      have hmem : place o q ∈ layOutSheet n offset' angle' := by
        have := List.mem_map_of_mem (f := place o) hq
        rw [hpos] at this
        exact (List.mem_filter.1 this).1
      have hd := C40_min_distance n offset' angle' _ _ hmem hsi hqne
      rw [dist_eq_sqrt] at hd
      have hd := (Real.le_sqrt' (by norm_num)).1 hd
      nlinarith
    · rw [place_centre hv]
      nlinarith
  · simp only [he, hlast]
    obtain ⟨f, hff⟩ := hfeat o { s.goal with goal := place o p, consecutive := 0 } hv.wf hnd h4
      ⟨_, hv.silicons⟩ hw.ne' hh.ne' hf.oimage
    simp only [hff]
    exact ⟨_, _, rfl⟩

/-- The distances within which goals are chosen include one to two bond lengths. -/
def GoalRangeOk (s : GoalState ℝ) : Prop :=
  0 ≤ s.rangeMin ∧ s.rangeMin < 142 / 100 ∧ 284 / 100 < s.rangeMax

theorem goalReset_range {o : Observation ℝ Img} {rng : Rng ℝ G} {s s' : GoalState ℝ} {g g' : G}
    (h : GoalState.reset rng o s g = .ok (s', g')) :
    s'.rangeMin = s.rangeMin ∧ s'.rangeMax = s.rangeMax := by
  unfold GoalState.reset at h
  dsimp only at h
  repeat' split at h
  all_goals first
    | cases h; done
    | (rw [Except.ok.injEq, Prod.mk.injEq] at h; obtain ⟨rfl, _⟩ := h; exact ⟨rfl, rfl⟩)

theorem calculate_range (o : Observation ℝ Img) (s : GoalState ℝ) :
    (endState (GoalState.calculate o s)).rangeMin = s.rangeMin ∧
    (endState (GoalState.calculate o s)).rangeMax = s.rangeMax := by
  unfold GoalState.calculate
  split <;> exact ⟨rfl, rfl⟩

theorem envReset_range (cfg : EnvCfg ℝ G O P Img F) (s : Env ℝ G O P Img) :
    (endState (Env.reset cfg s)).goal.rangeMin = s.goal.rangeMin ∧
    (endState (Env.reset cfg s)).goal.rangeMax = s.goal.rangeMax := by
  rw [envReset_eq]
  split
  · exact ⟨rfl, rfl⟩
  · rename_i o sim _
    have hg := (resetAdapter_frame cfg { s with requiresReset := false, sim := sim, last := o }).2
    unfold Env.resetTail
    split
    · simp [endState, hg]
    · rename_i goal g hr
      rw [hg] at hr
      have := goalReset_range hr
      dsimp only
      split <;> exact this

theorem envStep_range (cfg : EnvCfg ℝ G O P Img F) (a : List ℝ) (s : Env ℝ G O P Img) :
    (endState (Env.step cfg a s)).goal.rangeMin = s.goal.rangeMin ∧
    (endState (Env.step cfg a s)).goal.rangeMax = s.goal.rangeMax := by
  rw [envStep_eq]
  split_ifs
  · exact envReset_range cfg s
  · split
    · exact ⟨rfl, rfl⟩
    · unfold Env.stepTail
      split
      · exact ⟨rfl, rfl⟩
      · dsimp only
        split
        · exact ⟨rfl, rfl⟩
        · rename_i o _ _ _ _ _
          have := calculate_range o s.goal
          split
          · rename_i hc; rw [hc] at this; exact this
          · rename_i hc; rw [hc] at this
            split_ifs <;> exact this

/-- So for such an environment the condition of C19 and C22 always holds: whatever is called, no
attempt to start an episode raises, and the step types have the form `FIRST (MID)* LAST FIRST …`. -/
theorem C69_protocol (cfg : EnvCfg ℝ G O P Img F) (hl : cfg.sim.rng.Lawful) (n : ℕ) (hn : 5 ≤ n)
    (hgen : cfg.sim.generate = generatePristineGraphene cfg.sim.rng n)
    (hfeat : FeaturesDefined cfg.features cfg.requiresImage) (s : Env ℝ G O P Img)
    (hgoal : GoalRangeOk s.goal) (cs : List (EnvCall (List ℝ))) :
    StartsReturn s.requiresReset ((Env.like cfg).run s cs).1 ∧
    Follows s.requiresReset ((Env.like cfg).run s cs).1 := by
  have key : StartsReturn s.requiresReset ((Env.like cfg).run s cs).1 := by
    induction cs generalizing s with
    | nil => simp [EnvLike.run, StartsReturn]
    | cons c cs ih =>
      have hreset : ∀ e s', Env.reset cfg s ≠ .error e s' := by
        intro e s' he
        obtain ⟨t, s2, h⟩ := C69_reset_returns cfg hl n hn hgen hfeat s hgoal.1 hgoal.2.1 hgoal.2.2
        rw [h] at he
        cases he
      have hrange : (endState ((Env.like cfg).call c s)).goal.rangeMin = s.goal.rangeMin ∧
          (endState ((Env.like cfg).call c s)).goal.rangeMax = s.goal.rangeMax := by
        cases c with
        | reset => exact envReset_range cfg s
        | step a => exact envStep_range cfg a s
      cases hc : (Env.like cfg).call c s with
      | ok t s' =>
        rw [hc] at hrange
        simp only [endState] at hrange
        rw [run_cons_ok hc]
        simp only [StartsReturn]
        rw [← (env_call_ok hc).1]
        exact ih s' (by rw [GoalRangeOk, hrange.1, hrange.2]; exact hgoal)
      | error e s' =>
        rw [hc] at hrange
        simp only [endState] at hrange
        rw [run_cons_error hc]
        have hflag := env_call_error hc
        cases c with
        | reset => exact absurd hc (hreset e s')
        | step a =>
          cases hq : s.requiresReset with
          | true =>
            have hc : Env.step cfg a s = .error e s' := hc
            rw [envStep_eq, if_pos hq] at hc
            exact absurd hc (hreset e s')
          | false =>
            simp only [StartsReturn]
            rw [← hflag]
            exact ih s' (by rw [GoalRangeOk, hrange.1, hrange.2]; exact hgoal)
  exact ⟨key, C19_protocol cfg s cs key⟩

/-- An environment with the default sheet width and the default features, used to show that the
assumptions of C18 and C69 can be met. -/
noncomputable def startCfg : EnvCfg ℝ Unit Unit Unit Unit (List ℝ) where
  sim := {
    fuel := 1
    rng := Witness.rng 1
    generate := generatePristineGraphene (Witness.rng 1) 50
    rate := fun _ _ => .error .notImplemented
    render := fun _ _ _ g => ((), g)
    sampleParams := fun g => ((), g)
    imageDuration := 2000000
    handle := fun _ o => o }
  adapter := .direct
  features := pristineFeatures Witness.knn
  requiresImage := false
  seedRng := fun _ => ()

example (cs : List (EnvCall (List ℝ))) :
    let s : Env ℝ Unit Unit Unit Unit := Env.fresh () none ⟨0, 0⟩ GoalState.fresh
    (∃ t s' si, Env.reset startCfg s = .ok t s' ∧ silicons s'.last.grid = [si] ∧
      142 / 100 ≤ Spec.dist (place s'.last si) s'.goal.currentGoal) ∧
    Follows true ((Env.like startCfg).run s cs).1 := by
  intro s
  have hl : startCfg.sim.rng.Lawful := Witness.rng_lawful zero_le_one
  have hf : FeaturesDefined startCfg.features startCfg.requiresImage :=
    (C69_features_defined Witness.knn id).1 _
  obtain ⟨t, s', h⟩ := C69_reset_returns startCfg hl 50 (by norm_num) rfl hf s (by norm_num [s, Env.fresh, GoalState.fresh])
    (by norm_num [s, Env.fresh, GoalState.fresh]) (by norm_num [s, Env.fresh, GoalState.fresh])
  obtain ⟨si, h1, h2, _⟩ := C18_not_solved_at_start startCfg hl 50 rfl s s' (by norm_num [s, Env.fresh, GoalState.fresh])
    (by norm_num [s, Env.fresh, GoalState.fresh]) t h
  exact ⟨⟨t, s', si, h, h1, h2⟩, (C69_protocol startCfg hl 50 (by norm_num) rfl hf s
    ⟨by norm_num [s, Env.fresh, GoalState.fresh], by norm_num [s, Env.fresh, GoalState.fresh], by norm_num [s, Env.fresh, GoalState.fresh]⟩ cs).2⟩

end PD.Props
