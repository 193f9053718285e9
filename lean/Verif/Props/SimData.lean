/- Property C122: data gathered in the simulator tell what happened to the silicon. -/
import Verif.Lemmas.SimData
import Verif.Props.Lattice
import Verif.Props.Play

set_option linter.unusedSectionVars false
set_option linter.unusedSimpArgs false

namespace PD.Props
open PD PD.Spec
variable {G O P Img : Type}

theorem recorded_data (knn : Knn ℝ) {cutoff : ℝ} (hcut : 0 ≤ cutoff) {cfg : SimCfg ℝ G O P Img}
    (hk : KeepsDoping cfg.rate) {s : Sim ℝ G O P} {l : List (BeamControl ℝ × Grid ℝ × Observation ℝ Img)}
    (hrec : Recorded cfg s l) : ∀ {sheet : Grid ℝ} {o0 : Observation ℝ Img}, Sees s sheet o0 →
    sheet.positions.Nodup → AllSteps Clean sheet l → ∀ (data0 : List DataPoint) (c0 : Counters),
    ∃ data k, transitionsToDatapoints knn cutoff
        (transitionsLoop true (some (heldBy o0)) (l.map (fun e => e.2.2))) data0 c0 =
        .ok (data0 ++ data, { c0 with noSiliconNeighbor := c0.noSiliconNeighbor + k }) ∧
      Yields sheet o0.fov l data ∧ data.length + k = l.length := by
  induction hrec with
  | done s =>
    intro sheet o0 h hnd hcl data0 c0
    exact ⟨[], 0, by simp [transitionsLoop, transitionsToDatapoints], .nil _ _, rfl⟩
  | @step s s' c sheet' o rest b hs hg hr ih =>
    intro sheet o0 h hnd hcl data0 c0
    obtain ⟨h1, hpos, si, si', nbrs, r, k1, k2, k3, k4, k5, k6⟩ := step_told knn hcut hk h hnd hs hg hcl.1
      (t := ⟨o0.grid, o.grid, o0.fov, o.fov, o.controls, o0.image, o.image, o0.labelImage, o.labelImage⟩)
      ⟨rfl, rfl, rfl, rfl, rfl, rfl, rfl, rfl⟩ rfl
    have ih' := ih h1 (by rw [hpos]; exact hnd) hcl.2
    simp only [List.map_cons, transitionsLoop, heldBy, List.cons_append, List.nil_append, Bool.not_true,
      Bool.false_eq_true, if_false, transitionsToDatapoints, k4]
    cases r with
    | inl x =>
      obtain ⟨rfl, h6⟩ := k6 x rfl
      obtain ⟨data, k, e1, e2, e3⟩ := ih' data0 (c0.bump .noSiliconNeighbor)
      refine ⟨data, k + 1, ?_, .left k1 k2 k3 h6 e2, by simp; omega⟩
      simp only [heldBy] at e1
      dsimp only
      rw [e1]
      simp [Counters.bump]
      omega
    | inr d =>
      obtain ⟨h7, h8⟩ := k5 d rfl
      obtain ⟨data, k, e1, e2, e3⟩ := ih' (data0 ++ [d]) c0
      refine ⟨d :: data, k, ?_, .kept k1 k2 k3 h7 h8 e2, by simp; omega⟩
      simp only [heldBy] at e1
      dsimp only
      rw [e1]
      simp

/-- Take any simulator, after any history of calls; reset it and then make steps with one control each.
Turn the observations into transitions (controls stored with the later observation, as the simulator
does) and the transitions into data points.  If at each step the silicon starts from a place that looks
like graphene and ends at most 5.5 Å away, nothing raises, and the data points are exactly those the true
sheets call for: one for each step after which the silicon is at its old place or at one of its three
neighbours, telling which, for how long the beam stood and where; the other steps, and no others, are
counted as "silicon not among the neighbours". -/
theorem C122_simulated_data (knn : Knn ℝ) (cutoff : ℝ) (hcut : 0 ≤ cutoff) (cfg : SimCfg ℝ G O P Img)
    (hl : cfg.rng.Lawful) (hr : SwapRates cfg.rate) (g : G) (obs : List O) (ops : List (SimOp ℝ O))
    (b : Bool) (o0 : Observation ℝ Img) (s : Sim ℝ G O P)
    (hreset : Sim.reset cfg b (Sim.run cfg (Sim.fresh g obs) ops).2 = .ok o0 s)
    (sheet : Grid ℝ) (hsheet : s.ctx.mat.grid = some sheet) (hnd : sheet.positions.Nodup)
    (l : List (BeamControl ℝ × Grid ℝ × Observation ℝ Img)) (hrec : Recorded cfg s l)
    (hclean : AllSteps Clean sheet l) :
    ∃ data k, transitionsToDatapoints knn cutoff
        (trajectoriesToTransitions true [o0 :: l.map (fun e => e.2.2)]) [] {} =
        .ok (data, { noSiliconNeighbor := k }) ∧
      Yields sheet o0.fov l data ∧ data.length + k = l.length := by
  have hinv : SimInv (Sim.run cfg (Sim.fresh g obs : Sim ℝ G O P) ops).2 :=
    (SimInv.fresh g obs).run hl hr.keepsDoping ops
  obtain ⟨sheet1, h1, _⟩ := sees_reset hl hinv hreset
  have : sheet1 = sheet := by have := h1.grid; rw [hsheet] at this; cases this; rfl
  subst this
  obtain ⟨data, k, e1, e2, e3⟩ := recorded_data knn hcut hr.keepsDoping hrec h1 hnd hclean [] {}
  refine ⟨data, k, ?_, e2, e3⟩
  simpa [trajectoriesToTransitions, transitionsLoop, heldBy] using e1

/-! ### Generated sheets look like graphene -/

theorem dot_of_dist (s p q : V2 ℝ) : 2 * dot (p - s) (q - s) =
    Spec.dist s p ^ 2 + Spec.dist s q ^ 2 - Spec.dist p q ^ 2 := by
  have h : ∀ a b : V2 ℝ, Spec.dist a b ^ 2 = (a.x - b.x) ^ 2 + (a.y - b.y) ^ 2 :=
    fun a b => Real.sq_sqrt (by positivity)
  rw [h, h, h]
  simp only [dot, V2.sub_x, V2.sub_y]
  ring

theorem inner_honeycomb {n : ℕ} {sheet : List (V2 ℝ)} {m : V2 ℝ → V2 ℝ}
    (hm : ∀ u v, Spec.dist (m u) (m v) = 142 / 100 * Spec.dist u v)
    (hs : ∀ p, p ∈ sheet ↔ ∃ u ∈ hexagonalGrid n, p = m u)
    {X Y : ℤ} (hp : X % 2 = Y % 2) (h3 : X % 3 ≠ 0) (hX : 3 ≤ X)
    (hX' : X + 3 < 2 * n) (hY : 2 ≤ Y) (hY' : Y + 2 < hexRows n) :
    ∃ nbrs, Honeycomb sheet (m (site X Y)) nbrs := by
  have hdist : ∀ A B C D : ℤ, Spec.dist (m (site A B)) (m (site C D)) ^ 2 =
      (142 / 100) ^ 2 * ((((A - C) ^ 2 + 3 * (B - D) ^ 2 : ℤ) : ℝ) / 4) := by
    intro A B C D
    rw [hm, mul_pow, dist_eq_sqrt, Real.sq_sqrt (by rw [distSq_site]; positivity), distSq_site]
  have hinj : Function.Injective m := by
    intro u v h
    have := hm u v
    rw [h, dist_self'] at this
    exact eq_of_dist_zero (by linarith)
  have hn : ∀ {A B C D : ℤ}, (A, B) ≠ (C, D) → site A B ≠ site C D := by
    intro A B C D hne h
    exact hne (by rw [(site_inj h).1, (site_inj h).2])
  have hmem : ∀ A B : ℤ, A % 2 = B % 2 → A % 3 ≠ 0 → |A - X| ≤ 3 → |B - Y| ≤ 2 → m (site A B) ∈ sheet := by
    intro A B h1 h2 h4 h5
    rw [abs_le] at h4 h5
    exact (hs _).2 ⟨_, (mem_hexagonalGrid n _).2 ⟨A, B, h1, h2, rfl, by omega, by omega, by omega, by omega⟩, rfl⟩
  have hle : ∀ (a r : ℝ) , 0 ≤ r → a ^ 2 ≤ r ^ 2 → a ≤ r := fun a r hr h => le_of_abs_le (abs_le_of_sq_le_sq h hr)
  have key : ∀ e : ℤ, (e = 1 ∨ e = -1) → (X + e) % 3 ≠ 0 → (X - 2 * e) % 3 ≠ 0 →
      ∃ nbrs, Honeycomb sheet (m (site X Y)) nbrs := by
    intro e he h1 h2
    have hab : ∀ k : ℤ, |k| ≤ 3 ↔ -3 ≤ k ∧ k ≤ 3 := fun k => abs_le
    have hab2 : ∀ k : ℤ, |k| ≤ 2 ↔ -2 ≤ k ∧ k ≤ 2 := fun k => abs_le
    have hbond : ∀ A B : ℤ, (X - A) ^ 2 + 3 * (Y - B) ^ 2 = 4 →
        Spec.dist (m (site X Y)) (m (site A B)) ^ 2 = (142 / 100) ^ 2 := by
      intro A B h; rw [hdist, h]; norm_num
    have hapart : ∀ A B C D : ℤ, (X - A) ^ 2 + 3 * (Y - B) ^ 2 = 4 → (X - C) ^ 2 + 3 * (Y - D) ^ 2 = 4 →
        (A - C) ^ 2 + 3 * (B - D) ^ 2 = 12 →
        dot (m (site A B) - m (site X Y)) (m (site C D) - m (site X Y)) < 0 := by
      intro A B C D e1 e2 e3
      have := dot_of_dist (m (site X Y)) (m (site A B)) (m (site C D))
      rw [hbond A B e1, hbond C D e2, hdist, e3] at this
      norm_num at this
      linarith
    have ea : (X - (X - 2 * e)) ^ 2 + 3 * (Y - Y) ^ 2 = 4 := by rcases he with rfl | rfl <;> ring
    have eb : (X - (X + e)) ^ 2 + 3 * (Y - (Y - 1)) ^ 2 = 4 := by rcases he with rfl | rfl <;> ring
    have ec : (X - (X + e)) ^ 2 + 3 * (Y - (Y + 1)) ^ 2 = 4 := by rcases he with rfl | rfl <;> ring
    have eab : ((X - 2 * e) - (X + e)) ^ 2 + 3 * (Y - (Y - 1)) ^ 2 = 12 := by
      rcases he with rfl | rfl <;> ring
    have eac : ((X - 2 * e) - (X + e)) ^ 2 + 3 * (Y - (Y + 1)) ^ 2 = 12 := by
      rcases he with rfl | rfl <;> ring
    have eba : ((X + e) - (X - 2 * e)) ^ 2 + 3 * ((Y - 1) - Y) ^ 2 = 12 := by
      rcases he with rfl | rfl <;> ring
    have eca : ((X + e) - (X - 2 * e)) ^ 2 + 3 * ((Y + 1) - Y) ^ 2 = 12 := by
      rcases he with rfl | rfl <;> ring
    have ebc : ((X + e) - (X + e)) ^ 2 + 3 * ((Y - 1) - (Y + 1)) ^ 2 = 12 := by ring
    have ecb : ((X + e) - (X + e)) ^ 2 + 3 * ((Y + 1) - (Y - 1)) ^ 2 = 12 := by ring
    have hb : ∀ A B : ℤ, (X - A) ^ 2 + 3 * (Y - B) ^ 2 = 4 → Spec.dist (m (site X Y)) (m (site A B)) ≤ 3 / 2 := by
      intro A B h
      refine hle _ _ (by norm_num) ?_
      rw [hbond A B h]; norm_num
    refine ⟨[m (site (X - 2 * e) Y), m (site (X + e) (Y - 1)), m (site (X + e) (Y + 1))],
      hmem X Y hp h3 (by simp) (by simp), rfl, ?_, ?_, ?_, ?_, ?_, ?_⟩
    · have hnd : [site (X - 2 * e) Y, site (X + e) (Y - 1), site (X + e) (Y + 1)].Nodup := by
        simp only [List.nodup_cons, List.mem_cons, List.not_mem_nil, or_false, not_or, List.nodup_nil,
          and_true, not_false_eq_true]
        refine ⟨⟨hn ?_, hn ?_⟩, hn ?_⟩ <;> simp only [ne_eq, Prod.mk.injEq, not_and] <;> omega
      exact hnd.map hinj
    · simp only [List.mem_cons, List.not_mem_nil, or_false, not_or]
      refine ⟨fun h => hn ?_ (hinj h), fun h => hn ?_ (hinj h), fun h => hn ?_ (hinj h)⟩ <;>
        simp only [ne_eq, Prod.mk.injEq, not_and] <;> omega
    · simp only [List.mem_cons, List.not_mem_nil, or_false, forall_eq_or_imp, forall_eq]
      refine ⟨⟨hmem _ _ (by omega) h2 ?_ ?_, hb _ _ ea⟩, ⟨hmem _ _ (by omega) h1 ?_ ?_, hb _ _ eb⟩,
        hmem _ _ (by omega) h1 ?_ ?_, hb _ _ ec⟩ <;> (first | rw [hab] | rw [hab2]) <;> omega
    · simp only [List.mem_cons, List.not_mem_nil, or_false, forall_eq_or_imp, forall_eq]
      refine ⟨⟨fun h => absurd rfl h, fun _ => .inr (hapart _ _ _ _ ea eb eab),
          fun _ => .inr (hapart _ _ _ _ ea ec eac)⟩,
        ⟨fun _ => .inr (hapart _ _ _ _ eb ea eba), fun h => absurd rfl h,
          fun _ => .inr (hapart _ _ _ _ eb ec ebc)⟩,
        fun _ => .inr (hapart _ _ _ _ ec ea eca), fun _ => .inr (hapart _ _ _ _ ec eb ecb),
        fun h => absurd rfl h⟩
    · intro q hq hq0 hnot
      obtain ⟨v, hv, rfl⟩ := (hs q).1 hq
      obtain ⟨X', Y', hp', h3', rfl, _⟩ := (mem_hexagonalGrid n v).1 hv
      simp only [List.mem_cons, List.not_mem_nil, or_false, not_or] at hnot
      have hne : (X, Y) ≠ (X', Y') := by
        intro h
        simp only [Prod.mk.injEq] at h
        exact hq0 (by rw [h.1, h.2])
      rcases lattice_distances hp hp' hne with h | h
      · exfalso
        have hm := lattice_neighbours hp hp' h
        simp only [List.mem_cons, Prod.mk.injEq, List.not_mem_nil, or_false] at hm
        obtain ⟨ha, hb, hc⟩ := hnot
        rcases he with rfl | rfl
        · rcases hm with ⟨rfl, rfl⟩ | ⟨rfl, rfl⟩ | ⟨rfl, rfl⟩ | ⟨rfl, rfl⟩ | ⟨rfl, rfl⟩ | ⟨rfl, rfl⟩
          · exact ha rfl
          · omega
          · omega
          · omega
          · exact hb rfl
          · exact hc rfl
        · rcases hm with ⟨rfl, rfl⟩ | ⟨rfl, rfl⟩ | ⟨rfl, rfl⟩ | ⟨rfl, rfl⟩ | ⟨rfl, rfl⟩ | ⟨rfl, rfl⟩
          · omega
          · exact ha rfl
          · exact hb rfl
          · exact hc rfl
          · omega
          · omega
      · rw [hm, dist_eq_sqrt]
        have : (17 / 10 : ℝ) ≤ Real.sqrt (V2.distSq (site X Y) (site X' Y')) :=
          Real.le_sqrt_of_sq_le (by norm_num; linarith)
        linarith
    · refine ⟨([(X, Y), (X - 2 * e, Y), (X + e, Y - 1), (X + e, Y + 1), (X + 3, Y + 1), (X + 3, Y - 1),
        (X - 3, Y + 1), (X - 3, Y - 1), (X, Y + 2), (X, Y - 2)] : List (ℤ × ℤ)).map
          (fun c => m (site c.1 c.2)), ?_, rfl, ?_⟩
      · refine List.Nodup.map ?_ ?_
        · intro c d h
          have := site_inj (hinj h)
          exact Prod.ext this.1 this.2
        · simp only [List.nodup_cons, List.mem_cons, List.not_mem_nil, or_false, not_or, List.nodup_nil,
            and_true, not_false_eq_true, Prod.mk.injEq]
          omega
      · have hfar : ∀ A B : ℤ, (X - A) ^ 2 + 3 * (Y - B) ^ 2 ≤ 12 →
            Spec.dist (m (site X Y)) (m (site A B)) ≤ 15 / 4 := by
          intro A B h
          refine hle _ _ (by norm_num) ?_
          rw [hdist]
          have : (((X - A) ^ 2 + 3 * (Y - B) ^ 2 : ℤ) : ℝ) ≤ 12 := by exact_mod_cast h
          nlinarith
        intro q hq
        simp only [List.map_cons, List.map_nil, List.mem_cons, List.not_mem_nil, or_false] at hq
        rcases hq with rfl | rfl | rfl | rfl | rfl | rfl | rfl | rfl | rfl | rfl
        all_goals refine ⟨hmem _ _ (by omega) (by omega) (by rw [hab]; omega) (by rw [hab2]; omega), hfar _ _ ?_⟩
        · simp
        · rw [ea]; norm_num
        · rw [eb]; norm_num
        · rw [ec]; norm_num
        all_goals ring_nf; norm_num
  have hmod : X % 3 = 1 ∨ X % 3 = 2 := by omega
  rcases hmod with h | h
  · exact key 1 (.inl rfl) (by omega) (by omega)
  · exact key (-1) (.inr rfl) (by omega) (by omega)

/-- The motion that lays out a generated sheet. -/
noncomputable def sheetMotion (n : ℕ) (offset : V2 ℝ) (angle : ℝ) : V2 ℝ → V2 ℝ :=
  motion (meanPoint ((hexagonalGrid n).map (fun p => V2.smul BOND p))) offset angle

theorem inner_generated (n : ℕ) (offset : V2 ℝ) (angle : ℝ) :
    ∀ u, HoneycombPoint u → (2 ≤ u.x ∧ u.x ≤ n - 3) → (2 ≤ u.y ∧ u.y ≤ n - 3) →
      sheetMotion n offset angle u ∈ layOutSheet n offset angle ∧
      ∃ nbrs, Honeycomb (layOutSheet n offset angle) (sheetMotion n offset angle u) nbrs := by
  rw [layOutSheet_eq]
  unfold sheetMotion
  set M := motion (meanPoint ((hexagonalGrid n).map (fun p => V2.smul BOND p))) offset angle with hM
  have hr := hexRatio_pos
  rintro u ⟨X, Y, hp, h3, rfl⟩ ⟨hx1, hx2⟩ ⟨hy1, hy2⟩
  dsimp only at hx1 hx2 hy1 hy2
  change 2 ≤ (Y : ℝ) * hexRatio at hy1
  change (Y : ℝ) * hexRatio ≤ n - 3 at hy2
  have hX : 3 ≤ X := by
    have : (3 : ℝ) ≤ X := by linarith
    exact_mod_cast this
  have hX' : X + 3 < 2 * n := by
    have : (X : ℝ) + 3 < 2 * n := by linarith
    exact_mod_cast this
  have h1 := lt_hexRows n
  have h2 := hexRatio_lt_one
  have hY : 2 ≤ Y := by
    have : (1 : ℝ) < Y := by
      by_contra h
      nlinarith [not_lt.1 h]
    have : 1 < Y := by exact_mod_cast this
    omega
  have hY' : Y + 2 < hexRows n := by
    have : ((Y : ℝ) + 2) * hexRatio < hexRows n * hexRatio := by nlinarith
    have := lt_of_mul_lt_mul_right this hr.le
    exact_mod_cast this
  have hH := inner_honeycomb (n := n) (m := M) (sheet := (hexagonalGrid n).map M) (motion_dist _ _ _)
    (fun p => by simp [List.mem_map, eq_comm]) hp h3 hX hX' hY hY'
  obtain ⟨nbrs, hH⟩ := hH
  exact ⟨hH.mem, nbrs, hH⟩

/-- For every number of columns, offset and angle, the generated sheet is a honeycomb carried into the
plane by a map that multiplies all distances by 1.42, and every atom that is, in bond lengths, two away
from the lower and left and three from the upper and right sides of the `n` by `n` square looks like
graphene in the sense of `C122_simulated_data`. -/
theorem C122_generated_sheets (n : ℕ) (offset : V2 ℝ) (angle : ℝ) :
    (layOutSheet n offset angle).Nodup ∧
    ∃ m : V2 ℝ → V2 ℝ, (∀ u v, Spec.dist (m u) (m v) = 142 / 100 * Spec.dist u v) ∧
      (∀ p ∈ layOutSheet n offset angle, ∃ u, HoneycombPoint u ∧ p = m u) ∧
      ∀ u, HoneycombPoint u → (2 ≤ u.x ∧ u.x ≤ n - 3) → (2 ≤ u.y ∧ u.y ≤ n - 3) →
        m u ∈ layOutSheet n offset angle ∧ ∃ nbrs, Honeycomb (layOutSheet n offset angle) (m u) nbrs := by
  refine ⟨(C40_honeycomb n offset angle).1, ?_⟩
  refine ⟨sheetMotion n offset angle, motion_dist _ _ _, ?_, inner_generated n offset angle⟩
  · intro p hp
    rw [layOutSheet_eq] at hp
    obtain ⟨u, hu, rfl⟩ := List.mem_map.1 hp
    obtain ⟨X, Y, h1, h3, rfl, _⟩ := (mem_hexagonalGrid n u).1 hu
    exact ⟨_, ⟨X, Y, h1, h3, rfl⟩, rfl⟩

theorem recorded_clean {cfg : SimCfg ℝ G O P Img} (hk : KeepsDoping cfg.rate) {n : ℕ} {m : V2 ℝ → V2 ℝ}
    {ps : List (V2 ℝ)} (hm : ∀ u, HoneycombPoint u → (2 ≤ u.x ∧ u.x ≤ n - 3) → (2 ≤ u.y ∧ u.y ≤ n - 3) →
      ∃ nbrs, Honeycomb ps (m u) nbrs) {s : Sim ℝ G O P}
    {l : List (BeamControl ℝ × Grid ℝ × Observation ℝ Img)} (hrec : Recorded cfg s l) :
    ∀ {sheet : Grid ℝ} {o0 : Observation ℝ Img}, Sees s sheet o0 → sheet.positions = ps →
      AllSteps (InnerStep n m) sheet l → AllSteps Clean sheet l := by
  induction hrec with
  | done s => intros; trivial
  | @step s s' c sheet' o rest b hs hg hr ih =>
    intro sheet o0 h hps hin
    obtain ⟨sheet1, h1, hpos, _⟩ := sees_step hk h hs
    have : sheet1 = sheet' := by have := h1.grid; rw [hg] at this; cases this; rfl
    subst this
    refine ⟨?_, ih h1 (hpos.trans hps) hin.2⟩
    intro si si' hsi hsi'
    obtain ⟨hd, u, hu, rfl, hx, hy⟩ := hin.1 si si' hsi hsi'
    exact ⟨by rw [hps]; exact hm u hu hx hy, hd⟩

/-- The same for simulated graphene: after any history and a reset the sheet is a honeycomb laid out in
the plane, and if in the record of the steps that follow the silicon starts each step away from the border
and ends it at most 5.5 Å from there, the data points are exactly those the true sheets call for. -/
theorem C122_graphene (knn : Knn ℝ) (cutoff : ℝ) (hcut : 0 ≤ cutoff) (cfg : SimCfg ℝ G O P Img) (n : ℕ)
    (hgen : cfg.generate = generatePristineGraphene cfg.rng n)
    (hl : cfg.rng.Lawful) (hr : SwapRates cfg.rate) (g : G) (obs : List O) (ops : List (SimOp ℝ O))
    (b : Bool) (o0 : Observation ℝ Img) (s : Sim ℝ G O P)
    (hreset : Sim.reset cfg b (Sim.run cfg (Sim.fresh g obs) ops).2 = .ok o0 s) :
    ∃ sheet m, s.ctx.mat.grid = some sheet ∧
      (∀ u v, Spec.dist (m u) (m v) = 142 / 100 * Spec.dist u v) ∧
      (∀ p ∈ sheet.positions, ∃ u, HoneycombPoint u ∧ p = m u) ∧
      ∀ l, Recorded cfg s l → AllSteps (InnerStep n m) sheet l →
        ∃ data k, transitionsToDatapoints knn cutoff
            (trajectoriesToTransitions true [o0 :: l.map (fun e => e.2.2)]) [] {} =
            .ok (data, { noSiliconNeighbor := k }) ∧
          Yields sheet o0.fov l data ∧ data.length + k = l.length := by
  have hinv : SimInv (Sim.run cfg (Sim.fresh g obs : Sim ℝ G O P) ops).2 :=
    (SimInv.fresh g obs).run hl hr.keepsDoping ops
  obtain ⟨sheet, h1, hpos⟩ := sees_reset hl hinv hreset
  obtain ⟨offset, angle, he, _⟩ := C40_generated cfg.rng hl n
    (Sim.run cfg (Sim.fresh g obs : Sim ℝ G O P) ops).2.ctx.g
  rw [hgen, he] at hpos
  obtain ⟨hnd, m, hm1, hm2, hm3⟩ := C122_generated_sheets n offset angle
  refine ⟨sheet, m, h1.grid, hm1, by rw [hpos]; exact hm2, ?_⟩
  intro l hrec hin
  exact C122_simulated_data knn cutoff hcut cfg hl hr g obs ops b o0 s hreset sheet h1.grid
    (by rw [hpos]; exact hnd) l hrec
    (recorded_clean hr.keepsDoping (fun u hu hx hy => (hm3 u hu hx hy).2) hrec h1 hpos hin)

/-! ### A recorded step -/

namespace SimDataExample

/-- An atom at the origin with three bonds, and six atoms at 3 Å. -/
noncomputable def atoms10 : List (V2 ℝ) :=
  [⟨0, 0⟩, ⟨1, 0⟩, ⟨-3 / 5, 4 / 5⟩, ⟨-3 / 5, -4 / 5⟩, ⟨3, 0⟩, ⟨-3, 0⟩, ⟨0, 3⟩, ⟨0, -3⟩, ⟨9 / 5, 12 / 5⟩,
    ⟨-9 / 5, 12 / 5⟩]

noncomputable def cfg : SimCfg ℝ Unit Unit Unit Unit :=
  { playCfg.sim with generate := fun g => (atoms10, g) }

theorem atoms10_nodup : atoms10.Nodup := by
  simp only [atoms10, List.nodup_cons, List.mem_cons, List.not_mem_nil, or_false, V2.mk.injEq]
  norm_num

theorem dist0 {x y d : ℝ} (hd : 0 ≤ d) (h : x ^ 2 + y ^ 2 = d ^ 2) : Spec.dist ⟨0, 0⟩ ⟨x, y⟩ = d := by
  have : Spec.dist ⟨0, 0⟩ ⟨x, y⟩ = Real.sqrt (x ^ 2 + y ^ 2) := by simp [Spec.dist]
  rw [this, h, Real.sqrt_sq hd]

theorem honeycomb10 : Honeycomb atoms10 ⟨0, 0⟩ [⟨1, 0⟩, ⟨-3 / 5, 4 / 5⟩, ⟨-3 / 5, -4 / 5⟩] := by
  have h0 : Spec.dist (⟨0, 0⟩ : V2 ℝ) ⟨0, 0⟩ = 0 := dist0 (by norm_num) (by norm_num)
  have h1 : Spec.dist (⟨0, 0⟩ : V2 ℝ) ⟨1, 0⟩ = 1 := dist0 (by norm_num) (by norm_num)
  have h2 : Spec.dist (⟨0, 0⟩ : V2 ℝ) ⟨-3 / 5, 4 / 5⟩ = 1 := dist0 (by norm_num) (by norm_num)
  have h3 : Spec.dist (⟨0, 0⟩ : V2 ℝ) ⟨-3 / 5, -4 / 5⟩ = 1 := dist0 (by norm_num) (by norm_num)
  have h4 : Spec.dist (⟨0, 0⟩ : V2 ℝ) ⟨3, 0⟩ = 3 := dist0 (by norm_num) (by norm_num)
  have h5 : Spec.dist (⟨0, 0⟩ : V2 ℝ) ⟨-3, 0⟩ = 3 := dist0 (by norm_num) (by norm_num)
  have h6 : Spec.dist (⟨0, 0⟩ : V2 ℝ) ⟨0, 3⟩ = 3 := dist0 (by norm_num) (by norm_num)
  have h7 : Spec.dist (⟨0, 0⟩ : V2 ℝ) ⟨0, -3⟩ = 3 := dist0 (by norm_num) (by norm_num)
  have h8 : Spec.dist (⟨0, 0⟩ : V2 ℝ) ⟨9 / 5, 12 / 5⟩ = 3 := dist0 (by norm_num) (by norm_num)
  have h9 : Spec.dist (⟨0, 0⟩ : V2 ℝ) ⟨-9 / 5, 12 / 5⟩ = 3 := dist0 (by norm_num) (by norm_num)
  refine ⟨by simp [atoms10], rfl, ?_, ?_, ?_, ?_, ?_, atoms10, atoms10_nodup, rfl, ?_⟩
  · simp only [List.nodup_cons, List.mem_cons, List.not_mem_nil, or_false, V2.mk.injEq]; norm_num
  · simp only [List.mem_cons, List.not_mem_nil, or_false, V2.mk.injEq]; norm_num
  · simp only [List.mem_cons, List.not_mem_nil, or_false, forall_eq_or_imp, forall_eq, h1, h2, h3]
    simp only [atoms10, List.mem_cons, List.not_mem_nil, or_false, V2.mk.injEq]
    norm_num
  · simp only [List.mem_cons, List.not_mem_nil, or_false, forall_eq_or_imp, forall_eq, cross, dot, V2.sub_x,
      V2.sub_y]
    norm_num
  · simp only [atoms10, List.mem_cons, List.not_mem_nil, or_false, forall_eq_or_imp, forall_eq, h1, h2, h3, h4,
      h5, h6, h7, h8, h9, V2.mk.injEq]
    norm_num
  · intro q hq
    refine ⟨hq, ?_⟩
    simp only [atoms10, List.mem_cons, List.not_mem_nil, or_false] at hq
    rcases hq with rfl | rfl | rfl | rfl | rfl | rfl | rfl | rfl | rfl | rfl
    · rw [h0]; norm_num
    · rw [h1]; norm_num
    · rw [h2]; norm_num
    · rw [h3]; norm_num
    · rw [h4]; norm_num
    · rw [h5]; norm_num
    · rw [h6]; norm_num
    · rw [h7]; norm_num
    · rw [h8]; norm_num
    · rw [h9]; norm_num

end SimDataExample

open SimDataExample in
/-- The hypotheses of `C122_simulated_data` can be met: a simulator with ten atoms and the human prior's
rates, a reset and a step of 1.5 seconds, whichever atom the silicon goes to. -/
example : ∃ o0 s sheet c sheet' o, Sim.reset SimDataExample.cfg true (Sim.run SimDataExample.cfg
      (Sim.fresh () [] : Sim ℝ Unit Unit Unit) []).2 = .ok o0 s ∧
    s.ctx.mat.grid = some sheet ∧ sheet.positions.Nodup ∧
    Recorded SimDataExample.cfg s [(c, sheet', o)] ∧ AllSteps Clean sheet [(c, sheet', o)] := by
  have hl : SimDataExample.cfg.rng.Lawful := Witness.rng_lawful zero_le_one
  have hsw : SwapRates SimDataExample.cfg.rate := C39_pristine_swaps _ _
  have hinv : SimInv (Sim.fresh () [] : Sim ℝ Unit Unit Unit) := SimInv.fresh () []
  cases hres : Sim.reset SimDataExample.cfg true (Sim.fresh () [] : Sim ℝ Unit Unit Unit) with
  | error e s => exact absurd (reset_error hres).1 (by simp [SimDataExample.cfg, atoms10])
  | ok o0 s =>
    obtain ⟨sheet, h1, hpos⟩ := sees_reset hl hinv hres
    have hpos' : sheet.positions = atoms10 := hpos
    have hnd : sheet.positions.Nodup := by rw [hpos']; exact atoms10_nodup
    have hgood : GoodSheet sheet := ⟨h1.doped, by rw [hpos']; simp [atoms10], hnd⟩
    rcases simStep_returns SimDataExample.cfg hl hsw (C99_rates_defined Witness.knn).2.1 true
      [BeamControl.mk' ⟨1 / 2, 1 / 2⟩ 1500000] (by simp [BeamControl.mk']) s h1.inv o0.fov h1.fov sheet h1.grid hgood
      with ⟨o, s', hs⟩ | ⟨_, hbad⟩
    swap
    · exact absurd (hbad (fun _ _ => by norm_num [SimDataExample.cfg, playCfg, Witness.rng])) (by simp [SimDataExample.cfg, playCfg])
    obtain ⟨sheet', h2, hpos2, _⟩ := sees_step hsw.keepsDoping h1 hs
    refine ⟨o0, s, sheet, BeamControl.mk' ⟨1 / 2, 1 / 2⟩ 1500000, sheet', o, hres, h1.grid, hnd,
      .step true hs h2.grid (.done _), ?_, trivial⟩
    intro si si' hsi hsi'
    have h0 : si = ⟨0, 0⟩ := by
      obtain ⟨sj, hsj, _, hmin⟩ := dopeSheet_nearest (reset_dopes hres h1.grid)
      rw [hsi] at hsj
      cases hsj
      have h := hmin ⟨0, 0⟩ (by simp [SimDataExample.cfg, atoms10])
      simp only [V2.normSq, mul_zero, add_zero] at h
      have hx : si.x = 0 := by nlinarith [mul_self_nonneg si.x, mul_self_nonneg si.y]
      have hy : si.y = 0 := by nlinarith [mul_self_nonneg si.x, mul_self_nonneg si.y]
      ext <;> assumption
    subst h0
    refine ⟨⟨_, by rw [hpos']; exact honeycomb10⟩, ?_⟩
    have hm : si' ∈ atoms10 := by
      rw [← hpos', ← hpos2]
      obtain ⟨i, _, hi⟩ := silicon_index (g := sheet') (si := si') (by rw [hsi']; simp)
      exact List.mem_of_getElem? hi
    simp only [atoms10, List.mem_cons, List.not_mem_nil, or_false] at hm
    rcases hm with rfl | rfl | rfl | rfl | rfl | rfl | rfl | rfl | rfl | rfl
    all_goals
      refine Real.sqrt_le_iff.2 ⟨by norm_num, by norm_num⟩

end PD.Props
