/- The coordinates in which rates are learned and predicted (C84). -/
import Verif.Spec.Predictor
import Verif.Props.Learn
import Verif.Lemmas.Argmin

set_option linter.unusedSectionVars false
set_option linter.unusedSimpArgs false

namespace PD.Props
open PD PD.Spec

theorem norm2_lt_iff (p q : V2 ℝ) : norm2 p < norm2 q ↔ p.x * p.x + p.y * p.y < q.x * q.x + q.y * q.y := by
  unfold norm2
  exact Real.sqrt_lt_sqrt_iff (by nlinarith [mul_self_nonneg p.x, mul_self_nonneg p.y])

theorem norm2_le_iff (p q : V2 ℝ) : norm2 p ≤ norm2 q ↔ p.x * p.x + p.y * p.y ≤ q.x * q.x + q.y * q.y := by
  rw [← not_lt, norm2_lt_iff, not_lt]

theorem norm2_nonneg' (p : V2 ℝ) : 0 ≤ norm2 p := Real.sqrt_nonneg _

theorem norm2_sub_pos {p q : V2 ℝ} (h : p ≠ q) : 0 < norm2 (p - q) := by
  apply Real.sqrt_pos.2
  by_contra hc
  apply h
  have h1 := mul_self_nonneg (p - q).x
  have h2 := mul_self_nonneg (p - q).y
  have hx : (p - q).x = 0 := mul_self_eq_zero.1 (by linarith)
  have hy : (p - q).y = 0 := mul_self_eq_zero.1 (by linarith)
  simp only [V2.sub_x, V2.sub_y] at hx hy
  cases p
  cases q
  simp only at hx hy
  rw [V2.mk.injEq]
  exact ⟨by linarith, by linarith⟩

theorem norm2_sub_self (p : V2 ℝ) : norm2 (p - p) = 0 := by simp [norm2]

/-- Seen from the beam or from a point on the way to it, equally distant neighbours are in the same order. -/
theorem nearest_scaled (b : V2 ℝ) {t d : ℝ} (ht : 0 < t) {ns : List (V2 ℝ)}
    (hd : ∀ n ∈ ns, norm2 n = d) :
    argmin? (ns.map (fun n => norm2 (n - ⟨b.x / t, b.y / t⟩))) = argmin? (ns.map (fun n => norm2 (n - b))) := by
  cases h : argmin? (ns.map (fun n => norm2 (n - b))) with
  | none =>
    have := argmin?_eq_none h
    simp only [List.map_eq_nil_iff] at this
    subst this
    rfl
  | some i =>
    obtain ⟨v, hv, hmin, hfirst⟩ := argmin?_eq_some h
    rw [List.getElem?_map, Option.map_eq_some_iff] at hv
    obtain ⟨n, hn, rfl⟩ := hv
    have key : ∀ m ∈ ns, ((m - b).x * (m - b).x + (m - b).y * (m - b).y) -
        ((n - b).x * (n - b).x + (n - b).y * (n - b).y) =
        t * (((m - ⟨b.x / t, b.y / t⟩ : V2 ℝ).x * (m - ⟨b.x / t, b.y / t⟩ : V2 ℝ).x +
          (m - ⟨b.x / t, b.y / t⟩ : V2 ℝ).y * (m - ⟨b.x / t, b.y / t⟩ : V2 ℝ).y) -
          ((n - ⟨b.x / t, b.y / t⟩ : V2 ℝ).x * (n - ⟨b.x / t, b.y / t⟩ : V2 ℝ).x +
          (n - ⟨b.x / t, b.y / t⟩ : V2 ℝ).y * (n - ⟨b.x / t, b.y / t⟩ : V2 ℝ).y)) := by
      intro m hm
      have h0 : norm2 m = norm2 n := (hd m hm).trans (hd n (List.mem_of_getElem? hn)).symm
      have h1 := (norm2_le_iff m n).1 h0.le
      have h2 := (norm2_le_iff n m).1 h0.ge
      have h3 : m.x * m.x + m.y * m.y = n.x * n.x + n.y * n.y := le_antisymm h1 h2
      simp only [V2.sub_x, V2.sub_y]
      field_simp
      linear_combination (t - t ^ 2) * h3
    apply argmin?_eq_of (v := norm2 (n - ⟨b.x / t, b.y / t⟩))
    · rw [List.getElem?_map, hn]
      rfl
    · intro w hw
      obtain ⟨m, hm, rfl⟩ := List.mem_map.1 hw
      have h1 := (norm2_le_iff _ _).1 (hmin _ (List.mem_map_of_mem hm))
      have h2 := key m hm
      rw [norm2_le_iff]
      have h3 := nonneg_of_mul_nonneg_right (h2 ▸ sub_nonneg.2 h1) ht
      linarith
    · intro j hj w hw
      rw [List.getElem?_map, Option.map_eq_some_iff] at hw
      obtain ⟨m, hm, rfl⟩ := hw
      have h1 := (norm2_lt_iff _ _).1 (hfirst j hj (norm2 (m - b)) (by rw [List.getElem?_map, hm]; rfl))
      have h2 := key m (List.mem_of_getElem? hm)
      rw [norm2_lt_iff]
      have h3 := pos_of_mul_pos_right (h2 ▸ sub_pos.2 h1) ht.le
      linarith

theorem standardize_scaled (b : V2 ℝ) {t d : ℝ} (ht : 0 < t) {ns : List (V2 ℝ)}
    (hd : ∀ n ∈ ns, norm2 n = d) {b' : V2 ℝ} {rs : List (V2 ℝ)} {order : List ℕ}
    (h : standardize b ns = .ok (b', rs, order)) :
    standardize ⟨b.x / t, b.y / t⟩ ns = .ok (⟨b'.x / t, b'.y / t⟩, rs, order) := by
  unfold standardize at h ⊢
  rw [nearest_scaled b ht hd]
  cases hk : argmin? (ns.map (fun n => norm2 (n - b))) with
  | none => rw [hk] at h; cases h
  | some k =>
    rw [hk] at h
    simp only at h ⊢
    cases ha : (getAngles ns)[k]? with
    | none => rw [ha] at h; cases h
    | some a =>
      rw [ha] at h
      simp only [Except.ok.injEq, Prod.mk.injEq] at h ⊢
      obtain ⟨rfl, rfl, rfl⟩ := h
      refine ⟨?_, rfl, rfl⟩
      simp only [rotate, V2.mk.injEq]
      constructor <;> field_simp

/-- For neighbours at equal distances, as in the perfect sheet, the network is asked at the recorded position
divided by the bond length, and the label of a jump to neighbour `k` numbers the output that is predicted for
neighbour `k`.  Missing for C84: the position itself (`C84_position_differs`), and neighbours at different
distances (`C84_numbering_differs`). -/
theorem C84_scaled_partial (c : BeamControl ℝ) (grid : Grid ℝ) (beam si siAfter : V2 ℝ) (idx : List ℕ)
    (nbrs : List (V2 ℝ)) (hn : takeRows grid.positions idx = .ok nbrs) (d : ℝ)
    (hd : ∀ p ∈ nbrs, norm2 (p - si) = d) (dp : DataPoint)
    (hdp : makeDataPoint c beam si siAfter (si :: nbrs) = .ok dp) :
    ∃ x order, predictInput false false grid beam si idx = .ok (x, order) ∧
      dp.beamPos = ⟨BOND * x.x, BOND * x.y⟩ ∧
      (nbrs.Nodup → si ∉ nbrs → ∀ (k : ℕ), nbrs[k]? = some siAfter →
        ∀ (net : V2 ℝ → List ℝ) (rates : List ℝ),
          learnedPredict false false [net] grid beam si idx = .ok rates →
          1 ≤ dp.nextState ∧ rates[k]? = (net x)[dp.nextState - 1]?) ∧
      (siAfter = si → dp.nextState = 0) := by
  have hB : (0 : ℝ) < BOND := by norm_num [BOND]
  unfold makeDataPoint at hdp
  simp only [List.map_cons, List.drop_succ_cons, List.drop_zero] at hdp
  cases hs : standardize (beam - si) (nbrs.map (fun p => p - si)) with
  | error e => rw [hs] at hdp; cases hdp
  | ok v =>
    obtain ⟨b', rs, order⟩ := v
    rw [hs] at hdp
    simp only at hdp
    have hd' : ∀ n ∈ nbrs.map (fun p => p - si), norm2 n = d := by
      intro n hn'
      obtain ⟨p, hp, rfl⟩ := List.mem_map.1 hn'
      exact hd p hp
    have hsc := standardize_scaled (beam - si) hB hd' hs
    have hpi : predictInput false false grid beam si idx = .ok (⟨b'.x / BOND, b'.y / BOND⟩, order) := by
      simp only [predictInput, hn, hsc, Bool.false_eq_true, if_false]
    have hpos : dp.beamPos = b' := by
      split at hdp
      · cases hdp
      · cases hdp
        rfl
      · split at hdp
        · cases hdp
        · cases hdp
          rfl
    refine ⟨_, order, hpi, ?_, ?_, ?_⟩
    · rw [hpos]
      simp only
      rw [mul_div_cancel₀ _ hB.ne', mul_div_cancel₀ _ hB.ne']
    · intro hnd hsi k hk net rates hr
      have harg : argmin? (norm2 (si - siAfter) :: nbrs.map (fun p => norm2 (p - siAfter))) = some (k + 1) := by
        have hself := norm2_sub_self siAfter
        apply argmin?_eq_of (v := 0)
        · rw [List.getElem?_cons_succ, List.getElem?_map, hk, Option.map_some, hself]
        · intro w hw
          rcases List.mem_cons.1 hw with rfl | hw
          · exact norm2_nonneg' _
          · obtain ⟨p, -, rfl⟩ := List.mem_map.1 hw
            exact norm2_nonneg' _
        · intro j hj w hw
          cases j with
          | zero =>
            simp only [List.getElem?_cons_zero, Option.some.injEq] at hw
            subst hw
            exact norm2_sub_pos (fun h => hsi (h ▸ List.mem_of_getElem? hk))
          | succ j =>
            rw [List.getElem?_cons_succ, List.getElem?_map, Option.map_eq_some_iff] at hw
            obtain ⟨p, hp, rfl⟩ := hw
            apply norm2_sub_pos
            rintro rfl
            have hjk := (List.nodup_iff_getElem?_ne_getElem?.1 hnd) j k (by omega)
              (List.getElem?_eq_some_iff.1 hk).1
            exact hjk (hp.trans hk.symm)
      rw [harg] at hdp
      simp only at hdp
      cases hrank : (argsort order)[k]? with
      | none => rw [hrank] at hdp; cases hdp
      | some rank =>
        rw [hrank] at hdp
        cases hdp
        refine ⟨by simp, ?_⟩
        simp only [learnedPredict, hpi, packagedModel] at hr
        have := (takeRows_ok hr).2 k
        rw [this, hrank]
        simp
    · rintro rfl
      have : argmin? (norm2 (siAfter - siAfter) :: nbrs.map (fun p => norm2 (p - siAfter))) = some 0 := by
        apply argmin?_eq_of (v := 0)
        · simp [norm2]
        · intro w hw
          rcases List.mem_cons.1 hw with rfl | hw
          · simp [norm2]
          · obtain ⟨p, -, rfl⟩ := List.mem_map.1 hw
            exact norm2_nonneg' _
        · intro j hj
          omega
      rw [this] at hdp
      cases hdp
      rfl

theorem standardize_beam {b b' : V2 ℝ} {ns rs : List (V2 ℝ)} {order : List ℕ}
    (h : standardize b ns = .ok (b', rs, order)) : ∃ θ, b' = rotate b θ := by
  unfold standardize at h
  split at h
  · cases h
  · simp only at h
    split at h
    · cases h
    · simp only [Except.ok.injEq, Prod.mk.injEq] at h
      exact ⟨_, h.1.symm⟩

theorem rotate_sq (b : V2 ℝ) (θ : ℝ) :
    (rotate b θ).x ^ 2 + (rotate b θ).y ^ 2 = b.x ^ 2 + b.y ^ 2 := by
  simp only [rotate]
  linear_combination (b.x ^ 2 + b.y ^ 2) * Real.sin_sq_add_cos_sq θ

/-- Whatever the neighbours, the network is asked at the recorded position only when the beam is on the
silicon. -/
theorem C84_position_differs (c : BeamControl ℝ) (grid : Grid ℝ) (beam si siAfter : V2 ℝ) (idx : List ℕ)
    (nbrs : List (V2 ℝ)) (dp : DataPoint) (hdp : makeDataPoint c beam si siAfter (si :: nbrs) = .ok dp)
    (x : V2 ℝ) (order : List ℕ) (hx : predictInput false false grid beam si idx = .ok (x, order)) :
    dp.beamPos = x ↔ beam = si := by
  have h1 : ∃ θ, dp.beamPos = rotate (beam - si) θ := by
    unfold makeDataPoint at hdp
    simp only [List.map_cons, List.drop_succ_cons, List.drop_zero] at hdp
    cases hs : standardize (beam - si) (nbrs.map (fun p => p - si)) with
    | error e => rw [hs] at hdp; cases hdp
    | ok v =>
      obtain ⟨b', rs, order⟩ := v
      rw [hs] at hdp
      obtain ⟨θ, hθ⟩ := standardize_beam hs
      refine ⟨θ, ?_⟩
      rw [← hθ]
      simp only at hdp
      split at hdp
      · cases hdp
      · cases hdp
        rfl
      · split at hdp
        · cases hdp
        · cases hdp
          rfl
  have h2 : ∃ θ, x = rotate ⟨(beam - si).x / BOND, (beam - si).y / BOND⟩ θ := by
    unfold predictInput at hx
    split at hx
    · cases hx
    · simp only at hx
      split at hx
      · cases hx
      · rename_i hs
        simp only [Bool.false_eq_true, if_false, Except.ok.injEq, Prod.mk.injEq] at hx
        obtain ⟨rfl, -⟩ := hx
        exact standardize_beam hs
  obtain ⟨θ, hθ⟩ := h1
  obtain ⟨φ, hφ⟩ := h2
  constructor
  · intro h
    have e1 := rotate_sq (beam - si) θ
    have e2 := rotate_sq ⟨(beam - si).x / BOND, (beam - si).y / BOND⟩ φ
    rw [← hθ, h] at e1
    rw [← hφ, e1] at e2
    simp only [BOND] at e2
    have hx0 : (beam - si).x ^ 2 + (beam - si).y ^ 2 = 0 := by
      field_simp at e2
      nlinarith [sq_nonneg (beam - si).x, sq_nonneg (beam - si).y]
    have hxx : (beam - si).x = 0 := by
      have := sq_nonneg (beam - si).y
      have := sq_nonneg (beam - si).x
      exact pow_eq_zero_iff (two_ne_zero) |>.1 (by linarith)
    have hyy : (beam - si).y = 0 := by
      have := sq_nonneg (beam - si).y
      have := sq_nonneg (beam - si).x
      exact pow_eq_zero_iff (two_ne_zero) |>.1 (by linarith)
    simp only [V2.sub_x, V2.sub_y] at hxx hyy
    cases beam
    cases si
    simp only at hxx hyy
    rw [V2.mk.injEq]
    exact ⟨by linarith, by linarith⟩
  · rintro rfl
    rw [hθ, hφ]
    simp [rotate]

/-- A silicon at the origin whose three neighbours are at distances 2, 1 and 5. -/
def lopsided : Grid ℝ := ⟨[⟨0, 0⟩, ⟨2, 0⟩, ⟨-1, 0⟩, ⟨0, 5⟩], [14, 6, 6, 6]⟩

theorem angle_right : getAngle ⟨2, 0⟩ = 0 := by
  have : (⟨2, 0⟩ : ℂ) = ((2 : ℝ) : ℂ) := by apply Complex.ext <;> simp
  rw [getAngle, this]
  exact Complex.arg_ofReal_of_nonneg (by norm_num)

theorem angle_left : getAngle ⟨-1, 0⟩ = Real.pi := by
  have : (⟨-1, 0⟩ : ℂ) = ((-1 : ℝ) : ℂ) := by apply Complex.ext <;> simp
  rw [getAngle, this]
  exact Complex.arg_ofReal_of_neg (by norm_num)

theorem angle_up : getAngle ⟨0, 5⟩ = Real.pi / 2 := by
  have : (⟨0, 5⟩ : ℂ) = ((5 : ℝ) : ℂ) * Complex.I := by apply Complex.ext <;> simp
  rw [getAngle, this, Complex.arg_real_mul _ (by norm_num), Complex.arg_I]

theorem pyMod_small {x m : ℝ} (h0 : 0 ≤ x) (h1 : x < m) : pyMod x m = x := by
  have hm : 0 < m := lt_of_le_of_lt h0 h1
  have : ⌊x / m⌋ = 0 := by
    rw [Int.floor_eq_zero_iff]
    exact ⟨div_nonneg h0 hm.le, (div_lt_one hm).2 h1⟩
  simp [pyMod, this]

theorem pyMod_neg {x m : ℝ} (h0 : -m ≤ x) (h1 : x < 0) : pyMod x m = x + m := by
  have hm : 0 < m := by linarith
  have : ⌊x / m⌋ = -1 := by
    rw [Int.floor_eq_iff]
    constructor
    · rw [le_div_iff₀ hm]
      push_cast
      linarith
    · rw [div_lt_iff₀ hm]
      push_cast
      linarith
  simp [pyMod, this]

theorem lopsided_trained : standardize ⟨3 / 5, 0⟩ [⟨2, 0⟩, ⟨-1, 0⟩, ⟨0, 5⟩] =
    .ok (rotate ⟨3 / 5, 0⟩ (-0), rotateCoordinates [⟨2, 0⟩, ⟨-1, 0⟩, ⟨0, 5⟩] (-0), [0, 2, 1]) := by
  have hπ := Real.pi_pos
  have hk : argmin? (([⟨2, 0⟩, ⟨-1, 0⟩, ⟨0, 5⟩] : List (V2 ℝ)).map (fun n => norm2 (n - ⟨3 / 5, 0⟩))) =
      some 0 := by
    apply argmin?_eq_of (v := norm2 (⟨2, 0⟩ - ⟨3 / 5, 0⟩))
    · rfl
    · intro w hw
      simp only [List.map_cons, List.map_nil, List.mem_cons, List.not_mem_nil, or_false] at hw
      rcases hw with rfl | rfl | rfl <;> rw [norm2_le_iff] <;> norm_num
    · intro j hj
      omega
  unfold standardize
  rw [hk]
  simp only [getAngles, List.map_cons, List.map_nil, List.getElem?_cons_zero, angle_right, angle_left,
    angle_up, neg_zero, add_zero]
  rw [pyMod_small le_rfl (by linarith), pyMod_small hπ.le (by linarith),
    pyMod_small (by linarith) (by linarith)]
  have : ¬(Real.pi ≤ Real.pi / 2) := by linarith
  simp [argsort, List.range_succ, List.insertionSort, List.orderedInsert, hπ.le, this, (half_pos hπ).le]

theorem lopsided_asked : standardize ⟨3 / 5 / BOND, 0⟩ [⟨2, 0⟩, ⟨-1, 0⟩, ⟨0, 5⟩] =
    .ok (rotate ⟨3 / 5 / BOND, 0⟩ (-Real.pi), rotateCoordinates [⟨2, 0⟩, ⟨-1, 0⟩, ⟨0, 5⟩] (-Real.pi),
      [1, 0, 2]) := by
  have hπ := Real.pi_pos
  have hk : argmin? (([⟨2, 0⟩, ⟨-1, 0⟩, ⟨0, 5⟩] : List (V2 ℝ)).map (fun n => norm2 (n - ⟨3 / 5 / BOND, 0⟩))) =
      some 1 := by
    apply argmin?_eq_of (v := norm2 (⟨-1, 0⟩ - ⟨3 / 5 / BOND, 0⟩))
    · rfl
    · intro w hw
      simp only [List.map_cons, List.map_nil, List.mem_cons, List.not_mem_nil, or_false] at hw
      rcases hw with rfl | rfl | rfl <;> rw [norm2_le_iff] <;> norm_num [BOND]
    · intro j hj w hw
      have : j = 0 := by omega
      subst this
      simp only [List.map_cons, List.getElem?_cons_zero, Option.some.injEq] at hw
      rw [← hw, norm2_lt_iff]
      norm_num [BOND]
  unfold standardize
  rw [hk]
  simp only [getAngles, List.map_cons, List.map_nil, List.getElem?_cons_succ, List.getElem?_cons_zero,
    angle_right, angle_left, angle_up]
  rw [zero_add, pyMod_neg (by linarith) (by linarith), show Real.pi + -Real.pi = 0 by ring,
    pyMod_small le_rfl (by linarith), pyMod_neg (by linarith) (by linarith)]
  have h1 : ¬(-Real.pi + 2 * Real.pi ≤ 0) := by linarith
  have h2 : -Real.pi + 2 * Real.pi ≤ Real.pi / 2 + -Real.pi + 2 * Real.pi := by linarith
  have h3 : 0 ≤ Real.pi / 2 + -Real.pi + 2 * Real.pi := by linarith
  simp [argsort, List.range_succ, List.insertionSort, List.orderedInsert, h1, h2, h3]

/-- When the neighbours are at different distances, the numbering differs too: here a jump to the first
neighbour is learned by the network's first output and predicted with its second. -/
theorem C84_numbering_differs (c : BeamControl ℝ) :
    (∃ dp, makeDataPoint c ⟨3 / 5, 0⟩ ⟨0, 0⟩ ⟨2, 0⟩ lopsided.positions = .ok dp ∧ dp.nextState = 1) ∧
    ∃ x, ∀ net : V2 ℝ → List ℝ, (∀ y, 3 ≤ (net y).length) → ∃ rates,
      learnedPredict false false [net] lopsided ⟨3 / 5, 0⟩ ⟨0, 0⟩ [1, 2, 3] = .ok rates ∧
      rates[0]? = (net x)[1]? := by
  have hsub : ∀ p : V2 ℝ, p - ⟨0, 0⟩ = p := by
    intro p
    cases p
    simp only [V2.ext_iff, V2.sub_x, V2.sub_y, sub_zero, and_self]
  constructor
  · have harg : argmin? (lopsided.positions.map (fun p => norm2 (p - ⟨2, 0⟩))) = some 1 := by
      apply argmin?_eq_of (v := norm2 ((⟨2, 0⟩ : V2 ℝ) - ⟨2, 0⟩))
      · rfl
      · intro w hw
        obtain ⟨p, -, rfl⟩ := List.mem_map.1 hw
        rw [norm2_sub_self]
        exact norm2_nonneg' _
      · intro j hj w hw
        have : j = 0 := by omega
        subst this
        simp only [lopsided, List.map_cons, List.getElem?_cons_zero, Option.some.injEq] at hw
        rw [← hw, norm2_lt_iff]
        norm_num
    have hord : argsort [0, 2, 1] = [0, 2, 1] := by decide
    refine ⟨⟨1, rotate ⟨3 / 5, 0⟩ (-0), totalSeconds c.dwellTime, c.currentNa, c.voltageKv⟩, ?_, rfl⟩
    unfold makeDataPoint
    simp only [harg]
    simp only [lopsided, List.map_cons, List.map_nil, List.drop_succ_cons, List.drop_zero, hsub,
      lopsided_trained, hord, List.getElem?_cons_zero]
  · have hpi : predictInput false false lopsided ⟨3 / 5, 0⟩ ⟨0, 0⟩ [1, 2, 3] =
        .ok (rotate ⟨3 / 5 / BOND, 0⟩ (-Real.pi), [1, 0, 2]) := by
      have ht : takeRows lopsided.positions [1, 2, 3] = .ok [⟨2, 0⟩, ⟨-1, 0⟩, ⟨0, 5⟩] := rfl
      simp only [predictInput, ht, hsub, List.map_cons, List.map_nil, zero_div, lopsided_asked,
        Bool.false_eq_true, if_false]
    refine ⟨rotate ⟨3 / 5 / BOND, 0⟩ (-Real.pi), fun net hnet => ?_⟩
    have hord : argsort [1, 0, 2] = [1, 0, 2] := by decide
    obtain ⟨rates, hr⟩ := takeRows_inRange (rows := net (rotate ⟨3 / 5 / BOND, 0⟩ (-Real.pi)))
      (idx := [1, 0, 2]) (by
        intro i hi
        have := hnet (rotate ⟨3 / 5 / BOND, 0⟩ (-Real.pi))
        simp only [List.mem_cons, List.not_mem_nil, or_false] at hi
        omega)
    refine ⟨rates, ?_, ?_⟩
    · simp only [learnedPredict, hpi, packagedModel, hord, hr]
    · rw [(takeRows_ok hr).2 0]
      rfl

/-- The hypotheses of `C84_scaled_partial` on the distances: a silicon with neighbours at distance 1. -/
example : ∀ p ∈ ([⟨1, 0⟩, ⟨0, 1⟩, ⟨-1, 0⟩] : List (V2 ℝ)), norm2 (p - ⟨0, 0⟩) = 1 := by
  intro p hp
  simp only [List.mem_cons, List.not_mem_nil, or_false] at hp
  rcases hp with rfl | rfl | rfl <;> simp [norm2]

end PD.Props
