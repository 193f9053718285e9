/- Labels of data points and nearest neighbours, computed with floating point numbers. -/
import Verif.Lemmas.FloatData
import Verif.Lemmas.Argmin

set_option linter.unusedSectionVars false
set_option linter.unusedSimpArgs false

namespace PD.Props
open PD PD.Spec
variable {Img : Type}

/-! ### The order of the neighbours -/

theorem cos_neg_range {θ : ℝ} (h0 : 0 ≤ θ) (h1 : θ < 2 * Real.pi) (hc : Real.cos θ < 0) :
    Real.pi / 2 < θ ∧ θ < 3 * Real.pi / 2 := by
  have hp := Real.pi_pos
  constructor
  · by_contra hcon
    push Not at hcon
    have := Real.cos_nonneg_of_neg_pi_div_two_le_of_le (by linarith) hcon
    linarith
  · by_contra hcon
    push Not at hcon
    have := Real.cos_nonneg_of_neg_pi_div_two_le_of_le (x := θ - 2 * Real.pi) (by linarith) (by linarith)
    rw [Real.cos_sub_two_pi] at this
    linarith

/-- Two directions more than a right angle apart have angles more than a right angle apart. -/
theorem ccw_apart {u v w : V2 ℝ} {θ φ : ℝ} (hu : 0 < len u) (hθ : CcwAngle u v θ) (hφ : CcwAngle u w φ)
    (h : dot v w < 0) : Real.pi / 2 < |θ - φ| := by
  obtain ⟨-, d1, c1⟩ := hθ
  obtain ⟨-, d2, c2⟩ := hφ
  have hid : len u ^ 2 * dot v w = dot u v * dot u w + Spec.cross u v * Spec.cross u w := by
    have : len u ^ 2 = u.x ^ 2 + u.y ^ 2 := Real.sq_sqrt (by positivity)
    rw [this]; simp only [dot, Spec.cross]; ring
  obtain ⟨hv, hw⟩ := len_pos_of_dot h
  have hcos : len u ^ 2 * dot v w = len u ^ 2 * (len v * len w * Real.cos (θ - φ)) := by
    rw [hid, d1, d2, c1, c2, Real.cos_sub]; ring
  have h2 : len u ^ 2 ≠ 0 := by positivity
  have h3 := mul_left_cancel₀ h2 hcos
  by_contra hcon
  push Not at hcon
  have := Real.cos_nonneg_of_neg_pi_div_two_le_of_le (abs_le.1 hcon).1 (abs_le.1 hcon).2
  rw [h3] at h
  have := mul_nonneg (mul_pos hv hw).le this
  linarith

/-- Rounding does not change the order of the neighbours. -/
theorem floatAngle_order (A : FloatAngle) {nbrs : List (V2 ℝ)} {d : V2 ℝ → V2 ℝ} {q : V2 ℝ} (hq : q ∈ nbrs)
    (h2 : ∃ w ∈ nbrs, w ≠ q)
    (hdot : ∀ p ∈ nbrs, ∀ p' ∈ nbrs, p ≠ p' → dot (d p) (d p') < 0) {p p' : V2 ℝ} (hp : p ∈ nbrs) (hp' : p' ∈ nbrs) :
    floatMod (f64 (A.arctan2 (d p).y (d p).x + -A.arctan2 (d q).y (d q).x)) floatTurn <
      floatMod (f64 (A.arctan2 (d p').y (d p').x + -A.arctan2 (d q).y (d q).x)) floatTurn ↔
    pyMod (getAngle (d p) + -getAngle (d q)) (2 * Real.pi) < pyMod (getAngle (d p') + -getAngle (d q)) (2 * Real.pi) := by
  obtain ⟨w, hw, hwq⟩ := h2
  have hu := (len_pos_of_dot (hdot q hq w hw (Ne.symm hwq))).1
  have hself : pyMod (getAngle (d q) + -getAngle (d q)) (2 * Real.pi) = 0 := ccw_self hu (ccwAngle_pyMod _ _)
  have hself' : floatMod (f64 (A.arctan2 (d q).y (d q).x + -A.arctan2 (d q).y (d q).x)) floatTurn = 0 := by
    rw [add_neg_cancel, f64_zero, floatMod_zero]
  have range : ∀ p ∈ nbrs, p ≠ q → Real.pi / 2 < pyMod (getAngle (d p) + -getAngle (d q)) (2 * Real.pi) ∧
      pyMod (getAngle (d p) + -getAngle (d q)) (2 * Real.pi) < 3 * Real.pi / 2 := by
    intro p hp hne
    obtain ⟨⟨a, b⟩, c, -⟩ := ccwAngle_pyMod (d q) (d p)
    refine cos_neg_range a b ?_
    have hd := hdot q hq p hp (Ne.symm hne)
    obtain ⟨l1, l2⟩ := len_pos_of_dot hd
    rw [c] at hd
    by_contra hcon
    push Not at hcon
    have := mul_nonneg (mul_pos l1 l2).le hcon
    linarith
  have err : ∀ p ∈ nbrs, p ≠ q → |floatMod (f64 (A.arctan2 (d p).y (d p).x + -A.arctan2 (d q).y (d q).x)) floatTurn -
      pyMod (getAngle (d p) + -getAngle (d q)) (2 * Real.pi)| ≤ 1 / 10 ^ 12 :=
    fun p hp hne => floatAngle_err A (d q) (d p) (range p hp hne).1 (range p hp hne).2
  have hpi := Real.pi_gt_three
  by_cases e : p = q
  · subst e
    rw [hself, hself']
    by_cases e' : p' = p
    · subst e'; rw [hself, hself']
    · have r := range p' hp' e'
      have k := abs_le.1 (err p' hp' e')
      norm_num at k
      constructor <;> intro _ <;> linarith [k.1, k.2, r.1]
  · have r := range p hp e
    have k := abs_le.1 (err p hp e)
    by_cases e' : p' = q
    · subst e'
      rw [hself, hself']
      norm_num at k
      constructor <;> intro _ <;> linarith [k.1, k.2, r.1]
    · have r' := range p' hp' e'
      have k' := abs_le.1 (err p' hp' e')
      by_cases e'' : p = p'
      · subst e''; simp
      · have far := ccw_apart hu (ccwAngle_pyMod (d q) (d p)) (ccwAngle_pyMod (d q) (d p')) (hdot p hp p' hp' e'')
        norm_num at k k'
        rcases lt_abs.1 far with g | g <;> constructor <;> intro _ <;> linarith [k.1, k.2, k'.1, k'.2]

/-! ### Making a data point -/

theorem floatMakeDataPoint_spec (L : FloatLib) (c : BeamControl ℝ) {beam si siAfter x : V2 ℝ} {nbrs : List (V2 ℝ)}
    (h2 : 2 ≤ nbrs.length) (hnd : nbrs.Nodup) (hsi : si ∉ nbrs)
    (hdot : ∀ p ∈ nbrs, ∀ p' ∈ nbrs, p ≠ p' → dot (floatSub p si) (floatSub p' si) < 0)
    (hx : x ∈ si :: nbrs) (hclose : floatNorm .plain (floatSub x siAfter) < 1 / 2)
    (hfar : ∀ p ∈ si :: nbrs, p ≠ x → 1 / 2 < floatNorm .plain (floatSub p siAfter)) :
    ∃ d, floatMakeDataPoint L c beam si siAfter (si :: nbrs) = .ok d ∧
      d.secondsBetween = floatSeconds c.dwellTime ∧ d.current = c.currentNa ∧ d.voltage = c.voltageKv ∧
      ∃ q ∈ nbrs, (∀ p ∈ nbrs, floatNorm .plain (floatSub (floatSub q si) (floatSub beam si)) ≤
          floatNorm .plain (floatSub (floatSub p si) (floatSub beam si))) ∧
        d.beamPos = floatRotate L (floatSub beam si) (-L.angle.arctan2 (floatSub q si).y (floatSub q si).x) ∧
        ∃ θ : V2 ℝ → ℝ, (∀ p ∈ nbrs, CcwAngle (floatSub q si) (floatSub p si) (θ p)) ∧
          ((x = si ∧ d.nextState = 0) ∨
            (x ∈ nbrs ∧ d.nextState = 1 + (nbrs.filter (fun p => decide (θ p < θ x))).length)) := by
  have hne : nbrs ≠ [] := by rintro rfl; simp at h2
  obtain ⟨i, hi⟩ := argmin?_isSome (l := nbrs.map (fun p => floatNorm .plain (floatSub (floatSub p si) (floatSub beam si))))
    (by simpa using hne)
  have hil := argmin?_lt hi
  rw [List.length_map] at hil
  obtain ⟨q, hq⟩ : ∃ q, nbrs[i]? = some q := ⟨_, List.getElem?_eq_getElem hil⟩
  have hqm := List.mem_of_getElem? hq
  have hw : ∃ w ∈ nbrs, w ≠ q := by
    by_contra hcon
    push Not at hcon
    have hs : nbrs ⊆ [q] := fun x hx => by simp [hcon x hx]
    have := (List.subperm_of_subset hnd hs).length_le
    simp at this
    omega
  have hnear : ∀ p ∈ nbrs, floatNorm .plain (floatSub (floatSub q si) (floatSub beam si)) ≤
      floatNorm .plain (floatSub (floatSub p si) (floatSub beam si)) := by
    obtain ⟨v, hv, hmin, -⟩ := argmin?_eq_some hi
    rw [List.getElem?_map, hq] at hv
    simp only [Option.map_some, Option.some.injEq] at hv
    intro p hp
    rw [hv]
    exact hmin _ (List.mem_map_of_mem (f := fun p => floatNorm .plain (floatSub (floatSub p si) (floatSub beam si))) hp)
  obtain ⟨y, hy⟩ : ∃ y : V2 ℝ → ℝ, y = fun p => floatMod (f64 (L.angle.arctan2 (floatSub p si).y (floatSub p si).x +
    -L.angle.arctan2 (floatSub q si).y (floatSub q si).x)) floatTurn := ⟨_, rfl⟩
  obtain ⟨θ, hθ⟩ : ∃ θ : V2 ℝ → ℝ, θ = fun p => pyMod (getAngle (floatSub p si) + -getAngle (floatSub q si)) (2 * Real.pi) :=
    ⟨_, rfl⟩
  have hord : ∀ p ∈ nbrs, ∀ p' ∈ nbrs, y p < y p' ↔ θ p < θ p' := by
    intro p hp p' hp'
    rw [hy, hθ]
    exact floatAngle_order L.angle (d := fun p => floatSub p si) hqm hw hdot hp hp'
  have hang : ∀ p ∈ nbrs, CcwAngle (floatSub q si) (floatSub p si) (θ p) := by
    intro p _
    rw [hθ]
    exact ccwAngle_pyMod _ _
  have hyinj : ∀ p ∈ nbrs, ∀ p' ∈ nbrs, y p = y p' → p = p' := by
    intro p hp p' hp' he
    by_contra hne
    have hu : 0 < len (floatSub q si) := by
      obtain ⟨w, hw, hwq⟩ := hw
      exact (len_pos_of_dot (hdot q hqm w hw (Ne.symm hwq))).1
    have far := ccw_apart hu (hang p hp) (hang p' hp') (hdot p hp p' hp' hne)
    have hpi := Real.pi_pos
    rcases lt_trichotomy (θ p) (θ p') with g | g | g
    · rw [← hord p hp p' hp', he] at g; exact absurd g (lt_irrefl _)
    · rw [g, sub_self, abs_zero] at far; linarith
    · rw [← hord p' hp' p hp, he] at g; exact absurd g (lt_irrefl _)
  have hynd : (nbrs.map y).Nodup := (List.nodup_map_iff_inj_on hnd).2 hyinj
  have hst : floatStandardize L (floatSub beam si) (nbrs.map (fun p => floatSub p si)) =
      .ok (floatRotate L (floatSub beam si) (-L.angle.arctan2 (floatSub q si).y (floatSub q si).x),
        (nbrs.map (fun p => floatSub p si)).map (fun n => floatRotate L n (-L.angle.arctan2 (floatSub q si).y (floatSub q si).x)),
        argsort (nbrs.map y)) := by
    unfold floatStandardize
    rw [List.map_map]
    have hi' : argmin? (nbrs.map ((fun n => floatNorm .plain (floatSub n (floatSub beam si))) ∘ fun p => floatSub p si)) =
        some i := hi
    rw [hi']
    simp only [List.getElem?_map, hq, Option.map_some, List.map_map]
    rw [hy]
    rfl
  obtain ⟨j, hj⟩ : ∃ j, (si :: nbrs)[j]? = some x := List.getElem?_of_mem hx
  have hlab : argmin? ((si :: nbrs).map (fun p => floatNorm .plain (floatSub p siAfter))) = some j := by
    refine argmin?_eq_of (v := floatNorm .plain (floatSub x siAfter)) (by rw [List.getElem?_map, hj]; rfl) ?_ ?_
    · intro w hw
      obtain ⟨p, hp, rfl⟩ := List.mem_map.1 hw
      by_cases e : p = x
      · rw [e]
      · linarith [hfar p hp e]
    · intro k hk w hw
      rw [List.getElem?_map] at hw
      obtain ⟨p, hp, rfl⟩ := Option.map_eq_some_iff.1 hw
      have : p ≠ x := by
        rintro rfl
        have := getElem?_inj (List.nodup_cons.2 ⟨hsi, hnd⟩) hp hj
        omega
      linarith [hfar p (List.mem_of_getElem? hp) this]
  unfold floatMakeDataPoint
  simp only [List.map_cons, List.drop_succ_cons, List.drop_zero] at hlab ⊢
  rw [hst]
  simp only [hlab]
  cases j with
  | zero =>
    simp only [List.getElem?_cons_zero, Option.some.injEq] at hj
    exact ⟨_, rfl, rfl, rfl, rfl, q, hqm, hnear, rfl, θ, hang, .inl ⟨hj.symm, rfl⟩⟩
  | succ k =>
    simp only [List.getElem?_cons_succ] at hj
    have hkl : k < (argsort (argsort (nbrs.map y))).length := by
      rw [argsort_length, argsort_length, List.length_map]
      exact (List.getElem?_eq_some_iff.1 hj).1
    have hr := List.getElem?_eq_getElem hkl
    generalize (argsort (argsort (nbrs.map y)))[k] = rank at hr
    simp only [hr]
    have hyk : (nbrs.map y)[k]? = some (y x) := by rw [List.getElem?_map, hj]; rfl
    have hrank := argsort_rank hynd (argsort_inverse (argsort_perm (nbrs.map y)) hr) hyk
    refine ⟨_, rfl, rfl, rfl, rfl, q, hqm, hnear, rfl, θ, hang, .inr ⟨List.mem_of_getElem? hj, ?_⟩⟩
    dsimp only
    rw [hrank, List.filter_map, List.length_map, Nat.add_comm]
    congr 2
    refine List.filter_congr (fun p hp => ?_)
    simp only [Function.comp_apply, hord p hp x (List.mem_of_getElem? hj)]

end PD.Props
