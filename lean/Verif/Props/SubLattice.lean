/- C96: the classes of the filtering aligner are the sub-lattices. -/
import Verif.Props.Translate
import Verif.Props.DataPoints
import Verif.Lemmas.Argsort
import Mathlib.Tactic.IntervalCases

set_option linter.unusedSectionVars false
set_option linter.unusedSimpArgs false

namespace PD.Props
open PD PD.Spec

/-! ### The nearest atoms -/

theorem argsort_take {xs : List ℝ} {S : List ℕ} (hnd : S.Nodup) (hS : ∀ j ∈ S, j < xs.length)
    (h : ∀ j ∈ S, ∀ m, m < xs.length → m ∉ S → xs.getD j 0 < xs.getD m 0) :
    ((argsort xs).take S.length).Perm S := by
  have hperm := argsort_perm xs
  have hlnd : (argsort xs).Nodup := hperm.nodup_iff.2 List.nodup_range
  have hsort := argsort_sorted xs
  have hlen : S.length ≤ xs.length := by
    have : S ⊆ List.range xs.length := fun j hj => List.mem_range.2 (hS j hj)
    simpa using (List.subperm_of_subset hnd this).length_le
  have hsub : (argsort xs).take S.length ⊆ S := by
    intro m hm
    by_contra hmS
    obtain ⟨i, hi⟩ := List.mem_iff_getElem?.1 hm
    rw [List.getElem?_take] at hi
    split at hi
    · rename_i hik
      have hmn : m < xs.length := List.mem_range.1 (hperm.mem_iff.1 (List.mem_of_getElem? hi))
      have hpre : S ⊆ (argsort xs).take i := by
        intro j hj
        obtain ⟨t, ht⟩ := List.mem_iff_getElem?.1 (hperm.mem_iff.2 (List.mem_range.2 (hS j hj)))
        have hlt := h j hj m hmn hmS
        have hti : t < i := by
          by_contra hge
          rcases Nat.lt_or_eq_of_le (not_lt.1 hge) with hlt' | heq
          · obtain ⟨h1, e1⟩ := List.getElem?_eq_some_iff.1 hi
            obtain ⟨h2, e2⟩ := List.getElem?_eq_some_iff.1 ht
            have := List.pairwise_iff_getElem.1 hsort i t h1 h2 hlt'
            rw [e1, e2] at this
            exact absurd hlt (not_lt.2 this)
          · subst heq
            rw [hi] at ht
            cases ht
            exact hmS hj
        apply List.mem_of_getElem? (i := t)
        rw [List.getElem?_take, if_pos hti]
        exact ht
      have := (List.subperm_of_subset hnd hpre).length_le
      simp only [List.length_take] at this
      omega
    · cases hi
  have hlt : ((argsort xs).take S.length).length = S.length := by
    rw [List.length_take, argsort_length]; omega
  exact (List.subperm_of_subset (hlnd.sublist (List.take_sublist _ _)) hsub).perm_of_length_le hlt.ge

theorem perm_three {α : Type} {l : List α} {a b c : α} (h : l.Perm [a, b, c]) :
    l = [a, b, c] ∨ l = [b, a, c] ∨ l = [c, b, a] ∨ l = [b, c, a] ∨ l = [c, a, b] ∨ l = [a, c, b] := by
  have := List.mem_permutations.2 h
  have e : [a, b, c].permutations = [[a, b, c], [b, a, c], [c, b, a], [b, c, a], [c, a, b], [a, c, b]] := by
    simp [List.permutations, List.permutationsAux, List.permutationsAux.rec, List.permutationsAux2]
  rw [e] at this
  simpa using this

/-- The direction from atom `i` to atom `j`. -/
noncomputable def direction (ps : List (V2 ℝ)) (i j : ℕ) : ℝ := getAngle (ps.getD j 0 - ps.getD i 0)

/-- `js` are the atoms nearest to atom `i`. -/
structure Nearest (ps : List (V2 ℝ)) (i : ℕ) (js : List ℕ) : Prop where
  nodup : js.Nodup
  other : ∀ j ∈ js, j ≠ i
  lt : ∀ j ∈ js, j < ps.length
  near : ∀ j ∈ js, Spec.dist (ps.getD i 0) (ps.getD j 0) < 1000
  far : ∀ j ∈ js, ∀ m, m < ps.length → m ≠ i → m ∉ js →
    Spec.dist (ps.getD i 0) (ps.getD j 0) < Spec.dist (ps.getD i 0) (ps.getD m 0)

theorem centred_eq_moved (ps : List (V2 ℝ)) : ∃ v, centred ps = moved v ps := by
  refine ⟨-⟨(ps.map (·.x)).sum / ps.length, (ps.map (·.y)).sum / ps.length⟩, ?_⟩
  unfold centred moved
  apply List.map_congr_left
  intro p _
  ext <;> simp <;> ring

theorem bondRow_getD (ps : List (V2 ℝ)) {i j : ℕ} (hj : j < ps.length) :
    (bondRow ps i).getD j 0 = Spec.dist (ps.getD i 0) (ps.getD j 0) + if i = j then 1000 else 0 := by
  rw [bondRow, List.getD_eq_getElem?_getD, List.getElem?_map, List.getElem?_range hj, dist_comm', ← norm2_sub]
  rfl

theorem bondRow_moved (v : V2 ℝ) (ps : List (V2 ℝ)) {i : ℕ} (hi : i < ps.length) :
    bondRow (moved v ps) i = bondRow ps i := by
  unfold bondRow
  have hl : (moved v ps).length = ps.length := by simp [moved]
  rw [hl]
  apply List.map_congr_left
  intro j hj
  rw [getD_moved v ps j (List.mem_range.1 hj), getD_moved v ps i hi, sub_moved]

theorem bonded_moved (v : V2 ℝ) (ps : List (V2 ℝ)) {i : ℕ} (hi : i < ps.length) :
    bonded (moved v ps) i = bonded ps i := by
  have hm : bondMean (moved v ps) = bondMean ps := by
    unfold bondMean
    have hl : (moved v ps).length = ps.length := by simp [moved]
    rw [hl]
    have : (List.range ps.length).flatMap (fun i => ((bondRow (moved v ps) i).mergeSort (fun a b => decide (a ≤ b))).take 3) =
        (List.range ps.length).flatMap (fun i => ((bondRow ps i).mergeSort (fun a b => decide (a ≤ b))).take 3) := by
      apply List.flatMap_congr
      intro i hi
      rw [bondRow_moved v ps (List.mem_range.1 hi)]
    rw [this]
  funext j
  unfold bonded
  rw [hm, bondRow_moved v ps hi]

/-- The features of an atom are the directions to the atoms nearest to it, in some order. -/
theorem features_perm {ps : List (V2 ℝ)} {i j1 j2 j3 : ℕ} (hi : i < ps.length) (h : Nearest ps i [j1, j2, j3]) :
    ((argsort (bondRow ps i)).take 3).Perm [j1, j2, j3] ∧
      (classifyFeatures ps)[i]? = some (((argsort (bondRow ps i)).take 3).map (direction ps i)) := by
  obtain ⟨v, hv⟩ := centred_eq_moved ps
  have hlen : (bondRow ps i).length = ps.length := by simp [bondRow]
  have hp : ((argsort (bondRow ps i)).take 3).Perm [j1, j2, j3] := by
    apply argsort_take (S := [j1, j2, j3]) h.nodup
    · intro j hj; rw [hlen]; exact h.lt j hj
    · intro j hj m hm hmS
      rw [hlen] at hm
      rw [bondRow_getD ps (h.lt j hj), bondRow_getD ps hm, if_neg (fun e => h.other j hj e.symm)]
      by_cases hmi : m = i
      · subst hmi
        rw [if_pos rfl]
        have := h.near j hj
        have h0 : 0 ≤ Spec.dist (ps.getD m 0) (ps.getD m 0) := Real.sqrt_nonneg _
        linarith
      · rw [if_neg (fun e => hmi e.symm)]
        have := h.far j hj m hm hmi hmS
        linarith
  refine ⟨hp, ?_⟩
  · unfold classifyFeatures
    simp only [hv]
    have hl : (moved v ps).length = ps.length := by simp [moved]
    rw [hl, List.getElem?_map, List.getElem?_range hi, Option.map_some, bondRow_moved v ps hi]
    congr 1
    unfold neighborAngles getAngles
    rw [List.map_map]
    apply List.map_congr_left
    intro j hj
    have hj' : j < ps.length := h.lt j (hp.mem_iff.1 hj)
    simp only [Function.comp, direction]
    rw [getD_moved v ps j hj', getD_moved v ps i hi, sub_moved]

/-! ### Nearest of two centres -/

/-- How far bonds (`e`) and centres (`h`) may be from the ideal directions. -/
def Tolerance (h e : ℝ) : Prop :=
  0 ≤ h ∧ 0 ≤ e ∧ (44 * h + 6 * e) * (Real.pi / 3) + 12 * h * (h + e) < 3 * (Real.pi / 3) ^ 2

/-- `x` is within `e` of the three directions `θ`, `θ + 120°`, `θ + 240°`. -/
def About (θ e : ℝ) (x : List ℝ) : Prop :=
  ∃ x1 x2 x3, x = [x1, x2, x3] ∧ |x1 - θ| ≤ e ∧ |x2 - (θ + 2 * (Real.pi / 3))| ≤ e ∧
    |x3 - (θ + 4 * (Real.pi / 3))| ≤ e

theorem centres_core {δ h e u1 u2 u3 v1 v2 v3 m1 m2 m3 : ℝ} (hδ : 0 < δ) (hh : 0 ≤ h)
    (htol : (44 * h + 6 * e) * δ + 12 * h * (h + e) < 3 * δ ^ 2)
    (hu1 : |u1| ≤ 2 * h) (hu2 : |u2| ≤ 2 * h) (hu3 : |u3| ≤ 2 * h)
    (hv1 : |v1| ≤ 2 * (h + e)) (hv2 : |v2| ≤ 2 * (h + e)) (hv3 : |v3| ≤ 2 * (h + e))
    (hm : m1 + m2 + m3 = 0) (hm' : |m1 + 1| + |m2 + 1| + |m3 + 1| ≤ 19) :
    0 < (δ + u1) * (m1 * δ + δ + v1) + (δ + u2) * (m2 * δ + δ + v2) + (δ + u3) * (m3 * δ + δ + v3) := by
  have key : ∀ {u v m : ℝ}, |u| ≤ 2 * h → |v| ≤ 2 * (h + e) →
      δ ^ 2 + δ ^ 2 * m - δ * (2 * (h + e)) - 2 * h * δ * |m + 1| - 2 * h * (2 * (h + e)) ≤ (δ + u) * (m * δ + δ + v) := by
    intro u v m hu hv
    have h1 : -(2 * h * (2 * (h + e))) ≤ u * v := by
      have : |u * v| ≤ 2 * h * (2 * (h + e)) := by
        rw [abs_mul]; exact mul_le_mul hu hv (abs_nonneg _) (by linarith)
      linarith [neg_abs_le (u * v)]
    have h2 : -(2 * h * |m + 1|) ≤ u * (m + 1) := by
      have : |u * (m + 1)| ≤ 2 * h * |m + 1| := by
        rw [abs_mul]; exact mul_le_mul_of_nonneg_right hu (abs_nonneg _)
      linarith [neg_abs_le (u * (m + 1))]
    have h3 : -(2 * (h + e)) ≤ v := by linarith [neg_abs_le v]
    have h2' := mul_le_mul_of_nonneg_left h2 hδ.le
    have h3' := mul_le_mul_of_nonneg_left h3 hδ.le
    nlinarith
  have k1 := key hu1 hv1 (m := m1)
  have k2 := key hu2 hv2 (m := m2)
  have k3 := key hu3 hv3 (m := m3)
  have hs : 2 * h * δ * (|m1 + 1| + |m2 + 1| + |m3 + 1|) ≤ 2 * h * δ * 19 :=
    mul_le_mul_of_nonneg_left hm' (by positivity)
  have hms : δ ^ 2 * m1 + δ ^ 2 * m2 + δ ^ 2 * m3 = 0 := by
    have : δ ^ 2 * (m1 + m2 + m3) = 0 := by rw [hm, mul_zero]
    linarith
  linarith


theorem rowDistSq_three (x1 x2 x3 y1 y2 y3 : ℝ) :
    rowDistSq [x1, x2, x3] [y1, y2, y3] = (x1 - y1) ^ 2 + (x2 - y2) ^ 2 + (x3 - y3) ^ 2 := by
  simp [rowDistSq]
  ring

theorem nearer_first {h e θ : ℝ} (ht : Tolerance h e) {cA cB x l : List ℝ} (hA : About θ h cA)
    (hB : About (θ + Real.pi / 3) h cB) (hx : About θ e x) (hl : l.Perm x) : rowDistSq l cA < rowDistSq l cB := by
  obtain ⟨h0, e0, htol⟩ := ht
  obtain ⟨a1, a2, a3, rfl, ha1, ha2, ha3⟩ := hA
  obtain ⟨b1, b2, b3, rfl, hb1, hb2, hb3⟩ := hB
  obtain ⟨x1, x2, x3, rfl, hx1, hx2, hx3⟩ := hx
  have hδ : 0 < Real.pi / 3 := by positivity
  generalize Real.pi / 3 = δ at *
  rw [abs_le] at ha1 ha2 ha3 hb1 hb2 hb3 hx1 hx2 hx3
  have hu : ∀ {a b c : ℝ}, -h ≤ a - c → a - c ≤ h → -h ≤ b - (c + δ) → b - (c + δ) ≤ h → |b - a - δ| ≤ 2 * h := by
    intro a b c h1 h2 h3 h4
    rw [abs_le]; constructor <;> linarith
  have hv : ∀ {a b c x d : ℝ}, -h ≤ a - c → a - c ≤ h → -h ≤ b - (c + δ) → b - (c + δ) ≤ h → -e ≤ x - d → x - d ≤ e →
      |a + b - 2 * c - δ - 2 * (x - d)| ≤ 2 * (h + e) := by
    intro a b c x d h1 h2 h3 h4 h5 h6
    rw [abs_le]; constructor <;> linarith
  have core : ∀ y1 y2 y3 d1 d2 d3 m1 m2 m3 : ℝ, -e ≤ y1 - d1 → y1 - d1 ≤ e → -e ≤ y2 - d2 → y2 - d2 ≤ e →
      -e ≤ y3 - d3 → y3 - d3 ≤ e → m1 * δ = 2 * (θ - d1) → m2 * δ = 2 * (θ + 2 * δ - d2) →
      m3 * δ = 2 * (θ + 4 * δ - d3) → m1 + m2 + m3 = 0 → |m1 + 1| + |m2 + 1| + |m3 + 1| ≤ 19 →
      rowDistSq [y1, y2, y3] [a1, a2, a3] < rowDistSq [y1, y2, y3] [b1, b2, b3] := by
    intro y1 y2 y3 d1 d2 d3 m1 m2 m3 p1 q1 p2 q2 p3 q3 e1 e2 e3 hm hm'
    have := centres_core hδ h0 htol (u1 := b1 - a1 - δ) (u2 := b2 - a2 - δ) (u3 := b3 - a3 - δ)
      (v1 := a1 + b1 - 2 * θ - δ - 2 * (y1 - d1)) (v2 := a2 + b2 - 2 * (θ + 2 * δ) - δ - 2 * (y2 - d2))
      (v3 := a3 + b3 - 2 * (θ + 4 * δ) - δ - 2 * (y3 - d3))
      (hu ha1.1 ha1.2 hb1.1 hb1.2) (hu ha2.1 ha2.2 (by linarith) (by linarith))
      (hu ha3.1 ha3.2 (by linarith) (by linarith)) (hv ha1.1 ha1.2 hb1.1 hb1.2 p1 q1)
      (hv ha2.1 ha2.2 (by linarith) (by linarith) p2 q2) (hv ha3.1 ha3.2 (by linarith) (by linarith) p3 q3) hm hm'
    rw [e1, e2, e3] at this
    rw [rowDistSq_three, rowDistSq_three]
    nlinarith
  rcases perm_three hl with rfl | rfl | rfl | rfl | rfl | rfl
  · exact core x1 x2 x3 θ (θ + 2 * δ) (θ + 4 * δ) 0 0 0 (by linarith) (by linarith) (by linarith) (by linarith)
      (by linarith) (by linarith) (by ring) (by ring) (by ring) (by norm_num) (by norm_num [abs_of_pos, abs_of_neg])
  · exact core x2 x1 x3 (θ + 2 * δ) θ (θ + 4 * δ) (-4) 4 0 (by linarith) (by linarith) (by linarith) (by linarith)
      (by linarith) (by linarith) (by ring) (by ring) (by ring) (by norm_num) (by norm_num [abs_of_pos, abs_of_neg])
  · exact core x3 x2 x1 (θ + 4 * δ) (θ + 2 * δ) θ (-8) 0 8 (by linarith) (by linarith) (by linarith) (by linarith)
      (by linarith) (by linarith) (by ring) (by ring) (by ring) (by norm_num) (by norm_num [abs_of_pos, abs_of_neg])
  · exact core x2 x3 x1 (θ + 2 * δ) (θ + 4 * δ) θ (-4) (-4) 8 (by linarith) (by linarith) (by linarith) (by linarith)
      (by linarith) (by linarith) (by ring) (by ring) (by ring) (by norm_num) (by norm_num [abs_of_pos, abs_of_neg])
  · exact core x3 x1 x2 (θ + 4 * δ) θ (θ + 2 * δ) (-8) 4 4 (by linarith) (by linarith) (by linarith) (by linarith)
      (by linarith) (by linarith) (by ring) (by ring) (by ring) (by norm_num) (by norm_num [abs_of_pos, abs_of_neg])
  · exact core x1 x3 x2 θ (θ + 4 * δ) (θ + 2 * δ) 0 (-4) 4 (by linarith) (by linarith) (by linarith) (by linarith)
      (by linarith) (by linarith) (by ring) (by ring) (by ring) (by norm_num) (by norm_num [abs_of_pos, abs_of_neg])

/-- Turning all angles by 180° and changing their signs exchanges the sub-lattices. -/
theorem About.neg {θ e : ℝ} {x : List ℝ} (h : About (θ + Real.pi / 3) e x) :
    About (-θ - 5 * (Real.pi / 3)) e (x.map (- ·)).reverse := by
  obtain ⟨x1, x2, x3, rfl, h1, h2, h3⟩ := h
  rw [abs_le] at h1 h2 h3
  refine ⟨-x3, -x2, -x1, rfl, ?_, ?_, ?_⟩ <;> rw [abs_le] <;> constructor <;> linarith

theorem About.neg' {θ e : ℝ} {x : List ℝ} (h : About θ e x) :
    About (-θ - 5 * (Real.pi / 3) + Real.pi / 3) e (x.map (- ·)).reverse := by
  obtain ⟨x1, x2, x3, rfl, h1, h2, h3⟩ := h
  rw [abs_le] at h1 h2 h3
  refine ⟨-x3, -x2, -x1, rfl, ?_, ?_, ?_⟩ <;> rw [abs_le] <;> constructor <;> linarith

theorem rowDistSq_neg {x c : List ℝ} (hx : ∃ x1 x2 x3, x = [x1, x2, x3]) (hc : ∃ x1 x2 x3, c = [x1, x2, x3]) :
    rowDistSq (x.map (- ·)).reverse (c.map (- ·)).reverse = rowDistSq x c := by
  obtain ⟨x1, x2, x3, rfl⟩ := hx
  obtain ⟨c1, c2, c3, rfl⟩ := hc
  simp only [List.map_cons, List.map_nil, List.reverse_cons, List.reverse_nil, List.nil_append, List.cons_append]
  rw [rowDistSq_three, rowDistSq_three]
  ring

theorem nearer_second {h e θ : ℝ} (ht : Tolerance h e) {cA cB x l : List ℝ} (hA : About θ h cA)
    (hB : About (θ + Real.pi / 3) h cB) (hx : About (θ + Real.pi / 3) e x) (hl : l.Perm x) :
    rowDistSq l cB < rowDistSq l cA := by
  have hl3 : ∃ x1 x2 x3, l = [x1, x2, x3] := by
    obtain ⟨x1, x2, x3, rfl, -⟩ := hx
    rcases perm_three hl with rfl | rfl | rfl | rfl | rfl | rfl <;> exact ⟨_, _, _, rfl⟩
  have hA3 : ∃ x1 x2 x3, cA = [x1, x2, x3] := by obtain ⟨a, b, c, h, -⟩ := hA; exact ⟨a, b, c, h⟩
  have hB3 : ∃ x1 x2 x3, cB = [x1, x2, x3] := by obtain ⟨a, b, c, h, -⟩ := hB; exact ⟨a, b, c, h⟩
  rw [← rowDistSq_neg hl3 hB3, ← rowDistSq_neg hl3 hA3]
  exact nearer_first ht hB.neg hA.neg' hx.neg
    ((List.reverse_perm _).trans ((hl.map _).trans (List.reverse_perm _).symm))

/-! ### C96 -/

/-- Atom `i` has the atoms nearest to it at about the directions `θ`, `θ + 120°`, `θ + 240°`. -/
def Trigonal (ps : List (V2 ℝ)) (θ e : ℝ) (i : ℕ) : Prop :=
  ∃ j1 j2 j3, Nearest ps i [j1, j2, j3] ∧ About θ e [direction ps i j1, direction ps i j2, direction ps i j3]

theorem distanceRow_getD (ps : List (V2 ℝ)) {i j : ℕ} (hj : j < ps.length) :
    (distanceRow ps i).getD j 0 = Spec.dist (ps.getD i 0) (ps.getD j 0) := by
  rw [distanceRow, List.getD_eq_getElem?_getD, List.getElem?_map, List.getElem?_range hj, dist_comm', ← norm2_sub]
  rfl

theorem distanceRow_moved (v : V2 ℝ) (ps : List (V2 ℝ)) {i : ℕ} (hi : i < ps.length) :
    distanceRow (moved v ps) i = distanceRow ps i := by
  unfold distanceRow
  have hl : (moved v ps).length = ps.length := by simp [moved]
  rw [hl]
  apply List.map_congr_left
  intro j hj
  rw [getD_moved v ps j (List.mem_range.1 hj), getD_moved v ps i hi, sub_moved]

/-- What the clusters are fitted with: of an atom, the directions to the three atoms nearest to it, in increasing
order. -/
theorem C96_fit_rows (ps : List (V2 ℝ)) (hnd : ps.Nodup) (i j1 j2 j3 : ℕ) (hi : i < ps.length)
    (h : Nearest ps i [j1, j2, j3]) :
    ∃ row, (fitFeatures ps)[i]? = some row ∧ row.Pairwise (· ≤ ·) ∧
      row.Perm [direction ps i j1, direction ps i j2, direction ps i j3] := by
  obtain ⟨v, hv⟩ := centred_eq_moved ps
  have hlen : (distanceRow ps i).length = ps.length := by simp [distanceRow]
  have hself : Spec.dist (ps.getD i 0) (ps.getD i 0) = 0 := by simp [Spec.dist]
  have hpos : ∀ m, m < ps.length → m ≠ i → 0 < Spec.dist (ps.getD i 0) (ps.getD m 0) := by
    intro m hm hmi
    rw [List.getD_eq_getElem?_getD, List.getD_eq_getElem?_getD, List.getElem?_eq_getElem hi,
      List.getElem?_eq_getElem hm, Option.getD_some, Option.getD_some]
    rcases (Real.sqrt_nonneg _ : 0 ≤ Spec.dist ps[i] ps[m]).lt_or_eq with hlt | heq
    · exact hlt
    · exfalso
      have hz := PD.Props.dist_eq_zero.1 heq.symm
      exact hmi ((List.Nodup.getElem_inj_iff hnd).1 hz).symm
  have p1 : ((argsort (distanceRow ps i)).take 1).Perm [i] := by
    apply argsort_take (S := [i]) (by simp)
    · intro j hj
      rw [List.mem_singleton] at hj
      omega
    · intro j hj m hm hmS
      rw [hlen] at hm
      rw [List.mem_singleton] at hj hmS
      subst hj
      rw [distanceRow_getD ps hi, distanceRow_getD ps hm, hself]
      exact hpos m hm hmS
  have p4 : ((argsort (distanceRow ps i)).take 4).Perm [i, j1, j2, j3] := by
    apply argsort_take (S := [i, j1, j2, j3])
    · exact List.nodup_cons.2 ⟨fun hmem => h.other i hmem rfl, h.nodup⟩
    · intro j hj
      rw [hlen]
      rcases List.mem_cons.1 hj with rfl | hj
      · exact hi
      · exact h.lt j hj
    · intro j hj m hm hmS
      rw [hlen] at hm
      rw [List.mem_cons, not_or] at hmS
      rcases List.mem_cons.1 hj with rfl | hj
      · rw [distanceRow_getD ps hi, distanceRow_getD ps hm, hself]
        exact hpos m hm hmS.1
      · rw [distanceRow_getD ps (h.lt j hj), distanceRow_getD ps hm]
        exact h.far j hj m hm hmS.1 hmS.2
  have hp : (((argsort (distanceRow ps i)).drop 1).take 3).Perm [j1, j2, j3] := by
    have e1 : (argsort (distanceRow ps i)).take 1 = [i] := List.perm_singleton.1 p1
    have e4 : (argsort (distanceRow ps i)).take 4 =
        (argsort (distanceRow ps i)).take 1 ++ ((argsort (distanceRow ps i)).drop 1).take 3 := by
      rw [← List.take_add]
    rw [e4, e1] at p4
    exact (List.perm_cons i).1 p4
  refine ⟨_, by
    unfold fitFeatures
    simp only [hv]
    have hl : (moved v ps).length = ps.length := by simp [moved]
    rw [hl, List.getElem?_map, List.getElem?_range hi, Option.map_some, distanceRow_moved v ps hi], ?_, ?_⟩
  · have := List.pairwise_mergeSort (le := fun a b : ℝ => decide (a ≤ b))
      (fun a b c => by simpa using le_trans) (fun a b => by simpa using le_total a b)
      (neighborAngles (moved v ps) i (((argsort (distanceRow ps i)).drop 1).take 3))
    exact this.imp (by simp)
  · refine (List.mergeSort_perm _ _).trans ?_
    have e : neighborAngles (moved v ps) i (((argsort (distanceRow ps i)).drop 1).take 3) =
        (((argsort (distanceRow ps i)).drop 1).take 3).map (direction ps i) := by
      unfold neighborAngles getAngles
      rw [List.map_map]
      apply List.map_congr_left
      intro j hj
      have hj' : j < ps.length := h.lt j (hp.mem_iff.1 hj)
      simp only [Function.comp, direction]
      rw [getD_moved v ps j hj', getD_moved v ps i hi, sub_moved]
    rw [e]
    exact hp.map (direction ps i)

/-- So the clusters are fitted with rows about the directions of the kind of the atom, for all atoms whose
neighbours are there. -/
theorem C96_fit_about (ps : List (V2 ℝ)) (hnd : ps.Nodup) (θ e : ℝ) (he : e < Real.pi / 3) (i : ℕ)
    (hi : i < ps.length) (h : Trigonal ps θ e i) :
    ∃ row, (fitFeatures ps)[i]? = some row ∧ About θ e row := by
  obtain ⟨j1, j2, j3, hn, x1, x2, x3, hx, h1, h2, h3⟩ := h
  obtain ⟨row, hr, hs, hp⟩ := C96_fit_rows ps hnd i j1 j2 j3 hi hn
  refine ⟨row, hr, x1, x2, x3, ?_, h1, h2, h3⟩
  rw [hx] at hp
  rw [abs_le] at h1 h2 h3
  refine List.Perm.eq_of_pairwise (le := (· ≤ ·)) (fun a b _ _ => le_antisymm) hs ?_ hp
  have e1 : x1 ≤ x2 := by linarith
  have e2 : x2 ≤ x3 := by linarith
  simp [e1, e2, e1.trans e2]

/-- C96: let the atoms have two kinds, with bonds only between atoms of different kind, and let the bonds of atoms
with three bonds point about in the directions of their kind.  If the centres of the clusters are about these
directions, all atoms that can be reached from such an atom along bonds get the class of their kind, whatever the
order of their neighbours. -/
theorem C96_sublattices_partial (fit : List (List ℝ) → Except Err (List ℝ × List ℝ)) (ps : List (V2 ℝ)) (θ h e : ℝ)
    (c : List ℝ × List ℝ) (ht : Tolerance h e) (hA : About θ h c.1) (hB : About (θ + Real.pi / 3) h c.2)
    (kind : ℕ → Bool)
    (hbond : ∀ i j, i < ps.length → j < ps.length → bonded ps i j = true → kind i ≠ kind j)
    (hdir : ∀ i, i < ps.length → IsSeed ps.length (bonded ps) i →
      Trigonal ps (if kind i then θ + Real.pi / 3 else θ) e i) :
    ∃ out, classifyTypes (twoMeans fit) ps c = .ok out ∧ out.length = ps.length ∧
      ∀ i s, i < ps.length → s < ps.length → IsSeed ps.length (bonded ps) s → Linked ps.length (bonded ps) s i →
        out[i]? = some (if kind i then 1 else 0) := by
  obtain ⟨v, hv⟩ := centred_eq_moved ps
  have hl : (centred ps).length = ps.length := by simp [centred]
  obtain ⟨out, h1, h2, h3, h4⟩ := C53_grid ((classifyFeatures ps).map (nearestOfTwo c)) (centred ps)
    (by simp [classifyFeatures])
  have hb : ∀ i, i < ps.length → bonded (centred ps) i = bonded ps i := by
    intro i hi
    rw [hv]
    exact bonded_moved v ps hi
  have hseed : ∀ i, i < ps.length → (IsSeed ps.length (bonded (centred ps)) i ↔ IsSeed ps.length (bonded ps) i) := by
    intro i hi
    unfold IsSeed
    rw [hb i hi]
  refine ⟨out, h1, by rw [h2, hl], ?_⟩
  intro i s hi hs hss hlink
  rw [hl] at h4
  have := h4 (fun i => if kind i then 1 else 0) (fun i => by split <;> simp) ?_ ?_ i s hi hs ((hseed s hs).2 hss) ?_
  · exact this
  · intro i j hi hj hij
    rw [hb i hi] at hij
    have := hbond i j hi hj hij
    cases hki : kind i <;> cases hkj : kind j <;> simp_all
  · intro i hi hsi
    obtain ⟨j1, j2, j3, hn, hab⟩ := hdir i hi ((hseed i hi).1 hsi)
    obtain ⟨hp, hf⟩ := features_perm hi hn
    rw [List.getElem?_map, hf, Option.map_some]
    have hp' := hp.map (direction ps i)
    congr 1
    unfold nearestOfTwo
    by_cases hk : kind i
    · rw [if_pos hk] at hab
      rw [if_neg (not_le.2 (nearer_second ht hA hB hab hp')), if_pos hk]
    · rw [if_neg hk] at hab
      rw [if_pos (nearer_first ht hA hB hab hp').le, if_neg hk]
  · unfold Linked at hlink ⊢
    clear hi
    induction hlink with
    | refl => exact Relation.ReflTransGen.refl
    | tail _ hab ih =>
      have hbn := hab.1
      exact ih.tail ⟨hbn, by rw [hb _ hbn]; exact hab.2⟩


/-! ### Where it fails -/

/-- A classifier with two centres cannot give the midpoint of two rows of one class the other class. -/
theorem midpoint_class (c : List ℝ × List ℝ) (h1 : c.1.length = 3) (h2 : c.2.length = 3) (x1 x2 x3 y1 y2 y3 : ℝ)
    (heq : nearestOfTwo c [x1, x2, x3] = nearestOfTwo c [y1, y2, y3]) :
    nearestOfTwo c [(x1 + y1) / 2, (x2 + y2) / 2, (x3 + y3) / 2] = nearestOfTwo c [x1, x2, x3] := by
  obtain ⟨p, q⟩ := c
  simp only at h1 h2
  obtain ⟨p1, p2, p3, rfl⟩ := List.length_eq_three.1 h1
  obtain ⟨q1, q2, q3, rfl⟩ := List.length_eq_three.1 h2
  simp only [nearestOfTwo, rowDistSq_three] at heq ⊢
  have e : ∀ r1 r2 r3 : ℝ, 2 * (((x1 + y1) / 2 - r1) ^ 2 + ((x2 + y2) / 2 - r2) ^ 2 + ((x3 + y3) / 2 - r3) ^ 2) =
      ((x1 - r1) ^ 2 + (x2 - r2) ^ 2 + (x3 - r3) ^ 2) + ((y1 - r1) ^ 2 + (y2 - r2) ^ 2 + (y3 - r3) ^ 2) -
      ((x1 - y1) ^ 2 + (x2 - y2) ^ 2 + (x3 - y3) ^ 2) / 2 := by
    intro r1 r2 r3; ring
  have ep := e p1 p2 p3
  have eq' := e q1 q2 q3
  by_cases hx : (x1 - p1) ^ 2 + (x2 - p2) ^ 2 + (x3 - p3) ^ 2 ≤ (x1 - q1) ^ 2 + (x2 - q2) ^ 2 + (x3 - q3) ^ 2
  · rw [if_pos hx] at heq ⊢
    by_cases hy : (y1 - p1) ^ 2 + (y2 - p2) ^ 2 + (y3 - p3) ^ 2 ≤ (y1 - q1) ^ 2 + (y2 - q2) ^ 2 + (y3 - q3) ^ 2
    · rw [if_pos]; linarith
    · rw [if_neg hy] at heq; cases heq
  · rw [if_neg hx] at heq ⊢
    by_cases hy : (y1 - p1) ^ 2 + (y2 - p2) ^ 2 + (y3 - p3) ^ 2 ≤ (y1 - q1) ^ 2 + (y2 - q2) ^ 2 + (y3 - q3) ^ 2
    · rw [if_pos hy] at heq; cases heq
    · rw [if_neg]; linarith

/-- The place at distance `r` and direction `t` of `o`. -/
noncomputable def at_ (o : V2 ℝ) (r t : ℝ) : V2 ℝ := ⟨o.x + r * Real.cos t, o.y + r * Real.sin t⟩

/-- An atom with three neighbours, at 1.42, 1.43 and 1.44 angstroms. -/
noncomputable def star (o : V2 ℝ) (t1 t2 t3 : ℝ) : List (V2 ℝ) :=
  [o, at_ o (142 / 100) t1, at_ o (143 / 100) t2, at_ o (144 / 100) t3]

theorem dist_at_self (o : V2 ℝ) {r : ℝ} (hr : 0 ≤ r) (t : ℝ) : Spec.dist o (at_ o r t) = r := by
  rw [Spec.dist]
  have : (o.x - (at_ o r t).x) ^ 2 + (o.y - (at_ o r t).y) ^ 2 = r ^ 2 := by
    simp only [at_]
    nlinarith [Real.sin_sq_add_cos_sq t]
  rw [this, Real.sqrt_sq hr]

theorem dist_at_at (o : V2 ℝ) {r q t u : ℝ} (hr : 142 / 100 ≤ r) (hq : 142 / 100 ≤ q) (h : Real.cos (t - u) ≤ 0) :
    142 / 100 ≤ Spec.dist (at_ o r t) (at_ o q u) := by
  rw [Spec.dist]
  apply Real.le_sqrt_of_sq_le
  have e : ((at_ o r t).x - (at_ o q u).x) ^ 2 + ((at_ o r t).y - (at_ o q u).y) ^ 2 =
      r ^ 2 + q ^ 2 - 2 * (r * q) * Real.cos (t - u) := by
    rw [Real.cos_sub]
    simp only [at_]
    nlinarith [Real.sin_sq_add_cos_sq t, Real.sin_sq_add_cos_sq u]
  rw [e]
  have : 0 ≤ r * q := by nlinarith
  nlinarith

theorem star_pairwise (o : V2 ℝ) {t1 t2 t3 : ℝ} (h12 : Real.cos (t1 - t2) ≤ 0) (h13 : Real.cos (t1 - t3) ≤ 0)
    (h23 : Real.cos (t2 - t3) ≤ 0) : (star o t1 t2 t3).Pairwise (fun p q => 142 / 100 ≤ Spec.dist p q) := by
  simp only [star, List.pairwise_cons, List.mem_cons, List.not_mem_nil, or_false, List.Pairwise.nil, and_true]
  refine ⟨?_, ?_, ?_, ?_⟩
  · rintro p (rfl | rfl | rfl) <;> rw [dist_at_self _ (by norm_num)] <;> norm_num
  · rintro p (rfl | rfl)
    · exact dist_at_at o (by norm_num) (by norm_num) h12
    · exact dist_at_at o (by norm_num) (by norm_num) h13
  · rintro p rfl
    exact dist_at_at o (by norm_num) (by norm_num) h23
  · intro p hp; cases hp

theorem star_x {o p : V2 ℝ} {t1 t2 t3 : ℝ} (h : p ∈ star o t1 t2 t3) : |p.x - o.x| ≤ 2 := by
  have key : ∀ r t : ℝ, 0 ≤ r → r ≤ 2 → |r * Real.cos t| ≤ 2 := by
    intro r t h0 h2
    rw [abs_mul, abs_of_nonneg h0]
    nlinarith [Real.abs_cos_le_one t, abs_nonneg (Real.cos t)]
  simp only [star, List.mem_cons, List.not_mem_nil, or_false] at h
  rcases h with rfl | rfl | rfl | rfl
  · simp
  all_goals
    simp only [at_, add_sub_cancel_left]
    exact key _ _ (by norm_num) (by norm_num)

theorem dist_ge_x (p q : V2 ℝ) : |p.x - q.x| ≤ Spec.dist p q := by
  rw [Spec.dist, ← Real.sqrt_sq_eq_abs]
  apply Real.sqrt_le_sqrt
  nlinarith [sq_nonneg (p.y - q.y)]

theorem stars_apart {o o' p q : V2 ℝ} {t1 t2 t3 u1 u2 u3 : ℝ} (ho : 50 ≤ o'.x - o.x) (hp : p ∈ star o t1 t2 t3)
    (hq : q ∈ star o' u1 u2 u3) : 40 ≤ Spec.dist p q := by
  have h1 := abs_le.1 (star_x hp)
  have h2 := abs_le.1 (star_x hq)
  refine le_trans ?_ (dist_ge_x p q)
  rw [abs_sub_comm]
  exact le_trans (by linarith) (le_abs_self _)

/-- Three atoms far apart with three neighbours each.  The first two are of one kind: up to `ε` their bonds point
to `-60°`, `60°` and `180°`.  The third is of the other kind: up to `ε` its bonds point to `-120°`, `0°` and
`120°`. -/
noncomputable def threeStars (ε : ℝ) : List (V2 ℝ) :=
  star ⟨0, 0⟩ (-Real.pi + ε) (-(Real.pi / 3)) (Real.pi / 3) ++
  (star ⟨100, 0⟩ (-(Real.pi / 3)) (Real.pi / 3) Real.pi ++
   star ⟨200, 0⟩ (-(2 * (Real.pi / 3)) + ε / 2) 0 (2 * (Real.pi / 3)))

theorem getAngle_at (o : V2 ℝ) {r t : ℝ} (hr : 0 < r) (h1 : -Real.pi < t) (h2 : t ≤ Real.pi) :
    getAngle (at_ o r t - o) = t := by
  have e : (⟨(at_ o r t - o).x, (at_ o r t - o).y⟩ : ℂ) = r * (Complex.cos t + Complex.sin t * Complex.I) := by
    apply Complex.ext <;> simp [at_, Complex.cos_ofReal_re, Complex.sin_ofReal_re]
  rw [getAngle, e, Complex.arg_mul_cos_add_sin_mul_I hr ⟨h1, h2⟩]

theorem ordered_features {ps : List (V2 ℝ)} {i j1 j2 j3 : ℕ} (hi : i < ps.length) (h : Nearest ps i [j1, j2, j3])
    (h12 : Spec.dist (ps.getD i 0) (ps.getD j1 0) < Spec.dist (ps.getD i 0) (ps.getD j2 0))
    (h23 : Spec.dist (ps.getD i 0) (ps.getD j2 0) < Spec.dist (ps.getD i 0) (ps.getD j3 0)) :
    (classifyFeatures ps)[i]? = some [direction ps i j1, direction ps i j2, direction ps i j3] := by
  obtain ⟨hp, hf⟩ := features_perm hi h
  have hs : ((argsort (bondRow ps i)).take 3).Pairwise (fun a b => (bondRow ps i).getD a 0 ≤ (bondRow ps i).getD b 0) :=
    (argsort_sorted (bondRow ps i)).sublist (List.take_sublist _ _)
  have e : ∀ j ∈ [j1, j2, j3], (bondRow ps i).getD j 0 = Spec.dist (ps.getD i 0) (ps.getD j 0) := by
    intro j hj
    rw [bondRow_getD ps (h.lt j hj), if_neg (fun e => h.other j hj e.symm), add_zero]
  have e1 := e j1 (by simp)
  have e2 := e j2 (by simp)
  have e3 := e j3 (by simp)
  rw [← e1, ← e2] at h12
  rw [← e2, ← e3] at h23
  rw [hf]
  rcases perm_three hp with h' | h' | h' | h' | h' | h' <;> rw [h'] at hs ⊢
  · rfl
  all_goals
    exfalso
    simp only [List.pairwise_cons, List.mem_cons, List.not_mem_nil, or_false, forall_eq_or_imp, forall_eq,
      List.Pairwise.nil, and_true, false_implies, implies_true] at hs
    obtain ⟨⟨a, b⟩, d⟩ := hs
    linarith

theorem mean_ge {l : List ℝ} {b : ℝ} (hne : l ≠ []) (h : ∀ x ∈ l, b ≤ x) : b ≤ l.sum / l.length := by
  have hs : b * l.length ≤ l.sum := by
    clear hne
    induction l with
    | nil => simp
    | cons a l ih =>
      have := ih (fun x hx => h x (by simp [hx]))
      have ha := h a (by simp)
      simp only [List.length_cons, List.sum_cons]
      push_cast
      linarith
  have : (0 : ℝ) < l.length := by
    have := List.length_pos_iff.2 hne
    exact_mod_cast this
  rw [le_div_iff₀ this]
  exact hs

theorem getD_of_lt {ps : List (V2 ℝ)} {i : ℕ} (h : i < ps.length) : ps.getD i 0 = ps[i] := by
  rw [List.getD_eq_getElem?_getD, List.getElem?_eq_getElem h, Option.getD_some]

theorem bondMean_ge {ps : List (V2 ℝ)} (hne : ps ≠ []) (h : ps.Pairwise (fun p q => 142 / 100 ≤ Spec.dist p q)) :
    142 / 100 ≤ bondMean ps := by
  have hrow : ∀ i, i < ps.length → ∀ x ∈ bondRow ps i, 142 / 100 ≤ x := by
    intro i hi x hx
    obtain ⟨j, hj⟩ := List.mem_iff_getElem?.1 hx
    have hjl : j < ps.length := by
      have := (List.getElem?_eq_some_iff.1 hj).1
      simpa [bondRow] using this
    have e := bondRow_getD ps (i := i) hjl
    rw [List.getD_eq_getElem?_getD, hj, Option.getD_some] at e
    rw [e]
    rw [List.pairwise_iff_getElem] at h
    rcases lt_trichotomy i j with hij | rfl | hij
    · have := h i j hi hjl hij
      rw [if_neg (by omega), getD_of_lt hi, getD_of_lt hjl]
      linarith
    · rw [if_pos rfl]
      have : 0 ≤ Spec.dist (ps.getD i 0) (ps.getD i 0) := Real.sqrt_nonneg _
      linarith
    · have := h j i hjl hi hij
      rw [if_neg (by omega), getD_of_lt hi, getD_of_lt hjl, dist_comm']
      linarith
  unfold bondMean
  apply mean_ge
  · obtain ⟨p, rest, rfl⟩ := List.exists_cons_of_ne_nil hne
    intro hnil
    rw [List.flatMap_eq_nil_iff] at hnil
    have := hnil 0 (by simp)
    have hl := congrArg List.length this
    simp [bondRow] at hl
  · intro x hx
    obtain ⟨i, hi, hx⟩ := List.mem_flatMap.1 hx
    exact hrow i (List.mem_range.1 hi) x ((List.mergeSort_perm _ _).mem_iff.1 (List.mem_of_mem_take hx))

theorem cos_nonpos {t : ℝ} (h1 : Real.pi / 2 ≤ t) (h2 : t ≤ Real.pi + Real.pi / 2) : Real.cos t ≤ 0 :=
  Real.cos_nonpos_of_pi_div_two_le_of_le h1 h2

theorem threeStars_pairwise {ε : ℝ} (h0 : 0 < ε) (h1 : ε ≤ 1 / 10) :
    (threeStars ε).Pairwise (fun p q => 142 / 100 ≤ Spec.dist p q) := by
  have hpi := Real.pi_gt_three
  have flip : ∀ t : ℝ, Real.pi / 2 ≤ -t → -t ≤ Real.pi + Real.pi / 2 → Real.cos t ≤ 0 := by
    intro t a b
    rw [← Real.cos_neg]
    exact cos_nonpos a b
  unfold threeStars
  rw [List.pairwise_append, List.pairwise_append]
  refine ⟨star_pairwise _ ?_ ?_ ?_, ⟨star_pairwise _ ?_ ?_ ?_, star_pairwise _ ?_ ?_ ?_, ?_⟩, ?_⟩
  any_goals apply flip <;> linarith
  · intro p hp q hq
    have := stars_apart (by norm_num) hp hq
    linarith
  · intro p hp q hq
    rcases List.mem_append.1 hq with hq | hq
    · have := stars_apart (by norm_num) hp hq
      linarith
    · have := stars_apart (by norm_num) hp hq
      linarith

/-- What the three atoms in the middle of the stars have in common. -/
theorem threeStars_atom {ε : ℝ} (h0 : 0 < ε) (h1 : ε ≤ 1 / 10) {i : ℕ} (hi : i + 3 < 12) {o : V2 ℝ} {t1 t2 t3 : ℝ}
    (e0 : (threeStars ε).getD i 0 = o) (e1 : (threeStars ε).getD (i + 1) 0 = at_ o (142 / 100) t1)
    (e2 : (threeStars ε).getD (i + 2) 0 = at_ o (143 / 100) t2) (e3 : (threeStars ε).getD (i + 3) 0 = at_ o (144 / 100) t3)
    (hfar : ∀ m, m < 12 → m ∉ [i, i + 1, i + 2, i + 3] → 40 ≤ Spec.dist o ((threeStars ε).getD m 0))
    (a1 : -Real.pi < t1) (b1 : t1 ≤ Real.pi) (a2 : -Real.pi < t2) (b2 : t2 ≤ Real.pi) (a3 : -Real.pi < t3)
    (b3 : t3 ≤ Real.pi) :
    IsSeed (threeStars ε).length (bonded (threeStars ε)) i ∧ (classifyFeatures (threeStars ε))[i]? = some [t1, t2, t3] := by
  have hl : (threeStars ε).length = 12 := rfl
  have d1 : Spec.dist ((threeStars ε).getD i 0) ((threeStars ε).getD (i + 1) 0) = 142 / 100 := by
    rw [e0, e1, dist_at_self _ (by norm_num)]
  have d2 : Spec.dist ((threeStars ε).getD i 0) ((threeStars ε).getD (i + 2) 0) = 143 / 100 := by
    rw [e0, e2, dist_at_self _ (by norm_num)]
  have d3 : Spec.dist ((threeStars ε).getD i 0) ((threeStars ε).getD (i + 3) 0) = 144 / 100 := by
    rw [e0, e3, dist_at_self _ (by norm_num)]
  have hmean := bondMean_ge (by simp [threeStars, star]) (threeStars_pairwise h0 h1)
  constructor
  · refine ⟨i + 1, i + 2, i + 3, by omega, by omega, by rw [hl]; exact hi, ?_, ?_, ?_⟩
    all_goals
      rw [bonded, decide_eq_true_eq, bondRow_getD _ (by rw [hl]; omega), if_neg (by omega), add_zero]
      first | rw [d1] | rw [d2] | rw [d3]
      linarith
  · have hn : Nearest (threeStars ε) i [i + 1, i + 2, i + 3] := by
      refine ⟨by simp, ?_, ?_, ?_, ?_⟩
      · intro j hj
        simp only [List.mem_cons, List.not_mem_nil, or_false] at hj
        omega
      · intro j hj
        simp only [List.mem_cons, List.not_mem_nil, or_false] at hj
        omega
      · intro j hj
        simp only [List.mem_cons, List.not_mem_nil, or_false] at hj
        rcases hj with rfl | rfl | rfl <;> first | rw [d1] | rw [d2] | rw [d3]
        all_goals norm_num
      · intro j hj m hm hmi hmS
        have := hfar m hm (by simp only [List.mem_cons, not_or] at hmS ⊢; exact ⟨hmi, hmS⟩)
        rw [← e0] at this
        refine lt_of_lt_of_le ?_ this
        simp only [List.mem_cons, List.not_mem_nil, or_false] at hj
        rcases hj with rfl | rfl | rfl <;> first | rw [d1] | rw [d2] | rw [d3]
        all_goals norm_num
    rw [ordered_features (by omega) hn (by rw [d1, d2]; norm_num) (by rw [d2, d3]; norm_num)]
    unfold direction
    rw [e0, e1, e2, e3, getAngle_at o (by norm_num) a1 b1, getAngle_at o (by norm_num) a2 b2,
      getAngle_at o (by norm_num) a3 b3]

/-- C96 fails for bonds along the negative x axis, where directions jump from `180°` to `-180°`: no two centres
give the two atoms of one kind one class and the atom of the other kind the other class. -/
theorem C96_fails (fit : List (List ℝ) → Except Err (List ℝ × List ℝ)) (ε : ℝ) (h0 : 0 < ε) (h1 : ε ≤ 1 / 10)
    (c : List ℝ × List ℝ) (hc1 : c.1.length = 3) (hc2 : c.2.length = 3) :
    ∃ out, classifyTypes (twoMeans fit) (threeStars ε) c = .ok out ∧ out.length = 12 ∧
      ¬ (out[0]? = out[4]? ∧ out[0]? ≠ out[8]?) := by
  have hpi := Real.pi_gt_three
  obtain ⟨s0, f0⟩ := threeStars_atom h0 h1 (i := 0) (by norm_num) (o := ⟨0, 0⟩) (t1 := -Real.pi + ε)
    (t2 := -(Real.pi / 3)) (t3 := Real.pi / 3) rfl rfl rfl rfl
    (by
      intro m hm hmS
      have hmem : (threeStars ε).getD m 0 ∈ star ⟨100, 0⟩ (-(Real.pi / 3)) (Real.pi / 3) Real.pi ∨
          (threeStars ε).getD m 0 ∈ star ⟨200, 0⟩ (-(2 * (Real.pi / 3)) + ε / 2) 0 (2 * (Real.pi / 3)) := by
        interval_cases m <;> simp [threeStars, star] at hmS ⊢
      rcases hmem with hm | hm
      · exact stars_apart (o := ⟨0, 0⟩) (t1 := 0) (t2 := 0) (t3 := 0) (by norm_num) (by simp [star]) hm
      · exact stars_apart (o := ⟨0, 0⟩) (t1 := 0) (t2 := 0) (t3 := 0) (by norm_num) (by simp [star]) hm)
    (by linarith) (by linarith) (by linarith) (by linarith) (by linarith) (by linarith)
  obtain ⟨s4, f4⟩ := threeStars_atom h0 h1 (i := 4) (by norm_num) (o := ⟨100, 0⟩) (t1 := -(Real.pi / 3))
    (t2 := Real.pi / 3) (t3 := Real.pi) rfl rfl rfl rfl
    (by
      intro m hm hmS
      have hmem : (threeStars ε).getD m 0 ∈ star ⟨0, 0⟩ (-Real.pi + ε) (-(Real.pi / 3)) (Real.pi / 3) ∨
          (threeStars ε).getD m 0 ∈ star ⟨200, 0⟩ (-(2 * (Real.pi / 3)) + ε / 2) 0 (2 * (Real.pi / 3)) := by
        interval_cases m <;> simp [threeStars, star] at hmS ⊢
      rcases hmem with hm | hm
      · rw [dist_comm']
        exact stars_apart (o' := ⟨100, 0⟩) (u1 := 0) (u2 := 0) (u3 := 0) (by norm_num) hm (by simp [star])
      · exact stars_apart (o := ⟨100, 0⟩) (t1 := 0) (t2 := 0) (t3 := 0) (by norm_num) (by simp [star]) hm)
    (by linarith) (by linarith) (by linarith) (by linarith) (by linarith) (by linarith)
  obtain ⟨s8, f8⟩ := threeStars_atom h0 h1 (i := 8) (by norm_num) (o := ⟨200, 0⟩)
    (t1 := -(2 * (Real.pi / 3)) + ε / 2) (t2 := 0) (t3 := 2 * (Real.pi / 3)) rfl rfl rfl rfl
    (by
      intro m hm hmS
      have hmem : (threeStars ε).getD m 0 ∈ star ⟨0, 0⟩ (-Real.pi + ε) (-(Real.pi / 3)) (Real.pi / 3) ∨
          (threeStars ε).getD m 0 ∈ star ⟨100, 0⟩ (-(Real.pi / 3)) (Real.pi / 3) Real.pi := by
        interval_cases m <;> simp [threeStars, star] at hmS ⊢
      rw [dist_comm']
      rcases hmem with hm | hm
      · exact stars_apart (o' := ⟨200, 0⟩) (u1 := 0) (u2 := 0) (u3 := 0) (by norm_num) hm (by simp [star])
      · exact stars_apart (o' := ⟨200, 0⟩) (u1 := 0) (u2 := 0) (u3 := 0) (by norm_num) hm (by simp [star]))
    (by linarith) (by linarith) (by linarith) (by linarith) (by linarith) (by linarith)
  obtain ⟨v, hv⟩ := centred_eq_moved (threeStars ε)
  have hl : (centred (threeStars ε)).length = (threeStars ε).length := by simp [centred]
  obtain ⟨out, g1, g2, g3, -⟩ := C53_grid ((classifyFeatures (threeStars ε)).map (nearestOfTwo c))
    (centred (threeStars ε)) (by simp [classifyFeatures])
  have hseed : ∀ i, i < 12 → IsSeed (threeStars ε).length (bonded (threeStars ε)) i →
      out[i]? = ((classifyFeatures (threeStars ε)).map (nearestOfTwo c))[i]? := by
    intro i hi hs
    apply g3 i (by rw [hl]; exact hi)
    rw [hl]
    unfold IsSeed at hs ⊢
    rw [hv, bonded_moved v _ hi]
    exact hs
  refine ⟨out, g1, by rw [g2, hl]; rfl, ?_⟩
  rintro ⟨h04, h08⟩
  rw [hseed 0 (by norm_num) s0, hseed 4 (by norm_num) s4, List.getElem?_map, List.getElem?_map, f0, f4] at h04
  rw [hseed 0 (by norm_num) s0, hseed 8 (by norm_num) s8, List.getElem?_map, List.getElem?_map, f0, f8] at h08
  simp only [Option.map_some, Option.some.injEq] at h04 h08
  apply h08
  have := midpoint_class c hc1 hc2 _ _ _ _ _ _ h04
  rw [← this]
  congr 2
  ring

/-! ### A grid the first statement speaks about -/

theorem three_smallest {l : List ℝ} {a b c M : ℝ} (hp : l.Perm [a, b, c, M]) (ha : a ≤ M) (hb : b ≤ M) (hc : c ≤ M) :
    ((l.mergeSort (fun a b => decide (a ≤ b))).take 3).sum = a + b + c := by
  have hm := (List.mergeSort_perm l (fun a b => decide (a ≤ b))).trans hp
  have hs := List.pairwise_mergeSort (le := fun a b : ℝ => decide (a ≤ b))
    (fun x y z h1 h2 => by simp only [decide_eq_true_eq] at *; linarith)
    (fun x y => by simp only [Bool.or_eq_true, decide_eq_true_eq]; exact le_total x y) l
  have hlen := hm.length_eq
  generalize l.mergeSort (fun a b => decide (a ≤ b)) = k at hm hs hlen
  match k, hlen with
  | [w, x, y, z], _ =>
    simp only [List.pairwise_cons, List.mem_cons, List.not_mem_nil, or_false, forall_eq_or_imp, forall_eq,
      decide_eq_true_eq, List.Pairwise.nil, and_true, false_implies, implies_true] at hs
    have h1 : z ≤ M := by
      have : z ∈ [a, b, c, M] := hm.mem_iff.1 (by simp)
      simp only [List.mem_cons, List.not_mem_nil, or_false] at this
      rcases this with rfl | rfl | rfl | rfl <;> first | assumption | exact le_refl _
    have h2 : M ≤ z := by
      have : M ∈ [w, x, y, z] := hm.mem_iff.2 (by simp)
      simp only [List.mem_cons, List.not_mem_nil, or_false] at this
      rcases this with rfl | rfl | rfl | rfl
      · exact hs.1.2.2
      · exact hs.2.1.2
      · exact hs.2.2
      · exact le_refl _
    have hsum := hm.sum_eq
    simp only [List.sum_cons, List.sum_nil, add_zero] at hsum
    simp only [List.take_succ_cons, List.take_zero, List.sum_cons, List.sum_nil, add_zero]
    linarith

/-- One atom with three neighbours, 57° from the negative x axis. -/
noncomputable def oneStar : List (V2 ℝ) :=
  star ⟨0, 0⟩ (-Real.pi + 1) (-Real.pi + 1 + 2 * (Real.pi / 3)) (-Real.pi + 1 + 4 * (Real.pi / 3))

theorem oneStar_trigonal : Trigonal oneStar (-Real.pi + 1) 0 0 := by
  have hpi := Real.pi_gt_three
  refine ⟨1, 2, 3, ⟨by decide, by decide, by simp [oneStar, star], ?_, ?_⟩, _, _, _, rfl, ?_, ?_, ?_⟩
  · intro j hj
    simp only [List.mem_cons, List.not_mem_nil, or_false] at hj
    rcases hj with rfl | rfl | rfl <;> simp only [oneStar, star, List.getD_cons_zero, List.getD_cons_succ] <;>
      rw [dist_at_self _ (by norm_num)] <;> norm_num
  · intro j hj m hm hmi hmS
    exfalso
    simp only [oneStar, star, List.length_cons, List.length_nil, List.mem_cons, List.not_mem_nil, or_false, not_or]
      at hm hmS
    omega
  all_goals
    simp only [direction, oneStar, star, List.getD_cons_zero, List.getD_cons_succ]
    rw [getAngle_at _ (by norm_num) (by linarith) (by linarith)]
    simp

theorem dist_leaves (o : V2 ℝ) {r q t u : ℝ} (hr : 142 / 100 ≤ r) (hr' : r ≤ 144 / 100) (hq : 142 / 100 ≤ q)
    (hq' : q ≤ 144 / 100) (h : Real.cos (t - u) = -(1 / 2)) :
    245 / 100 ≤ Spec.dist (at_ o r t) (at_ o q u) ∧ Spec.dist (at_ o r t) (at_ o q u) ≤ 250 / 100 := by
  have e : ((at_ o r t).x - (at_ o q u).x) ^ 2 + ((at_ o r t).y - (at_ o q u).y) ^ 2 =
      r ^ 2 + q ^ 2 - 2 * (r * q) * Real.cos (t - u) := by
    rw [Real.cos_sub]
    simp only [at_]
    nlinarith [Real.sin_sq_add_cos_sq t, Real.sin_sq_add_cos_sq u]
  rw [Spec.dist, e, h]
  constructor
  · apply Real.le_sqrt_of_sq_le
    nlinarith
  · apply Real.sqrt_le_iff.2
    constructor
    · norm_num
    · nlinarith

theorem cos_third : Real.cos (2 * (Real.pi / 3)) = -(1 / 2) := by
  rw [show 2 * (Real.pi / 3) = Real.pi - Real.pi / 3 from by ring, Real.cos_pi_sub, Real.cos_pi_div_three]

/-- The distances in the star. -/
theorem oneStar_dists : ∃ d12 d13 d23 : ℝ,
    bondRow oneStar 0 = [1000, 142 / 100, 143 / 100, 144 / 100] ∧
    bondRow oneStar 1 = [142 / 100, 1000, d12, d13] ∧ bondRow oneStar 2 = [143 / 100, d12, 1000, d23] ∧
    bondRow oneStar 3 = [144 / 100, d13, d23, 1000] ∧
    (245 / 100 ≤ d12 ∧ d12 ≤ 250 / 100) ∧ (245 / 100 ≤ d13 ∧ d13 ≤ 250 / 100) ∧ (245 / 100 ≤ d23 ∧ d23 ≤ 250 / 100) := by
  have z : ∀ p : V2 ℝ, Spec.dist p p = 0 := fun p => by simp [Spec.dist]
  have hself : ∀ r t : ℝ, 0 ≤ r → Spec.dist (⟨0, 0⟩ : V2 ℝ) (at_ ⟨0, 0⟩ r t) = r := fun r t h => dist_at_self _ h t
  have hself' : ∀ r t : ℝ, 0 ≤ r → Spec.dist (at_ ⟨0, 0⟩ r t) (⟨0, 0⟩ : V2 ℝ) = r := fun r t h => by
    rw [dist_comm']; exact dist_at_self _ h t
  have hrow : ∀ i, bondRow oneStar i = (List.range 4).map (fun j =>
      Spec.dist (oneStar.getD i 0) (oneStar.getD j 0) + if i = j then 1000 else 0) := by
    intro i
    unfold bondRow
    apply List.map_congr_left
    intro j _
    rw [norm2_sub, dist_comm']
  refine ⟨_, _, _, ?_, ?_, ?_, ?_, dist_leaves ⟨0, 0⟩ (r := 142 / 100) (q := 143 / 100) (t := -Real.pi + 1)
    (u := -Real.pi + 1 + 2 * (Real.pi / 3)) (by norm_num) (by norm_num) (by norm_num) (by norm_num) ?_,
    dist_leaves ⟨0, 0⟩ (r := 142 / 100) (q := 144 / 100) (t := -Real.pi + 1)
    (u := -Real.pi + 1 + 4 * (Real.pi / 3)) (by norm_num) (by norm_num) (by norm_num) (by norm_num) ?_,
    dist_leaves ⟨0, 0⟩ (r := 143 / 100) (q := 144 / 100) (t := -Real.pi + 1 + 2 * (Real.pi / 3))
    (u := -Real.pi + 1 + 4 * (Real.pi / 3)) (by norm_num) (by norm_num) (by norm_num) (by norm_num) ?_⟩
  · rw [hrow]
    simp [List.range_succ, oneStar, star, z, hself]
    exact ⟨hself _ _ (by norm_num), hself _ _ (by norm_num), hself _ _ (by norm_num)⟩
  · rw [hrow]
    simp [List.range_succ, oneStar, star, z, hself']
    exact hself' _ _ (by norm_num)
  · rw [hrow]
    simp [List.range_succ, oneStar, star, z, hself', dist_comm' (at_ ⟨0, 0⟩ (143 / 100) _) (at_ ⟨0, 0⟩ (142 / 100) _)]
    exact hself' _ _ (by norm_num)
  · rw [hrow]
    simp [List.range_succ, oneStar, star, z, hself', dist_comm' (at_ ⟨0, 0⟩ (144 / 100) _) (at_ ⟨0, 0⟩ _ _)]
    exact hself' _ _ (by norm_num)
  · rw [← Real.cos_neg, ← cos_third]; congr 1; ring
  · rw [← cos_third, ← Real.cos_add_two_pi]; congr 1; ring
  · rw [← Real.cos_neg, ← cos_third]; congr 1; ring

theorem oneStar_bonded {i j : ℕ} (hi : i < 4) (hj : j < 4) :
    bonded oneStar i j = true ↔ (i = 0 ∧ j ≠ 0) ∨ (i ≠ 0 ∧ j = 0) := by
  obtain ⟨d12, d13, d23, r0, r1, r2, r3, h12, h13, h23⟩ := oneStar_dists
  have hsum : bondMean oneStar = (142 / 100 + 143 / 100 + 144 / 100 + (142 / 100 + d12 + d13) +
      (143 / 100 + d12 + d23) + (144 / 100 + d13 + d23)) / 12 := by
    unfold bondMean
    have e : List.range oneStar.length = [0, 1, 2, 3] := rfl
    have hl : ∀ r : List ℝ, r.length = 4 → ((r.mergeSort (fun a b => decide (a ≤ b))).take 3).length = 3 := by
      intro r hr
      simp [hr]
    simp only [e, List.flatMap_cons, List.flatMap_nil, List.append_nil, List.sum_append, List.length_append, r0, r1, r2,
      r3]
    rw [hl _ rfl, hl _ rfl, hl _ rfl, hl _ rfl,
      three_smallest (a := 142 / 100) (b := 143 / 100) (c := 144 / 100) (M := 1000) (l := [1000, 142 / 100, 143 / 100, 144 / 100])
        (List.perm_append_comm (l₁ := [1000])) (by norm_num) (by norm_num) (by norm_num),
      three_smallest (a := 142 / 100) (b := d12) (c := d13) (M := 1000) (l := [142 / 100, 1000, d12, d13])
        ((List.perm_append_comm (l₁ := [1000])).cons _) (by norm_num) (by linarith) (by linarith),
      three_smallest (a := 143 / 100) (b := d12) (c := d23) (M := 1000) (l := [143 / 100, d12, 1000, d23])
        (((List.perm_append_comm (l₁ := [1000])).cons _).cons _) (by norm_num) (by linarith) (by linarith),
      three_smallest (a := 144 / 100) (b := d13) (c := d23) (M := 1000) (l := [144 / 100, d13, d23, 1000])
        (List.Perm.refl _) (by norm_num) (by linarith) (by linarith)]
    push_cast
    ring
  have lo : 19 / 10 ≤ bondMean oneStar := by rw [hsum]; linarith
  have hi' : bondMean oneStar ≤ 2 := by rw [hsum]; linarith
  unfold bonded
  rw [decide_eq_true_eq]
  interval_cases i <;> interval_cases j <;> simp only [r0, r1, r2, r3, List.getD_cons_zero, List.getD_cons_succ] <;>
    first
    | (simp; linarith)
    | (simp; nlinarith)

/-- All hypotheses of the first statement hold for the star and the ideal centres; the atom in the middle is of the
first kind and its neighbours, which have one bond only, get the class of the second kind from it. -/
example (fit : List (List ℝ) → Except Err (List ℝ × List ℝ)) :
    ∃ c : List ℝ × List ℝ, classifyTypes (twoMeans fit) oneStar c = .ok [0, 1, 1, 1] := by
  have hpi := Real.pi_gt_three
  have z : ∀ x : ℝ, |x - x| ≤ 0 := fun x => by simp
  have hl : oneStar.length = 4 := rfl
  refine ⟨([-Real.pi + 1, -Real.pi + 1 + 2 * (Real.pi / 3), -Real.pi + 1 + 4 * (Real.pi / 3)],
    [-Real.pi + 1 + Real.pi / 3, -Real.pi + 1 + Real.pi / 3 + 2 * (Real.pi / 3),
      -Real.pi + 1 + Real.pi / 3 + 4 * (Real.pi / 3)]), ?_⟩
  have hseed : IsSeed oneStar.length (bonded oneStar) 0 :=
    ⟨1, 2, 3, by norm_num, by norm_num, by rw [hl]; norm_num, (oneStar_bonded (by norm_num) (by norm_num)).2 (by simp),
      (oneStar_bonded (by norm_num) (by norm_num)).2 (by simp), (oneStar_bonded (by norm_num) (by norm_num)).2 (by simp)⟩
  have hlink : ∀ i, i < 4 → Linked oneStar.length (bonded oneStar) 0 i := by
    intro i hi
    by_cases h : i = 0
    · subst h; exact Relation.ReflTransGen.refl
    · exact Relation.ReflTransGen.single ⟨hi, (oneStar_bonded hi (by norm_num)).2 (Or.inr ⟨h, rfl⟩)⟩
  obtain ⟨out, h1, h2, h3⟩ := C96_sublattices_partial fit oneStar (-Real.pi + 1) 0 0
    (c := ([-Real.pi + 1, -Real.pi + 1 + 2 * (Real.pi / 3), -Real.pi + 1 + 4 * (Real.pi / 3)],
      [-Real.pi + 1 + Real.pi / 3, -Real.pi + 1 + Real.pi / 3 + 2 * (Real.pi / 3),
        -Real.pi + 1 + Real.pi / 3 + 4 * (Real.pi / 3)]))
    ⟨le_refl _, le_refl _, by have := Real.pi_pos; simp; positivity⟩ ⟨_, _, _, rfl, z _, z _, z _⟩ ⟨_, _, _, rfl, z _, z _, z _⟩
    (fun i => decide (i ≠ 0))
    (by
      intro i j hi hj hij
      rcases (oneStar_bonded hi hj).1 hij with ⟨rfl, h⟩ | ⟨h, rfl⟩ <;> simp [h])
    (by
      intro i hi hs
      by_cases h : i = 0
      · subst h; simpa using oneStar_trigonal
      · exfalso
        obtain ⟨a, b, c, hab, hbc, hc, ha, hb, -⟩ := hs
        have h1 := (oneStar_bonded hi (by omega)).1 ha
        have h2 := (oneStar_bonded hi (by omega)).1 hb
        omega)
  rw [h1]
  rw [hl] at h2
  have k : ∀ i, i < 4 → out[i]? = some (if decide (i ≠ 0) then 1 else 0) :=
    fun i hi => h3 i 0 hi (by rw [hl]; norm_num) hseed (hlink i hi)
  match out, h2 with
  | [a, b, c, d], _ =>
    have k0 := k 0 (by norm_num)
    have k1 := k 1 (by norm_num)
    have k2 := k 2 (by norm_num)
    have k3 := k 3 (by norm_num)
    simp at k0 k1 k2 k3
    rw [k0, k1, k2, k3]

/-- The atom in the middle of the star gives the clusters a row with exactly its directions. -/
example : oneStar.Nodup ∧ ∃ row, (fitFeatures oneStar)[0]? = some row ∧ About (-Real.pi + 1) 0 row := by
  have hpi := Real.pi_gt_three
  have hc : ∀ x, Real.pi / 2 < x → x < 3 * (Real.pi / 2) → Real.cos x ≤ 0 := fun x h1 h2 =>
    Real.cos_nonpos_of_pi_div_two_le_of_le h1.le (by linarith)
  have hd : ∀ {a b : V2 ℝ}, 0 < Spec.dist a b → a ≠ b := by
    rintro a _ h rfl
    simp [Spec.dist] at h
  have h12 := dist_at_at (o := ⟨0, 0⟩) (r := 143 / 100) (q := 142 / 100) (t := -Real.pi + 1 + 2 * (Real.pi / 3))
    (u := -Real.pi + 1) (by norm_num) (by norm_num) (hc _ (by linarith) (by linarith))
  have h13 := dist_at_at (o := ⟨0, 0⟩) (r := 144 / 100) (q := 142 / 100) (t := -Real.pi + 1 + 4 * (Real.pi / 3))
    (u := -Real.pi + 1) (by norm_num) (by norm_num) (hc _ (by linarith) (by linarith))
  have h23 := dist_at_at (o := ⟨0, 0⟩) (r := 144 / 100) (q := 143 / 100) (t := -Real.pi + 1 + 4 * (Real.pi / 3))
    (u := -Real.pi + 1 + 2 * (Real.pi / 3)) (by norm_num) (by norm_num) (hc _ (by linarith) (by linarith))
  have h0 : ∀ r t, 142 / 100 ≤ r → (⟨0, 0⟩ : V2 ℝ) ≠ at_ ⟨0, 0⟩ r t := fun r t hr =>
    hd (by rw [dist_at_self _ (by linarith)]; linarith)
  have hnd : oneStar.Nodup := by
    simp only [oneStar, star, List.nodup_cons, List.mem_cons, List.not_mem_nil, or_false, not_or, not_false_eq_true,
      List.nodup_nil, and_true]
    exact ⟨⟨h0 _ _ (by norm_num), h0 _ _ (by norm_num), h0 _ _ (by norm_num)⟩,
      ⟨(hd (by linarith)).symm, (hd (by linarith)).symm⟩, (hd (by linarith)).symm⟩
  exact ⟨hnd, C96_fit_about oneStar hnd _ 0 (by positivity) 0 (by simp [oneStar, star]) oneStar_trigonal⟩

/-- Centres 1° and bonds 10° off are within tolerance. -/
example : Tolerance (Real.pi / 180) (Real.pi / 18) := by
  have hpi := Real.pi_gt_three
  refine ⟨by positivity, by positivity, ?_⟩
  nlinarith

end PD.Props
