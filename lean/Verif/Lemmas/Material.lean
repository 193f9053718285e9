/- Lemmas about grids with one silicon, nearest neighbours and the transition loop. -/
import Verif.Model.Material
import Verif.Spec.Material
import Verif.Lemmas.Lists
import Mathlib.Data.List.Nodup

set_option linter.unusedSectionVars false
set_option linter.unusedSimpArgs false

namespace PD
open PD.Spec

section grids
variable {K : Type}

/-- A doped number array: all carbon, silicon at `i`. -/
def doped (n i : ℕ) : List ℤ := (List.replicate n CARBON).set i SILICON

theorem doped_length (n i : ℕ) : (doped n i).length = n := by simp [doped]

theorem doped_get (n i j : ℕ) (hj : j < n) :
    (doped n i)[j]? = some (if j = i then SILICON else CARBON) := by
  unfold doped
  rw [List.getElem?_set]
  by_cases h : i = j
  · subst h; simp [hj]
  · have : ¬ j = i := fun h' => h h'.symm
    simp [h, this, hj]

theorem singleDoped_iff (g : Grid K) :
    SingleDoped g ↔ ∃ i, i < g.positions.length ∧ g.numbers = doped g.positions.length i := by
  constructor
  · rintro ⟨hwf, i, hi, h⟩
    refine ⟨i, hwf ▸ hi, ?_⟩
    apply List.ext_getElem?
    intro j
    by_cases hj : j < g.numbers.length
    · rw [h j hj, doped_get _ _ _ (hwf ▸ hj)]
    · rw [List.getElem?_eq_none (by omega), List.getElem?_eq_none (by rw [doped_length]; omega)]
  · rintro ⟨i, hi, h⟩
    have hl : g.positions.length = g.numbers.length := by rw [h, doped_length]
    refine ⟨hl, i, hl ▸ hi, ?_⟩
    intro j hj
    rw [h, doped_get _ _ _ (hl ▸ hj)]

theorem maskSelect_allFalse {α : Type} (n : ℕ) (ps : List α) :
    maskSelect ((List.replicate n CARBON).map (fun n => decide (n = SILICON))) ps = [] := by
  induction n generalizing ps with
  | zero => simp [maskSelect]
  | succ n ih =>
    cases ps with
    | nil => simp [maskSelect]
    | cons p ps =>
      have : decide (CARBON = SILICON) = false := by decide
      have := ih ps
      simp_all [List.replicate_succ, maskSelect]

theorem maskSelect_doped {α : Type} (ps : List α) (i : ℕ) (p : α) (h : ps[i]? = some p) :
    maskSelect ((doped ps.length i).map (fun n => decide (n = SILICON))) ps = [p] := by
  induction ps generalizing i with
  | nil => simp at h
  | cons q ps ih =>
    have hcs : ¬ (CARBON = SILICON) := by decide
    cases i with
    | zero =>
      simp at h; subst h
      have := maskSelect_allFalse ps.length ps
      simp_all [doped, List.replicate_succ, maskSelect]
    | succ i =>
      have := ih i (by simpa using h)
      simp_all [doped, List.replicate_succ, maskSelect]

theorem getSiliconPositions_doped (g : Grid K) (i : ℕ) (p : V2 K)
    (hn : g.numbers = doped g.positions.length i) (h : g.positions[i]? = some p) :
    getSiliconPositions g = [p] := by
  unfold getSiliconPositions
  rw [hn]
  exact maskSelect_doped _ _ _ h

theorem Spec.SingleDoped.exists_index {g : Grid K} (h : SingleDoped g) :
    ∃ i p, g.positions[i]? = some p ∧ g.numbers = doped g.positions.length i ∧
      getSiliconPositions g = [p] := by
  obtain ⟨i, hi, hn⟩ := (singleDoped_iff g).1 h
  refine ⟨i, g.positions[i], by simp [hi], hn, ?_⟩
  exact getSiliconPositions_doped g i _ hn (by simp [hi])

theorem Spec.SingleDoped.length_pos {g : Grid K} (h : SingleDoped g) : 0 < g.positions.length := by
  obtain ⟨i, hi, _⟩ := (singleDoped_iff g).1 h
  omega

theorem successorGrid_numbers (g : Grid K) (hwf : g.WF) (j : ℕ) :
    (successorGrid g j).numbers = doped g.positions.length j := by
  simp [successorGrid, doped, show g.positions.length = g.numbers.length from hwf]

theorem singleDoped_successor {g : Grid K} (hwf : g.WF) {j : ℕ} (hj : j < g.positions.length) :
    SingleDoped (successorGrid g j) := by
  rw [singleDoped_iff]
  exact ⟨j, hj, successorGrid_numbers g hwf j⟩

theorem siliconCount_of_singleDoped {g : Grid K} (h : SingleDoped g) : siliconCount g = 1 := by
  obtain ⟨i, hi, hn⟩ := (singleDoped_iff g).1 h
  unfold siliconCount
  rw [hn, doped]
  have hcs : ¬ (CARBON = SILICON) := by decide
  rw [List.count_set (by simpa using hi)]
  simp [List.count_replicate, hcs]

end grids

section knn
variable {K : Type} [Field K] [LinearOrder K] [IsStrictOrderedRing K]

theorem V2.normSq_nonneg (a : V2 K) : 0 ≤ V2.normSq a := by
  unfold V2.normSq
  nlinarith [mul_self_nonneg a.x, mul_self_nonneg a.y]

theorem V2.normSq_eq_zero {a : V2 K} : V2.normSq a = 0 ↔ a = 0 := by
  unfold V2.normSq
  constructor
  · intro h
    have hx := mul_self_nonneg a.x
    have hy := mul_self_nonneg a.y
    have h1 : a.x * a.x = 0 := by linarith
    have h2 : a.y * a.y = 0 := by linarith
    ext
    · simpa using h1
    · simpa using h2
  · rintro rfl; simp

theorem V2.distSq_nonneg (a b : V2 K) : 0 ≤ V2.distSq a b := V2.normSq_nonneg _

theorem V2.distSq_self (a : V2 K) : V2.distSq a a = 0 := by
  simp [V2.distSq, V2.normSq]

theorem V2.distSq_eq_zero {a b : V2 K} : V2.distSq a b = 0 ↔ a = b := by
  unfold V2.distSq
  rw [V2.normSq_eq_zero]
  constructor
  · intro h
    have h1 := congrArg V2.x h
    have h2 := congrArg V2.y h
    simp at h1 h2
    ext
    · linarith
    · linarith
  · rintro rfl; ext <;> simp

theorem V2.distSq_comm (a b : V2 K) : V2.distSq a b = V2.distSq b a := by
  simp [V2.distSq, V2.normSq]; ring

/-- The nearest point to an atom of a sheet with distinct positions is that atom itself. -/
theorem IsKnn.head_eq {ps : List (V2 K)} {k : ℕ} {r : List ℕ} {i : ℕ} {p : V2 K}
    (hps : ps.Nodup) (hi : ps[i]? = some p) (h : IsKnn ps p (k + 1) r) :
    ∃ t, r = i :: t := by
  have hlen := h.length
  cases r with
  | nil => simp at hlen
  | cons a t =>
    have hil : i < ps.length := (List.getElem?_eq_some_iff.1 hi).1
    have hal := h.lt a (by simp)
    -- whichever index `b` is at distance ≤ 0 from p is i
    have huniq : ∀ b, b < ps.length → (∀ q, ps[b]? = some q → V2.distSq p q ≤ 0) → b = i := by
      intro b hb hd
      have hq : ps[b]? = some ps[b] := by simp [hb]
      have h0 := le_antisymm (hd _ hq) (V2.distSq_nonneg _ _)
      rw [V2.distSq_eq_zero] at h0
      have hi' : ps[i] = p := (List.getElem?_eq_some_iff.1 hi).2
      exact (List.Nodup.getElem_inj_iff hps).1 (by rw [hi', ← h0])
    have ha : a = i := by
      apply huniq a hal
      intro q hq
      by_contra hc
      rw [not_le] at hc
      -- i is not the head
      by_cases hir : i ∈ a :: t
      · rcases List.mem_cons.1 hir with hia | hit
        · subst hia
          rw [hi] at hq
          cases hq
          rw [V2.distSq_self] at hc
          exact lt_irrefl _ hc
        · have := (List.pairwise_cons.1 h.sorted).1 i hit q p hq hi
          rw [V2.distSq_self] at this
          exact absurd this (not_le.2 hc)
      · have := h.nearest a (by simp) i hir q p hq hi
        rw [V2.distSq_self] at this
        exact absurd this (not_le.2 hc)
    exact ⟨t, by rw [ha]⟩

/-- The three indices left after dropping the first are the three nearest atoms. -/
theorem IsKnn.amongThreeNearest {ps : List (V2 K)} {r : List ℕ} {i : ℕ} {p : V2 K}
    (hps : ps.Nodup) (hi : ps[i]? = some p) (h : IsKnn ps p 4 r) {j : ℕ} (hj : j ∈ r.drop 1) :
    AmongThreeNearest ps i j := by
  obtain ⟨t, rfl⟩ := h.head_eq hps hi
  simp only [List.drop_succ_cons, List.drop_zero] at hj
  have hnd := h.nodup
  rw [List.nodup_cons] at hnd
  have hij : i ≠ j := fun hij => hnd.1 (hij ▸ hj)
  have hjl := h.lt j (by simp [hj])
  refine ⟨hij, p, ps[j], hi, by simp [hjl], ?_⟩
  have hlen : t.length = 3 := by simpa using h.length
  set F := (List.range ps.length).filter (fun k => k ≠ i ∧
      ∃ pk, ps[k]? = some pk ∧ V2.distSq p pk < V2.distSq p ps[j]) with hF
  have hFnd : F.Nodup := List.Nodup.filter _ List.nodup_range
  have hsub : F ⊆ t.erase j := by
    intro k hk
    rw [hF, List.mem_filter] at hk
    obtain ⟨hkr, hk⟩ := hk
    simp only [decide_eq_true_eq] at hk
    obtain ⟨hki, pk, hpk, hlt⟩ := hk
    rw [List.Nodup.mem_erase_iff hnd.2]
    constructor
    · rintro rfl
      have : pk = ps[k] := by
        rw [List.getElem?_eq_getElem hjl] at hpk; exact (Option.some.inj hpk).symm
      rw [this] at hlt
      exact lt_irrefl _ hlt
    · by_contra hkt
      have hk' : k ∉ i :: t := by
        rw [List.mem_cons]; push Not; exact ⟨hki, hkt⟩
      have := h.nearest j (by simp [hj]) k hk' ps[j] pk (by simp [hjl]) hpk
      exact absurd hlt (not_lt.2 this)
  have h2 := (hFnd.subperm hsub).length_le
  rw [List.length_erase_of_mem hj, hlen] at h2
  exact h2

theorem nearestNeighbors3_ok {knn : Knn K} {ps : List (V2 K)} {q : V2 K} {r : List ℕ}
    (h : nearestNeighbors3 knn ps q = .ok r) :
    4 ≤ ps.length ∧ ∃ r', IsKnn ps q 4 r' ∧ r = r'.drop 1 := by
  unfold nearestNeighbors3 Knn.kneighbors at h
  by_cases hl : 4 ≤ ps.length
  · simp only [hl, if_true] at h
    refine ⟨hl, _, knn.spec ps q 4 hl, ?_⟩
    simpa using (Except.ok.inj h).symm
  · simp only [hl, if_false] at h
    cases h

theorem nearestNeighbors3_eq (knn : Knn K) {ps : List (V2 K)} (q : V2 K) (hl : 4 ≤ ps.length) :
    nearestNeighbors3 knn ps q = .ok ((knn.query ps q 4).drop 1) := by
  simp [nearestNeighbors3, Knn.kneighbors, hl, pure, Except.pure, bind, Except.bind]

end knn
end PD
