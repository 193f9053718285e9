/- C61: equality and hashing of atomic grids. -/
import Verif.Model.GridEq
import Verif.Spec.GridEq
import Verif.Lemmas.Lists
import Verif.Lemmas.Witness

set_option linter.unusedSectionVars false
set_option linter.unusedSimpArgs false

namespace PD.Props
open PD PD.Spec
variable {K : Type} [Field K] [LinearOrder K] [IsStrictOrderedRing K]

theorem distSq_expand (p q : V2 K) : V2.distSq p q = (p.x - q.x) ^ 2 + (p.y - q.y) ^ 2 := by
  simp [V2.distSq, V2.normSq, pow_two]

theorem normGt_false (p q : V2 K) :
    normGt (p - q) (1 / 1000) = false ↔ (p.x - q.x) ^ 2 + (p.y - q.y) ^ 2 ≤ (1 / 1000) ^ 2 := by
  have h0 : ¬ (1 / 1000 : K) < 0 := by norm_num
  have e : V2.normSq (p - q) = (p.x - q.x) ^ 2 + (p.y - q.y) ^ 2 := distSq_expand p q
  rw [normGt, e]
  simp only [h0, decide_false, Bool.false_or, decide_eq_false_iff_not, not_lt, ← pow_two]

/-- The nearest atom exists and no atom is nearer. -/
theorem nearestIndex_spec (knn : Knn K) (ps : List (V2 K)) (q : V2 K) (h : ps ≠ []) :
    ∃ p, ps[nearestIndex knn ps q]? = some p ∧
      ∀ (j : ℕ) b, ps[j]? = some b → V2.distSq q p ≤ V2.distSq q b := by
  have hl : 1 ≤ ps.length := List.length_pos_of_ne_nil h
  have hs := knn.spec ps q 1 hl
  obtain ⟨i, hi⟩ := List.length_eq_one_iff.1 hs.length
  have hidx : nearestIndex knn ps q = i := by unfold nearestIndex; rw [hi]; rfl
  have hlt : i < ps.length := hs.lt i (by rw [hi]; simp)
  rw [hidx]
  refine ⟨ps[i], List.getElem?_eq_getElem hlt, ?_⟩
  intro j b hb
  by_cases hj : j = i
  · subst hj
    rw [List.getElem?_eq_getElem hlt] at hb
    cases hb
    exact le_rfl
  · exact hs.nearest i (by rw [hi]; simp) j (by rw [hi]; simpa using hj) _ _
      (List.getElem?_eq_getElem hlt) hb

/-- What the code checks. -/
theorem gridEq_iff (knn : Knn K) (a b : Grid K) (ha : Proper a) (hb : Proper b) :
    gridEq knn a b = .ok true ↔
      a.positions.length = b.positions.length ∧
      ∀ (j : ℕ) q, b.positions[j]? = some q → SameAtom (1 / 1000) a b (nearestIndex knn a.positions q) j := by
  unfold gridEq
  by_cases hl : a.positions.length = b.positions.length
  swap
  · simp [hl]
  have hn : a.numbers.length = b.numbers.length := by rw [ha.2, hb.2, hl]
  have he : a.positions.isEmpty = false := by simpa using ha.1
  simp only [hl, hn, he, ne_eq, not_true_eq_false, if_false, Bool.false_eq_true]
  have hany : (b.positions.map (nearestIndex knn a.positions)).any
      (fun i => decide (b.numbers.length ≤ i)) = false := by
    rw [List.any_eq_false]
    intro i hi
    obtain ⟨q, _, rfl⟩ := List.mem_map.1 hi
    obtain ⟨p, hp, _⟩ := nearestIndex_spec knn a.positions q ha.1
    have := (List.getElem?_eq_some_iff.1 hp).1
    simp only [decide_eq_true_eq, not_le]
    rw [← hn, ha.2]; exact this
  rw [hany]
  have hlen : ¬ ¬ b.numbers.length = (b.positions.map (nearestIndex knn a.positions)).length := by
    simp [hb.2]
  rw [if_neg (by simp), if_neg hlen]
  have key : ∀ j q, b.positions[j]? = some q →
      (SameAtom (1 / 1000) a b (nearestIndex knn a.positions q) j ↔
        b.numbers[j]? = some (a.numbers.getD (nearestIndex knn a.positions q) 0) ∧
        normGt (q - a.positions.getD (nearestIndex knn a.positions q) 0) (1 / 1000) = false) := by
    intro j q hq
    obtain ⟨p, hp, _⟩ := nearestIndex_spec knn a.positions q ha.1
    have hlt := (List.getElem?_eq_some_iff.1 hp).1
    have hltn : nearestIndex knn a.positions q < a.numbers.length := by rw [ha.2]; exact hlt
    have hpn : a.numbers[nearestIndex knn a.positions q]? =
        some a.numbers[nearestIndex knn a.positions q] := List.getElem?_eq_getElem hltn
    rw [normGt_false, List.getD_eq_getElem?_getD, List.getD_eq_getElem?_getD, hp, hpn, Option.getD_some,
      Option.getD_some]
    constructor
    · rintro ⟨p', q', n, h1, h2, h3, h4, h5⟩
      rw [hp] at h1; rw [hq] at h2; rw [hpn] at h3
      cases h1; cases h2; cases h3
      refine ⟨h4, ?_⟩
      have : (q.x - p.x) ^ 2 + (q.y - p.y) ^ 2 = (p.x - q.x) ^ 2 + (p.y - q.y) ^ 2 := by ring
      rw [this]; exact h5
    · rintro ⟨h1, h2⟩
      refine ⟨p, q, _, hp, hq, hpn, h1, ?_⟩
      have : (p.x - q.x) ^ 2 + (p.y - q.y) ^ 2 = (q.x - p.x) ^ 2 + (q.y - p.y) ^ 2 := by ring
      rw [this]; exact h2
  constructor
  · intro h
    refine ⟨trivial, ?_⟩
    intro j q hq
    rw [key j q hq]
    have hjl := (List.getElem?_eq_some_iff.1 hq).1
    have hjn : j < b.numbers.length := by rw [hb.2]; exact hjl
    split at h
    · simp at h
    · rename_i h1
      split at h
      · simp at h
      · rename_i h2
        rw [Bool.not_eq_true, List.any_eq_false] at h1 h2
        constructor
        · have hm : (b.numbers[j], nearestIndex knn a.positions q) ∈
              b.numbers.zip (b.positions.map (nearestIndex knn a.positions)) := by
            rw [List.mem_iff_getElem?]
            refine ⟨j, ?_⟩
            rw [List.getElem?_zip_eq_some]
            exact ⟨List.getElem?_eq_getElem hjn, by simp [hq]⟩
          have := h1 _ hm
          simp only [ne_eq, decide_eq_true_eq, not_not] at this
          rw [← this]
          exact List.getElem?_eq_getElem hjn
        · have hm : (q, nearestIndex knn a.positions q) ∈
              b.positions.zip (b.positions.map (nearestIndex knn a.positions)) := by
            rw [List.mem_iff_getElem?]
            refine ⟨j, ?_⟩
            rw [List.getElem?_zip_eq_some]
            exact ⟨hq, by simp [hq]⟩
          have := h2 _ hm
          simpa using this
  · rintro ⟨_, h⟩
    rw [if_neg, if_neg]
    · rw [Bool.not_eq_true, List.any_eq_false]
      intro x hx
      obtain ⟨j, hj⟩ := List.mem_iff_getElem?.1 hx
      obtain ⟨h1, h2⟩ := List.getElem?_zip_eq_some.1 hj
      have h3 := h j x.1 h1
      rw [key j x.1 h1] at h3
      rw [List.getElem?_map, h1] at h2
      simp only [Option.map_some, Option.some.injEq] at h2
      rw [← h2]
      simpa using h3.2
    · rw [Bool.not_eq_true, List.any_eq_false]
      intro x hx
      obtain ⟨j, hj⟩ := List.mem_iff_getElem?.1 hx
      obtain ⟨h1, h2⟩ := List.getElem?_zip_eq_some.1 hj
      rw [List.getElem?_map] at h2
      cases hq : b.positions[j]? with
      | none => rw [hq] at h2; cases h2
      | some q =>
        rw [hq] at h2
        simp only [Option.map_some, Option.some.injEq] at h2
        have h3 := ((key j q hq).1 (h j q hq)).1
        rw [h1] at h3
        rw [← h2]
        simpa using h3

/-- Between proper grids of any sizes the comparison gives an answer. -/
theorem gridEq_answers (knn : Knn K) (a b : Grid K) (ha : Proper a) (hb : Proper b) :
    gridEq knn a b = .ok true ∨ gridEq knn a b = .ok false := by
  unfold gridEq
  by_cases hl : a.positions.length = b.positions.length
  swap
  · simp [hl]
  have hn : a.numbers.length = b.numbers.length := by rw [ha.2, hb.2, hl]
  have he : a.positions.isEmpty = false := by simpa using ha.1
  simp only [hl, hn, he, ne_eq, not_true_eq_false, if_false, Bool.false_eq_true]
  have hany : (b.positions.map (nearestIndex knn a.positions)).any
      (fun i => decide (b.numbers.length ≤ i)) = false := by
    rw [List.any_eq_false]
    intro i hi
    obtain ⟨q, _, rfl⟩ := List.mem_map.1 hi
    obtain ⟨p, hp, _⟩ := nearestIndex_spec knn a.positions q ha.1
    have := (List.getElem?_eq_some_iff.1 hp).1
    simp only [decide_eq_true_eq, not_le]
    rw [← hn, ha.2]; exact this
  rw [hany]
  have hlen : ¬ ¬ b.numbers.length = (b.positions.map (nearestIndex knn a.positions)).length := by
    simp [hb.2]
  rw [if_neg (by simp), if_neg hlen]
  split
  · right; rfl
  · split
    · right; rfl
    · left; rfl

theorem tri (p q s : V2 K) :
    (p.x - s.x) ^ 2 + (p.y - s.y) ^ 2 ≤
      2 * ((p.x - q.x) ^ 2 + (p.y - q.y) ^ 2) + 2 * ((q.x - s.x) ^ 2 + (q.y - s.y) ^ 2) := by
  nlinarith [sq_nonneg ((p.x - q.x) - (q.x - s.x)), sq_nonneg ((p.y - q.y) - (q.y - s.y))]

/-- C61: grids found equal have the same size, and every atom of the second one has an atom of the same
kind of the first one within 0.001. -/
theorem C61_sound (knn : Knn K) (a b : Grid K) (ha : Proper a) (hb : Proper b)
    (h : gridEq knn a b = .ok true) : Covered (1 / 1000) a b := by
  obtain ⟨h1, h2⟩ := (gridEq_iff knn a b ha hb).1 h
  exact ⟨h1, fun j hj => ⟨_, h2 j _ (List.getElem?_eq_getElem hj)⟩⟩

/-- C61: conversely, if the atoms of the first grid are more than 0.002 apart. -/
theorem C61_complete (knn : Knn K) (a b : Grid K) (ha : Proper a) (hb : Proper b)
    (hap : Apart (2 / 1000) a) (h : Covered (1 / 1000) a b) : gridEq knn a b = .ok true := by
  rw [gridEq_iff knn a b ha hb]
  refine ⟨h.1, ?_⟩
  intro j q hq
  obtain ⟨i, p, q', n, h1, h2, h3, h4, h5⟩ := h.2 j (List.getElem?_eq_some_iff.1 hq).1
  rw [hq] at h2; cases h2
  obtain ⟨p', hp', hmin⟩ := nearestIndex_spec knn a.positions q ha.1
  have hle := hmin i p h1
  rw [distSq_expand, distSq_expand] at hle
  by_cases hi : nearestIndex knn a.positions q = i
  · rw [hi]; exact ⟨p, q, n, h1, hq, h3, h4, h5⟩
  · exfalso
    have := hap _ _ p' p hi hp' h1
    have t := tri p' q p
    nlinarith

/-- C61: a grid equals itself, if no two of its atoms are at the same place.
Missing from the full claim: see `C61_not_reflexive`. -/
theorem C61_reflexive_partial (knn : Knn K) (g : Grid K) (hg : Proper g) (hd : g.positions.Nodup) :
    gridEq knn g g = .ok true := by
  rw [gridEq_iff knn g g hg hg]
  refine ⟨rfl, ?_⟩
  intro j q hq
  obtain ⟨p, hp, hmin⟩ := nearestIndex_spec knn g.positions q hg.1
  have h0 := hmin j q hq
  rw [distSq_expand, distSq_expand] at h0
  have hx : (q.x - p.x) ^ 2 = 0 := by nlinarith [sq_nonneg (q.x - p.x), sq_nonneg (q.y - p.y)]
  have hy : (q.y - p.y) ^ 2 = 0 := by nlinarith [sq_nonneg (q.x - p.x), sq_nonneg (q.y - p.y)]
  have hpq : p = q := by
    ext
    · have := pow_eq_zero_iff (n := 2) (by norm_num) |>.1 hx; linarith
    · have := pow_eq_zero_iff (n := 2) (by norm_num) |>.1 hy; linarith
  subst hpq
  obtain ⟨hi, hi'⟩ := List.getElem?_eq_some_iff.1 hp
  obtain ⟨hj, hj'⟩ := List.getElem?_eq_some_iff.1 hq
  have hij : nearestIndex knn g.positions p = j := (hd.getElem_inj_iff (hi := hi) (hj := hj)).1 (by rw [hi', hj'])
  have hn : j < g.numbers.length := by rw [hg.2]; exact hj
  rw [hij]
  exact ⟨p, p, g.numbers[j], hq, hq, List.getElem?_eq_getElem hn, List.getElem?_eq_getElem hn, by simp⟩

/-- C61, false in general: a grid with two atoms of different kinds at one place is not equal to itself,
whichever nearest atom is found. -/
theorem C61_not_reflexive (knn : Knn K) (g : Grid K) (hg : Proper g) (i j : ℕ) (p : V2 K) (m n : ℤ)
    (hi : g.positions[i]? = some p) (hj : g.positions[j]? = some p) (hm : g.numbers[i]? = some m)
    (hn : g.numbers[j]? = some n) (hmn : m ≠ n) : gridEq knn g g = .ok false := by
  rcases gridEq_answers knn g g hg hg with h | h
  · exfalso
    obtain ⟨_, h2⟩ := (gridEq_iff knn g g hg hg).1 h
    obtain ⟨_, _, n1, _, _, a3, a4, _⟩ := h2 i p hi
    obtain ⟨_, _, n2, _, _, b3, b4, _⟩ := h2 j p hj
    rw [hm] at a4; rw [hn] at b4; rw [a3] at b3
    cases a4; cases b4; cases b3
    exact hmn rfl
  · exact h

/-- C61, false in general: grids without atoms cannot be compared. -/
theorem C61_empty (knn : Knn K) : gridEq knn (⟨[], []⟩ : Grid K) ⟨[], []⟩ = .error .valueError := rfl

/-- C61: grids with different numbers of positions, or of atomic numbers, are not equal. -/
theorem C61_sizes (knn : Knn K) (a b : Grid K)
    (h : a.positions.length ≠ b.positions.length ∨ a.numbers.length ≠ b.numbers.length) :
    gridEq knn a b = .ok false := by
  unfold gridEq
  by_cases h1 : a.positions.length = b.positions.length
  · rw [if_neg (not_not.2 h1), if_pos (h.resolve_left (not_not.2 h1))]
  · rw [if_pos h1]

/-- An injective map of `{0, …, n-1}` to itself meets every element. -/
theorem surj_of_inj {n : ℕ} (f : ℕ → ℕ) (hf : ∀ j, j < n → f j < n)
    (hinj : ∀ j k, j < n → k < n → f j = f k → j = k) : ∀ i, i < n → ∃ j, j < n ∧ f j = i := by
  intro i hi
  let g : Fin n → Fin n := fun j => ⟨f j, hf j j.2⟩
  have hg : Function.Injective g := by
    intro j k h
    have := congrArg Fin.val h
    exact Fin.ext (hinj j k j.2 k.2 this)
  obtain ⟨j, hj⟩ := (Finite.injective_iff_surjective.1 hg) ⟨i, hi⟩
  exact ⟨j, j.2, congrArg Fin.val hj⟩

/-- C61: equality is symmetric if the atoms of the second grid are more than 0.002 apart; then it is also a
one-to-one matching of the atoms. Missing from the full claim: see `C61_not_symmetric`. -/
theorem C61_symmetric_partial (knn : Knn K) (a b : Grid K) (ha : Proper a) (hb : Proper b)
    (hap : Apart (2 / 1000) b) (h : gridEq knn a b = .ok true) : gridEq knn b a = .ok true := by
  obtain ⟨h1, h2⟩ := (gridEq_iff knn a b ha hb).1 h
  refine C61_complete knn b a hb ha hap ⟨h1.symm, ?_⟩
  -- the matching is injective
  let f : ℕ → ℕ := fun j => nearestIndex knn a.positions (b.positions.getD j 0)
  have hget : ∀ j, j < b.positions.length → b.positions[j]? = some (b.positions.getD j 0) := by
    intro j hj
    rw [List.getD_eq_getElem?_getD, List.getElem?_eq_getElem hj, Option.getD_some]
  have hs : ∀ j, j < b.positions.length → SameAtom (1 / 1000) a b (f j) j := fun j hj => h2 j _ (hget j hj)
  have hlt : ∀ j, j < b.positions.length → f j < b.positions.length := by
    intro j hj
    obtain ⟨p, _, _, hp, _⟩ := hs j hj
    rw [← h1]; exact (List.getElem?_eq_some_iff.1 hp).1
  have hinj : ∀ j k, j < b.positions.length → k < b.positions.length → f j = f k → j = k := by
    intro j k hj hk hjk
    by_contra hne
    obtain ⟨p, q, _, hp, hq, _, _, d1⟩ := hs j hj
    obtain ⟨p', q', _, hp', hq', _, _, d2⟩ := hs k hk
    rw [← hjk, hp] at hp'; cases hp'
    have := hap j k q q' hne hq hq'
    have t := tri q p q'
    have e : (q.x - p.x) ^ 2 + (q.y - p.y) ^ 2 = (p.x - q.x) ^ 2 + (p.y - q.y) ^ 2 := by ring
    rw [e] at t
    nlinarith
  intro i hi
  rw [h1] at hi
  obtain ⟨j, hj, rfl⟩ := surj_of_inj f hlt hinj i hi
  obtain ⟨p, q, n, hp, hq, hn, hn', d⟩ := hs j hj
  refine ⟨j, q, p, n, hq, hp, hn', hn, ?_⟩
  have e : (q.x - p.x) ^ 2 + (q.y - p.y) ^ 2 = (p.x - q.x) ^ 2 + (p.y - q.y) ^ 2 := by ring
  rw [e]; exact d

/-- C61: two equalities in a row keep atoms within 0.002.
Missing from the full claim: equality with 0.001, see `C61_not_transitive`. -/
theorem C61_transitive_partial (knn : Knn K) (a b c : Grid K) (ha : Proper a) (hb : Proper b) (hc : Proper c)
    (h1 : gridEq knn a b = .ok true) (h2 : gridEq knn b c = .ok true) : Covered (2 / 1000) a c := by
  have c1 := C61_sound knn a b ha hb h1
  have c2 := C61_sound knn b c hb hc h2
  refine ⟨c1.1.trans c2.1, ?_⟩
  intro k hk
  obtain ⟨j, q, s, n, hq, hs, hn, hn', d⟩ := c2.2 k hk
  obtain ⟨i, p, q', m, hp, hq', hm, hm', d'⟩ := c1.2 j (List.getElem?_eq_some_iff.1 hq).1
  rw [hq] at hq'; cases hq'
  rw [hn] at hm'; cases hm'
  refine ⟨i, p, s, n, hp, hs, hm, hn', ?_⟩
  have := tri p q s
  nlinarith

/-! ### Witnesses -/

/-- Two carbon atoms 1 apart. -/
def eqA : Grid ℚ := ⟨[⟨0, 0⟩, ⟨1, 0⟩], [6, 6]⟩
/-- Two carbon atoms both near the first of `eqA`. -/
def eqB : Grid ℚ := ⟨[⟨0, 0⟩, ⟨1/2000, 0⟩], [6, 6]⟩
/-- A single carbon atom at `x`. -/
def eqAt (x : ℚ) : Grid ℚ := ⟨[⟨x, 0⟩], [6]⟩

theorem covered_AB : Covered (1 / 1000) eqA eqB := by
  refine ⟨rfl, ?_⟩
  intro j hj
  have : j = 0 ∨ j = 1 := by simp [eqB] at hj; omega
  rcases this with rfl | rfl
  · exact ⟨0, ⟨0, 0⟩, ⟨0, 0⟩, 6, rfl, rfl, rfl, rfl, by norm_num⟩
  · exact ⟨0, ⟨0, 0⟩, ⟨1/2000, 0⟩, 6, rfl, rfl, rfl, rfl, by norm_num⟩

theorem apart_A : Apart (2 / 1000) eqA := by
  intro i j p q hij hp hq
  have hi := (List.getElem?_eq_some_iff.1 hp).1
  have hj := (List.getElem?_eq_some_iff.1 hq).1
  have : (i = 0 ∧ j = 1) ∨ (i = 1 ∧ j = 0) := by simp [eqA] at hi hj; omega
  rcases this with ⟨rfl, rfl⟩ | ⟨rfl, rfl⟩
  · simp [eqA] at hp hq; subst hp; subst hq; norm_num
  · simp [eqA] at hp hq; subst hp; subst hq; norm_num

theorem apart_At (x : ℚ) : Apart (2 / 1000) (eqAt x) := by
  intro i j p q hij hp hq
  have hi := (List.getElem?_eq_some_iff.1 hp).1
  have hj := (List.getElem?_eq_some_iff.1 hq).1
  simp [eqAt] at hi hj
  omega

theorem proper_A : Proper eqA := ⟨by simp [eqA], rfl⟩
theorem proper_B : Proper eqB := ⟨by simp [eqB], rfl⟩
theorem proper_At (x : ℚ) : Proper (eqAt x) := ⟨by simp [eqAt], rfl⟩

/-- C61, false in general: equality is not symmetric. -/
theorem C61_not_symmetric (knn : Knn ℚ) :
    ∃ a b : Grid ℚ, Proper a ∧ Proper b ∧ gridEq knn a b = .ok true ∧ gridEq knn b a = .ok false := by
  refine ⟨eqA, eqB, proper_A, proper_B, C61_complete knn _ _ proper_A proper_B apart_A covered_AB, ?_⟩
  rcases gridEq_answers knn eqB eqA proper_B proper_A with h | h
  · exfalso
    obtain ⟨i, p, q, n, hp, hq, _, _, d⟩ := (C61_sound knn _ _ proper_B proper_A h).2 1 (by simp [eqA])
    have hi := (List.getElem?_eq_some_iff.1 hp).1
    have : i = 0 ∨ i = 1 := by simp [eqB] at hi; omega
    simp [eqA] at hq
    subst hq
    rcases this with rfl | rfl
    · simp [eqB] at hp; subst hp; norm_num at d
    · simp [eqB] at hp; subst hp; norm_num at d
  · exact h

theorem eqAt_iff (knn : Knn ℚ) (x y : ℚ) :
    gridEq knn (eqAt x) (eqAt y) = .ok true ↔ (x - y) ^ 2 ≤ (1 / 1000) ^ 2 := by
  constructor
  · intro h
    obtain ⟨i, p, q, n, hp, hq, _, _, d⟩ := (C61_sound knn _ _ (proper_At x) (proper_At y) h).2 0 (by simp [eqAt])
    have hi := (List.getElem?_eq_some_iff.1 hp).1
    have : i = 0 := by simpa [eqAt] using hi
    subst this
    simp [eqAt] at hp hq
    subst hp; subst hq
    simpa using d
  · intro h
    refine C61_complete knn _ _ (proper_At x) (proper_At y) (apart_At x) ⟨rfl, ?_⟩
    intro j hj
    have : j = 0 := by simpa [eqAt] using hj
    subst this
    exact ⟨0, ⟨x, 0⟩, ⟨y, 0⟩, 6, rfl, rfl, rfl, rfl, by simpa using h⟩

/-- C61, false in general: equality is not transitive. -/
theorem C61_not_transitive (knn : Knn ℚ) :
    ∃ a b c : Grid ℚ, Proper a ∧ Proper b ∧ Proper c ∧ gridEq knn a b = .ok true ∧
      gridEq knn b c = .ok true ∧ gridEq knn a c = .ok false := by
  refine ⟨eqAt 0, eqAt (4/5000), eqAt (8/5000), proper_At _, proper_At _, proper_At _,
    (eqAt_iff knn _ _).2 (by norm_num), (eqAt_iff knn _ _).2 (by norm_num), ?_⟩
  rcases gridEq_answers knn (eqAt 0) (eqAt (8/5000)) (proper_At _) (proper_At _) with h | h
  · rw [eqAt_iff] at h; norm_num at h
  · exact h

example : ∃ knn : Knn ℚ, Proper eqA ∧ eqA.positions.Nodup ∧ Apart (2 / 1000) eqA ∧ gridEq knn eqA eqA = .ok true :=
  ⟨Witness.knn, proper_A, by decide, apart_A, C61_reflexive_partial _ _ proper_A (by decide)⟩

example : Proper (⟨[⟨0, 0⟩, ⟨0, 0⟩], [6, 14]⟩ : Grid ℚ) ∧ (6 : ℤ) ≠ 14 := ⟨⟨by simp, rfl⟩, by decide⟩

/-! ### Hashes -/

/-- C61: the hash does not depend on the order of the atoms. -/
theorem C61_hash_order (g h : Grid ℝ) (hp : (g.positions.zip g.numbers).Perm (h.positions.zip h.numbers)) :
    gridHash g = gridHash h := by
  unfold gridHash
  rw [(hp.map hashTerm).sum_eq]

theorem modifier_six : hashModifier 6 = 132 / 100 := by
  unfold hashModifier around2
  have h1 := Real.pi_gt_d4
  have h2 := Real.pi_lt_d4
  have e : roundHalfEven ((Real.pi / 3) ^ (6 : ℤ) * 100) = 132 := by
    apply roundHalfEven_eq_of_abs_lt
    have e6 : (Real.pi / 3) ^ (6 : ℤ) = (Real.pi / 3) ^ 6 := by norm_cast
    rw [e6]
    have l1 : (1.0471 : ℝ) ^ 6 ≤ (Real.pi / 3) ^ 6 := pow_le_pow_left₀ (by norm_num) (by linarith) 6
    have l2 : (Real.pi / 3) ^ 6 ≤ (1.0472 : ℝ) ^ 6 := pow_le_pow_left₀ (by positivity) (by linarith) 6
    norm_num at l1 l2
    rw [abs_lt]
    push_cast
    constructor <;> linarith
  rw [e]
  norm_num

/-- A single carbon atom at `x`, in the real numbers. -/
noncomputable def eqAtR (x : ℝ) : Grid ℝ := ⟨[⟨x, 0⟩], [6]⟩

theorem hash_at (x : ℝ) (n : ℤ) (h : |132 / 100 * (x * x + 1) * 100 - n| < 1 / 2) : gridHash (eqAtR x) = n := by
  unfold gridHash eqAtR
  simp only [List.zip_cons_cons, List.zip_nil_right, List.map_cons, List.map_nil, List.sum_cons, List.sum_nil, add_zero]
  unfold hashTerm around2
  rw [modifier_six]
  simp only [V2.normSq, mul_zero, add_zero]
  rw [roundHalfEven_eq_of_abs_lt h]
  have : (n : ℝ) / 100 * 100 = n := by field_simp
  rw [this, roundHalfEven_intCast]

/-- C61, false in general: equal grids can have different hashes. -/
theorem C61_hash_differs (knn : Knn ℝ) :
    ∃ a b : Grid ℝ, Proper a ∧ Proper b ∧ gridEq knn a b = .ok true ∧ gridEq knn b a = .ok true ∧
      gridHash a ≠ gridHash b := by
  have pr : ∀ x, Proper (eqAtR x) := fun x => ⟨by simp [eqAtR], rfl⟩
  have ap : ∀ x, Apart (2 / 1000) (eqAtR x) := by
    intro x i j p q hij hp hq
    have hi := (List.getElem?_eq_some_iff.1 hp).1
    have hj := (List.getElem?_eq_some_iff.1 hq).1
    simp [eqAtR] at hi hj
    omega
  have eq : ∀ x y : ℝ, (x - y) ^ 2 ≤ (1 / 1000) ^ 2 → gridEq knn (eqAtR x) (eqAtR y) = .ok true := by
    intro x y h
    refine C61_complete knn _ _ (pr x) (pr y) (ap x) ⟨rfl, ?_⟩
    intro j hj
    have : j = 0 := by simpa [eqAtR] using hj
    subst this
    exact ⟨0, ⟨x, 0⟩, ⟨y, 0⟩, 6, rfl, rfl, rfl, rfl, by simpa using h⟩
  refine ⟨eqAtR 10, eqAtR (10 + 1 / 1000), pr _, pr _, eq _ _ (by norm_num), eq _ _ (by norm_num), ?_⟩
  rw [hash_at 10 13332 (by norm_num), hash_at (10 + 1 / 1000) 13335 (by norm_num [abs_lt])]
  norm_num

end PD.Props
