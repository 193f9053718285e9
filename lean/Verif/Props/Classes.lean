/- Property C53: propagation of sub-lattice classes. -/
import Verif.Model.Classes
import Verif.Props.DataPoints
import Mathlib.Logic.Relation

set_option linter.unusedSectionVars false
set_option linter.unusedSimpArgs false

namespace PD.Props
open PD PD.Spec

/-- `i` has at least three neighbours among the atoms `0, …, n-1`. -/
def IsSeed (n : ℕ) (adj : ℕ → ℕ → Bool) (i : ℕ) : Prop :=
  ∃ a b c, a < b ∧ b < c ∧ c < n ∧ adj i a = true ∧ adj i b = true ∧ adj i c = true

/-- `i` can be reached from `s` along bonds. -/
def Linked (n : ℕ) (adj : ℕ → ℕ → Bool) (s i : ℕ) : Prop :=
  Relation.ReflTransGen (fun a b => b < n ∧ adj b a = true) s i

theorem seed_iff (n : ℕ) (adj : ℕ → ℕ → Bool) (i : ℕ) :
    3 ≤ ((List.range n).filter (adj i)).length ↔ IsSeed n adj i := by
  have hsort : ((List.range n).filter (adj i)).Pairwise (· < ·) :=
    List.pairwise_lt_range.sublist List.filter_sublist
  constructor
  · intro h
    match hl : (List.range n).filter (adj i) with
    | [] => rw [hl] at h; simp at h
    | [_] => rw [hl] at h; simp at h
    | [_, _] => rw [hl] at h; simp at h
    | a :: b :: c :: l =>
      have hm : ∀ x, x ∈ (List.range n).filter (adj i) → x < n ∧ adj i x = true := by
        intro x hx
        rw [List.mem_filter, List.mem_range] at hx
        exact hx
      rw [hl] at hm hsort
      have h1 := (List.pairwise_cons.1 hsort)
      have h2 := (List.pairwise_cons.1 h1.2)
      exact ⟨a, b, c, h1.1 b (by simp), h2.1 c (by simp), (hm c (by simp)).1, (hm a (by simp)).2,
        (hm b (by simp)).2, (hm c (by simp)).2⟩
  · rintro ⟨a, b, c, hab, hbc, hc, h1, h2, h3⟩
    have hsub : [a, b, c] ⊆ (List.range n).filter (adj i) := by
      intro x hx
      simp only [List.mem_cons, List.not_mem_nil, or_false] at hx
      rw [List.mem_filter, List.mem_range]
      rcases hx with rfl | rfl | rfl
      · exact ⟨by omega, h1⟩
      · exact ⟨by omega, h2⟩
      · exact ⟨by omega, h3⟩
    have hnd : [a, b, c].Nodup := by
      simp; omega
    exact (List.subperm_of_subset hnd hsub).length_le

/-- What holds between rounds. -/
structure PropInv (n : ℕ) (adj : ℕ → ℕ → Bool) (classes0 classes : List ℤ) (done : List Bool) : Prop where
  clen : classes.length = n
  dlen : done.length = n
  seeds : ∀ i, i < n → IsSeed n adj i → done.getD i false = true ∧ classes.getD i 0 = classes0.getD i 0
  linked : ∀ i, done.getD i false = true → ∃ s, s < n ∧ IsSeed n adj s ∧ Linked n adj s i
  undone : ∀ i, done.getD i false = false → classes.getD i 0 = classes0.getD i 0
  coloured : ∀ col : ℕ → ℤ, (∀ i, col i = 0 ∨ col i = 1) →
    (∀ i j, i < n → j < n → adj i j = true → col i ≠ col j) →
    (∀ i, i < n → IsSeed n adj i → classes0.getD i 0 = col i) →
    ∀ i, done.getD i false = true → classes.getD i 0 = col i

theorem getD_range_map {α : Type} (n : ℕ) (f : ℕ → α) (d : α) (i : ℕ) :
    ((List.range n).map f).getD i d = if i < n then f i else d := by
  rw [List.getD_eq_getElem?_getD, List.getElem?_map]
  by_cases hi : i < n
  · rw [List.getElem?_range hi, if_pos hi]; rfl
  · rw [List.getElem?_eq_none (by simpa using hi), if_neg hi]; rfl

theorem getD_false {l : List Bool} {i : ℕ} (h : l.getD i false = true) : i < l.length := by
  by_contra hc
  rw [List.getD_eq_getElem?_getD, List.getElem?_eq_none (by omega)] at h
  cases h

theorem frontier_iff (n : ℕ) (adj : ℕ → ℕ → Bool) (done : List Bool) (i : ℕ) :
    inFrontier n adj done i = true ↔
      done.getD i false = false ∧ ∃ j, j < n ∧ adj i j = true ∧ done.getD j false = true := by
  simp [inFrontier, Bool.and_eq_true]

theorem newClass_colour {n : ℕ} {adj : ℕ → ℕ → Bool} {classes : List ℤ} {done : List Bool} {i : ℕ}
    {col : ℕ → ℤ} (h01 : ∀ i, col i = 0 ∨ col i = 1) (hi : i < n)
    (hcol : ∀ i j, i < n → j < n → adj i j = true → col i ≠ col j)
    (hdone : ∀ j, done.getD j false = true → classes.getD j 0 = col j)
    (hf : inFrontier n adj done i = true) : newClass n adj classes done i = col i := by
  obtain ⟨_, j, hj, hadj, hd⟩ := (frontier_iff n adj done i).1 hf
  unfold newClass
  simp only
  set near := (List.range n).filter (fun j => adj i j && done.getD j false) with hnear
  have hall : ∀ k ∈ near, classes.getD k 0 = 1 - col i := by
    intro k hk
    rw [hnear, List.mem_filter, List.mem_range, Bool.and_eq_true] at hk
    rw [hdone k hk.2.2]
    have hne := hcol i k hi hk.1 hk.2.1
    rcases h01 i with h | h <;> rcases h01 k with h' | h' <;> rw [h, h'] at hne <;> rw [h, h'] <;>
      first
        | rfl
        | exact absurd rfl hne
  have hsum : (near.map (fun k => classes.getD k 0)).sum = near.length * (1 - col i) := by
    rw [List.map_congr_left hall]
    simp
  have hpos : 0 < near.length := List.length_pos_iff.2 (List.ne_nil_of_mem (a := j) (by
    rw [hnear, List.mem_filter, List.mem_range, Bool.and_eq_true]
    exact ⟨hj, hadj, hd⟩))
  rw [hsum]
  have : (near.length : ℤ) - near.length * (1 - col i) = col i * near.length := by ring
  rw [this, Int.mul_tdiv_cancel _ (by omega)]

theorem round_inv {n : ℕ} {adj : ℕ → ℕ → Bool} {classes0 classes : List ℤ} {done : List Bool}
    (h : PropInv n adj classes0 classes done) :
    PropInv n adj classes0
      ((List.range n).map (fun i => if inFrontier n adj done i then
          newClass n adj classes done i else classes.getD i 0))
      ((List.range n).map (fun i => done.getD i false || inFrontier n adj done i)) := by
  constructor
  · simp
  · simp
  · intro i hi hs
    obtain ⟨h1, h2⟩ := h.seeds i hi hs
    rw [getD_range_map, getD_range_map, if_pos hi, if_pos hi]
    have : inFrontier n adj done i = false := by
      unfold inFrontier; rw [h1]; rfl
    rw [this, h1]
    exact ⟨rfl, h2⟩
  · intro i hd
    rw [getD_range_map] at hd
    split at hd
    · rename_i hi
      rw [Bool.or_eq_true] at hd
      rcases hd with hd | hd
      · exact h.linked i hd
      · obtain ⟨_, j, hj, hadj, hdj⟩ := (frontier_iff n adj done i).1 hd
        obtain ⟨s, hs, hss, hl⟩ := h.linked j hdj
        exact ⟨s, hs, hss, hl.tail ⟨hi, hadj⟩⟩
    · cases hd
  · intro i hd
    rw [getD_range_map] at hd ⊢
    split
    · rename_i hi
      rw [if_pos hi, Bool.or_eq_false_iff] at hd
      rw [hd.2]
      exact h.undone i hd.1
    · rename_i hi
      have := h.undone i (by
        rw [List.getD_eq_getElem?_getD, List.getElem?_eq_none (by rw [h.dlen]; omega)]; rfl)
      rw [← this, List.getD_eq_getElem?_getD, List.getElem?_eq_none (by rw [h.clen]; omega)]
      rfl
  · intro col h01 hcol hseed i hd
    rw [getD_range_map] at hd ⊢
    split at hd
    · rename_i hi
      rw [if_pos hi]
      split
      · rename_i hf
        exact newClass_colour h01 hi hcol (h.coloured col h01 hcol hseed) hf
      · rename_i hf
        rw [Bool.or_eq_true] at hd
        rcases hd with hd | hd
        · exact h.coloured col h01 hcol hseed i hd
        · exact absurd hd hf
    · cases hd

theorem count_grows {n : ℕ} {adj : ℕ → ℕ → Bool} {done : List Bool} (hlen : done.length = n)
    (hf : (List.range n).any (inFrontier n adj done) = true) :
    done.count true < ((List.range n).map (fun i => done.getD i false || inFrontier n adj done i)).count true := by
  have e : done = (List.range n).map (fun i => done.getD i false) := by
    rw [← hlen]; exact (map_getD_range done false).symm
  conv_lhs => rw [e]
  rw [List.count_eq_countP, List.count_eq_countP, List.countP_map, List.countP_map]
  obtain ⟨k, hk, hkf⟩ := List.any_eq_true.1 hf
  have gen : ∀ (l : List ℕ) (p q : ℕ → Bool), (∀ i ∈ l, p i = true → q i = true) →
      (∃ k ∈ l, p k = false ∧ q k = true) → l.countP p < l.countP q := by
    intro l p q hpq
    induction l with
    | nil => rintro ⟨k, hk, _⟩; cases hk
    | cons a l ih =>
      rintro ⟨k, hk, h1, h2⟩
      rw [List.countP_cons, List.countP_cons]
      rcases List.mem_cons.1 hk with rfl | hk
      · have hle := List.countP_mono_left (l := l) (fun i hi => hpq i (List.mem_cons_of_mem _ hi))
        simp only [h1, h2, Bool.false_eq_true, if_false, if_true]
        omega
      · have := ih (fun i hi => hpq i (List.mem_cons_of_mem _ hi)) ⟨k, hk, h1, h2⟩
        by_cases ha : p a = true
        · simp only [ha, hpq a List.mem_cons_self ha, if_true]; omega
        · simp only [ha, Bool.false_eq_true, if_false]; omega
  apply gen
  · intro i _ hp
    simp only [Function.comp] at hp ⊢
    simp only [beq_iff_eq] at hp ⊢
    rw [hp]
    rfl
  · refine ⟨k, hk, ?_, ?_⟩
    · simp only [Function.comp, ((frontier_iff n adj done k).1 hkf).1]; rfl
    · simp [Function.comp, hkf]

theorem loop_result {n : ℕ} {adj : ℕ → ℕ → Bool} {classes0 : List ℤ} (fuel : ℕ) :
    ∀ (classes : List ℤ) (done : List Bool), PropInv n adj classes0 classes done →
      n < fuel + done.count true →
      ∃ out done', propagateLoop n adj fuel classes done = .ok out ∧ PropInv n adj classes0 out done' ∧
        (List.range n).any (inFrontier n adj done') = false := by
  induction fuel with
  | zero =>
    intro classes done h hf
    have := List.count_le_length (a := true) (l := done)
    rw [h.dlen] at this
    omega
  | succ fuel ih =>
    intro classes done h hf
    rw [propagateLoop]
    split
    · rename_i hfr
      have := count_grows h.dlen hfr
      exact ih _ _ (round_inv h) (by omega)
    · rename_i hfr
      exact ⟨classes, done, rfl, h, by simpa using hfr⟩

theorem start_inv {n : ℕ} {adj : ℕ → ℕ → Bool} {classes : List ℤ} (hlen : classes.length = n) :
    PropInv n adj classes classes
      ((List.range n).map (fun i => decide (3 ≤ ((List.range n).filter (adj i)).length))) := by
  have hd : ∀ i, ((List.range n).map (fun i => decide (3 ≤ ((List.range n).filter (adj i)).length))).getD i
      false = true ↔ i < n ∧ IsSeed n adj i := by
    intro i
    rw [getD_range_map]
    by_cases hi : i < n
    · rw [if_pos hi, decide_eq_true_iff, seed_iff]
      exact ⟨fun h => ⟨hi, h⟩, fun h => h.2⟩
    · rw [if_neg hi]
      refine Iff.intro (fun h => ?_) (fun h => absurd h.1 hi)
      cases h
  refine ⟨hlen, by simp, ?_, ?_, fun _ _ => rfl, ?_⟩
  · intro i hi hs
    exact ⟨(hd i).2 ⟨hi, hs⟩, rfl⟩
  · intro i h
    obtain ⟨hi, hs⟩ := (hd i).1 h
    exact ⟨i, hi, hs, .refl⟩
  · intro col _ _ hseed i h
    obtain ⟨hi, hs⟩ := (hd i).1 h
    exact hseed i hi hs

/-- On every bond graph, with a class for every atom, propagation ends after at most one round more than
there are atoms.  Atoms with three neighbours keep their class, as do the atoms that cannot be reached from
them.  If the classes of the atoms with three neighbours come from a two-colouring, then every atom that can
be reached from them ends up with its colour. -/
theorem C53_two_colouring (n : ℕ) (adj : ℕ → ℕ → Bool) (classes : List ℤ) (hlen : classes.length = n) :
    ∃ out, propagateClasses n adj (n + 1) classes = .ok out ∧ out.length = n ∧
      (∀ i, i < n → IsSeed n adj i → out[i]? = classes[i]?) ∧
      (∀ i, i < n → (¬ ∃ s, s < n ∧ IsSeed n adj s ∧ Linked n adj s i) → out[i]? = classes[i]?) ∧
      ∀ col : ℕ → ℤ, (∀ i, col i = 0 ∨ col i = 1) →
        (∀ i j, i < n → j < n → adj i j = true → col i ≠ col j) →
        (∀ i, i < n → IsSeed n adj i → classes[i]? = some (col i)) →
        ∀ i s, i < n → s < n → IsSeed n adj s → Linked n adj s i → out[i]? = some (col i) := by
  obtain ⟨out, done, h1, h2, h3⟩ := loop_result (n + 1) classes _ (start_inv (adj := adj) hlen) (by omega)
  have hget : ∀ i, i < n → out[i]? = some (out.getD i 0) ∧ classes[i]? = some (classes.getD i 0) := by
    intro i hi
    constructor
    · rw [List.getD_eq_getElem?_getD, List.getElem?_eq_getElem (by rw [h2.clen]; exact hi)]; rfl
    · rw [List.getD_eq_getElem?_getD, List.getElem?_eq_getElem (by rw [hlen]; exact hi)]; rfl
  have hclosed : ∀ s i, s < n → IsSeed n adj s → Linked n adj s i → done.getD i false = true := by
    intro s i hs hss hl
    induction hl with
    | refl => exact (h2.seeds s hs hss).1
    | @tail b c _ hbc ih =>
      by_contra hc
      have hff : inFrontier n adj done c = true := by
        rw [frontier_iff]
        refine ⟨by simpa using hc, b, ?_, hbc.2, ih⟩
        have := getD_false ih
        rw [h2.dlen] at this
        exact this
      rw [List.any_eq_false] at h3
      exact h3 c (List.mem_range.2 hbc.1) hff
  refine ⟨out, ?_, h2.clen, ?_, ?_, ?_⟩
  · unfold propagateClasses
    rw [if_neg (by simpa using hlen)]
    exact h1
  · intro i hi hs
    rw [(hget i hi).1, (hget i hi).2, (h2.seeds i hi hs).2]
  · intro i hi hno
    rw [(hget i hi).1, (hget i hi).2]
    congr 1
    apply h2.undone
    by_contra hc
    exact hno (h2.linked i (by simpa using hc))
  · intro col h01 hcol hseed i s hi hs hss hl
    rw [(hget i hi).1]
    congr 1
    refine h2.coloured col h01 hcol ?_ i (hclosed s i hs hss hl)
    intro k hk hks
    have := hseed k hk hks
    rw [(hget k hk).2, Option.some.injEq] at this
    exact this

/-- The same for a grid of atoms, where two atoms are bonded if they are closer than 1.1 times the mean
distance to the three nearest atoms. -/
theorem C53_grid (classes : List ℤ) (grid : List (V2 ℝ)) (hlen : classes.length = grid.length) :
    ∃ out, propagateGrapheneClasses classes grid = .ok out ∧ out.length = grid.length ∧
      (∀ i, i < grid.length → IsSeed grid.length (bonded grid) i → out[i]? = classes[i]?) ∧
      ∀ col : ℕ → ℤ, (∀ i, col i = 0 ∨ col i = 1) →
        (∀ i j, i < grid.length → j < grid.length → bonded grid i j = true → col i ≠ col j) →
        (∀ i, i < grid.length → IsSeed grid.length (bonded grid) i → classes[i]? = some (col i)) →
        ∀ i s, i < grid.length → s < grid.length → IsSeed grid.length (bonded grid) s →
          Linked grid.length (bonded grid) s i → out[i]? = some (col i) := by
  obtain ⟨out, h1, h2, h3, _, h5⟩ := C53_two_colouring grid.length (bonded grid) classes hlen
  exact ⟨out, h1, h2, h3, h5⟩

/-- A star with a tail: the centre keeps its class, the rest is coloured along the bonds, and an isolated
atom keeps what it had. -/
example : propagateClasses 6 (fun i j => decide ((i, j) ∈ [(0, 1), (0, 2), (0, 3), (1, 0), (2, 0), (3, 0),
    (3, 4), (4, 3)])) 7 [1, 1, 1, 0, 0, 1] = .ok [1, 0, 0, 0, 1, 1] := by decide +kernel

example : IsSeed 6 (fun i j => decide ((i, j) ∈ [(0, 1), (0, 2), (0, 3), (1, 0), (2, 0), (3, 0),
    (3, 4), (4, 3)])) 0 ∧ Linked 6 (fun i j => decide ((i, j) ∈ [(0, 1), (0, 2), (0, 3), (1, 0), (2, 0),
    (3, 0), (3, 4), (4, 3)])) 0 4 :=
  ⟨⟨1, 2, 3, by decide, by decide, by decide, rfl, rfl, rfl⟩,
    (Relation.ReflTransGen.refl.tail (b := 0) (c := 3) ⟨by decide, rfl⟩).tail ⟨by decide, rfl⟩⟩

end PD.Props
