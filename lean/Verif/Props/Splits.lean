/- Properties C44 and C45: splits and batches. -/
import Verif.Spec.Splits
import Verif.Props.DataPoints

set_option linter.unusedSectionVars false
set_option linter.unusedSimpArgs false

namespace PD.Props
open PD PD.Spec
variable {α : Type} {K : Type} [Field K] [LinearOrder K] [IsStrictOrderedRing K] [FloorRing K]

theorem take_ok {d : DataDict α} {idx : List ℕ} (h : ∀ kv ∈ d, ∀ i ∈ idx, i < kv.2.length) :
    ∃ d', d.take idx = .ok d' ∧ RowsOf d idx d' := by
  induction d with
  | nil => exact ⟨[], rfl, .nil, by simp⟩
  | cons kv d ih =>
    obtain ⟨k, a⟩ := kv
    obtain ⟨d', h1, h2, h3⟩ := ih (fun kv hkv => h kv (List.mem_cons_of_mem _ hkv))
    obtain ⟨a', ha⟩ := takeRows_inRange (h (k, a) (by simp))
    refine ⟨(k, a') :: d', by simp [DataDict.take, ha, h1], .cons ⟨rfl, ?_⟩ h2, h⟩
    exact (takeRows_map ha).symm

theorem rows_of_rectangular {d : DataDict α} {n : ℕ} (h : Rectangular d n) : d.rows = .ok n := by
  obtain ⟨h1, h2⟩ := h
  match d, h1 with
  | (k, a) :: d, _ => simp only [DataDict.rows]; rw [h2 (k, a) (by simp)]

/-! ### C44 -/

theorem sliceBound_le (n : ℕ) (k : ℤ) : sliceBound n k ≤ n := by
  unfold sliceBound; split <;> omega

/-- Splitting `n` rows: the arrays of the training and of the test data consist of the same rows in
every array, every row goes to exactly one of the two, and for a fraction between 0 and 1 the test data
get the whole part of `n * fraction` rows.  With a fraction of one or more the test data get all rows; with a negative
one that is worth at least a row, the training data get the whole part of `n * (-fraction)` rows, as far as there are so
many. -/
theorem C44_split (draw : ℕ → List ℕ) (hdraw : ∀ n, (draw n).Perm (List.range n)) (fraction : K)
    (data : DataDict α) (n : ℕ) (hn : Rectangular data n) :
    ∃ train test trainIdx testIdx, splitDataset draw fraction data = .ok (train, test) ∧
      RowsOf data trainIdx train ∧ RowsOf data testIdx test ∧
      (trainIdx ++ testIdx).Perm (List.range n) ∧ (∀ i ∈ trainIdx, i ∉ testIdx) ∧
      (0 ≤ fraction → fraction ≤ 1 → (testIdx.length : ℤ) = ⌊n * fraction⌋) ∧
      (1 ≤ fraction → testIdx.length = n) ∧
      ((1 : K) ≤ n * (-fraction) → (trainIdx.length : ℤ) = min (n : ℤ) ⌊n * (-fraction)⌋) := by
  have hp := hdraw n
  have hl : (draw n).length = n := by simpa using hp.length_eq
  have hlt : ∀ i ∈ draw n, i < n := fun i hi => List.mem_range.1 (hp.mem_iff.1 hi)
  set cut := sliceBound n (pyInt (n * fraction)) with hcut
  have hc := sliceBound_le n (pyInt (n * fraction))
  obtain ⟨train, ht, htr⟩ := take_ok (d := data) (idx := (draw n).drop cut)
    (fun kv hkv i hi => by rw [hn.2 kv hkv]; exact hlt i (List.mem_of_mem_drop hi))
  obtain ⟨test, hs, hsr⟩ := take_ok (d := data) (idx := (draw n).take cut)
    (fun kv hkv i hi => by rw [hn.2 kv hkv]; exact hlt i (List.mem_of_mem_take hi))
  refine ⟨train, test, (draw n).drop cut, (draw n).take cut, ?_, htr, hsr, ?_, ?_, ?_, ?_, ?_⟩
  · unfold splitDataset
    rw [rows_of_rectangular hn]
    simp only [← hcut, ht, hs]
  · refine List.perm_append_comm.trans ?_
    rw [List.take_append_drop]
    exact hp
  · intro i hi hi'
    have hnd : (draw n).Nodup := hp.nodup_iff.2 List.nodup_range
    rw [← List.take_append_drop cut (draw n)] at hnd
    exact (List.nodup_append.1 hnd).2.2 i hi' i hi rfl
  · intro h0 h1
    have hx : (0 : K) ≤ n * fraction := mul_nonneg (Nat.cast_nonneg n) h0
    have hf : 0 ≤ ⌊(n : K) * fraction⌋ := Int.floor_nonneg.2 hx
    have hfn : ⌊(n : K) * fraction⌋ ≤ n := by
      have h2 : (n : K) * fraction ≤ n := by
        calc (n : K) * fraction ≤ n * 1 := mul_le_mul_of_nonneg_left h1 (Nat.cast_nonneg n)
          _ = n := mul_one _
      have := Int.floor_le_floor h2
      rwa [Int.floor_natCast] at this
    have hcv : cut = ⌊(n : K) * fraction⌋.toNat := by
      rw [hcut, sliceBound, pyInt, if_pos hx, if_neg (by omega)]
      omega
    rw [List.length_take, hl, hcv]
    omega
  · intro h1
    have h2 : (n : K) ≤ n * fraction := by
      calc (n : K) = n * 1 := (mul_one _).symm
        _ ≤ n * fraction := mul_le_mul_of_nonneg_left h1 (Nat.cast_nonneg n)
    have hfn : (n : ℤ) ≤ ⌊(n : K) * fraction⌋ := by
      have := Int.floor_le_floor h2
      rwa [Int.floor_natCast] at this
    have hcv : cut = n := by
      rw [hcut, sliceBound, pyInt, if_pos (le_trans (Nat.cast_nonneg n) h2), if_neg (by omega)]
      omega
    rw [List.length_take, hl, hcv, min_self]
  · intro h1
    have hneg : ¬ (0 : K) ≤ n * fraction := by
      have : (n : K) * (-fraction) = -(n * fraction) := by ring
      rw [this] at h1
      intro h
      linarith
    have hf : 1 ≤ ⌊(n : K) * (-fraction)⌋ := Int.le_floor.2 (by exact_mod_cast h1)
    have hcl : ⌈(n : K) * fraction⌉ = -⌊(n : K) * (-fraction)⌋ := by
      rw [mul_neg, Int.floor_neg, neg_neg]
    have hcv : cut = ((n : ℤ) - ⌊(n : K) * (-fraction)⌋).toNat := by
      rw [hcut, sliceBound, pyInt, if_neg hneg, hcl, if_pos (by omega)]
      congr 1
    rw [List.length_drop, hl, hcv]
    omega

/-- Without arrays there is nothing to count the rows of: both raise `IndexError`. -/
theorem C44_no_arrays (draw : ℕ → List ℕ) (listOfSet : List ℕ → List ℕ) (fraction : K) :
    splitDataset (α := α) draw fraction [] = .error .indexError ∧
    bootstrapDataset (α := α) draw listOfSet [] = .error .indexError := ⟨rfl, rfl⟩

/-- A bootstrap that leaves out at least one row: the training data are the `n` rows drawn, the test
data exactly the rows not drawn, each once; so no row drawn for training is in the test data, and every
row is in one of the two.  (What is missing: a bootstrap that draws every row raises, see below.) -/
theorem C44_bootstrap_partial (draw : ℕ → List ℕ) (listOfSet : List ℕ → List ℕ)
    (hdraw : ∀ n, (draw n).length = n ∧ ∀ i ∈ draw n, i < n)
    (hset : ∀ l, (listOfSet l).Perm l) (data : DataDict α) (n : ℕ) (hn : Rectangular data n)
    (hout : ∃ i, i < n ∧ i ∉ draw n) :
    ∃ train test testIdx, bootstrapDataset draw listOfSet data = .ok (train, test) ∧
      RowsOf data (draw n) train ∧ RowsOf data testIdx test ∧ (draw n).length = n ∧ testIdx.Nodup ∧
      (∀ i, i ∈ testIdx ↔ i < n ∧ i ∉ draw n) ∧
      (∀ i, i < n → i ∈ draw n ∨ i ∈ testIdx) := by
  obtain ⟨hl, hlt⟩ := hdraw n
  set t := listOfSet ((List.range n).filter (fun i => decide (i ∉ draw n))) with ht
  have hp := hset ((List.range n).filter (fun i => decide (i ∉ draw n)))
  rw [← ht] at hp
  have hmem : ∀ i, i ∈ t ↔ i < n ∧ i ∉ draw n := by
    intro i; rw [hp.mem_iff]; simp
  obtain ⟨train, h1, h1r⟩ := take_ok (d := data) (idx := draw n)
    (fun kv hkv i hi => by rw [hn.2 kv hkv]; exact hlt i hi)
  obtain ⟨test, h2, h2r⟩ := take_ok (d := data) (idx := t)
    (fun kv hkv i hi => by rw [hn.2 kv hkv]; exact ((hmem i).1 hi).1)
  refine ⟨train, test, t, ?_, h1r, h2r, hl, ?_, hmem, ?_⟩
  · unfold bootstrapDataset
    rw [rows_of_rectangular hn]
    simp only [h1, ← ht]
    rw [if_neg, h2]
    obtain ⟨i, hi⟩ := hout
    intro hc
    have := (hmem i).2 hi
    rw [hc] at this
    cases this
  · exact hp.nodup_iff.2 (List.nodup_range.filter _)
  · intro i hi
    by_cases h : i ∈ draw n
    · exact Or.inl h
    · exact Or.inr ((hmem i).2 ⟨hi, h⟩)

/-- A bootstrap that happens to draw every row raises; so with a single row it always raises. -/
theorem C44_bootstrap_raises (draw : ℕ → List ℕ) (listOfSet : List ℕ → List ℕ)
    (hdraw : ∀ n, (draw n).length = n ∧ ∀ i ∈ draw n, i < n)
    (hset : ∀ l, (listOfSet l).Perm l) (data : DataDict α) (n : ℕ) (hn : Rectangular data n) :
    ((∀ i, i < n → i ∈ draw n) → bootstrapDataset draw listOfSet data = .error .indexError) ∧
    (n = 1 → bootstrapDataset draw listOfSet data = .error .indexError) := by
  have key : (∀ i, i < n → i ∈ draw n) → bootstrapDataset draw listOfSet data = .error .indexError := by
    intro hall
    obtain ⟨hl, hlt⟩ := hdraw n
    obtain ⟨train, h1, h1r⟩ := take_ok (d := data) (idx := draw n)
      (fun kv hkv i hi => by rw [hn.2 kv hkv]; exact hlt i hi)
    unfold bootstrapDataset
    rw [rows_of_rectangular hn]
    simp only [h1]
    have : (List.range n).filter (fun i => decide (i ∉ draw n)) = [] := by
      rw [List.filter_eq_nil_iff]
      intro i hi
      simpa using hall i (List.mem_range.1 hi)
    have h3 : listOfSet [] = [] := (hset []).eq_nil
    rw [this, h3, if_pos rfl]
  refine ⟨key, fun h1 => key ?_⟩
  subst h1
  obtain ⟨hl, hlt⟩ := hdraw 1
  match hd : draw 1, hl with
  | [j], _ =>
    have := hlt j (by rw [hd]; simp)
    intro i hi
    have : i = j := by omega
    simp [this]

/-! ### C45 -/

theorem mapM_except {β γ : Type} {f : β → Except Err γ} {g : β → γ} {xs : List β}
    (h : ∀ x ∈ xs, f x = .ok (g x)) : xs.mapM f = .ok (xs.map g) := by
  induction xs with
  | nil => rfl
  | cons x xs ih =>
    rw [List.mapM_cons, h x (by simp), ih (fun y hy => h y (List.mem_cons_of_mem _ hy))]
    rfl

theorem flatten_slices (xs : List α) (b k : ℕ) :
    ((List.range k).map (fun i => (xs.drop (i * b)).take b)).flatten = xs.take (k * b) := by
  induction k with
  | zero => simp
  | succ k ih =>
    rw [List.range_succ, List.map_append, List.flatten_append, ih]
    simp only [List.map_cons, List.map_nil, List.flatten_cons, List.flatten_nil, List.append_nil]
    rw [Nat.succ_mul, List.take_add]

/-- An epoch over `n ≥ b > 0` rows runs `n / b` training steps, one after the other; each sees `b` rows
of every array, the same rows in each; and no row is seen twice in the epoch. -/
theorem C45_epoch {S : Type} (shuffle : ℕ → List ℕ) (hs : ∀ n, (shuffle n).Perm (List.range n))
    (step : S → DataDict α → S) (b : ℕ) (hb : 0 < b) (data : DataDict α) (n : ℕ)
    (hn : Rectangular data n) (hbn : b ≤ n) (s : S) :
    ∃ (idxs : List (List ℕ)) (batches : List (DataDict α)),
      trainEpoch shuffle step b data s = .ok (batches.foldl step s) ∧
      List.Forall₂ (RowsOf data) idxs batches ∧
      idxs.length = n / b ∧ (∀ idx ∈ idxs, idx.length = b) ∧
      idxs.flatten.Nodup ∧ (∀ i ∈ idxs.flatten, i < n) := by
  have hp := hs n
  have hl : (shuffle n).length = n := by simpa using hp.length_eq
  have hlt : ∀ i ∈ shuffle n, i < n := fun i hi => List.mem_range.1 (hp.mem_iff.1 hi)
  set idxs := (List.range (n / b)).map (fun i => ((shuffle n).drop (i * b)).take b) with hidx
  have hmul : n / b * b ≤ n := Nat.div_mul_le_self n b
  have hflat : idxs.flatten = (shuffle n).take (n / b * b) := flatten_slices _ _ _
  have hbi : batchIndices (shuffle n) b = .ok idxs := by
    unfold batchIndices
    rw [if_neg (by omega), hl]
    rw [mapM_except (g := fun i => ((shuffle n).drop (i * b)).take b)]
    · rw [← hidx]
      have : idxs ≠ [] := by
        have h1 : 0 < n / b := Nat.div_pos hbn hb
        intro hc
        have := congrArg List.length hc
        rw [hidx, List.length_map, List.length_range] at this
        simp at this
        omega
      match hx : idxs, this with
      | x :: xs, _ => rfl
    · intro i hi
      have hi' := List.mem_range.1 hi
      have h1 : i * b + b ≤ n := by
        calc i * b + b = (i + 1) * b := by ring
          _ ≤ n / b * b := Nat.mul_le_mul_right b hi'
          _ ≤ n := hmul
      unfold dynamicSlice
      rw [if_pos (by omega), hl, Nat.min_eq_left (by omega)]
  have hin : ∀ idx ∈ idxs, ∀ i ∈ idx, i < n := by
    intro idx hidx' i hi
    apply hlt i
    apply List.mem_of_mem_take (i := n / b * b)
    rw [← hflat]
    exact List.mem_flatten.2 ⟨idx, hidx', hi⟩
  have hbatches : ∃ batches, idxs.mapM data.take = .ok batches ∧
      List.Forall₂ (RowsOf data) idxs batches := by
    clear_value idxs
    clear hidx hflat hbi
    induction idxs with
    | nil => exact ⟨[], rfl, .nil⟩
    | cons idx idxs ih =>
      obtain ⟨bs, h1, h2⟩ := ih (fun x hx => hin x (List.mem_cons_of_mem _ hx))
      obtain ⟨d', h3, h4⟩ := take_ok (d := data) (idx := idx)
        (fun kv hkv i hi => by rw [hn.2 kv hkv]; exact hin idx (by simp) i hi)
      refine ⟨d' :: bs, ?_, .cons h4 h2⟩
      rw [List.mapM_cons, h3, h1]; rfl
  obtain ⟨batches, hm, hf⟩ := hbatches
  refine ⟨idxs, batches, ?_, hf, by simp [hidx], ?_, ?_, ?_⟩
  · unfold trainEpoch
    rw [rows_of_rectangular hn]
    simp only [hbi, hm]
  · intro idx hi
    rw [hidx, List.mem_map] at hi
    obtain ⟨i, hi, rfl⟩ := hi
    have hi' := List.mem_range.1 hi
    have h1 : i * b + b ≤ n := by
      calc i * b + b = (i + 1) * b := by ring
        _ ≤ n / b * b := Nat.mul_le_mul_right b hi'
        _ ≤ n := hmul
    rw [List.length_take, List.length_drop, hl]
    omega
  · rw [hflat]
    exact (hp.nodup_iff.2 List.nodup_range).sublist (List.take_sublist _ _)
  · intro i hi
    obtain ⟨idx, h1, h2⟩ := List.mem_flatten.1 hi
    exact hin idx h1 i h2

/-- With fewer rows than the batch size the epoch raises `ValueError` instead of training; a batch size
of zero raises `ZeroDivisionError`. -/
theorem C45_small_data {S : Type} (shuffle : ℕ → List ℕ) (hs : ∀ n, (shuffle n).Perm (List.range n))
    (step : S → DataDict α → S) (b : ℕ) (data : DataDict α) (n : ℕ)
    (hn : Rectangular data n) (s : S) :
    (n < b → trainEpoch shuffle step b data s = .error .valueError) ∧
    (b = 0 → trainEpoch shuffle step b data s = .error .zeroDivision) := by
  have hl : (shuffle n).length = n := by simpa using (hs n).length_eq
  constructor
  · intro h
    unfold trainEpoch batchIndices
    rw [rows_of_rectangular hn]
    simp only
    rw [if_neg (by omega), hl, Nat.div_eq_of_lt h]
    rfl
  · intro h
    unfold trainEpoch batchIndices
    rw [rows_of_rectangular hn]
    simp only
    rw [if_pos h]

/-- Two arrays of five rows: split in half by a reversing draw, bootstrapped by a constant draw, and
trained on in batches of two. -/
def splitExample : DataDict ℕ := [("x", [10, 11, 12, 13, 14]), ("y", [20, 21, 22, 23, 24])]

example : Rectangular splitExample 5 := ⟨by simp [splitExample], by simp [splitExample]⟩
example : splitDataset (fun n => (List.range n).reverse) (1 / 2 : ℚ) splitExample =
    .ok ([("x", [12, 11, 10]), ("y", [22, 21, 20])], [("x", [14, 13]), ("y", [24, 23])]) := by
  decide +kernel
example : bootstrapDataset (fun n => List.replicate n 0) id splitExample =
    .ok ([("x", [10, 10, 10, 10, 10]), ("y", [20, 20, 20, 20, 20])],
      [("x", [11, 12, 13, 14]), ("y", [21, 22, 23, 24])]) := by decide +kernel
example : trainEpoch (fun n => List.range n) (fun (s : List (DataDict ℕ)) b => s ++ [b]) 2 splitExample [] =
    .ok [[("x", [10, 11]), ("y", [20, 21])], [("x", [12, 13]), ("y", [22, 23])]] := by decide +kernel

end PD.Props
