/- C141: sheets of graphene generated with floating point numbers. -/
import Verif.Model.FloatSheet
import Verif.Props.FloatGoals
import Mathlib.NumberTheory.Real.Irrational

set_option linter.unusedSectionVars false
set_option linter.unusedSimpArgs false

namespace PD.Props
open PD PD.Spec

theorem f64_err_big {x : ℝ} (hx : |x| ≤ 65536) : |f64 x - x| ≤ 1 / 10 ^ 10 := by
  have h := abs_f64_sub_le x
  have h5 : |x| * (2 : ℝ) ^ (-53 : ℤ) ≤ 65536 * 2 ^ (-53 : ℤ) := mul_le_mul_of_nonneg_right hx (by positivity)
  have hθ : (2 : ℝ) ^ (-1075 : ℤ) ≤ 2 ^ (-70 : ℤ) := zpow_le_zpow_right₀ (by norm_num) (by norm_num)
  refine h.trans ((add_le_add h5 hθ).trans ?_)
  norm_num

theorem f64_err_small {x : ℝ} (hx : |x| ≤ 2) : |f64 x - x| ≤ 1 / 10 ^ 15 := by
  have h := abs_f64_sub_le x
  have h5 : |x| * (2 : ℝ) ^ (-53 : ℤ) ≤ 2 * 2 ^ (-53 : ℤ) := mul_le_mul_of_nonneg_right hx (by positivity)
  have hθ : (2 : ℝ) ^ (-1075 : ℤ) ≤ 2 ^ (-70 : ℤ) := zpow_le_zpow_right₀ (by norm_num) (by norm_num)
  refine h.trans ((add_le_add h5 hθ).trans ?_)
  norm_num

theorem floatRatio_err : |floatRatio - hexRatio| ≤ 2 / 10 ^ 15 := by
  have h3 : Real.sqrt 3 ≤ 2 := by rw [Real.sqrt_le_left (by norm_num)]; norm_num
  have h0 := Real.sqrt_nonneg 3
  have e1 := f64_err_small (x := Real.sqrt 3) (by rw [abs_of_nonneg h0]; exact h3)
  have e2 := f64_err_small (x := f64 (Real.sqrt 3) / 2) (by
    rw [abs_le] at e1 ⊢
    constructor <;> linarith [e1.1, e1.2])
  unfold floatRatio hexRatio
  rw [abs_le] at e1 e2 ⊢
  constructor <;> linarith [e1.1, e1.2, e2.1, e2.2]

theorem hexRatio_lo : 866 / 1000 ≤ hexRatio := by
  have := hexRatio_sq
  have := hexRatio_pos
  nlinarith

/-- No number of columns is nearly a multiple of the ratio. -/
theorem rows_gap {c : ℕ} (hc : 0 < c) (hc' : c ≤ 4096) (k : ℕ) : 1 / 10 ^ 6 ≤ |(c : ℝ) / hexRatio - k| := by
  have hr := hexRatio_pos
  have hsq := hexRatio_sq
  have hlo := hexRatio_lo
  obtain ⟨q, hq⟩ : ∃ q, q = (c : ℝ) / hexRatio := ⟨_, rfl⟩
  rw [← hq]
  have hc0 : (0 : ℝ) < c := by exact_mod_cast hc
  have hc1 : (c : ℝ) ≤ 4096 := by exact_mod_cast hc'
  have hqc : q * hexRatio = c := by rw [hq]; field_simp
  have hq0 : 0 < q := by rw [hq]; positivity
  have hq1 : q ≤ 4800 := by
    by_contra hcon
    push Not at hcon
    nlinarith
  have hq2 : 3 * q ^ 2 = 4 * (c : ℝ) ^ 2 := by
    rw [← hqc]
    linear_combination (-4 * q ^ 2) * hsq
  have hk0 : (0 : ℝ) ≤ k := Nat.cast_nonneg k
  have hne : 4 * (c : ℤ) ^ 2 - 3 * (k : ℤ) ^ 2 ≠ 0 := by
    intro h
    have h3 : (3 : ℤ) ∣ (2 * c) ^ 2 := ⟨(k : ℤ) ^ 2, by linarith⟩
    have hirr := Nat.Prime.irrational_sqrt Nat.prime_three
    have hkpos : (0 : ℝ) < k := by
      rcases Nat.eq_zero_or_pos k with rfl | hk
      · exfalso
        have : (c : ℤ) = 0 := by
          have : (c : ℤ) ^ 2 = 0 := by push_cast at h; linarith
          exact pow_eq_zero_iff (two_ne_zero) |>.1 this
        omega
      · exact_mod_cast hk
    apply hirr
    refine ⟨(2 * c : ℚ) / k, ?_⟩
    symm
    rw [show ((3 : ℕ) : ℝ) = 3 by norm_num, Real.sqrt_eq_iff_mul_self_eq (by norm_num) (by push_cast; positivity)]
    have h' : 4 * (c : ℝ) ^ 2 - 3 * (k : ℝ) ^ 2 = 0 := by exact_mod_cast h
    push_cast
    field_simp
    linarith
  have habs : 1 ≤ |4 * (c : ℝ) ^ 2 - 3 * (k : ℝ) ^ 2| := by
    have := Int.one_le_abs hne
    exact_mod_cast this
  have hfac : 4 * (c : ℝ) ^ 2 - 3 * (k : ℝ) ^ 2 = 3 * ((q - k) * (q + k)) := by rw [← hq2]; ring
  rw [hfac, abs_mul, abs_mul, abs_of_pos (show (0 : ℝ) < 3 by norm_num), abs_of_nonneg (show 0 ≤ q + k by linarith)] at habs
  by_contra hcon
  push Not at hcon
  have hk1 : (k : ℝ) ≤ 4801 := by
    have := (abs_lt.1 hcon).1
    norm_num at this
    linarith
  have := mul_lt_mul_of_pos_right hcon (show 0 < q + k by linarith)
  nlinarith

theorem floatRows_eq {c : ℕ} (hc : c ≤ 4096) : floatRows c = hexRows c := by
  rcases Nat.eq_zero_or_pos c with rfl | hpos
  · simp [floatRows, hexRows, f64_zero]
  have hr := hexRatio_pos
  have hlo := hexRatio_lo
  have he := abs_le.1 floatRatio_err
  have hc1 : (c : ℝ) ≤ 4096 := by exact_mod_cast hc
  have hc0 : (0 : ℝ) < c := by exact_mod_cast hpos
  have hfr : 86 / 100 ≤ floatRatio := by norm_num at he; linarith [he.1]
  have hd : |(c : ℝ) / floatRatio - c / hexRatio| ≤ 1 / 10 ^ 10 := by
    have e : (c : ℝ) / floatRatio - c / hexRatio = c * (hexRatio - floatRatio) / (floatRatio * hexRatio) := by
      field_simp
    have hp : (7 / 10 : ℝ) ≤ floatRatio * hexRatio := by nlinarith
    rw [e, abs_div, abs_of_pos (show 0 < floatRatio * hexRatio by linarith), div_le_iff₀ (by linarith), abs_mul,
      abs_of_pos hc0, abs_sub_comm]
    have := mul_le_mul hc1 floatRatio_err (abs_nonneg _) (by norm_num)
    norm_num at this ⊢
    linarith
  have hq : (c : ℝ) / hexRatio ≤ 4800 := by
    rw [div_le_iff₀ hr]
    nlinarith
  have hq0 : 0 ≤ (c : ℝ) / hexRatio := by positivity
  have e2 := f64_err_big (x := (c : ℝ) / floatRatio) (by
    rw [abs_le] at hd ⊢
    norm_num at hd ⊢
    constructor <;> linarith [hd.1, hd.2])
  have ht : |f64 ((c : ℝ) / floatRatio) - c / hexRatio| ≤ 2 / 10 ^ 10 := by
    rw [abs_le] at hd e2 ⊢
    constructor <;> linarith [hd.1, hd.2, e2.1, e2.2]
  unfold floatRows hexRows
  obtain ⟨x, hx⟩ : ∃ x, x = f64 ((c : ℝ) / floatRatio) := ⟨_, rfl⟩
  obtain ⟨y, hy⟩ : ∃ y, y = (c : ℝ) / hexRatio := ⟨_, rfl⟩
  have hgap := rows_gap hpos hc
  rw [← hy] at hgap ht hq0
  rw [← hx] at ht
  rw [← hx, ← hy]
  have g1 := hgap ⌊y⌋₊
  have g2 := hgap (⌊y⌋₊ + 1)
  have f1 := Nat.floor_le hq0
  have f2 := Nat.lt_floor_add_one y
  rw [abs_of_nonneg (by linarith)] at g1
  push_cast at g2
  rw [abs_of_nonpos (by linarith)] at g2
  rw [abs_le] at ht
  norm_num at g1 g2 ht
  have hx0 : 0 ≤ x := by
    have : (0 : ℝ) ≤ (⌊y⌋₊ : ℝ) := Nat.cast_nonneg _
    linarith
  rw [Nat.floor_eq_iff hx0]
  constructor <;> linarith

theorem mul_err {a a' b b' A B α β : ℝ} (ha : |a' - a| ≤ α) (hb : |b' - b| ≤ β) (hA : |a'| ≤ A) (hB : |b| ≤ B) :
    |a' * b' - a * b| ≤ A * β + α * B := by
  have e : a' * b' - a * b = a' * (b' - b) + (a' - a) * b := by ring
  rw [e]
  refine (abs_add_le _ _).trans ?_
  rw [abs_mul, abs_mul]
  exact add_le_add (mul_le_mul hA hb (abs_nonneg _) ((abs_nonneg _).trans hA))
    (mul_le_mul ha hB (abs_nonneg _) ((abs_nonneg _).trans ha))

/-- The rows and columns of the points that stay. -/
noncomputable def hexPlaces (n : ℕ) : List (ℕ × ℕ) :=
  (List.range (hexRows n)).flatMap (fun row =>
    ((List.range n).filter (fun col => !hexRemoved row col)).map (fun col => (row, col)))

theorem hexagonalGrid_places (n : ℕ) : hexagonalGrid n = (hexPlaces n).map (fun i => hexPoint i.1 i.2) := by
  simp only [hexagonalGrid, hexPlaces, List.map_flatMap, List.map_map]
  rfl

theorem floatHexagonalGrid_places {n : ℕ} (hn : n ≤ 4096) :
    floatHexagonalGrid n = (hexPlaces n).map (fun i => floatHexPoint i.1 i.2) := by
  simp only [floatHexagonalGrid, hexPlaces, List.map_flatMap, List.map_map, floatRows_eq hn]
  rfl

theorem hexRows_small {n : ℕ} (hn : n ≤ 4096) : hexRows n ≤ 4800 := by
  have h := hexRows_le n
  have hlo := hexRatio_lo
  have hn' : (n : ℝ) ≤ 4096 := by exact_mod_cast hn
  have : (hexRows n : ℝ) ≤ 4800 := by
    by_contra hcon
    push Not at hcon
    nlinarith
  exact_mod_cast this

theorem mem_hexPlaces {n : ℕ} {i : ℕ × ℕ} (h : i ∈ hexPlaces n) : i.1 < hexRows n ∧ i.2 < n := by
  simp only [hexPlaces, List.mem_flatMap, List.mem_map, List.mem_filter, List.mem_range] at h
  obtain ⟨r, hr, c, ⟨hc, _⟩, rfl⟩ := h
  exact ⟨hr, hc⟩

theorem hexPlaces_length {n : ℕ} (hn : n ≤ 4096) : (hexPlaces n).length ≤ 2 ^ 25 := by
  have hgen : ∀ (l : List ℕ), (l.flatMap (fun row => ((List.range n).filter (fun col => !hexRemoved row col)).map
      (fun col => (row, col)))).length ≤ l.length * n := by
    intro l
    induction l with
    | nil => simp
    | cons r l ih =>
      rw [List.flatMap_cons, List.length_append, List.length_map, List.length_cons, Nat.succ_mul]
      have : ((List.range n).filter (fun col => !hexRemoved r col)).length ≤ n :=
        (List.length_filter_le _ _).trans (by rw [List.length_range])
      omega
  refine (hgen _).trans ?_
  rw [List.length_range]
  calc hexRows n * n ≤ 4800 * 4096 := Nat.mul_le_mul (hexRows_small hn) hn
    _ ≤ 2 ^ 25 := by norm_num

theorem sum_err {ι : Type} {f f' : ι → ℝ} {δ : ℝ} : ∀ {l : List ι}, (∀ i ∈ l, |f' i - f i| ≤ δ) →
    |(l.map f').sum - (l.map f).sum| ≤ l.length * δ
  | [], _ => by simp
  | i :: l, h => by
    have ih := sum_err (l := l) (fun j hj => h j (List.mem_cons_of_mem _ hj))
    have hi := h i (List.mem_cons_self ..)
    rw [List.map_cons, List.map_cons, List.sum_cons, List.sum_cons, List.length_cons]
    push_cast
    rw [abs_le] at ih hi ⊢
    constructor <;> linarith [ih.1, ih.2, hi.1, hi.2]

theorem sum_abs_le {ι : Type} {f : ι → ℝ} {M : ℝ} {l : List ι} (h : ∀ i ∈ l, |f i| ≤ M) :
    |(l.map f).sum| ≤ l.length * M := by
  have := sum_err (f := fun _ => 0) (f' := f) (l := l) (δ := M) (by simpa using h)
  simpa using this

theorem centre_err (S : Summation) {ι : Type} {l : List ι} {f f' : ι → ℝ} {o : ℝ} (hl : l.length ≤ 2 ^ 25)
    (hf : ∀ i ∈ l, |f i| ≤ 8000) (hff : ∀ i ∈ l, |f' i - f i| ≤ 1 / 10 ^ 9) (ho : |o| ≤ 1) {i : ι} (hi : i ∈ l) :
    |floatCentre S (l.map f') o (f' i) - (f i - (l.map f).sum / l.length + o)| ≤ 2 / 10 ^ 4 ∧
      |f i - (l.map f).sum / l.length + o| ≤ 16001 := by
  have hN0 : 0 < l.length := List.length_pos_of_mem hi
  obtain ⟨N, hN⟩ : ∃ N : ℝ, N = l.length := ⟨_, rfl⟩
  have hNpos : 0 < N := by rw [hN]; exact_mod_cast hN0
  have hN1 : N ≤ 2 ^ 25 := by rw [hN]; exact_mod_cast hl
  have hf' : ∀ i ∈ l, |f' i| ≤ 8192 := by
    intro j hj
    have h1 := hf j hj
    have h2 := hff j hj
    rw [abs_le] at h1 h2 ⊢
    norm_num at h2
    constructor <;> linarith [h1.1, h1.2, h2.1, h2.2]
  have h1 := S.err (l.map f') (by rw [List.length_map]; exact hl.trans (by norm_num))
  have habs : ((l.map f').map (fun x => |x|)).sum ≤ N * 8192 := by
    rw [List.map_map]
    have := sum_abs_le (f := (fun x => |x|) ∘ f') (l := l) (M := 8192) (by
      intro j hj
      simpa using hf' j hj)
    rw [hN]
    exact (le_abs_self _).trans this
  have h2 := sum_err hff
  have h3 := sum_abs_le hf
  rw [List.length_map, ← hN] at h1
  rw [← hN] at h2 h3 ⊢
  have h1' : |S.sum (l.map f') - (l.map f').sum| ≤ N * (7 / 10 ^ 5) := by
    refine h1.trans ?_
    have e1 : (2 : ℝ) ^ (-1000 : ℤ) ≤ 2 ^ (-70 : ℤ) := zpow_le_zpow_right₀ (by norm_num) (by norm_num)
    have a1 : N * (2 : ℝ) ^ (-52 : ℤ) * ((l.map f').map (fun x => |x|)).sum ≤ N * 2 ^ (-52 : ℤ) * (2 ^ 25 * 8192) := by
      refine mul_le_mul_of_nonneg_left (habs.trans ?_) (by positivity)
      exact mul_le_mul_of_nonneg_right hN1 (by norm_num)
    have a2 : N * (2 : ℝ) ^ (-1000 : ℤ) ≤ N * 2 ^ (-70 : ℤ) := mul_le_mul_of_nonneg_left e1 hNpos.le
    refine (add_le_add a1 a2).trans ?_
    rw [mul_assoc, ← mul_add]
    refine mul_le_mul_of_nonneg_left ?_ hNpos.le
    norm_num
  have hm : |S.sum (l.map f') / N - (l.map f).sum / N| ≤ 8 / 10 ^ 5 := by
    rw [← sub_div, abs_div, abs_of_pos hNpos, div_le_iff₀ hNpos]
    rw [abs_le] at h1' h2 ⊢
    norm_num at h1' h2 ⊢
    constructor <;> linarith [h1'.1, h1'.2, h2.1, h2.2]
  have hm0 : |(l.map f).sum / N| ≤ 8000 := by
    rw [abs_div, abs_of_pos hNpos, div_le_iff₀ hNpos]
    linarith
  have hfi := hf i hi
  have hffi := hff i hi
  have hlen : ((l.map f').length : ℝ) = N := by rw [List.length_map, hN]
  unfold floatCentre
  rw [hlen]
  generalize S.sum (l.map f') / N = m' at *
  generalize (l.map f).sum / N = m at *
  have e1 := f64_err_big (x := m') (by
    rw [abs_le] at hm hm0 ⊢
    norm_num at hm ⊢
    constructor <;> linarith [hm.1, hm.2, hm0.1, hm0.2])
  have e2 := f64_err_big (x := f' i - f64 m') (by
    rw [abs_le] at hm hm0 hfi hffi e1 ⊢
    norm_num at hm hffi e1 ⊢
    constructor <;> linarith [hm.1, hm.2, hm0.1, hm0.2, hfi.1, hfi.2, hffi.1, hffi.2, e1.1, e1.2])
  have e3 := f64_err_big (x := f64 (f' i - f64 m') + o) (by
    rw [abs_le] at hm hm0 hfi hffi e1 e2 ho ⊢
    norm_num at hm hffi e1 e2 ⊢
    constructor <;> linarith [hm.1, hm.2, hm0.1, hm0.2, hfi.1, hfi.2, hffi.1, hffi.2, e1.1, e1.2, e2.1, e2.2, ho.1, ho.2])
  rw [abs_le] at hm hm0 hfi hffi e1 e2 e3 ho
  norm_num at hm hffi e1 e2 e3
  constructor
  · rw [abs_le]
    norm_num
    constructor <;> linarith [hm.1, hm.2, hffi.1, hffi.2, e1.1, e1.2, e2.1, e2.2, e3.1, e3.2]
  · rw [abs_le]
    constructor <;> linarith [hm0.1, hm0.2, hfi.1, hfi.2, ho.1, ho.2]

/-- An entry of the product with a matrix of sines and cosines. -/
theorem pair_err (k : DotKind) {a a' b b' c c' d d' : ℝ} (ha : |a' - a| ≤ 2 / 10 ^ 4) (hA : |a| ≤ 16001)
    (hc : |c' - c| ≤ 2 / 10 ^ 4) (hC : |c| ≤ 16001) (hb : |b' - b| ≤ 1 / 10 ^ 15) (hB : |b| ≤ 1)
    (hd : |d' - d| ≤ 1 / 10 ^ 15) (hD : |d| ≤ 1) :
    |floatPair k a' b' c' d' - (a * b + c * d)| ≤ 5 / 10 ^ 4 := by
  have big : ∀ {x x' : ℝ}, |x' - x| ≤ 2 / 10 ^ 4 → |x| ≤ 16001 → |x'| ≤ 16002 := by
    intro x x' h1 h2
    rw [abs_le] at h1 h2 ⊢
    norm_num at h1
    constructor <;> linarith [h1.1, h1.2, h2.1, h2.2]
  have m1 := mul_err ha hb (big ha hA) hB
  have m2 := mul_err hc hd (big hc hC) hD
  have M1 : |a * b| ≤ 16001 := by
    rw [abs_mul]
    calc |a| * |b| ≤ 16001 * 1 := mul_le_mul hA hB (abs_nonneg _) (by norm_num)
      _ = 16001 := mul_one _
  have M2 : |c * d| ≤ 16001 := by
    rw [abs_mul]
    calc |c| * |d| ≤ 16001 * 1 := mul_le_mul hC hD (abs_nonneg _) (by norm_num)
      _ = 16001 := mul_one _
  generalize a * b = P at *
  generalize c * d = Q at *
  rw [abs_le] at m1 m2 M1 M2
  norm_num at m1 m2
  have e1 := f64_err_big (x := a' * b') (by rw [abs_le]; constructor <;> linarith [m1.1, m1.2, M1.1, M1.2])
  have e2 := f64_err_big (x := c' * d') (by rw [abs_le]; constructor <;> linarith [m2.1, m2.2, M2.1, M2.2])
  rw [abs_le] at e1 e2
  norm_num at e1 e2
  cases k <;> simp only [floatPair]
  · have e3 := f64_err_big (x := f64 (a' * b') + f64 (c' * d')) (by
      rw [abs_le]; constructor <;> linarith [m1.1, m1.2, M1.1, M1.2, m2.1, m2.2, M2.1, M2.2, e1.1, e1.2, e2.1, e2.2])
    rw [abs_le] at e3 ⊢
    norm_num at e3 ⊢
    constructor <;> linarith [m1.1, m1.2, m2.1, m2.2, e1.1, e1.2, e2.1, e2.2, e3.1, e3.2]
  · have e3 := f64_err_big (x := a' * b' + f64 (c' * d')) (by
      rw [abs_le]; constructor <;> linarith [m1.1, m1.2, M1.1, M1.2, m2.1, m2.2, M2.1, M2.2, e2.1, e2.2])
    rw [abs_le] at e3 ⊢
    norm_num at e3 ⊢
    constructor <;> linarith [m1.1, m1.2, m2.1, m2.2, e2.1, e2.2, e3.1, e3.2]
  · have e3 := f64_err_big (x := f64 (a' * b') + c' * d') (by
      rw [abs_le]; constructor <;> linarith [m1.1, m1.2, M1.1, M1.2, m2.1, m2.2, M2.1, M2.2, e1.1, e1.2])
    rw [abs_le] at e3 ⊢
    norm_num at e3 ⊢
    constructor <;> linarith [m1.1, m1.2, m2.1, m2.2, e1.1, e1.2, e3.1, e3.2]

/-- The columns are exact. -/
theorem floatHexPoint_x {row col : ℕ} (hc : col ≤ 4096) : (floatHexPoint row col).x = (hexPoint row col).x := by
  have h1 : f32 (col : ℝ) = col := by
    have := f32_int (K := ℝ) (col : ℤ) (by rw [abs_of_nonneg (by positivity)]; norm_num; omega)
    simpa using this
  have h2 : f32 ((col : ℝ) + 1 / 2) = col + 1 / 2 := by
    have := f32_of_mul (K := ℝ) (2 * col + 1 : ℤ) (-1) (by rw [abs_of_nonneg (by positivity)]; norm_num; omega) (by norm_num)
    have e : ((2 * col + 1 : ℤ) : ℝ) * 2 ^ (-1 : ℤ) = (col : ℝ) + 1 / 2 := by
      push_cast
      rw [zpow_neg_one]
      ring
    rwa [e] at this
  simp only [floatHexPoint, hexPoint, h1, h2]
  split <;> simp

theorem bond_err : |f64 (142 / 100 : ℝ) - BOND| ≤ 1 / 10 ^ 15 := by
  have := f64_err_small (x := (142 / 100 : ℝ)) (by rw [abs_of_nonneg (by norm_num)]; norm_num)
  simpa [BOND] using this

theorem scaled_err {g g' : ℝ} (hg : |g| ≤ 5000) (h : |g' - g| ≤ 2 / 10 ^ 10) :
    |f64 (g' * f64 (142 / 100)) - BOND * g| ≤ 1 / 10 ^ 9 ∧ |BOND * g| ≤ 8000 := by
  have hB : |(BOND : ℝ)| ≤ 142 / 100 := by rw [abs_of_nonneg] <;> norm_num [BOND]
  have hg' : |g'| ≤ 5001 := by
    rw [abs_le] at hg h ⊢
    norm_num at h
    constructor <;> linarith [h.1, h.2, hg.1, hg.2]
  have m := mul_err h bond_err hg' hB
  rw [mul_comm BOND g]
  have M : |g * BOND| ≤ 7100 := by
    rw [abs_mul]
    calc |g| * |BOND| ≤ 5000 * (142 / 100) := mul_le_mul hg hB (abs_nonneg _) (by norm_num)
      _ = 7100 := by norm_num
  generalize g * BOND = P at *
  rw [abs_le] at m M
  norm_num at m
  have e := f64_err_big (x := g' * f64 (142 / 100)) (by rw [abs_le]; constructor <;> linarith [m.1, m.2, M.1, M.2])
  rw [abs_le] at e
  norm_num at e
  constructor
  · rw [abs_le]
    norm_num
    constructor <;> linarith [m.1, m.2, e.1, e.2]
  · rw [abs_le]
    constructor <;> linarith [M.1, M.2]

theorem place_err {n : ℕ} (hn : n ≤ 4096) {i : ℕ × ℕ} (hi : i ∈ hexPlaces n) :
    |(hexPoint i.1 i.2).x| ≤ 5000 ∧ |(hexPoint i.1 i.2).y| ≤ 5000 ∧
      |(floatHexPoint i.1 i.2).x - (hexPoint i.1 i.2).x| ≤ 2 / 10 ^ 10 ∧
      |(floatHexPoint i.1 i.2).y - (hexPoint i.1 i.2).y| ≤ 2 / 10 ^ 10 := by
  obtain ⟨h1, h2⟩ := mem_hexPlaces hi
  have hr : (i.1 : ℝ) ≤ 4800 := by exact_mod_cast (h1.le.trans (hexRows_small hn))
  have hc : (i.2 : ℝ) ≤ 4096 := by exact_mod_cast (h2.le.trans hn)
  have hr0 : (0 : ℝ) ≤ i.1 := Nat.cast_nonneg _
  have hc0 : (0 : ℝ) ≤ i.2 := Nat.cast_nonneg _
  have hrat := hexRatio_pos
  have hrat1 := hexRatio_lt_one
  have hy : |(i.1 : ℝ) * hexRatio| ≤ 5000 := by
    rw [abs_of_nonneg (by positivity)]
    nlinarith
  refine ⟨?_, hy, ?_, ?_⟩
  · simp only [hexPoint]
    split
    · rw [abs_of_nonneg (by positivity)]; linarith
    · rw [abs_of_nonneg (by positivity)]; linarith
  · rw [floatHexPoint_x (h2.le.trans hn), sub_self, abs_zero]
    norm_num
  · have hm : |(i.1 : ℝ) * floatRatio - i.1 * hexRatio| ≤ 1 / 10 ^ 10 := by
      rw [← mul_sub, abs_mul, abs_of_nonneg hr0]
      refine (mul_le_mul hr floatRatio_err (abs_nonneg _) (by norm_num)).trans ?_
      norm_num
    simp only [floatHexPoint, hexPoint]
    generalize (i.1 : ℝ) * hexRatio = P at *
    rw [abs_le] at hm hy
    norm_num at hm
    have e := f64_err_big (x := (i.1 : ℝ) * floatRatio) (by rw [abs_le]; constructor <;> linarith [hm.1, hm.2, hy.1, hy.2])
    rw [abs_le] at e ⊢
    norm_num at e ⊢
    constructor <;> linarith [hm.1, hm.2, e.1, e.2]

theorem trig_err {x y : ℝ} (h : |x - y| ≤ 2 ^ (-50 : ℤ)) : |x - y| ≤ 1 / 10 ^ 15 := h.trans (by norm_num)

/-- The number of rows is computed without error. -/
theorem C141_rows {n : ℕ} (hn : n ≤ 4096) : floatRows n = hexRows n := floatRows_eq hn

/-- The generated sheet is the exact one with every atom within a thousandth of an ångström of its place. -/
theorem C141_sheet (T : FloatTrig) (S : Summation) (k : DotKind) {n : ℕ} (hn : n ≤ 4096) (offset : V2 ℝ)
    (hx : |offset.x| ≤ 1) (hy : |offset.y| ≤ 1) (angle : ℝ) :
    Displaced (1 / 1000) (layOutSheet n offset angle) (floatLayOut T S k n offset angle) := by
  have hlen := hexPlaces_length hn
  unfold Displaced layOutSheet floatLayOut
  simp only [hexagonalGrid_places, floatHexagonalGrid_places hn, List.map_map, meanPoint, List.length_map]
  rw [List.forall₂_map_left_iff, List.forall₂_map_right_iff, List.forall₂_same]
  intro i hi
  have hxs := fun j hj => scaled_err (place_err hn (i := j) hj).1 (place_err hn (i := j) hj).2.2.1
  have hys := fun j hj => scaled_err (place_err hn (i := j) hj).2.1 (place_err hn (i := j) hj).2.2.2
  obtain ⟨cx, bx⟩ := centre_err S hlen (fun j hj => (hxs j hj).2) (fun j hj => (hxs j hj).1) hx hi
  obtain ⟨cy, by'⟩ := centre_err S hlen (fun j hj => (hys j hj).2) (fun j hj => (hys j hj).1) hy hi
  have tc := trig_err (T.cos_err angle)
  have ts := trig_err (T.sin_err angle)
  have ts' : |(-T.sin angle) - (-Real.sin angle)| ≤ 1 / 10 ^ 15 := by
    rw [neg_sub_neg, abs_sub_comm]; exact ts
  have c1 := Real.abs_cos_le_one angle
  have s1 := Real.abs_sin_le_one angle
  have s1' : |-Real.sin angle| ≤ 1 := by rw [abs_neg]; exact s1
  have px := pair_err k cx bx cy by' tc c1 ts s1
  have py := pair_err k cx bx cy by' ts' s1' tc c1
  have hfin : ∀ {a b c d : ℝ}, |c - a| ≤ 5 / 10 ^ 4 → |d - b| ≤ 5 / 10 ^ 4 →
      Spec.dist ⟨a, b⟩ ⟨c, d⟩ ≤ 1 / 1000 := by
    intro a b c d h1 h2
    unfold Spec.dist
    rw [Real.sqrt_le_left (by norm_num)]
    rw [abs_le] at h1 h2
    norm_num at h1 h2 ⊢
    nlinarith
  exact hfin px py

theorem f64_fine {x : ℝ} (hx : 0 ≤ x) :
    x - x / 10 ^ 14 - 1 / 10 ^ 14 ≤ f64 x ∧ f64 x ≤ x + x / 10 ^ 14 + 1 / 10 ^ 14 := by
  have h := abs_f64_sub_le x
  rw [abs_of_nonneg hx] at h
  have h1 : x * (2 : ℝ) ^ (-53 : ℤ) ≤ x * (1 / 10 ^ 14) := mul_le_mul_of_nonneg_left (by norm_num) hx
  have h2 : (2 : ℝ) ^ (-1075 : ℤ) ≤ 1 / 10 ^ 14 :=
    (zpow_le_zpow_right₀ (by norm_num) (show (-1075 : ℤ) ≤ -70 by norm_num)).trans (by norm_num)
  have h3 := h.trans (add_le_add h1 h2)
  rw [abs_le] at h3
  norm_num at h3 ⊢
  constructor <;> linarith [h3.1, h3.2]

theorem floatDot_fine (k : DotKind) (v : V2 ℝ) :
    (1 - 1 / 10 ^ 12) * (v.x ^ 2 + v.y ^ 2) - 1 / 10 ^ 12 ≤ floatDot k v ∧
      floatDot k v ≤ (1 + 1 / 10 ^ 12) * (v.x ^ 2 + v.y ^ 2) + 1 / 10 ^ 12 := by
  have hx : 0 ≤ v.x * v.x := mul_self_nonneg _
  have hy : 0 ≤ v.y * v.y := mul_self_nonneg _
  have fx := f64_fine hx
  have fy := f64_fine hy
  have px := f64_nonneg hx
  have py := f64_nonneg hy
  rw [sq, sq]
  norm_num at fx fy ⊢
  cases k
  · have := f64_fine (add_nonneg px py)
    norm_num at this
    simp only [floatDot]
    constructor <;> linarith [this.1, this.2, fx.1, fx.2, fy.1, fy.2]
  · have := f64_fine (add_nonneg hx py)
    norm_num at this
    simp only [floatDot]
    constructor <;> linarith [this.1, this.2, fx.1, fx.2, fy.1, fy.2]
  · have := f64_fine (add_nonneg px hy)
    norm_num at this
    simp only [floatDot]
    constructor <;> linarith [this.1, this.2, fx.1, fx.2, fy.1, fy.2]

/-- The computed length of a vector is right up to a hundred-thousandth. -/
theorem floatNorm_fine (k : DotKind) (v : V2 ℝ) :
    |floatNorm k v - Spec.dist ⟨0, 0⟩ v| ≤ (Spec.dist ⟨0, 0⟩ v + 1) / 10 ^ 5 := by
  have hD : Spec.dist ⟨0, 0⟩ v = Real.sqrt (v.x ^ 2 + v.y ^ 2) := by
    unfold Spec.dist
    congr 1
    ring
  have hn : 0 ≤ v.x ^ 2 + v.y ^ 2 := by positivity
  obtain ⟨d1, d2⟩ := floatDot_fine k v
  have hf := f64_fine (Real.sqrt_nonneg (floatDot k v))
  rw [hD]
  unfold floatNorm
  have hsq := Real.sq_sqrt hn
  have hs0 := Real.sqrt_nonneg (v.x ^ 2 + v.y ^ 2)
  generalize Real.sqrt (v.x ^ 2 + v.y ^ 2) = t at *
  rw [← hsq] at d1 d2
  have up : Real.sqrt (floatDot k v) ≤ t + (t + 1) / 10 ^ 6 := by
    rw [Real.sqrt_le_left (by positivity)]
    norm_num at d2 ⊢
    nlinarith
  have lo : t - (t + 1) / 10 ^ 6 ≤ Real.sqrt (floatDot k v) := by
    by_cases hs : t - (t + 1) / 10 ^ 6 ≤ 0
    · exact hs.trans (Real.sqrt_nonneg _)
    · push Not at hs
      apply Real.le_sqrt_of_sq_le
      norm_num at d1 hs ⊢
      nlinarith
  norm_num at up lo hf
  rw [abs_le]
  norm_num
  constructor <;> linarith [hf.1, hf.2]

theorem displaced_get' {η : ℝ} {ps qs : List (V2 ℝ)} (h : Displaced η ps qs) (i : ℕ) {p : V2 ℝ} (hp : ps[i]? = some p) :
    ∃ q, qs[i]? = some q ∧ Spec.dist p q ≤ η := by
  have hi : i < qs.length := by
    rw [← displaced_length h]
    exact (List.getElem?_eq_some_iff.1 hp).1
  obtain ⟨p', hp', hd⟩ := displaced_get h i (List.getElem?_eq_getElem hi)
  rw [hp] at hp'
  cases hp'
  exact ⟨_, List.getElem?_eq_getElem hi, hd⟩

theorem displaced_mono {η ζ : ℝ} (h : η ≤ ζ) {ps qs : List (V2 ℝ)} (hd : Displaced η ps qs) : Displaced ζ ps qs :=
  List.Forall₂.imp (fun _ _ h' => h'.trans h) hd

theorem three_of_honeycomb {n : ℕ} {offset : V2 ℝ} {angle : ℝ} {p : V2 ℝ} {nbrs : List (V2 ℝ)}
    (h : Honeycomb (layOutSheet n offset angle) p nbrs) :
    HasThreeNeighbours (layOutSheet n offset angle) (142 / 100) p := by
  obtain ⟨a, b, c, rfl⟩ := List.length_eq_three.1 h.three
  have hd : ∀ r ∈ [a, b, c], Spec.dist p r = 142 / 100 := by
    intro r hr
    obtain ⟨hm, hb⟩ := h.bonds r hr
    have hne : p ≠ r := by
      rintro rfl
      exact h.other hr
    rcases sheet_gap n offset angle h.mem hm hne with h' | h'
    · exact h'
    · linarith
  refine ⟨a, (h.bonds a (by simp)).1, b, (h.bonds b (by simp)).1, c, (h.bonds c (by simp)).1,
    List.nodup_cons.2 ⟨h.other, h.nodup⟩, hd a (by simp), hd b (by simp), hd c (by simp), ?_⟩
  intro q hq hnot
  rw [List.mem_cons, not_or] at hnot
  have := h.far q hq hnot.1 hnot.2
  linarith

/-- The silicon is put at an atom that is nearest the origin up to a few thousandths of an ångström, and the search
for its neighbours finds the three atoms around it. -/
theorem C141_start (T : FloatTrig) (S : Summation) (k : DotKind) {n : ℕ} (hn : 12 ≤ n) (hn' : n ≤ 4096) (offset : V2 ℝ)
    (hx : |offset.x| ≤ 71 / 100) (hy : |offset.y| ≤ 71 / 100) (angle : ℝ) :
    ∃ i p q, floatSiliconIndex (floatLayOut T S k n offset angle) = some i ∧
      (layOutSheet n offset angle)[i]? = some p ∧ (floatLayOut T S k n offset angle)[i]? = some q ∧
      (∀ r ∈ layOutSheet n offset angle, Spec.dist ⟨0, 0⟩ p ≤ Spec.dist ⟨0, 0⟩ r + 1 / 400) ∧
      ∃ nbrs : List ℕ, nbrs.length = 3 ∧ nbrs.Nodup ∧
        (∀ j ∈ nbrs, ∃ r, (layOutSheet n offset angle)[j]? = some r ∧ Spec.dist p r = 142 / 100) ∧
        ∀ knn : Knn ℝ, ∃ r, nearestNeighbors3 knn (floatLayOut T S k n offset angle) q = .ok r ∧ r.Perm nbrs := by
  have hd := C141_sheet T S k hn' offset (hx.trans (by norm_num)) (hy.trans (by norm_num)) angle
  obtain ⟨p0, hp0, hd0⟩ := atom_near_origin n hn offset angle hx hy
  obtain ⟨sheet, hsheet⟩ : ∃ s, s = floatLayOut T S k n offset angle := ⟨_, rfl⟩
  rw [← hsheet] at hd ⊢
  have hne : sheet.map (floatNorm .plain) ≠ [] := by
    intro h
    have hl := displaced_length hd
    rw [List.map_eq_nil_iff] at h
    rw [h, List.length_nil, List.length_eq_zero_iff] at hl
    rw [hl] at hp0
    simp at hp0
  obtain ⟨i, hi⟩ := argmin?_isSome hne
  obtain ⟨v, hv, hmin, _⟩ := argmin?_eq_some hi
  rw [List.getElem?_map, Option.map_eq_some_iff] at hv
  obtain ⟨q, hq, rfl⟩ := hv
  obtain ⟨p, hp, hpq⟩ := displaced_get hd i hq
  have hnear : ∀ r ∈ layOutSheet n offset angle, Spec.dist ⟨0, 0⟩ r ≤ 3 →
      Spec.dist ⟨0, 0⟩ p ≤ Spec.dist ⟨0, 0⟩ r + 1 / 400 := by
    intro r hr hr3
    obtain ⟨j, hj⟩ := List.getElem?_of_mem hr
    obtain ⟨r', hr', hrr⟩ := displaced_get' hd j hj
    have hle := hmin (floatNorm .plain r') (List.mem_map.2 ⟨r', List.mem_of_getElem? hr', rfl⟩)
    have f1 := abs_le.1 (floatNorm_fine .plain q)
    have f2 := abs_le.1 (floatNorm_fine .plain r')
    have t1 := dist_tri ⟨0, 0⟩ q p
    have t2 := dist_tri ⟨0, 0⟩ r r'
    rw [dist_comm' q p] at t1
    norm_num at f1 f2
    linarith [f1.1, f2.2]
  have hp1 := hnear p0 hp0 (by linarith)
  have hall : ∀ r ∈ layOutSheet n offset angle, Spec.dist ⟨0, 0⟩ p ≤ Spec.dist ⟨0, 0⟩ r + 1 / 400 := by
    intro r hr
    by_cases h3 : Spec.dist ⟨0, 0⟩ r ≤ 3
    · exact hnear r hr h3
    · push Not at h3
      linarith
  have hn12 : (12 : ℝ) ≤ n := by exact_mod_cast hn
  obtain ⟨nb, hH⟩ := C123_disc n offset angle hx hy p (List.mem_of_getElem? hp) (by linarith)
  obtain ⟨nbrs, k1, k2, k3, k4⟩ := C138_sheet n offset angle hp (three_of_honeycomb hH)
  exact ⟨i, p, q, hi, hp, hq, hall, nbrs, k1, k2, k3,
    fun knn => k4 sheet q (displaced_mono (by norm_num) hd) hq knn⟩

theorem f64_err_unit {x : ℝ} (hx : |x| ≤ 1) : |f64 x - x| ≤ 2 ^ (-50 : ℤ) := by
  have h := abs_f64_sub_le x
  have h5 : |x| * (2 : ℝ) ^ (-53 : ℤ) ≤ 1 * 2 ^ (-53 : ℤ) := mul_le_mul_of_nonneg_right hx (by positivity)
  have hθ : (2 : ℝ) ^ (-1075 : ℤ) ≤ 2 ^ (-70 : ℤ) := zpow_le_zpow_right₀ (by norm_num) (by norm_num)
  refine h.trans ((add_le_add h5 hθ).trans ?_)
  norm_num

/-- Sines and cosines rounded to the nearest number. -/
noncomputable def roundedTrig : FloatTrig where
  cos x := f64 (Real.cos x)
  sin x := f64 (Real.sin x)
  cos_err x := f64_err_unit (Real.abs_cos_le_one x)
  sin_err x := f64_err_unit (Real.abs_sin_le_one x)

/-- Adding one number after the other. -/
noncomputable def sumInOrder (xs : List ℝ) : ℝ := xs.foldl (fun s x => f64 (s + x)) 0

theorem sum_abs_nonneg (xs : List ℝ) : 0 ≤ (xs.map (fun x => |x|)).sum :=
  List.sum_nonneg (by
    intro x hx
    obtain ⟨y, _, rfl⟩ := List.mem_map.1 hx
    exact abs_nonneg y)

theorem abs_sum_le_sum (xs : List ℝ) : |xs.sum| ≤ (xs.map (fun x => |x|)).sum := by
  induction xs with
  | nil => simp
  | cons x xs ih =>
    rw [List.sum_cons, List.map_cons, List.sum_cons]
    exact (abs_add_le _ _).trans (by linarith)

theorem step_err {n s t x A u τ θ : ℝ} (hn : 0 ≤ n) (hA : |t| ≤ A) (hu : 0 ≤ u) (hτ : 0 ≤ τ) (hnu : n * (2 * u) ≤ 1)
    (hθ : θ ≤ τ / 2) (hs : |s - t| ≤ n * (2 * u) * A + n * τ) (h : |f64 (s + x) - (s + x)| ≤ |s + x| * u + θ) :
    |f64 (s + x) - (t + x)| ≤ (n + 1) * (2 * u) * (A + |x|) + (n + 1) * τ := by
  have hA0 : 0 ≤ A := (abs_nonneg _).trans hA
  have hsx : |s + x| ≤ A + |x| + (n * (2 * u) * A + n * τ) := by
    have e : s + x = (s - t) + (t + x) := by ring
    rw [e]
    refine (abs_add_le _ _).trans ?_
    linarith [abs_add_le t x]
  have h1 : |f64 (s + x) - (t + x)| ≤ |f64 (s + x) - (s + x)| + |s - t| := by
    have e : f64 (s + x) - (t + x) = (f64 (s + x) - (s + x)) + (s - t) := by ring
    rw [e]
    exact abs_add_le _ _
  have h2 : |s + x| * u ≤ (A + |x| + (n * (2 * u) * A + n * τ)) * u := mul_le_mul_of_nonneg_right hsx hu
  have hx0 := abs_nonneg x
  have h3 : n * (2 * u) * A * u ≤ 1 * A * u := by
    exact mul_le_mul_of_nonneg_right (mul_le_mul_of_nonneg_right hnu hA0) hu
  have h4 : n * τ * u ≤ τ / 2 := by
    have : n * (2 * u) * τ ≤ 1 * τ := mul_le_mul_of_nonneg_right hnu hτ
    linarith
  have h5 : 0 ≤ |x| * u := mul_nonneg hx0 hu
  have h6 : 0 ≤ n * u * |x| := mul_nonneg (mul_nonneg hn hu) hx0
  linarith

noncomputable def inOrder : Summation where
  sum := sumInOrder
  err xs := by
    induction xs using List.reverseRecOn with
    | nil => intro _; simp [sumInOrder]
    | append_singleton xs x ih =>
      intro hl
      rw [List.length_append, List.length_singleton] at hl
      have ih' := ih (by omega)
      have e : sumInOrder (xs ++ [x]) = f64 (sumInOrder xs + x) := by
        unfold sumInOrder
        rw [List.foldl_append]
        rfl
      have e2 : (2 : ℝ) ^ (-52 : ℤ) = 2 * 2 ^ (-53 : ℤ) := by norm_num
      rw [e, List.sum_append, List.map_append, List.sum_append, List.length_append, List.length_singleton]
      simp only [List.sum_cons, List.sum_nil, add_zero, List.map_cons, List.map_nil, Nat.cast_add, Nat.cast_one]
      rw [e2] at ih' ⊢
      refine step_err (Nat.cast_nonneg _) (abs_sum_le_sum xs) (by positivity) (by positivity) ?_ ?_ ih'
        (abs_f64_sub_le _)
      · have : ((xs.length : ℕ) : ℝ) ≤ 2 ^ 40 := by exact_mod_cast (show xs.length ≤ 2 ^ 40 by omega)
        refine (mul_le_mul_of_nonneg_right this (by positivity)).trans ?_
        norm_num
      · have : (2 : ℝ) ^ (-1000 : ℤ) / 2 = 2 ^ (-1001 : ℤ) := by
          rw [show (-1001 : ℤ) = -1000 - 1 by norm_num, zpow_sub₀ (by norm_num), zpow_one]
        rw [this]
        exact zpow_le_zpow_right₀ (by norm_num) (by norm_num)

/-- The sheets the simulator generates by default have 50 columns. -/
example : ∃ i, floatSiliconIndex (floatLayOut roundedTrig inOrder .fusedFirst 50 ⟨1 / 2, -1 / 3⟩ 1) = some i := by
  obtain ⟨i, _, _, h, _⟩ := C141_start roundedTrig inOrder .fusedFirst (n := 50) (by norm_num) (by norm_num)
    ⟨1 / 2, -1 / 3⟩ (by norm_num [abs_le]) (by norm_num [abs_le]) 1
  exact ⟨i, h⟩

/-- They have 57 rows. -/
example : floatRows 50 = 57 := by
  rw [C141_rows (by norm_num)]
  unfold hexRows
  have h := hexRatio_sq
  have h0 := hexRatio_pos
  rw [Nat.floor_eq_iff (by positivity)]
  constructor
  · rw [le_div_iff₀ h0]
    norm_num
    nlinarith
  · rw [div_lt_iff₀ h0]
    norm_num
    nlinarith

end PD.Props
