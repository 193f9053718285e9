/- Bounds on rounding errors. -/
import Verif.Model.Floats
import Verif.Lemmas.Float32

set_option linter.unusedSectionVars false
set_option linter.unusedSimpArgs false

namespace PD
variable {K : Type} [Field K] [LinearOrder K] [IsStrictOrderedRing K] [FloorRing K]

theorem ulpOf_pos (b e : ℤ) (x : K) : 0 < ulpOf b e x := by unfold ulpOf; positivity

theorem f32_eq_roundTo (x : K) : f32 x = roundTo 24 (-126) x := by
  unfold f32 roundTo ulp32 ulpOf
  norm_num

theorem abs_roundTo_sub_le_ulp (b e : ℤ) (x : K) : |roundTo b e x - x| ≤ ulpOf b e x / 2 := by
  have hu := ulpOf_pos b e x
  have h := abs_roundHalfEven_sub_le (x / ulpOf b e x)
  have e' : roundTo b e x - x = ((roundHalfEven (x / ulpOf b e x) : K) - x / ulpOf b e x) * ulpOf b e x := by
    unfold roundTo; field_simp
  rw [e', abs_mul, abs_of_pos hu]
  nlinarith

theorem roundTo_zero (b e : ℤ) : roundTo b e (0 : K) = 0 := by
  unfold roundTo
  rw [zero_div]
  have := roundHalfEven_intCast (K := K) 0
  rw [Int.cast_zero] at this
  rw [this]
  simp

theorem roundTo_nonneg (b e : ℤ) {x : K} (hx : 0 ≤ x) : 0 ≤ roundTo b e x := by
  have hu := ulpOf_pos b e x
  have := roundHalfEven_nonneg (x := x / ulpOf b e x) (by positivity)
  have h2 : (0 : K) ≤ (roundHalfEven (x / ulpOf b e x) : K) := by exact_mod_cast this
  unfold roundTo
  positivity

/-- The error: a part in `2 ^ bits`, and for the smallest numbers half of their fixed spacing. -/
theorem abs_roundTo_sub_le (b e : ℤ) (x : K) : |roundTo b e x - x| ≤ |x| * 2 ^ (-b) + 2 ^ (e - b) := by
  by_cases hx0 : x = 0
  · subst hx0
    rw [roundTo_zero]
    simp only [sub_zero, abs_zero, zero_mul, zero_add]
    positivity
  have h1 := abs_roundTo_sub_le_ulp b e x
  have h2 := zpow_log_le x hx0
  have hh : ∀ k : ℤ, (2 : K) ^ (k - (b - 1)) / 2 = 2 ^ k * 2 ^ (-b) := by
    intro k
    rw [show k - (b - 1) = (k + -b) + 1 by ring, zpow_add_one₀ (by norm_num), zpow_add₀ (by norm_num)]
    field_simp
  unfold ulpOf at h1
  rw [hh] at h1
  have hb : (0 : K) < 2 ^ (-b) := by positivity
  rcases le_total (Int.log 2 |x|) e with hl | hl
  · rw [max_eq_right hl, ← zpow_add₀ (by norm_num), ← sub_eq_add_neg] at h1
    have : 0 ≤ |x| * (2 : K) ^ (-b) := by positivity
    linarith
  · rw [max_eq_left hl] at h1
    have : (0 : K) ≤ 2 ^ (e - b) := by positivity
    have := mul_le_mul_of_nonneg_right h2 hb.le
    linarith

/-- Numbers with few enough bits are not changed. -/
theorem roundTo_of_mul (b e m k : ℤ) (hm : |m| < 2 ^ b.toNat) (hb : 0 ≤ b) (hk : e - (b - 1) ≤ k) :
    roundTo b e ((m : K) * 2 ^ k) = m * 2 ^ k := by
  by_cases hm0 : m = 0
  · subst hm0
    simp [roundTo_zero]
  have hx0 : (m : K) * 2 ^ k ≠ 0 := mul_ne_zero (by exact_mod_cast hm0) (by positivity)
  have h2 := zpow_log_le _ hx0
  have hmK : |(m : K)| < 2 ^ b := by
    have : ((|m| : ℤ) : K) < ((2 ^ b.toNat : ℤ) : K) := by exact_mod_cast hm
    rw [Int.cast_abs] at this
    refine this.trans_le ?_
    push_cast
    rw [← zpow_natCast, Int.toNat_of_nonneg hb]
  have h3 : (2 : K) ^ Int.log 2 |(m : K) * 2 ^ k| < 2 ^ (b + k) := by
    refine h2.trans_lt ?_
    rw [abs_mul, abs_of_pos (show (0 : K) < 2 ^ k by positivity), zpow_add₀ (by norm_num)]
    exact mul_lt_mul_of_pos_right hmK (by positivity)
  have h4 : Int.log 2 |(m : K) * 2 ^ k| < b + k := (zpow_lt_zpow_iff_right₀ (by norm_num)).1 h3
  set j := max (Int.log 2 |(m : K) * 2 ^ k|) e - (b - 1) with hj
  have hjk : j ≤ k := by
    rw [hj]
    have : max (Int.log 2 |(m : K) * 2 ^ k|) e ≤ k + (b - 1) := max_le (by omega) (by omega)
    omega
  have key : ∃ n : ℤ, (m : K) * 2 ^ k / 2 ^ j = n := by
    refine ⟨m * 2 ^ (k - j).toNat, ?_⟩
    push_cast
    rw [mul_div_assoc, ← zpow_sub₀ (by norm_num), ← zpow_natCast, Int.toNat_of_nonneg (by omega)]
  obtain ⟨n, hn⟩ := key
  unfold roundTo ulpOf
  rw [← hj, hn, roundHalfEven_intCast, ← hn, div_mul_cancel₀ _ (by positivity)]

theorem abs_f64_sub_le (x : K) : |f64 x - x| ≤ |x| * 2 ^ (-53 : ℤ) + 2 ^ (-1075 : ℤ) := by
  have := abs_roundTo_sub_le 53 (-1022) x
  norm_num at this ⊢
  exact this

theorem abs_f32_sub_le_all (x : K) : |f32 x - x| ≤ |x| * 2 ^ (-24 : ℤ) + 2 ^ (-150 : ℤ) := by
  have := abs_roundTo_sub_le 24 (-126) x
  rw [← f32_eq_roundTo] at this
  norm_num at this ⊢
  exact this

theorem f64_nonneg {x : K} (hx : 0 ≤ x) : 0 ≤ f64 x := roundTo_nonneg _ _ hx
theorem f32_nonneg {x : K} (hx : 0 ≤ x) : 0 ≤ f32 x := by rw [f32_eq_roundTo]; exact roundTo_nonneg _ _ hx
theorem f64_zero : f64 (0 : K) = 0 := roundTo_zero _ _
theorem f32_of_zero : f32 (0 : K) = 0 := by rw [f32_eq_roundTo]; exact roundTo_zero _ _

theorem Precision.round_nonneg (q : Precision) {x : K} (hx : 0 ≤ x) : 0 ≤ q.round x := by
  cases q
  · exact f32_nonneg hx
  · exact f64_nonneg hx

theorem Precision.round_zero (q : Precision) : q.round (0 : K) = 0 := by
  cases q
  · exact f32_of_zero
  · exact f64_zero

/-- A float32 number is a float64 number. -/
theorem f64_f32 (x : K) : f64 (f32 x) = f32 x := by
  obtain ⟨m, k, h, hm, hk, _⟩ := f32_form x
  rw [h]
  refine roundTo_of_mul 53 (-1022) m k ?_ (by norm_num) (by omega)
  refine lt_of_le_of_lt hm ?_
  show (2 : ℤ) ^ 24 < 2 ^ 53
  norm_num

/-- A sum of three numbers with a small error at each step. -/
theorem three_sum_err {fl : K → K} {η θ : K} (h : ∀ x, |fl x - x| ≤ |x| * η + θ) (hη0 : 0 ≤ η) (hη : η ≤ 1 / 1000)
    (hθ : 0 ≤ θ) {a b c : K} (ha : 0 ≤ a) (hb : 0 ≤ b) (hc : 0 ≤ c) :
    |fl (fl (fl (0 + a) + b) + c) - (a + b + c)| ≤ 4 * (η * (a + b + c)) + 4 * θ := by
  rw [zero_add]
  have key : ∀ s x E : K, 0 ≤ E → |s - x| ≤ E → 0 ≤ x → x ≤ a + b + c →
      |fl s - x| ≤ E + η * (a + b + c) + E / 1000 + θ := by
    intro s x E hE h1 h2 h3
    have h4 := h s
    have h5 : |s| ≤ (a + b + c) + E := by
      have := abs_add_le (s - x) x
      rw [sub_add_cancel, abs_of_nonneg h2] at this
      linarith
    have h6 : |s| * η ≤ η * (a + b + c) + E / 1000 := by
      have := mul_le_mul_of_nonneg_right h5 hη0
      nlinarith
    have := abs_add_le (fl s - s) (s - x)
    rw [sub_add_sub_cancel] at this
    linarith
  have hS : 0 ≤ η * (a + b + c) := by positivity
  have k1 := key a a 0 le_rfl (by simp) ha (by linarith)
  have k2 := key (fl a + b) (a + b) _ (le_trans (abs_nonneg _) k1) (by
    rw [show fl a + b - (a + b) = fl a - a by ring]; exact k1) (by linarith) (by linarith)
  have k3 := key (fl (fl a + b) + c) (a + b + c) _ (le_trans (abs_nonneg _) k2) (by
    rw [show fl (fl a + b) + c - (a + b + c) = fl (fl a + b) - (a + b) by ring]; exact k2) (by linarith) le_rfl
  linarith

/-- Multiples of the smallest positive float32 number. -/
def Grained (x : K) : Prop := ∃ m : ℤ, x = m * 2 ^ (-149 : ℤ)

theorem Grained.add {x y : K} (hx : Grained x) (hy : Grained y) : Grained (x + y) := by
  obtain ⟨m, rfl⟩ := hx
  obtain ⟨n, rfl⟩ := hy
  exact ⟨m + n, by push_cast; ring⟩

theorem grained_zero : Grained (0 : K) := ⟨0, by simp⟩

theorem grained_f32 {x : K} (h : f32 x = x) : Grained x := by
  obtain ⟨m, k, e, _, hk, _⟩ := f32_form x
  rw [h] at e
  refine ⟨m * 2 ^ (k + 149).toNat, ?_⟩
  rw [e]
  push_cast
  rw [← zpow_natCast, Int.toNat_of_nonneg (by omega), mul_assoc, ← zpow_add₀ (by norm_num)]
  norm_num

/-- Rounding a multiple gives a multiple, and has a small relative error, however small the number is. -/
theorem grained_roundTo {b e : ℤ} (he : e - (b - 1) ≤ -149) {x : K} (hx : Grained x) :
    Grained (roundTo b e x) ∧ |roundTo b e x - x| ≤ |x| * 2 ^ (-b) := by
  by_cases hx0 : x = 0
  · subst hx0
    rw [roundTo_zero]
    exact ⟨grained_zero, by simp⟩
  obtain ⟨m, hm⟩ := hx
  set j := max (Int.log 2 |x|) e - (b - 1) with hj
  by_cases hle : j ≤ -149
  · have key : ∃ n : ℤ, x / 2 ^ j = n := by
      refine ⟨m * 2 ^ (-149 - j).toNat, ?_⟩
      rw [hm]
      push_cast
      rw [mul_div_assoc, ← zpow_sub₀ (by norm_num), ← zpow_natCast, Int.toNat_of_nonneg (by omega)]
    obtain ⟨n, hn⟩ := key
    have : roundTo b e x = x := by
      unfold roundTo ulpOf
      rw [← hj, hn, roundHalfEven_intCast, ← hn, div_mul_cancel₀ _ (by positivity)]
    rw [this]
    refine ⟨⟨m, hm⟩, ?_⟩
    rw [sub_self, abs_zero]
    positivity
  · push Not at hle
    constructor
    · refine ⟨roundHalfEven (x / 2 ^ j) * 2 ^ (j + 149).toNat, ?_⟩
      unfold roundTo ulpOf
      rw [← hj]
      push_cast
      rw [← zpow_natCast, Int.toNat_of_nonneg (by omega), mul_assoc, ← zpow_add₀ (by norm_num)]
      norm_num
    · have h1 := abs_roundTo_sub_le_ulp b e x
      have h2 := zpow_log_le x hx0
      have hl : e ≤ Int.log 2 |x| := by
        by_contra hlt
        push Not at hlt
        rw [max_eq_right hlt.le] at hj
        omega
      unfold ulpOf at h1
      rw [max_eq_left hl, show Int.log 2 |x| - (b - 1) = (Int.log 2 |x| + -b) + 1 by ring, zpow_add_one₀ (by norm_num),
        zpow_add₀ (by norm_num)] at h1
      have := mul_le_mul_of_nonneg_right h2 (by positivity : (0 : K) ≤ 2 ^ (-b))
      linarith

theorem Precision.grained (q : Precision) {x : K} (hx : Grained x) :
    Grained (q.round x) ∧ |q.round x - x| ≤ |x| * 2 ^ (-24 : ℤ) := by
  cases q with
  | single =>
    have := grained_roundTo (b := 24) (e := -126) (by norm_num) hx
    rw [← f32_eq_roundTo] at this
    exact this
  | double =>
    have := grained_roundTo (b := 53) (e := -1022) (by norm_num) hx
    refine ⟨this.1, this.2.trans (mul_le_mul_of_nonneg_left ?_ (abs_nonneg x))⟩
    exact zpow_le_zpow_right₀ (by norm_num) (by norm_num)

open Classical in
/-- The sum of three multiples. -/
theorem three_sum_grained (q : Precision) {a b c : K} (ha : 0 ≤ a) (hb : 0 ≤ b) (hc : 0 ≤ c) (ga : Grained a)
    (gb : Grained b) (gc : Grained c) : Grained (q.round (q.round (q.round (0 + a) + b) + c)) ∧
    |q.round (q.round (q.round (0 + a) + b) + c) - (a + b + c)| ≤ 4 * (2 ^ (-24 : ℤ) * (a + b + c)) := by
  have g1 := (q.grained (grained_zero.add ga)).1
  have g2 := (q.grained (g1.add gb)).1
  have g3 := (q.grained (g2.add gc)).1
  refine ⟨g3, ?_⟩
  have h := three_sum_err (fl := fun x => if Grained x then q.round x else x) (η := 2 ^ (-24 : ℤ)) (θ := 0) (fun x => by
    split_ifs with h
    · rw [add_zero]; exact (q.grained h).2
    · rw [sub_self, abs_zero]; positivity) (by positivity) (by norm_num) le_rfl ha hb hc
  simp only [if_pos (grained_zero.add ga), if_pos (g1.add gb), if_pos (g2.add gc)] at h
  linarith

/-- A quotient of two numbers that are nearly right. -/
theorem quotient_err {n r D S δ : K} (hS : 0 < S) (hr0 : 0 ≤ r) (hr : r ≤ S) (hδ0 : 0 ≤ δ) (hδ : δ ≤ 1 / 1000)
    (hn : |n - r| ≤ δ * S) (hD : |D - S| ≤ δ * S) : 0 < D ∧ |n / D - r / S| ≤ 3 * δ := by
  rw [abs_le] at hD
  have hδS : δ * S ≤ 1 / 1000 * S := mul_le_mul_of_nonneg_right hδ hS.le
  have hDpos : 0 < D := by linarith [hD.1]
  refine ⟨hDpos, ?_⟩
  have e : n / D - r / S = ((n - r) * S - r * (D - S)) / (D * S) := by field_simp; ring
  rw [e, abs_div, abs_of_pos (mul_pos hDpos hS), div_le_iff₀ (mul_pos hDpos hS)]
  have h1 : |(n - r) * S - r * (D - S)| ≤ |n - r| * S + r * |D - S| := by
    refine (abs_sub _ _).trans ?_
    rw [abs_mul, abs_mul, abs_of_pos hS, abs_of_nonneg hr0]
  have h2 : |n - r| * S ≤ δ * S * S := mul_le_mul_of_nonneg_right hn hS.le
  have h3 : r * |D - S| ≤ S * (δ * S) := by
    have hD' : |D - S| ≤ δ * S := abs_le.2 hD
    exact mul_le_mul hr hD' (abs_nonneg _) hS.le
  have h4 : 2 / 3 * S ≤ D := by linarith [hD.1]
  have h5 : 3 * δ * (2 / 3 * S * S) ≤ 3 * δ * (D * S) :=
    mul_le_mul_of_nonneg_left (mul_le_mul_of_nonneg_right h4 hS.le) (by linarith)
  nlinarith

/-- The compensated sum of three numbers is right up to a few units in the last place. -/
theorem kahanSum_err {a b c : K} (ha : 0 ≤ a ∧ a ≤ 2) (hb : 0 ≤ b ∧ b ≤ 2) (hc : 0 ≤ c ∧ c ≤ 2) :
    |kahanSum [a, b, c] - (a + b + c)| ≤ 2 ^ (-46 : ℤ) := by
  have hf : ∀ x : K, |x| ≤ 8 → |f64 x - x| ≤ 2 ^ (-49 : ℤ) := by
    intro x hx
    have h := abs_f64_sub_le x
    have h1 : |x| * (2 : K) ^ (-53 : ℤ) ≤ 8 * 2 ^ (-53 : ℤ) := mul_le_mul_of_nonneg_right hx (by positivity)
    have h2 : (2 : K) ^ (-1075 : ℤ) ≤ 2 ^ (-53 : ℤ) := zpow_le_zpow_right₀ (by norm_num) (by norm_num)
    norm_num at h1 h2 h ⊢
    linarith
  show |f64 (f64 (a + f64 (b - 0)) + f64 (c - f64 (f64 (f64 (a + f64 (b - 0)) - a) - f64 (b - 0)))) - (a + b + c)| ≤ _
  have hb' : |b - 0| ≤ 8 := by rw [sub_zero, abs_of_nonneg hb.1]; linarith
  obtain ⟨ε, hε⟩ : ∃ ε : K, ε = 2 ^ (-49 : ℤ) := ⟨_, rfl⟩
  have hεs : ε ≤ 1 / 1000 := by rw [hε]; norm_num
  have e1 := hf _ hb'
  set y1 := f64 (b - 0) with hy1
  rw [← hε, abs_le] at e1
  have e2 := hf (a + y1) (by rw [abs_le]; constructor <;> linarith)
  set t1 := f64 (a + y1) with ht1
  rw [← hε, abs_le] at e2
  have e3 := hf (t1 - a) (by rw [abs_le]; constructor <;> linarith)
  set d := f64 (t1 - a) with hd
  rw [← hε, abs_le] at e3
  have e4 := hf (d - y1) (by rw [abs_le]; constructor <;> linarith)
  set c1 := f64 (d - y1) with hc1
  rw [← hε, abs_le] at e4
  have e5 := hf (c - c1) (by rw [abs_le]; constructor <;> linarith)
  set y2 := f64 (c - c1) with hy2
  rw [← hε, abs_le] at e5
  have e6 := hf (t1 + y2) (by rw [abs_le]; constructor <;> linarith)
  rw [← hε, abs_le] at e6
  have e7 : (2 : K) ^ (-46 : ℤ) = 8 * ε := by rw [hε]; norm_num
  rw [e7, abs_le]
  constructor <;> linarith

end PD
