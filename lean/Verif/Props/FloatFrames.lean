/- C139: the frame conversions with floating point numbers. -/
import Verif.Model.FloatFrames
import Verif.Spec.Frames
import Verif.Lemmas.FloatOrder
import Verif.Lemmas.Lists

set_option linter.unusedSectionVars false
set_option linter.unusedSimpArgs false

namespace PD.Props
open PD PD.Spec
variable {K : Type} [Field K] [LinearOrder K] [IsStrictOrderedRing K] [FloorRing K]

theorem floatNormalise_mono {lo hi p q : K} (hs : 0 < f64 (hi - lo)) (h : p ≤ q) :
    floatNormalise lo hi p ≤ floatNormalise lo hi q := by
  unfold floatNormalise
  exact f64_mono (div_le_div_of_nonneg_right (f64_mono (by linarith)) hs.le)

theorem floatNormalise_lo (lo hi : K) : floatNormalise lo hi lo = 0 := by
  unfold floatNormalise
  rw [sub_self, f64_zero, zero_div, f64_zero]

theorem floatNormalise_hi {lo hi : K} (hs : 0 < f64 (hi - lo)) : floatNormalise lo hi hi = 1 := by
  unfold floatNormalise
  rw [div_self hs.ne', f64_one]

theorem floatNormalise_unit {lo hi p : K} (hs : 0 < f64 (hi - lo)) (h : lo ≤ p ∧ p ≤ hi) :
    0 ≤ floatNormalise lo hi p ∧ floatNormalise lo hi p ≤ 1 := by
  constructor
  · have := floatNormalise_mono hs h.1
    rwa [floatNormalise_lo] at this
  · have := floatNormalise_mono hs h.2
    rwa [floatNormalise_hi hs] at this

/-- A rectangle whose corners are float64 numbers, with a width and a height. -/
structure FloatRect (f : Fov K) : Prop where
  floats : f64 f.lowerLeft.x = f.lowerLeft.x ∧ f64 f.lowerLeft.y = f.lowerLeft.y ∧
    f64 f.upperRight.x = f.upperRight.x ∧ f64 f.upperRight.y = f.upperRight.y
  width : f.lowerLeft.x < f.upperRight.x
  height : f.lowerLeft.y < f.upperRight.y

theorem FloatRect.pos {f : Fov K} (h : FloatRect f) :
    0 < f64 (f.upperRight.x - f.lowerLeft.x) ∧ 0 < f64 (f.upperRight.y - f.lowerLeft.y) :=
  ⟨f64_sub_pos h.floats.1 h.floats.2.2.1 h.width, f64_sub_pos h.floats.2.1 h.floats.2.2.2 h.height⟩

/-! ### C139 frame conversions with rounding -/

/-- The corners of a field of view are converted exactly, points in it get coordinates between 0 and 1, bounds
included, and points keep their order. -/
theorem C139_convert (f : Fov K) (hf : FloatRect f) :
    f.floatToMicroscope f.lowerLeft = ⟨0, 0⟩ ∧ f.floatToMicroscope f.upperRight = ⟨1, 1⟩ ∧
    (∀ p, Inside f.lowerLeft f.upperRight p → InUnit (f.floatToMicroscope p)) ∧
    (∀ p q : V2 K, (p.x ≤ q.x → (f.floatToMicroscope p).x ≤ (f.floatToMicroscope q).x) ∧
      (p.y ≤ q.y → (f.floatToMicroscope p).y ≤ (f.floatToMicroscope q).y)) := by
  obtain ⟨hx, hy⟩ := hf.pos
  refine ⟨?_, ?_, ?_, ?_⟩
  · simp only [Fov.floatToMicroscope, floatNormalise_lo]
  · simp only [Fov.floatToMicroscope, floatNormalise_hi hx, floatNormalise_hi hy]
  · intro p hp
    exact ⟨floatNormalise_unit hx hp.1, floatNormalise_unit hy hp.2⟩
  · intro p q
    exact ⟨fun h => floatNormalise_mono hx h, fun h => floatNormalise_mono hy h⟩

theorem unit_f32 {p : V2 K} (h : InUnit p) : InUnit (⟨f32 p.x, f32 p.y⟩ : V2 K) := by
  have key : ∀ x : K, 0 ≤ x ∧ x ≤ 1 → 0 ≤ f32 x ∧ f32 x ≤ 1 := fun x hx =>
    ⟨f32_nonneg hx.1, by have := f32_mono hx.2; rwa [f32_one] at this⟩
  exact ⟨key _ h.1, key _ h.2⟩

/-- Whatever the atoms of the sheet, with rounding too the atoms seen are those in the field of view, in the same
order and with their numbers, and their coordinates are between 0 and 1, also after they have passed through the fields
of a protocol buffer. -/
theorem C139_seen (m : Material K) (sheet : Grid K) (hr : m.hasBeenReset = true) (hm : m.grid = some sheet)
    (hwf : sheet.WF) (f : Fov K) (hf : FloatRect f) :
    ∃ o, m.floatAtomsInBounds f.lowerLeft f.upperRight = .ok o ∧
      o.WF ∧ atoms o = ((atoms sheet).filter
        (fun a => decide (Inside f.lowerLeft f.upperRight a.1))).map (fun a => (f.floatToMicroscope a.1, a.2)) ∧
      (∀ p ∈ o.positions, InUnit p) ∧ (∀ p ∈ o.throughProto.positions, InUnit p) := by
  have hin : ∀ p, Fov.inRect f.lowerLeft f.upperRight p = decide (Inside f.lowerLeft f.upperRight p) := by
    intro p
    simp [Fov.inRect, Inside, Bool.and_assoc, and_assoc]
  have hpos : ∀ p ∈ maskSelect (sheet.positions.map (Fov.inRect f.lowerLeft f.upperRight)) sheet.positions,
      Inside f.lowerLeft f.upperRight p := by
    intro p hp
    rw [maskSelect_map_self] at hp
    have := (List.mem_filter.1 hp).2
    rw [hin] at this
    exact of_decide_eq_true this
  have hunit : ∀ p ∈ (maskSelect (sheet.positions.map (Fov.inRect f.lowerLeft f.upperRight)) sheet.positions).map
      (Fov.floatToMicroscope f), InUnit p := by
    intro p hp
    obtain ⟨q, hq, rfl⟩ := List.mem_map.1 hp
    exact (C139_convert f hf).2.2.1 q (hpos q hq)
  refine ⟨⟨_, maskSelect (sheet.positions.map (Fov.inRect f.lowerLeft f.upperRight)) sheet.numbers⟩, ?_, ?_, ?_,
    hunit, ?_⟩
  · unfold Material.floatAtomsInBounds Material.read
    rw [hr, hm]
    rfl
  · unfold Grid.WF at hwf ⊢
    simp only [List.length_map]
    exact maskSelect_length_eq _ _ _ hwf
  · unfold Grid.WF at hwf
    simp only [atoms]
    rw [List.zip_map_left, maskSelect_zip _ _ _ hwf, maskSelect_zip_left _ _ _ hwf]
    simp only [hin]
    rfl
  · intro p hp
    simp only [Grid.throughProto] at hp
    obtain ⟨q, hq, rfl⟩ := List.mem_map.1 hp
    exact unit_f32 (hunit q hq)

/-- Errors of the four roundings of a round trip, in units of a rounding error of the largest coordinate. -/
theorem trip_err {η θ M lo hi p : K} {fl : K → K} (h : ∀ x, |fl x - x| ≤ |x| * η + θ) (hη : 0 < η)
    (hη' : η ≤ 1 / 1000) (hθ : 0 ≤ θ) (hθM : θ ≤ M * η / 1000) (hθη : θ ≤ η / 1000) (hlo : |lo| ≤ M) (hhi : |hi| ≤ M)
    (hp : lo ≤ p ∧ p ≤ hi) (hs : 0 < fl (hi - lo)) (hd0 : 0 ≤ fl (p - lo)) (hds : fl (p - lo) ≤ fl (hi - lo))
    (hq : 0 ≤ fl (fl (p - lo) / fl (hi - lo)) ∧ fl (fl (p - lo) / fl (hi - lo)) ≤ 1) :
    |fl (fl (fl (fl (p - lo) / fl (hi - lo)) * fl (hi - lo)) + lo) - p| ≤ 8 * (M * η) := by
  rw [abs_le] at hlo hhi
  have e1 := h (p - lo)
  have e2 := h (hi - lo)
  have e3 := h (fl (p - lo) / fl (hi - lo))
  set d := fl (p - lo) with hd
  set s := fl (hi - lo) with hs'
  set q := fl (d / s) with hq'
  have e4 := h (q * s)
  set t := fl (q * s) with ht
  have e5 := h (t + lo)
  obtain ⟨u, hu⟩ : ∃ u, u = M * η := ⟨_, rfl⟩
  have hM : 0 ≤ M := by linarith [hlo.1, hlo.2]
  have hu0 : 0 ≤ u := by rw [hu]; positivity
  have huM : u ≤ M / 1000 := by rw [hu]; nlinarith
  rw [← hu] at hθM ⊢
  -- p - lo
  have a1 : |p - lo| ≤ 2 * M := by rw [abs_of_nonneg (by linarith)]; linarith
  have b1 : |d - (p - lo)| ≤ 21 / 10 * u := by
    have := mul_le_mul_of_nonneg_right a1 hη.le
    have e : 2 * M * η = 2 * u := by rw [hu]; ring
    linarith
  have a2 : |hi - lo| ≤ 2 * M := by rw [abs_le]; constructor <;> linarith
  have b2 : s ≤ 21 / 10 * M := by
    have := mul_le_mul_of_nonneg_right a2 hη.le
    have e : 2 * M * η = 2 * u := by rw [hu]; ring
    have k := (abs_le.1 e2).2
    have k2 := (abs_le.1 a2).2
    linarith
  have hsη : s * η ≤ 21 / 10 * u := by
    have := mul_le_mul_of_nonneg_right b2 hη.le
    rw [hu]; linarith
  -- the quotient
  have a3 : |d / s| ≤ 1 := by
    rw [abs_of_nonneg (div_nonneg hd0 hs.le)]
    exact (div_le_one hs).2 hds
  have b3 : |q - d / s| ≤ 1001 / 1000 * η := by
    have := mul_le_mul_of_nonneg_right a3 hη.le
    linarith
  have c3 : |q * s - d| ≤ 22 / 10 * u := by
    have e : q * s - d = (q - d / s) * s := by field_simp
    rw [e, abs_mul, abs_of_pos hs]
    have := mul_le_mul_of_nonneg_right b3 hs.le
    have k : 1001 / 1000 * η * s = 1001 / 1000 * (s * η) := by ring
    linarith
  -- the product
  have a4 : |q * s| ≤ s := by
    rw [abs_of_nonneg (mul_nonneg hq.1 hs.le)]
    exact mul_le_of_le_one_left hs.le hq.2
  have b4 : |t - q * s| ≤ 22 / 10 * u := by
    have := mul_le_mul_of_nonneg_right a4 hη.le
    linarith
  -- the sum
  have c4 : |t + lo - p| ≤ 65 / 10 * u := by
    have e : t + lo - p = (t - q * s) + (q * s - d) + (d - (p - lo)) := by ring
    rw [e]
    refine (abs_add_le _ _).trans ?_
    have := abs_add_le (t - q * s) (q * s - d)
    linarith
  have a5 : |t + lo| ≤ 101 / 100 * M := by
    rw [abs_le] at c4 ⊢
    constructor <;> linarith [c4.1, c4.2]
  have b5 : |fl (t + lo) - (t + lo)| ≤ 103 / 100 * u := by
    have := mul_le_mul_of_nonneg_right a5 hη.le
    have e : 101 / 100 * M * η = 101 / 100 * u := by rw [hu]; ring
    linarith
  have e : fl (t + lo) - p = (fl (t + lo) - (t + lo)) + (t + lo - p) := by ring
  rw [e]
  refine (abs_add_le _ _).trans ?_
  linarith

/-- From the microscope to the material: the error of the conversion. -/
theorem scale_err {η θ M lo hi q : K} {fl : K → K} (h : ∀ x, |fl x - x| ≤ |x| * η + θ) (hη : 0 < η)
    (hη' : η ≤ 1 / 1000) (hθ : 0 ≤ θ) (hθM : θ ≤ M * η / 1000) (hlo : |lo| ≤ M) (hhi : |hi| ≤ M) (hlh : lo ≤ hi)
    (hq : 0 ≤ q ∧ q ≤ 1) : |fl (fl (q * fl (hi - lo)) + lo) - (lo + q * (hi - lo))| ≤ 8 * (M * η) := by
  rw [abs_le] at hlo hhi
  have e2 := h (hi - lo)
  set s := fl (hi - lo) with hs'
  have e4 := h (q * s)
  set t := fl (q * s) with ht
  have e5 := h (t + lo)
  obtain ⟨u, hu⟩ : ∃ u, u = M * η := ⟨_, rfl⟩
  have hM : 0 ≤ M := by linarith [hlo.1, hlo.2]
  have hu0 : 0 ≤ u := by rw [hu]; positivity
  have huM : u ≤ M / 1000 := by rw [hu]; nlinarith
  rw [← hu] at hθM ⊢
  have a2 : |hi - lo| ≤ 2 * M := by rw [abs_le]; constructor <;> linarith
  have b2 : |s - (hi - lo)| ≤ 21 / 10 * u := by
    have := mul_le_mul_of_nonneg_right a2 hη.le
    have e : 2 * M * η = 2 * u := by rw [hu]; ring
    linarith
  have c2 : |q * s - q * (hi - lo)| ≤ 21 / 10 * u := by
    rw [← mul_sub, abs_mul, abs_of_nonneg hq.1]
    exact (mul_le_of_le_one_left (abs_nonneg _) hq.2).trans b2
  have d2 : 0 ≤ q * (hi - lo) ∧ q * (hi - lo) ≤ hi - lo :=
    ⟨mul_nonneg hq.1 (by linarith), mul_le_of_le_one_left (by linarith) hq.2⟩
  have a4 : |q * s| ≤ 21 / 10 * M := by
    rw [abs_le] at c2 ⊢
    constructor <;> linarith [c2.1, c2.2, d2.1, d2.2]
  have b4 : |t - q * s| ≤ 22 / 10 * u := by
    have := mul_le_mul_of_nonneg_right a4 hη.le
    have e : 21 / 10 * M * η = 21 / 10 * u := by rw [hu]; ring
    linarith
  have c4 : |t + lo - (lo + q * (hi - lo))| ≤ 43 / 10 * u := by
    have e : t + lo - (lo + q * (hi - lo)) = (t - q * s) + (q * s - q * (hi - lo)) := by ring
    rw [e]
    refine (abs_add_le _ _).trans ?_
    linarith
  have a5 : |t + lo| ≤ 101 / 100 * M := by
    rw [abs_le] at c4 ⊢
    constructor <;> linarith [c4.1, c4.2, d2.1, d2.2]
  have b5 : |fl (t + lo) - (t + lo)| ≤ 103 / 100 * u := by
    have := mul_le_mul_of_nonneg_right a5 hη.le
    have e : 101 / 100 * M * η = 101 / 100 * u := by rw [hu]; ring
    linarith
  have e : fl (t + lo) - (lo + q * (hi - lo)) = (fl (t + lo) - (t + lo)) + (t + lo - (lo + q * (hi - lo))) := by ring
  rw [e]
  refine (abs_add_le _ _).trans ?_
  linarith

theorem small_theta {M : K} (hM : 2 ^ (-900 : ℤ) ≤ M) :
    (2 : K) ^ (-1075 : ℤ) ≤ M * 2 ^ (-53 : ℤ) / 1000 ∧ (2 : K) ^ (-1075 : ℤ) ≤ 2 ^ (-53 : ℤ) / 1000 := by
  have hf : (2 : K) ^ (-10 : ℤ) ≤ 1 / 1000 := by norm_num
  constructor
  · have h1 : (2 : K) ^ (-1075 : ℤ) ≤ 2 ^ (-900 : ℤ) * 2 ^ (-53 : ℤ) * 2 ^ (-10 : ℤ) := by
      rw [← zpow_add₀ (by norm_num), ← zpow_add₀ (by norm_num)]
      exact zpow_le_zpow_right₀ (by norm_num) (by norm_num)
    have h2 : (2 : K) ^ (-900 : ℤ) * 2 ^ (-53 : ℤ) ≤ M * 2 ^ (-53 : ℤ) := mul_le_mul_of_nonneg_right hM (by positivity)
    have h3 : 0 ≤ M * (2 : K) ^ (-53 : ℤ) := le_trans (by positivity) h2
    have h4 := mul_le_mul h2 hf (by positivity) h3
    refine h1.trans (h4.trans (le_of_eq ?_))
    ring
  · have h1 : (2 : K) ^ (-1075 : ℤ) ≤ 2 ^ (-53 : ℤ) * 2 ^ (-10 : ℤ) := by
      rw [← zpow_add₀ (by norm_num)]
      exact zpow_le_zpow_right₀ (by norm_num) (by norm_num)
    have h4 := mul_le_mul_of_nonneg_left hf (show (0 : K) ≤ 2 ^ (-53 : ℤ) by positivity)
    refine h1.trans (h4.trans (le_of_eq ?_))
    ring

/-- All coordinates of the corners are at most `M` in size. -/
def CornersWithin (M : K) (f : Fov K) : Prop :=
  (|f.lowerLeft.x| ≤ M ∧ |f.lowerLeft.y| ≤ M) ∧ (|f.upperRight.x| ≤ M ∧ |f.upperRight.y| ≤ M)

/-- A point in the field of view, converted to the frame of the microscope and back, is where it was up to
`M * 2 ^ -50` in both coordinates. -/
theorem C139_round_trip (f : Fov K) (hf : FloatRect f) (M : K) (hM : 2 ^ (-900 : ℤ) ≤ M) (hc : CornersWithin M f)
    (p : V2 K) (hp : Inside f.lowerLeft f.upperRight p) :
    |(f.floatToMaterial (f.floatToMicroscope p)).x - p.x| ≤ M * 2 ^ (-50 : ℤ) ∧
    |(f.floatToMaterial (f.floatToMicroscope p)).y - p.y| ≤ M * 2 ^ (-50 : ℤ) := by
  obtain ⟨hx, hy⟩ := hf.pos
  obtain ⟨t1, t2⟩ := small_theta hM
  have e8 : 8 * (M * (2 : K) ^ (-53 : ℤ)) = M * 2 ^ (-50 : ℤ) := by
    rw [show (2 : K) ^ (-50 : ℤ) = 2 ^ (-53 : ℤ) * 8 by norm_num]; ring
  rw [← e8]
  refine ⟨trip_err (fl := f64) abs_f64_sub_le (by positivity) (by norm_num) (by positivity) t1 t2 hc.1.1 hc.2.1 hp.1 hx
      (f64_nonneg (by linarith [hp.1.1])) (f64_mono (by linarith [hp.1.2])) (floatNormalise_unit hx hp.1),
    trip_err (fl := f64) abs_f64_sub_le (by positivity) (by norm_num) (by positivity) t1 t2 hc.1.2 hc.2.2 hp.2 hy
      (f64_nonneg (by linarith [hp.2.1])) (f64_mono (by linarith [hp.2.2])) (floatNormalise_unit hy hp.2)⟩

/-- A beam position from 0 to 1 is converted to a place in the material that is off by at most `M * 2 ^ -50`. -/
theorem C139_beam (f : Fov K) (hf : FloatRect f) (M : K) (hM : 2 ^ (-900 : ℤ) ≤ M) (hc : CornersWithin M f)
    (q : V2 K) (hq : InUnit q) :
    |(f.floatToMaterial q).x - (lerp f.lowerLeft f.upperRight q).x| ≤ M * 2 ^ (-50 : ℤ) ∧
    |(f.floatToMaterial q).y - (lerp f.lowerLeft f.upperRight q).y| ≤ M * 2 ^ (-50 : ℤ) := by
  obtain ⟨t1, -⟩ := small_theta hM
  have e8 : 8 * (M * (2 : K) ^ (-53 : ℤ)) = M * 2 ^ (-50 : ℤ) := by
    rw [show (2 : K) ^ (-50 : ℤ) = 2 ^ (-53 : ℤ) * 8 by norm_num]; ring
  rw [← e8]
  exact ⟨scale_err (fl := f64) abs_f64_sub_le (by positivity) (by norm_num) (by positivity) t1 hc.1.1 hc.2.1
      hf.width.le hq.1,
    scale_err (fl := f64) abs_f64_sub_le (by positivity) (by norm_num) (by positivity) t1 hc.1.2 hc.2.2
      hf.height.le hq.2⟩

/-- It need not be inside: in this field of view, the upper right corner of the frame of the microscope is converted to
a point beyond the upper right corner of the field of view. -/
theorem C139_beyond : ∃ f : Fov ℚ, FloatRect f ∧ f.upperRight.x < (f.floatToMaterial ⟨1, 1⟩).x ∧
    f.upperRight.y < (f.floatToMaterial ⟨1, 1⟩).y := by
  refine ⟨⟨⟨-1, -1⟩, ⟨3 / 2 ^ 54, 3 / 2 ^ 54⟩⟩, ⟨by decide +kernel, by norm_num, by norm_num⟩, ?_, ?_⟩ <;> decide +kernel

/-- The case is met by a field of view of 20 by 20 Å. -/
example : FloatRect (⟨⟨-10, -10⟩, ⟨10, 10⟩⟩ : Fov ℚ) ∧ CornersWithin 16 (⟨⟨-10, -10⟩, ⟨10, 10⟩⟩ : Fov ℚ) ∧
    Inside (⟨-10, -10⟩ : V2 ℚ) ⟨10, 10⟩ ⟨1, 2⟩ :=
  ⟨⟨by decide +kernel, by norm_num, by norm_num⟩, by unfold CornersWithin; decide +kernel, by decide +kernel⟩

end PD.Props
