/- The fields of view of the simulator with floating point numbers. -/
import Verif.Model.FloatSim
import Verif.Props.FloatSheet
import Verif.Props.FloatFrames
import Verif.Lemmas.FloatData

set_option linter.unusedSectionVars false
set_option linter.unusedSimpArgs false

namespace PD
open PD.Spec PD.Props

theorem f64_idem {K : Type} [Field K] [LinearOrder K] [IsStrictOrderedRing K] [FloorRing K] (x : K) :
    f64 (f64 x) = f64 x := by
  have hu := ulpOf_pos 53 (-1022) x
  have h1 := roundTo_le_zpow (b := 53) (e := -1022) (by norm_num) x
  have h2 := neg_zpow_le_roundTo (b := 53) (e := -1022) (by norm_num) x
  have h3 := zpow_eq_mul_ulp (b := 53) (e := -1022) (by norm_num) x
  rw [h3] at h1 h2
  set m := roundHalfEven (x / ulpOf 53 (-1022) x) with hm
  have hf : roundTo 53 (-1022) x = m * ulpOf 53 (-1022) x := rfl
  rw [hf] at h1 h2
  have m1 : m ≤ 2 ^ (53 : ℤ).toNat := by exact_mod_cast le_of_mul_le_mul_right h1 hu
  have m2 : -2 ^ (53 : ℤ).toNat ≤ m := by
    rw [← neg_mul] at h2
    exact_mod_cast le_of_mul_le_mul_right h2 hu
  obtain ⟨k, hk, hk'⟩ : ∃ k : ℤ, ulpOf 53 (-1022) x = (2 : K) ^ k ∧ -1022 - (53 - 1) ≤ k :=
    ⟨max (Int.log 2 |x|) (-1022) - (53 - 1), rfl, by omega⟩
  unfold f64
  rw [hf, hk]
  by_cases ha : |m| < 2 ^ (53 : ℤ).toNat
  · exact roundTo_of_mul 53 (-1022) m k ha (by norm_num) hk'
  · have : m = 2 ^ 53 ∨ m = -2 ^ 53 := by
      rw [abs_lt] at ha
      have e : (53 : ℤ).toNat = 53 := rfl
      rw [e] at ha m1 m2
      omega
    have e : (2 : K) ^ (k + 53) = 2 ^ k * 2 ^ 53 := by
      rw [zpow_add₀ (by norm_num)]; norm_cast
    rcases this with h | h
    · have := roundTo_of_mul (K := K) 53 (-1022) 1 (k + 53) (by decide) (by norm_num) (by omega)
      rw [e] at this
      rw [h]
      have e2 : ((2 ^ 53 : ℤ) : K) * 2 ^ k = ((1 : ℤ) : K) * (2 ^ k * 2 ^ 53) := by push_cast; ring
      rw [e2]
      exact this
    · have := roundTo_of_mul (K := K) 53 (-1022) (-1) (k + 53) (by decide) (by norm_num) (by omega)
      rw [e] at this
      rw [h]
      have e2 : ((-2 ^ 53 : ℤ) : K) * 2 ^ k = ((-1 : ℤ) : K) * (2 ^ k * 2 ^ 53) := by push_cast; ring
      rw [e2]
      exact this

/-- Half the bond length, as a floating point number, is not more than 0.71. -/
theorem floatBond_le : f64 (142 / 100 : ℝ) ≤ 142 / 100 := by
  have hlog : Int.log 2 |(142 / 100 : ℝ)| = 0 := by
    rw [abs_of_pos (by norm_num)]
    have a := (Int.zpow_le_iff_le_log (b := 2) (x := 0) (by norm_num) (by norm_num : (0 : ℝ) < 142 / 100)).1
      (by norm_num)
    have b := (Int.lt_zpow_iff_log_lt (b := 2) (x := 1) (by norm_num) (by norm_num : (0 : ℝ) < 142 / 100)).1
      (by norm_num)
    omega
  have hu : ulpOf 53 (-1022) (142 / 100 : ℝ) = 2 ^ (-52 : ℤ) := by
    unfold ulpOf
    rw [hlog]
    norm_num
  unfold f64 roundTo
  rw [hu]
  have hr : roundHalfEven (142 / 100 / 2 ^ (-52 : ℤ) : ℝ) = 6395111470866104 := by
    have hfl : ⌊(142 / 100 / 2 ^ (-52 : ℤ) : ℝ)⌋ = 6395111470866104 := by
      rw [Int.floor_eq_iff]
      norm_num
    unfold roundHalfEven
    rw [hfl]
    norm_num
  rw [hr]
  norm_num

/-- Two atoms of a generated sheet that are at most 3.75 Å apart are at most 3 Å apart. -/
theorem sheet_near (n : ℕ) (offset : V2 ℝ) (angle : ℝ) {p q : V2 ℝ} (hp : p ∈ layOutSheet n offset angle)
    (hq : q ∈ layOutSheet n offset angle) (h : Spec.dist p q ≤ 15 / 4) : Spec.dist p q ≤ 3 := by
  rw [layOutSheet_eq] at hp hq
  obtain ⟨u, hu, rfl⟩ := List.mem_map.1 hp
  obtain ⟨v, hv, rfl⟩ := List.mem_map.1 hq
  obtain ⟨X, Y, h1, _, rfl, _⟩ := (mem_hexagonalGrid n u).1 hu
  obtain ⟨X', Y', h1', _, rfl, _⟩ := (mem_hexagonalGrid n v).1 hv
  have hN0 : (0 : ℝ) ≤ (((X - X') ^ 2 + 3 * (Y - Y') ^ 2 : ℤ) : ℝ) / 4 := by positivity
  rw [motion_dist, dist_eq_sqrt, distSq_site] at h ⊢
  generalize hN : (X - X') ^ 2 + 3 * (Y - Y') ^ 2 = N at h hN0 ⊢
  have hs := Real.sq_sqrt hN0
  have hs0 := Real.sqrt_nonneg ((N : ℝ) / 4)
  have hle : N < 28 := by
    have : (N : ℝ) < 28 := by nlinarith
    exact_mod_cast this
  have hN16 : N ≤ 16 := by
    obtain ⟨a, ha⟩ : ∃ a, a = X - X' := ⟨_, rfl⟩
    obtain ⟨b, hb⟩ : ∃ b, b = Y - Y' := ⟨_, rfl⟩
    have hpar : a % 2 = b % 2 := by omega
    rw [← ha, ← hb] at hN
    rw [← hN] at hle ⊢
    have b1 : -3 ≤ b ∧ b ≤ 3 := by constructor <;> nlinarith
    have a1 : -5 ≤ a ∧ a ≤ 5 := by constructor <;> nlinarith
    obtain ⟨b1, b2⟩ := b1
    obtain ⟨a1, a2⟩ := a1
    by_contra hc
    clear hN
    interval_cases b <;> interval_cases a <;> omega
  have hN16' : (N : ℝ) ≤ 16 := by exact_mod_cast hN16
  nlinarith

/-! ### Fields of view -/

/-- The coordinates of the point are at most 6 micrometres. -/
def Moderate (p : V2 ℝ) : Prop := |p.x| ≤ 60000 ∧ |p.y| ≤ 60000

theorem fovEdge_err {c sc : ℝ} (hc : |c| ≤ 60000) (h15 : 15 ≤ sc) (h30 : sc ≤ 30) :
    |f64 (c - f64 (sc / 2)) - (c - sc / 2)| ≤ 2 / 10 ^ 10 ∧ |f64 (c + f64 (sc / 2)) - (c + sc / 2)| ≤ 2 / 10 ^ 10 := by
  have e1 := abs_le.1 (f64_err_big (x := sc / 2) (by rw [abs_of_nonneg (by linarith)]; linarith))
  rw [abs_le] at hc
  norm_num at e1
  have e2 := abs_le.1 (f64_err_big (x := c - f64 (sc / 2)) (by
    rw [abs_le]; constructor <;> linarith [hc.1, hc.2, e1.1, e1.2]))
  have e3 := abs_le.1 (f64_err_big (x := c + f64 (sc / 2)) (by
    rw [abs_le]; constructor <;> linarith [hc.1, hc.2, e1.1, e1.2]))
  norm_num at e2 e3 ⊢
  rw [abs_le, abs_le]
  refine ⟨⟨?_, ?_⟩, ?_, ?_⟩ <;> linarith [e1.1, e1.2, e2.1, e2.2, e3.1, e3.2]

/-- The corners of the field of view. -/
theorem floatCentredFov_err {c : V2 ℝ} {sc : ℝ} (hc : Moderate c) (h15 : 15 ≤ sc) (h30 : sc ≤ 30) :
    (|(floatCentredFov c sc).lowerLeft.x - (c.x - sc / 2)| ≤ 2 / 10 ^ 10 ∧
      |(floatCentredFov c sc).upperRight.x - (c.x + sc / 2)| ≤ 2 / 10 ^ 10) ∧
    |(floatCentredFov c sc).lowerLeft.y - (c.y - sc / 2)| ≤ 2 / 10 ^ 10 ∧
      |(floatCentredFov c sc).upperRight.y - (c.y + sc / 2)| ≤ 2 / 10 ^ 10 :=
  ⟨fovEdge_err hc.1 h15 h30, fovEdge_err hc.2 h15 h30⟩

theorem floatCentredFov_rect {c : V2 ℝ} {sc : ℝ} (hc : Moderate c) (h15 : 15 ≤ sc) (h30 : sc ≤ 30) :
    FloatRect (floatCentredFov c sc) := by
  obtain ⟨⟨a1, a2⟩, a3, a4⟩ := floatCentredFov_err hc h15 h30
  refine ⟨⟨f64_idem _, f64_idem _, f64_idem _, f64_idem _⟩, ?_, ?_⟩
  · rw [abs_le] at a1 a2; norm_num at a1 a2; linarith [a1.2, a2.1]
  · rw [abs_le] at a3 a4; norm_num at a3 a4; linarith [a3.2, a4.1]

/-- The error of the conversion of a point in a field of view of the simulator. -/
theorem normalise_err {lo hi p : ℝ} (hs : 14 ≤ hi - lo) (hs' : hi - lo ≤ 31) (hp : lo ≤ p ∧ p ≤ hi) :
    |floatNormalise lo hi p - (p - lo) / (hi - lo)| ≤ 1 / 10 ^ 9 := by
  have e1 := f64_err_big (x := p - lo) (by rw [abs_le]; constructor <;> linarith [hp.1, hp.2])
  have e2 := f64_err_big (x := hi - lo) (by rw [abs_le]; constructor <;> linarith)
  unfold floatNormalise
  have hD0 : 0 ≤ p - lo := by linarith [hp.1]
  have hDS : p - lo ≤ hi - lo := by linarith [hp.2]
  generalize f64 (p - lo) = d at *
  generalize f64 (hi - lo) = s at *
  generalize p - lo = D at *
  generalize hi - lo = S at *
  rw [abs_le] at e1 e2
  norm_num at e1 e2
  have hs13 : 13 ≤ s := by linarith [e2.1]
  have hq : |d / s - D / S| ≤ 5 / 10 ^ 10 := by
    have e : d / s - D / S = ((d - D) * S - D * (s - S)) / (s * S) := by
      field_simp
      ring
    rw [e, abs_div, abs_of_pos (by positivity : 0 < s * S), div_le_iff₀ (by positivity)]
    have a1 : |(d - D) * S| ≤ 1 / 10 ^ 10 * 31 := by
      rw [abs_mul, abs_of_nonneg (by linarith : 0 ≤ S)]
      refine mul_le_mul ?_ hs' (by linarith) (by norm_num)
      rw [abs_le]; norm_num; constructor <;> linarith [e1.1, e1.2]
    have a2 : |D * (s - S)| ≤ 31 * (1 / 10 ^ 10) := by
      rw [abs_mul, abs_of_nonneg hD0]
      refine mul_le_mul (by linarith) ?_ (abs_nonneg _) (by norm_num)
      rw [abs_le]; norm_num; constructor <;> linarith [e2.1, e2.2]
    have a3 : 182 ≤ s * S := by nlinarith
    have a4 := abs_sub ((d - D) * S) (D * (s - S))
    refine (a4.trans (add_le_add a1 a2)).trans ?_
    norm_num
    linarith
  have hDS1 : 0 ≤ D / S ∧ D / S ≤ 1 := ⟨by positivity, by rw [div_le_one (by linarith)]; exact hDS⟩
  rw [abs_le] at hq
  norm_num at hq
  have e3 := abs_le.1 (f64_err_small (x := d / s) (by rw [abs_le]; constructor <;> linarith [hq.1, hq.2]))
  rw [abs_le]
  norm_num at e3 ⊢
  constructor <;> linarith [hq.1, hq.2, e3.1, e3.2]

/-- A field of view of the simulator, near enough the origin. -/
structure SoundView (f : Fov ℝ) : Prop where
  rect : FloatRect f
  width : 14999 / 1000 ≤ f.upperRight.x - f.lowerLeft.x ∧ f.upperRight.x - f.lowerLeft.x ≤ 30001 / 1000
  height : 14999 / 1000 ≤ f.upperRight.y - f.lowerLeft.y ∧ f.upperRight.y - f.lowerLeft.y ≤ 30001 / 1000

theorem floatCentredFov_sound {c : V2 ℝ} {sc : ℝ} (hc : Moderate c) (h15 : 15 ≤ sc) (h30 : sc ≤ 30) :
    SoundView (floatCentredFov c sc) := by
  have hr := floatCentredFov_rect hc h15 h30
  obtain ⟨⟨a1, a2⟩, a3, a4⟩ := floatCentredFov_err hc h15 h30
  rw [abs_le] at a1 a2 a3 a4
  norm_num at a1 a2 a3 a4
  refine ⟨hr, ⟨?_, ?_⟩, ?_, ?_⟩ <;> linarith [a1.1, a1.2, a2.1, a2.2, a3.1, a3.2, a4.1, a4.2]

/-- The centre of the field of view is shown in its middle. -/
theorem floatCentredFov_centre {c : V2 ℝ} {sc : ℝ} (hc : Moderate c) (h15 : 15 ≤ sc) (h30 : sc ≤ 30) :
    (∀ p : V2 ℝ, |p.x - c.x| ≤ 374 / 100 → |p.y - c.y| ≤ 374 / 100 →
      Inside (floatCentredFov c sc).lowerLeft (floatCentredFov c sc).upperRight p) ∧
    (∀ p : V2 ℝ, Spec.dist c p ≤ 7499 / 1000 →
      Inside (floatCentredFov c sc).lowerLeft (floatCentredFov c sc).upperRight p) ∧
    InSafeArea ((floatCentredFov c sc).floatToMicroscope c) := by
  have hv := floatCentredFov_sound hc h15 h30
  obtain ⟨⟨a1, a2⟩, a3, a4⟩ := floatCentredFov_err hc h15 h30
  set f := floatCentredFov c sc
  rw [abs_le] at a1 a2 a3 a4
  norm_num at a1 a2 a3 a4
  have hin : ∀ p : V2 ℝ, |p.x - c.x| ≤ 7499 / 1000 → |p.y - c.y| ≤ 7499 / 1000 →
      Inside f.lowerLeft f.upperRight p := by
    intro p hx hy
    rw [abs_le] at hx hy
    refine ⟨⟨?_, ?_⟩, ?_, ?_⟩ <;>
      linarith [a1.1, a1.2, a2.1, a2.2, a3.1, a3.2, a4.1, a4.2, hx.1, hx.2, hy.1, hy.2]
  refine ⟨fun p hx hy => hin p (hx.trans (by norm_num)) (hy.trans (by norm_num)), fun p hp => hin p ?_ ?_, ?_⟩
  · rw [abs_sub_comm]; exact (abs_x_le_dist c p).trans hp
  · rw [abs_sub_comm]; exact (abs_y_le_dist c p).trans hp
  · have hc' := hin c (by simp; norm_num) (by simp; norm_num)
    have key : ∀ {lo hi p : ℝ}, 14 ≤ hi - lo → hi - lo ≤ 31 → lo ≤ p ∧ p ≤ hi → |hi - p - (p - lo)| ≤ 1 / 10 ^ 3 →
        1 / 4 ≤ floatNormalise lo hi p ∧ floatNormalise lo hi p ≤ 3 / 4 := by
      intro lo hi p h1 h2 h3 h4
      have e := abs_le.1 (normalise_err h1 h2 h3)
      rw [abs_le] at h4
      have q1 : 3 / 10 ≤ (p - lo) / (hi - lo) := by rw [le_div_iff₀ (by linarith)]; linarith [h4.2]
      have q2 : (p - lo) / (hi - lo) ≤ 7 / 10 := by rw [div_le_iff₀ (by linarith)]; linarith [h4.1]
      norm_num at e
      constructor <;> linarith [e.1, e.2]
    refine ⟨key (by linarith [hv.width.1]) (by linarith [hv.width.2]) hc'.1 ?_,
      key (by linarith [hv.height.1]) (by linarith [hv.height.2]) hc'.2 ?_⟩ <;> rw [abs_le] <;> constructor <;>
      linarith [a1.1, a1.2, a2.1, a2.2, a3.1, a3.2, a4.1, a4.2]

/-- Around a point shown in the safe area nearly 3.75 Å can be seen in all directions. -/
theorem safe_margin {f : Fov ℝ} (hf : SoundView f) {si : V2 ℝ} (hin : Inside f.lowerLeft f.upperRight si)
    (hs : InSafeArea (f.floatToMicroscope si)) (p : V2 ℝ) (hx : |p.x - si.x| ≤ 374 / 100)
    (hy : |p.y - si.y| ≤ 374 / 100) : Inside f.lowerLeft f.upperRight p := by
  have key : ∀ {lo hi s q : ℝ}, 14999 / 1000 ≤ hi - lo → hi - lo ≤ 30001 / 1000 → lo ≤ s ∧ s ≤ hi →
      (1 / 4 ≤ floatNormalise lo hi s ∧ floatNormalise lo hi s ≤ 3 / 4) → |q - s| ≤ 374 / 100 → lo ≤ q ∧ q ≤ hi := by
    intro lo hi s q h1 h2 h3 h4 h5
    have e := abs_le.1 (normalise_err (by linarith) (by linarith) h3)
    norm_num at e
    have hpos : 0 < hi - lo := by linarith
    have q1 : 1 / 4 - 1 / 10 ^ 6 ≤ (s - lo) / (hi - lo) := by norm_num; linarith [e.1, e.2, h4.1]
    have q2 : (s - lo) / (hi - lo) ≤ 3 / 4 + 1 / 10 ^ 6 := by norm_num; linarith [e.1, e.2, h4.2]
    rw [le_div_iff₀ hpos] at q1
    rw [div_le_iff₀ hpos] at q2
    rw [abs_le] at h5
    norm_num at q1 q2
    constructor <;> nlinarith [h5.1, h5.2]
  exact ⟨key hf.width.1 hf.width.2 hin.1 hs.1 hx, key hf.height.1 hf.height.2 hin.2 hs.2 hy⟩

/-- Where an atom is shown, put back on the sheet, is where it is. -/
theorem shown_back {f : Fov ℝ} (hf : SoundView f) {p : V2 ℝ} (hp : Inside f.lowerLeft f.upperRight p) :
    Spec.dist p (lerp f.lowerLeft f.upperRight (f.floatToMicroscope p)) ≤ 1 / 10 ^ 7 := by
  have key : ∀ {lo hi s : ℝ}, 14999 / 1000 ≤ hi - lo → hi - lo ≤ 30001 / 1000 → lo ≤ s ∧ s ≤ hi →
      |lo + floatNormalise lo hi s * (hi - lo) - s| ≤ 4 / 10 ^ 8 := by
    intro lo hi s h1 h2 h3
    have e := normalise_err (by linarith) (by linarith) h3
    have hpos : 0 < hi - lo := by linarith
    have e2 : lo + floatNormalise lo hi s * (hi - lo) - s = (floatNormalise lo hi s - (s - lo) / (hi - lo)) * (hi - lo) := by
      field_simp
      ring
    rw [e2, abs_mul, abs_of_pos hpos]
    refine (mul_le_mul e (h2.trans (by norm_num : (30001 / 1000 : ℝ) ≤ 40)) hpos.le (by norm_num)).trans ?_
    norm_num
  refine (dist_le_abs _ _).trans ?_
  have a := key hf.width.1 hf.width.2 hp.1
  have b := key hf.height.1 hf.height.2 hp.2
  refine (add_le_add a b).trans ?_
  norm_num

/-- The places of a generated sheet are within 33000 Å of the origin. -/
theorem layOut_bound {n : ℕ} (hn : n ≤ 4096) {offset : V2 ℝ} (hx : |offset.x| ≤ 1) (hy : |offset.y| ≤ 1) (angle : ℝ)
    {p : V2 ℝ} (hp : p ∈ layOutSheet n offset angle) : |p.x| ≤ 33000 ∧ |p.y| ≤ 33000 := by
  have hlen := hexPlaces_length hn
  unfold layOutSheet at hp
  simp only [hexagonalGrid_places, List.map_map, meanPoint, List.length_map] at hp
  obtain ⟨i, hi, rfl⟩ := List.mem_map.1 hp
  have hxs := fun j hj => scaled_err (place_err hn (i := j) hj).1 (place_err hn (i := j) hj).2.2.1
  have hys := fun j hj => scaled_err (place_err hn (i := j) hj).2.1 (place_err hn (i := j) hj).2.2.2
  obtain ⟨_, bx⟩ := centre_err inOrder hlen (fun j hj => (hxs j hj).2) (fun j hj => (hxs j hj).1) hx hi
  obtain ⟨_, by'⟩ := centre_err inOrder hlen (fun j hj => (hys j hj).2) (fun j hj => (hys j hj).1) hy hi
  have key : ∀ {a b c d : ℝ}, |a| ≤ 16001 → |c| ≤ 1 → |b| ≤ 16001 → |d| ≤ 1 → |a * c + b * d| ≤ 33000 := by
    intro a b c d h1 h2 h3 h4
    have e1 : |a * c| ≤ 16001 * 1 := by rw [abs_mul]; exact mul_le_mul h1 h2 (abs_nonneg _) (by norm_num)
    have e2 : |b * d| ≤ 16001 * 1 := by rw [abs_mul]; exact mul_le_mul h3 h4 (abs_nonneg _) (by norm_num)
    refine ((abs_add_le _ _).trans (add_le_add e1 e2)).trans ?_
    norm_num
  have c1 := Real.abs_cos_le_one angle
  have s1 := Real.abs_sin_le_one angle
  exact ⟨key bx c1 by' s1, key bx (by rw [abs_neg]; exact s1) by' c1⟩

theorem floatLayOut_moderate (T : FloatTrig) (S : Summation) (k : DotKind) {n : ℕ} (hn : n ≤ 4096) {offset : V2 ℝ}
    (hx : |offset.x| ≤ 1) (hy : |offset.y| ≤ 1) (angle : ℝ) {p : V2 ℝ}
    (hp : p ∈ floatLayOut T S k n offset angle) : Moderate p := by
  obtain ⟨i, hi⟩ := List.mem_iff_getElem?.1 hp
  have hD := C141_sheet T S k hn offset hx hy angle
  have hl := hD.length_eq
  obtain ⟨hi1, hi2⟩ := List.getElem?_eq_some_iff.1 hi
  have hq := (List.forall₂_iff_get.1 hD).2 i (by omega) hi1
  have hm : (layOutSheet n offset angle)[i]'(by omega) ∈ layOutSheet n offset angle := List.getElem_mem _
  obtain ⟨b1, b2⟩ := layOut_bound hn hx hy angle hm
  simp only [List.get_eq_getElem, hi2] at hq
  have ex := (abs_x_le_dist _ _).trans hq
  have ey := (abs_y_le_dist _ _).trans hq
  rw [abs_le] at ex ey b1 b2
  unfold Moderate
  rw [abs_le, abs_le]
  refine ⟨⟨?_, ?_⟩, ?_, ?_⟩ <;> linarith [ex.1, ex.2, ey.1, ey.2, b1.1, b1.2, b2.1, b2.2]

/-- What a run of the generation lays out. -/
theorem floatGenerate_eq (T : FloatTrig) (S : Summation) (k : DotKind) {rng : Rng ℝ G} (hl : rng.Lawful) (n : ℕ) (g : G) :
    ∃ offset angle, |offset.x| ≤ 71 / 100 ∧ |offset.y| ≤ 71 / 100 ∧
      (floatGenerate T S k rng n g).1 = floatLayOut T S k n offset angle := by
  have h0 : (0 : ℝ) ≤ f64 (142 / 100) := f64_nonneg (by norm_num)
  have hb := floatBond_le
  have key : ∀ g, |(rng.uniform (-(f64 (142 / 100) / 2)) (f64 (142 / 100) / 2) g).1| ≤ 71 / 100 := by
    intro g
    have := hl.uniform_mem (-(f64 (142 / 100) / 2)) (f64 (142 / 100) / 2) g (by linarith)
    rw [abs_le]
    constructor <;> linarith [this.1, this.2]
  exact ⟨⟨_, _⟩, _, key _, key _, rfl⟩

end PD
