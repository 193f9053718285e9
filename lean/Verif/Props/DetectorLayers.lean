/- C90: the layers the stand-alone detector makes from the network's probabilities. -/
import Verif.Model.DetectorLayers
import Verif.Props.Detector
import Mathlib.Tactic.Linarith
import Mathlib.Tactic.NormNum

set_option linter.unusedSectionVars false
set_option linter.unusedSimpArgs false

namespace PD.Props
open PD

/-- The bits stand for a probability. -/
def IsProbability (x : F32) (v : ℚ) : Prop := x.value = some v ∧ x.neg = false ∧ v ≤ 1

theorem value_pos {x : F32} (h : x.neg = false) :
    x.value = if x.exp.toNat = 255 then none
      else if x.exp.toNat = 0 then some ((x.man.toNat : ℚ) / 2 ^ 149)
      else some (((2 ^ 23 + x.man.toNat : ℕ) : ℚ) * 2 ^ x.exp.toNat / 2 ^ 150) := by
  simp [F32.value, h]

theorem pow_le_pow_two {a b : ℕ} (h : a ≤ b) : (2 : ℚ) ^ a ≤ 2 ^ b := by
  exact_mod_cast Nat.pow_le_pow_right (by norm_num : 0 < 2) h

/-- A number that is not negative is truncated to one exactly if its exponent is that of one. -/
theorem truncatesToOne_iff {x : F32} (h : x.neg = false) : x.truncatesToOne = true ↔ x.exp.toNat = 127 := by
  have hm : (x.man.toNat : ℚ) < 8388608 := by exact_mod_cast x.man.isLt
  have hm0 : (0 : ℚ) ≤ x.man.toNat := by positivity
  have he := x.exp.isLt
  unfold F32.truncatesToOne
  rw [value_pos h]
  by_cases h1 : x.exp.toNat = 255
  · simp [h1]
  by_cases h2 : x.exp.toNat = 0
  · have : (x.man.toNat : ℚ) / 2 ^ 149 < 1 := by
      rw [div_lt_one (by norm_num)]; exact hm.trans (by norm_num)
    simp only [h2, if_true, OfNat.zero_ne_ofNat, if_false, decide_eq_true_eq, iff_false, not_and]
    intro h3; linarith
  simp only [h1, h2, if_false, decide_eq_true_eq]
  rw [le_div_iff₀ (by norm_num), div_lt_iff₀ (by norm_num)]
  push_cast
  constructor
  · rintro ⟨h3, h4⟩
    by_contra hne
    rcases Nat.lt_or_gt_of_ne hne with hlt | hgt
    · have hp := pow_le_pow_two (show x.exp.toNat ≤ 126 by omega)
      have : ((2 : ℚ) ^ 23 + x.man.toNat) * 2 ^ x.exp.toNat < 2 ^ 24 * 2 ^ 126 :=
        lt_of_le_of_lt (mul_le_mul_of_nonneg_left hp (by positivity))
          (mul_lt_mul_of_pos_right (by norm_num; linarith) (by norm_num))
      norm_num at this h3 h4
      linarith
    · have hp := pow_le_pow_two (show 128 ≤ x.exp.toNat by omega)
      have : (2 : ℚ) ^ 23 * 2 ^ 128 ≤ ((2 : ℚ) ^ 23 + x.man.toNat) * 2 ^ x.exp.toNat :=
        mul_le_mul (by linarith) hp (by positivity) (by positivity)
      norm_num at this h3 h4
      linarith
  · intro h3
    rw [h3]
    norm_num
    constructor <;> linarith

theorem xor_zero (x : F32) : x.xor F32.zero = x := by
  simp [F32.xor, F32.zero]

/-- A pixel outside the region counts as silicon exactly if its probability is one. -/
theorem countsAsSilicon_outside {x : F32} {v : ℚ} (hx : IsProbability x v) :
    countsAsSilicon false x = true ↔ v = 1 := by
  obtain ⟨hv, hn, h1⟩ := hx
  have hm0 : (0 : ℚ) ≤ x.man.toNat := by positivity
  have hm : (x.man.toNat : ℚ) < 8388608 := by exact_mod_cast x.man.isLt
  simp only [countsAsSilicon, Bool.false_eq_true, if_false, xor_zero]
  constructor
  · intro h
    have he := (truncatesToOne_iff hn).1 h
    unfold F32.truncatesToOne at h
    rw [hv] at h
    simp only [decide_eq_true_eq] at h
    linarith [h.1]
  · rintro rfl
    unfold F32.truncatesToOne
    rw [hv]
    norm_num

/-- A pixel in the region counts as silicon exactly if its probability is (nearly) zero. -/
theorem countsAsSilicon_inside {x : F32} {v : ℚ} (hx : IsProbability x v) :
    countsAsSilicon true x = true ↔ v < 1 / 2 ^ 126 := by
  obtain ⟨hv, hn, h1⟩ := hx
  have hm0 : (0 : ℚ) ≤ x.man.toNat := by positivity
  have hm : (x.man.toNat : ℚ) < 8388608 := by exact_mod_cast x.man.isLt
  have hneg : (x.xor F32.one).neg = false := by simp [F32.xor, F32.one, hn]
  simp only [countsAsSilicon, if_true]
  rw [truncatesToOne_iff hneg]
  have hexp : (x.xor F32.one).exp.toNat = 127 ↔ x.exp.toNat = 0 := by
    have : ∀ e : BitVec 8, ((e ^^^ 127).toNat = 127 ↔ e.toNat = 0) := by decide
    exact this x.exp
  rw [hexp]
  rw [value_pos hn] at hv
  split_ifs at hv with h2 h3
  · simp only [Option.some.injEq] at hv
    simp only [h3, true_iff]
    rw [← hv, div_lt_div_iff₀ (by norm_num) (by norm_num)]
    norm_num
    linarith
  · simp only [Option.some.injEq] at hv
    simp only [h3, false_iff, not_lt]
    rw [← hv, div_le_div_iff₀ (by norm_num) (by norm_num)]
    have hp := pow_le_pow_two (show 1 ≤ x.exp.toNat by omega)
    have : (2 : ℚ) ^ 23 * 2 ^ 1 ≤ ((2 : ℚ) ^ 23 + x.man.toNat) * 2 ^ x.exp.toNat :=
      mul_le_mul (by linarith) hp (by positivity) (by positivity)
    push_cast
    norm_num at this ⊢
    linarith

/-! ### Dilating and eroding -/

/-- A pixel at most `n` rows above and `n` columns to the left of another. -/
def UpLeft (n : ℕ) (p q : ℕ × ℕ) : Prop := q.1 ≤ p.1 ∧ p.1 ≤ q.1 + n ∧ q.2 ≤ p.2 ∧ p.2 ≤ q.2 + n

/-- An image of `h` rows of `w` pixels. -/
def Sized {α : Type} (h w : ℕ) (image : List (List α)) : Prop := image.length = h ∧ ∀ row ∈ image, row.length = w

theorem isSet_mapIdx_iff {h w : ℕ} {mask : List (List Bool)} (hs : Sized h w mask) (f : ℕ → ℕ → Bool → Bool)
    (p : ℕ × ℕ) :
    isSet (mask.mapIdx (fun r row => row.mapIdx (fun c v => f r c v))) p = true ↔
      p.1 < h ∧ p.2 < w ∧ f p.1 p.2 (isSet mask p) = true := by
  obtain ⟨r, c⟩ := p
  unfold isSet
  simp only [List.getD_eq_getElem?_getD, List.getElem?_mapIdx]
  by_cases hr : r < mask.length
  · have hw := hs.2 _ (List.getElem_mem hr)
    by_cases hc : c < w
    · have : c < mask[r].length := by omega
      simp [hr, this, hc, hs.1.symm]
    · have : ¬ c < mask[r].length := by omega
      simp [hr, this, hc, hs.1.symm]
  · have : ¬ r < h := by rw [← hs.1]; exact hr
    simp [hr, this]

theorem sized_mapIdx {h w : ℕ} {mask : List (List Bool)} (hs : Sized h w mask) (f : ℕ → ℕ → Bool → Bool) :
    Sized h w (mask.mapIdx (fun r row => row.mapIdx (fun c v => f r c v))) := by
  refine ⟨by simp [hs.1], ?_⟩
  intro row hrow
  obtain ⟨i, hi, rfl⟩ := List.mem_mapIdx.1 hrow
  simp [hs.2 _ (List.getElem_mem hi)]

theorem isSet_lt {h w : ℕ} {mask : List (List Bool)} (hs : Sized h w mask) {p : ℕ × ℕ}
    (hp : isSet mask p = true) : p.1 < h ∧ p.2 < w := by
  obtain ⟨r, c⟩ := p
  unfold isSet at hp
  simp only [List.getD_eq_getElem?_getD] at hp
  by_cases hr : r < mask.length
  · have hw := hs.2 _ (List.getElem_mem hr)
    by_cases hc : c < mask[r].length
    · exact ⟨hs.1 ▸ hr, hw ▸ hc⟩
    · simp [hr, hc] at hp
  · simp [hr] at hp

theorem isSet_dilateOnce {h w : ℕ} {mask : List (List Bool)} (hs : Sized h w mask) (p : ℕ × ℕ) :
    isSet (dilateOnce mask) p = true ↔ p.1 < h ∧ p.2 < w ∧ ∃ q, UpLeft 1 p q ∧ isSet mask q = true := by
  unfold dilateOnce
  rw [isSet_mapIdx_iff hs (fun r c v => v || (decide (r ≠ 0) && isSet mask (r - 1, c)) ||
    (decide (c ≠ 0) && isSet mask (r, c - 1)) ||
    (decide (r ≠ 0) && decide (c ≠ 0) && isSet mask (r - 1, c - 1)))]
  refine and_congr_right fun _ => and_congr_right fun _ => ?_
  simp only [Bool.or_eq_true, Bool.and_eq_true, decide_eq_true_eq]
  constructor
  · rintro (((h1 | ⟨h1, h2⟩) | ⟨h1, h2⟩) | ⟨⟨h1, h2⟩, h3⟩)
    · exact ⟨p, ⟨by omega, by omega, by omega, by omega⟩, h1⟩
    · exact ⟨_, ⟨by simp, by simp; omega, by simp, by simp⟩, h2⟩
    · exact ⟨_, ⟨by simp, by simp, by simp, by simp; omega⟩, h2⟩
    · exact ⟨_, ⟨by simp, by simp; omega, by simp, by simp; omega⟩, h3⟩
  · rintro ⟨⟨a, b⟩, ⟨h1, h2, h3, h4⟩, hq⟩
    obtain ⟨r, c⟩ := p
    simp only at *
    by_cases ha : a = r <;> by_cases hb : b = c
    · subst ha hb; exact .inl (.inl (.inl hq))
    · subst ha
      have : b = c - 1 := by omega
      subst this
      exact .inl (.inr ⟨by omega, hq⟩)
    · subst hb
      have : a = r - 1 := by omega
      subst this
      exact .inl (.inl (.inr ⟨by omega, hq⟩))
    · have : a = r - 1 := by omega
      have : b = c - 1 := by omega
      subst_vars
      exact .inr ⟨⟨by omega, by omega⟩, hq⟩

theorem isSet_erodeOnce_iff {h w : ℕ} {mask : List (List Bool)} (hs : Sized h w mask) (p : ℕ × ℕ) :
    isSet (erodeOnce mask) p = true ↔ ∀ q, UpLeft 1 p q → isSet mask q = true := by
  unfold erodeOnce
  rw [isSet_mapIdx_iff hs (fun r c v => v && (decide (r = 0) || isSet mask (r - 1, c)) &&
    (decide (c = 0) || isSet mask (r, c - 1)) &&
    (decide (r = 0) || decide (c = 0) || isSet mask (r - 1, c - 1)))]
  simp only [Bool.or_eq_true, Bool.and_eq_true, decide_eq_true_eq]
  constructor
  · rintro ⟨-, -, ⟨⟨h0, h1⟩, h2⟩, h3⟩ ⟨a, b⟩ ⟨k1, k2, k3, k4⟩
    obtain ⟨r, c⟩ := p
    simp only at *
    by_cases ha : a = r <;> by_cases hb : b = c
    · subst ha hb; exact h0
    · have : b = c - 1 := by omega
      subst_vars
      exact h2.resolve_left (by omega)
    · have : a = r - 1 := by omega
      subst_vars
      exact h1.resolve_left (by omega)
    · have : a = r - 1 := by omega
      have : b = c - 1 := by omega
      subst_vars
      exact h3.resolve_left (by omega)
  · intro hq
    have h0 := hq p ⟨by omega, by omega, by omega, by omega⟩
    refine ⟨(isSet_lt hs h0).1, (isSet_lt hs h0).2, ⟨⟨h0, .inr ?_⟩, .inr ?_⟩, .inr ?_⟩
    all_goals
      apply hq
      refine ⟨?_, ?_, ?_, ?_⟩ <;> simp <;> omega

theorem isSet_dilate {h w : ℕ} (n : ℕ) {mask : List (List Bool)} (hs : Sized h w mask) (p : ℕ × ℕ) :
    isSet (dilate n mask) p = true ↔ p.1 < h ∧ p.2 < w ∧ ∃ q, UpLeft n p q ∧ isSet mask q = true := by
  induction n generalizing mask with
  | zero =>
    constructor
    · intro hp
      exact ⟨(isSet_lt hs hp).1, (isSet_lt hs hp).2, p, ⟨by omega, by omega, by omega, by omega⟩, hp⟩
    · rintro ⟨-, -, q, ⟨h1, h2, h3, h4⟩, hq⟩
      have : q = p := Prod.ext (by omega) (by omega)
      exact this ▸ hq
  | succ n ih =>
    rw [dilate, ih (show Sized h w (dilateOnce mask) from sized_mapIdx hs _)]
    refine and_congr_right fun k1 => and_congr_right fun k2 => ?_
    constructor
    · rintro ⟨q, ⟨h1, h2, h3, h4⟩, hq⟩
      obtain ⟨-, -, s, ⟨g1, g2, g3, g4⟩, hsq⟩ := (isSet_dilateOnce hs q).1 hq
      exact ⟨s, ⟨by omega, by omega, by omega, by omega⟩, hsq⟩
    · rintro ⟨s, ⟨g1, g2, g3, g4⟩, hsq⟩
      refine ⟨(min p.1 (s.1 + 1), min p.2 (s.2 + 1)), ⟨by simp, by simp; omega, by simp, by simp; omega⟩, ?_⟩
      rw [isSet_dilateOnce hs]
      refine ⟨by simp; omega, by simp; omega, s, ⟨by simp; omega, by simp, by simp; omega, by simp⟩, hsq⟩

theorem isSet_erode_iff {h w : ℕ} (n : ℕ) {mask : List (List Bool)} (hs : Sized h w mask) (p : ℕ × ℕ) :
    isSet (erode n mask) p = true ↔ ∀ q, UpLeft n p q → isSet mask q = true := by
  induction n generalizing mask with
  | zero =>
    constructor
    · rintro hp q ⟨h1, h2, h3, h4⟩
      have : q = p := Prod.ext (by omega) (by omega)
      exact this ▸ hp
    · intro hq
      exact hq p ⟨by omega, by omega, by omega, by omega⟩
  | succ n ih =>
    rw [erode, ih (show Sized h w (erodeOnce mask) from sized_mapIdx hs _)]
    constructor
    · rintro hq s ⟨g1, g2, g3, g4⟩
      have := hq (min p.1 (s.1 + 1), min p.2 (s.2 + 1)) ⟨by simp, by simp; omega, by simp, by simp; omega⟩
      exact (isSet_erodeOnce_iff hs _).1 this s ⟨by simp; omega, by simp, by simp; omega, by simp⟩
    · rintro hq q ⟨h1, h2, h3, h4⟩
      rw [isSet_erodeOnce_iff hs]
      rintro s ⟨g1, g2, g3, g4⟩
      exact hq s ⟨by omega, by omega, by omega, by omega⟩

theorem sized_dilate {h w : ℕ} (n : ℕ) {mask : List (List Bool)} (hs : Sized h w mask) :
    Sized h w (dilate n mask) := by
  induction n generalizing mask with
  | zero => exact hs
  | succ n ih => exact ih (sized_mapIdx hs _)

theorem sized_erode {h w : ℕ} (n : ℕ) {mask : List (List Bool)} (hs : Sized h w mask) :
    Sized h w (erode n mask) := by
  induction n generalizing mask with
  | zero => exact hs
  | succ n ih => exact ih (sized_mapIdx hs _)

/-! ### The property -/

/-- The number at a pixel of an image of single-precision numbers. -/
def At (image : List (List F32)) (p : ℕ × ℕ) (x : F32) : Prop := ∃ row, image[p.1]? = some row ∧ row[p.2]? = some x

/-- The network sees carbon at a pixel: the probability is above 0.025 (in single precision). -/
def CarbonAt (carbon : List (List F32)) (p : ℕ × ℕ) : Prop :=
  ∃ x v, At carbon p x ∧ x.value = some v ∧ (13421773 : ℚ) / 2 ^ 29 < v

/-- The pixels the code takes for surroundings of carbon. -/
def NearCarbon (carbon : List (List F32)) (p : ℕ × ℕ) : Prop :=
  ∀ q, UpLeft 2 p q → ∃ s, UpLeft 4 q s ∧ CarbonAt carbon s

theorem isSet_map {image : List (List F32)} (f : F32 → Bool) (p : ℕ × ℕ) :
    isSet (image.map (fun row => row.map f)) p = true ↔ ∃ x, At image p x ∧ f x = true := by
  obtain ⟨r, c⟩ := p
  unfold isSet At
  simp only [List.getD_eq_getElem?_getD, List.getElem?_map]
  cases hr : image[r]? with
  | none => simp
  | some row =>
    cases hc : row[c]? with
    | none => simp [hc]
    | some x => simp [hc]

theorem sized_map {h w : ℕ} {image : List (List F32)} (hs : Sized h w image) (f : F32 → Bool) :
    Sized h w (image.map (fun row => row.map f)) := by
  refine ⟨by simp [hs.1], ?_⟩
  intro row hrow
  obtain ⟨r, hr, rfl⟩ := List.mem_map.1 hrow
  simp [hs.2 r hr]

/-- C90, the carbon layer: a pixel is in it exactly if the network sees carbon there. -/
theorem C90_carbon_partial (carbon silicon : List (List F32)) (p : ℕ × ℕ) :
    isSet (detectorLayers carbon silicon).1 p = true ↔ CarbonAt carbon p := by
  simp only [detectorLayers, isSet_map, CarbonAt]
  refine exists_congr fun x => ?_
  unfold carbonLikely
  cases x.value with
  | none => simp
  | some v => simp

/-- C90, the silicon layer: away from carbon a pixel is in it exactly if the probability of silicon is one, and
near carbon exactly if it is (nearly) zero. -/
theorem C90_silicon (h w : ℕ) (carbon silicon : List (List F32)) (hc : Sized h w carbon) (hs : Sized h w silicon)
    (p : ℕ × ℕ) (x : F32) (v : ℚ) (hx : At silicon p x) (hv : IsProbability x v) :
    isSet (detectorLayers carbon silicon).2 p = true ↔
      (¬ NearCarbon carbon p ∧ v = 1) ∨ (NearCarbon carbon p ∧ v < 1 / 2 ^ 126) := by
  have hmask := sized_map hc carbonLikely
  have hlt : p.1 < h ∧ p.2 < w := by
    obtain ⟨row, h1, h2⟩ := hx
    obtain ⟨h3, h4⟩ := List.getElem?_eq_some_iff.1 h1
    obtain ⟨h5, -⟩ := List.getElem?_eq_some_iff.1 h2
    exact ⟨hs.1 ▸ h3, by rw [← hs.2 row (h4 ▸ List.getElem_mem h3)]; exact h5⟩
  have hregion : isSet (carbonRegion (carbon.map (fun row => row.map carbonLikely))) p = true ↔
      NearCarbon carbon p := by
    unfold carbonRegion NearCarbon
    rw [isSet_erode_iff 2 (sized_dilate 4 hmask)]
    refine forall_congr' fun q => forall_congr' fun hq => ?_
    rw [isSet_dilate 4 hmask]
    have := hq.1
    have := hq.2.2.1
    simp only [show q.1 < h by omega, show q.2 < w by omega, true_and]
    refine exists_congr fun s => and_congr_right fun _ => ?_
    exact C90_carbon_partial carbon silicon s
  have hkey : isSet (detectorLayers carbon silicon).2 p =
      countsAsSilicon (isSet (carbonRegion (carbon.map (fun row => row.map carbonLikely))) p) x := by
    obtain ⟨row, h1, h2⟩ := hx
    have hr := sized_erode 2 (sized_dilate 4 hmask)
    have hlen : p.1 < (carbonRegion (carbon.map (fun row => row.map carbonLikely))).length := by
      rw [carbonRegion, hr.1]; exact hlt.1
    have hw := hr.2 _ (List.getElem_mem hlen)
    simp only [detectorLayers, isSet, List.getD_eq_getElem?_getD, List.getElem?_zipWith, h1,
      List.getElem?_eq_getElem hlen, Option.getD_some, h2]
    rw [List.getElem?_eq_getElem (by rw [hw]; exact hlt.2)]
    simp
  rw [hkey]
  by_cases hn : NearCarbon carbon p
  · rw [hregion.2 hn, countsAsSilicon_inside hv]
    simp [hn]
  · rw [Bool.eq_false_iff.2 (fun hp => hn (hregion.1 hp)), countsAsSilicon_outside hv]
    simp [hn]

/-- C90 fails, first: in an image without carbon, no pixel is taken for silicon as long as the network has the
slightest doubt. -/
theorem C90_doubt_lost (h w : ℕ) (carbon silicon : List (List F32)) (hc : Sized h w carbon)
    (hs : Sized h w silicon) (hnone : ∀ p, ¬ CarbonAt carbon p)
    (hdoubt : ∀ p x, At silicon p x → ∃ v, IsProbability x v ∧ v < 1) (p : ℕ × ℕ) :
    isSet (detectorLayers carbon silicon).2 p = false := by
  by_cases hx : ∃ x, At silicon p x
  · obtain ⟨x, hx⟩ := hx
    obtain ⟨v, hv, h1⟩ := hdoubt p x hx
    rw [Bool.eq_false_iff]
    intro hp
    rcases (C90_silicon h w carbon silicon hc hs p x v hx hv).1 hp with ⟨-, h2⟩ | ⟨h2, -⟩
    · exact h1.ne h2
    · obtain ⟨s, -, hcs⟩ := h2 p ⟨by omega, by omega, by omega, by omega⟩
      exact hnone s hcs
  · rw [Bool.eq_false_iff]
    intro hp
    apply hx
    obtain ⟨r, c⟩ := p
    simp only [detectorLayers, isSet, List.getD_eq_getElem?_getD, List.getElem?_zipWith] at hp
    unfold At
    cases h1 : silicon[r]? with
    | none =>
      rw [h1] at hp
      cases h2 : (carbonRegion (carbon.map (fun row => row.map carbonLikely)))[r]? <;> simp [h2] at hp
    | some row =>
      rw [h1] at hp
      cases h3 : row[c]? with
      | none =>
        cases h2 : (carbonRegion (carbon.map (fun row => row.map carbonLikely)))[r]? with
        | none => simp [h2] at hp
        | some reg =>
          rw [h2] at hp
          simp only [Option.getD_some, List.getElem?_zipWith, h3] at hp
          cases h4 : reg[c]? <;> simp [h4] at hp
      | some x => exact ⟨x, row, rfl, h3⟩

/-- C90 fails, second: where the network sees carbon at a pixel and in all those up to two rows above and two
columns to the left, and is sure that there is no silicon, the pixel is taken for silicon. -/
theorem C90_phantom (h w : ℕ) (carbon silicon : List (List F32)) (hc : Sized h w carbon) (hs : Sized h w silicon)
    (p : ℕ × ℕ) (hp : At silicon p F32.zero) (hall : ∀ q, UpLeft 2 p q → CarbonAt carbon q) :
    isSet (detectorLayers carbon silicon).2 p = true := by
  have hv : IsProbability F32.zero 0 := by
    refine ⟨?_, rfl, by norm_num⟩
    simp [F32.value, F32.zero]
  rw [C90_silicon h w carbon silicon hc hs p _ 0 hp hv]
  refine .inr ⟨?_, by norm_num⟩
  intro q hq
  exact ⟨q, ⟨by omega, by omega, by omega, by omega⟩, hall q hq⟩

/-- C90 fails, third: the surroundings of carbon are displaced.  The uppermost pixels with carbon, unless at
the edge of the image, are not in them (and neither are the leftmost). -/
theorem C90_displaced (carbon : List (List F32)) (p : ℕ × ℕ) (hp : p.1 ≠ 0)
    (htop : ∀ q, q.1 < p.1 → ¬ CarbonAt carbon q) : ¬ NearCarbon carbon p := by
  intro hn
  obtain ⟨s, hs, hcs⟩ := hn (p.1 - 1, p.2) ⟨by simp, by simp; omega, by simp, by simp⟩
  exact htop s (by have := hs.1; simp at this; omega) hcs

/-- An almost certain probability, 1 − 2⁻²⁴. -/
def almostOne : F32 := ⟨false, 126, 8388607⟩

/-- The hypotheses of `C90_doubt_lost` hold for an image in which the network is almost certain of silicon, and
those of `C90_phantom` for one full of carbon. -/
example : IsProbability almostOne (1 - 1 / 2 ^ 24) ∧
    isSet (detectorLayers [[F32.zero, F32.zero]] [[almostOne, almostOne]]).2 (0, 1) = false ∧
    isSet (detectorLayers [[F32.zero, F32.zero]] [[F32.one, almostOne]]).2 (0, 0) = true ∧
    isSet (detectorLayers [[F32.one, F32.one], [F32.one, F32.one]]
      [[F32.zero, F32.zero], [F32.zero, F32.zero]]).2 (1, 1) = true := by
  refine ⟨⟨?_, rfl, by norm_num⟩, ?_, ?_, ?_⟩ <;> decide +kernel

end PD.Props
