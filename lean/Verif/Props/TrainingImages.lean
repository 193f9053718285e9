/- C93: images and labels stay together. -/
import Verif.Model.TrainingImages
import Mathlib.Tactic.Linarith
import Mathlib.Tactic.Ring
import Mathlib.Algebra.Order.Field.Rat

set_option linter.unusedSectionVars false
set_option linter.unusedSimpArgs false

namespace PD.Props
open PD
variable {K : Type} [Field K] [LinearOrder K]

/-- Row `i'` of `n` contains the middle of row `i` of `m` (of the same height together). -/
def HasMiddle (n m i i' : ℕ) : Prop := i' * (2 * m) ≤ (2 * i + 1) * n ∧ (2 * i + 1) * n < (i' + 1) * (2 * m)

theorem sourceIndex_lt {n m i : ℕ} (hn : 0 < n) : sourceIndex n m i < n := by
  unfold sourceIndex; omega

theorem sourceIndex_middle {n m i : ℕ} (hi : i < m) : HasMiddle n m i (sourceIndex n m i) := by
  have hlt : (2 * i + 1) * n / (2 * m) ≤ n - 1 := by
    rcases Nat.eq_zero_or_pos n with rfl | hn
    · simp
    · have : (2 * i + 1) * n / (2 * m) < n := by
        rw [Nat.div_lt_iff_lt_mul (by omega)]
        have : 2 * i + 1 < 2 * m := by omega
        calc (2 * i + 1) * n < 2 * m * n := Nat.mul_lt_mul_of_pos_right this hn
          _ = n * (2 * m) := by ring
      omega
  unfold sourceIndex HasMiddle
  rw [min_eq_left hlt]
  refine ⟨Nat.div_mul_le_self _ _, ?_⟩
  generalize (2 * i + 1) * n = k
  rw [Nat.add_one_mul]
  exact Nat.lt_div_mul_add (show 0 < 2 * m by omega)

theorem HasMiddle.unique {n m i a b : ℕ} (ha : HasMiddle n m i a) (hb : HasMiddle n m i b) : a = b := by
  obtain ⟨h1, h2⟩ := ha
  obtain ⟨h3, h4⟩ := hb
  have k1 : a < b + 1 := Nat.lt_of_mul_lt_mul_right (lt_of_le_of_lt h1 h4)
  have k2 : b < a + 1 := Nat.lt_of_mul_lt_mul_right (lt_of_le_of_lt h3 h2)
  omega

theorem sourceIndex_self {n i : ℕ} (hi : i < n) : sourceIndex n n i = i := by
  refine (sourceIndex_middle hi).unique ⟨?_, ?_⟩ <;> nlinarith

/-- Pixel `(r, c)` of the training example shows the point of the stored image and of the stored mask in the same
relative position: the numbers the network sees and its labels are those of the pixels with the middle of
`(r, c)` in them. -/
theorem alignmentTraining_pixel (size : ℕ) (e : AlignmentExample K) (r c : ℕ) (hr : r < size) (hc : c < size)
    (hi : 0 < e.images.h ∧ 0 < e.images.w) (hm : 0 < e.mask.h ∧ 0 < e.mask.w) :
    let out := alignmentTraining size e
    out.h = size ∧ out.w = size ∧ out.maskH = size ∧ out.maskW = size ∧
    (∃ r' c', r' < e.images.h ∧ c' < e.images.w ∧ HasMiddle e.images.h size r r' ∧ HasMiddle e.images.w size c c' ∧
      out.input r c = (List.range e.images.t).flatMap (fun t => (e.images.px t r' c').map (fun v => (v : K) / 255))) ∧
    (∃ r' c', r' < e.mask.h ∧ c' < e.mask.w ∧ HasMiddle e.mask.h size r r' ∧ HasMiddle e.mask.w size c c' ∧
      out.label r c = (List.range e.mask.t).map (fun t => oneHot 3 (remapClass (e.mask.px t r' c')))) := by
  intro out
  by_cases h1 : e.images.h ≠ size ∨ e.images.w ≠ size <;> by_cases h2 : e.mask.h ≠ size ∨ e.mask.w ≠ size
  all_goals
    simp only [out, alignmentTraining, h1, h2, if_true, if_false]
  · exact ⟨rfl, rfl, rfl, rfl,
      ⟨_, _, sourceIndex_lt hi.1, sourceIndex_lt hi.2, sourceIndex_middle hr, sourceIndex_middle hc, rfl⟩,
      ⟨_, _, sourceIndex_lt hm.1, sourceIndex_lt hm.2, sourceIndex_middle hr, sourceIndex_middle hc, rfl⟩⟩
  · simp only [not_or, not_not] at h2
    refine ⟨rfl, rfl, h2.1, h2.2,
      ⟨_, _, sourceIndex_lt hi.1, sourceIndex_lt hi.2, sourceIndex_middle hr, sourceIndex_middle hc, rfl⟩,
      ⟨r, c, by omega, by omega, ?_, ?_, rfl⟩⟩
    · rw [h2.1]; constructor <;> nlinarith
    · rw [h2.2]; constructor <;> nlinarith
  · simp only [not_or, not_not] at h1
    refine ⟨h1.1, h1.2, rfl, rfl, ⟨r, c, by omega, by omega, ?_, ?_, rfl⟩,
      ⟨_, _, sourceIndex_lt hm.1, sourceIndex_lt hm.2, sourceIndex_middle hr, sourceIndex_middle hc, rfl⟩⟩
    · rw [h1.1]; constructor <;> nlinarith
    · rw [h1.2]; constructor <;> nlinarith
  · simp only [not_or, not_not] at h1 h2
    refine ⟨h1.1, h1.2, h2.1, h2.2, ⟨r, c, by omega, by omega, ?_, ?_, rfl⟩, ⟨r, c, by omega, by omega, ?_, ?_, rfl⟩⟩
    · rw [h1.1]; constructor <;> nlinarith
    · rw [h1.2]; constructor <;> nlinarith
    · rw [h2.1]; constructor <;> nlinarith
    · rw [h2.2]; constructor <;> nlinarith

/-- C93 for the alignment data: with images and masks of the same size, a pixel of a training example sees one
pixel of the stored images, at all times, and its labels are those of the same pixel of the stored masks: at all
times, or at the last time only.  The pixel is the one at the same relative position. -/
theorem C93_alignment (finalOnly : Bool) (size : ℕ) (e : AlignmentExample K) (h w : ℕ)
    (hi : e.images.h = h ∧ e.images.w = w) (hm : e.mask.h = h ∧ e.mask.w = w) (hh : 0 < h) (hw : 0 < w)
    (ht : 0 < e.mask.t) (r c : ℕ) (hr : r < size) (hc : c < size) :
    let out := alignmentDataset finalOnly size e
    out.h = size ∧ out.w = size ∧ out.maskH = size ∧ out.maskW = size ∧
    ∃ r' c', r' < h ∧ c' < w ∧ HasMiddle h size r r' ∧ HasMiddle w size c c' ∧
      out.input r c = (List.range e.images.t).flatMap (fun t => (e.images.px t r' c').map (fun v => (v : K) / 255)) ∧
      out.label r c =
        if finalOnly then [oneHot 3 (remapClass (e.mask.px (e.mask.t - 1) r' c'))]
        else (List.range e.mask.t).map (fun t => oneHot 3 (remapClass (e.mask.px t r' c'))) := by
  obtain ⟨rfl, rfl⟩ := hi
  cases finalOnly with
  | false =>
    simp only [alignmentDataset, Bool.false_eq_true, if_false]
    obtain ⟨s1, s2, s3, s4, ⟨r', c', a1, a2, a3, a4, a5⟩, r'', c'', b1, b2, b3, b4, b5⟩ :=
      alignmentTraining_pixel size e r c hr hc ⟨hh, hw⟩ (by omega)
    rw [hm.1] at b3
    rw [hm.2] at b4
    have e1 := b3.unique a3
    have e2 := b4.unique a4
    subst e1 e2
    exact ⟨s1, s2, s3, s4, r'', c'', a1, a2, a3, a4, a5, b5⟩
  | true =>
    simp only [alignmentDataset, if_true]
    have hm' : (selectFinal e).mask.h = e.mask.h ∧ (selectFinal e).mask.w = e.mask.w := ⟨rfl, rfl⟩
    obtain ⟨s1, s2, s3, s4, ⟨r', c', a1, a2, a3, a4, a5⟩, r'', c'', b1, b2, b3, b4, b5⟩ :=
      alignmentTraining_pixel size (selectFinal e) r c hr hc ⟨hh, hw⟩ (by omega)
    rw [hm'.1, hm.1] at b3
    rw [hm'.2, hm.2] at b4
    have e1 := b3.unique a3
    have e2 := b4.unique a4
    subst e1 e2
    refine ⟨s1, s2, s3, s4, r'', c'', a1, a2, a3, a4, a5, ?_⟩
    rw [b5]
    have : (selectFinal e).mask.t = 1 := by
      simp only [selectFinal, Frames.lastOnly]; omega
    rw [this]
    simp [selectFinal, Frames.lastOnly]

/-- C93, images that have the right size already are not changed: pixel for pixel. -/
theorem C93_same_size (finalOnly : Bool) (size : ℕ) (e : AlignmentExample K)
    (hi : e.images.h = size ∧ e.images.w = size) (hm : e.mask.h = size ∧ e.mask.w = size) (ht : 0 < e.mask.t)
    (r c : ℕ) (hr : r < size) (hc : c < size) :
    let out := alignmentDataset finalOnly size e
    out.input r c = (List.range e.images.t).flatMap (fun t => (e.images.px t r c).map (fun v => (v : K) / 255)) ∧
    out.label r c =
      if finalOnly then [oneHot 3 (remapClass (e.mask.px (e.mask.t - 1) r c))]
      else (List.range e.mask.t).map (fun t => oneHot 3 (remapClass (e.mask.px t r c))) := by
  obtain ⟨-, -, -, -, r', c', h1, h2, h3, h4, h5, h6⟩ :=
    C93_alignment finalOnly size e size size hi hm (by omega) (by omega) ht r c hr hc
  have er : r' = r := h3.unique (by constructor <;> nlinarith)
  have ec : c' = c := h4.unique (by constructor <;> nlinarith)
  subst er ec
  exact ⟨h5, h6⟩

/-- C93, drifts: all of them, or the last one only. -/
theorem C93_drift (finalOnly : Bool) (size : ℕ) (e : AlignmentExample K) :
    (alignmentDataset finalOnly size e).drift =
      if finalOnly then (match e.drift.getLast? with | none => [] | some d => [d]) else e.drift := by
  cases finalOnly with
  | false => rfl
  | true =>
    simp only [alignmentDataset, alignmentTraining, selectFinal, if_true, lastOnly]
    rcases List.eq_nil_or_concat e.drift with h | ⟨l, d, h⟩
    · simp [h]
    · simp [h]

/-- C93 for the detection data. -/
theorem C93_detection (size : ℕ) (e : DetectionExample K) (h w : ℕ)
    (hi : e.image.h = h ∧ e.image.w = w) (hm : e.mask.h = h ∧ e.mask.w = w) (hh : 0 < h) (hw : 0 < w)
    (r c : ℕ) (hr : r < size) (hc : c < size) :
    let out := detectionDataset size e
    out.h = size ∧ out.w = size ∧ out.maskH = size ∧ out.maskW = size ∧
    ∃ r' c', r' < h ∧ c' < w ∧ HasMiddle h size r r' ∧ HasMiddle w size c c' ∧
      out.input r c = e.image.px 0 r' c' ∧ out.label r c = [oneHot 3 (remapClass (e.mask.px 0 r' c'))] := by
  obtain ⟨rfl, rfl⟩ := hi
  refine ⟨rfl, rfl, rfl, rfl, _, _, sourceIndex_lt hh, sourceIndex_lt hw, sourceIndex_middle hr, sourceIndex_middle hc,
    rfl, ?_⟩
  simp only [detectionDataset, Frames.resize, hm.1, hm.2]

/-- C93, times: of the outputs for a pixel, the aligner takes as scores for time step `t` those that training
compares with the label of time step `t`, counted from the start, or from the end for negative numbers; for any
other number it raises. -/
theorem C93_time (steps : ℕ) (out : List K) (scores : List (List K)) (h : trainedScores steps out = .ok scores) :
    scores.length = steps ∧ (∀ s ∈ scores, s.length = 3) ∧
    (∀ t : ℕ, ∀ s, scores[t]? = some s → scoresAt out t = .ok s ∧ scoresAt out (t - steps) = .ok s) ∧
    (∀ t : ℤ, t < -steps ∨ steps ≤ t → scoresAt out t = .error .indexError) := by
  unfold trainedScores at h
  split_ifs at h with hlen
  simp only [Except.ok.injEq] at h
  subst h
  have hmod : out.length % 3 = 0 := by omega
  have hdiv : ((out.length : ℤ) / 3) = steps := by omega
  refine ⟨by simp, ?_, ?_, ?_⟩
  · intro s hs
    obtain ⟨t, ht, rfl⟩ := List.mem_map.1 hs
    have := List.mem_range.1 ht
    simp only [List.length_take, List.length_drop]
    omega
  · intro t s hs
    have ht : t < steps := by
      by_contra hn
      rw [List.getElem?_eq_none (by simp; omega)] at hs
      simp at hs
    rw [List.getElem?_eq_getElem (by simpa using ht)] at hs
    simp only [List.getElem_map, List.getElem_range, Option.some.injEq] at hs
    constructor
    · simp only [scoresAt, hmod, hdiv]
      simp only [ne_eq, not_true_eq_false, if_false]
      have h0 : ¬ ((t : ℤ) < 0) := by omega
      simp only [h0, if_false]
      rw [if_pos (by omega)]
      simp [hs]
    · simp only [scoresAt, hmod, hdiv]
      simp only [ne_eq, not_true_eq_false, if_false]
      have h0 : (t : ℤ) - steps < 0 := by omega
      simp only [h0, if_true]
      rw [if_pos (by omega)]
      have : ((t : ℤ) - steps + steps).toNat = t := by omega
      rw [this, hs]
  · intro t ht
    simp only [scoresAt, hmod, hdiv]
    simp only [ne_eq, not_true_eq_false, if_false]
    rw [if_neg]
    split_ifs <;> omega

/-- An example with two frames of three rows and columns, made smaller. -/
def smallExample : AlignmentExample ℚ :=
  ⟨⟨2, 3, 3, fun t r c => [100 * t + 10 * r + c]⟩,
    ⟨2, 3, 3, fun t r c => if r = 2 ∧ c = t then 14 else if r = c then 6 else 0⟩, [(1, 2), (3, 4)]⟩

/-- The hypotheses of `C93_alignment` hold for it; pixel (1, 0) of the smaller example is pixel (2, 0) of the
stored one, which has a silicon at first and nothing then. -/
example : (alignmentDataset false 2 smallExample).input 1 0 = [20 / 255, 120 / 255] ∧
    (alignmentDataset false 2 smallExample).label 1 0 = [[0, 0, 1], [1, 0, 0]] ∧
    (alignmentDataset true 2 smallExample).label 1 0 = [[1, 0, 0]] ∧
    (alignmentDataset true 2 smallExample).drift = [(3, 4)] ∧
    trainedScores 2 [(1 : ℚ), 2, 3, 4, 5, 6] = .ok [[1, 2, 3], [4, 5, 6]] := by
  refine ⟨?_, ?_, ?_, ?_, ?_⟩ <;> decide +kernel

end PD.Props
