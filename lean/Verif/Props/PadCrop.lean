/- Property C54: re-framing an image. -/
import Verif.Model.PadCrop
import Verif.Lemmas.Goal

set_option linter.unusedSectionVars false
set_option linter.unusedSimpArgs false

namespace PD.Props
open PD PD.Spec
variable {K : Type} [Field K] [LinearOrder K] [IsStrictOrderedRing K] [FloorRing K] {P : Type}

theorem roundHalfEven_bounds (x : K) : x - 1 / 2 ≤ roundHalfEven x ∧ (roundHalfEven x : K) ≤ x + 1 / 2 := by
  have := abs_le.1 (abs_roundHalfEven_sub_le x)
  constructor <;> linarith [this.1, this.2]

/-- The start of a slice lies between 0 and the largest start. -/
theorem start_bounds (x : K) (hi : ℕ) : 0 ≤ roundHalfEven (clip0 x (hi : K)) ∧
    roundHalfEven (clip0 x (hi : K)) ≤ hi := by
  have h0 : (0 : K) ≤ clip0 x hi := le_min (le_max_right _ _) (by positivity)
  have h1 : clip0 x (hi : K) ≤ hi := min_le_right _ _
  obtain ⟨a, b⟩ := roundHalfEven_bounds (clip0 x (hi : K))
  constructor
  · have : ((-1 : ℤ) : K) < (roundHalfEven (clip0 x (hi : K)) : K) := by push_cast; linarith
    have := Int.cast_lt.1 this
    omega
  · have : (roundHalfEven (clip0 x (hi : K)) : K) < ((hi + 1 : ℤ) : K) := by push_cast; linarith
    have := Int.cast_lt.1 this
    omega

theorem padImage_isImage (zero : P) (ph pw : ℕ) {h w : ℕ} {img : List (List P)} (hi : IsImage h w img) :
    IsImage (ph + h + ph) (pw + w + pw) (padImage zero ph pw w img) := by
  refine ⟨by simp [padImage, hi.1]; omega, ?_⟩
  intro row hrow
  simp only [padImage, List.mem_append, List.mem_map] at hrow
  rcases hrow with (hrow | ⟨r, hr, rfl⟩) | hrow
  · rw [List.eq_of_mem_replicate hrow]; simp
  · simp [hi.2 r hr]; omega
  · rw [List.eq_of_mem_replicate hrow]; simp

theorem crop_isImage {H W h w s0 s1 : ℕ} {img : List (List P)} (hi : IsImage H W img)
    (h0 : s0 + h ≤ H) (h1 : s1 + w ≤ W) :
    IsImage h w (((img.drop s0).take h).map (fun row => (row.drop s1).take w)) := by
  refine ⟨by simp [hi.1]; omega, ?_⟩
  intro row hrow
  obtain ⟨r, hr, rfl⟩ := List.mem_map.1 hrow
  have := hi.2 r (List.mem_of_mem_drop (List.mem_of_mem_take hr))
  simp [this]; omega

/-- Pixel `(r, c)` of an image. -/
def pixel (img : List (List P)) (r c : ℕ) : Option P := (img[r]?).bind (fun row => row[c]?)

theorem pixel_crop (img : List (List P)) (s0 s1 h w r c : ℕ) (hr : r < h) (hc : c < w) :
    pixel (((img.drop s0).take h).map (fun row => (row.drop s1).take w)) r c =
      pixel img (s0 + r) (s1 + c) := by
  unfold pixel
  rw [List.getElem?_map, List.getElem?_take_of_lt hr, List.getElem?_drop]
  cases img[s0 + r]? with
  | none => rfl
  | some row => simp [List.getElem?_take_of_lt hc, List.getElem?_drop]

theorem pixel_pad (zero : P) (ph pw : ℕ) {h w : ℕ} {img : List (List P)} (hi : IsImage h w img)
    (r c : ℕ) (hr : r < ph + h + ph) (hc : c < pw + w + pw) :
    pixel (padImage zero ph pw w img) r c =
      if ph ≤ r ∧ r < ph + h ∧ pw ≤ c ∧ c < pw + w then pixel img (r - ph) (c - pw) else some zero := by
  unfold pixel padImage
  by_cases h1 : r < ph
  · rw [List.append_assoc, List.getElem?_append_left (by simpa using h1), if_neg (by omega)]
    rw [List.getElem?_replicate, if_pos h1]
    simp [List.getElem?_replicate, hc]
  · by_cases h2 : r < ph + h
    · rw [List.append_assoc, List.getElem?_append_right (by simp; omega), List.length_replicate,
        List.getElem?_append_left (by simp [hi.1]; omega), List.getElem?_map]
      have hlt : r - ph < img.length := by rw [hi.1]; omega
      rw [List.getElem?_eq_getElem hlt]
      have hw := hi.2 _ (List.getElem_mem hlt)
      simp only [Option.map_some, Option.bind_some]
      by_cases c1 : c < pw
      · rw [List.append_assoc, List.getElem?_append_left (by simpa using c1), if_neg (by omega),
          List.getElem?_replicate, if_pos c1]
      · by_cases c2 : c < pw + w
        · rw [List.append_assoc, List.getElem?_append_right (by simp; omega), List.length_replicate,
            List.getElem?_append_left (by rw [hw]; omega), if_pos (by omega)]
        · rw [List.getElem?_append_right (by simp [hw]; omega), if_neg (by omega),
            List.getElem?_replicate, if_pos (by simp [hw]; omega)]
    · rw [List.getElem?_append_right (by simp [hi.1]; omega), if_neg (by omega),
        List.getElem?_replicate, if_pos (by simp [hi.1]; omega)]
      simp [List.getElem?_replicate, hc]

/-- What the function computes when it does not raise. -/
theorem padAndCrop_ok {rs : Resizer P} {zero : P} {h w : ℕ} {img out : List (List P)}
    {original new : Fov K} (hi : IsImage h w img) (hok : padAndCrop rs zero h w img original new = .ok out) :
    ∃ (H W s0 s1 : ℕ) (resized : List (List P)), IsImage H W resized ∧
      out = (((padImage zero h w W resized).drop s0).take h).map (fun row => (row.drop s1).take w) ∧
      s0 ≤ H + h ∧ s1 ≤ W + w ∧
      (s0 : ℤ) = roundHalfEven (clip0 (-(new.upperRight.y - original.upperRight.y) * h / new.width + h)
        ((H + h : ℕ) : K)) ∧
      (s1 : ℤ) = roundHalfEven (clip0 ((new.lowerLeft.x - original.lowerLeft.x) * w / new.height + w)
        ((W + w : ℕ) : K)) ∧
      new.width ≠ 0 ∧ new.height ≠ 0 ∧
      ((original.width = new.width ∧ original.height = new.height ∧ H = h ∧ W = w ∧ resized = img) ∨
       (¬ (original.width = new.width ∧ original.height = new.height) ∧
        (H : ℤ) = roundHalfEven (h * (original.width / new.width)) ∧
        (W : ℤ) = roundHalfEven (w * (original.height / new.height)))) := by
  unfold padAndCrop at hok
  simp only at hok
  have ex : ∀ f : Fov K, f.scale.x = f.width := fun f => rfl
  have ey : ∀ f : Fov K, f.scale.y = f.height := fun f => rfl
  simp only [ex, ey] at hok
  split at hok
  · cases hok
  · rename_i hz
    rw [not_or] at hz
    by_cases hsame : original.width / new.width = 1 ∧ original.height / new.height = 1
    · have hd : (decide (original.width / new.width = 1) && decide (original.height / new.height = 1)) = true := by
        simp [hsame]
      simp only [hd, if_true, Bool.not_true, Bool.false_and, Bool.false_eq_true, if_false,
        Except.ok.injEq, Int.toNat_natCast, Int.cast_natCast] at hok
      have e0 : ((h : K) + 2 * h - h) = ((h + h : ℕ) : K) := by push_cast; ring
      have e1 : ((w : K) + 2 * w - w) = ((w + w : ℕ) : K) := by push_cast; ring
      rw [e0, e1] at hok
      obtain ⟨a0, a1⟩ := start_bounds (-(new.upperRight.y - original.upperRight.y) * h / new.width + h) (h + h)
      obtain ⟨b0, b1⟩ := start_bounds ((new.lowerLeft.x - original.lowerLeft.x) * w / new.height + w) (w + w)
      refine ⟨h, w, _, _, img, hi, hok.symm, ?_, ?_, ?_, ?_, hz.1, hz.2, Or.inl ⟨?_, ?_, rfl, rfl, rfl⟩⟩
      · omega
      · omega
      · exact Int.toNat_of_nonneg a0
      · exact Int.toNat_of_nonneg b0
      · exact (div_eq_one_iff_eq hz.1).1 hsame.1
      · exact (div_eq_one_iff_eq hz.2).1 hsame.2
    · have hd : (decide (original.width / new.width = 1) && decide (original.height / new.height = 1)) = false := by
        rw [Bool.and_eq_false_iff, decide_eq_false_iff_not, decide_eq_false_iff_not]
        exact not_and_or.1 hsame
      simp only [hd, Bool.false_eq_true, if_false, Bool.not_false, Bool.true_and] at hok
      split at hok
      · cases hok
      · rename_i hpos
        rw [Bool.or_eq_true, decide_eq_true_iff, decide_eq_true_iff, not_or] at hpos
        simp only [Except.ok.injEq] at hok
        obtain ⟨H, hH⟩ := Int.eq_ofNat_of_zero_le (le_of_lt (not_le.1 hpos.1))
        obtain ⟨W, hW⟩ := Int.eq_ofNat_of_zero_le (le_of_lt (not_le.1 hpos.2))
        rw [hH, hW] at hok
        simp only [Int.toNat_natCast, Int.cast_natCast] at hok
        have e0 : ((H : K) + 2 * h - h) = ((H + h : ℕ) : K) := by push_cast; ring
        have e1 : ((W : K) + 2 * w - w) = ((W + w : ℕ) : K) := by push_cast; ring
        rw [e0, e1] at hok
        obtain ⟨a0, a1⟩ := start_bounds (-(new.upperRight.y - original.upperRight.y) * h / new.width + h) (H + h)
        obtain ⟨b0, b1⟩ := start_bounds ((new.lowerLeft.x - original.lowerLeft.x) * w / new.height + w) (W + w)
        have hpos0 : ∀ (n : ℕ) (q : K), ¬ roundHalfEven ((n : K) * q) ≤ 0 → 0 < n := by
          intro n q hq
          by_contra hc
          have hn : n = 0 := by omega
          apply hq
          have := roundHalfEven_intCast (K := K) 0
          rw [hn]
          simp only [Int.cast_zero, Nat.cast_zero, zero_mul] at this ⊢
          omega
        refine ⟨H, W, _, _, _, rs.size h w img H W hi (hpos0 _ _ hpos.1) (hpos0 _ _ hpos.2), hok.symm, ?_, ?_, ?_, ?_, hz.1, hz.2, Or.inr ⟨?_, hH.symm, hW.symm⟩⟩
        · omega
        · omega
        · exact Int.toNat_of_nonneg a0
        · exact Int.toNat_of_nonneg b0
        · rintro ⟨e, e'⟩
          exact hsame ⟨by rw [e, div_self hz.1], by rw [e', div_self hz.2]⟩

theorem image_ext {h w : ℕ} {a b : List (List P)} (ha : IsImage h w a) (hb : IsImage h w b)
    (hab : ∀ r c, r < h → c < w → pixel a r c = pixel b r c) : a = b := by
  apply List.ext_getElem (by rw [ha.1, hb.1])
  intro r hr hr'
  have h1 := ha.2 _ (List.getElem_mem hr)
  have h2 := hb.2 _ (List.getElem_mem hr')
  apply List.ext_getElem (by rw [h1, h2])
  intro c hc hc'
  have := hab r c (by rw [← ha.1]; exact hr) (by rw [← h1]; exact hc)
  unfold pixel at this
  rw [List.getElem?_eq_getElem hr, List.getElem?_eq_getElem hr', Option.bind_some, Option.bind_some,
    List.getElem?_eq_getElem hc, List.getElem?_eq_getElem hc', Option.some.injEq] at this
  exact this

/-- The returned image has the shape of the given one. -/
theorem C54_shape (rs : Resizer P) (zero : P) (h w : ℕ) (img out : List (List P)) (original new : Fov K)
    (hi : IsImage h w img) (hok : padAndCrop rs zero h w img original new = .ok out) : IsImage h w out := by
  obtain ⟨H, W, s0, s1, resized, hr, rfl, h0, h1, _⟩ := padAndCrop_ok hi hok
  exact crop_isImage (padImage_isImage zero h w hr) (by omega) (by omega)

/-- It raises only if the new field of view has no extent, or is so large that the whole image would be
less than half a pixel (or is turned over). -/
theorem C54_raises (rs : Resizer P) (zero : P) (h w : ℕ) (img : List (List P)) (original new : Fov K)
    (hx : new.width ≠ 0) (hy : new.height ≠ 0)
    (hh : 1 / 2 < (h : K) * (original.width / new.width)) (hw : 1 / 2 < (w : K) * (original.height / new.height)) :
    ∃ out, padAndCrop rs zero h w img original new = .ok out := by
  unfold padAndCrop
  simp only
  have ex : ∀ f : Fov K, f.scale.x = f.width := fun f => rfl
  have ey : ∀ f : Fov K, f.scale.y = f.height := fun f => rfl
  simp only [ex, ey]
  rw [if_neg (by rw [not_or]; exact ⟨hx, hy⟩)]
  have pos : ∀ x : K, 1 / 2 < x → ¬ roundHalfEven x ≤ 0 := by
    intro x hx hle
    have := (roundHalfEven_bounds x).1
    have h0 : (roundHalfEven x : K) ≤ 0 := by exact_mod_cast hle
    linarith
  rw [if_neg]
  · exact ⟨_, rfl⟩
  · cases (decide (original.width / new.width = 1) && decide (original.height / new.height = 1)) with
    | true => simp
    | false => simp [pos _ hh, pos _ hw]

/-- Re-framing to the same field of view returns the image. -/
theorem C54_unchanged (rs : Resizer P) (zero : P) (h w : ℕ) (img : List (List P)) (fov : Fov K)
    (hi : IsImage h w img) (hx : fov.width ≠ 0) (hy : fov.height ≠ 0) :
    padAndCrop rs zero h w img fov fov = .ok img := by
  have hrun : ∃ out, padAndCrop rs zero h w img fov fov = .ok out := by
    unfold padAndCrop
    simp only
    have ex : ∀ f : Fov K, f.scale.x = f.width := fun f => rfl
    have ey : ∀ f : Fov K, f.scale.y = f.height := fun f => rfl
    simp only [ex, ey]
    rw [if_neg (by rw [not_or]; exact ⟨hx, hy⟩)]
    rw [if_neg (by simp [div_self hx, div_self hy])]
    exact ⟨_, rfl⟩
  obtain ⟨out, hok⟩ := hrun
  rw [hok]
  congr 1
  have hshape := C54_shape rs zero h w img out fov fov hi hok
  obtain ⟨H, W, s0, s1, resized, hr, hout, h0, h1, e0, e1, _, _, hcase⟩ := padAndCrop_ok hi hok
  rcases hcase with ⟨_, _, rfl, rfl, rfl⟩ | ⟨hne, _⟩
  · have c0 : clip0 (-(fov.upperRight.y - fov.upperRight.y) * H / fov.width + H) ((H + H : ℕ) : K) =
        ((H : ℤ) : K) := by
      rw [sub_self, neg_zero, zero_mul, zero_div, zero_add, clip0]
      push_cast
      rw [max_eq_left (by positivity), min_eq_left (by linarith [show (0 : K) ≤ H by positivity])]
    have c1 : clip0 ((fov.lowerLeft.x - fov.lowerLeft.x) * W / fov.height + W) ((W + W : ℕ) : K) =
        ((W : ℤ) : K) := by
      rw [sub_self, zero_mul, zero_div, zero_add, clip0]
      push_cast
      rw [max_eq_left (by positivity), min_eq_left (by linarith [show (0 : K) ≤ W by positivity])]
    rw [c0, roundHalfEven_intCast] at e0
    rw [c1, roundHalfEven_intCast] at e1
    have f0 : s0 = H := by omega
    have f1 : s1 = W := by omega
    subst f0 f1
    apply image_ext hshape hi
    intro r c hr hc
    rw [hout, pixel_crop _ _ _ _ _ _ _ hr hc, pixel_pad zero _ _ hi _ _ (by omega) (by omega),
      if_pos (by omega)]
    congr 1 <;> omega
  · exact absurd ⟨rfl, rfl⟩ hne

/-- Moving a square field of view by whole pixels moves the image by as many pixels the other way and fills
with padding: by `dr` rows down and `dc` columns to the right. -/
theorem C54_shift (rs : Resizer P) (zero : P) (h w : ℕ) (img : List (List P)) (fov : Fov K) (dr dc : ℤ)
    (hi : IsImage h w img) (hpos : 0 < fov.width) (hsq : fov.width = fov.height)
    (hh : 0 < h) (hw : 0 < w) (hdr : |dr| ≤ h) (hdc : |dc| ≤ w) :
    ∃ out, padAndCrop rs zero h w img fov
        (fov.shift ⟨dc * (fov.width / w), -(dr * (fov.height / h))⟩) = .ok out ∧
      ∀ r c, r < h → c < w → pixel out r c =
        if 0 ≤ r + dr ∧ r + dr < h ∧ 0 ≤ c + dc ∧ c + dc < w
        then pixel img (r + dr).toNat (c + dc).toNat else some zero := by
  set new := fov.shift ⟨dc * (fov.width / w), -(dr * (fov.height / h))⟩ with hnew
  have hnw : new.width = fov.width := by simp [hnew, Fov.shift, Fov.width]
  have hnh : new.height = fov.height := by simp [hnew, Fov.shift, Fov.height]
  have hposh : 0 < fov.height := hsq ▸ hpos
  have hh' : (0 : K) < h := by exact_mod_cast hh
  have hw' : (0 : K) < w := by exact_mod_cast hw
  obtain ⟨out, hok⟩ := C54_raises rs zero h w img fov new (by rw [hnw]; exact hpos.ne')
    (by rw [hnh]; exact hposh.ne')
    (by
      rw [hnw, div_self hpos.ne', mul_one]
      have : (1 : K) ≤ h := by exact_mod_cast hh
      linarith)
    (by
      rw [hnh, div_self hposh.ne', mul_one]
      have : (1 : K) ≤ w := by exact_mod_cast hw
      linarith)
  refine ⟨out, hok, ?_⟩
  obtain ⟨H, W, s0, s1, resized, hr, hout, h0, h1, e0, e1, _, _, hcase⟩ := padAndCrop_ok hi hok
  rcases hcase with ⟨_, _, rfl, rfl, rfl⟩ | ⟨hne, _⟩
  · have d0 := abs_le.1 hdr
    have d1 := abs_le.1 hdc
    have c0 : clip0 (-(new.upperRight.y - fov.upperRight.y) * H / new.width + H) ((H + H : ℕ) : K) =
        ((dr + H : ℤ) : K) := by
      have : -(new.upperRight.y - fov.upperRight.y) * H / new.width = dr := by
        rw [hnw, hsq]
        simp only [hnew, Fov.shift]
        field_simp
        ring
      rw [this, clip0]
      push_cast
      rw [max_eq_left, min_eq_left]
      · have : (dr : K) ≤ H := by exact_mod_cast d0.2
        linarith
      · have : (-(H : K)) ≤ dr := by exact_mod_cast d0.1
        linarith
    have c1 : clip0 ((new.lowerLeft.x - fov.lowerLeft.x) * W / new.height + W) ((W + W : ℕ) : K) =
        ((dc + W : ℤ) : K) := by
      have : (new.lowerLeft.x - fov.lowerLeft.x) * W / new.height = dc := by
        rw [hnh, ← hsq]
        simp only [hnew, Fov.shift]
        field_simp
        ring
      rw [this, clip0]
      push_cast
      rw [max_eq_left, min_eq_left]
      · have : (dc : K) ≤ W := by exact_mod_cast d1.2
        linarith
      · have : (-(W : K)) ≤ dc := by exact_mod_cast d1.1
        linarith
    rw [c0, roundHalfEven_intCast] at e0
    rw [c1, roundHalfEven_intCast] at e1
    intro r c hr' hc'
    rw [hout, pixel_crop _ _ _ _ _ _ _ hr' hc', pixel_pad zero _ _ hi _ _ (by omega) (by omega)]
    split_ifs with g1 g2 g2
    · congr 1 <;> omega
    · exact absurd (by omega) g2
    · exact absurd (by omega) g1
    · rfl
  · exact absurd ⟨hnw.symm, hnh.symm⟩ hne

/-- The two fields of view have no point in common. -/
def Disjoint' (a b : Fov K) : Prop :=
  a.upperRight.x < b.lowerLeft.x ∨ b.upperRight.x < a.lowerLeft.x ∨
  a.upperRight.y < b.lowerLeft.y ∨ b.upperRight.y < a.lowerLeft.y

/-- A start beyond the image is moved to the end of the image. -/
theorem start_beyond {x y : K} {N n s : ℕ} (hN : ((N : ℤ) : K) - 1 / 2 ≤ y) (hx : y + n < x)
    (hs : (s : ℤ) = roundHalfEven (clip0 x ((N + n : ℕ) : K))) : N + n ≤ s := by
  have h1 : ((N + n : ℕ) : K) - 1 / 2 < clip0 x ((N + n : ℕ) : K) := by
    unfold clip0
    rw [lt_min_iff]
    refine ⟨lt_of_lt_of_le ?_ (le_max_left _ _), by linarith⟩
    push_cast at hN ⊢
    linarith
  have h2 : clip0 x ((N + n : ℕ) : K) ≤ ((N + n : ℕ) : K) := min_le_right _ _
  have h3 : roundHalfEven (clip0 x ((N + n : ℕ) : K)) = ((N + n : ℕ) : ℤ) := by
    apply roundHalfEven_eq_of_abs_lt
    rw [abs_lt]
    push_cast at h1 h2 ⊢
    constructor <;> linarith
  rw [h3] at hs
  omega

/-- A start before the padding is moved to its beginning. -/
theorem start_before {x : K} {N n s : ℕ} (hx : x ≤ 0)
    (hs : (s : ℤ) = roundHalfEven (clip0 x ((N + n : ℕ) : K))) : s = 0 := by
  have : clip0 x ((N + n : ℕ) : K) = ((0 : ℤ) : K) := by
    unfold clip0
    rw [max_eq_right hx, min_eq_left (by positivity)]
    simp
  rw [this, roundHalfEven_intCast] at hs
  omega

/-- Re-framing between square fields of view that have no point in common gives only padding. -/
theorem C54_disjoint_partial (rs : Resizer P) (zero : P) (h w : ℕ) (img out : List (List P))
    (original new : Fov K) (hi : IsImage h w img) (ho : 0 < original.width) (hn : 0 < new.width)
    (hos : original.width = original.height) (hns : new.width = new.height)
    (hd : Disjoint' original new) (hok : padAndCrop rs zero h w img original new = .ok out) :
    ∀ r c, r < h → c < w → pixel out r c = some zero := by
  obtain ⟨H, W, s0, s1, resized, hr, hout, h0, h1, e0, e1, _, _, hcase⟩ := padAndCrop_ok hi hok
  have hoh : 0 < original.height := hos ▸ ho
  have hnh : 0 < new.height := hns ▸ hn
  -- sizes of the resized image
  have hH : ((H : ℤ) : K) - 1 / 2 ≤ h * (original.height / new.width) := by
    rcases hcase with ⟨e, _, rfl, _⟩ | ⟨_, e, _⟩
    · rw [← hos, e, div_self hn.ne']; push_cast; linarith
    · have := (roundHalfEven_bounds ((h : K) * (original.width / new.width))).2
      rw [← e] at this
      rw [← hos]
      linarith
  have hW : ((W : ℤ) : K) - 1 / 2 ≤ w * (original.width / new.height) := by
    rcases hcase with ⟨_, e, _, rfl, _⟩ | ⟨_, _, e⟩
    · rw [hos, e, div_self hnh.ne']; push_cast; linarith
    · have := (roundHalfEven_bounds ((w : K) * (original.height / new.height))).2
      rw [← e] at this
      rw [hos]
      linarith
  have key : (H + h ≤ s0 ∨ s0 = 0) ∨ (W + w ≤ s1 ∨ s1 = 0) ∨ h = 0 ∨ w = 0 := by
    by_cases hh : h = 0
    · exact Or.inr (Or.inr (Or.inl hh))
    by_cases hw : w = 0
    · exact Or.inr (Or.inr (Or.inr hw))
    have hh' : (0 : K) < h := by exact_mod_cast Nat.pos_of_ne_zero hh
    have hw' : (0 : K) < w := by exact_mod_cast Nat.pos_of_ne_zero hw
    rcases hd with hd | hd | hd | hd
    · -- to the right
      right; left; left
      refine start_beyond hW ?_ e1
      have : original.width < new.lowerLeft.x - original.lowerLeft.x := by
        simp only [Fov.width]; linarith
      have h2 : (w : K) * (original.width / new.height) <
          (new.lowerLeft.x - original.lowerLeft.x) * w / new.height := by
        rw [mul_div_assoc', mul_comm (w : K)]
        exact div_lt_div_of_pos_right (mul_lt_mul_of_pos_right this hw') hnh
      linarith
    · -- to the left
      right; left; right
      refine start_before ?_ e1
      have : new.lowerLeft.x - original.lowerLeft.x < -new.width := by
        simp only [Fov.width]; linarith
      have h2 : (new.lowerLeft.x - original.lowerLeft.x) * w / new.height ≤ -w := by
        rw [div_le_iff₀ hnh, ← hns]
        nlinarith
      linarith
    · -- above
      left; right
      refine start_before ?_ e0
      have : new.height < new.upperRight.y - original.upperRight.y := by
        simp only [Fov.height]; linarith
      have h2 : -(new.upperRight.y - original.upperRight.y) * h / new.width ≤ -h := by
        rw [div_le_iff₀ hn, hns]
        nlinarith
      linarith
    · -- below
      left; left
      refine start_beyond hH ?_ e0
      have : original.height < -(new.upperRight.y - original.upperRight.y) := by
        simp only [Fov.height]; linarith
      have h2 : (h : K) * (original.height / new.width) <
          -(new.upperRight.y - original.upperRight.y) * h / new.width := by
        rw [mul_div_assoc', mul_comm (h : K)]
        exact div_lt_div_of_pos_right (mul_lt_mul_of_pos_right this hh') hn
      linarith
  intro r c hr' hc'
  rw [hout, pixel_crop _ _ _ _ _ _ _ hr' hc', pixel_pad zero _ _ hr _ _ (by omega) (by omega), if_neg]
  omega

/-- For a field of view that is not square it can show parts of the image although the two have no point
in common. -/
theorem C54_not_square (rs : Resizer ℕ) : ∃ out,
    padAndCrop rs 0 2 2 [[1, 1], [1, 1]] (⟨⟨0, 0⟩, ⟨2, 1⟩⟩ : Fov ℚ) ⟨⟨0, -3 / 2⟩, ⟨1, -1 / 2⟩⟩ = .ok out ∧
      Disjoint' (⟨⟨0, 0⟩, ⟨2, 1⟩⟩ : Fov ℚ) ⟨⟨0, -3 / 2⟩, ⟨1, -1 / 2⟩⟩ ∧ pixel out 0 0 = some 1 := by
  have hi : IsImage 2 2 ([[1, 1], [1, 1]] : List (List ℕ)) := ⟨rfl, by simp⟩
  have hw : (⟨⟨0, 0⟩, ⟨2, 1⟩⟩ : Fov ℚ).width = 2 := by norm_num [Fov.width]
  have hh : (⟨⟨0, 0⟩, ⟨2, 1⟩⟩ : Fov ℚ).height = 1 := by norm_num [Fov.height]
  have hw' : (⟨⟨0, -3 / 2⟩, ⟨1, -1 / 2⟩⟩ : Fov ℚ).width = 1 := by norm_num [Fov.width]
  have hh' : (⟨⟨0, -3 / 2⟩, ⟨1, -1 / 2⟩⟩ : Fov ℚ).height = 1 := by norm_num [Fov.height]
  obtain ⟨out, hok⟩ := C54_raises rs 0 2 2 [[1, 1], [1, 1]] (⟨⟨0, 0⟩, ⟨2, 1⟩⟩ : Fov ℚ)
    ⟨⟨0, -3 / 2⟩, ⟨1, -1 / 2⟩⟩ (by rw [hw']; norm_num) (by rw [hh']; norm_num)
    (by rw [hw, hw']; norm_num) (by rw [hh, hh']; norm_num)
  refine ⟨out, hok, ?_, ?_⟩
  · right; right; right
    norm_num
  · have hok' := hok
    have hs : (⟨⟨0, 0⟩, ⟨2, 1⟩⟩ : Fov ℚ).scale = ⟨2, 1⟩ := by ext <;> norm_num [Fov.scale]
    have hs' : (⟨⟨0, -3 / 2⟩, ⟨1, -1 / 2⟩⟩ : Fov ℚ).scale = ⟨1, 1⟩ := by ext <;> norm_num [Fov.scale]
    unfold padAndCrop at hok'
    simp only [hs, hs'] at hok'
    have r4 : roundHalfEven (((2 : ℕ) : ℚ) * (2 / 1)) = 4 := by decide +kernel
    have r2 : roundHalfEven (((2 : ℕ) : ℚ) * (1 / 1)) = 2 := by decide +kernel
    have r5 : roundHalfEven (clip0 (-(-1 / 2 - 1) * ((2 : ℕ) : ℚ) / 1 + ((2 : ℕ) : ℚ))
      (((4 : ℤ) : ℚ) + 2 * ((2 : ℕ) : ℚ) - ((2 : ℕ) : ℚ))) = 5 := by decide +kernel
    have r6 : roundHalfEven (clip0 ((0 - 0) * ((2 : ℕ) : ℚ) / 1 + ((2 : ℕ) : ℚ))
      (((2 : ℤ) : ℚ) + 2 * ((2 : ℕ) : ℚ) - ((2 : ℕ) : ℚ))) = 2 := by decide +kernel
    have hsame : (decide ((2 / 1 : ℚ) = 1) && decide ((1 / 1 : ℚ) = 1)) = false := by decide +kernel
    simp only [hsame, Bool.false_eq_true, if_false, r4, r2, r5, r6] at hok'
    rw [if_neg (by decide)] at hok'
    simp only [Bool.not_false, Bool.true_and] at hok'
    rw [if_neg (by decide)] at hok'
    simp only [Except.ok.injEq] at hok'
    have hr := rs.size 2 2 [[1, 1], [1, 1]] 4 2 hi (by decide) (by decide)
    rw [← hok', pixel_crop _ _ _ _ _ _ _ (by decide) (by decide)]
    rw [show (2 : ℤ).toNat = 2 from rfl, show (4 : ℤ).toNat = 4 from rfl, show (5 : ℤ).toNat = 5 from rfl]
    rw [pixel_pad 0 _ _ hr _ _ (by decide) (by decide), if_pos (by decide)]
    have hlt : 3 < (rs.resize [[1, 1], [1, 1]] 4 2).length := by rw [hr.1]; decide
    have hrow := hr.2 _ (List.getElem_mem hlt)
    have hp := rs.pixels 2 2 [[1, 1], [1, 1]] 4 2 hi (by decide) (by decide) _ (List.getElem_mem hlt) _
      (List.getElem_mem (show 0 < _ by rw [hrow]; decide))
    obtain ⟨row, hrow', hp'⟩ := hp
    unfold pixel
    rw [show 5 + 0 - 2 = 3 from rfl, show 2 + 0 - 2 = 0 from rfl, List.getElem?_eq_getElem hlt,
      Option.bind_some, List.getElem?_eq_getElem (by rw [hrow]; decide)]
    congr 1
    simp only [List.mem_cons, List.not_mem_nil, or_false, or_self] at hrow'
    subst hrow'
    simpa using hp'

/-- A resizer: entry `i` of `h` comes from the entry under its middle. -/
def nearestResizer (P : Type) : Resizer P where
  resize img h w := (List.range h).filterMap (fun i => (img[((2 * i + 1) * img.length) / (2 * h)]?).map
    (fun row => (List.range w).filterMap (fun j => row[((2 * j + 1) * row.length) / (2 * w)]?)))
  size H W img h w hi hH hW := by
    have full : ∀ {α β : Type} (f : α → Option β) (l : List α), (∀ x ∈ l, (f x).isSome) →
        (l.filterMap f).length = l.length := by
      intro α β f l hl
      induction l with
      | nil => rfl
      | cons x l ih =>
        obtain ⟨y, hy⟩ := Option.isSome_iff_exists.1 (hl x List.mem_cons_self)
        rw [List.filterMap_cons_some hy, List.length_cons, List.length_cons,
          ih (fun z hz => hl z (List.mem_cons_of_mem _ hz))]
    have idx : ∀ i n N : ℕ, i < n → 0 < N → ((2 * i + 1) * N) / (2 * n) < N := by
      intro i n N hi hN
      rw [Nat.div_lt_iff_lt_mul (by omega), mul_comm N]
      exact Nat.mul_lt_mul_of_pos_right (by omega) hN
    constructor
    · rw [full, List.length_range]
      intro i hir
      rw [List.mem_range] at hir
      have := idx i h img.length hir (by rw [hi.1]; exact hH)
      rw [List.getElem?_eq_getElem this]
      rfl
    · intro row hrow
      obtain ⟨i, _, hr⟩ := List.mem_filterMap.1 hrow
      obtain ⟨src, hsrc, rfl⟩ := Option.map_eq_some_iff.1 hr
      rw [full, List.length_range]
      intro j hj
      rw [List.mem_range] at hj
      have hl := hi.2 src (List.mem_of_getElem? hsrc)
      rw [List.getElem?_eq_getElem (idx j w src.length hj (by rw [hl]; exact hW))]
      rfl
  pixels H W img h w _ _ _ := by
    intro row hrow p hp
    obtain ⟨i, _, hr⟩ := List.mem_filterMap.1 hrow
    obtain ⟨src, hsrc, rfl⟩ := Option.map_eq_some_iff.1 hr
    obtain ⟨j, _, hj⟩ := List.mem_filterMap.1 hp
    exact ⟨src, List.mem_of_getElem? hsrc, List.mem_of_getElem? hj⟩

/-- The hypotheses of `C54_shift`, `C54_raises` and `C54_disjoint_partial` for a field of view of 20 by 20. -/
example : IsImage 1 1 [[(5 : ℕ)]] ∧ (0 : ℚ) < (⟨⟨0, 0⟩, ⟨20, 20⟩⟩ : Fov ℚ).width ∧
    (⟨⟨0, 0⟩, ⟨20, 20⟩⟩ : Fov ℚ).width = (⟨⟨0, 0⟩, ⟨20, 20⟩⟩ : Fov ℚ).height ∧
    Disjoint' (⟨⟨0, 0⟩, ⟨20, 20⟩⟩ : Fov ℚ) ⟨⟨30, 0⟩, ⟨40, 10⟩⟩ := by
  refine ⟨⟨rfl, by simp⟩, by norm_num [Fov.width], by norm_num [Fov.width, Fov.height], Or.inl (by norm_num)⟩

end PD.Props
