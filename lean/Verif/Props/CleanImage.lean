/- C75, C76, C78: clean images, and their agreement with masks and detections. -/
import Verif.Props.Imaging
import Verif.Props.Detector
import Mathlib.Data.Rat.Floor

set_option linter.unusedSectionVars false
set_option linter.unusedSimpArgs false

namespace PD.Props
open PD PD.Spec
variable {K : Type} [Field K] [LinearOrder K] [IsStrictOrderedRing K] [FloorRing K]

/-- `x` lies in cell `i` of `n` equal cells of `[lo, hi]`; the last cell contains `hi`. -/
def InCell (lo hi : K) (n i : ℕ) (x : K) : Prop :=
  i < n ∧ lo + i * ((hi - lo) / n) ≤ x ∧ (x < lo + (i + 1) * ((hi - lo) / n) ∨ (i + 1 = n ∧ x = hi))

theorem histBin_iff {lo hi : K} (h : lo < hi) {n : ℕ} (hn : 0 < n) (i : ℕ) (x : K) :
    histBin lo hi n x = some i ↔ InCell lo hi n i x := by
  have hn' : (0 : K) < n := by exact_mod_cast hn
  have hδ : 0 < (hi - lo) / n := div_pos (sub_pos.2 h) hn'
  have hnδ : (n : K) * ((hi - lo) / n) = hi - lo := by field_simp
  unfold histBin InCell
  by_cases hout : x < lo ∨ hi < x
  · rw [if_pos hout]
    constructor
    · intro hc; cases hc
    · rintro ⟨hi', h1, h2⟩
      exfalso
      have hi1 : (i : K) + 1 ≤ n := by exact_mod_cast hi'
      rcases hout with ho | ho
      · have : 0 ≤ (i : K) * ((hi - lo) / n) := by positivity
        linarith
      · rcases h2 with h2 | h2
        · have : ((i : K) + 1) * ((hi - lo) / n) ≤ n * ((hi - lo) / n) := mul_le_mul_of_nonneg_right hi1 hδ.le
          linarith
        · linarith [h2.2]
  · rw [if_neg hout]
    push Not at hout
    by_cases heq : x = hi
    · rw [if_pos heq, Option.some.injEq]
      subst heq
      constructor
      · rintro rfl
        have hc : ((n - 1 : ℕ) : K) = n - 1 := by rw [Nat.cast_sub hn]; simp
        refine ⟨by omega, ?_, .inr ⟨by omega, rfl⟩⟩
        rw [hc, sub_mul, hnδ]
        linarith
      · rintro ⟨h1, h2, h3⟩
        rcases h3 with h3 | h3
        · have hi1 : (i : K) + 1 ≤ n := by exact_mod_cast h1
          have : ((i : K) + 1) * ((x - lo) / n) ≤ n * ((x - lo) / n) := mul_le_mul_of_nonneg_right hi1 hδ.le
          linarith
        · omega
    · rw [if_neg heq, Option.some.injEq]
      have hq0 : 0 ≤ (x - lo) / ((hi - lo) / n) := div_nonneg (by linarith [hout.1]) hδ.le
      have hf0 : 0 ≤ ⌊(x - lo) / ((hi - lo) / n)⌋ := Int.floor_nonneg.2 hq0
      have hlt : x < hi := lt_of_le_of_ne hout.2 heq
      constructor
      · intro he
        have hfi : ⌊(x - lo) / ((hi - lo) / n)⌋ = (i : ℤ) := by omega
        obtain ⟨a, b⟩ := Int.floor_eq_iff.1 hfi
        rw [le_div_iff₀ hδ] at a
        rw [div_lt_iff₀ hδ] at b
        push_cast at a b
        refine ⟨?_, by linarith, .inl (by linarith)⟩
        have : (i : K) * ((hi - lo) / n) < n * ((hi - lo) / n) := by linarith
        have := lt_of_mul_lt_mul_right this hδ.le
        exact_mod_cast this
      · rintro ⟨h1, h2, h3⟩
        rcases h3 with h3 | h3
        · have : ⌊(x - lo) / ((hi - lo) / n)⌋ = (i : ℤ) := by
            rw [Int.floor_eq_iff, le_div_iff₀ hδ, div_lt_iff₀ hδ]
            push_cast
            constructor <;> linarith
          rw [this]; simp
        · exact absurd h3.2 heq

theorem tabulate_isImage {P : Type} (h w : ℕ) (f : ℕ → ℕ → P) : IsImage h w (tabulate h w f) := by
  constructor
  · simp [tabulate]
  · intro row hrow
    obtain ⟨r, _, rfl⟩ := List.mem_map.1 hrow
    simp

theorem tabulate_pixel {P : Type} (h w : ℕ) (f : ℕ → ℕ → P) (r c : ℕ) (hr : r < h) (hc : c < w) :
    pixel (tabulate h w f) r c = some (f r c) := by
  simp [pixel, tabulate, hr, hc]

theorem at2_of_pixel {img : List (List K)} {r c : ℕ} {v : K} (h : pixel img r c = some v) : at2 img r c = v := by
  unfold pixel at h
  obtain ⟨row, h1, h2⟩ := Option.bind_eq_some_iff.1 h
  simp [at2, h1, h2]

/-- Total intensity of the atoms in cell (`i` along x, `j` along y). -/
noncomputable def cellIntensity (power : K → K) (grid : Grid K) (lo hi : K) (n i j : ℕ) : K :=
  open Classical in
  (((grid.positions.zip grid.numbers).filter (fun a => decide (InCell lo hi n i a.1.x ∧ InCell lo hi n j a.1.y))).map
    (fun a => power (a.2 : K))).sum

theorem foldl_addImages {α : Type} (n : ℕ) (l : List α) (g : α → List (List K)) (init : List (List K))
    (r c : ℕ) (hr : r < n) (hc : c < n) (v : K) (hv : pixel init r c = some v) :
    pixel (l.foldl (fun img a => addImages n img (g a)) init) r c = some (v + (l.map (fun a => at2 (g a) r c)).sum) := by
  induction l generalizing init v with
  | nil => simpa using hv
  | cons a l ih =>
    rw [List.foldl_cons, ih (addImages n init (g a)) (v + at2 (g a) r c)]
    · simp [add_assoc]
    · unfold addImages
      rw [tabulate_pixel n n _ r c hr hc, at2_of_pixel hv]

theorem sum_indicator (numbers : List ℤ) (hnd : numbers.Nodup) (k : ℤ) (hk : k ∈ numbers) (v : K) :
    (numbers.map (fun Z => if Z = k then v else 0)).sum = v := by
  induction numbers with
  | nil => cases hk
  | cons z zs ihz =>
    rw [List.map_cons, List.sum_cons]
    rw [List.nodup_cons] at hnd
    by_cases hz : z = k
    · rw [if_pos hz]
      have : (zs.map (fun Z => if Z = k then v else 0)).sum = 0 := by
        apply List.sum_eq_zero
        intro x hx
        obtain ⟨y, hy, rfl⟩ := List.mem_map.1 hx
        rw [if_neg]
        rintro rfl
        exact hnd.1 (hz ▸ hy)
      rw [this, add_zero]
    · rw [if_neg hz, zero_add]
      rcases List.mem_cons.1 hk with h | h
      · exact absurd h.symm hz
      · exact ihz hnd.2 h

theorem sum_by_number {α : Type} (l : List (α × ℤ)) (q : α × ℤ → Bool) (f : ℤ → K) (numbers : List ℤ)
    (hnd : numbers.Nodup) (hmem : ∀ a ∈ l, a.2 ∈ numbers) :
    (numbers.map (fun Z => (((l.filter (fun a => decide (a.2 = Z))).filter q).length : K) * f Z)).sum =
      ((l.filter q).map (fun a => f a.2)).sum := by
  induction l with
  | nil => simp
  | cons a l ih =>
    have ih := ih (fun b hb => hmem b (List.mem_cons_of_mem _ hb))
    have ha := hmem a (by simp)
    by_cases hq : q a = true
    · rw [List.filter_cons_of_pos hq, List.map_cons, List.sum_cons, ← ih]
      have hstep : ∀ Z, (((List.filter (fun b => decide (b.2 = Z)) (a :: l)).filter q).length : K) * f Z =
          (if Z = a.2 then f a.2 else 0) + ((((l.filter (fun b => decide (b.2 = Z))).filter q).length : K) * f Z) := by
        intro Z
        by_cases hZ : a.2 = Z
        · rw [List.filter_cons_of_pos (by simpa using hZ), List.filter_cons_of_pos hq, List.length_cons]
          subst hZ
          simp
          ring
        · rw [List.filter_cons_of_neg (by simpa using hZ), if_neg (fun h => hZ h.symm)]
          simp
      rw [List.map_congr_left (fun Z _ => hstep Z), List.sum_map_add]
      congr 1
      exact sum_indicator numbers hnd a.2 ha (f a.2)
    · rw [List.filter_cons_of_neg hq, ← ih]
      congr 1
      apply List.map_congr_left
      intro Z _
      by_cases hZ : a.2 = Z
      · rw [List.filter_cons_of_pos (by simpa using hZ), List.filter_cons_of_neg hq]
      · rw [List.filter_cons_of_neg (by simpa using hZ)]

theorem rawImage_isImage (power : K → K) (grid : Grid K) (lo hi : K) (n : ℕ) :
    IsImage n n (rawImage power grid lo hi n) := reverse_isImage (tabulate_isImage _ _ _)

/-- C75: before blurring, pixel (`r` from the top, `c` from the left) of an image of `n`×`n` pixels showing
`[lo, hi]`² has the summed intensity of the atoms in cell `c` along x and cell `r`, counted from the top,
along y. -/
theorem C75_pixel_intensity (power : K → K) (grid : Grid K) (lo hi : K) (hlo : lo < hi) (n : ℕ) (r c : ℕ)
    (hr : r < n) (hc : c < n) :
    pixel (rawImage power grid lo hi n) r c = some (cellIntensity power grid lo hi n c (n - 1 - r)) := by
  classical
  have hn : 0 < n := by omega
  have hr' : n - 1 - r < n := by omega
  simp only [rawImage, transposeImage]
  rw [pixel_reverse (tabulate_isImage _ _ _) r c hr]
  rw [tabulate_pixel _ _ _ _ _ hr' hc, Option.some.injEq]
  have h0 : pixel (tabulate n n (fun _ _ => (0 : K))) c (n - 1 - r) = some 0 := tabulate_pixel _ _ _ _ _ hc hr'
  rw [at2_of_pixel (foldl_addImages n _ _ _ c (n - 1 - r) hc hr' 0 h0), zero_add]
  unfold cellIntensity
  rw [← sum_by_number (grid.positions.zip grid.numbers) _ (fun Z => power (Z : K)) grid.numbers.dedup
    (List.nodup_dedup _) (fun a ha => List.mem_dedup.2 (List.of_mem_zip (a := a.1) (b := a.2) ha).2)]
  congr 1
  apply List.map_congr_left
  intro Z _
  have hpix : pixel ((histogram2d lo hi n ((List.filter (fun a => decide (a.2 = Z))
      (grid.positions.zip grid.numbers)).map Prod.fst)).map (fun row => row.map (fun x => x * power (Z : K))))
      c (n - 1 - r) = some ((((List.filter (fun a => decide (a.2 = Z))
      (grid.positions.zip grid.numbers)).map Prod.fst).filter (fun p =>
    decide (histBin lo hi n p.x = some c) && decide (histBin lo hi n p.y = some (n - 1 - r)))).length *
      power (Z : K)) := by
    have := tabulate_pixel n n (fun i j => (((((List.filter (fun a => decide (a.2 = Z))
      (grid.positions.zip grid.numbers)).map Prod.fst)).filter (fun p =>
    decide (histBin lo hi n p.x = some i) && decide (histBin lo hi n p.y = some j))).length : K)) c (n - 1 - r) hc hr'
    unfold pixel at this ⊢
    obtain ⟨row, h1, h2⟩ := Option.bind_eq_some_iff.1 this
    unfold histogram2d
    rw [List.getElem?_map, h1, Option.map_some, Option.bind_some, List.getElem?_map, h2, Option.map_some]
  rw [at2_of_pixel hpix]
  congr 2
  rw [List.filter_map, List.length_map]
  congr 1
  apply List.filter_congr
  intro a _
  simp only [Function.comp_apply]
  rw [← Bool.decide_and, decide_eq_decide, histBin_iff hlo hn, histBin_iff hlo hn]

/-- For the plain view `[0, 1]`², cells are the pixels. -/
theorem inPixel_inCell {n r c : ℕ} {p : V2 K} (hr : r < n) (hc : c < n) (h : InPixel n r c p) :
    InCell 0 1 n c p.x ∧ InCell 0 1 n (n - 1 - r) p.y := by
  have hn : (n : K) ≠ 0 := by
    have : 0 < n := by omega
    exact_mod_cast this.ne'
  have hcast : ((n - 1 - r : ℕ) : K) = n - 1 - r := by
    rw [Nat.sub_sub, Nat.cast_sub (by omega)]; push_cast; ring
  obtain ⟨h1, h2, h3, h4⟩ := h
  refine ⟨⟨hc, ?_, .inl ?_⟩, ⟨by omega, ?_, .inl ?_⟩⟩
  · rw [sub_zero, zero_add, mul_one_div]; exact h1
  · rw [sub_zero, zero_add, mul_one_div]; exact h2
  · rw [hcast, sub_zero, zero_add, mul_one_div]
    have : ((n : K) - 1 - r) / n = 1 - (r + 1) / n := by field_simp; ring
    rw [this]; exact h3
  · rw [hcast, sub_zero, zero_add, mul_one_div]
    have : ((n : K) - 1 - r + 1) / n = 1 - r / n := by field_simp; ring
    rw [this]; exact h4

/-- The buffer in whole pixels. -/
theorem bufferWidth_spec {b : K} (hb : 0 ≤ b) (size : ℕ) :
    ((⌊b * size⌋.toNat : ℕ) : K) ≤ b * size ∧ b * size < ((⌊b * size⌋.toNat : ℕ) : K) + 1 := by
  have h0 : 0 ≤ b * size := by positivity
  have hf : 0 ≤ ⌊b * size⌋ := Int.floor_nonneg.2 h0
  have hc : ((⌊b * size⌋.toNat : ℕ) : K) = ((⌊b * size⌋ : ℤ) : K) := by
    have : ((⌊b * size⌋.toNat : ℕ) : ℤ) = ⌊b * size⌋ := Int.toNat_of_nonneg hf
    exact_mod_cast congrArg (Int.cast : ℤ → K) this
  rw [hc]
  exact ⟨Int.floor_le _, Int.lt_floor_add_one _⟩

theorem registration {b : K} (hb : 0 ≤ b) {size w : ℕ} (hs : 0 < size) (hw1 : (w : K) ≤ b * size)
    (hw2 : b * size < w + 1) {x : K} (h0 : 0 ≤ x) (h1 : x < 1) :
    ∃ (c : ℕ) (ε : K), c < size ∧ InCell (-b) (1 + b) (size + 2 * w) (w + c) x ∧ |ε| < 1 ∧
      (b * size = w → ε = 0) ∧ (c : ℤ) = ⌊x * size + ε⌋ := by
  have hs' : (0 : K) < size := by exact_mod_cast hs
  have hw' : (0 : K) ≤ w := Nat.cast_nonneg w
  set N : K := size + 2 * w with hN
  have hNpos : 0 < N := by positivity
  have hcast : ((size + 2 * w : ℕ) : K) = N := by push_cast; rfl
  have h2b : 0 < 1 + 2 * b := by linarith
  have hlen : (1 + b) - (-b) = 1 + 2 * b := by ring
  set δ : K := (1 + 2 * b) / N with hδ
  have hδpos : 0 < δ := div_pos h2b hNpos
  set f : K := b * size - w with hf
  have hf0 : 0 ≤ f := by rw [hf]; linarith
  have hf1 : f < 1 := by rw [hf]; linarith
  have hNeq : N = size * (1 + 2 * b) - 2 * f := by rw [hN, hf]; ring
  set ε : K := f * (1 - 2 * x) / (1 + 2 * b) with hε
  have hpos : (x + b) / δ - w = x * size + ε := by
    rw [hδ, hε, hf, hN]
    field_simp
    ring
  have hge : 0 ≤ x * size + ε := by
    rw [← hpos]
    rw [sub_nonneg, le_div_iff₀ hδpos, hδ]
    rw [mul_div_assoc', div_le_iff₀ hNpos, hN]
    nlinarith
  have hlt : x * size + ε < size := by
    rw [← hpos, sub_lt_iff_lt_add, div_lt_iff₀ hδpos, hδ, mul_div_assoc', lt_div_iff₀ hNpos]
    nlinarith
  have habs : |ε| < 1 := by
    rw [hε, abs_div, abs_of_pos h2b, div_lt_one h2b, abs_mul, abs_of_nonneg hf0]
    have hx : |1 - 2 * x| ≤ 1 := by rw [abs_le]; constructor <;> linarith
    calc f * |1 - 2 * x| ≤ f * 1 := mul_le_mul_of_nonneg_left hx hf0
      _ = f := mul_one f
      _ < 1 := hf1
      _ ≤ 1 + 2 * b := by linarith
  have hfl0 : 0 ≤ ⌊x * size + ε⌋ := Int.floor_nonneg.2 hge
  have hflt : ⌊x * size + ε⌋ < size := by
    rw [Int.floor_lt]; exact_mod_cast hlt
  refine ⟨⌊x * size + ε⌋.toNat, ε, by omega, ?_, habs, ?_, Int.toNat_of_nonneg hfl0⟩
  · have hcc : ((⌊x * size + ε⌋.toNat : ℕ) : K) = ((⌊x * size + ε⌋ : ℤ) : K) := by
      have : ((⌊x * size + ε⌋.toNat : ℕ) : ℤ) = ⌊x * size + ε⌋ := Int.toNat_of_nonneg hfl0
      exact_mod_cast congrArg (Int.cast : ℤ → K) this
    have e1 := Int.floor_le (x * size + ε)
    have e2 := Int.lt_floor_add_one (x * size + ε)
    refine ⟨by omega, ?_, .inl ?_⟩
    · rw [hcast, hlen, ← hδ]
      push_cast
      rw [hcc]
      have : ((w : K) + ((⌊x * size + ε⌋ : ℤ) : K)) ≤ (x + b) / δ := by linarith
      rw [le_div_iff₀ hδpos] at this
      linarith
    · rw [hcast, hlen, ← hδ]
      push_cast
      rw [hcc]
      have : (x + b) / δ < (w : K) + ((⌊x * size + ε⌋ : ℤ) : K) + 1 := by linarith
      rw [div_lt_iff₀ hδpos] at this
      linarith
  · intro he
    have : f = 0 := by rw [hf, he, sub_self]
    rw [hε, this]; simp

theorem pixel_cropImage {P : Type} (img : List (List P)) (b n r c : ℕ) (hr : r < n) (hc : c < n) :
    pixel (cropImage b n img) r c = pixel img (b + r) (b + c) := pixel_crop img b b n n r c hr hc

theorem cellIntensity_nonneg {power : K → K} {grid : Grid K} (hp : ∀ Z ∈ grid.numbers, 0 ≤ power (Z : K))
    (lo hi : K) (n i j : ℕ) : 0 ≤ cellIntensity power grid lo hi n i j := by
  classical
  unfold cellIntensity
  apply List.sum_nonneg
  intro x hx
  obtain ⟨a, ha, rfl⟩ := List.mem_map.1 hx
  exact hp _ (List.of_mem_zip (a := a.1) (b := a.2) (List.mem_of_mem_filter ha)).2

theorem le_cellIntensity {power : K → K} {grid : Grid K} (hp : ∀ Z ∈ grid.numbers, 0 ≤ power (Z : K))
    {lo hi : K} {n i j : ℕ} {a : V2 K × ℤ} (ha : a ∈ grid.positions.zip grid.numbers)
    (hx : InCell lo hi n i a.1.x) (hy : InCell lo hi n j a.1.y) :
    power (a.2 : K) ≤ cellIntensity power grid lo hi n i j := by
  classical
  unfold cellIntensity
  apply List.single_le_sum
  · intro x hx
    obtain ⟨a, ha, rfl⟩ := List.mem_map.1 hx
    exact hp _ (List.of_mem_zip (a := a.1) (b := a.2) (List.mem_of_mem_filter ha)).2
  · exact List.mem_map.2 ⟨a, List.mem_filter.2 ⟨ha, by simp [hx, hy]⟩, rfl⟩

/-- C75: with a buffer of `b` (as a fraction of the view) around an image of `size` pixels, the part that is
kept shows an atom of the view in column `⌊x·size + ε⌋` and in row `⌊y·size + ε'⌋` from the bottom, with `ε`
and `ε'` below one pixel, and zero if the buffer is a whole number of pixels (as with no buffer). -/
theorem C75_place (power : K → K) (grid : Grid K) (hp : ∀ Z ∈ grid.numbers, 0 ≤ power (Z : K)) (b : K) (hb : 0 ≤ b)
    (size : ℕ) (hs : 0 < size) (a : V2 K × ℤ) (ha : a ∈ grid.positions.zip grid.numbers)
    (hx : 0 ≤ a.1.x ∧ a.1.x < 1) (hy : 0 ≤ a.1.y ∧ a.1.y < 1) :
    ∃ (r c : ℕ) (εx εy v : K), r < size ∧ c < size ∧ |εx| < 1 ∧ |εy| < 1 ∧
      ((∃ k : ℕ, b * size = k) → εx = 0 ∧ εy = 0) ∧
      (c : ℤ) = ⌊a.1.x * size + εx⌋ ∧ ((size - 1 - r : ℕ) : ℤ) = ⌊a.1.y * size + εy⌋ ∧
      pixel (cropImage ⌊b * size⌋.toNat size
        (rawImage power grid (-b) (1 + b) (size + 2 * ⌊b * size⌋.toNat))) r c = some v ∧
      power (a.2 : K) ≤ v := by
  obtain ⟨hw1, hw2⟩ := bufferWidth_spec hb size
  set w := ⌊b * size⌋.toNat with hw
  obtain ⟨c, εx, hc, hcx, he1, hz1, hf1⟩ := registration hb hs hw1 hw2 hx.1 hx.2
  obtain ⟨j, εy, hj, hcy, he2, hz2, hf2⟩ := registration hb hs hw1 hw2 hy.1 hy.2
  have hlo : -b < 1 + b := by linarith
  refine ⟨size - 1 - j, c, εx, εy, cellIntensity power grid (-b) (1 + b) (size + 2 * w) (w + c) (w + j), by omega, hc,
    he1, he2, ?_, hf1, ?_, ?_, le_cellIntensity hp ha hcx hcy⟩
  · rintro ⟨k, hk⟩
    have : w = k := by
      rw [hw, hk]
      simp
    have hbw : b * size = w := by rw [hk, this]
    exact ⟨hz1 hbw, hz2 hbw⟩
  · rw [← hf2]; congr 1; omega
  · rw [pixel_cropImage _ _ _ _ _ (by omega) hc, C75_pixel_intensity power grid (-b) (1 + b) hlo _ _ _ (by omega) (by omega)]
    congr 2
    omega

theorem foldl_max_spec (xs : List K) (x : K) :
    (xs.foldl max x = x ∨ xs.foldl max x ∈ xs) ∧ x ≤ xs.foldl max x ∧ ∀ y ∈ xs, y ≤ xs.foldl max x := by
  induction xs generalizing x with
  | nil => simp
  | cons a xs ih =>
    obtain ⟨h1, h2, h3⟩ := ih (max x a)
    rw [List.foldl_cons]
    refine ⟨?_, le_trans (le_max_left _ _) h2, ?_⟩
    · rcases h1 with h1 | h1
      · rcases max_choice x a with h | h
        · left; rw [h1, h]
        · right; rw [h1, h]; simp
      · right; exact List.mem_cons_of_mem _ h1
    · intro y hy
      rcases List.mem_cons.1 hy with rfl | hy
      · exact le_trans (le_max_right _ _) h2
      · exact h3 y hy

theorem imageMax_spec {img : List (List K)} {m : K} (h : imageMax img = some m) :
    m ∈ img.flatten ∧ ∀ v ∈ img.flatten, v ≤ m := by
  unfold imageMax at h
  split at h
  · cases h
  · rename_i x xs hx
    rw [Option.some.injEq] at h
    obtain ⟨h1, h2, h3⟩ := foldl_max_spec xs x
    rw [hx, ← h]
    refine ⟨?_, ?_⟩
    · rcases h1 with h1 | h1
      · rw [h1]; simp
      · exact List.mem_cons_of_mem _ h1
    · intro v hv
      rcases List.mem_cons.1 hv with rfl | hv
      · exact h2
      · exact h3 v hv

theorem pixel_mem {P : Type} {img : List (List P)} {r c : ℕ} {v : P} (h : pixel img r c = some v) : v ∈ img.flatten := by
  unfold pixel at h
  obtain ⟨row, h1, h2⟩ := Option.bind_eq_some_iff.1 h
  exact List.mem_flatten.2 ⟨row, List.mem_of_getElem? h1, List.mem_of_getElem? h2⟩

theorem mem_pixel {P : Type} {img : List (List P)} {v : P} (h : v ∈ img.flatten) : ∃ r c, pixel img r c = some v := by
  obtain ⟨row, h1, h2⟩ := List.mem_flatten.1 h
  obtain ⟨r, hr, rfl⟩ := List.mem_iff_getElem.1 h1
  obtain ⟨c, hc, rfl⟩ := List.mem_iff_getElem.1 h2
  exact ⟨r, c, by simp [pixel, hr, hc]⟩

theorem cropImage_isImage {P : Type} {b n N : ℕ} {img : List (List P)} (hi : IsImage N N img) (h : b + n ≤ N) :
    IsImage n n (cropImage b n img) := crop_isImage hi h h

/-- The hypotheses about a grid and a view that the image needs. -/
structure Renderable (power : K → K) (grid : Grid K) (fov : Fov K) (size : ℕ) (buffer : K) : Prop where
  lengths : grid.positions.length = grid.numbers.length
  power_pos : ∀ Z ∈ grid.numbers, 0 < power (Z : K)
  width : fov.width ≠ 0
  height : fov.height ≠ 0
  size_pos : 0 < size
  buffer_nonneg : 0 ≤ buffer

theorem clean_eq {bl : Blur K} {power : K → K} {grid : Grid K} {fov : Fov K} {size : ℕ} {b : K}
    (h : Renderable power grid fov size b) :
    generateCleanImage bl power grid fov size b = normalise (cropImage ⌊b * size⌋.toNat size
      (bl.blur (blurSigma fov size) (rawImage power grid (-b) (1 + b) (size + 2 * ⌊b * size⌋.toNat)))) := by
  unfold generateCleanImage
  have := h.size_pos
  rw [if_neg (by simp [h.lengths]), if_neg (by simp; intro; omega), if_neg (by simp [h.width, h.height])]

theorem raw_nonneg {power : K → K} {grid : Grid K} (hp : ∀ Z ∈ grid.numbers, 0 ≤ power (Z : K)) {lo hi : K}
    (hlo : lo < hi) (n : ℕ) : ∀ row ∈ rawImage power grid lo hi n, ∀ v ∈ row, 0 ≤ v := by
  intro row hrow v hv
  obtain ⟨r, c, hpix⟩ := mem_pixel (List.mem_flatten.2 ⟨row, hrow, hv⟩)
  have hi := rawImage_isImage power grid lo hi n
  have hrc : r < n ∧ c < n := by
    unfold pixel at hpix
    obtain ⟨row', h1, h2⟩ := Option.bind_eq_some_iff.1 hpix
    obtain ⟨h3, h4⟩ := List.getElem?_eq_some_iff.1 h1
    obtain ⟨h5, _⟩ := List.getElem?_eq_some_iff.1 h2
    exact ⟨by rw [← hi.1]; exact h3, by rw [← hi.2 row' (List.mem_of_getElem? h1)]; exact h5⟩
  rw [C75_pixel_intensity power grid lo _ hlo n r c hrc.1 hrc.2, Option.some.injEq] at hpix
  rw [← hpix]
  exact cellIntensity_nonneg hp ..

/-- C75: if an atom is in view, the clean image has the asked size, values between 0 and 1, and 1 is
reached. -/
theorem C75_range (bl : Blur K) (power : K → K) (grid : Grid K) (fov : Fov K) (size : ℕ) (b : K)
    (h : Renderable power grid fov size b) (a : V2 K × ℤ) (ha : a ∈ grid.positions.zip grid.numbers)
    (hx : 0 ≤ a.1.x ∧ a.1.x < 1) (hy : 0 ≤ a.1.y ∧ a.1.y < 1) :
    ∃ img, generateCleanImage bl power grid fov size b = .ok img ∧ IsImage size size img ∧
      (∀ row ∈ img, ∀ p ∈ row, ∃ v : K, p = some v ∧ 0 ≤ v ∧ v ≤ 1) ∧
      ∃ row ∈ img, some (1 : K) ∈ row := by
  have hp : ∀ Z ∈ grid.numbers, 0 ≤ power (Z : K) := fun Z hZ => (h.power_pos Z hZ).le
  have hlo : -b < 1 + b := by linarith [h.buffer_nonneg]
  obtain ⟨r, c, _, _, v, hr, hc, _, _, _, _, _, hpix, hv⟩ :=
    C75_place power grid hp b h.buffer_nonneg size h.size_pos a ha hx hy
  have hvpos : 0 < v := lt_of_lt_of_le (h.power_pos _ (List.of_mem_zip (a := a.1) (b := a.2) ha).2) hv
  rw [clean_eq h]
  set w := ⌊b * size⌋.toNat
  set raw := rawImage power grid (-b) (1 + b) (size + 2 * w) with hraw
  have hnn := raw_nonneg hp hlo (size + 2 * w)
  rw [← hraw] at hnn
  have hri := rawImage_isImage power grid (-b) (1 + b) (size + 2 * w)
  rw [← hraw] at hri
  have hbi := bl.size (blurSigma fov size) _ _ _ hri
  have hci : IsImage size size (cropImage w size (bl.blur (blurSigma fov size) raw)) :=
    cropImage_isImage hbi (by omega)
  have hbn := bl.nonneg (blurSigma fov size) raw hnn
  have hcn : ∀ row ∈ cropImage w size (bl.blur (blurSigma fov size) raw), ∀ v ∈ row, 0 ≤ v := by
    intro row hrow v hv
    obtain ⟨row', h1, rfl⟩ := List.mem_map.1 hrow
    exact hbn row' (List.mem_of_mem_drop (List.mem_of_mem_take h1)) v (List.mem_of_mem_drop (List.mem_of_mem_take hv))
  have hpos : 0 < at2 (bl.blur (blurSigma fov size) raw) (w + r) (w + c) := by
    apply bl.pos (blurSigma fov size) _ _ raw (w + r) (w + c) hri hnn (by omega) (by omega)
    rw [pixel_cropImage _ _ _ _ _ hr hc] at hpix
    have := at2_of_pixel hpix
    unfold at2 at this
    rw [this]; exact hvpos
  have hcp : ∃ u, pixel (cropImage w size (bl.blur (blurSigma fov size) raw)) r c = some u ∧ 0 < u := by
    have h1 : w + r < (bl.blur (blurSigma fov size) raw).length := by rw [hbi.1]; omega
    have h2 := hbi.2 _ (List.getElem_mem h1)
    have h3 : w + c < ((bl.blur (blurSigma fov size) raw)[w + r]).length := by rw [h2]; omega
    refine ⟨(bl.blur (blurSigma fov size) raw)[w + r][w + c], ?_, ?_⟩
    · rw [pixel_cropImage _ _ _ _ _ hr hc]
      simp [pixel, h1, h3]
    · unfold at2 at hpos
      simpa [h1, h3] using hpos
  obtain ⟨u, hu, hupos⟩ := hcp
  unfold normalise
  cases hmax : imageMax (cropImage w size (bl.blur (blurSigma fov size) raw)) with
  | none =>
    exfalso
    unfold imageMax at hmax
    split at hmax
    · rename_i he
      have := pixel_mem hu
      rw [he] at this
      cases this
    · cases hmax
  | some m =>
    obtain ⟨hm1, hm2⟩ := imageMax_spec hmax
    have hmpos : 0 < m := lt_of_lt_of_le hupos (hm2 u (pixel_mem hu))
    refine ⟨_, rfl, ⟨by simp [hci.1], ?_⟩, ?_, ?_⟩
    · intro row hrow
      obtain ⟨row', h1, rfl⟩ := List.mem_map.1 hrow
      simp [hci.2 row' h1]
    · intro row hrow q hq
      obtain ⟨row', h1, rfl⟩ := List.mem_map.1 hrow
      obtain ⟨x, h2, rfl⟩ := List.mem_map.1 hq
      refine ⟨x / m, by rw [if_neg hmpos.ne'], div_nonneg (hcn row' h1 x h2) hmpos.le, ?_⟩
      rw [div_le_one hmpos]
      exact hm2 x (List.mem_flatten.2 ⟨row', h1, h2⟩)
    · obtain ⟨row', h1, h2⟩ := List.mem_flatten.1 hm1
      refine ⟨_, List.mem_map.2 ⟨row', h1, rfl⟩, List.mem_map.2 ⟨m, h2, ?_⟩⟩
      rw [if_neg hmpos.ne', div_self hmpos.ne']

/-- Without an atom in the buffered view, every pixel of the clean image is nan. -/
theorem C75_empty_view (bl : Blur K) (power : K → K) (grid : Grid K) (fov : Fov K) (size : ℕ) (b : K)
    (h : Renderable power grid fov size b)
    (hout : ∀ a ∈ grid.positions.zip grid.numbers,
      a.1.x < -b ∨ 1 + b < a.1.x ∨ a.1.y < -b ∨ 1 + b < a.1.y) :
    ∃ img, generateCleanImage bl power grid fov size b = .ok img ∧ IsImage size size img ∧
      ∀ row ∈ img, ∀ p ∈ row, p = none := by
  classical
  have hlo : -b < 1 + b := by linarith [h.buffer_nonneg]
  rw [clean_eq h]
  set w := ⌊b * size⌋.toNat
  set raw := rawImage power grid (-b) (1 + b) (size + 2 * w) with hraw
  have hs := h.size_pos
  have hN : 0 < size + 2 * w := by omega
  have hri := rawImage_isImage power grid (-b) (1 + b) (size + 2 * w)
  rw [← hraw] at hri
  have hz : ∀ row ∈ raw, ∀ v ∈ row, v = 0 := by
    intro row hrow v hv
    obtain ⟨r, c, hpix⟩ := mem_pixel (List.mem_flatten.2 ⟨row, hrow, hv⟩)
    have hrc : r < size + 2 * w ∧ c < size + 2 * w := by
      unfold pixel at hpix
      obtain ⟨row', h1, h2⟩ := Option.bind_eq_some_iff.1 hpix
      obtain ⟨h3, h4⟩ := List.getElem?_eq_some_iff.1 h1
      obtain ⟨h5, _⟩ := List.getElem?_eq_some_iff.1 h2
      exact ⟨by rw [← hri.1]; exact h3, by rw [← hri.2 row' (List.mem_of_getElem? h1)]; exact h5⟩
    rw [hraw, C75_pixel_intensity power grid _ _ hlo _ r c hrc.1 hrc.2, Option.some.injEq] at hpix
    rw [← hpix]
    unfold cellIntensity
    have : (grid.positions.zip grid.numbers).filter (fun a => decide (InCell (-b) (1 + b) (size + 2 * w) c a.1.x ∧
        InCell (-b) (1 + b) (size + 2 * w) (size + 2 * w - 1 - r) a.1.y)) = [] := by
      rw [List.filter_eq_nil_iff]
      intro a ha hcell
      have hcell := of_decide_eq_true hcell
      have key : ∀ i x, InCell (-b) (1 + b) (size + 2 * w) i x → ¬ (x < -b ∨ 1 + b < x) := by
        intro i x hi hx
        have := (histBin_iff hlo hN i x).2 hi
        unfold histBin at this
        rw [if_pos hx] at this
        cases this
      have k1 := key _ _ hcell.1
      have k2 := key _ _ hcell.2
      rcases hout a ha with h | h | h | h
      · exact k1 (.inl h)
      · exact k1 (.inr h)
      · exact k2 (.inl h)
      · exact k2 (.inr h)
    rw [this]; rfl
  have hbz := bl.zero (blurSigma fov size) raw hz
  have hbi := bl.size (blurSigma fov size) _ _ _ hri
  have hci : IsImage size size (cropImage w size (bl.blur (blurSigma fov size) raw)) :=
    cropImage_isImage hbi (by omega)
  have hcz : ∀ row ∈ cropImage w size (bl.blur (blurSigma fov size) raw), ∀ v ∈ row, v = 0 := by
    intro row hrow v hv
    obtain ⟨row', h1, rfl⟩ := List.mem_map.1 hrow
    exact hbz row' (List.mem_of_mem_drop (List.mem_of_mem_take h1)) v (List.mem_of_mem_drop (List.mem_of_mem_take hv))
  unfold normalise
  cases hmax : imageMax (cropImage w size (bl.blur (blurSigma fov size) raw)) with
  | none =>
    exfalso
    have h1 : 0 < (cropImage w size (bl.blur (blurSigma fov size) raw)).length := by rw [hci.1]; exact hs
    have h2 := hci.2 _ (List.getElem_mem h1)
    have h3 : 0 < ((cropImage w size (bl.blur (blurSigma fov size) raw))[0]).length := by rw [h2]; exact hs
    unfold imageMax at hmax
    split at hmax
    · rename_i he
      have : (cropImage w size (bl.blur (blurSigma fov size) raw))[0][0] ∈
          (cropImage w size (bl.blur (blurSigma fov size) raw)).flatten :=
        List.mem_flatten.2 ⟨_, List.getElem_mem h1, List.getElem_mem h3⟩
      rw [he] at this
      cases this
    · cases hmax
  | some m =>
    obtain ⟨hm1, _⟩ := imageMax_spec hmax
    obtain ⟨row, h1, h2⟩ := List.mem_flatten.1 hm1
    have hm0 := hcz row h1 m h2
    refine ⟨_, rfl, ⟨by simp [hci.1], ?_⟩, ?_⟩
    · intro row hrow
      obtain ⟨row', h1, rfl⟩ := List.mem_map.1 hrow
      simp [hci.2 row' h1]
    · intro row hrow q hq
      obtain ⟨row', h1, rfl⟩ := List.mem_map.1 hrow
      obtain ⟨x, h2, rfl⟩ := List.mem_map.1 hq
      rw [if_pos hm0]

/-! ### C76 -/

/-- C76: every point of the view lies in exactly one pixel. -/
theorem C76_one_pixel (n : ℕ) (hn : 0 < n) (p : V2 K) (hx : 0 ≤ p.x ∧ p.x < 1) (hy : 0 ≤ p.y ∧ p.y < 1) :
    ∃! rc : ℕ × ℕ, rc.1 < n ∧ rc.2 < n ∧ InPixel n rc.1 rc.2 p := by
  have hn' : (0 : K) < n := by exact_mod_cast hn
  have key : ∀ x : K, 0 ≤ x → x < 1 → ∃ c : ℕ, c < n ∧ (c : K) ≤ x * n ∧ x * n < c + 1 ∧
      ∀ d : ℕ, (d : K) ≤ x * n → x * n < d + 1 → d = c := by
    intro x h0 h1
    have hq : 0 ≤ x * n := by positivity
    have hf : 0 ≤ ⌊x * n⌋ := Int.floor_nonneg.2 hq
    have hlt : x * n < n := by nlinarith
    have hcc : ((⌊x * n⌋.toNat : ℕ) : K) = ((⌊x * n⌋ : ℤ) : K) := by
      have : ((⌊x * n⌋.toNat : ℕ) : ℤ) = ⌊x * n⌋ := Int.toNat_of_nonneg hf
      exact_mod_cast congrArg (Int.cast : ℤ → K) this
    refine ⟨⌊x * n⌋.toNat, ?_, by rw [hcc]; exact Int.floor_le _, by rw [hcc]; exact Int.lt_floor_add_one _, ?_⟩
    · have : ⌊x * n⌋ < n := by rw [Int.floor_lt]; exact_mod_cast hlt
      omega
    · intro d h2 h3
      have : ⌊x * n⌋ = (d : ℤ) := by
        rw [Int.floor_eq_iff]; push_cast; exact ⟨h2, h3⟩
      omega
  obtain ⟨c, hc, c1, c2, c3⟩ := key p.x hx.1 hx.2
  obtain ⟨j, hj, j1, j2, j3⟩ := key p.y hy.1 hy.2
  have hiff : ∀ r, r < n → ((1 - ((r : K) + 1) / n ≤ p.y ∧ p.y < 1 - (r : K) / n) ↔
      (((n - 1 - r : ℕ) : K) ≤ p.y * n ∧ p.y * n < ((n - 1 - r : ℕ) : K) + 1)) := by
    intro r hr
    have hcast : ((n - 1 - r : ℕ) : K) = n - 1 - r := by
      rw [Nat.sub_sub, Nat.cast_sub (by omega)]; push_cast; ring
    rw [hcast]
    have e1 : 1 - ((r : K) + 1) / n = ((n : K) - 1 - r) / n := by field_simp; ring
    have e2 : 1 - (r : K) / n = ((n : K) - 1 - r + 1) / n := by field_simp; ring
    rw [e1, e2, div_le_iff₀ hn', lt_div_iff₀ hn']
  refine ⟨(n - 1 - j, c), ⟨by simp; omega, hc, ?_, ?_, ?_⟩, ?_⟩
  · exact (div_le_iff₀ hn').2 c1
  · exact (lt_div_iff₀ hn').2 c2
  · apply (hiff (n - 1 - j) (by omega)).2
    rw [show n - 1 - (n - 1 - j) = j by omega]
    exact ⟨j1, j2⟩
  · rintro ⟨r', c'⟩ ⟨h1, h2, h3, h4, h5⟩
    have hc' : c' = c := c3 c' ((div_le_iff₀ hn').1 h3) ((lt_div_iff₀ hn').1 h4)
    have hr' : n - 1 - r' = j := by
      obtain ⟨a, b⟩ := (hiff r' h1).1 h5
      exact j3 _ a b
    simp only at h1
    rw [Prod.mk.injEq]
    exact ⟨by omega, hc'⟩

/-- C76: in the image without buffer the atom is drawn in its pixel, the mask of the same size has its atomic
number there, if the half diagonal of a pixel is shorter than the radius of the atom's disc and no later atom
covers the centre of the pixel, and the detector's formula turns the pixel back into the atom's position, up to
one pixel. -/
theorem C76_agree (power : K → K) (grid : Grid K) (hp : ∀ Z ∈ grid.numbers, 0 ≤ power (Z : K)) (fov : Fov K)
    (n : ℕ) (hZ : ∀ Z ∈ grid.numbers, 1 ≤ Z ∧ Z ≤ 255) (pre post : List (V2 K × ℤ)) (a : V2 K × ℤ)
    (ha : grid.positions.zip grid.numbers = pre ++ a :: post) (r c : ℕ) (hr : r < n) (hc : c < n)
    (hin : InPixel n r c a.1) :
    (∃ v, pixel (rawImage power grid 0 1 n) r c = some v ∧ power (a.2 : K) ≤ v) ∧
    ((fov.width / (2 * n)) ^ 2 + (fov.height / (2 * n)) ^ 2 < power ((a.2 : K) / 6) * (1 / 10) →
      (∀ b ∈ post, ¬ DiscContains power fov b (fov.toMaterial (pixelCentre n n r c))) →
      ∃ mask, generateGridMask power grid fov n n = .ok mask ∧ pixel mask r c = some a.2) ∧
    |(c : K) / n - a.1.x| ≤ 1 / n ∧ |(1 - (r : K) / n) - a.1.y| ≤ 1 / n := by
  have hn : (0 : K) < n := by
    have : 0 < n := by omega
    exact_mod_cast this
  have hmem : a ∈ grid.positions.zip grid.numbers := by rw [ha]; simp
  obtain ⟨i1, i2, i3, i4⟩ := hin
  refine ⟨?_, ?_, ?_, ?_⟩
  · obtain ⟨h1, h2⟩ := inPixel_inCell hr hc ⟨i1, i2, i3, i4⟩
    exact ⟨_, C75_pixel_intensity power grid 0 1 one_pos n r c hr hc, le_cellIntensity hp hmem h1 h2⟩
  · intro hsmall hpost
    obtain ⟨mask, hm, _, hpix⟩ := C63_mask_partial power grid fov n hZ
    refine ⟨mask, hm, (hpix r c hr hc).2 pre a post ha ?_ hpost⟩
    unfold DiscContains
    refine lt_of_le_of_lt ?_ hsmall
    have hd : V2.distSq (fov.toMaterial (pixelCentre n n r c)) (fov.toMaterial a.1) =
        ((((c : K) + 1 / 2) / n - a.1.x) * fov.width) ^ 2 + ((1 - ((r : K) + 1 / 2) / n - a.1.y) * fov.height) ^ 2 := by
      show ((((c : K) + 1 / 2) / n * (fov.upperRight.x - fov.lowerLeft.x) + fov.lowerLeft.x) -
          (a.1.x * (fov.upperRight.x - fov.lowerLeft.x) + fov.lowerLeft.x)) * _ + _ * _ = _
      simp only [Fov.width, Fov.height, Fov.toMaterial, Fov.scale, pixelCentre, V2.sub_x, V2.sub_y, V2.add_y, V2.mul_y,
        V2.add_x, V2.mul_x]
      ring
    rw [hd]
    have hx : |((c : K) + 1 / 2) / n - a.1.x| ≤ 1 / (2 * n) := by
      have e1 : ((c : K) + 1 / 2) / n = (c : K) / n + 1 / (2 * n) := by field_simp
      have e2 : ((c : K) + 1) / n = (c : K) / n + 2 * (1 / (2 * n)) := by field_simp
      rw [e2] at i2
      rw [e1, abs_le]; constructor <;> linarith
    have hy : |1 - ((r : K) + 1 / 2) / n - a.1.y| ≤ 1 / (2 * n) := by
      have e1 : ((r : K) + 1 / 2) / n = (r : K) / n + 1 / (2 * n) := by field_simp
      have e2 : ((r : K) + 1) / n = (r : K) / n + 2 * (1 / (2 * n)) := by field_simp
      rw [e2] at i3
      rw [e1, abs_le]; constructor <;> linarith
    have hx2 : (((c : K) + 1 / 2) / n - a.1.x) ^ 2 ≤ (1 / (2 * n)) ^ 2 := by
      rw [← sq_abs]; exact pow_le_pow_left₀ (abs_nonneg _) hx 2
    have hy2 : (1 - ((r : K) + 1 / 2) / n - a.1.y) ^ 2 ≤ (1 / (2 * n)) ^ 2 := by
      rw [← sq_abs]; exact pow_le_pow_left₀ (abs_nonneg _) hy 2
    rw [mul_pow, mul_pow]
    have w2 : (fov.width / (2 * n)) ^ 2 = (1 / (2 * n)) ^ 2 * fov.width ^ 2 := by ring
    have h2 : (fov.height / (2 * n)) ^ 2 = (1 / (2 * n)) ^ 2 * fov.height ^ 2 := by ring
    rw [w2, h2]
    exact add_le_add (mul_le_mul_of_nonneg_right hx2 (sq_nonneg _)) (mul_le_mul_of_nonneg_right hy2 (sq_nonneg _))
  · have e2 : ((c : K) + 1) / n = (c : K) / n + 1 / n := by field_simp
    rw [e2] at i2
    rw [abs_le]; constructor <;> linarith
  · have e2 : ((r : K) + 1) / n = (r : K) / n + 1 / n := by field_simp
    rw [e2] at i3
    rw [abs_le]; constructor <;> linarith

/-! ### C78 -/

/-- C78 for square fields of view: the blur is 1/2.15 Å wide along both axes, at every image size.  A pixel is
`height / size` Å high and `width / size` Å wide. -/
theorem C78_round_partial (fov : Fov K) (size : ℕ) (hs : 0 < size) (hw : fov.width ≠ 0) (hsq : fov.width = fov.height) :
    (blurSigma fov size).x * (fov.height / size) = 100 / 215 ∧
    (blurSigma fov size).y * (fov.width / size) = 100 / 215 := by
  have hs' : (size : K) ≠ 0 := by exact_mod_cast hs.ne'
  unfold blurSigma
  rw [← hsq]
  constructor <;> · simp only; field_simp

/-- C78, false otherwise: the blur along the rows' axis uses the width of the view and the other one its height,
so atoms are round only in square views. -/
theorem C78_not_round (fov : Fov K) (size : ℕ) (hs : 0 < size) (hw : 0 < fov.width) (hh : 0 < fov.height) :
    (blurSigma fov size).x * (fov.height / size) = (blurSigma fov size).y * (fov.width / size) ↔
      fov.width = fov.height := by
  have hs' : (size : K) ≠ 0 := by exact_mod_cast hs.ne'
  unfold blurSigma
  simp only
  constructor
  · intro h
    have h' : fov.height * fov.height = fov.width * fov.width := by
      field_simp at h
      linarith
    nlinarith
  · intro h
    rw [h]

/-- The blur that leaves images as they are. -/
def sharp (K : Type) [Field K] [LinearOrder K] : Blur K where
  blur _ img := img
  size _ _ _ _ h := h
  nonneg _ _ h := h
  pos _ _ _ _ _ _ _ _ _ _ h := h
  zero _ _ h := h

/-- The hypotheses of the theorems above, and what is drawn: two atoms in one pixel, one in another. -/
example : Renderable (fun x : ℚ => x) ⟨[⟨1/8, 7/8⟩, ⟨1/4, 3/4⟩, ⟨9/10, 1/10⟩], [6, 6, 14]⟩ ⟨⟨0, 0⟩, ⟨20, 20⟩⟩ 2 0 ∧
    generateCleanImage (sharp ℚ) (fun x : ℚ => x) ⟨[⟨1/8, 7/8⟩, ⟨1/4, 3/4⟩, ⟨9/10, 1/10⟩], [6, 6, 14]⟩
      ⟨⟨0, 0⟩, ⟨20, 20⟩⟩ 2 0 = .ok [[some (12 / 14), some 0], [some 0, some 1]] := by
  refine ⟨⟨by decide, by decide +kernel, by decide +kernel, by decide +kernel, by decide, by decide⟩, by decide +kernel⟩

example : InPixel (K := ℚ) 4 1 2 ⟨5 / 8, 5 / 8⟩ ∧
    ((20 : ℚ) / (2 * 512)) ^ 2 + (20 / (2 * 512)) ^ 2 < (6 / 6) * (1 / 10) := by
  constructor
  · unfold InPixel; norm_num
  · norm_num

end PD.Props
