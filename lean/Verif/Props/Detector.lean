/- C65: atom detection. -/
import Verif.Model.Detector
import Verif.Lemmas.Lists

set_option linter.unusedSectionVars false
set_option linter.unusedSimpArgs false

namespace PD.Props
open PD
variable {K : Type} [Field K] [LinearOrder K] [IsStrictOrderedRing K] [FloorRing K]

theorem mem_zip_consts {α : Type} (a b : List α) (x : α × ℤ)
    (hx : x ∈ (a ++ b).zip (a.map (fun _ => (6 : ℤ)) ++ b.map (fun _ => (14 : ℤ)))) :
    (x.1 ∈ a ∧ x.2 = 6) ∨ (x.1 ∈ b ∧ x.2 = 14) := by
  rw [List.zip_append (by simp)] at hx
  have key : ∀ (l : List α) (k : ℤ), x ∈ l.zip (l.map (fun _ => k)) → x.1 ∈ l ∧ x.2 = k := by
    intro l k h
    obtain ⟨h1, h2⟩ := List.of_mem_zip (a := x.1) (b := x.2) h
    obtain ⟨y, _, hy⟩ := List.mem_map.1 h2
    exact ⟨h1, hy.symm⟩
  rcases List.mem_append.1 hx with h | h
  · exact .inl (key _ _ h)
  · exact .inr (key _ _ h)

/-- C65 for the aligner's detector: whatever the network predicts, every atom returned is carbon or silicon
and strictly inside the margins. -/
theorem C65_aligner (ct : Contours K) (h w : ℕ) (probs : List (List (List K))) (buffer : K) :
    let g := processDetections ct h w probs buffer
    g.positions.length = g.numbers.length ∧
    (∀ Z ∈ g.numbers, Z = 6 ∨ Z = 14) ∧
    ∀ p ∈ g.positions, buffer < p.x ∧ p.x < 1 - buffer ∧ buffer < p.y ∧ p.y < 1 - buffer := by
  refine ⟨by simp [processDetections], ?_, ?_⟩
  · intro Z hZ
    obtain ⟨x, hx, rfl⟩ := List.mem_map.1 hZ
    rcases mem_zip_consts _ _ _ (List.mem_of_mem_filter hx) with h | h
    · exact .inl h.2
    · exact .inr h.2
  · intro p hp
    obtain ⟨x, hx, rfl⟩ := List.mem_map.1 hp
    have := (List.mem_filter.1 hx).2
    simp only [Bool.and_eq_true, decide_eq_true_eq] at this
    exact ⟨this.1.1.1, this.1.2, this.1.1.2, this.2⟩

theorem isSet_mapIdx (mask : List (List Bool)) (f : ℕ → ℕ → Bool → Bool) (p : ℕ × ℕ)
    (h : isSet (mask.mapIdx (fun r row => row.mapIdx (fun c v => f r c v))) p = true) :
    f p.1 p.2 (isSet mask p) = true := by
  obtain ⟨r, c⟩ := p
  unfold isSet at h ⊢
  simp only [List.getD_eq_getElem?_getD, List.getElem?_mapIdx] at h ⊢
  cases hr : mask[r]? with
  | none => rw [hr] at h; simp at h
  | some row =>
    rw [hr] at h
    simp only [Option.map_some, Option.getD_some, List.getElem?_mapIdx] at h ⊢
    cases hc : row[c]? with
    | none => rw [hc] at h; simp at h
    | some v => rw [hc] at h; simpa using h

theorem isSet_erodeOnce {mask : List (List Bool)} {p : ℕ × ℕ} (h : isSet (erodeOnce mask) p = true) :
    isSet mask p = true := by
  have := isSet_mapIdx mask _ p h
  simp only [Bool.and_eq_true] at this
  exact this.1.1.1

theorem isSet_erode {mask : List (List Bool)} {p : ℕ × ℕ} (n : ℕ) (h : isSet (erode n mask) p = true) :
    isSet mask p = true := by
  induction n generalizing mask with
  | zero => exact h
  | succ n ih => exact isSet_erodeOnce (ih h)

theorem linked_mono {a b : List (List Bool)} (hab : ∀ p, isSet a p = true → isSet b p = true) {p q : ℕ × ℕ}
    (h : Relation.ReflTransGen (Touching a) p q) : Relation.ReflTransGen (Touching b) p q := by
  induction h with
  | refl => exact .refl
  | tail _ h ih => exact .tail ih ⟨hab _ h.1, hab _ h.2.1, h.2.2⟩

/-- The class the network gives most weight at a pixel. -/
def predicted (probs : List (List (List K))) (p : ℕ × ℕ) : Option ℕ :=
  ((probs[p.1]?).bind (fun row => row[p.2]?)).map argmaxIndex

/-- Two pixels of class `k` next to each other: in the same place, or one step apart along a row, along a column, or
both. -/
def Adjoining (probs : List (List (List K))) (k : ℕ) (p q : ℕ × ℕ) : Prop :=
  predicted probs p = some k ∧ predicted probs q = some k ∧
    |(p.1 : ℤ) - q.1| ≤ 1 ∧ |(p.2 : ℤ) - q.2| ≤ 1

/-- The pixels of one class. -/
def classMask (probs : List (List (List K))) (k : ℕ) : List (List Bool) :=
  probs.map (fun row => row.map (fun q => decide (argmaxIndex q = k)))

theorem isSet_classMask (probs : List (List (List K))) (k : ℕ) (p : ℕ × ℕ) :
    isSet (classMask probs k) p = true ↔ predicted probs p = some k := by
  obtain ⟨r, c⟩ := p
  unfold isSet classMask predicted
  simp only [List.getD_eq_getElem?_getD, List.getElem?_map]
  cases hr : probs[r]? with
  | none => simp
  | some row =>
    simp only [Option.map_some, Option.getD_some, List.getElem?_map, Option.bind_some]
    cases hc : row[c]? with
    | none => simp
    | some v => simp

theorem linked_adjoining {probs : List (List (List K))} {k : ℕ} {p q : ℕ × ℕ}
    (h : Relation.ReflTransGen (Touching (classMask probs k)) p q) :
    Relation.ReflTransGen (Adjoining probs k) p q := by
  induction h with
  | refl => exact .refl
  | tail _ h ih =>
    obtain ⟨h1, h2, h3, h4, h5, h6⟩ := h
    refine .tail ih ⟨(isSet_classMask probs k _).1 h1, (isSet_classMask probs k _).1 h2, ?_, ?_⟩ <;>
      rw [abs_le] <;> constructor <;> omega

theorem truncInt_between {x : K} {a b : ℕ} (ha : (a : K) ≤ x) (hb : x ≤ (b : K)) :
    (a : ℤ) ≤ truncInt x ∧ truncInt x ≤ (b : ℤ) := by
  have h0 : 0 ≤ x := le_trans (Nat.cast_nonneg a) ha
  unfold truncInt
  rw [if_pos h0]
  refine ⟨Int.le_floor.2 (by exact_mod_cast ha), ?_⟩
  have : ((⌊x⌋ : ℤ) : K) ≤ ((b : ℤ) : K) := le_trans (Int.floor_le x) (by exact_mod_cast hb)
  exact_mod_cast this

theorem alignerCentroids_mem (ct : Contours K) (h w : ℕ) (probs : List (List (List K))) (k n : ℕ) (hk : k ≠ 0)
    (p : V2 K) (hp : p ∈ alignerCentroids ct h w (probs.map (fun row => row.map argmaxIndex)) k n)
    (hx : 0 < p.x) :
    ∃ (blob : List (ℕ × ℕ)) (cx cy : ℤ), p = ⟨(cx : K) / h, 1 - (cy : K) / w⟩ ∧
      (∀ q ∈ blob, predicted probs q = some k) ∧
      (∀ q ∈ blob, ∀ q' ∈ blob, Relation.ReflTransGen (Adjoining probs k) q q') ∧
      (∃ q ∈ blob, (q.2 : ℤ) ≤ cx) ∧ (∃ q ∈ blob, cx ≤ (q.2 : ℤ)) ∧
      (∃ q ∈ blob, (q.1 : ℤ) ≤ cy) ∧ (∃ q ∈ blob, cy ≤ (q.1 : ℤ)) := by
  unfold alignerCentroids at hp
  simp only [List.map_map] at hp
  have hmask : (probs.map ((fun row => row.map (fun j => decide (j = k ∧ j ≠ 0))) ∘
      (fun row => row.map argmaxIndex))) = classMask probs k := by
    unfold classMask
    apply List.map_congr_left
    intro row _
    simp only [Function.comp_apply, List.map_map]
    apply List.map_congr_left
    intro q _
    simp only [Function.comp_apply]
    by_cases hq : argmaxIndex q = k
    · simp [hq, hk]
    · simp [hq]
  rw [hmask] at hp
  obtain ⟨m, hm, rfl⟩ := List.mem_map.1 hp
  have hm0 : m.m00 ≠ 0 := by
    intro h0
    simp [centroidPixel, h0] at hx
  obtain ⟨blob, h1, h2, ⟨q1, m1, b1⟩, ⟨q2, m2, b2⟩, ⟨q3, m3, b3⟩, ⟨q4, m4, b4⟩⟩ := ct.box _ m hm hm0
  obtain ⟨t1, t2⟩ := truncInt_between b1 b2
  obtain ⟨t3, t4⟩ := truncInt_between b3 b4
  refine ⟨blob, truncInt (m.m10 / m.m00), truncInt (m.m01 / m.m00), ?_, ?_, ?_, ⟨q1, m1, t1⟩, ⟨q2, m2, t2⟩,
    ⟨q3, m3, t3⟩, ⟨q4, m4, t4⟩⟩
  · simp only [centroidPixel]; rw [if_pos hm0]
  · intro q hq
    exact (isSet_classMask probs k q).1 (isSet_erode n (h1 q hq))
  · intro q hq q' hq'
    exact linked_adjoining (linked_mono (fun _ hs => isSet_erode n hs) (h2 q hq q' hq'))

/-- C65: with a margin that is not negative, every atom the aligner's detector returns is backed by pixels:
it sits, up to the conversion to the frame, in the bounding box of connected pixels whose predicted class is
that of the atom.  In particular contours without area give no atoms. -/
theorem C65_backed (ct : Contours K) (h w : ℕ) (probs : List (List (List K))) (buffer : K) (hb : 0 ≤ buffer) :
    let g := processDetections ct h w probs buffer
    ∀ a ∈ g.positions.zip g.numbers, ∃ (k : ℕ) (blob : List (ℕ × ℕ)) (cx cy : ℤ),
      ((a.2 = 6 ∧ k = 1) ∨ (a.2 = 14 ∧ k = 2)) ∧
      a.1 = ⟨(cx : K) / h, 1 - (cy : K) / w⟩ ∧
      (∀ q ∈ blob, predicted probs q = some k) ∧
      (∀ q ∈ blob, ∀ q' ∈ blob, Relation.ReflTransGen (Adjoining probs k) q q') ∧
      (∃ q ∈ blob, (q.2 : ℤ) ≤ cx) ∧ (∃ q ∈ blob, cx ≤ (q.2 : ℤ)) ∧
      (∃ q ∈ blob, (q.1 : ℤ) ≤ cy) ∧ (∃ q ∈ blob, cy ≤ (q.1 : ℤ)) := by
  intro g a ha
  have hin := (C65_aligner ct h w probs buffer).2.2 a.1 (List.of_mem_zip (a := a.1) (b := a.2) ha).1
  have hx : 0 < a.1.x := lt_of_le_of_lt hb hin.1
  have hmem : a ∈ (alignerCentroids ct h w (probs.map (fun row => row.map argmaxIndex)) 1 1 ++
      alignerCentroids ct h w (probs.map (fun row => row.map argmaxIndex)) 2 3).zip
      ((alignerCentroids ct h w (probs.map (fun row => row.map argmaxIndex)) 1 1).map (fun _ => (6 : ℤ)) ++
      (alignerCentroids ct h w (probs.map (fun row => row.map argmaxIndex)) 2 3).map (fun _ => (14 : ℤ))) := by
    have hz : ∀ l : List (V2 K × ℤ), (l.map Prod.fst).zip (l.map Prod.snd) = l := by
      intro l
      induction l with
      | nil => rfl
      | cons x l ih => simp [ih]
    have ha' : a ∈ g.positions.zip g.numbers := ha
    simp only [g, processDetections] at ha'
    rw [hz] at ha'
    exact List.mem_of_mem_filter ha'
  rcases mem_zip_consts _ _ _ hmem with ⟨h1, h2⟩ | ⟨h1, h2⟩
  · obtain ⟨blob, cx, cy, hh⟩ := alignerCentroids_mem ct h w probs 1 1 (by norm_num) a.1 h1 hx
    exact ⟨1, blob, cx, cy, .inl ⟨h2, rfl⟩, hh⟩
  · obtain ⟨blob, cx, cy, hh⟩ := alignerCentroids_mem ct h w probs 2 3 (by norm_num) a.1 h1 hx
    exact ⟨2, blob, cx, cy, .inr ⟨h2, rfl⟩, hh⟩

/-- A contour finder that reports each set pixel as a contour of area one. -/
def pixelContours (K : Type) [Field K] [LinearOrder K] [IsStrictOrderedRing K] : Contours K where
  find mask := ((List.range mask.length).flatMap (fun r =>
    ((List.range (mask.getD r []).length).filter (fun c => isSet mask (r, c))).map (fun c : ℕ => ⟨1, c, r⟩)))
  box := by
    intro mask m hm _
    obtain ⟨r, _, hr⟩ := List.mem_flatMap.1 hm
    obtain ⟨c, hc, rfl⟩ := List.mem_map.1 hr
    have hs := (List.mem_filter.1 hc).2
    refine ⟨[(r, c)], by simpa using hs, ?_, ?_, ?_, ?_, ?_⟩
    · intro p hp q hq
      simp only [List.mem_singleton] at hp hq
      subst hp hq
      exact .refl
    all_goals exact ⟨(r, c), by simp, by simp⟩

/-- A prediction of `h`×`w` pixels: carbon in two columns from `c` on, nothing elsewhere. -/
def twoColumns (h w c : ℕ) : List (List (List ℚ)) :=
  List.replicate h ((List.range w).map (fun i => if i = c ∨ i = c + 1 then [0, 1, 0] else [1, 0, 0]))

/-- C65 needs square images.  x is divided by the number of rows, so in a wide image atoms on the right are
taken to be outside the frame and dropped: here a contour at column 5 of 8 and row 2 of 4. -/
theorem C65_wide_lost :
    (∃ m ∈ (pixelContours ℚ).find (erode 1 (classMask (twoColumns 4 8 4) 1)), centroidPixel m = (5, 2)) ∧
    (processDetections (pixelContours ℚ) 4 8 (twoColumns 4 8 4) (1 / 20)).positions = [] := by
  constructor
  · refine ⟨⟨1, 5, 2⟩, by decide +kernel, by decide +kernel⟩
  · decide +kernel

/-- In a tall image atoms are reported elsewhere: the only atoms found have x = 3/8, though the contours are
at column 3 of 4. -/
theorem C65_tall_misplaced :
    (∀ m ∈ (pixelContours ℚ).find (erode 1 (classMask (twoColumns 8 4 2) 1)), (centroidPixel m).1 = 3) ∧
    (processDetections (pixelContours ℚ) 8 4 (twoColumns 8 4 2) (1 / 20)).positions =
      [⟨3 / 8, 3 / 4⟩, ⟨3 / 8, 1 / 2⟩, ⟨3 / 8, 1 / 4⟩] := by
  constructor <;> decide +kernel

/-- The hypotheses of `C65_backed` hold for a square prediction in which atoms are found. -/
example : (0 : ℚ) ≤ 1 / 20 ∧ (processDetections (pixelContours ℚ) 4 4 (twoColumns 4 4 1) (1 / 20)).positions =
    [⟨1 / 2, 3 / 4⟩, ⟨1 / 2, 1 / 2⟩, ⟨1 / 2, 1 / 4⟩] := by
  refine ⟨by norm_num, by decide +kernel⟩

/-! ### The stand-alone detector -/

/-- C65 for the stand-alone detector, when it finds contours of both kinds in its 256×256 layers, or of
neither: atoms are carbon or silicon, in the frame.  The claim also asks for the margin, and for an answer in
the other cases. -/
theorem C65_detector_partial (carbon silicon : List (Moments K)) (hne : carbon = [] ↔ silicon = [])
    (hbox : ∀ m ∈ carbon ++ silicon, m.m00 ≠ 0 →
      (0 ≤ m.m10 / m.m00 ∧ m.m10 / m.m00 ≤ 255) ∧ 0 ≤ m.m01 / m.m00 ∧ m.m01 / m.m00 ≤ 255) :
    ∃ g, detectorGrid carbon silicon = .ok g ∧ g.positions.length = carbon.length + silicon.length ∧
      g.numbers.length = g.positions.length ∧ (∀ Z ∈ g.numbers, Z = 6 ∨ Z = 14) ∧
      ∀ p ∈ g.positions, 0 ≤ p.x ∧ p.x < 1 ∧ 0 < p.y ∧ p.y ≤ 1 := by
  refine ⟨⟨detectorCentroids carbon ++ detectorCentroids silicon,
    carbon.map (fun _ => 6) ++ silicon.map (fun _ => 14)⟩, ?_, by simp [detectorCentroids],
    by simp [detectorCentroids], ?_, ?_⟩
  · unfold detectorGrid
    rw [if_neg]
    by_cases h : carbon = []
    · simp [h, hne.1 h]
    · have : silicon ≠ [] := fun hs => h (hne.2 hs)
      simp [h, this]
  · intro Z hZ
    rcases List.mem_append.1 hZ with h | h
    · obtain ⟨_, _, rfl⟩ := List.mem_map.1 h; exact .inl rfl
    · obtain ⟨_, _, rfl⟩ := List.mem_map.1 h; exact .inr rfl
  · intro p hp
    have : ∃ m ∈ carbon ++ silicon, p = ⟨((centroidPixel m).1 : K) / 256, 1 - ((centroidPixel m).2 : K) / 256⟩ := by
      rcases List.mem_append.1 hp with h | h
      · obtain ⟨m, hm, rfl⟩ := List.mem_map.1 h; exact ⟨m, by simp [hm], rfl⟩
      · obtain ⟨m, hm, rfl⟩ := List.mem_map.1 h; exact ⟨m, by simp [hm], rfl⟩
    obtain ⟨m, hm, rfl⟩ := this
    have hc : (0 ≤ (centroidPixel m).1 ∧ (centroidPixel m).1 ≤ 255) ∧
        0 ≤ (centroidPixel m).2 ∧ (centroidPixel m).2 ≤ 255 := by
      unfold centroidPixel
      split
      · rename_i h0
        obtain ⟨⟨a, b⟩, c, d⟩ := hbox m hm h0
        have h1 := truncInt_between (a := 0) (b := 255) (by simpa using a) (by simpa using b)
        have h2 := truncInt_between (a := 0) (b := 255) (by simpa using c) (by simpa using d)
        exact ⟨⟨by simpa using h1.1, by simpa using h1.2⟩, by simpa using h2.1, by simpa using h2.2⟩
      · simp
    obtain ⟨⟨a, b⟩, c, d⟩ := hc
    have a' : (0 : K) ≤ ((centroidPixel m).1 : K) := by exact_mod_cast a
    have b' : ((centroidPixel m).1 : K) ≤ 255 := by exact_mod_cast b
    have c' : (0 : K) ≤ ((centroidPixel m).2 : K) := by exact_mod_cast c
    have d' : ((centroidPixel m).2 : K) ≤ 255 := by exact_mod_cast d
    refine ⟨by positivity, ?_, ?_, ?_⟩
    · show ((centroidPixel m).1 : K) / 256 < 1
      rw [div_lt_one (by norm_num)]; linarith
    · show 0 < 1 - ((centroidPixel m).2 : K) / 256
      rw [sub_pos, div_lt_one (by norm_num)]; linarith
    · show 1 - ((centroidPixel m).2 : K) / 256 ≤ 1
      rw [sub_le_self_iff]; positivity

/-- C65, false for the stand-alone detector: if it finds contours of one kind only (a sheet without silicon,
say), it raises `ValueError`. -/
theorem C65_detector_one_kind (ms : List (Moments K)) (hne : ms ≠ []) :
    detectorGrid ms [] = .error .valueError ∧ detectorGrid [] ms = .error .valueError := by
  constructor <;> simp [detectorGrid, hne]

/-- C65, false for the stand-alone detector: a contour without area (one pixel, or a line) is reported as an
atom in the corner (0, 1) of the frame, wherever the contour is. -/
theorem C65_detector_phantom (carbon silicon : List (Moments K)) (g : Grid K) (m : Moments K)
    (hm : m ∈ carbon) (h0 : m.m00 = 0) (hg : detectorGrid carbon silicon = .ok g) :
    (⟨0, 1⟩, 6) ∈ g.positions.zip g.numbers := by
  unfold detectorGrid at hg
  split at hg
  · cases hg
  · rw [Except.ok.injEq] at hg
    subst hg
    simp only
    rw [List.zip_append (by simp [detectorCentroids])]
    apply List.mem_append_left
    obtain ⟨i, hi, hmi⟩ := List.mem_iff_getElem.1 hm
    rw [List.mem_iff_getElem]
    refine ⟨i, by simpa [detectorCentroids] using hi, ?_⟩
    simp [detectorCentroids, hmi, centroidPixel, h0]

example : detectorGrid [⟨0, 0, 0⟩, ⟨2, 20, 30⟩] [⟨(4 : ℚ), 512, 512⟩] =
    .ok ⟨[⟨0, 1⟩, ⟨10 / 256, 241 / 256⟩, ⟨1 / 2, 1 / 2⟩], [6, 6, 14]⟩ := by decide +kernel

end PD.Props
