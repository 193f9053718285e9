/- C63, C64: masks and jitter. -/
import Verif.Spec.Imaging
import Verif.Props.PadCrop
import Verif.Props.Augment

set_option linter.unusedSectionVars false
set_option linter.unusedSimpArgs false

namespace PD.Props
open PD PD.Spec
variable {K : Type} [Field K] [LinearOrder K] [IsStrictOrderedRing K]

/-! ### C63 -/

theorem pixelCentres_getElem? (lo hi : K) (n i : ℕ) (hi' : i < n) :
    (pixelCentres lo hi n)[i]? = some (lo + (i + 1 / 2) * ((hi - lo) / n)) := by
  unfold pixelCentres
  rw [List.getElem?_map, List.getElem?_range hi', Option.map_some, Option.some.injEq]
  ring

theorem pixelCentres_length (lo hi : K) (n : ℕ) : (pixelCentres lo hi n).length = n := by
  simp [pixelCentres]

/-- Whether an atom (in the material frame) is painted at a point. -/
def paints (power : K → K) (a : V2 K × ℤ) (x y : K) : Prop :=
  (x - a.1.x) ^ 2 + (y - a.1.y) ^ 2 < power ((a.2 : K) / 6) * (1 / 10)

instance (power : K → K) (a : V2 K × ℤ) (x y : K) : Decidable (paints power a x y) := by
  unfold paints; infer_instance

theorem paintAtom_isImage {power : K → K} {xs ys : List K} {mask : List (List ℤ)} {a : V2 K × ℤ}
    (hm : IsImage ys.length xs.length mask) : IsImage ys.length xs.length (paintAtom power xs ys mask a) := by
  constructor
  · simp [paintAtom, hm.1]
  · intro row hrow
    unfold paintAtom at hrow
    obtain ⟨i, hi, rfl⟩ := List.mem_iff_getElem.1 hrow
    rw [List.getElem_zipWith, List.length_zipWith]
    have : i < mask.length := by
      simp only [List.length_zipWith] at hi; omega
    rw [hm.2 _ (List.getElem_mem this)]
    exact min_self _

theorem paintAtom_pixel {power : K → K} {xs ys : List K} {mask : List (List ℤ)} {a : V2 K × ℤ}
    (i c : ℕ) {x y : K} {v : ℤ} (hy : ys[i]? = some y) (hx : xs[c]? = some x) (hv : pixel mask i c = some v) :
    pixel (paintAtom power xs ys mask a) i c = some (if paints power a x y then a.2 % 256 else v) := by
  unfold pixel at hv ⊢
  unfold paintAtom
  obtain ⟨row, hrow, hv⟩ := Option.bind_eq_some_iff.1 hv
  simp only [List.getElem?_zipWith, hy, hrow, Option.bind_some, hx, hv]
  rfl

theorem foldl_paint {power : K → K} {xs ys : List K} (atoms : List (V2 K × ℤ)) (mask : List (List ℤ))
    (hm : IsImage ys.length xs.length mask) :
    IsImage ys.length xs.length (atoms.foldl (paintAtom power xs ys) mask) ∧
    ∀ i c x y v, ys[i]? = some y → xs[c]? = some x → pixel mask i c = some v →
      pixel (atoms.foldl (paintAtom power xs ys) mask) i c =
        some (atoms.foldl (fun v a => if paints power a x y then a.2 % 256 else v) v) := by
  induction atoms generalizing mask with
  | nil => exact ⟨hm, fun _ _ _ _ _ _ _ h => h⟩
  | cons a atoms ih =>
    obtain ⟨h1, h2⟩ := ih (paintAtom power xs ys mask a) (paintAtom_isImage hm)
    refine ⟨h1, ?_⟩
    intro i c x y v hy hx hv
    rw [List.foldl_cons, List.foldl_cons]
    exact h2 i c x y _ hy hx (paintAtom_pixel i c hy hx hv)

theorem foldl_last {α : Type} (P : α → Prop) [DecidablePred P] (f : α → ℤ) (l : List α) (v : ℤ) :
    ((∀ a ∈ l, ¬ P a) → l.foldl (fun v a => if P a then f a else v) v = v) ∧
    (∀ pre a post, l = pre ++ a :: post → P a → (∀ b ∈ post, ¬ P b) →
      l.foldl (fun v a => if P a then f a else v) v = f a) := by
  have h1 : ∀ (l : List α) (v : ℤ), (∀ a ∈ l, ¬ P a) → l.foldl (fun v a => if P a then f a else v) v = v := by
    intro l
    induction l with
    | nil => intro v _; rfl
    | cons a l ih =>
      intro v h
      rw [List.foldl_cons, if_neg (h a (by simp))]
      exact ih v (fun b hb => h b (List.mem_cons_of_mem _ hb))
  refine ⟨h1 l v, ?_⟩
  rintro pre a post rfl ha hpost
  rw [List.foldl_append, List.foldl_cons, if_pos ha]
  exact h1 post _ hpost

theorem pixel_reverse {P : Type} {h w : ℕ} {img : List (List P)} (hi : IsImage h w img) (r c : ℕ) (hr : r < h) :
    pixel img.reverse r c = pixel img (h - 1 - r) c := by
  unfold pixel
  rw [List.getElem?_reverse (by rw [hi.1]; exact hr), hi.1]

theorem reverse_isImage {P : Type} {h w : ℕ} {img : List (List P)} (hi : IsImage h w img) :
    IsImage h w img.reverse := ⟨by simp [hi.1], fun row hrow => hi.2 row (List.mem_reverse.1 hrow)⟩

/-- C63 for square masks, with atomic numbers that fit in a byte: the mask has the asked size; a pixel is 0
if no atom's disc contains its centre, and otherwise shows the last such atom.  The full claim is for every
size, see `C63_not_square`. -/
theorem C63_mask_partial (power : K → K) (grid : Grid K) (fov : Fov K) (n : ℕ)
    (hZ : ∀ Z ∈ grid.numbers, 1 ≤ Z ∧ Z ≤ 255) :
    ∃ mask, generateGridMask power grid fov n n = .ok mask ∧ IsImage n n mask ∧
      ∀ r c, r < n → c < n →
        ((∀ a ∈ grid.positions.zip grid.numbers,
            ¬ DiscContains power fov a (fov.toMaterial (pixelCentre n n r c))) → pixel mask r c = some 0) ∧
        (∀ pre a post, grid.positions.zip grid.numbers = pre ++ a :: post →
          DiscContains power fov a (fov.toMaterial (pixelCentre n n r c)) →
          (∀ b ∈ post, ¬ DiscContains power fov b (fov.toMaterial (pixelCentre n n r c))) →
          pixel mask r c = some a.2) := by
  refine ⟨_, by simp only [generateGridMask]; rw [if_neg (by simp)], ?_⟩
  set xs := pixelCentres fov.lowerLeft.x fov.upperRight.x n with hxs
  set ys := pixelCentres fov.lowerLeft.y fov.upperRight.y n with hys
  have hlx : xs.length = n := pixelCentres_length ..
  have hly : ys.length = n := pixelCentres_length ..
  have himg : IsImage ys.length xs.length (List.replicate n (List.replicate n (0 : ℤ))) := by
    rw [hlx, hly]
    exact ⟨by simp, fun row hrow => by rw [List.eq_of_mem_replicate hrow]; simp⟩
  have hatoms : (fov.gridToMaterial grid).positions.zip (fov.gridToMaterial grid).numbers =
      (grid.positions.zip grid.numbers).map (fun a => (fov.toMaterial a.1, a.2)) := by
    show (grid.positions.map fov.toMaterial).zip grid.numbers = _
    rw [List.zip_map_left]
    rfl
  rw [hatoms]
  obtain ⟨h1, h2⟩ := foldl_paint (power := power)
    ((grid.positions.zip grid.numbers).map (fun a => (fov.toMaterial a.1, a.2))) _ himg
  rw [hlx, hly] at h1
  refine ⟨reverse_isImage h1, ?_⟩
  intro r c hr hc
  have hn : (n : K) ≠ 0 := by
    have : 0 < n := by omega
    exact_mod_cast this.ne'
  have hi : n - 1 - r < n := by omega
  have hcast : ((n - 1 - r : ℕ) : K) = n - 1 - r := by
    rw [Nat.sub_sub, Nat.cast_sub (by omega)]; push_cast; ring
  have hx := pixelCentres_getElem? fov.lowerLeft.x fov.upperRight.x n c hc
  have hy := pixelCentres_getElem? fov.lowerLeft.y fov.upperRight.y n (n - 1 - r) hi
  have hv : pixel (List.replicate n (List.replicate n (0 : ℤ))) (n - 1 - r) c = some 0 := by
    simp [pixel, hi, hc]
  rw [pixel_reverse h1 r c hr, h2 _ _ _ _ _ hy hx hv, List.foldl_map]
  have hx' : fov.lowerLeft.x + (c + 1 / 2) * ((fov.upperRight.x - fov.lowerLeft.x) / n) =
      (fov.toMaterial (pixelCentre n n r c)).x := by
    show _ = ((c : K) + 1 / 2) / n * (fov.upperRight.x - fov.lowerLeft.x) + fov.lowerLeft.x
    ring
  have hy' : fov.lowerLeft.y + (((n - 1 - r : ℕ) : K) + 1 / 2) * ((fov.upperRight.y - fov.lowerLeft.y) / n) =
      (fov.toMaterial (pixelCentre n n r c)).y := by
    show _ = (1 - ((r : K) + 1 / 2) / n) * (fov.upperRight.y - fov.lowerLeft.y) + fov.lowerLeft.y
    rw [hcast]
    field_simp
    ring
  rw [hx', hy']
  have hiff : ∀ a : V2 K × ℤ, paints power (fov.toMaterial a.1, a.2) (fov.toMaterial (pixelCentre n n r c)).x
      (fov.toMaterial (pixelCentre n n r c)).y ↔ DiscContains power fov a (fov.toMaterial (pixelCentre n n r c)) := by
    intro a
    have : V2.distSq (fov.toMaterial (pixelCentre n n r c)) (fov.toMaterial a.1) =
        ((fov.toMaterial (pixelCentre n n r c)).x - (fov.toMaterial a.1).x) ^ 2 +
        ((fov.toMaterial (pixelCentre n n r c)).y - (fov.toMaterial a.1).y) ^ 2 := by
      simp only [V2.distSq, V2.normSq]
      simp only [V2.sub_x, V2.sub_y]
      ring
    unfold paints DiscContains
    rw [this]
  obtain ⟨k1, k2⟩ := foldl_last (fun a : V2 K × ℤ => paints power (fov.toMaterial a.1, a.2)
    (fov.toMaterial (pixelCentre n n r c)).x (fov.toMaterial (pixelCentre n n r c)).y)
    (fun a => a.2 % 256) (grid.positions.zip grid.numbers) 0
  refine ⟨?_, ?_⟩
  · intro h
    rw [Option.some.injEq]
    exact k1 (fun a ha hc => h a ha ((hiff a).1 hc))
  · intro pre a post hsplit ha hpost
    rw [Option.some.injEq]
    have := k2 pre a post hsplit ((hiff a).2 ha) (fun b hb hc => hpost b hb ((hiff b).1 hc))
    refine this.trans ?_
    have hmem : a.2 ∈ grid.numbers := by
      have : a ∈ grid.positions.zip grid.numbers := by rw [hsplit]; simp
      exact (List.of_mem_zip (a := a.1) (b := a.2) this).2
    have := hZ a.2 hmem
    show a.2 % 256 = a.2
    omega

/-- C63, the rest: every size that is not square raises `IndexError` as soon as there is an atom; without
atoms the mask is empty, with the two dimensions exchanged. -/
theorem C63_not_square (power : K → K) (grid : Grid K) (fov : Fov K) (w h : ℕ) :
    (w ≠ h → grid.positions ≠ [] → grid.numbers ≠ [] →
      generateGridMask power grid fov w h = .error .indexError) ∧
    (grid.positions = [] → generateGridMask power grid fov w h =
      .ok (List.replicate w (List.replicate h 0))) := by
  constructor
  · intro hne hp hn
    unfold generateGridMask
    have : ((fov.gridToMaterial grid).positions.zip (fov.gridToMaterial grid).numbers).isEmpty = false := by
      show ((grid.positions.map fov.toMaterial).zip grid.numbers).isEmpty = false
      cases h1 : grid.positions with
      | nil => exact absurd h1 hp
      | cons a as =>
        cases h2 : grid.numbers with
        | nil => exact absurd h2 hn
        | cons b bs => rfl
    simp only [this]
    rw [if_pos (by simp [hne])]
  · intro hp
    unfold generateGridMask
    have : (fov.gridToMaterial grid).positions.zip (fov.gridToMaterial grid).numbers = [] := by
      show (grid.positions.map fov.toMaterial).zip grid.numbers = []
      rw [hp]; rfl
    simp only [this]
    rw [if_neg (by simp)]
    simp

/-- The hypotheses of `C63_mask_partial` with a silicon painted over a carbon. -/
example : (∀ Z ∈ [6, 14], 1 ≤ Z ∧ Z ≤ (255 : ℤ)) ∧
    generateGridMask (fun x : ℚ => x) ⟨[⟨1/2, 1/2⟩, ⟨3/4, 3/4⟩], [6, 14]⟩ ⟨⟨0, 0⟩, ⟨1, 1⟩⟩ 4 4 =
      .ok [[0, 14, 14, 14], [0, 14, 14, 14], [0, 6, 14, 14], [0, 0, 0, 0]] := by
  refine ⟨by decide, by decide +kernel⟩

/-! ### C64 -/

theorem roll_perm {α : Type} (xs : List α) (n : ℕ) : (roll xs n).Perm xs := List.rotate_perm _ _

/-- C64: each row of the result is the row of the image turned cyclically by the amount drawn for it, so it
holds the same intensities; the size is kept.  An image without rows raises `ValueError`. -/
theorem C64_jitter {P G : Type} (rng : PoissonRng K G) (rate : K) (hrate : 0 ≤ rate) (img : List (List P)) (g : G) :
    (img = [] → applyJitter rng rate img g = .error .valueError) ∧
    (img ≠ [] → ∃ out, applyJitter rng rate img g = .ok (out, (rng.draw rate img.length g).2) ∧
      out.length = img.length ∧
      ∀ (r : ℕ) (row : List P), img[r]? = some row → ∃ (row' : List P) (k : ℕ), out[r]? = some row' ∧ (rng.draw rate img.length g).1[r]? = some k ∧
        row'.length = row.length ∧ row'.Perm row ∧
        ∀ c, c < row.length → row'[(c + k) % row.length]? = row[c]?) := by
  have hneg : ¬ rate < 0 := not_lt.2 hrate
  refine ⟨?_, ?_⟩
  · rintro rfl
    simp [applyJitter, hneg]
  · intro hne
    have he : img.isEmpty = false := by simpa using hne
    refine ⟨List.zipWith roll img (rng.draw rate img.length g).1, by simp [applyJitter, hneg, he], ?_, ?_⟩
    · simp [rng.length]
    · intro r row hr
      have hlt : r < img.length := (List.getElem?_eq_some_iff.1 hr).1
      have hlt' : r < (rng.draw rate img.length g).1.length := by rw [rng.length]; exact hlt
      refine ⟨roll row ((rng.draw rate img.length g).1[r]), (rng.draw rate img.length g).1[r], ?_,
        List.getElem?_eq_getElem hlt', roll_length _ _, roll_perm _ _, ?_⟩
      · rw [List.getElem?_zipWith, hr, List.getElem?_eq_getElem hlt']
      · intro c hc
        exact roll_getElem? row _ c hc

/-- C64: a negative rate raises `ValueError`. -/
theorem C64_negative_rate {P G : Type} (rng : PoissonRng K G) (rate : K) (hrate : rate < 0) (img : List (List P))
    (g : G) : applyJitter rng rate img g = .error .valueError := by
  simp [applyJitter, hrate]

/-- A generator that draws 0, 1, 2, … -/
def countingPoisson : PoissonRng ℚ Unit where
  draw _ n _ := (List.range n, ())
  length := by simp

example : applyJitter countingPoisson 3 [[1, 2, 3], [4, 5, 6], [7, 8, 9]] () =
    .ok ([[1, 2, 3], [6, 4, 5], [8, 9, 7]], ()) := by decide +kernel

end PD.Props
