/- C109: images rendered with drawn parameters. -/
import Verif.Props.StemImage
import Verif.Model.NoiseStages

set_option linter.unusedSectionVars false
set_option linter.unusedSimpArgs false

namespace PD.Spec
open PD

/-- An image every pixel of which is a number between 0 and 1. -/
def Complete (img : List (List (Option ℝ))) : Prop := ∀ row ∈ img, ∀ p ∈ row, ∃ v : ℝ, p = some v ∧ 0 ≤ v ∧ v ≤ 1

/-- The image of `n`×`n` pixels all of which are nan. -/
def blank (n : ℕ) : List (List (Option ℝ)) := List.replicate n (List.replicate n none)

/-- Parameters that mean something: no negative rate, amount, scale or variance, and a positive gamma. -/
structure Sound (p : StemParams) : Prop where
  poisson : 0 ≤ p.poissonMultiplier
  jitter : 0 ≤ p.jitterRate
  gamma : 0 < p.contrastGamma
  uniform : 0 ≤ p.uniformScale
  exponential : 0 ≤ p.exponentialLambda
  gaussian : 0 ≤ p.gaussianVariance
  size : 0 < p.imageSize

end PD.Spec

namespace PD.Props
open PD PD.Spec
variable {G : Type}

/-! ### Images -/

theorem mem_zipWith {A B C : Type} {f : A → B → C} {a : List A} {b : List B} {c : C} (h : c ∈ List.zipWith f a b) :
    ∃ x ∈ a, ∃ y ∈ b, c = f x y := by
  induction a generalizing b with
  | nil => simp at h
  | cons x xs ih =>
    cases b with
    | nil => simp at h
    | cons y ys =>
      rw [List.zipWith_cons_cons, List.mem_cons] at h
      rcases h with rfl | h
      · exact ⟨x, by simp, y, by simp, rfl⟩
      · obtain ⟨x', hx, y', hy, rfl⟩ := ih h
        exact ⟨x', by simp [hx], y', by simp [hy], rfl⟩

theorem mem_zipImages {A B C : Type} {f : A → B → C} {a : List (List A)} {b : List (List B)} {row : List C} {c : C}
    (h : row ∈ zipImages f a b) (hc : c ∈ row) : ∃ ra ∈ a, ∃ x ∈ ra, ∃ rb ∈ b, ∃ y ∈ rb, c = f x y := by
  obtain ⟨ra, h1, rb, h2, rfl⟩ := mem_zipWith h
  obtain ⟨x, h3, y, h4, rfl⟩ := mem_zipWith hc
  exact ⟨ra, h1, x, h3, rb, h2, y, h4, rfl⟩

theorem zipImages_isImage {A B C : Type} {f : A → B → C} {a : List (List A)} {b : List (List B)} {h w : ℕ}
    (ha : IsImage h w a) (hb : IsImage h w b) : IsImage h w (zipImages f a b) := by
  refine ⟨by simp [zipImages, ha.1, hb.1], fun row hr => ?_⟩
  obtain ⟨ra, h1, rb, h2, rfl⟩ := mem_zipWith hr
  simp [ha.2 ra h1, hb.2 rb h2]

/-- A pixel of the first image meets a pixel of the second, and the other way round. -/
theorem zipImages_left {A B C : Type} {f : A → B → C} {a : List (List A)} {b : List (List B)} {h w : ℕ}
    (ha : IsImage h w a) (hb : IsImage h w b) {ra : List A} (hra : ra ∈ a) {x : A} (hx : x ∈ ra) :
    ∃ rb ∈ b, ∃ y ∈ rb, ∃ row ∈ zipImages f a b, f x y ∈ row := by
  obtain ⟨i, hi, rfl⟩ := List.mem_iff_getElem.1 hra
  obtain ⟨j, hj, rfl⟩ := List.mem_iff_getElem.1 hx
  have hi' : i < b.length := by rw [hb.1, ← ha.1]; exact hi
  have hj' : j < (b[i]).length := by rw [hb.2 _ (List.getElem_mem hi'), ← ha.2 _ (List.getElem_mem hi)]; exact hj
  refine ⟨_, List.getElem_mem hi', _, List.getElem_mem hj', List.zipWith f a[i] b[i], ?_, ?_⟩
  · refine List.mem_iff_getElem.2 ⟨i, by simp [zipImages, hi, hi'], by simp [zipImages]⟩
  · refine List.mem_iff_getElem.2 ⟨j, by simp [hj, hj'], by simp⟩

theorem zipImages_right {A B C : Type} {f : A → B → C} {a : List (List A)} {b : List (List B)} {h w : ℕ}
    (ha : IsImage h w a) (hb : IsImage h w b) {rb : List B} (hrb : rb ∈ b) {y : B} (hy : y ∈ rb) :
    ∃ ra ∈ a, ∃ x ∈ ra, ∃ row ∈ zipImages f a b, f x y ∈ row := by
  obtain ⟨i, hi, rfl⟩ := List.mem_iff_getElem.1 hrb
  obtain ⟨j, hj, rfl⟩ := List.mem_iff_getElem.1 hy
  have hi' : i < a.length := by rw [ha.1, ← hb.1]; exact hi
  have hj' : j < (a[i]).length := by rw [ha.2 _ (List.getElem_mem hi'), ← hb.2 _ (List.getElem_mem hi)]; exact hj
  refine ⟨_, List.getElem_mem hi', _, List.getElem_mem hj', List.zipWith f a[i] b[i], ?_, ?_⟩
  · refine List.mem_iff_getElem.2 ⟨i, by simp [zipImages, hi, hi'], by simp [zipImages]⟩
  · refine List.mem_iff_getElem.2 ⟨j, by simp [hj, hj'], by simp⟩

theorem map_isImage {A B : Type} {f : A → B} {a : List (List A)} {h w : ℕ} (ha : IsImage h w a) :
    IsImage h w (a.map (fun row => row.map f)) := by
  refine ⟨by simp [ha.1], fun row hr => ?_⟩
  obtain ⟨r, h1, rfl⟩ := List.mem_map.1 hr
  simp [ha.2 r h1]

theorem replicate_isImage {A : Type} (h w : ℕ) (x : A) : IsImage h w (List.replicate h (List.replicate w x)) := by
  refine ⟨by simp, fun row hr => ?_⟩
  rw [(List.mem_replicate.1 hr).2]; simp

theorem imageWidth_eq {A : Type} {a : List (List A)} {h w : ℕ} (hh : 0 < h) (ha : IsImage h w a) :
    imageWidth a = w := by
  cases a with
  | nil => have := ha.1; simp at this; omega
  | cons r rs => exact ha.2 r (by simp)

theorem flatten_ne {A : Type} {a : List (List A)} {n : ℕ} (hn : 0 < n) (ha : IsImage n n a) :
    a.flatten.isEmpty = false := by
  cases a with
  | nil => have := ha.1; simp at this; omega
  | cons r rs =>
    have := ha.2 r (by simp)
    cases r with
    | nil => simp at this; omega
    | cons x xs => simp

theorem blank_of_none {n : ℕ} {img : List (List (Option ℝ))} (hi : IsImage n n img)
    (h : ∀ row ∈ img, ∀ p ∈ row, p = none) : img = blank n := by
  refine List.eq_replicate_iff.2 ⟨hi.1, fun row hr => ?_⟩
  exact List.eq_replicate_iff.2 ⟨hi.2 row hr, h row hr⟩

theorem blank_none {n : ℕ} : ∀ row ∈ blank n, ∀ p ∈ row, p = none := by
  intro row hr p hp
  rw [(List.mem_replicate.1 hr).2] at hp
  exact (List.mem_replicate.1 hp).2

theorem blank_isImage (n : ℕ) : IsImage n n (blank n) := replicate_isImage n n none

theorem mapM_id_of_none {A : Type} {row : List (Option A)} (h : none ∈ row) : row.mapM id = none := by
  induction row with
  | nil => simp at h
  | cons x xs ih =>
    rw [List.mapM_cons]
    rcases List.mem_cons.1 h with rfl | h
    · rfl
    · rw [ih h]; cases x <;> rfl

theorem definite_of_none {img : List (List (Option ℝ))} (h : ∃ row ∈ img, none ∈ row) : definite img = none := by
  unfold definite
  induction img with
  | nil => simp at h
  | cons r rs ih =>
    rw [List.mapM_cons]
    obtain ⟨row, hr, hn⟩ := h
    rcases List.mem_cons.1 hr with rfl | hr
    · rw [mapM_id_of_none hn]; rfl
    · rw [ih ⟨row, hr, hn⟩]; cases r.mapM id <;> rfl

/-- Pixels that are nan or between 0 and 1. -/
def Within (img : List (List (Option ℝ))) : Prop := ∀ row ∈ img, ∀ v : ℝ, some v ∈ row → 0 ≤ v ∧ v ≤ 1

theorem Complete.within {img : List (List (Option ℝ))} (h : Complete img) : Within img := by
  intro row hr v hv
  obtain ⟨u, hu, h1⟩ := h row hr _ hv
  rw [Option.some.injEq] at hu
  rw [hu]; exact h1

theorem Within.complete {img : List (List (Option ℝ))} (h : Within img) (hn : ¬ ∃ row ∈ img, none ∈ row) :
    Complete img := by
  intro row hr p hp
  cases p with
  | none => exact absurd ⟨row, hr, hp⟩ hn
  | some v => exact ⟨v, rfl, h row hr v hp⟩

theorem blank_within (n : ℕ) : Within (blank n) := by
  intro row hr v hv
  have := blank_none row hr _ hv
  simp at this

theorem Within.lowClip {img : List (List (Option ℝ))} (h : Within img) : lowClip img = 0 := by
  by_cases hn : ∃ row ∈ img, none ∈ row
  · unfold PD.lowClip; rw [definite_of_none hn]
  · obtain ⟨im, rfl, him⟩ := all_some img (fun v => 0 ≤ v ∧ v ≤ 1) (h.complete hn)
    unfold PD.lowClip
    rw [definite_some]
    simp only
    rw [if_neg]
    rintro ⟨row, hr, v, hv, hlt⟩
    exact absurd (him row hr v hv).1 (not_le.2 hlt)

theorem clipImage_within (img : List (List (Option ℝ))) : Within (clipImage 0 1 img) := by
  intro row hr v hv
  obtain ⟨r, _, rfl⟩ := List.mem_map.1 hr
  obtain ⟨p, _, hp⟩ := List.mem_map.1 hv
  cases p with
  | none => simp at hp
  | some x =>
    rw [Option.map_some, Option.some.injEq] at hp
    rw [← hp]
    exact ⟨le_min zero_le_one (le_max_left _ _), min_le_left _ _⟩

theorem clipImage_none {lo hi : ℝ} {img : List (List (Option ℝ))} :
    (∃ row ∈ clipImage lo hi img, none ∈ row) ↔ ∃ row ∈ img, none ∈ row := by
  constructor
  · rintro ⟨row, hr, hn⟩
    obtain ⟨r, h1, rfl⟩ := List.mem_map.1 hr
    obtain ⟨p, h2, hp⟩ := List.mem_map.1 hn
    cases p with
    | none => exact ⟨r, h1, h2⟩
    | some x => simp at hp
  · rintro ⟨row, hr, hn⟩
    exact ⟨_, List.mem_map.2 ⟨row, hr, rfl⟩, List.mem_map.2 ⟨none, hn, rfl⟩⟩

/-! ### The stages -/

theorem zipWith_keeps {A B : Type} {f : A → B → A} {a : List A} {b : List B} (h : a.length = b.length)
    (hf : ∀ x ∈ a, ∀ y ∈ b, f x y = x) : List.zipWith f a b = a := by
  induction a generalizing b with
  | nil => rfl
  | cons x xs ih =>
    cases b with
    | nil => simp at h
    | cons y ys =>
      rw [List.zipWith_cons_cons, hf x (by simp) y (by simp),
        ih (by simpa using h) (fun x hx y hy => hf x (by simp [hx]) y (by simp [hy]))]

theorem clipImage_keeps {img : List (List (Option ℝ))} (h : Within img) : clipImage 0 1 img = img := by
  unfold clipImage
  conv_rhs => rw [← List.map_id img]
  refine List.map_congr_left (fun row hr => ?_)
  conv_rhs => rw [id, ← List.map_id row]
  refine List.map_congr_left (fun p hp => ?_)
  cases p with
  | none => rfl
  | some v =>
    obtain ⟨h0, h1⟩ := h row hr v hp
    simp [max_eq_right h0, min_eq_right h1]

theorem chance_isImage {nz : PixelNoise G} (hnz : nz.Lawful) (p : ℝ) (h w : ℕ) (g : G) :
    IsImage h w (nz.chance p h w g).1 := by
  unfold PixelNoise.chance
  split_ifs
  · exact replicate_isImage _ _ _
  · exact replicate_isImage _ _ _
  · exact map_isImage (hnz.random_size h w g)

/-- The state of the generator after salt and pepper. -/
noncomputable def afterPepper (nz : PixelNoise G) (amount : ℝ) (n : ℕ) (g : G) : G :=
  (nz.chance (1 / 2) n n (nz.chance amount n n g).2).2

theorem saltAndPepper_ok {nz : PixelNoise G} (hnz : nz.Lawful) (amount : ℝ) {n : ℕ} (hn : 0 < n)
    {img : List (List (Option ℝ))} (hi : IsImage n n img) (hw : Within img) (g : G) :
    ∃ out, applySaltAndPepper nz amount img g = .ok (out, afterPepper nz amount n g) ∧ IsImage n n out ∧ Within out ∧
      ((∃ row ∈ out, none ∈ row) → ∃ row ∈ img, none ∈ row) ∧
      ((∀ row ∈ img, ∀ p ∈ row, p = none) → (∃ row ∈ (nz.chance amount n n g).1, false ∈ row) →
        ∃ row ∈ out, none ∈ row) := by
  unfold applySaltAndPepper
  rw [flatten_ne hn hi, if_neg (by simp), hi.1, imageWidth_eq hn hi, hw.lowClip]
  simp only
  set flipped := (nz.chance amount n n g).1 with hf
  set salted := (nz.chance (1 / 2) n n (nz.chance amount n n g).2).1 with hsl
  have hfi : IsImage n n flipped := chance_isImage hnz _ _ _ _
  have hsi : IsImage n n salted := chance_isImage hnz _ _ _ _
  have hmi := zipImages_isImage (f := fun (f s : Bool) => (f, s)) hfi hsi
  refine ⟨_, rfl, map_isImage (zipImages_isImage hi hmi), clipImage_within _, ?_, ?_⟩
  · intro h
    obtain ⟨row, hr, hnone⟩ := clipImage_none.1 h
    obtain ⟨ra, h1, x, h2, rb, h3, y, h4, he⟩ := mem_zipImages hr hnone
    split_ifs at he
    exact ⟨ra, h1, he ▸ h2⟩
  · rintro hall ⟨fr, hfr, hff⟩
    refine clipImage_none.2 ?_
    obtain ⟨rs, h1, s, h2, mr, h3, h4⟩ := zipImages_left (f := fun (f s : Bool) => (f, s)) hfi hsi hfr hff
    obtain ⟨rp, h5, p, h6, row, h7, h8⟩ := zipImages_right
      (f := fun (p : Option ℝ) (m : Bool × Bool) => if (m.1 && m.2) = true then some 1
        else if (m.1 && !m.2) = true then some 0 else p) hi hmi h3 h4
    refine ⟨row, h7, ?_⟩
    have hp := hall rp h5 p h6
    subst hp
    simpa using h8

theorem contrast_ok {gamma : ℝ} (hg : 0 < gamma) {n : ℕ} {img : List (List (Option ℝ))} (hi : IsImage n n img)
    (hw : Within img) :
    ∃ out, applyContrast gamma img = .ok out ∧ IsImage n n out ∧ Within out ∧
      ((∃ row ∈ out, none ∈ row) ↔ ∃ row ∈ img, none ∈ row) := by
  unfold applyContrast
  rw [if_neg (not_lt.2 hg.le), if_neg (by
    rintro ⟨row, hr, v, hv, hlt⟩
    exact absurd (hw row hr v hv).1 (not_le.2 hlt))]
  refine ⟨_, rfl, map_isImage hi, ?_, ?_⟩
  · intro row hr v hv
    obtain ⟨r, h1, rfl⟩ := List.mem_map.1 hr
    obtain ⟨p, h2, hp⟩ := List.mem_map.1 hv
    cases p with
    | none => simp [hg.ne'] at hp
    | some x =>
      simp only [Option.some.injEq] at hp
      obtain ⟨h0, h1'⟩ := hw r h1 x h2
      rw [← hp]
      exact ⟨Real.rpow_nonneg h0 _, Real.rpow_le_one h0 h1' hg.le⟩
  · constructor
    · rintro ⟨row, hr, hnone⟩
      obtain ⟨r, h1, rfl⟩ := List.mem_map.1 hr
      obtain ⟨p, h2, hp⟩ := List.mem_map.1 hnone
      cases p with
      | none => exact ⟨r, h1, h2⟩
      | some x => simp at hp
    · rintro ⟨row, hr, hnone⟩
      exact ⟨_, List.mem_map.2 ⟨row, hr, rfl⟩, List.mem_map.2 ⟨none, hnone, by simp [hg.ne']⟩⟩

/-- An image with a positive pixel. -/
def Lit (img : List (List (Option ℝ))) : Prop := ∃ row ∈ img, ∃ v : ℝ, some v ∈ row ∧ 0 < v

theorem addNoise_none {n : ℕ} {img : List (List (Option ℝ))} {noise : List (List ℝ)} (hi : IsImage n n img)
    (hs : IsImage n n noise) : (∃ row ∈ addNoise img noise, none ∈ row) ↔ ∃ row ∈ img, none ∈ row := by
  constructor
  · rintro ⟨row, hr, hn⟩
    obtain ⟨ra, h1, x, h2, rb, h3, y, h4, he⟩ := mem_zipImages hr hn
    cases x with
    | none => exact ⟨ra, h1, h2⟩
    | some v => simp at he
  · rintro ⟨row, hr, hn⟩
    obtain ⟨rb, h1, y, h2, r, h3, h4⟩ := zipImages_left (f := fun (p : Option ℝ) v => p.map (fun x => x + v)) hi hs hr hn
    exact ⟨r, h3, by simpa using h4⟩

/-- Adding noise that is not negative and dividing by the maximum. -/
theorem noise_ok {n : ℕ} (hn : 0 < n) {img : List (List (Option ℝ))} (hi : IsImage n n img) (hw : Within img)
    {noise : List (List ℝ)} (hs : IsImage n n noise) (hnn : ∀ row ∈ noise, ∀ v ∈ row, 0 ≤ v) :
    ∃ out, divideByMax (addNoise img noise) = .ok out ∧ IsImage n n out ∧ (out = blank n ∨ (Complete out ∧ Lit out)) ∧
      ((∃ row ∈ img, none ∈ row) → out = blank n) ∧
      ((¬ ∃ row ∈ img, none ∈ row) → (Lit img ∨ ∃ row ∈ noise, ∃ v ∈ row, v ≠ 0) → Complete out ∧ Lit out) := by
  have hai : IsImage n n (addNoise img noise) := zipImages_isImage hi hs
  by_cases hnone : ∃ row ∈ img, none ∈ row
  · have hd := definite_of_none ((addNoise_none hi hs).2 hnone)
    have hm : IsImage n n ((addNoise img noise).map (fun row => row.map (fun _ => (none : Option ℝ)))) := map_isImage hai
    have hb := blank_of_none hm (by
      intro row hr p hp
      obtain ⟨r, _, rfl⟩ := List.mem_map.1 hr
      obtain ⟨_, _, rfl⟩ := List.mem_map.1 hp
      rfl)
    unfold divideByMax
    rw [hd]
    exact ⟨_, rfl, hm, .inl hb, fun _ => hb, fun h => absurd hnone h⟩
  · have hnone' : ¬ ∃ row ∈ addNoise img noise, none ∈ row := fun h => hnone ((addNoise_none hi hs).1 h)
    obtain ⟨im, him, hpos⟩ := all_some (addNoise img noise) (fun v => 0 ≤ v) (by
      intro row hr p hp
      obtain ⟨ra, h1, x, h2, rb, h3, y, h4, rfl⟩ := mem_zipImages hr hp
      cases x with
      | none => exact absurd ⟨ra, h1, h2⟩ hnone
      | some v => exact ⟨v + y, rfl, add_nonneg (hw ra h1 v h2).1 (hnn rb h3 y h4)⟩)
    have himi : IsImage n n im := by
      rw [him] at hai
      refine ⟨by simpa using hai.1, fun row hrow => ?_⟩
      have := hai.2 (row.map some) (List.mem_map.2 ⟨row, hrow, rfl⟩)
      simpa using this
    obtain ⟨out, h1, h2, h3, h4⟩ := normalise_ok hn himi hpos
    have hlit : (∃ row ∈ im, ∃ v ∈ row, v ≠ 0) → Lit out := by
      rintro ⟨row, hr, v, hv, hne⟩
      have hc := h4 ⟨row, hr, v, hv, hne⟩
      unfold normalise at h1
      cases hmx : imageMax im with
      | none => rw [hmx] at h1; simp at h1
      | some m =>
        rw [hmx] at h1
        simp only [Except.ok.injEq] at h1
        have hmem : (row.map (fun v => if m = 0 then none else some (v / m))) ∈ out := by
          rw [← h1]; exact List.mem_map.2 ⟨row, hr, rfl⟩
        have hmem2 : (if m = 0 then none else some (v / m)) ∈ row.map (fun v => if m = 0 then none else some (v / m)) :=
          List.mem_map.2 ⟨v, hv, rfl⟩
        obtain ⟨u, hu, hu0, _⟩ := hc _ hmem _ hmem2
        by_cases hm0 : m = 0
        · rw [if_pos hm0] at hu; simp at hu
        · rw [if_neg hm0, Option.some.injEq] at hu
          rw [if_neg hm0] at hmem2
          refine ⟨_, hmem, v / m, hmem2, lt_of_le_of_ne (hu ▸ hu0) (div_ne_zero hne hm0).symm⟩
    unfold divideByMax
    rw [him, definite_some]
    refine ⟨out, h1, h2, ?_, fun h => absurd h hnone, fun _ hl => ?_⟩
    · by_cases hz : ∃ row ∈ im, ∃ v ∈ row, v ≠ 0
      · exact .inr ⟨h4 hz, hlit hz⟩
      · refine .inl (blank_of_none h2 (h3 ?_))
        intro row hr v hv
        by_contra hne
        exact hz ⟨row, hr, v, hv, hne⟩
    · have hz : ∃ row ∈ im, ∃ v ∈ row, v ≠ 0 := by
        have key : ∃ row ∈ addNoise img noise, ∃ v : ℝ, some v ∈ row ∧ v ≠ 0 := by
          rcases hl with ⟨row, hr, v, hv, h0⟩ | ⟨row, hr, v, hv, h0⟩
          · obtain ⟨rb, e1, y, e2, r, e3, e4⟩ := zipImages_left
              (f := fun (p : Option ℝ) v => p.map (fun x => x + v)) hi hs hr hv
            exact ⟨r, e3, v + y, e4, (add_pos_of_pos_of_nonneg h0 (hnn rb e1 y e2)).ne'⟩
          · obtain ⟨ra, e1, x, e2, r, e3, e4⟩ := zipImages_right
              (f := fun (p : Option ℝ) v => p.map (fun x => x + v)) hi hs hr hv
            cases x with
            | none => exact absurd ⟨ra, e1, e2⟩ hnone
            | some u =>
              exact ⟨r, e3, u + v, e4,
                (add_pos_of_nonneg_of_pos (hw ra e1 u e2).1 (lt_of_le_of_ne (hnn row hr v hv) h0.symm)).ne'⟩
        obtain ⟨row, hr, v, hv, h0⟩ := key
        rw [him] at hr
        obtain ⟨r, h5, rfl⟩ := List.mem_map.1 hr
        obtain ⟨u, h6, h7⟩ := List.mem_map.1 hv
        rw [Option.some.injEq] at h7
        exact ⟨r, h5, u, h6, h7 ▸ h0⟩
      exact ⟨h4 hz, hlit hz⟩

theorem gaussian_ok {nz : PixelNoise G} (hnz : nz.Lawful) {variance : ℝ} (hv : 0 ≤ variance) {n : ℕ} (hn : 0 < n)
    {img : List (List (Option ℝ))} (hi : IsImage n n img) (hw : Within img) (g : G) :
    ∃ out g', applyGaussian nz variance img g = .ok (out, g') ∧ IsImage n n out ∧ Within out ∧
      ((∃ row ∈ out, none ∈ row) ↔ ∃ row ∈ img, none ∈ row) ∧ (img = blank n → out = blank n) := by
  unfold applyGaussian
  rw [flatten_ne hn hi, if_neg (by simp), if_neg (not_lt.2 hv), hi.1, imageWidth_eq hn hi, hw.lowClip]
  have hsi := hnz.normal_size (Real.sqrt variance) n n g
  have hai : IsImage n n (addNoise img (nz.normal (Real.sqrt variance) n n g).1) := zipImages_isImage hi hsi
  refine ⟨_, _, rfl, map_isImage hai, clipImage_within _, ?_, ?_⟩
  · rw [clipImage_none, addNoise_none hi hsi]
  · rintro rfl
    refine blank_of_none (map_isImage hai) ?_
    intro row hr p hp
    obtain ⟨r, h1, rfl⟩ := List.mem_map.1 hr
    obtain ⟨q, h2, rfl⟩ := List.mem_map.1 hp
    obtain ⟨ra, h3, x, h4, rb, _, y, _, rfl⟩ := mem_zipImages h1 h2
    rw [blank_none ra h3 x h4]
    rfl

theorem complete_no_none {img : List (List (Option ℝ))} (h : Complete img) : ¬ ∃ row ∈ img, none ∈ row := by
  rintro ⟨row, hr, hn⟩
  obtain ⟨v, hv, _⟩ := h row hr _ hn
  simp at hv

theorem blank_has_none {n : ℕ} (hn : 0 < n) : ∃ row ∈ blank n, none ∈ row :=
  ⟨List.replicate n none, List.mem_replicate.2 ⟨hn.ne', rfl⟩, List.mem_replicate.2 ⟨hn.ne', rfl⟩⟩

/-- All stages after the jitter. -/
theorem laterStages_ok {nz : PixelNoise G} (hnz : nz.Lawful) (cl : Clahe) {params : StemParams} (hp : Sound params)
    {img : List (List (Option ℝ))} (hi : IsImage params.imageSize params.imageSize img) (hw : Within img) (g : G) :
    ∃ out g', laterStages nz cl params img g = .ok (out, g') ∧ IsImage params.imageSize params.imageSize out ∧
      (Complete out ∨ out = cl.run (blank params.imageSize)) ∧
      (Complete img →
        (∃ row ∈ (nz.uniform 0 params.uniformScale params.imageSize params.imageSize
            (afterPepper nz params.saltAndPepper params.imageSize g)).1, ∃ v ∈ row, v ≠ 0) → Complete out) ∧
      ((∀ row ∈ img, ∀ p ∈ row, p = none) →
        (∃ row ∈ (nz.chance params.saltAndPepper params.imageSize params.imageSize g).1, false ∈ row) →
        out = cl.run (blank params.imageSize)) := by
  have hn := hp.size
  set n := params.imageSize with hnd
  obtain ⟨i1, a1, a2, a3, a4, a5⟩ := saltAndPepper_ok hnz params.saltAndPepper hn hi hw g
  obtain ⟨i2, b1, b2, b3, b4⟩ := contrast_ok hp.gamma a2 a3
  set g2 := afterPepper nz params.saltAndPepper n g with hg2
  obtain ⟨i3, c1, c2, c3, c4, c5⟩ := noise_ok hn b2 b3 (hnz.uniform_size 0 params.uniformScale n n g2)
    (fun row hr v hv => (hnz.uniform_mem 0 params.uniformScale n n g2 hp.uniform row hr v hv).1)
  have c3w : Within i3 := by
    rcases c3 with rfl | h
    · exact blank_within n
    · exact Complete.within h.1
  set g3 := (nz.uniform 0 params.uniformScale n n g2).2 with hg3
  obtain ⟨i4, d1, d2, d3, d4, d5⟩ := noise_ok hn c2 c3w (hnz.exponential_size params.exponentialLambda n n g3)
    (hnz.exponential_nonneg params.exponentialLambda n n g3 hp.exponential)
  have d3w : Within i4 := by
    rcases d3 with rfl | h
    · exact blank_within n
    · exact Complete.within h.1
  set g4 := (nz.exponential params.exponentialLambda n n g3).2 with hg4
  obtain ⟨i5, g5, e1, e2, e3, e4, e5⟩ := gaussian_ok hnz hp.gaussian hn d2 d3w g4
  have hu : applyUniform nz params.uniformScale i2 g2 = .ok (i3, g3) := by
    unfold applyUniform
    rw [b2.1, imageWidth_eq hn b2]
    simp only
    rw [c1]
  have he : applyExponential nz params.exponentialLambda i3 g3 = .ok (i4, g4) := by
    unfold applyExponential
    rw [if_neg (not_lt.2 hp.exponential), c2.1, imageWidth_eq hn c2]
    simp only
    rw [d1]
  have hall : laterStages nz cl params img g = .ok (cl.run i5, g5) := by
    unfold laterStages
    rw [a1]; simp only
    rw [b1]; simp only
    rw [hu]; simp only
    rw [he]; simp only
    rw [e1]
  -- from the uniform noise on the image is complete or blank
  have hcomplete : Complete i3 ∧ Lit i3 → Complete (cl.run i5) := by
    intro ⟨h, hl⟩
    have h4 := d5 (complete_no_none h) (.inl hl)
    have h5 := e3.complete (fun hx => complete_no_none h4.1 (e4.1 hx))
    exact cl.range i5 (fun row hr p hpp => by
      obtain ⟨v, hv, _⟩ := h5 row hr p hpp
      exact ⟨v, hv⟩)
  have hblank : i3 = blank n → cl.run i5 = cl.run (blank n) := by
    intro h
    rw [e5 (d4 (h ▸ blank_has_none hn))]
  refine ⟨_, _, hall, cl.size n n i5 e2, ?_, ?_, ?_⟩
  · rcases c3 with h | h
    · exact .inr (hblank h)
    · exact .inl (hcomplete h)
  · intro hc hnoise
    refine hcomplete (c5 ?_ (.inr hnoise))
    intro hx
    exact complete_no_none hc (a4 (b4.1 hx))
  · intro hall' hf
    exact hblank (c4 (b4.2 (a5 hall' hf)))

theorem renderable_of {grid : Grid ℝ} {fov : Fov ℝ} {params : StemParams} {b : ℝ}
    (hl : grid.positions.length = grid.numbers.length) (hZ : ∀ Z ∈ grid.numbers, 0 < Z)
    (hw : fov.width ≠ 0) (hh : fov.height ≠ 0) (hs : 0 < params.imageSize) (hb : 0 ≤ b) :
    Renderable (fun x : ℝ => x ^ params.intensityExponent) grid fov params.early.imageSize b :=
  ⟨hl, fun Z h => Real.rpow_pos_of_pos (by exact_mod_cast hZ Z h) _, hw, hh, hs, hb⟩

/-! ### The theorems -/

/-- C109: the parameters drawn for an image lie in the documented ranges, whatever the generator: the brightest
pixel expects at least one electron, nothing is negative, and the contrast is between the given exponents. -/
theorem C109_parameters (rng : Rng ℝ G) (hl : rng.Lawful) (size : ℕ) (hs : 0 < size) (g : G) :
    (∀ p ∈ [(sampleImageParameters rng size g).1, (sampleNoisyImageParameters rng size g).1],
      Sound p ∧ p.imageSize = size ∧ 1 ≤ p.poissonMultiplier ∧ 7 / 5 ≤ p.intensityExponent ∧ p.intensityExponent ≤ 2 ∧
      p.jitterRate ≤ 5 ∧ 0 ≤ p.saltAndPepper ∧ 0 ≤ p.blurAmount) ∧
    (let p := (sampleImageParameters rng size g).1;
      p.gaussianVariance ≤ 5 / 1000 ∧ p.saltAndPepper ≤ 1 / 1000 ∧ p.blurAmount ≤ 1 ∧ 7 / 10 ≤ p.contrastGamma ∧
      p.contrastGamma ≤ 13 / 10 ∧ p.exponentialLambda ≤ 1 / 5 ∧ p.uniformScale ≤ 1 / 5) ∧
    (let p := (sampleNoisyImageParameters rng size g).1;
      p.gaussianVariance ≤ 3 / 10 ∧ p.saltAndPepper ≤ 1 / 100 ∧ p.blurAmount ≤ 1 / 4 ∧ 1 / 2 ≤ p.contrastGamma ∧
      p.contrastGamma ≤ 3 / 2 ∧ p.exponentialLambda ≤ 1 / 4 ∧ p.uniformScale ≤ 1 / 4) := by
  have u := fun (lo hi : ℝ) (h : lo ≤ hi) (g : G) => hl.uniform_mem lo hi g h
  have e := fun g : G => hl.exponential_nonneg 15 g (by norm_num)
  refine ⟨?_, ?_, ?_⟩
  · intro p hp
    simp only [List.mem_cons, List.not_mem_nil, or_false] at hp
    rcases hp with rfl | rfl
    · refine ⟨⟨?_, ?_, ?_, ?_, ?_, ?_, hs⟩, rfl, ?_, ?_, ?_, ?_, ?_, ?_⟩
      · exact add_nonneg (e _) zero_le_one
      · exact (u 0 5 (by norm_num) _).1
      · exact lt_of_lt_of_le (by norm_num) (u (7 / 10) (13 / 10) (by norm_num) _).1
      · exact (u 0 (2 / 10) (by norm_num) _).1
      · exact (u 0 (2 / 10) (by norm_num) _).1
      · exact (u 0 (5 / 1000) (by norm_num) _).1
      · exact le_add_of_nonneg_left (e _)
      · exact le_trans (by norm_num) (u (14 / 10) 2 (by norm_num) _).1
      · exact (u (14 / 10) 2 (by norm_num) _).2
      · exact (u 0 5 (by norm_num) _).2
      · exact (u 0 (1 / 1000) (by norm_num) _).1
      · exact (u 0 1 (by norm_num) _).1
    · refine ⟨⟨?_, ?_, ?_, ?_, ?_, ?_, hs⟩, rfl, ?_, ?_, ?_, ?_, ?_, ?_⟩
      · exact add_nonneg (e _) zero_le_one
      · exact (u 0 5 (by norm_num) _).1
      · exact lt_of_lt_of_le (by norm_num) (u (5 / 10) (15 / 10) (by norm_num) _).1
      · exact (u 0 (25 / 100) (by norm_num) _).1
      · exact (u 0 (25 / 100) (by norm_num) _).1
      · exact (u 0 (3 / 10) (by norm_num) _).1
      · exact le_add_of_nonneg_left (e _)
      · exact le_trans (by norm_num) (u (14 / 10) 2 (by norm_num) _).1
      · exact (u (14 / 10) 2 (by norm_num) _).2
      · exact (u 0 5 (by norm_num) _).2
      · exact (u 0 (1 / 100) (by norm_num) _).1
      · exact (u 0 (25 / 100) (by norm_num) _).1
  · refine ⟨?_, ?_, ?_, ?_, ?_, ?_, ?_⟩
    · exact (u 0 (5 / 1000) (by norm_num) _).2
    · exact (u 0 (1 / 1000) (by norm_num) _).2
    · exact (u 0 1 (by norm_num) _).2
    · exact (u (7 / 10) (13 / 10) (by norm_num) _).1
    · exact (u (7 / 10) (13 / 10) (by norm_num) _).2
    · exact le_trans (u 0 (2 / 10) (by norm_num) _).2 (by norm_num)
    · exact le_trans (u 0 (2 / 10) (by norm_num) _).2 (by norm_num)
  · refine ⟨?_, ?_, ?_, ?_, ?_, ?_, ?_⟩
    · exact (u 0 (3 / 10) (by norm_num) _).2
    · exact (u 0 (1 / 100) (by norm_num) _).2
    · exact le_trans (u 0 (25 / 100) (by norm_num) _).2 (by norm_num)
    · exact le_trans (by norm_num) (u (5 / 10) (15 / 10) (by norm_num) _).1
    · exact le_trans (u (5 / 10) (15 / 10) (by norm_num) _).2 (by norm_num)
    · exact le_trans (u 0 (25 / 100) (by norm_num) _).2 (by norm_num)
    · exact le_trans (u 0 (25 / 100) (by norm_num) _).2 (by norm_num)

/-- C109, as far as it holds: rendering a view with an atom in it, with sound parameters, never raises; the image has
the asked size.  If the detector counted an electron and the uniform noise is not zero everywhere, all pixels are
numbers between 0 and 1.  What is missing: if no electron was counted, see `C109_no_electrons`. -/
theorem C109_image_partial (bl : Blur ℝ) (pr : PoissonImages ℝ G) (jr : PoissonRng ℝ G) (nz : PixelNoise G)
    (hnz : nz.Lawful) (cl : Clahe) (grid : Grid ℝ) (fov : Fov ℝ) (params : StemParams) (hp : Sound params) (g : G)
    (b : ℝ) (hb : 0 ≤ b) (hl : grid.positions.length = grid.numbers.length) (hZ : ∀ Z ∈ grid.numbers, 0 < Z)
    (hw : fov.width ≠ 0) (hh : fov.height ≠ 0)
    (a : V2 ℝ × ℤ) (ha : a ∈ grid.positions.zip grid.numbers)
    (hx : 0 ≤ a.1.x ∧ a.1.x < 1) (hy : 0 ≤ a.1.y ∧ a.1.y < 1) :
    ∃ (rates : List (List ℝ)) (g1 : G) (out : List (List (Option ℝ))) (g' : G),
      IsImage params.imageSize params.imageSize rates ∧
      (∀ row ∈ rates, ∀ v ∈ row, 0 ≤ v ∧ v ≤ params.poissonMultiplier) ∧
      (∃ counted, stemCounts bl pr jr (fun x => x ^ params.intensityExponent) grid fov params.early g b =
        .ok (counted, g1)) ∧
      generateStemImage bl pr jr nz cl grid fov params g b = .ok (out, g') ∧
      IsImage params.imageSize params.imageSize out ∧
      (Complete out ∨ out = cl.run (blank params.imageSize)) ∧
      ((∃ row ∈ (pr.draw rates g).1, ∃ k ∈ row, k ≠ 0) →
        (∃ row ∈ (nz.uniform 0 params.uniformScale params.imageSize params.imageSize
          (afterPepper nz params.saltAndPepper params.imageSize g1)).1, ∃ v ∈ row, v ≠ 0) → Complete out) ∧
      ((∀ row ∈ (pr.draw rates g).1, ∀ k ∈ row, k = 0) →
        (∃ row ∈ (nz.chance params.saltAndPepper params.imageSize params.imageSize g1).1, false ∈ row) →
        out = cl.run (blank params.imageSize)) := by
  obtain ⟨rates, img, g1, r1, r2, r3, r4, r5, r6⟩ := C77_atoms_partial bl pr jr _ grid fov params.early g b
    (renderable_of hl hZ hw hh hp.size hb) hp.poisson hp.jitter a ha hx hy
  have hwithin : Within img := by
    by_cases hz : ∃ row ∈ (pr.draw rates g).1, ∃ k ∈ row, k ≠ 0
    · exact Complete.within (r5 hz)
    · have := blank_of_none (n := params.imageSize) r4 (r6 (by
        intro row hr k hk
        by_contra hne
        exact hz ⟨row, hr, k, hk, hne⟩))
      rw [this]
      exact blank_within _
  obtain ⟨out, g', h1, h2, h3, h4, h5⟩ := laterStages_ok hnz cl hp r4 hwithin g1
  refine ⟨rates, g1, out, g', r1, r2, ⟨img, r3⟩, ?_, h2, h3, fun hc hn => h4 (r5 hc) hn, fun hc hf => h5 (r6 hc) hf⟩
  unfold generateStemImage
  rw [r3]
  exact h1

/-- C109: if no pixels are to be flipped, salt-and-pepper noise leaves the image as it is. -/
theorem C109_no_flips {G : Type} {nz : PixelNoise G} (hnz : nz.Lawful) {n : ℕ} (hn : 0 < n) {img : List (List (Option ℝ))}
    (hi : IsImage n n img) (hc : Complete img) (g : G) : ∃ g', applySaltAndPepper nz 0 img g = .ok (img, g') := by
  have hw : Within img := Complete.within hc
  unfold applySaltAndPepper
  rw [if_neg (by simpa using flatten_ne hn hi), hw.lowClip]
  simp only [imageWidth_eq hn hi, hi.1]
  set salted := (nz.chance (1 / 2) n n (nz.chance 0 n n g).2).1
  have hsi : IsImage n n salted := chance_isImage hnz _ _ _ _
  have hflip : (nz.chance 0 n n g).1 = List.replicate n (List.replicate n false) := by
    unfold PixelNoise.chance
    rw [if_pos rfl]
  have hmi : IsImage n n (zipImages (fun f s => (f, s)) (nz.chance 0 n n g).1 salted) :=
    zipImages_isImage (chance_isImage hnz _ _ _ _) hsi
  have hkeep : zipImages (fun p (m : Bool × Bool) => if m.1 && m.2 then some 1 else if m.1 && !m.2 then some (0 : ℝ) else p)
      img (zipImages (fun f s => (f, s)) (nz.chance 0 n n g).1 salted) = img := by
    refine zipWith_keeps (by rw [hi.1, hmi.1]) (fun row hr marks hm => ?_)
    refine zipWith_keeps (by rw [hi.2 row hr, hmi.2 marks hm]) (fun p _ m hmm => ?_)
    obtain ⟨ra, h1, x, h2, rb, _, y, _, rfl⟩ := mem_zipImages hm hmm
    rw [hflip] at h1
    rw [List.eq_of_mem_replicate h1] at h2
    rw [List.eq_of_mem_replicate h2]
    simp
  rw [hkeep, clipImage_keeps hw]
  exact ⟨_, rfl⟩

/-- C109, false in general: if the detector counts no electron at all and some pixel escapes salt and pepper, there is
no error; the last stage is given an image of nan only, so that the result is the same for all samples. -/
theorem C109_no_electrons (bl : Blur ℝ) (pr : PoissonImages ℝ G) (jr : PoissonRng ℝ G) (nz : PixelNoise G)
    (hnz : nz.Lawful) (cl : Clahe) (params : StemParams) (hp : Sound params) (g : G)
    (hpr : ∀ rates, ∀ row ∈ (pr.draw rates g).1, ∀ k ∈ row, k = 0)
    (hsp : ∀ g, ∃ row ∈ (nz.chance params.saltAndPepper params.imageSize params.imageSize g).1, false ∈ row)
    (grid : Grid ℝ) (fov : Fov ℝ) (hl : grid.positions.length = grid.numbers.length) (hZ : ∀ Z ∈ grid.numbers, 0 < Z)
    (hw : fov.width ≠ 0) (hh : fov.height ≠ 0)
    (a : V2 ℝ × ℤ) (ha : a ∈ grid.positions.zip grid.numbers)
    (hx : 0 ≤ a.1.x ∧ a.1.x < 1) (hy : 0 ≤ a.1.y ∧ a.1.y < 1) :
    ∃ g', generateStemImage bl pr jr nz cl grid fov params g 0 = .ok (cl.run (blank params.imageSize), g') := by
  obtain ⟨rates, g1, out, g', _, _, _, h, _, _, _, h7⟩ := C109_image_partial bl pr jr nz hnz cl grid fov params hp g 0
    le_rfl hl hZ hw hh a ha hx hy
  rw [h7 (hpr rates) (hsp g1)] at h
  exact ⟨g', h⟩

/-- C109: the contrast keeps the order of brightness, black and white. -/
theorem C109_contrast (gamma : ℝ) (hg : 0 < gamma) (img : List (List (Option ℝ))) (hc : Complete img) :
    ∃ f : ℝ → ℝ, f 0 = 0 ∧ f 1 = 1 ∧ (∀ x y, 0 ≤ x → x < y → f x < f y) ∧
      applyContrast gamma img = .ok (img.map (fun row => row.map (Option.map f))) := by
  refine ⟨fun x => x ^ gamma, Real.zero_rpow hg.ne', Real.one_rpow _, fun x y hx hxy => Real.rpow_lt_rpow hx hxy hg, ?_⟩
  unfold applyContrast
  rw [if_neg (not_lt.2 hg.le), if_neg (by
    rintro ⟨row, hr, v, hv, hlt⟩
    exact absurd (Complete.within hc row hr v hv).1 (not_le.2 hlt)), Except.ok.injEq]
  refine List.map_congr_left (fun row hr => List.map_congr_left (fun p hp => ?_))
  obtain ⟨v, rfl, _⟩ := hc row hr p hp
  rfl

section
variable {O P Img G' : Type}

/-- C109: every observation of a simulator can be rendered with drawn parameters: no error, and an image of the asked
size that is complete or, if no electron was counted, undefined. -/
theorem C109_simulator (cfg : SimCfg ℝ G O P Img) (hl : cfg.rng.Lawful) (hrate : SwapRates cfg.rate) (g : G)
    (obs0 : List O) (ops : List (SimOp ℝ O)) (o : Observation ℝ Img)
    (ho : some (.ok o) ∈ (Sim.run cfg (Sim.fresh g obs0) ops).1)
    (rng : Rng ℝ G') (hr : rng.Lawful) (size : ℕ) (hs : 0 < size) (g0 : G')
    (bl : Blur ℝ) (pr : PoissonImages ℝ G') (jr : PoissonRng ℝ G') (nz : PixelNoise G') (hnz : nz.Lawful) (cl : Clahe)
    (g' : G') (params : StemParams)
    (hp : params ∈ [(sampleImageParameters rng size g0).1, (sampleNoisyImageParameters rng size g0).1]) :
    ∃ out g'', generateStemImage bl pr jr nz cl o.grid o.fov params g' 0 = .ok (out, g'') ∧ IsImage size size out ∧
      (Complete out ∨ out = cl.run (blank size)) := by
  have hw := run_observed cfg hl hrate.keepsDoping ops _ (SimInv.fresh g obs0) o ho
  obtain ⟨p, hsi, hsafe⟩ := C09_silicon_in_safe_area cfg hl hrate g obs0 ops o ho
  obtain ⟨side, h15, hsq⟩ := hw.square
  have hmem : (p, SILICON) ∈ o.grid.positions.zip o.grid.numbers := by
    have : p ∈ silicons o.grid := by rw [hsi]; simp
    obtain ⟨a, ha, rfl⟩ := List.mem_map.1 this
    obtain ⟨h1, h2⟩ := List.mem_filter.1 ha
    have h2 := of_decide_eq_true h2
    rw [← h2]; exact h1
  have hpos : (0 : ℝ) < side := by linarith
  obtain ⟨hsound, hsize, _⟩ := (C109_parameters rng hr size hs g0).1 params hp
  obtain ⟨⟨a1, a2⟩, b1, b2⟩ := hsafe
  obtain ⟨_, _, out, g'', _, _, _, h1, h2, h3, _⟩ := C109_image_partial bl pr jr nz hnz cl o.grid o.fov params hsound g' 0
    le_rfl hw.wf (fun Z hZ => by rcases hw.numbers Z hZ with rfl | rfl <;> decide)
    (by rw [hsq.1]; exact hpos.ne') (by rw [hsq.2]; exact hpos.ne') (p, SILICON) hmem
    ⟨by simp only; linarith, by simp only; linarith⟩ ⟨by simp only; linarith, by simp only; linarith⟩
  rw [hsize] at h2 h3
  exact ⟨out, g'', h1, h2, h3⟩

end

/-! ### Examples -/

/-- A generator that draws the same everywhere. -/
noncomputable def evenNoise : PixelNoise Unit where
  uniform _ hi h w _ := (List.replicate h (List.replicate w hi), ())
  exponential s h w _ := (List.replicate h (List.replicate w s), ())
  normal s h w _ := (List.replicate h (List.replicate w s), ())
  random h w _ := (List.replicate h (List.replicate w (1 / 2)), ())

theorem mem_replicate2 {A : Type} {h w : ℕ} {x v : A} {row : List A} (hr : row ∈ List.replicate h (List.replicate w x))
    (hv : v ∈ row) : v = x := by
  rw [(List.mem_replicate.1 hr).2] at hv
  exact (List.mem_replicate.1 hv).2

theorem evenNoise_lawful : evenNoise.Lawful where
  uniform_size _ _ _ _ _ := replicate_isImage _ _ _
  uniform_mem lo hi h w g hlh row hr v hv := by rw [mem_replicate2 hr hv]; exact ⟨hlh, le_rfl⟩
  exponential_size _ _ _ _ := replicate_isImage _ _ _
  exponential_nonneg s h w g hs row hr v hv := by rw [mem_replicate2 hr hv]; exact hs
  normal_size _ _ _ _ := replicate_isImage _ _ _
  random_size _ _ _ := replicate_isImage _ _ _
  random_mem h w g row hr v hv := by rw [mem_replicate2 hr hv]; norm_num

/-- Equalisation by clipping. -/
noncomputable def clipping : Clahe where
  run := clipImage 0 1
  size _ _ _ h := map_isImage h
  range img h := by
    refine Within.complete (clipImage_within img) ?_
    rw [clipImage_none]
    rintro ⟨row, hr, hn⟩
    obtain ⟨v, hv⟩ := h row hr _ hn
    simp at hv

/-- Detectors that count `k` electrons in every pixel. -/
def steadyPoisson (k : ℕ) : PoissonImages ℝ Unit where
  draw rates _ := (rates.map (fun row => row.map (fun _ => k)), ())
  shape := by intro rates g; simp

def stillPoisson : PoissonRng ℝ Unit where
  draw _ n _ := (List.replicate n 0, ())
  length := by simp

noncomputable def someParams : StemParams := ⟨17 / 10, 1 / 1000, 1, 3, 1 / 1000, 1 / 2, 1, 1 / 10, 1 / 10, 4⟩

theorem someParams_sound : Sound someParams := by
  constructor <;> norm_num [someParams]

theorem even_unflipped (g : Unit) :
    ∃ row ∈ (evenNoise.chance someParams.saltAndPepper someParams.imageSize someParams.imageSize g).1, false ∈ row := by
  refine ⟨List.replicate 4 false, ?_, by simp⟩
  have h1 : someParams.saltAndPepper = 1 / 1000 := rfl
  have h2 : someParams.imageSize = 4 := rfl
  unfold PixelNoise.chance
  rw [h1, h2, if_neg (by norm_num), if_neg (by norm_num)]
  simp only [evenNoise, List.map_replicate]
  rw [show decide ((1 / 2 : ℝ) ≤ 1 / 1000) = false from decide_eq_false (by norm_num)]
  simp

/-- One carbon atom in view, three electrons in every pixel: the image is complete. -/
example : ∃ out g', generateStemImage (sharp ℝ) (steadyPoisson 3) stillPoisson evenNoise clipping
    ⟨[⟨1 / 4, 1 / 4⟩], [6]⟩ ⟨⟨0, 0⟩, ⟨20, 20⟩⟩ someParams () 0 = .ok (out, g') ∧ IsImage 4 4 out ∧ Complete out := by
  obtain ⟨rates, g1, out, g', h1, _, _, h2, h3, _, h4, _⟩ := C109_image_partial (sharp ℝ) (steadyPoisson 3) stillPoisson
    evenNoise evenNoise_lawful clipping ⟨[⟨1 / 4, 1 / 4⟩], [6]⟩ ⟨⟨0, 0⟩, ⟨20, 20⟩⟩ someParams someParams_sound () 0 le_rfl
    rfl (by simp) (by norm_num [Fov.width]) (by norm_num [Fov.height]) (⟨1 / 4, 1 / 4⟩, 6) (by simp)
    (by norm_num) (by norm_num)
  refine ⟨out, g', h2, h3, h4 ?_ ?_⟩
  · have hl : 0 < rates.length := by rw [h1.1]; decide
    have hr : 0 < (rates[0]).length := by rw [h1.2 _ (List.getElem_mem hl)]; decide
    exact ⟨_, List.mem_map.2 ⟨_, List.getElem_mem hl, rfl⟩, 3, List.mem_map.2 ⟨_, List.getElem_mem hr, rfl⟩, by decide⟩
  · exact ⟨List.replicate 4 (1 / 10), by simp [evenNoise, someParams], 1 / 10, by simp, by norm_num⟩

/-- The same without electrons: undefined, and without an error. -/
example : ∃ g', generateStemImage (sharp ℝ) (steadyPoisson 0) stillPoisson evenNoise clipping
    ⟨[⟨1 / 4, 1 / 4⟩], [6]⟩ ⟨⟨0, 0⟩, ⟨20, 20⟩⟩ someParams () 0 = .ok (clipping.run (blank 4), g') ∧
    ¬ Complete (clipping.run (blank 4)) := by
  obtain ⟨g', h⟩ := C109_no_electrons (sharp ℝ) (steadyPoisson 0) stillPoisson evenNoise evenNoise_lawful clipping
    someParams someParams_sound () (by
      intro rates row hr k hk
      obtain ⟨r, _, rfl⟩ := List.mem_map.1 hr
      obtain ⟨_, _, rfl⟩ := List.mem_map.1 hk
      rfl) even_unflipped ⟨[⟨1 / 4, 1 / 4⟩], [6]⟩ ⟨⟨0, 0⟩, ⟨20, 20⟩⟩
    rfl (by simp) (by norm_num [Fov.width]) (by norm_num [Fov.height]) (⟨1 / 4, 1 / 4⟩, 6) (by simp)
    (by norm_num) (by norm_num)
  exact ⟨g', h, fun hc => complete_no_none hc (clipImage_none.2 (blank_has_none (by decide)))⟩

/-- A lawful generator and what it draws. -/
example : (Witness.rng (1 : ℝ)).Lawful ∧ Sound (sampleImageParameters (Witness.rng (1 : ℝ)) 512 ()).1 ∧
    (sampleNoisyImageParameters (Witness.rng (1 : ℝ)) 512 ()).1.poissonMultiplier = 2 :=
  have h := Witness.rng_lawful (K := ℝ) zero_le_one
  ⟨h, ((C109_parameters (Witness.rng (1 : ℝ)) h 512 (by decide) ()).1 _ (by simp)).1, by
    show (1 : ℝ) + 1 = 2
    norm_num⟩

end PD.Props
