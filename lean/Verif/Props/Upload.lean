/- C87: converted microscope data. -/
import Verif.Spec.Upload
import Verif.Props.Frames

set_option linter.unusedSectionVars false
set_option linter.unusedSimpArgs false

namespace PD.Props
open PD PD.Spec
variable {K Img : Type} [Field K] [LinearOrder K] [IsStrictOrderedRing K] [FloorRing K]

theorem markDopants_get (grid dopants : List (V2 K)) :
    (markDopants grid dopants).length = grid.length ∧
    ∀ (i : ℕ) (p : V2 K), grid[i]? = some p → (markDopants grid dopants)[i]? =
      some (if ∃ q ∈ dopants, V2.distSq p q < (1 / 1000000) ^ 2 then 14 else 6) := by
  suffices h : ∀ (ds : List (V2 K)) (numbers : List ℤ), numbers.length = grid.length →
      (ds.foldl (fun numbers dopant =>
        List.zipWith (fun p Z => if V2.distSq p dopant < (1 / 1000000) ^ 2 then 14 else Z) grid numbers)
        numbers).length = grid.length ∧
      ∀ (i : ℕ) (p : V2 K) (Z : ℤ), grid[i]? = some p → numbers[i]? = some Z → (ds.foldl (fun numbers dopant =>
        List.zipWith (fun p Z => if V2.distSq p dopant < (1 / 1000000) ^ 2 then 14 else Z) grid numbers)
        numbers)[i]? = some (if ∃ q ∈ ds, V2.distSq p q < (1 / 1000000) ^ 2 then 14 else Z) by
    obtain ⟨h1, h2⟩ := h dopants (grid.map (fun _ => 6)) (by simp)
    exact ⟨h1, fun i p hp => h2 i p 6 hp (by rw [List.getElem?_map, hp]; rfl)⟩
  intro ds
  induction ds with
  | nil =>
    intro numbers hl
    exact ⟨hl, fun i p Z _ hZ => by simpa using hZ⟩
  | cons q ds ih =>
    intro numbers hl
    rw [List.foldl_cons]
    obtain ⟨h1, h2⟩ := ih (List.zipWith (fun p Z => if V2.distSq p q < (1 / 1000000) ^ 2 then 14 else Z) grid numbers)
      (by simp [hl])
    refine ⟨h1, fun i p Z hp hZ => ?_⟩
    rw [h2 i p (if V2.distSq p q < (1 / 1000000) ^ 2 then 14 else Z) hp (by
      rw [List.getElem?_zipWith, hp, hZ])]
    congr 1
    by_cases hq : V2.distSq p q < (1 / 1000000) ^ 2
    · rw [if_pos hq, if_pos (⟨q, List.mem_cons_self, hq⟩ : ∃ q' ∈ q :: ds, V2.distSq p q' < (1 / 1000000) ^ 2)]
      split <;> rfl
    · rw [if_neg hq]
      by_cases hds : ∃ q' ∈ ds, V2.distSq p q' < (1 / 1000000) ^ 2
      · obtain ⟨q', hm, hlt⟩ := hds
        rw [if_pos ⟨q', hm, hlt⟩, if_pos ⟨q', List.mem_cons_of_mem _ hm, hlt⟩]
      · rw [if_neg hds, if_neg]
        rintro ⟨q', hm, hlt⟩
        rcases List.mem_cons.1 hm with rfl | hm
        · exact hq hlt
        · exact hds ⟨q', hm, hlt⟩

/-- What the observation of frame `f` must be, for corners with shift `σ`. -/
def FrameOk (r : RawData K Img) (ll ur : V2 K) (f : RawFrame K) (image : Img) (o : Observation K Img) : Prop :=
  o.grid.positions = f.coords.map (fraction r) ∧ o.grid.numbers.length = f.coords.length ∧
  (∀ (i : ℕ) (p : V2 K), f.coords[i]? = some p →
    ((∃ s q, f.shot = some s ∧ q ∈ s.dopants ∧
      V2.distSq (fraction r p) (fraction r q) < (1 / 1000000) ^ 2) → o.grid.numbers[i]? = some 14) ∧
    ((∀ s q, f.shot = some s → q ∈ s.dopants →
      (1 / 1000000) ^ 2 ≤ V2.distSq (fraction r p) (fraction r q)) → o.grid.numbers[i]? = some 6)) ∧
  o.fov = ⟨ll, ur⟩ ∧ o.image = some image ∧
  (f.shot = none → o.controls = [] ∧ o.elapsedTime = 2000000) ∧
  (∀ s b, f.shot = some s → s.beam.head? = some b →
    o.controls = [BeamControl.mk' (o.fov.toMaterial (fraction r b)) (ofSeconds s.dwell)] ∧
    o.elapsedTime = ofSeconds (s.dwell + 2))

theorem convertFrame_ok {r : RawData K Img} (hr : Convertible r) {d : LoadedData K Img}
    (hd : loadDataset r = .ok d) (corners : V2 K × V2 K) {f : RawFrame K} (hf : f ∈ r.frames) (image : Img) :
    ∃ o, convertFrame d corners (f.rescale ((r.height : K) / r.labelHeight)) image =
        .ok (some ((corners.1 + frameShift r f, corners.2 + frameShift r f), o)) ∧
      FrameOk r (corners.1 + frameShift r f) (corners.2 + frameShift r f) f image o := by
  have hd' : d = ⟨r.height, r.width, r.channels, r.images.take r.frames.length,
      r.frames.map (RawFrame.rescale ((r.height : K) / (r.labelHeight : K)))⟩ := by
    simp only [loadDataset, hr.label, hr.readout, if_false, Bool.not_true, Bool.false_eq_true,
      Except.ok.injEq] at hd
    exact hd.symm
  have hpos : (fun p : V2 K => V2.smul ((r.height : K) / r.labelHeight) p / ⟨(r.height : K), (r.width : K)⟩) =
      fraction r := by
    funext p
    rfl
  have c0 : (f.rescale ((r.height : K) / r.labelHeight)).coords ≠ [] := by
    simpa [RawFrame.rescale] using hr.atoms f hf
  have c3 : ¬ d.frames.length ≤ 3 := by
    rw [hd']
    have := hr.long
    simp only [List.length_map]
    omega
  have c1 : d.channels.isSome = false := by rw [hd']; simp [hr.grey]
  have hg : (f.rescale ((r.height : K) / r.labelHeight)).coords.map
      (fun p => p / (⟨(d.height : K), (d.width : K)⟩ : V2 K)) = f.coords.map (fraction r) := by
    rw [← hpos, hd']
    simp [RawFrame.rescale, Function.comp_def]
  unfold convertFrame
  simp only [c0, c1, c3, if_false, Bool.false_eq_true, hg]
  cases hs : f.shot with
  | none =>
    have e : (f.rescale ((r.height : K) / r.labelHeight)).shot = none := by simp [RawFrame.rescale, hs]
    have e2 : frameShift r f = ⟨0, 0⟩ := by simp [frameShift, hs]
    have ez : ∀ v : V2 K, v + ⟨0, 0⟩ = v := by intro v; ext <;> simp
    rw [e, e2]
    simp only [ez]
    refine ⟨_, rfl, rfl, by simp, ?_, rfl, rfl, ?_, ?_⟩
    · intro i p hp
      simp [hs, hp]
    · intro _
      refine ⟨rfl, ?_⟩
      show ofSeconds (2 : K) = 2000000
      have : (2 : K) * 1000000 = ((2000000 : ℤ) : K) := by norm_num
      rw [ofSeconds, this, roundHalfEven_intCast]
    · intro s b h
      cases hs ▸ h
  | some s =>
    obtain ⟨h1, h2⟩ := hr.dopants f hf s hs
    have e : (f.rescale ((r.height : K) / r.labelHeight)).shot = some
        ⟨s.dopants.map (V2.smul ((r.height : K) / r.labelHeight)),
          s.beam.map (V2.smul ((r.height : K) / r.labelHeight)), s.dwell, s.pixelShift⟩ := by
      simp [RawFrame.rescale, hs]
    have e2 : V2.smul (10 * (f.rescale ((r.height : K) / r.labelHeight)).fovSize) s.pixelShift /
        (⟨(d.height : K), (d.width : K)⟩ : V2 K) = frameShift r f := by
      rw [hd']
      simp only [frameShift, hs]
      rfl
    have e3 : (s.dopants.map (V2.smul ((r.height : K) / r.labelHeight))).map
        (fun p => p / (⟨(d.height : K), (d.width : K)⟩ : V2 K)) = s.dopants.map (fraction r) := by
      rw [← hpos, hd']
      simp [Function.comp_def]
    obtain ⟨b, bs, hb⟩ := List.exists_cons_of_ne_nil h2
    rw [e]
    simp only [List.map_eq_nil_iff, h1, if_false, hb, List.map_cons, e2, e3]
    refine ⟨_, rfl, rfl, ?_, ?_, rfl, rfl, ?_, ?_⟩
    · simpa using (markDopants_get (f.coords.map (fraction r)) (s.dopants.map (fraction r))).1
    · intro i p hp
      have := (markDopants_get (f.coords.map (fraction r)) (s.dopants.map (fraction r))).2 i (fraction r p)
        (by simp [hp])
      simp only at this ⊢
      rw [this]
      constructor
      · rintro ⟨s', q, hs', hq, hlt⟩
        rw [hs, Option.some.injEq] at hs'
        subst hs'
        rw [if_pos ⟨_, List.mem_map_of_mem hq, hlt⟩]
      · intro h
        rw [if_neg]
        rintro ⟨q, hq, hlt⟩
        obtain ⟨q, hq', rfl⟩ := List.mem_map.1 hq
        exact absurd hlt (not_lt.2 (h s q hs hq'))
    · intro h
      cases hs ▸ h
    · intro s' b' hs' hb'
      rw [hs, Option.some.injEq] at hs'
      subst hs'
      rw [hb, List.head?_cons, Option.some.injEq] at hb'
      subst hb'
      refine ⟨?_, rfl⟩
      rw [← congrFun hpos b, hd']

theorem convertFrames_ok {r : RawData K Img} (hr : Convertible r) {d : LoadedData K Img}
    (hd : loadDataset r = .ok d) : ∀ (fs : List (RawFrame K)) (images : List Img) (corners : V2 K × V2 K),
    (∀ f ∈ fs, f ∈ r.frames) → images.length = fs.length →
    ∃ os, convertFrames d corners ((fs.map (RawFrame.rescale ((r.height : K) / r.labelHeight))).zip images) =
        .ok os ∧ os.length = fs.length ∧
      ∀ (t : ℕ) (f : RawFrame K), fs[t]? = some f → ∃ o image, os[t]? = some o ∧ images[t]? = some image ∧
        FrameOk r (corners.1 + sumV ((fs.take (t + 1)).map (frameShift r)))
          (corners.2 + sumV ((fs.take (t + 1)).map (frameShift r))) f image o := by
  intro fs
  induction fs with
  | nil => intro images corners _ _; exact ⟨[], rfl, rfl, by simp⟩
  | cons f fs ih =>
    intro images corners hfs hl
    match images, hl with
    | image :: images, hl =>
      obtain ⟨o, ho, hok⟩ := convertFrame_ok hr hd corners (hfs f (by simp)) image
      obtain ⟨os, hos, hlen, hall⟩ := ih images (corners.1 + frameShift r f, corners.2 + frameShift r f)
        (fun g hg => hfs g (by simp [hg])) (by simpa using hl)
      refine ⟨o :: os, ?_, by simp [hlen], ?_⟩
      · simp only [List.map_cons, List.zip_cons_cons, convertFrames, ho, hos]
      · intro t g hg
        cases t with
        | zero =>
          simp only [List.getElem?_cons_zero, Option.some.injEq] at hg
          subst hg
          refine ⟨o, image, rfl, rfl, ?_⟩
          have ez : ∀ v : V2 K, v + ⟨0, 0⟩ = v := by intro v; ext <;> simp
          simpa [sumV, ez] using hok
        | succ t =>
          obtain ⟨o', im, h1, h2, h3⟩ := hall t g (by simpa using hg)
          refine ⟨o', im, by simpa using h1, by simpa using h2, ?_⟩
          have assoc : ∀ u v w : V2 K, u + v + w = u + (v + w) := by
            intro u v w; ext <;> simp [add_assoc]
          simpa [sumV, assoc] using h3

theorem load_ok {r : RawData K Img} (hr : Convertible r) : loadDataset r = .ok
    ⟨r.height, r.width, r.channels, r.images.take r.frames.length,
      r.frames.map (RawFrame.rescale ((r.height : K) / (r.labelHeight : K)))⟩ := by
  simp [loadDataset, hr.label, hr.readout]

/-- A convertible data set gives one observation for each frame: atoms at the recorded coordinates as fractions of
the image; silicon for atoms within 10⁻⁶ of a recorded dopant, and carbon otherwise; the recorded image; a field of
view moved by the shifts so far, as large as that of the first frame; no control and two seconds when no shot was
recorded, and otherwise one control at the recorded beam position for the recorded time, in the material frame, and
two seconds more than the time.
Missing for C87: data sets that are not convertible, sizes of later frames, the frame of controls (see below). -/
theorem C87_converted_partial (r : RawData K Img) (hr : Convertible r) :
    ∃ os, convertRaw r = .ok os ∧ os.length = r.frames.length ∧
      ∀ (t : ℕ) (f : RawFrame K), r.frames[t]? = some f → ∃ o f₀, os[t]? = some o ∧ r.frames[0]? = some f₀ ∧
        o.grid.positions = f.coords.map (fraction r) ∧ o.grid.numbers.length = f.coords.length ∧
        (∀ (i : ℕ) (p : V2 K), f.coords[i]? = some p →
          ((∃ s q, f.shot = some s ∧ q ∈ s.dopants ∧
            V2.distSq (fraction r p) (fraction r q) < (1 / 1000000) ^ 2) → o.grid.numbers[i]? = some 14) ∧
          ((∀ s q, f.shot = some s → q ∈ s.dopants →
            (1 / 1000000) ^ 2 ≤ V2.distSq (fraction r p) (fraction r q)) → o.grid.numbers[i]? = some 6)) ∧
        o.image = r.images[t]? ∧
        o.fov.lowerLeft = totalShift r t ∧ o.fov.scale = ⟨10 * f₀.fovSize, 10 * f₀.fovSize⟩ ∧
        (f.shot = none → o.controls = [] ∧ o.elapsedTime = 2000000) ∧
        (∀ s b, f.shot = some s → s.beam.head? = some b →
          o.controls = [BeamControl.mk' (o.fov.toMaterial (fraction r b)) (ofSeconds s.dwell)] ∧
          o.elapsedTime = ofSeconds (s.dwell + 2)) := by
  have hload := load_ok hr
  have hne : r.frames ≠ [] := by
    intro h
    have := hr.long
    simp [h] at this
  obtain ⟨f₀, fs, hf⟩ := List.exists_cons_of_ne_nil hne
  obtain ⟨os, hos, hlen, hall⟩ := convertFrames_ok hr hload r.frames (r.images.take r.frames.length)
    (⟨0, 0⟩, ⟨10 * f₀.fovSize, 10 * f₀.fovSize⟩) (fun f hf => hf) (by simpa using hr.images)
  have ez : ∀ v : V2 K, (⟨0, 0⟩ : V2 K) + v = v := by intro v; ext <;> simp
  refine ⟨os, ?_, hlen, ?_⟩
  · have hm : ∃ rest, r.frames.map (RawFrame.rescale ((r.height : K) / (r.labelHeight : K))) =
        f₀.rescale ((r.height : K) / (r.labelHeight : K)) :: rest := by rw [hf]; exact ⟨_, rfl⟩
    obtain ⟨rest, hm⟩ := hm
    unfold convertRaw
    rw [hload]
    simp only [convertDataset, hm]
    rw [← hm]
    exact hos
  · intro t f ht
    obtain ⟨o, im, h1, h2, g1, g2, g3, g4, g5, g6, g7⟩ := hall t f ht
    refine ⟨o, f₀, h1, by simp [hf], g1, g2, g3, ?_, ?_, ?_, g6, g7⟩
    · rw [g5, ← h2, List.getElem?_take, if_pos (List.getElem?_eq_some_iff.1 ht).1]
    · rw [g4]
      simp only [totalShift, ez]
    · rw [g4]
      ext <;> simp [Fov.scale]

/-- When dopants are recorded as atoms, and atoms are further apart than 10⁻⁶ of the image, silicon is exactly where
a dopant was recorded. -/
theorem C87_dopants (r : RawData K Img) (hr : Convertible r) (t : ℕ) (f : RawFrame K)
    (hf : r.frames[t]? = some f) (s : Shot K) (hs : f.shot = some s) (hsub : ∀ q ∈ s.dopants, q ∈ f.coords)
    (hapart : ∀ p ∈ f.coords, ∀ q ∈ f.coords, p ≠ q →
      (1 / 1000000) ^ 2 ≤ V2.distSq (fraction r p) (fraction r q)) :
    ∃ os o, convertRaw r = .ok os ∧ os[t]? = some o ∧ ∀ (i : ℕ) (p : V2 K), f.coords[i]? = some p →
      ((o.grid.numbers[i]? = some 14 ↔ p ∈ s.dopants) ∧ (o.grid.numbers[i]? = some 6 ↔ p ∉ s.dopants)) := by
  obtain ⟨os, h1, -, h3⟩ := C87_converted_partial r hr
  obtain ⟨o, f₀, h4, -, -, -, h5, -⟩ := h3 t f hf
  refine ⟨os, o, h1, h4, fun i p hp => ?_⟩
  have hd : ∀ v : V2 K, V2.distSq v v < (1 / 1000000) ^ 2 := by
    intro v
    simp only [V2.distSq, V2.normSq, V2.sub_x, V2.sub_y, sub_self, mul_zero, add_zero]
    positivity
  by_cases hin : p ∈ s.dopants
  · have := (h5 i p hp).1 ⟨s, p, hs, hin, hd _⟩
    rw [this]
    simp [hin]
  · have := (h5 i p hp).2 (fun s' q hs' hq => by
      rw [hs, Option.some.injEq] at hs'
      subst hs'
      exact hapart p (List.mem_of_getElem? hp) q (hsub q hq) (by rintro rfl; exact hin hq))
    rw [this]
    simp [hin]

/-! ### Where the property fails -/

/-- Data sets of one to three frames are uploaded without observations. -/
theorem C87_short_lost (r : RawData K Img) (hl : r.labelHeight ≠ 0) (hr : r.hasReadout = true)
    (hg : r.channels = none) (h0 : r.frames ≠ []) (h3 : r.frames.length ≤ 3) (hc : ∀ f ∈ r.frames, f.coords ≠ []) :
    convertRaw r = .ok [] := by
  obtain ⟨f, fs, hf⟩ := List.exists_cons_of_ne_nil h0
  have hcf : (f.rescale ((r.height : K) / r.labelHeight)).coords ≠ [] := by
    simpa [RawFrame.rescale] using hc f (by simp [hf])
  have h3' : fs.length + 1 ≤ 3 := by rw [hf] at h3; simpa using h3
  simp only [convertRaw, loadDataset, hl, hr, if_false, Bool.not_true, Bool.false_eq_true, convertDataset, hf,
    List.map_cons, List.length_cons]
  cases hi : r.images with
  | nil => simp [convertFrames]
  | cons image images =>
    simp only [List.take_succ_cons, List.zip_cons_cons, convertFrames, convertFrame, hcf, if_false, hg,
      Option.isSome_none, Bool.false_eq_true, List.length_cons, List.length_map, h3', if_true]

/-- Image stacks with a channel axis, as the documentation has them, cannot be converted. -/
theorem C87_channels_raise (r : RawData K Img) (hg : r.channels.isSome) (h0 : r.frames ≠ [])
    (hi : r.images ≠ []) : ∃ e, convertRaw r = .error e := by
  obtain ⟨f, fs, hf⟩ := List.exists_cons_of_ne_nil h0
  obtain ⟨image, images, him⟩ := List.exists_cons_of_ne_nil hi
  unfold convertRaw loadDataset
  by_cases hl : r.labelHeight = 0
  · simp [hl]
  · by_cases hr : r.hasReadout = true
    · simp only [hl, hr, if_false, Bool.not_true, Bool.false_eq_true, convertDataset, hf, List.map_cons, him,
        List.length_cons, List.take_succ_cons, List.zip_cons_cons, convertFrames, convertFrame, hg, if_true]
      by_cases hc : (f.rescale ((r.height : K) / r.labelHeight)).coords = []
      · simp [hc]
      · simp [hc]
    · simp [hl, hr]

/-- One frame with a recorded shot but no dopant found makes the conversion raise. -/
theorem C87_no_dopant_raises (r : RawData K Img) (himg : r.images.length ≥ r.frames.length)
    (h4 : 4 ≤ r.frames.length) (f : RawFrame K) (hf : f ∈ r.frames) (s : Shot K) (hs : f.shot = some s)
    (hd : s.dopants = []) : ∃ e, convertRaw r = .error e := by
  unfold convertRaw loadDataset
  by_cases hl : r.labelHeight = 0
  · simp [hl]
  by_cases hr : r.hasReadout = true
  swap
  · simp [hl, hr]
  simp only [hl, hr, if_false, Bool.not_true, Bool.false_eq_true, convertDataset]
  set d : LoadedData K Img := ⟨r.height, r.width, r.channels, r.images.take r.frames.length,
    r.frames.map (RawFrame.rescale ((r.height : K) / (r.labelHeight : K)))⟩ with hdd
  have h3 : ¬ d.frames.length ≤ 3 := by
    simp only [hdd, List.length_map]
    omega
  have key : ∀ (fs : List (RawFrame K)) (images : List Img) (corners : V2 K × V2 K), images.length = fs.length →
      (∃ g ∈ fs, ∃ s, g.shot = some s ∧ s.dopants = []) → ∃ e, convertFrames d corners (fs.zip images) = .error e := by
    intro fs
    induction fs with
    | nil => rintro images corners _ ⟨g, hg, _⟩; cases hg
    | cons g fs ih =>
      intro images corners hlen hbad
      match images, hlen with
      | image :: images, hlen =>
        simp only [List.zip_cons_cons, convertFrames]
        cases hcf : convertFrame d corners g image with
        | error e => exact ⟨e, rfl⟩
        | ok res =>
          cases res with
          | none =>
            exfalso
            simp only [convertFrame, h3, if_false] at hcf
            split at hcf
            · cases hcf
            split at hcf
            · cases hcf
            split at hcf
            · cases hcf
            split at hcf
            · cases hcf
            split at hcf <;> cases hcf
          | some co =>
            obtain ⟨g', hg', s', hs', hd'⟩ := hbad
            rcases List.mem_cons.1 hg' with rfl | hg'
            · exfalso
              simp only [convertFrame, h3, if_false, hs', hd', if_true] at hcf
              split at hcf
              · cases hcf
              split at hcf <;> cases hcf
            · obtain ⟨e, he⟩ := ih images co.1 (by simpa using hlen) ⟨g', hg', s', hs', hd'⟩
              refine ⟨e, ?_⟩
              obtain ⟨c, o⟩ := co
              simp only [he]
  have hbad : ∃ g ∈ d.frames, ∃ s, g.shot = some s ∧ s.dopants = [] :=
    ⟨_, List.mem_map_of_mem hf, ⟨[], s.beam.map (V2.smul ((r.height : K) / (r.labelHeight : K))), s.dwell,
      s.pixelShift⟩, by simp [RawFrame.rescale, hs, hd], rfl⟩
  have hne : d.frames ≠ [] := by
    intro h
    rw [h] at h3
    simp at h3
  obtain ⟨g, gs, hg⟩ := List.exists_cons_of_ne_nil hne
  have e1 : (r.frames.map (RawFrame.rescale ((r.height : K) / (r.labelHeight : K)))) = g :: gs := hg
  rw [e1]
  obtain ⟨e, he⟩ := key d.frames d.images (⟨0, 0⟩, ⟨10 * g.fovSize, 10 * g.fovSize⟩)
    (by simp only [hdd, List.length_map, List.length_take]; omega) hbad
  refine ⟨e, ?_⟩
  rw [hg] at he
  exact he

/-- The recorded control is in the material frame.  Where the rest of the pipeline reads it as a position in the
microscope frame, it takes the beam to be at the recorded position only when the field of view maps that position to
itself. -/
theorem C87_control_frame (r : RawData K Img) (hr : Convertible r) (t : ℕ) (f : RawFrame K)
    (hf : r.frames[t]? = some f) (s : Shot K) (hs : f.shot = some s) (b : V2 K) (hb : s.beam.head? = some b) :
    ∃ os o c, convertRaw r = .ok os ∧ os[t]? = some o ∧ o.controls = [c] ∧
      c.position = o.fov.toMaterial (fraction r b) ∧
      (o.fov.scale.x ≠ 0 → o.fov.scale.y ≠ 0 →
        (o.fov.toMaterial c.position = o.fov.toMaterial (fraction r b) ↔
          o.fov.toMaterial (fraction r b) = fraction r b)) := by
  obtain ⟨os, h1, -, h3⟩ := C87_converted_partial r hr
  obtain ⟨o, f₀, h4, -, -, -, -, -, -, -, -, h5⟩ := h3 t f hf
  refine ⟨os, o, _, h1, h4, (h5 s b hs hb).1, rfl, fun hx hy => ?_⟩
  constructor
  · intro h
    have hinj : ∀ p q : V2 K, o.fov.toMaterial p = o.fov.toMaterial q → p = q := by
      intro p q hpq
      have e1 := congrArg V2.x hpq
      have e2 := congrArg V2.y hpq
      simp only [Fov.toMaterial, V2.add_x, V2.add_y, V2.mul_x, V2.mul_y, add_left_inj] at e1 e2
      ext
      · exact mul_right_cancel₀ hx e1
      · exact mul_right_cancel₀ hy e2
    exact hinj _ _ h
  · intro h
    exact congrArg o.fov.toMaterial h

/-- A field of view has the recorded size only when that is the size of the first one. -/
theorem C87_size_of_first (r : RawData K Img) (hr : Convertible r) (t : ℕ) (f f₀ : RawFrame K)
    (hf : r.frames[t]? = some f) (h₀ : r.frames[0]? = some f₀) :
    ∃ os o, convertRaw r = .ok os ∧ os[t]? = some o ∧
      (o.fov.scale = ⟨10 * f.fovSize, 10 * f.fovSize⟩ ↔ f.fovSize = f₀.fovSize) := by
  obtain ⟨os, h1, -, h3⟩ := C87_converted_partial r hr
  obtain ⟨o, f₁, h4, h5, -, -, -, -, -, h6, -⟩ := h3 t f hf
  rw [h₀, Option.some.injEq] at h5
  subst h5
  refine ⟨os, o, h1, h4, ?_⟩
  rw [h6]
  constructor
  · intro h
    have := congrArg V2.x h
    simp only at this
    linarith
  · intro h
    rw [h]

/-- Four frames of 100 by 100 pixels, twice as fine as the labels; a shot in the second, after which the field of
view moved and is twice as wide. -/
def uploadExample : RawData ℚ ℕ where
  height := 100
  width := 100
  channels := none
  images := [1, 2, 3, 4]
  labelHeight := 50
  hasReadout := true
  frames := [
    ⟨[⟨10, 20⟩, ⟨25, 25⟩], 2, none⟩,
    ⟨[⟨10, 20⟩, ⟨25, 25⟩], 2, some ⟨[⟨25, 25⟩], [⟨20, 20⟩], 3, ⟨5, 0⟩⟩⟩,
    ⟨[⟨10, 20⟩, ⟨25, 25⟩], 4, some ⟨[⟨10, 20⟩], [⟨20, 20⟩], 3, ⟨0, 5⟩⟩⟩,
    ⟨[⟨10, 20⟩, ⟨25, 25⟩], 4, none⟩]

example : Convertible uploadExample := by
  refine ⟨?_, ?_, ?_, ?_, ?_, ?_, ?_, ?_, ?_⟩ <;> simp [uploadExample]

/-- The third field of view was recorded as 4 nm wide, and is given as 2 nm wide. -/
example : (match convertRaw uploadExample with
    | .ok os => (os[2]?).map (fun o => (o.fov.scale, o.grid.numbers, o.fov.lowerLeft))
    | .error _ => none) = some (⟨20, 20⟩, [14, 6], ⟨1, 2⟩) := by
  decide +kernel

end PD.Props
