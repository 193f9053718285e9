/- Properties C01–C04: frames, field-of-view algebra, atoms in view. -/
import Verif.Model.Material
import Verif.Spec.Frames
import Verif.Lemmas.Lists

set_option linter.unusedSectionVars false
set_option linter.unusedSimpArgs false

namespace PD.Props
open PD PD.Spec
variable {K : Type} [Field K] [LinearOrder K] [IsStrictOrderedRing K]

/-! ### C01 frame conversion round trip -/

/-- microscope → material → microscope is the identity on every supported object. -/
theorem C01_roundtrip_via_material (f : Fov K) (hw : f.width ≠ 0) (hh : f.height ≠ 0)
    (o : Obj K) (ho : o ≠ .other) :
    ∃ m, f.microscopeFrameToMaterialFrame o = .ok m ∧
      f.materialFrameToMicroscopeFrame m = .ok o := by
  have hx : f.upperRight.x - f.lowerLeft.x ≠ 0 := hw
  have hy : f.upperRight.y - f.lowerLeft.y ≠ 0 := hh
  have key : ∀ p : V2 K, f.toMicroscope (f.toMaterial p) = p := by
    intro p; ext <;> simp [Fov.toMicroscope, Fov.toMaterial, Fov.scale, hx, hy]
  cases o with
  | grid g =>
    refine ⟨_, rfl, ?_⟩
    simp only [Fov.materialFrameToMicroscopeFrame, Fov.gridToMicroscope, Fov.gridToMaterial,
      List.map_map]
    have : (f.toMicroscope ∘ f.toMaterial) = id := funext key
    simp [this]
  | array1 p => exact ⟨_, rfl, by simp [Fov.materialFrameToMicroscopeFrame, key]⟩
  | array2 ps =>
    refine ⟨_, rfl, ?_⟩
    have : (f.toMicroscope ∘ f.toMaterial) = id := funext key
    simp [Fov.materialFrameToMicroscopeFrame, this]
  | point p => exact ⟨_, rfl, by
      simp [Fov.materialFrameToMicroscopeFrame, Fov.scale, hx, hy]⟩
  | control c => exact ⟨_, rfl, by
      simp [Fov.materialFrameToMicroscopeFrame, Fov.scale, hx, hy]⟩
  | other => exact absurd rfl ho

/-- material → microscope → material is the identity on every supported object. -/
theorem C01_roundtrip_via_microscope (f : Fov K) (hw : f.width ≠ 0) (hh : f.height ≠ 0)
    (o : Obj K) (ho : o ≠ .other) :
    ∃ m, f.materialFrameToMicroscopeFrame o = .ok m ∧
      f.microscopeFrameToMaterialFrame m = .ok o := by
  have hx : f.upperRight.x - f.lowerLeft.x ≠ 0 := hw
  have hy : f.upperRight.y - f.lowerLeft.y ≠ 0 := hh
  have key : ∀ p : V2 K, f.toMaterial (f.toMicroscope p) = p := by
    intro p; ext <;> simp [Fov.toMicroscope, Fov.toMaterial, Fov.scale, hx, hy]
  cases o with
  | grid g =>
    refine ⟨_, rfl, ?_⟩
    simp only [Fov.microscopeFrameToMaterialFrame, Fov.gridToMicroscope, Fov.gridToMaterial,
      List.map_map]
    have : (f.toMaterial ∘ f.toMicroscope) = id := funext key
    simp [this]
  | array1 p => exact ⟨_, rfl, by simp [Fov.microscopeFrameToMaterialFrame, key]⟩
  | array2 ps =>
    refine ⟨_, rfl, ?_⟩
    have : (f.toMaterial ∘ f.toMicroscope) = id := funext key
    simp [Fov.microscopeFrameToMaterialFrame, this]
  | point p => exact ⟨_, rfl, by
      simp [Fov.microscopeFrameToMaterialFrame, Fov.scale, hx, hy]⟩
  | control c => exact ⟨_, rfl, by
      simp [Fov.microscopeFrameToMaterialFrame, Fov.scale, hx, hy]⟩
  | other => exact absurd rfl ho

/-- What the conversion to the material frame is: the point at the given fraction of the
field of view, for every kind of object; everything that is not a position is kept. -/
theorem C01_conversion_value (f : Fov K) :
    (∀ g : Grid K, f.microscopeFrameToMaterialFrame (.grid g) =
      .ok (.grid ⟨g.positions.map (lerp f.lowerLeft f.upperRight), g.numbers⟩)) ∧
    (∀ p, f.microscopeFrameToMaterialFrame (.array1 p) =
      .ok (.array1 (lerp f.lowerLeft f.upperRight p))) ∧
    (∀ ps, f.microscopeFrameToMaterialFrame (.array2 ps) =
      .ok (.array2 (ps.map (lerp f.lowerLeft f.upperRight)))) ∧
    (∀ p, f.microscopeFrameToMaterialFrame (.point p) =
      .ok (.point (lerp f.lowerLeft f.upperRight p))) ∧
    (∀ c : BeamControl K, f.microscopeFrameToMaterialFrame (.control c) =
      .ok (.control { c with position := lerp f.lowerLeft f.upperRight c.position })) ∧
    f.microscopeFrameToMaterialFrame .other = .error .notImplemented ∧
    f.materialFrameToMicroscopeFrame .other = .error .notImplemented := by
  have key : f.toMaterial = lerp f.lowerLeft f.upperRight := by
    funext p; ext <;> simp [Fov.toMaterial, Fov.scale, lerp] <;> ring
  have key2 : ∀ p : V2 K, (⟨p.x * f.scale.x + f.lowerLeft.x, p.y * f.scale.y + f.lowerLeft.y⟩ : V2 K)
      = lerp f.lowerLeft f.upperRight p := by
    intro p; ext <;> simp [Fov.scale, lerp] <;> ring
  refine ⟨?_, ?_, ?_, ?_, ?_, rfl, rfl⟩
  · intro g; simp [Fov.microscopeFrameToMaterialFrame, Fov.gridToMaterial, key]
  · intro p; simp [Fov.microscopeFrameToMaterialFrame, key]
  · intro ps; simp [Fov.microscopeFrameToMaterialFrame, key]
  · intro p; simp only [Fov.microscopeFrameToMaterialFrame, key2]
  · intro c; simp only [Fov.microscopeFrameToMaterialFrame, key2]

/-- A 20 Å × 30 Å field of view and a grid with a silicon meet the hypotheses. -/
example : (⟨⟨-10, -15⟩, ⟨10, 15⟩⟩ : Fov ℚ).width ≠ 0 ∧ (⟨⟨-10, -15⟩, ⟨10, 15⟩⟩ : Fov ℚ).height ≠ 0 ∧
    (Obj.grid ⟨[⟨1/2, 1/4⟩, ⟨0, 1⟩], [14, 6]⟩ : Obj ℚ) ≠ .other := by
  refine ⟨by norm_num [Fov.width], by norm_num [Fov.height], by simp⟩

/-! ### C02 resizing algebra -/

/-- `resize` gives the requested size around the same centre; a non-positive size raises. -/
theorem C02_resize (f : Fov K) (w h : K) :
    (w > 0 → h > 0 → ∃ f', f.resize w h = .ok f' ∧ f'.width = w ∧ f'.height = h ∧
      f'.offset = f.offset) ∧
    (¬(w > 0 ∧ h > 0) → f.resize w h = .error .assertionError) := by
  constructor
  · intro hw hh
    have heq : f.resize w h = .ok ⟨f.offset - ⟨w / 2, h / 2⟩, f.offset + ⟨w / 2, h / 2⟩⟩ := by
      simp only [Fov.resize, hw, hh, and_self, if_true, Fov.offset]
    refine ⟨_, heq, ?_, ?_, ?_⟩
    · simp [Fov.width]
    · simp [Fov.height]
    · ext <;> simp [Fov.offset]
  · intro hn
    simp only [Fov.resize, hn, if_false]

/-- `zoom z` divides the size of a non-degenerate field of view by `z`, keeping the centre; a
non-positive zoom factor raises, and so does a field of view without width or height. -/
theorem C02_zoom (f : Fov K) (z : K) :
    (z > 0 → 0 < f.width → 0 < f.height →
      ∃ f', f.zoom z = .ok f' ∧ f'.width = f.width / z ∧ f'.height = f.height / z ∧
        f'.offset = f.offset) ∧
    (¬ (z > 0 ∧ 0 < f.width ∧ 0 < f.height) → f.zoom z = .error .assertionError) := by
  constructor
  · intro hz hw hh
    obtain ⟨f', h1, h2, h3, h4⟩ := (C02_resize f (f.width / z) (f.height / z)).1
      (div_pos hw hz) (div_pos hh hz)
    exact ⟨f', by simp only [Fov.zoom, hz, if_true, h1], h2, h3, h4⟩
  · intro hn
    by_cases hz : z > 0
    · have hbad : ¬ (f.width / z > 0 ∧ f.height / z > 0) := fun h =>
        hn ⟨hz, (div_pos_iff_of_pos_right hz).1 h.1, (div_pos_iff_of_pos_right hz).1 h.2⟩
      simp only [Fov.zoom, hz, if_true, (C02_resize f (f.width / z) (f.height / z)).2 hbad]
    · simp only [Fov.zoom, hz, if_false]

/-- A field of view is determined by its size and centre. -/
theorem C02_size_and_centre_determine (f f' : Fov K) (hw : f.width = f'.width)
    (hh : f.height = f'.height) (ho : f.offset = f'.offset) : f = f' := by
  simp only [Fov.width, Fov.height] at hw hh
  have h1 := congrArg V2.x ho
  have h2 := congrArg V2.y ho
  simp only [Fov.offset] at h1 h2
  field_simp at h1 h2
  ext <;> linarith

/-- Zooming by `a` then `b` is zooming by `a * b`. -/
theorem C02_zoom_zoom (f : Fov K) (a b : K) (ha : a > 0) (hb : b > 0)
    (hw : 0 < f.width) (hh : 0 < f.height) :
    (do let f' ← f.zoom a; f'.zoom b) = f.zoom (a * b) := by
  obtain ⟨f1, e1, w1, h1, o1⟩ := (C02_zoom f a).1 ha hw hh
  obtain ⟨f2, e2, w2, h2, o2⟩ := (C02_zoom f1 b).1 hb (w1 ▸ div_pos hw ha) (h1 ▸ div_pos hh ha)
  obtain ⟨f3, e3, w3, h3, o3⟩ := (C02_zoom f (a * b)).1 (mul_pos ha hb) hw hh
  rw [e1, e3]
  show f1.zoom b = _
  rw [e2]
  congr 1
  apply C02_size_and_centre_determine
  · rw [w2, w1, w3]; field_simp
  · rw [h2, h1, h3]; field_simp
  · rw [o2, o1, o3]

/-- Shifting by `s` then `t` is shifting by `s + t`; shifting keeps the size and moves the
centre by the shift. -/
theorem C02_shift (f : Fov K) (s t : V2 K) :
    (f.shift s).shift t = f.shift (s + t) ∧ (f.shift s).width = f.width ∧
    (f.shift s).height = f.height ∧ (f.shift s).offset = f.offset + s ∧
    f.shift 0 = f := by
  refine ⟨?_, ?_, ?_, ?_, ?_⟩
  · ext <;> simp [Fov.shift] <;> ring
  · simp [Fov.shift, Fov.width]
  · simp [Fov.shift, Fov.height]
  · ext <;> simp [Fov.shift, Fov.offset] <;> ring
  · ext <;> simp [Fov.shift]

example : 0 < (⟨⟨-10, -15⟩, ⟨10, 15⟩⟩ : Fov ℚ).width ∧ 0 < (⟨⟨-10, -15⟩, ⟨10, 15⟩⟩ : Fov ℚ).height ∧
    (3 : ℚ) > 0 := by norm_num [Fov.width, Fov.height]

/-! ### C03 / C04 atoms in view -/

theorem inRect_iff (ll ur p : V2 K) : Fov.inRect ll ur p = true ↔ Inside ll ur p := by
  simp [Fov.inRect, Inside, and_assoc]

/-- C03: the material returns exactly the atoms inside the rectangle: the list of observed
atoms is the list of sheet atoms inside the rectangle, in order, each with its own number and
with its position expressed as a fraction of the rectangle. -/
theorem C03_atoms_in_view (m : Material K) (sheet : Grid K) (hr : m.hasBeenReset = true)
    (hm : m.grid = some sheet) (hwf : sheet.WF) (f : Fov K)
    (hw : 0 < f.width) (hh : 0 < f.height) :
    ∃ o, m.getAtomsInBounds f.lowerLeft f.upperRight = .ok o ∧ o.WF ∧
      (atoms (f.gridToMaterial o)) =
        (atoms sheet).filter (fun a => decide (Inside f.lowerLeft f.upperRight a.1)) ∧
      ∀ p ∈ o.positions, InUnit p := by
  have hx : f.upperRight.x - f.lowerLeft.x ≠ 0 := ne_of_gt hw
  have hy : f.upperRight.y - f.lowerLeft.y ≠ 0 := ne_of_gt hh
  have hw' : 0 < f.upperRight.x - f.lowerLeft.x := hw
  have hh' : 0 < f.upperRight.y - f.lowerLeft.y := hh
  have hp : Fov.inRect f.lowerLeft f.upperRight =
      fun p => decide (Inside f.lowerLeft f.upperRight p) := by
    funext p
    have := inRect_iff f.lowerLeft f.upperRight p
    by_cases h : Inside f.lowerLeft f.upperRight p
    · simp [h, this.2 h]
    · simp only [h, decide_false]
      exact Bool.eq_false_iff.2 (fun h' => h (this.1 h'))
  have heq : m.getAtomsInBounds f.lowerLeft f.upperRight = .ok
      ⟨(maskSelect (sheet.positions.map (Fov.inRect f.lowerLeft f.upperRight)) sheet.positions).map
        (fun p => (p - f.lowerLeft) / (f.upperRight - f.lowerLeft)),
        maskSelect (sheet.positions.map (Fov.inRect f.lowerLeft f.upperRight)) sheet.numbers⟩ := by
    simp only [Material.getAtomsInBounds, Material.read, hr, hm, if_true]
  refine ⟨_, heq, ?_, ?_, ?_⟩
  · simp only [Grid.WF, List.length_map]
    exact maskSelect_length_eq _ _ _ hwf
  · simp only [atoms, Fov.gridToMaterial, List.map_map]
    have hid : (f.toMaterial ∘ fun p => (p - f.lowerLeft) / (f.upperRight - f.lowerLeft)) = id := by
      funext p; ext <;> simp [Fov.toMaterial, Fov.scale, hx, hy]
    rw [hid, List.map_id, maskSelect_zip _ _ _ hwf, maskSelect_zip_left _ _ _ hwf, hp]
  · intro p hp'
    simp only [List.mem_map] at hp'
    obtain ⟨q, hq, rfl⟩ := hp'
    rw [maskSelect_map_self, List.mem_filter, inRect_iff] at hq
    obtain ⟨_, ⟨h1, h2⟩, h3, h4⟩ := hq
    refine ⟨⟨?_, ?_⟩, ?_, ?_⟩ <;> simp only [V2.div_x, V2.div_y, V2.sub_x, V2.sub_y]
    · exact div_nonneg (by linarith) hw'.le
    · rw [div_le_one hw']; linarith
    · exact div_nonneg (by linarith) hh'.le
    · rw [div_le_one hh']; linarith

/-- C03, membership form: an atom shows up in the image at `p` iff the sheet has that atom at
the corresponding place inside the rectangle. -/
theorem C03_mem_iff (m : Material K) (sheet : Grid K) (hr : m.hasBeenReset = true)
    (hm : m.grid = some sheet) (hwf : sheet.WF) (f : Fov K)
    (hw : 0 < f.width) (hh : 0 < f.height) (o : Grid K)
    (ho : m.getAtomsInBounds f.lowerLeft f.upperRight = .ok o) (p : V2 K) (n : ℤ) :
    (p, n) ∈ atoms o ↔
      (lerp f.lowerLeft f.upperRight p, n) ∈ atoms sheet ∧
        Inside f.lowerLeft f.upperRight (lerp f.lowerLeft f.upperRight p) := by
  obtain ⟨o', ho', _, hat, _⟩ := C03_atoms_in_view m sheet hr hm hwf f hw hh
  rw [ho] at ho'
  cases ho'
  have hx : f.upperRight.x - f.lowerLeft.x ≠ 0 := ne_of_gt hw
  have hy : f.upperRight.y - f.lowerLeft.y ≠ 0 := ne_of_gt hh
  have key : f.toMaterial = lerp f.lowerLeft f.upperRight := by
    funext p; ext <;> simp [Fov.toMaterial, Fov.scale, lerp] <;> ring
  have hinj : Function.Injective (lerp f.lowerLeft f.upperRight) := by
    intro a b hab
    have h1 := congrArg V2.x hab
    have h2 := congrArg V2.y hab
    simp only [lerp, add_right_inj] at h1 h2
    ext
    · exact mul_right_cancel₀ hx h1
    · exact mul_right_cancel₀ hy h2
  have h2 : atoms (f.gridToMaterial o) =
      (atoms o).map (fun a => (lerp f.lowerLeft f.upperRight a.1, a.2)) := by
    simp only [atoms, Fov.gridToMaterial, key]
    rw [List.zip_map_left]
    rfl
  have h3 : (p, n) ∈ atoms o ↔
      (lerp f.lowerLeft f.upperRight p, n) ∈ atoms (f.gridToMaterial o) := by
    rw [h2, List.mem_map]
    constructor
    · intro h; exact ⟨_, h, rfl⟩
    · rintro ⟨⟨a, b⟩, h, he⟩
      simp only [Prod.mk.injEq] at he
      rw [hinj he.1, he.2] at h
      exact h
  rw [h3, hat, List.mem_filter]
  simp

/-- C04: `MicroscopeFieldOfView.get_atoms_in_bounds` keeps exactly the atoms inside the grown
rectangle, in order, and leaves them in the material frame. -/
theorem C04_tolerance_exact (f : Fov K) (g : Grid K) (hwf : g.WF) (tol : K) :
    (f.getAtomsInBounds g tol).WF ∧
    atoms (f.getAtomsInBounds g tol) =
      (atoms g).filter (fun a => decide (Inside
        ⟨f.lowerLeft.x - tol, f.lowerLeft.y - tol⟩ ⟨f.upperRight.x + tol, f.upperRight.y + tol⟩ a.1)) := by
  have hp : Fov.inRect (f.lowerLeft - V2.const tol) (f.upperRight + V2.const tol) =
      fun p => decide (Inside ⟨f.lowerLeft.x - tol, f.lowerLeft.y - tol⟩
        ⟨f.upperRight.x + tol, f.upperRight.y + tol⟩ p) := by
    funext p
    have := inRect_iff (f.lowerLeft - V2.const tol) (f.upperRight + V2.const tol) p
    exact Bool.eq_iff_iff.2 (by rw [this, decide_eq_true_iff]; rfl)
  constructor
  · exact maskSelect_length_eq _ _ _ hwf
  · simp only [atoms, Fov.getAtomsInBounds]
    rw [maskSelect_zip _ _ _ hwf, maskSelect_zip_left _ _ _ hwf, hp]

/-- C04: a larger tolerance never loses an atom. -/
theorem C04_tolerance_mono (f : Fov K) (g : Grid K) (hwf : g.WF) (t t' : K) (h : t ≤ t') :
    (atoms (f.getAtomsInBounds g t)).Sublist (atoms (f.getAtomsInBounds g t')) := by
  rw [(C04_tolerance_exact f g hwf t).2, (C04_tolerance_exact f g hwf t').2]
  apply List.monotone_filter_right
  intro a ha
  rw [decide_eq_true_iff] at ha ⊢
  obtain ⟨⟨h1, h2⟩, h3, h4⟩ := ha
  simp only at h1 h2 h3 h4
  refine ⟨⟨?_, ?_⟩, ?_, ?_⟩ <;> linarith

/-- With tolerance 0 the query selects the same atoms as the material's own query. -/
theorem C04_agrees_with_material (m : Material K) (sheet : Grid K) (hr : m.hasBeenReset = true)
    (hm : m.grid = some sheet) (f : Fov K) :
    m.getAtomsInBounds f.lowerLeft f.upperRight =
      .ok (f.gridToMicroscope (f.getAtomsInBounds sheet 0)) := by
  have h1 : f.lowerLeft - V2.const (0 : K) = f.lowerLeft := by ext <;> simp
  have h2 : f.upperRight + V2.const (0 : K) = f.upperRight := by ext <;> simp
  simp only [Material.getAtomsInBounds, Material.read, hr, hm, if_true, Fov.getAtomsInBounds, h1, h2]
  rfl

/-- A sheet with one atom on the border of the view, one inside and one outside. -/
example : let sheet : Grid ℚ := ⟨[⟨10, 0⟩, ⟨0, 0⟩, ⟨11, 0⟩], [6, 14, 6]⟩
    let m : Material ℚ := ⟨true, some sheet⟩
    let f : Fov ℚ := ⟨⟨-10, -10⟩, ⟨10, 10⟩⟩
    m.hasBeenReset = true ∧ m.grid = some sheet ∧ sheet.WF ∧ 0 < f.width ∧ 0 < f.height ∧
    m.getAtomsInBounds f.lowerLeft f.upperRight = .ok ⟨[⟨1, 1/2⟩, ⟨1/2, 1/2⟩], [6, 14]⟩ := by
  refine ⟨rfl, rfl, rfl, by norm_num [Fov.width], by norm_num [Fov.height], ?_⟩
  norm_num [Material.getAtomsInBounds, Material.read, Fov.inRect, maskSelect]
  constructor <;> (ext <;> norm_num)

end PD.Props
