/- Model of `MicroscopeFieldOfView` (microscope_utils.py:236-480). -/
import Verif.Model.Grid

namespace PD

/-- microscope_utils.py:236-252 `MicroscopeFieldOfView`. -/
@[ext] structure Fov (K : Type) where
  lowerLeft : V2 K
  upperRight : V2 K
  deriving DecidableEq, Repr

/-- The argument of the two frame conversions.  Python dispatches with `isinstance`
(microscope_utils.py:350-377 and 409-439); `other` stands for any other type. -/
inductive Obj (K : Type) where
  | grid (g : Grid K)
  | array1 (p : V2 K)            -- ndarray with ndim 1 and shape (2,)
  | array2 (ps : List (V2 K))    -- ndarray of shape (n, 2)
  | point (p : V2 K)
  | control (c : BeamControl K)
  | other

namespace Fov
variable {K : Type}

/-- microscope_utils.py:279-281 `width`. -/
def width [Sub K] (f : Fov K) : K := f.upperRight.x - f.lowerLeft.x
/-- microscope_utils.py:283-285 `height`. -/
def height [Sub K] (f : Fov K) : K := f.upperRight.y - f.lowerLeft.y

/-- microscope_utils.py:254-265 `shift`. -/
def shift [Add K] (f : Fov K) (s : V2 K) : Fov K :=
  ⟨⟨f.lowerLeft.x + s.x, f.lowerLeft.y + s.y⟩, ⟨f.upperRight.x + s.x, f.upperRight.y + s.y⟩⟩

/-- microscope_utils.py:267-277 `offset`: the centre of the field of view. -/
def offset [Field K] (f : Fov K) : V2 K :=
  ⟨(f.lowerLeft.x + f.upperRight.x) / 2, (f.lowerLeft.y + f.upperRight.y) / 2⟩

/-- microscope_utils.py:287-314 `resize`; the `assert` becomes an error value. -/
def resize [Field K] [LinearOrder K] (f : Fov K) (newWidth newHeight : K) : Except Err (Fov K) :=
  if newWidth > 0 ∧ newHeight > 0 then
    let newScaleVector : V2 K := ⟨newWidth / 2, newHeight / 2⟩
    let centerpoint : V2 K :=
      ⟨(f.lowerLeft.x + f.upperRight.x) / 2, (f.lowerLeft.y + f.upperRight.y) / 2⟩
    .ok ⟨centerpoint - newScaleVector, centerpoint + newScaleVector⟩
  else .error .assertionError

/-- microscope_utils.py:316-320 `zoom`. -/
def zoom [Field K] [LinearOrder K] (f : Fov K) (zoomFactor : K) : Except Err (Fov K) :=
  if zoomFactor > 0 then f.resize (f.width / zoomFactor) (f.height / zoomFactor)
  else .error .assertionError

/-- `scale = upper_right - lower_left` (microscope_utils.py:348 and 407). -/
def scale [Sub K] (f : Fov K) : V2 K := f.upperRight - f.lowerLeft

/-- One row of the conversion `point * scale + lower_left` (microscope_utils.py:354, 361). -/
def toMaterial [Field K] (f : Fov K) (p : V2 K) : V2 K := p * f.scale + f.lowerLeft

/-- One row of the conversion `(point - lower_left) / scale` (microscope_utils.py:413, 420).
A zero scale gives inf/nan in numpy; theorems assume non-zero scales. -/
def toMicroscope [Field K] (f : Fov K) (p : V2 K) : V2 K := (p - f.lowerLeft) / f.scale

/-- `microscope_frame_to_material_frame` on an `AtomicGrid` (microscope_utils.py:350-356). -/
def gridToMaterial [Field K] (f : Fov K) (g : Grid K) : Grid K :=
  ⟨g.positions.map f.toMaterial, g.numbers⟩

/-- `material_frame_to_microscope_frame` on an `AtomicGrid` (microscope_utils.py:409-415). -/
def gridToMicroscope [Field K] (f : Fov K) (g : Grid K) : Grid K :=
  ⟨g.positions.map f.toMicroscope, g.numbers⟩

/-- microscope_utils.py:344-379 `microscope_frame_to_material_frame`. -/
def microscopeFrameToMaterialFrame [Field K] (f : Fov K) : Obj K → Except Err (Obj K)
  | .grid g => .ok (.grid (f.gridToMaterial g))
  | .array1 p => .ok (.array1 (f.toMaterial p))
  | .array2 ps => .ok (.array2 (ps.map f.toMaterial))
  | .point p => .ok (.point
      ⟨p.x * f.scale.x + f.lowerLeft.x, p.y * f.scale.y + f.lowerLeft.y⟩)
  | .control c => .ok (.control ⟨
      ⟨c.position.x * f.scale.x + f.lowerLeft.x, c.position.y * f.scale.y + f.lowerLeft.y⟩,
      c.dwellTime, c.voltageKv, c.currentNa⟩)
  | .other => .error .notImplemented

/-- microscope_utils.py:403-441 `material_frame_to_microscope_frame`. -/
def materialFrameToMicroscopeFrame [Field K] (f : Fov K) : Obj K → Except Err (Obj K)
  | .grid g => .ok (.grid (f.gridToMicroscope g))
  | .array1 p => .ok (.array1 (f.toMicroscope p))
  | .array2 ps => .ok (.array2 (ps.map f.toMicroscope))
  | .point p => .ok (.point
      ⟨(p.x - f.lowerLeft.x) / f.scale.x, (p.y - f.lowerLeft.y) / f.scale.y⟩)
  | .control c => .ok (.control ⟨
      ⟨(c.position.x - f.lowerLeft.x) / f.scale.x, (c.position.y - f.lowerLeft.y) / f.scale.y⟩,
      c.dwellTime, c.voltageKv, c.currentNa⟩)
  | .other => .error .notImplemented

/-- The mask `np.all((lower_left <= pos) & (pos <= upper_right), axis=1)` of
microscope_utils.py:470-473 and graphene.py:624-630. -/
def inRect [LinearOrder K] (ll ur p : V2 K) : Bool :=
  decide (ll.x ≤ p.x) && decide (p.x ≤ ur.x) && (decide (ll.y ≤ p.y) && decide (p.y ≤ ur.y))

/-- microscope_utils.py:448-480 `MicroscopeFieldOfView.get_atoms_in_bounds`. -/
def getAtomsInBounds [Field K] [LinearOrder K] (f : Fov K) (g : Grid K) (tolerance : K) : Grid K :=
  let lowerLeft := f.lowerLeft - V2.const tolerance
  let upperRight := f.upperRight + V2.const tolerance
  let mask := g.positions.map (inRect lowerLeft upperRight)
  ⟨maskSelect mask g.positions, maskSelect mask g.numbers⟩

end Fov
end PD
