/- The conversions between the frames of the material and of the microscope, computed with floating point numbers. -/
import Verif.Model.Floats
import Verif.Model.Material

namespace PD
variable {K : Type} [Field K] [LinearOrder K] [FloorRing K]

/-- microscope_utils.py:405-427 `material_frame_to_microscope_frame`, one coordinate of a point, array or grid, the
field of view going from `lo` to `hi`: `(point - lower_left) / scale`.  The corners are arrays of float64, and so are
all results, whatever the type of the point.  `scale` must not vanish (numpy gives `inf` or `nan`, which are not
modelled). -/
def floatNormalise (lo hi p : K) : K := f64 (f64 (p - lo) / f64 (hi - lo))

/-- microscope_utils.py:344-369 `microscope_frame_to_material_frame`, one coordinate: `point * scale + lower_left`. -/
def floatScale (lo hi p : K) : K := f64 (f64 (p * f64 (hi - lo)) + lo)

/-- microscope_utils.py:404-439, for a point. -/
def Fov.floatToMicroscope (f : Fov K) (p : V2 K) : V2 K :=
  ⟨floatNormalise f.lowerLeft.x f.upperRight.x p.x, floatNormalise f.lowerLeft.y f.upperRight.y p.y⟩

/-- microscope_utils.py:344-380, for a point. -/
def Fov.floatToMaterial (f : Fov K) (p : V2 K) : V2 K :=
  ⟨floatScale f.lowerLeft.x f.upperRight.x p.x, floatScale f.lowerLeft.y f.upperRight.y p.y⟩

/-- graphene.py:600-644 `get_atoms_in_bounds`, with rounding.  Comparisons are exact. -/
def Material.floatAtomsInBounds (m : Material K) (lowerLeft upperRight : V2 K) : Except Err (Grid K) :=
  match m.read with
  | .error e => .error e
  | .ok grid =>
    let mask := grid.positions.map (Fov.inRect lowerLeft upperRight)
    let selectedPositions := maskSelect mask grid.positions
    let selectedNumbers := maskSelect mask grid.numbers
    .ok ⟨selectedPositions.map (Fov.floatToMicroscope ⟨lowerLeft, upperRight⟩), selectedNumbers⟩

/-- microscope_utils.py:104-121 `AtomicGrid.to_proto` and 89-102 `from_proto`, for the positions: they pass through
fields of type float. -/
def Grid.throughProto (g : Grid K) : Grid K := ⟨g.positions.map (fun p => ⟨f32 p.x, f32 p.y⟩), g.numbers⟩

end PD
