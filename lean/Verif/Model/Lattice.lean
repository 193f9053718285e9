/- Model of the generation of pristine graphene sheets (graphene.py). -/
import Verif.Model.Geometry
import Verif.Model.Material
import Mathlib.Analysis.Real.Pi.Bounds

namespace PD
variable {G : Type}

/-- graphene.py:480-481 `ratio = np.sqrt(3) / 2`. -/
noncomputable def hexRatio : ℝ := Real.sqrt 3 / 2

/-- graphene.py:482 `num_rows = int(num_cols / ratio)`. -/
noncomputable def hexRows (cols : ℕ) : ℕ := ⌊(cols : ℝ) / hexRatio⌋₊

/-- graphene.py:491-496: the points set to `inf`: every third column from 0 in even rows, every third
column from 1 in odd rows. -/
def hexRemoved (row col : ℕ) : Bool :=
  (decide (row % 2 = 0) && decide (col % 3 = 0)) || (decide (row % 2 = 1) && decide (col % 3 = 1))

/-- graphene.py:489-492: the coordinates before flattening.  The float32 column coordinates are exact
for up to 2^22 columns. -/
noncomputable def hexPoint (row col : ℕ) : V2 ℝ :=
  ⟨(col : ℝ) + (if row % 2 = 1 then 1 / 2 else 0), (row : ℝ) * hexRatio⟩

/-- graphene.py:464-501 `_generate_hexagonal_grid`: row by row, without the removed points. -/
noncomputable def hexagonalGrid (cols : ℕ) : List (V2 ℝ) :=
  (List.range (hexRows cols)).flatMap (fun row =>
    ((List.range cols).filter (fun col => !hexRemoved row col)).map (hexPoint row))

/-- `np.mean(positions, axis=0)`.  For no positions numpy warns and returns NaN; nothing is done with
it then. -/
noncomputable def meanPoint (ps : List (V2 ℝ)) : V2 ℝ :=
  ⟨(ps.map (fun p => p.x)).sum / ps.length, (ps.map (fun p => p.y)).sum / ps.length⟩

/-- graphene.py:537-559, given the two random offsets and the angle: scale, centre, shift, and
multiply by `[[cos, -sin], [sin, cos]]` on the right, which turns clockwise. -/
noncomputable def layOutSheet (cols : ℕ) (offset : V2 ℝ) (angle : ℝ) : List (V2 ℝ) :=
  let positions := (hexagonalGrid cols).map (fun p => V2.smul BOND p)
  let mean := meanPoint positions
  (positions.map (fun p => p - mean + offset)).map (fun p =>
    ⟨p.x * Real.cos angle + p.y * Real.sin angle, p.x * -Real.sin angle + p.y * Real.cos angle⟩)

/-- graphene.py:533-559 `generate_pristine_graphene`. -/
noncomputable def generatePristineGraphene (rng : Rng ℝ G) (cols : ℕ) (g : G) : List (V2 ℝ) × G :=
  let (dx, g1) := rng.uniform (-BOND / 2) (BOND / 2) g
  let (dy, g2) := rng.uniform (-BOND / 2) (BOND / 2) g1
  let (angle, g3) := rng.uniform 0 (2 * Real.pi) g2
  (layOutSheet cols ⟨dx, dy⟩ angle, g3)

/-- graphene.py:504-530 `canonical_pristine_graphene_with_centered_silicon`: scale, centre, turn by
0°, silicon at the atom nearest the origin, then move that atom to the origin. -/
noncomputable def canonicalSheet (cols : ℕ) : Except Err (Grid ℝ) :=
  match dopeSheet (layOutSheet cols 0 0) with
  | .error e => .error e
  | .ok grid =>
    match argmin? (grid.positions.map V2.normSq) with
    | none => .error .valueError
    | some i => match grid.positions[i]? with
      | none => .error .indexError
      | some si => .ok ⟨grid.positions.map (fun p => p - si), grid.numbers⟩

end PD
