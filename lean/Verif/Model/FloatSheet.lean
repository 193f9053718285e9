/- The generation of a sheet of graphene, computed with floating point numbers. -/
import Verif.Model.FloatGoals
import Verif.Model.Lattice

namespace PD

/-- `np.cos` and `np.sin` of a float64 number: any functions with small errors (numpy's are off by at most a few units
in the last place). -/
structure FloatTrig where
  cos : ℝ → ℝ
  sin : ℝ → ℝ
  cos_err : ∀ x, |cos x - Real.cos x| ≤ 2 ^ (-50 : ℤ)
  sin_err : ∀ x, |sin x - Real.sin x| ≤ 2 ^ (-50 : ℤ)

/-- The sums in `np.mean`, whatever the order in which numpy adds: any function with the error bound that holds for
all orders. -/
structure Summation where
  sum : List ℝ → ℝ
  err : ∀ xs : List ℝ, xs.length ≤ 2 ^ 40 →
    |sum xs - xs.sum| ≤ xs.length * 2 ^ (-52 : ℤ) * (xs.map (fun x => |x|)).sum + xs.length * 2 ^ (-1000 : ℤ)

/-- graphene.py:480-481 `ratio = np.sqrt(3) / 2`. -/
noncomputable def floatRatio : ℝ := f64 (f64 (Real.sqrt 3) / 2)

/-- graphene.py:482 `num_rows = int(num_cols / ratio)`. -/
noncomputable def floatRows (cols : ℕ) : ℕ := ⌊f64 ((cols : ℝ) / floatRatio)⌋₊

/-- graphene.py:484-490: the column as float32 and the row times `ratio`. -/
noncomputable def floatHexPoint (row col : ℕ) : V2 ℝ :=
  ⟨if row % 2 = 1 then f32 (f32 (col : ℝ) + 1 / 2) else f32 (col : ℝ), f64 ((row : ℝ) * floatRatio)⟩

/-- graphene.py:464-501 `_generate_hexagonal_grid`. -/
noncomputable def floatHexagonalGrid (cols : ℕ) : List (V2 ℝ) :=
  (List.range (floatRows cols)).flatMap (fun row =>
    ((List.range cols).filter (fun col => !hexRemoved row col)).map (floatHexPoint row))

/-- `a * b + c * d`, an entry of a product of matrices. -/
noncomputable def floatPair : DotKind → (a b c d : ℝ) → ℝ
  | .plain, a, b, c, d => f64 (f64 (a * b) + f64 (c * d))
  | .fusedFirst, a, b, c, d => f64 (a * b + f64 (c * d))
  | .fusedSecond, a, b, c, d => f64 (f64 (a * b) + c * d)

/-- `positions - np.mean(positions)` and the offset, one coordinate (graphene.py:543-548). -/
noncomputable def floatCentre (S : Summation) (xs : List ℝ) (offset x : ℝ) : ℝ :=
  f64 (f64 (x - f64 (S.sum xs / xs.length)) + offset)

/-- graphene.py:537-559, given the random numbers. -/
noncomputable def floatLayOut (T : FloatTrig) (S : Summation) (k : DotKind) (cols : ℕ) (offset : V2 ℝ) (angle : ℝ) :
    List (V2 ℝ) :=
  let positions : List (V2 ℝ) := (floatHexagonalGrid cols).map (fun p =>
    ⟨f64 (p.x * f64 (142 / 100)), f64 (p.y * f64 (142 / 100))⟩)
  let centred : List (V2 ℝ) := positions.map (fun p =>
    ⟨floatCentre S (positions.map (·.x)) offset.x p.x, floatCentre S (positions.map (·.y)) offset.y p.y⟩)
  centred.map (fun p => ⟨floatPair k p.x (T.cos angle) p.y (T.sin angle),
    floatPair k p.x (-T.sin angle) p.y (T.cos angle)⟩)

/-- graphene.py:588-594: the index of the atom that becomes the silicon, the first of those nearest the origin.
`none` if there are no atoms (`ValueError`). -/
noncomputable def floatSiliconIndex (positions : List (V2 ℝ)) : Option ℕ :=
  argmin? (positions.map (floatNorm .plain))

end PD
