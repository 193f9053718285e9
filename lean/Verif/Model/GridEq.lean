/- Model of equality and hashing of atomic grids (microscope_utils.py). -/
import Verif.Model.Grid
import Verif.Model.Knn
import Verif.Model.Goal
import Mathlib.Analysis.Real.Pi.Bounds

namespace PD
variable {K : Type} [Field K] [LinearOrder K]

/-- microscope_utils.py:160-164: the index of the atom of a grid nearest to `q`. -/
def nearestIndex (knn : Knn K) (ps : List (V2 K)) (q : V2 K) : ℕ := (knn.query ps q 1).headD 0

/-- microscope_utils.py:153-173 `AtomicGrid.__eq__`.  sklearn refuses to fit no atoms at all.  Grids whose
numbers and positions differ in length are compared as numpy does when the lengths do not broadcast. -/
def gridEq (knn : Knn K) (self other : Grid K) : Except Err Bool :=
  if self.positions.length ≠ other.positions.length then .ok false
  else if self.numbers.length ≠ other.numbers.length then .ok false
  else if self.positions.isEmpty then .error .valueError
  else
    let idx := other.positions.map (nearestIndex knn self.positions)
    if idx.any (fun i => decide (self.numbers.length ≤ i)) then .error .indexError
    else if other.numbers.length ≠ idx.length then .error .valueError
    else if (other.numbers.zip idx).any (fun x => decide (x.1 ≠ self.numbers.getD x.2 0)) then .ok false
    else if (other.positions.zip idx).any (fun x => normGt (x.1 - self.positions.getD x.2 0) (1 / 1000))
    then .ok false
    else .ok true

/-- `np.around(x, 2)`. -/
def around2 [FloorRing K] (x : K) : K := roundHalfEven (x * 100) / 100

/-- microscope_utils.py:141: the factor of an atomic number. -/
noncomputable def hashModifier (n : ℤ) : ℝ := around2 ((Real.pi / 3) ^ n)

/-- microscope_utils.py:146-151: what an atom adds to the hash. -/
noncomputable def hashTerm (x : V2 ℝ × ℤ) : ℝ :=
  around2 (hashModifier x.2 * (V2.normSq x.1 + 1)) * 100

/-- microscope_utils.py:122-151 `AtomicGrid.__hash__` (of a grid with a number for every atom). -/
noncomputable def gridHash (g : Grid ℝ) : ℤ :=
  roundHalfEven (((g.positions.zip g.numbers).map hashTerm).sum)

end PD
