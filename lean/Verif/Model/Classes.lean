/- Model of the propagation of sub-lattice classes (alignment.py). -/
import Verif.Model.Geometry
import Verif.Model.DataPoints

namespace PD

/-- alignment.py:912-917: distances from atom `i` to all atoms, with 1000 added to the distance to
itself.  (Centring the grid does not change distances and is left out.) -/
noncomputable def bondRow (ps : List (V2 ℝ)) (i : ℕ) : List ℝ :=
  (List.range ps.length).map (fun j => norm2 (ps.getD j 0 - ps.getD i 0) + if i = j then 1000 else 0)

/-- alignment.py:918-920: the mean of the three smallest entries of all rows. -/
noncomputable def bondMean (ps : List (V2 ℝ)) : ℝ :=
  let small := (List.range ps.length).flatMap (fun i => ((bondRow ps i).mergeSort (fun a b => decide (a ≤ b))).take 3)
  small.sum / small.length

/-- alignment.py:920: `neighbor_mask`. -/
noncomputable def bonded (ps : List (V2 ℝ)) (i j : ℕ) : Bool :=
  decide ((bondRow ps i).getD j 0 < bondMean ps * (11 / 10))

/-- alignment.py:931: unclassified atoms next to a classified one. -/
def inFrontier (n : ℕ) (adj : ℕ → ℕ → Bool) (classified : List Bool) (i : ℕ) : Bool :=
  !classified.getD i false && (List.range n).any (fun j => adj i j && classified.getD j false)

/-- alignment.py:936-939: one minus the mean class of the classified neighbours, put into an array of
integers (truncated towards zero). -/
def newClass (n : ℕ) (adj : ℕ → ℕ → Bool) (classes : List ℤ) (classified : List Bool) (i : ℕ) : ℤ :=
  let near := (List.range n).filter (fun j => adj i j && classified.getD j false)
  Int.tdiv (near.length - (near.map (fun j => classes.getD j 0)).sum) near.length

/-- alignment.py:926-939: rounds until there is no frontier.  The recorded rounds (`frontiers`) are not
returned by the code and left out. -/
def propagateLoop (n : ℕ) (adj : ℕ → ℕ → Bool) : ℕ → List ℤ → List Bool → Except Err (List ℤ)
  | 0, _, _ => .error .diverges
  | fuel + 1, classes, classified =>
    if (List.range n).any (inFrontier n adj classified) then
      propagateLoop n adj fuel
        ((List.range n).map (fun i => if inFrontier n adj classified i then
          newClass n adj classes classified i else classes.getD i 0))
        ((List.range n).map (fun i => classified.getD i false || inFrontier n adj classified i))
    else .ok classes

/-- alignment.py:894-939 `propagate_graphene_classes` on the bond graph `adj` of `n` atoms.  Atoms with at
least three neighbours count as classified from the start.  (Arrays of other lengths, some of which numpy
would broadcast, are refused.)  The given array of classes is changed in place and returned. -/
def propagateClasses (n : ℕ) (adj : ℕ → ℕ → Bool) (fuel : ℕ) (classes : List ℤ) : Except Err (List ℤ) :=
  if classes.length ≠ n then .error .valueError
  else propagateLoop n adj fuel classes
    ((List.range n).map (fun i => decide (3 ≤ ((List.range n).filter (adj i)).length)))

/-- alignment.py:894-939 on a grid. -/
noncomputable def propagateGrapheneClasses (classes : List ℤ) (grid : List (V2 ℝ)) : Except Err (List ℤ) :=
  propagateClasses grid.length (bonded grid) (grid.length + 1) classes

end PD
