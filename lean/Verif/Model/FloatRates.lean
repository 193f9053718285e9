/- The simple rate function, computed with floating point numbers. -/
import Verif.Model.FloatData
import Verif.Model.Rates
import Verif.Model.Material

namespace PD

/-- graphene.py:150-166 for one neighbour.  `np.linalg.norm` with `axis=-1` adds squares without fusing. -/
noncomputable def floatSimpleRate (beam si nbr : V2 ℝ) : ℝ :=
  let neighborPosition := floatSub nbr si
  let beamPosition := floatSub beam si
  let dist := floatNorm .plain (floatSub beamPosition neighborPosition)
  let dist := f64 (dist / f64 BOND)
  let scaled := f64 (dist * 4)
  f64 (1 / f64 (f64 (scaled * scaled) + 1))

/-- graphene.py:133-166 `simple_canonical_rate_function`, followed by the cast of graphene.py:252 to float32. -/
noncomputable def floatSimpleRates : CanonicalRateFn ℝ := fun grid beam si idx =>
  match takeRows grid.positions idx with
  | .error e => .error e
  | .ok nbrs => .ok (nbrs.map fun n => f32 (floatSimpleRate beam si n))

/-- geometry.py:93-111 `nearest_neighbors3` for one query, without the first column. -/
def floatNearest3 (knn : FloatKnn) (ps : List (V2 ℝ)) (q : V2 ℝ) : Except Err (List ℕ) :=
  match knn.kneighbors ps q 4 with
  | .error e => .error e
  | .ok idx => .ok (idx.drop 1)

/-- graphene.py:238-276 `PristineSingleSiGrRatePredictor.__call__`, with neighbours found in floating point numbers. -/
noncomputable def floatPristineRates (knn : FloatKnn) (canon : CanonicalRateFn ℝ) : RateFunction ℝ := fun grid beam =>
  match getSingleSiliconPosition grid with
  | .error e => .error e
  | .ok si =>
    match floatNearest3 knn grid.positions si with
    | .error e => .error e
    | .ok nbrs =>
      match canon grid beam si nbrs with
      | .error e => .error e
      | .ok rates =>
        if rates.all (fun r => decide (0 ≤ r)) then
          if rates.length = nbrs.length then
            .ok ((nbrs.zip rates).map (fun ir => ⟨successorGrid grid ir.1, ir.2⟩))
          else .error .assertionError
        else .error .assertionError

end PD
