/- Nearest neighbours (sklearn is an external library, specified not modelled). -/
import Verif.Model.Basic

namespace PD

/-- The result of `NearestNeighbors(n_neighbors=k).fit(ps).kneighbors([q])`, as indices:
`k` distinct indices sorted by distance from `q`, no other point being strictly nearer.
The order among equidistant points is left open. -/
structure IsKnn {K : Type} [Field K] [LinearOrder K] (ps : List (V2 K)) (q : V2 K) (k : ℕ)
    (r : List ℕ) : Prop where
  length : r.length = k
  nodup : r.Nodup
  lt : ∀ i ∈ r, i < ps.length
  sorted : r.Pairwise (fun i j => ∀ a b, ps[i]? = some a → ps[j]? = some b →
    V2.distSq q a ≤ V2.distSq q b)
  nearest : ∀ i ∈ r, ∀ j, j ∉ r → ∀ a b, ps[i]? = some a → ps[j]? = some b →
    V2.distSq q a ≤ V2.distSq q b

/-- A k-nearest-neighbour routine meeting the specification whenever there are
enough points. -/
structure Knn (K : Type) [Field K] [LinearOrder K] where
  query : List (V2 K) → V2 K → ℕ → List ℕ
  spec : ∀ ps q k, k ≤ ps.length → IsKnn ps q k (query ps q k)

/-- sklearn raises `ValueError` when asked for more neighbours than points. -/
def Knn.kneighbors {K : Type} [Field K] [LinearOrder K] (knn : Knn K) (ps : List (V2 K))
    (q : V2 K) (k : ℕ) : Except Err (List ℕ) :=
  if k ≤ ps.length then .ok (knn.query ps q k) else .error .valueError

/-- geometry.py:93-111 `nearest_neighbors3` for a single query point: indices of the
4 nearest points, without the first column unless `include_self`. -/
def nearestNeighbors3 {K : Type} [Field K] [LinearOrder K] (knn : Knn K) (ps : List (V2 K))
    (q : V2 K) (includeSelf : Bool := false) : Except Err (List ℕ) := do
  let idx ← knn.kneighbors ps q 4
  if includeSelf then pure idx else pure (idx.drop 1)

end PD
