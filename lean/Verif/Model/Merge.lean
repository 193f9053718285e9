/- Model of the merging of repeated detections (alignment.py).  Distances are compared by their
squares. -/
import Verif.Model.Goal

namespace PD
variable {K : Type} [Field K] [LinearOrder K]

/-- The running state of `naive_merge`: the merged positions and counts, the contents of the first
array the caller passed, and whether the merged positions still *are* that array (they are, until
positions are appended, which makes a new one). -/
structure MergeState (K : Type) where
  positions : List (V2 K)
  counts : List K
  caller : List (V2 K)
  aliased : Bool
  deriving DecidableEq

/-- alignment.py:808-809: index of the merged position nearest to `p`, and that it is closer than
`cutoff`. -/
def mergeTarget (cutoff : K) (positions : List (V2 K)) (p : V2 K) : Except Err (ℕ × Bool) :=
  match argmin? (positions.map (fun q => V2.distSq p q)) with
  | none => .error .valueError
  | some t => .ok (t, normLt (p - positions.getD t 0) cutoff)

/-- alignment.py:810-817, one round: average `p` into position `t`, or keep it for later.  The
third component are the new positions. -/
def mergeOne (st : List (V2 K) × List K × List (V2 K)) (x : V2 K × ℕ × Bool) :
    List (V2 K) × List K × List (V2 K) :=
  let (positions, counts, new) := st
  let (p, t, close) := x
  if close then
    let q := positions.getD t 0
    let c := counts.getD t 0
    (positions.set t ⟨(q.x * c + p.x) / (c + 1), (q.y * c + p.y) / (c + 1)⟩, counts.set t (c + 1), new)
  else (positions, counts, new ++ [p])

/-- alignment.py:806-825: one more array.  The targets are found before any position moves. -/
def mergeFrame (cutoff : K) (st : MergeState K) (m : List (V2 K)) : Except Err (MergeState K) :=
  match m.mapM (mergeTarget cutoff st.positions) with
  | .error e => .error e
  | .ok targets =>
    let (positions, counts, new) := (m.zip targets).foldl mergeOne (st.positions, st.counts, [])
    let caller := if st.aliased then positions else st.caller
    if new.isEmpty then .ok ⟨positions, counts, caller, st.aliased⟩
    else .ok ⟨positions ++ new, counts ++ new.map (fun _ => 1), caller, false⟩

/-- alignment.py:803-826 `naive_merge`, with the contents of the caller's first non-empty array
afterwards. -/
def naiveMerge (cutoff : K) (frames : List (List (V2 K))) : Except Err (MergeState K) :=
  match frames.filter (fun c => !c.isEmpty) with
  | [] => .error .indexError
  | first :: rest =>
    rest.foldlM (mergeFrame cutoff) ⟨first, first.map (fun _ => 1), first, true⟩

/-- `networkx.find_cliques`: every maximal clique of the graph exactly once, each as a list of its
nodes; the orders are left open. -/
structure IsCliques (n : ℕ) (adj : ℕ → ℕ → Bool) (cs : List (List ℕ)) : Prop where
  nodup : ∀ c ∈ cs, c.Nodup
  inRange : ∀ c ∈ cs, ∀ i ∈ c, i < n
  clique : ∀ c ∈ cs, ∀ i ∈ c, ∀ j ∈ c, i ≠ j → adj i j = true
  maximal : ∀ c ∈ cs, ∀ k, k < n → k ∉ c → ∃ i ∈ c, adj i k = false
  all : ∀ s : List ℕ, s ≠ [] → (∀ i ∈ s, i < n) → (∀ i ∈ s, ∀ j ∈ s, i ≠ j → adj i j = true) →
    ∃ c ∈ cs, ∀ i ∈ s, i ∈ c
  distinct : cs.Pairwise (fun c d => ¬ ∀ i, i ∈ c ↔ i ∈ d)
  nonempty : ∀ c ∈ cs, c ≠ []

/-- A maximal-clique routine. -/
structure CliqueFinder where
  find : ℕ → (ℕ → ℕ → Bool) → List (List ℕ)
  spec : ∀ n adj, (∀ i j, adj i j = adj j i) → IsCliques n adj (find n adj)

/-- alignment.py:182-183 `query_pairs`: two different points at distance at most `r`. -/
def closePair (r : K) (ps : List (V2 K)) (i j : ℕ) : Bool :=
  decide (i ≠ j) && decide (i < ps.length) && decide (j < ps.length) &&
    !normGt (ps.getD i 0 - ps.getD j 0) r

/-- Sum of the entries of `counts` numbered by `c`. -/
def sumAt (counts : List K) (c : List ℕ) : K := (c.map (fun i => counts.getD i 0)).sum

/-- alignment.py:194-197: the count-weighted mean of the points of a clique. -/
def cliqueMean (ps : List (V2 K)) (counts : List K) (c : List ℕ) : V2 K :=
  ⟨(c.map (fun i => (ps.getD i 0).x * counts.getD i 0 / sumAt counts c)).sum,
   (c.map (fun i => (ps.getD i 0).y * counts.getD i 0 / sumAt counts c)).sum⟩

/-- alignment.py:189-199: one round of merging. -/
def cliqueRound (cf : CliqueFinder) (r : K) (st : List (V2 K) × List K) : List (V2 K) × List K :=
  let cs := cf.find st.1.length (closePair r st.1)
  (cs.map (cliqueMean st.1 st.2), cs.map (sumAt st.2))

/-- alignment.py:180-201: at most `fuel` rounds, stopping when no two points are close.
(`scipy.spatial.cKDTree` accepts an empty array, which has no pairs.) -/
def cliqueLoop (cf : CliqueFinder) (r : K) : ℕ → List (V2 K) × List K → List (V2 K) × List K
  | 0, st => st
  | fuel + 1, st =>
    if (List.range st.1.length).any (fun i => (List.range st.1.length).any (closePair r st.1 i))
    then cliqueLoop cf r fuel (cliqueRound cf r st)
    else st

/-- alignment.py:156-201 `clique_merge` (the two columns of the positions; without given counts
every point counts one). -/
def cliqueMerge (cf : CliqueFinder) (r : K) (maxIterations : ℕ) (ps : List (V2 K))
    (counts : Option (List K)) : List (V2 K) × List K :=
  cliqueLoop cf r maxIterations (ps, counts.getD (ps.map (fun _ => 1)))

/-- alignment.py:763-784 `propagate_atomic_numbers`.  Later originals overwrite earlier ones, as in
numpy's indexed assignment.  The given numbers are changed in place; the result is the changed
array. -/
def propagateAtomicNumbers (original merged : List (V2 K)) (originalNumbers : List ℤ)
    (newNumbers : Option (List ℤ)) (defaultNumber : ℤ) (threshold : K) : Except Err (List ℤ) :=
  match original.mapM (fun o => argmin? (merged.map (fun m => V2.distSq o m))) with
  | none => .error .valueError
  | some closest =>
    if merged.isEmpty then .error .valueError
    else if originalNumbers.length ≠ original.length then .error .indexError
    else
      let start := newNumbers.getD (merged.map (fun _ => defaultNumber))
      let pairs := (original.zip closest).zip originalNumbers
      let near := pairs.filter (fun x => normLt (x.1.1 - merged.getD x.1.2 0) threshold)
      if near.any (fun x => decide (start.length ≤ x.1.2)) then .error .indexError
      else .ok (near.foldl (fun nums x => nums.set x.1.2 x.2) start)

end PD
