/- Making data points for rate learning from transitions, computed with floating point numbers. -/
import Verif.Model.FloatSheet
import Verif.Model.DataPoints

namespace PD
variable {Img : Type}

/-- `np.arctan2` of float64 numbers `y` and `x`: any function with a small error.  It need only be right up to full
turns, because the model has no signed zeros and numpy gives -π for `y = -0.0` and negative `x`. -/
structure FloatAngle where
  arctan2 : ℝ → ℝ → ℝ
  size : ∀ y x, |arctan2 y x| ≤ 4
  err : ∀ y x, ∃ n : ℤ, |arctan2 y x - (getAngle ⟨x, y⟩ + n * (2 * Real.pi))| ≤ 2 ^ (-50 : ℤ)

/-- The result of `NearestNeighbors(n_neighbors=k, algorithm='brute').fit(ps).kneighbors([q])`, as indices.  sklearn
computes the squares of the distances from scalar products, so that there are errors and points may be out of order if
the squares of their distances are nearly equal. -/
structure IsFloatKnn (ps : List (V2 ℝ)) (q : V2 ℝ) (k : ℕ) (r : List ℕ) : Prop where
  length : r.length = k
  nodup : r.Nodup
  lt : ∀ i ∈ r, i < ps.length
  sorted : r.Pairwise (fun i j => ∀ a b, ps[i]? = some a → ps[j]? = some b →
    V2.distSq q a ≤ V2.distSq q b + 1 / 1000)
  nearest : ∀ i ∈ r, ∀ j, j ∉ r → ∀ a b, ps[i]? = some a → ps[j]? = some b →
    V2.distSq q a ≤ V2.distSq q b + 1 / 1000

/-- The coordinates of a point are at most 2^16.  Then the errors of sklearn's squares of distances are less than
1/1000. -/
def Near16 (p : V2 ℝ) : Prop := |p.x| ≤ 2 ^ 16 ∧ |p.y| ≤ 2 ^ 16

/-- A routine for nearest neighbours that works for points that are not too far from the origin. -/
structure FloatKnn where
  query : List (V2 ℝ) → V2 ℝ → ℕ → List ℕ
  spec : ∀ ps q k, k ≤ ps.length → (∀ p ∈ ps, Near16 p) → Near16 q → IsFloatKnn ps q k (query ps q k)

/-- sklearn raises `ValueError` when asked for more neighbours than points. -/
def FloatKnn.kneighbors (knn : FloatKnn) (ps : List (V2 ℝ)) (q : V2 ℝ) (k : ℕ) : Except Err (List ℕ) :=
  if k ≤ ps.length then .ok (knn.query ps q k) else .error .valueError

/-- What the numerical libraries compute: angles, sines and cosines, sums, products of matrices and neighbours. -/
structure FloatLib where
  angle : FloatAngle
  trig : FloatTrig
  sums : Summation
  dots : DotKind
  knn : FloatKnn

/-- The difference of two arrays. -/
noncomputable def floatSub (a b : V2 ℝ) : V2 ℝ := ⟨f64 (a.x - b.x), f64 (a.y - b.y)⟩

/-- `2 * np.pi`. -/
noncomputable def floatTurn : ℝ := f64 (2 * f64 Real.pi)

/-- numpy's `x % m` for positive `m`: C's `fmod`, which has no rounding, and `m` added to a negative result. -/
noncomputable def floatMod (x m : ℝ) : ℝ :=
  let r := x - m * ((if 0 ≤ x then ⌊x / m⌋ else ⌈x / m⌉ : ℤ) : ℝ)
  if r < 0 then f64 (r + m) else r

/-- geometry.py:51-66 `rotate_coordinates`, one row. -/
noncomputable def floatRotate (L : FloatLib) (p : V2 ℝ) (θ : ℝ) : V2 ℝ :=
  ⟨floatPair L.dots p.x (L.trig.cos θ) p.y (-L.trig.sin θ), floatPair L.dots p.x (L.trig.sin θ) p.y (L.trig.cos θ)⟩

/-- data_utils.py:389-432 `standardize_beam_and_neighbors`. -/
noncomputable def floatStandardize (L : FloatLib) (beam : V2 ℝ) (nbrs : List (V2 ℝ)) :
    Except Err (V2 ℝ × List (V2 ℝ) × List ℕ) :=
  match argmin? (nbrs.map (fun n => floatNorm .plain (floatSub n beam))) with
  | none => .error .valueError
  | some nearest =>
    let angles := nbrs.map (fun n => L.angle.arctan2 n.y n.x)
    match angles[nearest]? with
    | none => .error .indexError
    | some a =>
      let rotation := -a
      let positive := angles.map (fun t => floatMod (f64 (t + rotation)) floatTurn)
      .ok (floatRotate L beam rotation, nbrs.map (fun n => floatRotate L n rotation), argsort positive)

/-- train_rate_learner.py:440-448. -/
noncomputable def floatMeanNearest (L : FloatLib) (before after : List (V2 ℝ)) : Except Err ℝ :=
  match before.mapM (fun p => (after.map (fun q => floatNorm .plain (floatSub p q))).min?) with
  | none => .error .valueError
  | some ds => .ok (f64 (L.sums.sum ds / ds.length))

/-- train_rate_learner.py:454-482. -/
noncomputable def floatMakeDataPoint (L : FloatLib) (c : BeamControl ℝ) (beam si siAfter : V2 ℝ)
    (nbrs : List (V2 ℝ)) : Except Err DataPoint :=
  let controlDelta := floatSub beam si
  let deltas := nbrs.map (fun p => floatSub p si)
  match floatStandardize L controlDelta (deltas.drop 1) with
  | .error e => .error e
  | .ok (beam', _, order) =>
    match argmin? (nbrs.map (fun p => floatNorm .plain (floatSub p siAfter))) with
    | none => .error .valueError
    | some 0 => .ok ⟨0, beam', floatSeconds c.dwellTime, c.currentNa, c.voltageKv⟩
    | some (k + 1) =>
      match (argsort order)[k]? with
      | none => .error .indexError
      | some rank => .ok ⟨rank + 1, beam', floatSeconds c.dwellTime, c.currentNa, c.voltageKv⟩

/-- train_rate_learner.py:403-448: the tests on the grid after. -/
noncomputable def floatCheckAfter (L : FloatLib) (cutoff : ℝ) (after : Grid ℝ) (si : V2 ℝ)
    (nbrs : List (V2 ℝ)) : Except Err (Exclusion ⊕ V2 ℝ) :=
  match L.knn.kneighbors after.positions si 4 with
  | .error e => .error e
  | .ok idx =>
    match takeRows after.positions idx with
    | .error e => .error e
    | .ok nbrsAfter =>
      match takeRows after.numbers idx with
      | .error e => .error e
      | .ok numbersAfter =>
        match getSiliconPositions after with
        | [siAfter] =>
          if !(numbersAfter.any (fun n => decide (n = SILICON))) then .ok (.inl .noSiliconNeighbor)
          else if nbrsAfter.length ≠ 4 then .ok (.inl .wrongNextNeighbors)
          else if idx.length ≠ 4 then .ok (.inl .wrongNextNeighbors)
          else if numbersAfter.length ≠ 4 then .ok (.inl .wrongNextNeighbors)
          else
            match floatMeanNearest L nbrs nbrsAfter with
            | .error e => .error e
            | .ok m => if m > cutoff then .ok (.inl .tooDistant) else .ok (.inr siAfter)
        | _ => .ok (.inl .wrongSilicons)

/-- train_rate_learner.py:361-400: the tests on the grid before. -/
noncomputable def floatCheckBefore (L : FloatLib) (before : Grid ℝ) (si : V2 ℝ) :
    Except Err (Exclusion ⊕ List (V2 ℝ)) :=
  match L.knn.kneighbors before.positions si 10 with
  | .error e => .error e
  | .ok idx =>
    match takeRows before.positions idx with
    | .error e => .error e
    | .ok nbrs =>
      if nbrs.length ≠ 10 then .ok (.inl .wrongNeighbors)
      else if idx.length ≠ 10 then .ok (.inl .wrongNeighbors)
      else
        let ds := nbrs.map (fun p => floatNorm .plain (floatSub si p))
        let isFourfold := decide (|f64 (ds.getD 1 0 - ds.getD 4 0)| < 1 / 2)
        let isThreefold := ((ds.drop 1).take 3).all (fun d => decide (d < 2)) &&
          (ds.drop 4).all (fun d => decide (d > 2))
        if isFourfold then .ok (.inl .fourfold)
        else if !isThreefold && !isFourfold then .ok (.inl .notThreefold)
        else .ok (.inr (nbrs.take 4))

/-- microscope_utils.py:344-369, for a grid. -/
noncomputable def Fov.floatGridToMaterial (f : Fov ℝ) (g : Grid ℝ) : Grid ℝ :=
  ⟨g.positions.map f.floatToMaterial, g.numbers⟩

/-- train_rate_learner.py:331-482, the body of the loop: an exclusion or a data point. -/
noncomputable def floatDatapointOf (L : FloatLib) (cutoff : ℝ) (t : Transition ℝ Img) :
    Except Err (Exclusion ⊕ DataPoint) :=
  match t.controls with
  | [c] =>
    let before := t.fovBefore.floatGridToMaterial t.gridBefore
    let after := t.fovAfter.floatGridToMaterial t.gridAfter
    let beam := t.fovBefore.floatToMaterial c.position
    match getSiliconPositions before with
    | [si] =>
      match floatCheckBefore L before si with
      | .error e => .error e
      | .ok (.inl x) => .ok (.inl x)
      | .ok (.inr nbrs) =>
        match floatCheckAfter L cutoff after si nbrs with
        | .error e => .error e
        | .ok (.inl x) => .ok (.inl x)
        | .ok (.inr siAfter) =>
          match floatMakeDataPoint L c beam si siAfter nbrs with
          | .error e => .error e
          | .ok d => .ok (.inr d)
    | _ => .ok (.inl .wrongSilicons)
  | _ => .ok (.inl .noControls)

/-- train_rate_learner.py:331-482, the loop over the transitions. -/
noncomputable def floatTransitionsToDatapoints (L : FloatLib) (cutoff : ℝ) :
    List (Transition ℝ Img) → List DataPoint → Counters → Except Err (List DataPoint × Counters)
  | [], data, counters => .ok (data, counters)
  | t :: ts, data, counters =>
    match floatDatapointOf L cutoff t with
    | .error e => .error e
    | .ok (.inl x) => floatTransitionsToDatapoints L cutoff ts data (counters.bump x)
    | .ok (.inr d) => floatTransitionsToDatapoints L cutoff ts (data ++ [d]) counters

end PD
