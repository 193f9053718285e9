/- Model of the iterative-closest-points alignment (alignment.py).  Coordinates are real numbers; a
value that is not a number is `none`. -/
import Verif.Model.Goal
import Verif.Model.Geometry
import Verif.Model.GreedyAgent
import Verif.Model.DataPoints
import Verif.Model.Splits

namespace PD

/-- Arguments of `align_latest` (alignment.py:85-96), without `init_shift`.  `maskAbove = none` is the
default, infinity. -/
structure AlignArgs where
  new : List (V2 ℝ)
  ref : List (V2 ℝ)
  newClasses : List ℤ
  refClasses : List ℤ
  iterations : ℕ := 20
  noiseScale : ℝ := 0
  maxShift : ℝ := 2
  maskAbove : Option ℝ := none
  trim : ℝ := 0

/-- alignment.py:78: `closest_distances < mask_above` for the pair `l`, `r`. -/
noncomputable def belowMask (maskAbove : Option ℝ) (l r : V2 ℝ) : Bool :=
  match maskAbove with
  | none => true
  | some m => normLt (l - r) m

/-- alignment.py:58-82 `get_offsets`: from every left point to the nearest right point, where that is
near enough.  `argmin` over no points raises `ValueError`. -/
noncomputable def getOffsets (left right : List (V2 ℝ)) (maskAbove : Option ℝ) :
    Except Err (List (V2 ℝ)) :=
  if right.isEmpty then .error .valueError
  else .ok (left.filterMap (fun l =>
    match argmin? (right.map (fun r => V2.distSq l r)) with
    | none => none
    | some k =>
      let r := right.getD k 0
      if belowMask maskAbove l r then some (r - l) else none))

/-- `xs[mask]` for the mask `classes == c`. -/
def ofClass (xs : List (V2 ℝ)) (classes : List ℤ) (c : ℤ) : List (V2 ℝ) :=
  ((xs.zip classes).filter (fun x => decide (x.2 = c))).map (·.1)

/-- `l[:k]` in Python. -/
def pyPrefix {α : Type} (k : ℤ) (l : List α) : List α :=
  if 0 ≤ k then l.take k.toNat else l.take (l.length + k).toNat

/-- alignment.py:142-145: drop the longest offsets.  (`np.argsort` may order equally long ones
differently.) -/
noncomputable def trimOffsets (trim : ℝ) (offsets : List (V2 ℝ)) : List (V2 ℝ) :=
  if 0 < trim then
    (pyPrefix (pyInt ((1 - trim) * offsets.length)) (argsort (offsets.map norm2))).map
      (fun i => offsets.getD i 0)
  else offsets

/-- `offsets.mean(axis=0)`: not a number for no offsets (alignment.py:147). -/
noncomputable def meanOffset (offsets : List (V2 ℝ)) : Option (V2 ℝ) :=
  if offsets.isEmpty then none
  else some ⟨(offsets.map (·.x)).sum / offsets.length, (offsets.map (·.y)).sum / offsets.length⟩

/-- alignment.py:134-147: the mean offset of the new points, moved by `shift`, to the reference.  One
class of points after the other; the order of the classes is that of a Python set. -/
noncomputable def icpOffset (a : AlignArgs) (shift : V2 ℝ) : Except Err (Option (V2 ℝ)) :=
  if a.newClasses.isEmpty then .error .valueError
  else if a.new.length ≠ a.newClasses.length ∨ a.ref.length ≠ a.refClasses.length then .error .indexError
  else
    match a.newClasses.dedup.mapM (fun c =>
      getOffsets ((ofClass a.new a.newClasses c).map (· + shift)) (ofClass a.ref a.refClasses c)
        a.maskAbove) with
    | .error e => .error e
    | .ok offsets => .ok (meanOffset (trimOffsets a.trim offsets.flatten))

/-- alignment.py:150-151: shorten a drift to the maximal shift.  (A zero drift is longer than a negative
maximal shift, and dividing it by its length gives nan.) -/
noncomputable def clipDrift (maxShift : ℝ) (d : V2 ℝ) : Option (V2 ℝ) :=
  if norm2 d > maxShift then
    if norm2 d = 0 then none else some ⟨maxShift * d.x / norm2 d, maxShift * d.y / norm2 d⟩
  else some d

/-- State of `align_latest`: the cumulative drift, the content of the array passed as `init_shift`, and
whether the cumulative drift is still that array. -/
structure AlignState where
  drift : Option (V2 ℝ)
  cell : Option (V2 ℝ)
  same : Bool

/-- alignment.py:128-152: one iteration with noise `noise`.  A drift that is not a number stays so: no
distance is below the mask, and the mean of no offsets is nan. -/
noncomputable def alignStep (a : AlignArgs) (noise : V2 ℝ) (st : AlignState) : Except Err AlignState :=
  match st.drift with
  | none =>
    match icpOffset a 0 with
    | .error e => .error e
    | .ok _ => .ok st
  | some d =>
    match icpOffset a (d + noise) with
    | .error e => .error e
    | .ok none => .ok ⟨none, if st.same then none else st.cell, st.same⟩
    | .ok (some offset) =>
      let d' := d + (noise + offset)
      let cell := if st.same then some d' else st.cell
      .ok ⟨clipDrift a.maxShift d', cell, st.same && decide (norm2 d' ≤ a.maxShift)⟩

/-- alignment.py:123, 130-131: the noise of iteration `i`, from a standard normal draw. -/
noncomputable def alignNoise (a : AlignArgs) (draw : ℕ → V2 ℝ) (i : ℕ) : V2 ℝ :=
  let scale := (linspace a.noiseScale 0 a.iterations).getD i 0
  if scale = 0 then 0 else V2.smul scale (draw i)

/-- alignment.py:85-153 `align_latest` for an `init_shift` array holding `init` (`none`: the argument
is `None`, and a new array is made). -/
noncomputable def alignLatest (a : AlignArgs) (draw : ℕ → V2 ℝ) (init : Option (V2 ℝ)) :
    Except Err AlignState :=
  (List.range a.iterations).foldlM (fun st i => alignStep a (alignNoise a draw i) st)
    (match init with
    | none => ⟨some 0, none, false⟩
    | some v => ⟨some v, some v, true⟩)

end PD
