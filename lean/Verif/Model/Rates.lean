/- Model of the transition-rate functions, over the real numbers. -/
import Verif.Model.Geometry
import Verif.Model.Material
import Mathlib.Analysis.SpecialFunctions.Log.Basic
import Mathlib.Analysis.Real.Pi.Bounds

namespace PD

/-- numpy fancy indexing `atom_positions[indices, :]` with non-negative indices
(`IndexError` when one is out of range). -/
def takeRows {α : Type} (rows : List α) : List ℕ → Except Err (List α)
  | [] => .ok []
  | i :: is =>
    match rows[i]? with
    | none => .error .indexError
    | some r =>
      match takeRows rows is with
      | .error e => .error e
      | .ok rs => .ok (r :: rs)

/-- graphene.py:150-166, one neighbour: inverse-square falloff with the distance of the beam from
the neighbour. -/
noncomputable def simpleRate (beam si nbr : V2 ℝ) : ℝ :=
  let neighborPosition := nbr - si
  let beamPosition := beam - si
  let dist := norm2 (beamPosition - neighborPosition)
  let dist := dist / BOND
  1 / ((dist * 4) ^ 2 + 1)

/-- graphene.py:133-166 `simple_canonical_rate_function`. -/
noncomputable def simpleCanonicalRates : CanonicalRateFn ℝ := fun grid beam si idx =>
  match takeRows grid.positions idx with
  | .error e => .error e
  | .ok nbrs => .ok (nbrs.map (simpleRate beam si))

/-- A `(2, 2)` numpy array. -/
structure Mat2 where
  a11 : ℝ
  a12 : ℝ
  a21 : ℝ
  a22 : ℝ

namespace Mat2

/-- `@` of two `(2, 2)` arrays. -/
noncomputable def mul (m n : Mat2) : Mat2 :=
  ⟨m.a11 * n.a11 + m.a12 * n.a21, m.a11 * n.a12 + m.a12 * n.a22,
   m.a21 * n.a11 + m.a22 * n.a21, m.a21 * n.a12 + m.a22 * n.a22⟩

/-- `np.diag(v)`. -/
def diag (v : V2 ℝ) : Mat2 := ⟨v.x, 0, 0, v.y⟩

/-- Determinant. -/
def det (m : Mat2) : ℝ := m.a11 * m.a22 - m.a12 * m.a21

/-- Positive definite and symmetric: what `scipy.stats.multivariate_normal` requires of a
covariance matrix.  (scipy only reads the lower triangle; the model asks for symmetry, which every
caller's matrix has.) -/
def PosDef (m : Mat2) : Prop := m.a12 = m.a21 ∧ 0 < m.a11 ∧ 0 < m.det

noncomputable instance (m : Mat2) : Decidable m.PosDef := Classical.propDecidable _

end Mat2

/-- `scipy.stats.multivariate_normal.pdf(x, mean, cov)` in two dimensions.  scipy raises
`ValueError` (`LinAlgError` is a subclass) for a matrix that is not positive definite. -/
noncomputable def mvnPdf (x mean : V2 ℝ) (cov : Mat2) : Except Err ℝ :=
  if cov.PosDef then
    let d := x - mean
    let q := (cov.a22 * d.x ^ 2 - 2 * cov.a12 * d.x * d.y + cov.a11 * d.y ^ 2) / cov.det
    .ok (Real.exp (-(q / 2)) / (2 * Real.pi * Real.sqrt cov.det))
  else .error .valueError

/-- graphene.py:121-130 `single_silicon_prior_rates`. -/
noncomputable def singleSiliconPriorRates (context mean : V2 ℝ) (cov : Mat2) (maxRate : ℝ) :
    Except Err ℝ :=
  match mvnPdf mean mean cov with
  | .error e => .error e
  | .ok peak =>
    let norm := maxRate / peak
    match mvnPdf context mean cov with
    | .error e => .error e
    | .ok rate => .ok (rate * norm)

/-- graphene.py:169-190 the attributes of `HumanPriorRatePredictor`. -/
structure HumanPrior where
  mean : V2 ℝ
  cov : Mat2
  maxRate : ℝ

/-- graphene.py:183-185 with constants.py:26-28: the default attributes. -/
noncomputable def HumanPrior.default : HumanPrior :=
  ⟨⟨85 / 100, 0⟩, ⟨1 / 10, 0, 0, 1 / 10⟩, Real.log 2 / 3⟩

/-- graphene.py:220-227, one round of the loop: the rate towards a neighbour in direction
`angle`. -/
noncomputable def HumanPrior.rateAt (h : HumanPrior) (relativeBeam : V2 ℝ) (angle : ℝ) :
    Except Err ℝ :=
  let rotatedMean := rotate h.mean (-angle)
  singleSiliconPriorRates relativeBeam rotatedMean h.cov h.maxRate

/-- graphene.py:192-229 `HumanPriorRatePredictor.predict`. -/
noncomputable def HumanPrior.predict (h : HumanPrior) : CanonicalRateFn ℝ :=
  fun grid beam si idx =>
    match takeRows grid.positions idx with
    | .error e => .error e
    | .ok nbrs =>
      let angles := getAngles (nbrs.map (fun n => n - si))
      let relativeBeam := V2.smul (1 / BOND) (beam - si)
      angles.mapM (h.rateAt relativeBeam)

/-- One component of the mixture: a row of the three parameter arrays. -/
structure Component where
  weight : ℝ
  locDistance : ℝ
  variance : V2 ℝ

/-- graphene.py:280-287 `GaussianMixtureRateFunction`; the three parameter arrays are kept as
rows. -/
structure Gmm where
  maxRate : ℝ
  components : List Component

/-- graphene.py:289-303, the loop over the components. -/
noncomputable def Gmm.maxModeProb : List Component → ℝ → Except Err ℝ
  | [], m => .ok m
  | c :: cs, m =>
    match mvnPdf 0 0 (Mat2.diag c.variance) with
    | .error e => .error e
    | .ok modeProb => Gmm.maxModeProb cs (max m (modeProb * c.weight))

/-- graphene.py:289-303 `_normalizing_factor`.  The denominator is Python's `0.0` when no
component has a positive weight, and the division raises. -/
noncomputable def Gmm.normalizingFactor (g : Gmm) : Except Err ℝ :=
  match Gmm.maxModeProb g.components 0 with
  | .error e => .error e
  | .ok m => if m = 0 then .error .zeroDivision else .ok (g.maxRate / m)

/-- `np.linalg.pinv` of an invertible matrix is its inverse.  The only caller passes an orthogonal
matrix, or NaNs when a neighbour sits on the silicon (`none`). -/
noncomputable def Mat2.inv (m : Mat2) : Option Mat2 :=
  if m.det = 0 then none
  else some ⟨m.a22 / m.det, -m.a12 / m.det, -m.a21 / m.det, m.a11 / m.det⟩

/-- graphene.py:327-343: the matrix of covariance eigenvectors of one neighbour.  Its columns are
the unit vector towards the neighbour and the unit vector orthogonal to it. -/
noncomputable def eigenvectors (delta : V2 ℝ) : Mat2 :=
  let orthog : V2 ℝ := ⟨-delta.y, delta.x⟩
  let basis1 : V2 ℝ := V2.smul (1 / norm2 delta) delta
  let basis2 : V2 ℝ := V2.smul (1 / norm2 orthog) orthog
  ⟨basis1.x, basis2.x, basis1.y, basis2.y⟩

/-- graphene.py:357-384, one round of the loop over mixtures: its contribution to the rate. -/
noncomputable def mixtureRate (norm : ℝ) (si beam delta : V2 ℝ) (c : Component) : Except Err ℝ :=
  let e := eigenvectors delta
  match e.inv with
  | none => .error .valueError       -- NaNs: pinv raises LinAlgError
  | some einv =>
    let loc := si + V2.smul c.locDistance delta
    let cov := (e.mul (Mat2.diag c.variance)).mul einv
    match mvnPdf beam loc cov with
    | .error e => .error e
    | .ok density => .ok (density * norm * c.weight)

/-- graphene.py:345-384: the rate towards one neighbour, summed over the mixture. -/
noncomputable def Gmm.neighborRate (norm : ℝ) (si beam delta : V2 ℝ) :
    List Component → ℝ → Except Err ℝ
  | [], rate => .ok rate
  | c :: cs, rate =>
    match mixtureRate norm si beam delta c with
    | .error e => .error e
    | .ok r => Gmm.neighborRate norm si beam delta cs (rate + r)

/-- graphene.py:345-395, the loop over the neighbours. -/
noncomputable def Gmm.successors (g : Gmm) (norm : ℝ) (grid : Grid ℝ) (si beam : V2 ℝ) :
    List (ℕ × V2 ℝ) → Except Err (List (Successor ℝ))
  | [] => .ok []
  | (i, p) :: rest =>
    match Gmm.neighborRate norm si beam (p - si) g.components 0 with
    | .error e => .error e
    | .ok rate =>
      match g.successors norm grid si beam rest with
      | .error e => .error e
      | .ok ss => .ok (⟨successorGrid grid i, rate⟩ :: ss)

/-- graphene.py:305-397 `GaussianMixtureRateFunction.__call__`.  Python computes the normalizing
factor inside the loop; computing it first changes which of two errors is raised, and that a mixture
without components is an error instead of giving rates 0. -/
noncomputable def Gmm.call (knn : Knn ℝ) (g : Gmm) : RateFunction ℝ := fun grid beam =>
  match getSingleSiliconPosition grid with
  | .error e => .error e
  | .ok si =>
    match nearestNeighbors3 knn grid.positions si with
    | .error e => .error e
    | .ok idx =>
      match takeRows grid.positions idx with
      | .error e => .error e
      | .ok nbrs =>
        match g.normalizingFactor with
        | .error e => .error e
        | .ok norm => g.successors norm grid si beam (idx.zip nbrs)

end PD
