/- Model of the symmetry augmentation of rate-learning data (rate_learning/data_utils.py), over the
real numbers. -/
import Verif.Model.Geometry
import Mathlib.Data.List.Rotate
import Mathlib.Data.Int.Order.Basic
import Mathlib.Algebra.Order.Ring.Int
import Mathlib.Data.Sign.Basic

namespace PD

/-- The arrays of a rate-learning data set (data_utils.py:85-92, 355-363): labels, times, rates,
positions and an optional context, one row per example. -/
structure RateData where
  states : List ℤ
  dt : List ℝ
  rates : List (List ℝ)
  position : List (V2 ℝ)
  context : Option (List (List ℝ))

/-- `jnp.roll(xs, n, 0)`: entry `i` moves to `i + n`, around the end. -/
def roll {α : Type} (xs : List α) (n : ℕ) : List α := xs.rotate (xs.length - n % xs.length)

/-- data_utils.py:49-55 `get_all_position_rotations` of one position. -/
noncomputable def positionRotations (m : ℕ) (p : V2 ℝ) : List (V2 ℝ) :=
  (List.range m).map (fun n : ℕ => rotate p (2 * (n : ℝ) * Real.pi / m))

/-- data_utils.py:58-66 `rotate_attributes`, `get_all_rate_rotations`. -/
def rateRotations (m : ℕ) (rates : List ℝ) : List (List ℝ) :=
  (List.range m).map (fun n => roll rates n)

/-- data_utils.py:69-71 `rotate_index`; the remainder has the sign of the divisor. -/
def rotateIndex (ind : ℤ) (n m : ℕ) : ℤ := (ind + n) % m

/-- data_utils.py:74-82 `get_all_state_rotations`. -/
def indexRotations (m : ℕ) (ind : ℤ) : List ℤ := (List.range m).map (fun n => rotateIndex ind n m)

/-- `jnp.sign` of an integer. -/
def isign (s : ℤ) : ℤ := if 0 < s then 1 else if s = 0 then 0 else -1

/-- data_utils.py:120-121: the labels of the rotations of an example. -/
def stateRotations (m : ℕ) (s : ℤ) : List ℤ :=
  (indexRotations m (s - 1)).map (fun r => (r + 1) * isign s)

/-- The rows of all arrays must be equally many for `jax.vmap`. -/
def RateData.aligned (d : RateData) : Bool :=
  d.dt.length == d.states.length && d.rates.length == d.states.length &&
  d.position.length == d.states.length &&
  (match d.context with | none => true | some c => c.length == d.states.length)

/-- data_utils.py:111-155 `get_transition_rotations`, `rotate_dataset`: the `m` rotations of each
example, one example after the other.  `jax.vmap` raises on arrays of different lengths, `jnp.stack`
on an empty list. -/
noncomputable def rotateDataset (m : ℕ) (d : RateData) : Except Err RateData :=
  if !d.aligned then .error .valueError
  else if m = 0 then .error .valueError
  else .ok {
    states := d.states.flatMap (stateRotations m)
    dt := d.dt.flatMap (fun t => List.replicate m t)
    rates := d.rates.flatMap (rateRotations m)
    position := d.position.flatMap (positionRotations m)
    context := d.context.map (fun cs => cs.flatMap (fun c => List.replicate m c)) }

/-- `jnp.array([0, 2, 1])[i]`: negative indices count from the end, others are clamped. -/
def reflectIndex (i : ℤ) : ℤ :=
  let i := if i < 0 then i + 3 else i
  [0, 2, 1].getD (min (max i 0) 2).toNat 0

/-- data_utils.py:102-103: the label of the reflection. -/
def reflectState (s : ℤ) : ℤ := (reflectIndex (s - 1) + 1) * isign s

/-- data_utils.py:96-97: the matrix product swaps the second and third rate; it raises unless there
are three. -/
def reflectRates : List ℝ → Except Err (List ℝ)
  | [a, b, c] => .ok [a, c, b]
  | _ => .error .typeError

/-- data_utils.py:99-100. -/
def reflectPosition (p : V2 ℝ) : V2 ℝ := ⟨p.x, -p.y⟩

/-- data_utils.py:85-108 `reflect_transition`, `reflect_dataset`. -/
noncomputable def reflectDataset (d : RateData) : Except Err RateData :=
  if !d.aligned then .error .valueError
  else match d.rates.mapM reflectRates with
    | .error e => .error e
    | .ok rates => .ok {
        states := d.states.map reflectState
        dt := d.dt
        rates := rates
        position := d.position.map reflectPosition
        context := d.context }

/-- data_utils.py:365-374: the data set followed by its reflection. -/
def RateData.append (a b : RateData) : RateData where
  states := a.states ++ b.states
  dt := a.dt ++ b.dt
  rates := a.rates ++ b.rates
  position := a.position ++ b.position
  context := match a.context, b.context with
    | some x, some y => some (x ++ y)
    | _, _ => none

/-- data_utils.py:355-386 `augment_data`. -/
noncomputable def augmentData (refl : Bool) (m : ℕ) (d : RateData) : Except Err RateData :=
  if refl then
    match reflectDataset d with
    | .error e => .error e
    | .ok r => rotateDataset m (d.append r)
  else rotateDataset m d

end PD
