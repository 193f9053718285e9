/-
Model of how the training scripts spread a batch over the devices
(atom_detection/train.py:128-150, graph_alignment/train.py:238-258, image_alignment/train.py:211-263).

The devices form a line with the axis name 'data'.  What JAX does with a `NamedSharding` on such a mesh is part of the model:
an axis with the name is cut into as many equal pieces as there are devices, an axis without one is on every device.
-/
import Verif.Model.Basic

namespace PD

/-- An entry of a `PartitionSpec`: the name 'data', or `None`. -/
inductive Part where
  | data | whole
  deriving DecidableEq, Repr

/-- `_pspec_with_data_leading_axis` (atom_detection/train.py:133-138, graph_alignment/train.py:243-248,
image_alignment/train.py:222-227): 'data', then `None` `len(spec.shape) - 1` times, where `range(-1)` is empty. -/
def batchParts (rank : ℕ) : List Part := .data :: List.replicate (rank - 1) .whole

/-- `_pspec_with_none_leading_axis` (image_alignment/train.py:229-237): no entry for a number, else `None` for each axis. -/
def stateParts (rank : ℕ) : List Part := if rank = 0 then [] else List.replicate rank .whole

/-- The piece of an axis of length `n` that device `k` of `devices` gets: from the first number up to, not including, the
second.  JAX raises `ValueError` if the axis cannot be cut evenly. -/
def axisPiece (devices k : ℕ) : Part → ℕ → Except Err (ℕ × ℕ)
  | .data, n => if n % devices = 0 then .ok (k * (n / devices), (k + 1) * (n / devices)) else .error .valueError
  | .whole, n => .ok (0, n)

/-- The piece of an array of the given shape on device `k`.  JAX raises `ValueError` if there are more entries than axes; axes
without an entry are whole. -/
def arrayPiece (devices k : ℕ) : List Part → List ℕ → Except Err (List (ℕ × ℕ))
  | [], shape => .ok (shape.map (fun n => (0, n)))
  | _ :: _, [] => .error .valueError
  | part :: parts, n :: shape =>
    match axisPiece devices k part n with
    | .error e => .error e
    | .ok piece =>
      match arrayPiece devices k parts shape with
      | .error e => .error e
      | .ok pieces => .ok (piece :: pieces)

/-- `make_batch_sharding(train_ds.element_spec)` and `jax.device_put` of a batch with it (atom_detection/train.py:140-150 and
201-205, graph_alignment/train.py:250-258 and 292-296): what device `k` gets of each array.  The arrays have as many axes as
the specification of the dataset says. -/
def putBatch (devices k : ℕ) : List (List ℕ) → Except Err (List (List (ℕ × ℕ)))
  | [] => .ok []
  | shape :: shapes =>
    match arrayPiece devices k (batchParts shape.length) shape with
    | .error e => .error e
    | .ok piece =>
      match putBatch devices k shapes with
      | .error e => .error e
      | .ok pieces => .ok (piece :: pieces)

/-- The state of the training with `state_sharding` (image_alignment/train.py:243-246 and 258-261, used in 370-383). -/
def putState (devices k : ℕ) : List (List ℕ) → Except Err (List (List (ℕ × ℕ)))
  | [] => .ok []
  | shape :: shapes =>
    match arrayPiece devices k (stateParts shape.length) shape with
    | .error e => .error e
    | .ok piece =>
      match putState devices k shapes with
      | .error e => .error e
      | .ok pieces => .ok (piece :: pieces)

end PD
