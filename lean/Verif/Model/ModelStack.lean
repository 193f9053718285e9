/-
Model of how the networks of a learned rate predictor are kept in one tree of arrays and taken out of it again
(rate_learning/learn_rates.py:76-77, 671-732).

The parameters and the state of a network are dictionaries of dictionaries of arrays.  They are modelled by the list of their
arrays with the names of module and parameter, in the order in which JAX goes through them (sorted by name).
-/
import Verif.Model.Learn

namespace PD

/-- An array: its shape, and its entries in the order of memory. -/
@[ext] structure NdArray where
  shape : List ℕ
  data : List ℝ

/-- The parameters or the state of a network: module, name and array. -/
abbrev NetTree := List ((String × String) × NdArray)

/-- `jnp.stack(x, 0)`, which raises `ValueError` for no arrays and for arrays of several shapes. -/
def stackArrays : List NdArray → Except Err NdArray
  | [] => .error .valueError
  | a :: as =>
    if as.all (fun b => decide (b.shape = a.shape)) then
      .ok ⟨(a :: as).length :: a.shape, ((a :: as).map NdArray.data).flatten⟩
    else .error .valueError

/-- `jax.tree_util.tree_map` in learn_rates.py:77, for trees with the same names: array by array. -/
def stackLeaves : List (String × String) → List (List NdArray) → Except Err NetTree
  | [], _ => .ok []
  | name :: names, trees =>
    match stackArrays (trees.filterMap List.head?) with
    | .error e => .error e
    | .ok a =>
      match stackLeaves names (trees.map List.tail) with
      | .error e => .error e
      | .ok rest => .ok ((name, a) :: rest)

/-- learn_rates.py:76-77 `tree_stack`.  `tree_map` without a tree is a `TypeError`; trees with other names than the first are
a `ValueError`. -/
def treeStack : List NetTree → Except Err NetTree
  | [] => .error .typeError
  | t :: ts =>
    if ts.all (fun u => decide (u.map Prod.fst = t.map Prod.fst)) then
      stackLeaves (t.map Prod.fst) ((t :: ts).map (fun u => u.map Prod.snd))
    else .error .valueError

/-- The row that JAX reads of `n` rows for an index that is not known when the function is compiled: negative indices count
from the end, and what is still outside is moved to the nearest row. -/
def jaxIndex (n : ℕ) (i : ℤ) : ℕ :=
  let j := if i < 0 then i + n else i
  (max 0 (min j ((n : ℤ) - 1))).toNat

/-- `x[model_index]` in a compiled function.  A number has no rows (`IndexError`). -/
def NdArray.row (i : ℤ) (a : NdArray) : Except Err NdArray :=
  match a.shape with
  | [] => .error .indexError
  | n :: rest => .ok ⟨rest, (a.data.drop (jaxIndex n i * rest.prod)).take rest.prod⟩

/-- learn_rates.py:698, 699: `tree_map(lambda x: x[model_index], …)`. -/
def pickModel (i : ℤ) : NetTree → Except Err NetTree
  | [] => .ok []
  | (name, a) :: rest =>
    match a.row i with
    | .error e => .error e
    | .ok b =>
      match pickModel i rest with
      | .error e => .error e
      | .ok t => .ok ((name, b) :: t)

/-- The number of networks that `jax.vmap` finds in the arrays (learn_rates.py:689): all must have the same first axis. -/
def vmapSize (arrays : NetTree) : Except Err ℕ :=
  match arrays.map (fun l => l.2.shape.head?) with
  | some n :: rest => if rest.all (fun m => decide (m = some n)) then .ok n else .error .valueError
  | _ => .error .valueError

/-- learn_rates.py:694-700 `call_single_model`.  `net` is the network's output for parameters, state and context when it is not
being trained; it does not depend on the key then, since there is no dropout. -/
def callSingle (net : NetTree → NetTree → List ℝ → List ℝ) (i : ℤ) (params state : NetTree) (x : List ℝ) :
    Except Err (List ℝ) :=
  match pickModel i params with
  | .error e => .error e
  | .ok p =>
    match pickModel i state with
    | .error e => .error e
    | .ok s => .ok (net p s x)

/-- The calls of `jax.vmap`, one for each network. -/
def callEach (net : NetTree → NetTree → List ℝ → List ℝ) (params state : NetTree) (x : List ℝ) :
    List ℕ → Except Err (List (List ℝ))
  | [] => .ok []
  | i :: is =>
    match callSingle net i params state x with
    | .error e => .error e
    | .ok out =>
      match callEach net params state x is with
      | .error e => .error e
      | .ok outs => .ok (out :: outs)

/-- learn_rates.py:687-692 `batch_call`. -/
def batchCall (net : NetTree → NetTree → List ℝ → List ℝ) (params state : NetTree) (x : List ℝ) :
    Except Err (List (List ℝ)) :=
  match vmapSize (params ++ state) with
  | .error e => .error e
  | .ok n => callEach net params state x (List.range n)

/-- learn_rates.py:704-732 `apply_model` for one context, with the choice of a network.  The key is left out. -/
noncomputable def applyChosen (net : NetTree → NetTree → List ℝ → List ℝ) (states : ℕ) (params state : NetTree) (x : List ℝ) :
    Option ℤ → Except Err (List ℝ)
  | none =>
    match batchCall net params state x with
    | .error e => .error e
    | .ok outs => .ok (applyModel states outs)
  | some i =>
    match callSingle net i params state x with
    | .error e => .error e
    | .ok out => .ok (applyModel states [out])

end PD
