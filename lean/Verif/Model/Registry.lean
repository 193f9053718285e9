/- Model of the tables of experiments (experiments/registry.py). -/
import Verif.Model.Basic

namespace PD

/-- The three module-level tables, registry.py:262-468.  Frozen dictionaries are lists of pairs with
different names. -/
structure Registry (Mic Train Eval : Type) where
  microscope : List (String × Mic)
  train : List (String × Train)
  eval : List (String × Eval)

variable {Mic Train Eval : Type}

/-- registry.py:471-478 `register_eval_experiment`. -/
def Registry.registerEval (r : Registry Mic Train Eval) (name : String) (e : Eval) : Registry Mic Train Eval :=
  if (r.eval.lookup name).isNone then { r with eval := (name, e) :: r.eval } else r

/-- registry.py:481-496 `create_*_experiment` on one table. -/
def createFrom {E : Type} (table : List (String × E)) (name : String) : Except Err E :=
  match table.lookup name with
  | none => .error .valueError
  | some e => .ok e

/-- registry.py:481-484. -/
def Registry.createMicroscope (r : Registry Mic Train Eval) : String → Except Err Mic := createFrom r.microscope
/-- registry.py:487-490. -/
def Registry.createTrain (r : Registry Mic Train Eval) : String → Except Err Train := createFrom r.train
/-- registry.py:493-496. -/
def Registry.createEval (r : Registry Mic Train Eval) : String → Except Err Eval := createFrom r.eval

/-- Any sequence of registrations. -/
def Registry.registerAll (r : Registry Mic Train Eval) (rs : List (String × Eval)) : Registry Mic Train Eval :=
  rs.foldl (fun r x => r.registerEval x.1 x.2) r

end PD
