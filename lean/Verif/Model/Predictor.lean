/- Model of the learned predictor as an object with a history: training, packaging, saving, loading and
predicting (rate_learning/learn_rates.py).  A network takes a context and gives its raw outputs. -/
import Verif.Model.Learn

namespace PD

/-- The configuration entries `predict` reads (learn_rates.py:958-961). -/
structure PredictorCfg where
  useVoltage : Bool
  useCurrent : Bool
  deriving DecidableEq

/-- learn_rates.py:884-923: the packaged model.  Tracing it, at the first call or when saving, fixes the
parameters of that moment: `traced`.  `inputDim` is the length of the contexts it accepts; `loaded` says
whether it was read back from disk. -/
structure Packaged where
  fixed : List ℝ
  inputDim : ℕ
  traced : Option (List ℝ → List ℝ)
  loaded : Bool

/-- learn_rates.py:659-702: the attributes of a predictor that calls change.  `params` and `state` are
those of the whole ensemble.  Random keys only matter for dropout during training and are left out; so is
the shape of the parameter tree, which is taken to be the same for every predictor. -/
structure Predictor (P S : Type) where
  params : P
  state : S
  contextDim : ℕ
  packaged : Option Packaged
  cfg : PredictorCfg

/-- What `save` leaves in a directory: checkpoints by step, the saved model and the configuration. -/
structure SavedDir (P : Type) where
  ckpt : ℕ → Option P
  model : Option Packaged
  cfg : Option PredictorCfg

/-- Directories by name. -/
abbrev Disk (P : Type) := String → SavedDir P

/-- A predictor and the disk it saves to and loads from. -/
structure PredSystem (P S : Type) where
  pred : Predictor P S
  disk : Disk P

/-- `disk[dir]` replaced. -/
def Disk.put {P : Type} (disk : Disk P) (dir : String) (d : SavedDir P) : Disk P :=
  fun n => if n = dir then d else disk n

section
variable {P S : Type}

/-- learn_rates.py:659-702 `__init__`. -/
def Predictor.fresh (params : P) (state : S) (cfg : PredictorCfg) : Predictor P S :=
  { params := params, state := state, packaged := none, cfg := cfg
    contextDim := 2 + (if cfg.useCurrent then 1 else 0) + (if cfg.useVoltage then 1 else 0) }

/-- learn_rates.py:734-776 `train` and 778-825 `distill`: new parameters and state; what optimisation gives
is left open. -/
def Predictor.trained (params : P) (state : S) (s : Predictor P S) : Predictor P S :=
  { s with params := params, state := state }

/-- learn_rates.py:884-923 `package_model`.  A negative dimension is refused. -/
def Predictor.package (fixed : Option (List ℝ)) (s : Predictor P S) : Except Err (Predictor P S) :=
  let fixed := fixed.getD []
  if s.contextDim < fixed.length then .error .valueError
  else .ok { s with packaged := some ⟨fixed, s.contextDim - fixed.length, none, false⟩ }

/-- learn_rates.py:948-949: `if not hasattr(self, 'packaged_model'): self.package_model()`. -/
def Predictor.ensurePackaged (s : Predictor P S) : Except Err (Predictor P S) :=
  match s.packaged with
  | some _ => .ok s
  | none => s.package none

/-- Tracing the packaged model: the axis of the models must have length one (learn_rates.py:900-903). -/
def Packaged.trace (nets : List (List ℝ → List ℝ)) (m : Packaged) : Except Err Packaged :=
  match m.traced with
  | some _ => .ok m
  | none =>
    match nets with
    | [net] => .ok { m with traced := some net }
    | _ => .error .valueError

/-- learn_rates.py:827-857 `save`: the checkpoint is written first, then the model is packaged, traced and
written, then the configuration.  `nets` are the networks of the ensemble. -/
def PredSystem.save (nets : P → S → List (List ℝ → List ℝ)) (dir : String) (step : ℕ)
    (fixed : Option (List ℝ)) : EStateM Err (PredSystem P S) Unit := fun s =>
  let d := s.disk dir
  let d1 := { d with ckpt := fun n => if n = step then some s.pred.params else d.ckpt n }
  let s1 : PredSystem P S := { s with disk := s.disk.put dir d1 }
  match s.pred.package fixed with
  | .error e => .error e s1
  | .ok pred =>
    match pred.packaged with
    | none => .error .attributeError { s1 with pred := pred }
    | some m =>
      match m.trace (nets pred.params pred.state) with
      | .error e => .error e { s1 with pred := pred }
      | .ok m' => .ok () ⟨{ pred with packaged := some m' },
          s.disk.put dir { d1 with model := some m', cfg := some pred.cfg }⟩

/-- learn_rates.py:859-882 `load`.  The network's state is not part of what is read.  The model is read as
a saved model, which can be called. -/
def PredSystem.load (dir : String) (step : ℕ) (loadParams loadConfig : Bool) :
    EStateM Err (PredSystem P S) Unit := fun s =>
  let d := s.disk dir
  let afterParams : Option (PredSystem P S) :=
    if loadParams then (d.ckpt step).map (fun p => { s with pred := { s.pred with params := p } }) else some s
  match afterParams with
  | none => .error .notFound s
  | some s1 =>
    match d.model with
    | none => .error .notFound s1
    | some m =>
      let s2 : PredSystem P S := { s1 with pred := { s1.pred with packaged := some { m with loaded := true } } }
      if loadConfig then
        match d.cfg with
        | none => .error .notFound s2
        | some c => .ok () { s2 with pred := { s2.pred with cfg := c } }
      else .ok () s2

/-- What `predict` is called with. -/
structure PredictArgs where
  grid : Grid ℝ
  beam : V2 ℝ
  current : V2 ℝ
  idx : List ℕ

/-- learn_rates.py:925-972 `predict`: package if that never happened, compute the context, call the packaged
model (which is traced if it was not), and put the rates in the given order.  A context of another length
than the packaged model's is refused.

`direct` says whether a module that was packaged in this process can be called.  `package_model` stores the
function as the attribute `__call__` of one `tf.Module` instance, and Python looks `__call__` up on the
class, so with CPython it is `false` and the call is a `TypeError`; only modules read back from disk can be
called.  The theorems are for both values. -/
noncomputable def PredSystem.predict (direct : Bool) (nets : P → S → List (List ℝ → List ℝ))
    (a : PredictArgs) : EStateM Err (PredSystem P S) (List ℝ) := fun s =>
  match s.pred.ensurePackaged with
  | .error e => .error e s
  | .ok pred =>
    match predictInput pred.cfg.useVoltage pred.cfg.useCurrent a.grid a.beam a.current a.idx with
    | .error e => .error e { s with pred := pred }
    | .ok (x, order) =>
      match pred.packaged with
      | none => .error .attributeError { s with pred := pred }
      | some m =>
        if m.loaded = false ∧ direct = false then .error .typeError { s with pred := pred }
        else if m.inputDim ≠ 2 then .error .valueError { s with pred := pred }
        else
          match m.trace (nets pred.params pred.state) with
          | .error e => .error e { s with pred := pred }
          | .ok m' =>
            let s' := { s with pred := { pred with packaged := some m' } }
            match m'.traced with
            | none => .error .attributeError s'
            | some net =>
              match takeRows (net (m'.fixed ++ [x.x, x.y])) (argsort order) with
              | .error e => .error e s'
              | .ok rates => .ok rates s'

/-- learn_rates.py:704-732 `apply_model` on one context, for the whole ensemble. -/
noncomputable def Predictor.applyModel (nets : P → S → List (List ℝ → List ℝ)) (s : Predictor P S) (states : ℕ)
    (x : List ℝ) : List ℝ :=
  PD.applyModel states ((nets s.params s.state).map (fun net => net x))

/-- The calls a history is made of. -/
inductive PredOp (P S : Type) where
  | train (params : P) (state : S)
  | save (dir : String) (step : ℕ) (fixed : Option (List ℝ))
  | load (dir : String) (step : ℕ) (loadParams loadConfig : Bool)
  | predict (args : PredictArgs)

/-- One call; an exception leaves the state as it was at the exception. -/
noncomputable def PredSystem.run1 (direct : Bool) (nets : P → S → List (List ℝ → List ℝ)) (s : PredSystem P S) :
    PredOp P S → PredSystem P S
  | .train p st => { s with pred := s.pred.trained p st }
  | .save dir step fixed =>
    match PredSystem.save nets dir step fixed s with | .ok _ s' => s' | .error _ s' => s'
  | .load dir step lp lc =>
    match PredSystem.load dir step lp lc s with | .ok _ s' => s' | .error _ s' => s'
  | .predict a =>
    match PredSystem.predict direct nets a s with | .ok _ s' => s' | .error _ s' => s'

/-- A history of calls. -/
noncomputable def PredSystem.run (direct : Bool) (nets : P → S → List (List ℝ → List ℝ)) (s : PredSystem P S)
    (ops : List (PredOp P S)) : PredSystem P S :=
  ops.foldl (PredSystem.run1 direct nets) s

end
end PD
