/- Model of names: of uploaded data sets (pipeline/upload_microscope_data.py:194-251) and of parameters in
checkpoints (graph_alignment/train.py:57-91).  Strings are lists of characters. -/
import Verif.Model.Basic

namespace PD

/-- `[A-Z]`. -/
def isUp (c : Char) : Bool := decide ('A' ≤ c) && decide (c ≤ 'Z')
/-- `[a-z]`. -/
def isLow (c : Char) : Bool := decide ('a' ≤ c) && decide (c ≤ 'z')
/-- `\d`, for ASCII. -/
def isDig (c : Char) : Bool := decide ('0' ≤ c) && decide (c ≤ '9')

/-- `re.sub(r'([A-Z]+)([A-Z][a-z])', r'\1_\2', word)`: an underscore before a capital that follows a capital and
comes before a small letter. -/
def splitAcronyms : Option Char → List Char → List Char
  | _, [] => []
  | prev, c :: cs =>
    let here := match prev, cs with
      | some p, n :: _ => isUp p && isUp c && isLow n
      | _, _ => false
    (if here then ['_', c] else [c]) ++ splitAcronyms (some c) cs

/-- `re.sub(r'([a-z\d])([A-Z])', r'\1_\2', word)`: an underscore between a small letter or digit and a capital. -/
def splitWords : Option Char → List Char → List Char
  | _, [] => []
  | prev, c :: cs =>
    let here := match prev with
      | some p => (isLow p || isDig p) && isUp c
      | none => false
    (if here then ['_', c] else [c]) ++ splitWords (some c) cs

/-- `inflection.underscore` (not in the repository; its published definition, for ASCII). -/
def underscore (w : List Char) : List Char :=
  ((splitWords none (splitAcronyms none w)).map (fun c => if c = '-' then '_' else c)).map Char.toLower

/-- `name.rfind('.')`. -/
def rfindDot (name : List Char) : Option ℕ :=
  (name.reverse.findIdx? (fun c => c == '.')).map (fun j => name.length - 1 - j)

/-- `pathlib.Path(name).with_suffix(suffix)` for a name without slashes: what follows the last dot is replaced,
unless the dot is the first or last character. -/
def withSuffix (name suffix : List Char) : Except Err (List Char) :=
  if name = [] then .error .valueError
  else
    match rfindDot name with
    | none => .ok (name ++ suffix)
    | some i => if 0 < i ∧ i + 1 < name.length then .ok (name.take i ++ suffix) else .ok (name ++ suffix)

/-- The characters of `.riegeli`. -/
def riegeli : List Char := ['.', 'r', 'i', 'e', 'g', 'e', 'l', 'i']

/-- upload_microscope_data.py:215-222: the name for the parts of a relative path. -/
def uploadName (parts : List (List Char)) : Except Err (List Char) :=
  withSuffix (List.intercalate ['-'] (parts.map underscore)) riegeli

/-- upload_microscope_data.py:213-251: the loop over data sets.  `load` is `load_dataset`, whose `ValueError` is
reported and skipped; `convert` the rest up to the bytes.  The bucket maps names to bytes. -/
def uploadAll {D T : Type} (load : List (List Char) → Except Err D) (convert : D → Except Err T) :
    List (List (List Char)) → (List Char → Option T) → Except Err (List Char → Option T)
  | [], bucket => .ok bucket
  | path :: rest, bucket =>
    match uploadName path with
    | .error e => .error e
    | .ok name =>
      match load path with
      | .error .valueError => uploadAll load convert rest bucket
      | .error e => .error e
      | .ok d =>
        match convert d with
        | .error e => .error e
        | .ok t => uploadAll load convert rest (fun n => if n = name then some t else bucket n)

/-! ### Parameter names -/

/-- The loop of `str.replace`, with `skip` characters of a match still to pass. -/
def replaceGo (old new : List Char) : ℕ → List Char → List Char
  | _, [] => []
  | skip + 1, _ :: cs => replaceGo old new skip cs
  | 0, c :: cs =>
    if old.isPrefixOf (c :: cs) then new ++ replaceGo old new (old.length - 1) cs
    else c :: replaceGo old new 0 cs

/-- `s.replace(old, new)` for `old` not empty: occurrences from left to right. -/
def pyReplace (old new s : List Char) : List Char := replaceGo old new 0 s

/-- Setting an entry of a Python dictionary: in its place if the key is there, at the end otherwise. -/
def dictSet {V : Type} (d : List (List Char × V)) (k : List Char) (v : V) : List (List Char × V) :=
  if k ∈ d.map Prod.fst then d.map (fun e => if e.1 = k then (k, v) else e) else d ++ [(k, v)]

/-- `{f(k): v for k, v in d.items()}`. -/
def rekey {V : Type} (f : List Char → List Char) (d : List (List Char × V)) : List (List Char × V) :=
  d.foldl (fun acc e => dictSet acc (f e.1) e.2) []

/-- A field of an entry of the optimiser's state: a dictionary or something else. -/
inductive OptField (V : Type) where
  | dict (d : List (List Char × V))
  | other (v : V)

/-- An entry of the optimiser's state: a named tuple or something else. -/
inductive OptEntry (V : Type) where
  | named (fields : List (OptField V))
  | plain (v : V)

/-- The parts of a training state that `sanitize_state_keys` touches. -/
structure NamedState (V : Type) where
  params : List (List Char × V)
  optState : List (OptEntry V)

/-- graph_alignment/train.py:81-84. -/
def OptField.rekey {V : Type} (f : List Char → List Char) : OptField V → OptField V
  | .dict d => .dict (PD.rekey f d)
  | .other v => .other v

/-- graph_alignment/train.py:75-87. -/
def OptEntry.rekey {V : Type} (f : List Char → List Char) : OptEntry V → OptEntry V
  | .named fields => .named (fields.map (OptField.rekey f))
  | .plain v => .plain v

/-- graph_alignment/train.py:71-89: one round. -/
def NamedState.rekey {V : Type} (f : List Char → List Char) (s : NamedState V) : NamedState V :=
  ⟨PD.rekey f s.params, s.optState.map (OptEntry.rekey f)⟩

/-- graph_alignment/train.py:57-91 `sanitize_state_keys`. -/
def sanitizeStateKeys {V : Type} (replacements : List (List Char × List Char)) (s : NamedState V) : NamedState V :=
  replacements.foldl (fun s r => s.rekey (pyReplace r.1 r.2)) s

/-- The characters of `dummy_slash`. -/
def dummySlash : List Char := ['d', 'u', 'm', 'm', 'y', '_', 's', 'l', 'a', 's', 'h']
/-- The characters of `dummy_tilde`. -/
def dummyTilde : List Char := ['d', 'u', 'm', 'm', 'y', '_', 't', 'i', 'l', 'd', 'e']

/-- graph_alignment/train.py:427-429 and 447-449: before saving. -/
def cleanState {V : Type} (s : NamedState V) : NamedState V :=
  sanitizeStateKeys [(['/'], dummySlash), (['~'], dummyTilde)] s

/-- graph_alignment/train.py:367-369: after restoring. -/
def uncleanState {V : Type} (s : NamedState V) : NamedState V :=
  sanitizeStateKeys [(dummySlash, ['/']), (dummyTilde, ['~'])] s

end PD
