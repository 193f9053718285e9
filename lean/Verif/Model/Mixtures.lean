/- Sampling, comparing, saving and loading mixtures of Gaussians (graphene.py). -/
import Verif.Model.Rates

namespace PD

/-- graphene.py:279-287 the fields of `GaussianMixtureRateFunction`: the arrays themselves, of any lengths. -/
structure GmmParams where
  maxRate : ℝ
  weights : List ℝ
  locDistances : List ℝ
  variances : List (V2 ℝ)

/-- The rows that `__call__` reads when the three arrays have the same length (graphene.py:316, 357-384). -/
def GmmParams.toGmm (p : GmmParams) : Gmm :=
  ⟨p.maxRate, ((p.weights.zip p.locDistances).zip p.variances).map (fun r => ⟨r.1.1, r.1.2, r.2⟩)⟩

/-- `rng.uniform(lo, hi, size=(n,))`: independent draws in order. -/
def uniforms {K G : Type} (rng : Rng K G) (lo hi : K) : ℕ → G → List K × G
  | 0, g => ([], g)
  | n + 1, g =>
    let (x, g1) := rng.uniform lo hi g
    let (xs, g2) := uniforms rng lo hi n g1
    (x :: xs, g2)

/-- `rng.uniform(lo, hi, size=(n, 2))`: the rows one after the other. -/
def uniformRows {K G : Type} (rng : Rng K G) (lo hi : K) : ℕ → G → List (V2 K) × G
  | 0, g => ([], g)
  | n + 1, g =>
    let (x, g1) := rng.uniform lo hi g
    let (y, g2) := rng.uniform lo hi g1
    let (rows, g3) := uniformRows rng lo hi n g2
    (⟨x, y⟩ :: rows, g3)

/-- graphene.py:429-445 `sample_new`.  `poisson` is `rng.poisson(lam)`.  The weights are divided by their sum; if all
of them were drawn as zero, they become NaNs (`none`). -/
noncomputable def sampleNew {G : Type} (rng : Rng ℝ G) (poisson : ℝ → G → ℕ × G) (g : G) : Option GmmParams × G :=
  let (k, g1) := poisson 2 g
  let numMixtures := k + 1
  let (maxRate, g2) := rng.uniform (1 / 100) 1 g1
  let (raw, g3) := uniforms rng 0 10 numMixtures g2
  let (locs, g4) := uniforms rng (-2) 3 numMixtures g3
  let (variances, g5) := uniformRows rng (1 / 10) 5 numMixtures g4
  if raw.sum = 0 then (none, g5)
  else (some ⟨maxRate, raw.map (fun w => w / raw.sum), locs, variances⟩, g5)

/-- `not (np.abs(a - b) > 1e-3).any()` for arrays of the same length. -/
noncomputable def allClose (a b : List ℝ) : Bool :=
  (a.zip b).all (fun p => !decide (|p.1 - p.2| > 1 / 1000))

/-- graphene.py:447-462 `__eq__`. -/
noncomputable def GmmParams.eq (a b : GmmParams) : Bool :=
  if a.weights.length ≠ b.weights.length ∨ a.locDistances.length ≠ b.locDistances.length ∨
      a.variances.length ≠ b.variances.length ∨ |a.maxRate - b.maxRate| > 1 / 1000 ∨
      allClose a.weights b.weights = false ∨ allClose a.locDistances b.locDistances = false ∨
      allClose (a.variances.map (·.x)) (b.variances.map (·.x)) = false ∨
      allClose (a.variances.map (·.y)) (b.variances.map (·.y)) = false
  then false else true

/-- What `msgpack_numpy` packs here: strings, floats and float arrays. -/
inductive Packable where
  | str (s : String)
  | num (x : ℝ)
  | vec (v : List ℝ)
  | rows (v : List (V2 ℝ))

/-- A dictionary in insertion order. -/
abbrev Bundle := List (String × Packable)

/-- `msgpack.packb` and `msgpack.unpackb`: reading back gives what was written. -/
structure MsgPack (Bytes : Type) where
  packb : Bundle → Bytes
  unpackb : Bytes → Except Err Bundle
  round : ∀ b, unpackb (packb b) = .ok b

/-- The files of the parameter directories, by directory and file name. -/
abbrev ParamFiles (Bytes : Type) := String → String → Option Bytes

/-- graphene.py:392-409 `serialize_to_directory`. -/
def GmmParams.serialize {Bytes : Type} (m : MsgPack Bytes) (p : GmmParams) (dir : String) (fs : ParamFiles Bytes) :
    ParamFiles Bytes :=
  let bundle : Bundle := [("sem_ver", .str "1.0.0"), ("max_rate", .num p.maxRate),
    ("mixture_weights", .vec p.weights), ("loc_distances", .vec p.locDistances), ("variances", .rows p.variances)]
  fun d f => if d = dir ∧ f = "gmm_parameters.mpk" then some (m.packb bundle) else fs d f

/-- `bundle[key]`; a missing key is a `KeyError` (`notFound`). -/
def Bundle.get (b : Bundle) (key : String) : Except Err Packable :=
  match b.lookup key with
  | some v => .ok v
  | none => .error .notFound

/-- graphene.py:411-427 `deserialize_from_directory`.  A missing file raises `FileNotFoundError` (`notFound`).  Python
does not look at the types of the entries; entries of other types than those saved are a `TypeError` here. -/
def deserialize {Bytes : Type} (m : MsgPack Bytes) (dir : String) (fs : ParamFiles Bytes) : Except Err GmmParams :=
  match fs dir "gmm_parameters.mpk" with
  | none => .error .notFound
  | some bytes =>
    match m.unpackb bytes with
    | .error e => .error e
    | .ok bundle =>
      match bundle.get "max_rate", bundle.get "mixture_weights", bundle.get "loc_distances", bundle.get "variances" with
      | .ok (.num r), .ok (.vec w), .ok (.vec l), .ok (.rows v) => .ok ⟨r, w, l, v⟩
      | .error e, _, _, _ => .error e
      | _, .error e, _, _ => .error e
      | _, _, .error e, _ => .error e
      | _, _, _, .error e => .error e
      | _, _, _, _ => .error .typeError

end PD
