/-
Shared vocabulary of the model: numbers, planar vectors, times, errors.

Numbers are elements of an arbitrary linear ordered field `K`
(examples use `ℚ`, trigonometric code uses `ℝ`).  Float rounding is not modelled.
-/
import Mathlib.Tactic.Ring
import Mathlib.Tactic.Linarith
import Mathlib.Tactic.FieldSimp
import Mathlib.Tactic.Positivity
import Mathlib.Tactic.NormNum
import Mathlib.Algebra.Order.Floor.Ring
import Mathlib.Algebra.Field.Rat
import Mathlib.Data.Rat.Floor

namespace PD

/-- constants.py:20 `CARBON = 6`. -/
def CARBON : ℤ := 6
/-- constants.py:21 `SILICON = 14`. -/
def SILICON : ℤ := 14
/-- constants.py:23 `CARBON_BOND_DISTANCE_ANGSTROMS = 1.42` (as an exact rational). -/
def BOND {K : Type} [Field K] : K := 142 / 100

/-- Python exceptions that the modelled code can raise.  `diverges` is not a
Python exception: it marks a model loop that used up its iteration bound. -/
inductive Err where
  | runtimeError | valueError | assertionError | siliconNotFound
  | notImplemented | typeError | indexError | zeroDivision | attributeError
  | notFound | diverges
  deriving DecidableEq, Repr

/-- A point / row of an `(n, 2)` array / shapely `Point`
(geometry.py:28 `Point = shapely_geometry.Point`). -/
@[ext] structure V2 (K : Type) where
  x : K
  y : K
  deriving DecidableEq, Repr

namespace V2
variable {K : Type}

instance [Add K] : Add (V2 K) := ⟨fun a b => ⟨a.x + b.x, a.y + b.y⟩⟩
instance [Sub K] : Sub (V2 K) := ⟨fun a b => ⟨a.x - b.x, a.y - b.y⟩⟩
instance [Neg K] : Neg (V2 K) := ⟨fun a => ⟨-a.x, -a.y⟩⟩
instance [Zero K] : Zero (V2 K) := ⟨⟨0, 0⟩⟩
/-- numpy elementwise product of two `(2,)` arrays. -/
instance [Mul K] : Mul (V2 K) := ⟨fun a b => ⟨a.x * b.x, a.y * b.y⟩⟩
/-- numpy elementwise quotient of two `(2,)` arrays. -/
instance [Div K] : Div (V2 K) := ⟨fun a b => ⟨a.x / b.x, a.y / b.y⟩⟩

@[simp] theorem add_x [Add K] (a b : V2 K) : (a + b).x = a.x + b.x := rfl
@[simp] theorem add_y [Add K] (a b : V2 K) : (a + b).y = a.y + b.y := rfl
@[simp] theorem sub_x [Sub K] (a b : V2 K) : (a - b).x = a.x - b.x := rfl
@[simp] theorem sub_y [Sub K] (a b : V2 K) : (a - b).y = a.y - b.y := rfl
@[simp] theorem neg_x [Neg K] (a : V2 K) : (-a).x = -a.x := rfl
@[simp] theorem neg_y [Neg K] (a : V2 K) : (-a).y = -a.y := rfl
@[simp] theorem mul_x [Mul K] (a b : V2 K) : (a * b).x = a.x * b.x := rfl
@[simp] theorem mul_y [Mul K] (a b : V2 K) : (a * b).y = a.y * b.y := rfl
@[simp] theorem div_x [Div K] (a b : V2 K) : (a / b).x = a.x / b.x := rfl
@[simp] theorem div_y [Div K] (a b : V2 K) : (a / b).y = a.y / b.y := rfl
@[simp] theorem zero_x [Zero K] : (0 : V2 K).x = 0 := rfl
@[simp] theorem zero_y [Zero K] : (0 : V2 K).y = 0 := rfl

/-- Squared Euclidean norm, `np.linalg.norm(v)**2`. -/
def normSq [Add K] [Mul K] (a : V2 K) : K := a.x * a.x + a.y * a.y

/-- Squared distance of two points. -/
def distSq [Add K] [Mul K] [Sub K] (a b : V2 K) : K := normSq (a - b)

/-- Scalar broadcast `c * v`. -/
def smul [Mul K] (c : K) (a : V2 K) : V2 K := ⟨c * a.x, c * a.y⟩

/-- numpy broadcasting of a scalar, `np.asarray([c, c])`. -/
def const (c : K) : V2 K := ⟨c, c⟩

@[simp] theorem smul_x [Mul K] (c : K) (a : V2 K) : (smul c a).x = c * a.x := rfl
@[simp] theorem smul_y [Mul K] (c : K) (a : V2 K) : (smul c a).y = c * a.y := rfl
@[simp] theorem const_x (c : K) : (const c).x = c := rfl
@[simp] theorem const_y (c : K) : (const c).y = c := rfl

end V2

/- `dt.timedelta`: an integral number of microseconds.  Python bounds it by
±999999999 days; the bound is not modelled. -/
notation "Timedelta" => Int

/-- Python's `round` to an integer: ties go to the even neighbour. -/
def roundHalfEven {K : Type} [Field K] [LinearOrder K] [FloorRing K] (x : K) : ℤ :=
  let f := ⌊x⌋
  let d := x - f
  if d < 1 / 2 then f
  else if 1 / 2 < d then f + 1
  else if f % 2 = 0 then f else f + 1

/-- `dt.timedelta(seconds=x)`: CPython rounds to the nearest microsecond, half to even. -/
def ofSeconds {K : Type} [Field K] [LinearOrder K] [FloorRing K] (x : K) : Timedelta :=
  roundHalfEven (x * 1000000)

/-- `timedelta.total_seconds()`. -/
def totalSeconds {K : Type} [Field K] (t : Timedelta) : K := (t : K) / 1000000

/-- `np.clip(x, lo, hi)` = `minimum(hi, maximum(x, lo))`. -/
def clip {K : Type} [LinearOrder K] (x lo hi : K) : K := min hi (max x lo)

/-- numpy boolean-mask indexing `xs[mask]` for arrays of equal length
(numpy raises `IndexError` for unequal lengths; the model truncates, and every
theorem about it assumes or proves equal lengths). -/
def maskSelect {α : Type} : List Bool → List α → List α
  | b :: bs, x :: xs => if b then x :: maskSelect bs xs else maskSelect bs xs
  | _, _ => []

/-- `np.argmin` of a non-empty list: index of the first minimum.
numpy raises `ValueError` on an empty array (`none`). -/
def argmin? {K : Type} [LinearOrder K] : List K → Option ℕ
  | [] => none
  | x :: xs =>
    match argmin? xs with
    | none => some 0
    | some i =>
      match xs[i]? with
      | none => some 0
      | some y => if x ≤ y then some 0 else some (i + 1)

end PD
