/- Floating point numbers and numpy's number types, as far as a few computations need them: the probabilities from which
a transition is drawn, and the dwell time of an action.  The other files called Float… use them for the frame
conversions, goals, generated sheets, data points, the simulator, the environment and two of the rate functions.
Everywhere else the model computes exactly. -/
import Verif.Model.Proto
import Verif.Model.Adapters

namespace PD
variable {K : Type} [Field K] [LinearOrder K] [FloorRing K]

/-- The spacing of binary floating point numbers at `x`, for numbers with so many significant bits and exponents from
`emin` on (IEEE 754). -/
def ulpOf (bits emin : ℤ) (x : K) : K := 2 ^ (max (Int.log 2 |x|) emin - (bits - 1))

/-- Rounding to such a number, half to even.  There is no largest number. -/
def roundTo (bits emin : ℤ) (x : K) : K := roundHalfEven (x / ulpOf bits emin x) * ulpOf bits emin x

/-- Rounding to float64, python's `float`.  Numbers beyond the largest are rounded as if there were larger
exponents. -/
def f64 (x : K) : K := roundTo 53 (-1022) x

/-- The two major versions of numpy, which is not pinned (pyproject.toml:26).  They differ in the type of a result
(NEP 50). -/
inductive NumpyVersion where
  | one
  | two
  deriving DecidableEq, Repr

/-- The types `np.float32` and `np.float64`. -/
inductive Precision where
  | single
  | double
  deriving DecidableEq, Repr

/-- Rounding to a type. -/
def Precision.round : Precision → K → K
  | .single, x => f32 x
  | .double, x => f64 x

/-- The type of a sum or product of a numpy scalar and a python number: float64 with numpy 1, the type of the scalar
with numpy 2. -/
def withPythonNumber : NumpyVersion → Precision → Precision
  | .one, _ => .double
  | .two, p => p

/-- The type of a quotient of an array and a numpy scalar: that of the array with numpy 1, the wider one with
numpy 2. -/
def arrayByScalar : NumpyVersion → (array scalar : Precision) → Precision
  | .one, a, _ => a
  | .two, .single, p => p
  | .two, .double, _ => .double

/-- graphene.py:47-49 `Rates.total_rate`: python's `sum` of the rates, which begins with the integer 0. -/
def floatTotalRate (v : NumpyVersion) (p : Precision) (rates : List K) : K :=
  rates.foldl (fun s r => (withPythonNumber v p).round (s + r)) 0

/-- The type of `successor_states_prob` (graphene.py:679-682): an array of float32 over the total rate. -/
def probPrecision (v : NumpyVersion) (p : Precision) : Precision :=
  arrayByScalar v .single (withPythonNumber v p)

/-- graphene.py:679-682: the rates, of the type `p`, are cast to float32 and divided by the total rate.  The rates
are of type float32 if they come from `PristineSingleSiGrRatePredictor` (graphene.py:252) and of type float64 if they
come from `GaussianMixtureRateFunction` (graphene.py:352-377, where scipy's densities are float64). -/
def successorProbs (v : NumpyVersion) (p : Precision) (rates : List K) : List K :=
  let q := probPrecision v p
  rates.map fun r => q.round (q.round (f32 r) / q.round (floatTotalRate v p rates))

/-- numpy's `kahan_sum` (random/_common.pyx): a sum in float64 with the rounding errors carried along. -/
def kahanLoop : List K → (sum c : K) → K
  | [], sum, _ => sum
  | x :: xs, sum, c =>
    let y := f64 (x - c)
    let t := f64 (sum + y)
    kahanLoop xs t (f64 (f64 (t - sum) - y))

/-- numpy's `kahan_sum`, beginning with the first number. -/
def kahanSum : List K → K
  | [] => 0
  | x :: xs => kahanLoop xs x 0

/-- The distance of one from the next number of a type, `np.finfo(dtype).eps`. -/
def Precision.eps : Precision → K
  | .single => 2 ^ (-23 : ℤ)
  | .double => 2 ^ (-52 : ℤ)

/-- The check of `np.random.Generator.choice(n, p=p)`: no probability is negative and they sum to one, up to the
square root of `eps` of their type; otherwise `ValueError`. The tolerance is compared by its square. -/
def checkProbs (q : Precision) (probs : List K) : Except Err Unit :=
  if probs.any (fun x => x < 0) then .error .valueError
  else if q.eps < (kahanSum probs - 1) ^ 2 then .error .valueError
  else .ok ()

/-- graphene.py:678-687, up to the draw: the probabilities handed to `rng.choice`, or its error. -/
def transitionProbs (v : NumpyVersion) (p : Precision) (rates : List K) : Except Err (List K) :=
  match checkProbs (probPrecision v p) (successorProbs v p rates) with
  | .error e => .error e
  | .ok () => .ok (successorProbs v p rates)

/-- `timedelta.total_seconds()`: the quotient of microseconds, rounded once. -/
def floatSeconds (t : Timedelta) : K := f64 ((t : K) / 1000000)

/-- `dt.timedelta(seconds=x)` of a numpy scalar.  A `np.float64` is a python `float`; a `np.float32` is not, and is
refused with `TypeError`.  The whole seconds are kept apart; the rest is multiplied by a million, in float64, and
rounded to whole microseconds, half to even (CPython's `accum`, for numbers that are not negative). -/
def timedeltaOf (p : Precision) (x : K) : Except Err Timedelta :=
  match p with
  | .single => .error .typeError
  | .double => .ok (⌊x⌋ * 1000000 + roundHalfEven (f64 ((x - ⌊x⌋) * 1000000)))

/-- action_adapters.py:183-191 and 256-264: the dwell time, for an action that is an array of the given type. -/
def floatDwell (v : NumpyVersion) (p : Precision) (minDwell maxDwell : Timedelta) (action : List K) :
    Except Err Timedelta :=
  if minDwell = maxDwell then timedeltaOf .double (floatSeconds minDwell : K)
  else
    match action[2]? with
    | none => .error .indexError
    | some a =>
      let q := withPythonNumber v p
      let range : K := f64 (floatSeconds maxDwell - floatSeconds minDwell)
      timedeltaOf q (q.round (q.round (clip a 0 1 * q.round range) + q.round (floatSeconds minDwell)))

end PD
