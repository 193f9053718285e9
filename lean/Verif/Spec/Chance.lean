/- The chances of what happens under the beam. -/
import Verif.Spec.Jumps
import Mathlib.Probability.Distributions.Exponential

namespace PD.Spec
open PD MeasureTheory ProbabilityTheory

/-- A perfect generator: its state is distributed by `μ`; a waiting time is exponentially distributed (with
mean zero it is whatever it is), an index has the
probabilities asked for, and after either draw the state is distributed by `μ` again, independently of what was
drawn. -/
structure Fair {G : Type} [MeasurableSpace G] (rng : Rng ℝ G) (μ : Measure G) : Prop where
  total : μ Set.univ = 1
  waits_measurable : ∀ mean : ℝ, 0 < mean → Measurable (rng.exponential mean)
  waits : ∀ mean : ℝ, 0 < mean → ∀ A : Set ℝ, MeasurableSet A → ∀ E : Set G, MeasurableSet E →
    μ {g | (rng.exponential mean g).1 ∈ A ∧ (rng.exponential mean g).2 ∈ E} = expMeasure (1 / mean) A * μ E
  pause_measurable : Measurable (fun g => (rng.exponential 0 g).2)
  pause : ∀ E : Set G, MeasurableSet E → μ {g | (rng.exponential 0 g).2 ∈ E} = μ E
  picks_measurable : ∀ ps : List ℝ, Measurable (rng.choiceP ps)
  picks : ∀ ps : List ℝ, (∀ p ∈ ps, 0 ≤ p) → ps.sum = 1 → ∀ i : ℕ, ∀ E : Set G, MeasurableSet E →
    μ {g | (rng.choiceP ps g).1 = i ∧ (rng.choiceP ps g).2 ∈ E} = ENNReal.ofReal (ps.getD i 0) * μ E

/-- The probability that nothing happens for `n` microseconds when things happen with the rate `R` per second and times
are rounded to microseconds. -/
noncomputable def quietProb (R : ℝ) (n : ℤ) : ℝ :=
  if n ≤ 0 then 1 else Real.exp (-(R * ((n - 1 / 2) / 1000000)))

/-- The probability that the next event comes after `n` microseconds. -/
noncomputable def waitProb (R : ℝ) (n : ℤ) : ℝ := quietProb R n - quietProb R (n + 1)

/-- The seconds within which an event counts when the beam is held for `dwell` microseconds: half a microsecond more, as
the times of events are rounded. -/
noncomputable def exposure (dwell : Timedelta) : ℝ := (dwell + 1 / 2) / 1000000

open Classical in
/-- The probability that the next event makes the sheet `next`. -/
noncomputable def shareOf (ss : List (Successor ℝ)) (next : Grid ℝ) : ℝ :=
  ((ss.map (fun y => if y.grid = next then y.rate / sumRates ss else 0)).sum)

open Classical in
/-- The probability of the history `evs` (times and sheets) for a sheet under a beam held at `p` from time `t` to time
`dwell`: the product of the probabilities of each waiting time and each successor, and of nothing more happening
until the end. -/
noncomputable def historyProb (rate : RateFunction ℝ) (p : V2 ℝ) (dwell : Timedelta) :
    Timedelta → Grid ℝ → List (Timedelta × Grid ℝ) → ℝ
  | t, sheet, [] =>
    if dwell ≤ t then 1 else
      match rate sheet p with
      | .error _ => 0
      | .ok ss => if ss = [] then 0 else quietProb (sumRates ss) (dwell - t + 1)
  | t, sheet, (time, next) :: evs =>
    if t < dwell ∧ t ≤ time ∧ time ≤ dwell then
      match rate sheet p with
      | .error _ => 0
      | .ok ss => waitProb (sumRates ss) (time - t) * shareOf ss next * historyProb rate p dwell time next evs
    else 0

/-- The sheet at the end of a history. -/
def lastSheet (sheet : Grid ℝ) (evs : List (Timedelta × Grid ℝ)) : Grid ℝ := (evs.getLast?.map Prod.snd).getD sheet

/-- The probability of the histories `hs` when the beam is held for a while at one place after the other. -/
noncomputable def controlsProb (rate : RateFunction ℝ) :
    Grid ℝ → List (V2 ℝ × Timedelta) → List (List (Timedelta × Grid ℝ)) → ℝ
  | _, [], [] => 1
  | sheet, (p, dwell) :: cs, evs :: hs =>
    historyProb rate p dwell 0 sheet evs * controlsProb rate (lastSheet sheet evs) cs hs
  | _, _, _ => 0

/-- An observer that writes down the transitions during each control. -/
def recorder {Img : Type} : Event ℝ Img → List (List (Timedelta × Grid ℝ)) → List (List (Timedelta × Grid ℝ))
  | .applyControl _, hs => hs ++ [[]]
  | .transition t sheet, hs =>
    match hs.getLast? with
    | some h => hs.dropLast ++ [h ++ [(t, sheet)]]
    | none => hs
  | _, hs => hs

/-- The rates of the sheets `Sheets` under a beam at `p`: there are always successors, again among these sheets, with
rates that are not negative and together at most `B`. -/
structure Orderly (rate : RateFunction ℝ) (p : V2 ℝ) (Sheets : Grid ℝ → Prop) (B : ℝ) : Prop where
  rates : ∀ sheet, Sheets sheet → ∃ ss, rate sheet p = .ok ss ∧ ss ≠ [] ∧ (∀ y ∈ ss, 0 ≤ y.rate ∧ Sheets y.grid) ∧
    sumRates ss ≤ B

end PD.Spec
