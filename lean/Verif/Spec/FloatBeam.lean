/- Specification for C145: what the beam does when rates, probabilities and waiting times are floating point numbers. -/
import Verif.Model.FloatSim
import Verif.Spec.Simulator

namespace PD.Spec
open PD
variable {G O P Img : Type}

/-- The draw of an index needs no probabilities that sum to one exactly: numpy divides their cumulative sums by the last
of them, and then looks up a number below one.  So the index is one whose probability is positive. -/
def Chooses (rng : Rng ℝ G) : Prop :=
  ∀ p g, (∀ q ∈ p, 0 ≤ q) → (∃ q ∈ p, 0 < q) → ∃ q, p[(rng.choiceP p g).1]? = some q ∧ 0 < q

/-- With the beam at `p`, the rate function offers the sheet `b` as a successor of `a`, at a positive rate. -/
def Offered (rate : RateFunction ℝ) (p : V2 ℝ) (a b : Grid ℝ) : Prop :=
  ∃ ss, rate a p = .ok ss ∧ ∃ x ∈ ss, x.grid = b ∧ 0 < x.rate

/-- What a control aimed at the place `p` of the sheet `g` does: transitions, one after the other, to sheets the rate
function offers at positive rates, at times from 0 to the dwell time, in order. -/
structure Exposed (rate : RateFunction ℝ) (p : V2 ℝ) (dwell : Timedelta) (g : Grid ℝ) (trs : List (Timedelta × Grid ℝ))
    (g' : Grid ℝ) : Prop where
  chain : ChainFrom (Offered rate p) g (trs.map Prod.snd)
  final : g' = (trs.getLast?.map Prod.snd).getD g
  times : ∀ e ∈ trs, 0 ≤ e.1 ∧ e.1 ≤ dwell
  ordered : (trs.map Prod.fst).Pairwise (· ≤ ·)

/-- `evs` is what observers are told, and `g'` the sheet in the end, when controls aimed at the given places for the given
times are applied to the sheet `g`. -/
inductive ExposedAll (rate : RateFunction ℝ) :
    List (V2 ℝ × Timedelta) → Grid ℝ → List (Event ℝ Img) → Grid ℝ → Prop
  | nil (g : Grid ℝ) : ExposedAll rate [] g [] g
  | cons {p dwell g trs g1 cs evs g2} (h : Exposed rate p dwell g trs g1) (ht : ExposedAll rate cs g1 evs g2) :
      ExposedAll rate ((p, dwell) :: cs) g
        (.applyControl (BeamControl.mk' p dwell) :: (trs.map (fun e => Event.transition e.1 e.2) ++ evs)) g2

/-- Where the controls are aimed at, on the sheet, when the image shows the field of view `f`. -/
noncomputable def floatAim (f : Fov ℝ) (cs : List (BeamControl ℝ)) : List (V2 ℝ × Timedelta) :=
  cs.map fun c => (f.floatToMaterial c.position, c.dwellTime)

/-- Wherever the silicon is on a sheet with atoms at the places `ps`, with the beam at `q` there are three successors, and
the total of their rates is zero or at least `2^-100` per second, or the rates are float32 numbers. -/
def RatesAt (rate : RateFunction ℝ) (ps : List (V2 ℝ)) (q : V2 ℝ) : Prop :=
  ∀ g, SingleDoped g → g.positions = ps → ∃ a b c, rate g q = .ok [a, b, c] ∧
    (a.rate + b.rate + c.rate = 0 ∨ 2 ^ (-100 : ℤ) ≤ a.rate + b.rate + c.rate ∨
      (f32 a.rate = a.rate ∧ f32 b.rate = b.rate ∧ f32 c.rate = c.rate))

end PD.Spec
