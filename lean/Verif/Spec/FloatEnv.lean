/- Specification for C147: the environment with floating point numbers. -/
import Verif.Model.FloatEnv
import Verif.Spec.FloatBeam
import Verif.Spec.FloatSim
import Verif.Spec.Adapters
import Verif.Model.FloatData

namespace PD.Spec
open PD
variable {G O P Img F : Type}

/-- What the environment is made of: a simulator that computes with floating point numbers, generated sheets of 12 to 4096
columns, and rates that keep the silicon single. -/
structure FloatWorld (T : FloatTrig) (S : Summation) (k : DotKind) (n : ℕ) (cfg : FloatEnvCfg G O P Img F) : Prop where
  wide : 12 ≤ n
  narrow : n ≤ 4096
  generate : cfg.sim.generate = floatGenerate T S k cfg.sim.rng n
  lawful : cfg.sim.rng.Lawful
  doped : DopedRates cfg.sim.rate

/-- What it takes, besides, for a step to return: three successors for every sheet of four or more atoms near the origin,
probabilities that numpy accepts, dwell times below an hour, and dwell times that a timedelta can be made of. -/
structure FloatSteps (cfg : FloatEnvCfg G O P Img F) : Prop where
  chooses : Chooses cfg.sim.rng
  rates : ∀ ps q, 4 ≤ ps.length → ps.Nodup → (∀ p ∈ ps, Near16 p) → Near16 q → RatesAt cfg.sim.rate ps q
  accepted : cfg.sim.numpy = .one ∨ cfg.sim.rates = .single
  dwellPos : 0 ≤ (dwellRange cfg.adapter).1
  dwellOrder : (dwellRange cfg.adapter).1 ≤ (dwellRange cfg.adapter).2
  dwellHour : (dwellRange cfg.adapter).2 < 3600000000
  seconds : cfg.sim.numpy = .one ∨ cfg.actions = .double ∨ (dwellRange cfg.adapter).1 = (dwellRange cfg.adapter).2

/-- The number from `lo` to `hi` that is nearest to `x`. -/
def within (lo hi x : ℝ) : ℝ := max lo (min hi x)

/-- Where along an axis an action puts the beam, if the view is from `lo` to `hi`, the silicon is shown at `q` and the beam
was at `beam`, both as parts of the view: at a part of the view; at the part the beam was at, moved; at a distance from the
silicon that is a part, from -1 to 1, of the greatest distance; or at a distance in Ångströms from the silicon.  The beam
stays in view. -/
def aimedAt : Adapter ℝ → (lo hi q beam x : ℝ) → ℝ
  | .direct, lo, hi, _, _, x => lo + within 0 1 x * (hi - lo)
  | .delta, lo, hi, _, beam, x => lo + within 0 1 (beam + x) * (hi - lo)
  | .relative _ _ maxDistance, lo, hi, q, _, x => within lo hi (lo + q * (hi - lo) + within (-1) 1 x * maxDistance)
  | .materialFrame _ _ _, lo, hi, q, _, x => within lo hi (lo + q * (hi - lo) + x)

end PD.Spec
