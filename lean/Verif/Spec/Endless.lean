/- C134: random numbers among which there is always another long wait. -/
import Verif.Model.Environment
import Verif.Model.Experiments

namespace PD.Spec
open PD

section
variable {G O P Img F : Type}

/-- If waiting times with a mean of at least `m`, and an index after each, are drawn again and again, then one of the
waiting times is at least `T`, whatever the means and the probabilities of the indices are. -/
inductive WaitsLong (rng : Rng ℝ G) (m T : ℝ) : G → Prop
  | now {g : G} (h : ∀ mean, m ≤ mean → T ≤ (rng.exponential mean g).1) : WaitsLong rng m T g
  | later {g : G} (h : ∀ mean, m ≤ mean → ∀ ps, WaitsLong rng m T (rng.choiceP ps (rng.exponential mean g).2).2) :
      WaitsLong rng m T g

/-- A kind of generator states that no draw leaves, and from all of which every long wait comes up sooner or later. -/
structure Patient (rng : Rng ℝ G) (Good : G → Prop) : Prop where
  uniform : ∀ lo hi g, Good g → Good (rng.uniform lo hi g).2
  exponential : ∀ mean g, Good g → Good (rng.exponential mean g).2
  choiceP : ∀ ps g, Good g → Good (rng.choiceP ps g).2
  choice : ∀ n g, Good g → Good (rng.choice n g).2
  waits : ∀ g, Good g → ∀ m T, 0 < m → WaitsLong rng m T g

/-- An environment that uses such a generator: making images does not leave the good states either, and seeds lead to
good states. -/
structure PatientEnv (cfg : EnvCfg ℝ G O P Img F) (Good : G → Prop) : Prop where
  rng : Patient cfg.sim.rng Good
  params : ∀ g, Good g → Good (cfg.sim.sampleParams g).2
  images : ∀ grid fov p g, Good g → Good (cfg.sim.render grid fov p g).2
  seeds : ∀ z, Good (cfg.seedRng z)

/-- The environment with a given bound on the rounds of the loop over transitions.  (The code has none.) -/
def withRounds (cfg : EnvCfg ℝ G O P Img F) (rounds : ℕ) : EnvCfg ℝ G O P Img F :=
  { cfg with sim := { cfg.sim with fuel := rounds } }

end

/-- A row of numbers in which every number is exceeded again and again, both at even and at odd places. -/
def RisesForever (g : ℕ → ℝ) : Prop := ∀ T N : ℕ, ∀ odd : Fin 2, ∃ i, N ≤ i ∧ (T : ℝ) ≤ g (2 * i + odd)

end PD.Spec
