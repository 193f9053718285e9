/- Random number generators as abstract stream transformers. -/
import Verif.Model.Basic

namespace PD

/-- The part of `np.random.Generator` the simulator uses.  `G` is the generator's
hidden state; a draw returns a value and the advanced state. -/
structure Rng (K G : Type) where
  /-- `rng.uniform(low, high)` -/
  uniform : K → K → G → K × G
  /-- `rng.exponential(scale)` for a finite scale -/
  exponential : K → G → K × G
  /-- `rng.choice(len(p), p=p)` -/
  choiceP : List K → G → ℕ × G
  /-- `rng.choice(n)` -/
  choice : ℕ → G → ℕ × G

/-- numpy's documented ranges, the only thing assumed about a generator.
`choiceP` never returns an index of probability zero because numpy inverts the
cumulative sums (`searchsorted(cdf, u, side='right')`). -/
structure Rng.Lawful {K G : Type} [Field K] [LinearOrder K] (r : Rng K G) : Prop where
  uniform_mem : ∀ lo hi g, lo ≤ hi → lo ≤ (r.uniform lo hi g).1 ∧ (r.uniform lo hi g).1 ≤ hi
  exponential_nonneg : ∀ s g, 0 ≤ s → 0 ≤ (r.exponential s g).1
  choiceP_lt : ∀ p g, (∀ q ∈ p, 0 ≤ q) → p.sum = 1 → ∃ q, p[(r.choiceP p g).1]? = some q ∧ 0 < q
  choice_lt : ∀ n g, 0 < n → (r.choice n g).1 < n

end PD
