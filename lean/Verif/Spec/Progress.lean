/- Specification for C151: greedy play gets to the goal. -/
import Verif.Spec.FloatGreedy

namespace PD.Spec
open PD
variable {G O P Img F : Type}

/-- The atom `si` of the sheet `ps` has three bonds, and `p` is the neighbour nearest to `b`, up to a hundred thousandth of
the distance and of an Å. -/
def NearestTo (ps : List (V2 ℝ)) (b si p : V2 ℝ) : Prop :=
  ∃ nbrs, BondedTo ps si nbrs ∧ p ∈ nbrs ∧ ∀ p' ∈ nbrs, dist p b ≤ dist p' b + (1 + dist si b) / 10 ^ 5

/-- From `si` to `x` in `m` moves, each to the neighbour nearest to `b`, and none from `b`. -/
inductive WayTo (ps : List (V2 ℝ)) (b si : V2 ℝ) : ℕ → V2 ℝ → Prop where
  | start : WayTo ps b si 0 si
  | move {m : ℕ} {x p : V2 ℝ} : WayTo ps b si m x → x ≠ b → NearestTo ps b x p → WayTo ps b si (m + 1) p

/-- From the state `s` to the state `s'` by steps of one episode that returned, whatever the actions, in `m` of which the
silicon went to the neighbour nearest to `b`, while it stayed where it was in the others. -/
inductive PlaysTowards (cfg : FloatEnvCfg G O P Img F) (b : V2 ℝ) (s : Env ℝ G O P Img) : ℕ → Env ℝ G O P Img → Prop where
  | start : PlaysTowards cfg b s 0 s
  | stay {m : ℕ} {s₁ s₂ : Env ℝ G O P Img} {a : List ℝ} {t : TimeStep F} {sheet sheet' : Grid ℝ} :
      PlaysTowards cfg b s m s₁ → s₁.requiresReset = false → Env.floatStep cfg a s₁ = .ok t s₂ →
      s₁.sim.ctx.mat.grid = some sheet → s₂.sim.ctx.mat.grid = some sheet' → silicons sheet' = silicons sheet →
      PlaysTowards cfg b s m s₂
  | move {m : ℕ} {s₁ s₂ : Env ℝ G O P Img} {a : List ℝ} {t : TimeStep F} {sheet sheet' : Grid ℝ} {si p : V2 ℝ} :
      PlaysTowards cfg b s m s₁ → s₁.requiresReset = false → Env.floatStep cfg a s₁ = .ok t s₂ →
      s₁.sim.ctx.mat.grid = some sheet → s₂.sim.ctx.mat.grid = some sheet' → silicons sheet = [si] → silicons sheet' = [p] →
      NearestTo sheet.positions b si p → PlaysTowards cfg b s (m + 1) s₂

end PD.Spec
