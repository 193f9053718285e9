/- Model of the loss for training the graph alignment network (graph_alignment/train.py:139-235). -/
import Verif.Model.Geometry
import Mathlib.Algebra.BigOperators.Group.Finset.Basic

namespace PD

/-- A batch of `B` examples of `T` time steps with `N` points each: whether points are atoms (`features[..., 0]`,
1 for atoms and 0 for padding), labels, and what the network makes of it. -/
structure GraphBatch where
  B : ℕ
  T : ℕ
  N : ℕ
  mask : ℕ → ℕ → ℕ → ℝ
  localLabel : ℕ → ℕ → ℕ → V2 ℝ
  localPred : ℕ → ℕ → ℕ → V2 ℝ
  globalLabel : ℕ → ℕ → V2 ℝ
  globalPred : ℕ → ℕ → V2 ℝ

/-- `jnp.mean` of `n` numbers; `none` is nan, which the mean of nothing is. -/
noncomputable def meanOf (n : ℕ) (f : ℕ → Option ℝ) : Option ℝ :=
  if n = 0 then none
  else ((List.range n).mapM f).map (fun l => l.sum / n)

/-- `jnp.square(label - pred).sum(-1)` (graph_alignment/train.py:204-205). -/
def squaredError (label pred : V2 ℝ) : ℝ := V2.normSq (label - pred)

/-- graph_alignment/train.py:205-216: the mean over all points, padding included, of the errors of atoms; then
the mean over examples; then that over time steps from `start`. -/
noncomputable def GraphBatch.localLoss (g : GraphBatch) (start : ℕ) : Option ℝ :=
  meanOf (g.T - start) (fun t => meanOf g.B (fun b => meanOf g.N (fun n =>
    some (squaredError (g.localLabel b (start + t) n) (g.localPred b (start + t) n) * g.mask b (start + t) n))))

/-- graph_alignment/train.py:204 and 217. -/
noncomputable def GraphBatch.globalLoss (g : GraphBatch) (start : ℕ) : Option ℝ :=
  meanOf (g.T - start) (fun t => meanOf g.B (fun b =>
    some (squaredError (g.globalLabel b (start + t)) (g.globalPred b (start + t)))))

/-- graph_alignment/train.py:218. -/
noncomputable def GraphBatch.loss (g : GraphBatch) (weight : ℝ) (start : ℕ) : Option ℝ :=
  match g.globalLoss start, g.localLoss start with
  | some a, some b => some (a + weight * b)
  | _, _ => none

/-- graph_alignment/train.py:219: `jnp.linalg.norm(local_labels - local_preds, axis=-1).mean()`, over all
examples, time steps and points. -/
noncomputable def GraphBatch.localError (g : GraphBatch) : Option ℝ :=
  meanOf g.B (fun b => meanOf g.T (fun t => meanOf g.N (fun n =>
    some (norm2 (g.localLabel b t n - g.localPred b t n)))))

end PD
