/- Vocabulary for merged detections. -/
import Verif.Model.Basic

namespace PD.Spec
open PD Classical
variable {K : Type} [Field K] [LinearOrder K]

/-- Sum of points. -/
def sumOf (ps : List (V2 K)) : V2 K := ⟨(ps.map (·.x)).sum, (ps.map (·.y)).sum⟩

/-- `p` is the mean of the non-empty group `g`. -/
def IsMean (p : V2 K) (g : List (V2 K)) : Prop := g ≠ [] ∧ V2.smul (g.length : K) p = sumOf g

/-- `p` and `q` are closer than `r`. -/
def CloserThan (p q : V2 K) (r : K) : Prop := 0 < r ∧ V2.distSq p q < r ^ 2

/-- Position `i` is the nearest to `p` (the first of them, if several are equally near), and closer
than `cutoff`. -/
def JoinsTo (cutoff : K) (ps : List (V2 K)) (p : V2 K) (i : ℕ) : Prop :=
  ∃ q, ps[i]? = some q ∧ CloserThan p q cutoff ∧ (∀ r ∈ ps, V2.distSq p q ≤ V2.distSq p r) ∧
    ∀ j, j < i → ∀ r, ps[j]? = some r → V2.distSq p q < V2.distSq p r

/-- `Merging cutoff frames ps gs`: merging the detections of `frames`, one after the other, gives the
atoms `ps`, which stand for the groups `gs` of detections.  The atoms of the first frame stand for
themselves; each detection of a further frame joins the group of the nearest atom so far if that is closer
than `cutoff`, and otherwise starts a group; every atom is the mean of its group. -/
inductive Merging (cutoff : K) : List (List (V2 K)) → List (V2 K) → List (List (V2 K)) → Prop
  | start (first : List (V2 K)) : Merging cutoff [first] first (first.map (fun p => [p]))
  | next {frames ps gs m ps' gs'} (before : Merging cutoff frames ps gs)
      (joined : ∀ i g, gs[i]? = some g →
        gs'[i]? = some (g ++ m.filter (fun p => decide (JoinsTo cutoff ps p i))))
      (started : gs'.drop gs.length =
        (m.filter (fun p => decide (∀ q ∈ ps, ¬ CloserThan p q cutoff))).map (fun p => [p]))
      (means : List.Forall₂ IsMean ps' gs') : Merging cutoff (frames ++ [m]) ps' gs'

end PD.Spec
