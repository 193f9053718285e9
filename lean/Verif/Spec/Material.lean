/- Specification vocabulary for the material: neighbours, swaps, observable runs. -/
import Verif.Spec.Frames

namespace PD.Spec
variable {K : Type}

/-- Atom `j` is one of the three atoms nearest to atom `i` (other than `i` itself):
at most two further atoms are strictly nearer to `i` than `j` is. -/
def AmongThreeNearest [Field K] [LinearOrder K] (ps : List (V2 K)) (i j : ℕ) : Prop :=
  i ≠ j ∧ ∃ pi pj, ps[i]? = some pi ∧ ps[j]? = some pj ∧
    ((List.range ps.length).filter (fun k => k ≠ i ∧
      ∃ pk, ps[k]? = some pk ∧ V2.distSq pi pk < V2.distSq pi pj)).length ≤ 2

/-- `g'` is `g` with the silicon moved to one of the three nearest sites: positions equal,
exactly two atomic numbers differ. -/
def NeighbourSwap [Field K] [LinearOrder K] (g g' : Grid K) : Prop :=
  g'.positions = g.positions ∧ g'.numbers.length = g.numbers.length ∧
  ∃ i j, AmongThreeNearest g.positions i j ∧
    g.numbers[i]? = some SILICON ∧ g'.numbers[i]? = some CARBON ∧
    g.numbers[j]? = some CARBON ∧ g'.numbers[j]? = some SILICON ∧
    ∀ k, k ≠ i → k ≠ j → g'.numbers[k]? = g.numbers[k]?

/-- Consecutive elements of a list starting at `a` are related. -/
def ChainFrom {α : Type} (R : α → α → Prop) : α → List α → Prop
  | _, [] => True
  | a, b :: l => R a b ∧ ChainFrom R b l

/-- The state in which a computation leaves its object, whether it returned or raised. -/
def endState {ε σ α : Type} : EStateM.Result ε σ α → σ
  | .ok _ s => s
  | .error _ s => s

/-- The computation returned normally. -/
def returned {ε σ α : Type} : EStateM.Result ε σ α → Prop
  | .ok _ _ => True
  | .error _ _ => False

end PD.Spec

namespace PD.Spec
/-- An observer that is told a list of events, one after the other. -/
def observeAll {E O : Type} (handle : E → O → O) (evs : List E) (o : O) : O :=
  evs.foldl (fun o e => handle e o) o
end PD.Spec
