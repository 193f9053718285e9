/- Vocabulary for the data of ensemble members. -/
import Verif.Model.Ensemble
import Verif.Spec.Augment

namespace PD.Spec
open PD

/-- A row as a member sees it: the position follows the context. -/
structure MemberPoint where
  state : ℤ
  dt : ℝ
  rates : List ℝ
  context : List ℝ

/-- Row `i` of a member's arrays. -/
def memberRow (d : MemberData) (i : ℕ) : Option MemberPoint :=
  match d.states[i]?, d.dt[i]?, d.rates[i]?, d.context[i]? with
  | some s, some t, some r, some c => some ⟨s, t, r, c⟩
  | _, _, _, _ => none

/-- All arrays of a member have `n` rows. -/
def MemberSize (d : MemberData) (n : ℕ) : Prop :=
  d.states.length = n ∧ d.dt.length = n ∧ d.rates.length = n ∧ d.context.length = n

/-- `q` is a symmetric copy of example `p`: some renaming of the three neighbours turns `p` into an example with
`q`'s label, time, rates, and with `q`'s context being its context followed by its position. -/
def IsCopy (p : RatePoint) (q : MemberPoint) : Prop :=
  ∃ (σ : ℕ → ℕ) (p' : RatePoint), SamePhysics 3 σ p p' ∧ q.state = p'.state ∧ q.dt = p'.dt ∧ q.rates = p'.rates ∧
    ∃ c, p'.context = some c ∧ q.context = c ++ [p'.position.x, p'.position.y]

/-- Every row of `part` is a copy of an example of `whole` with one of the numbers `idx`. -/
def CopiesOf (whole : RateData) (idx : List ℕ) (part : MemberData) : Prop :=
  ∀ r q, memberRow part r = some q → ∃ i ∈ idx, ∃ p, row whole i = some p ∧ IsCopy p q

/-- What is drawn for a member: as many rows as there are and not all of them, for the bootstrap; otherwise all
rows in some order. -/
def MemberDraw (bootstrap : Bool) (n : ℕ) (draw : ℕ → List ℕ) : Prop :=
  if bootstrap then (draw n).length = n ∧ (∀ i ∈ draw n, i < n) ∧ ∃ i, i < n ∧ i ∉ draw n
  else (draw n).Perm (List.range n)

/-- The rows for training and for testing of a member. -/
def MemberRows (bootstrap : Bool) (fraction : ℝ) (n : ℕ) (draw : ℕ → List ℕ) (idx : List ℕ × List ℕ) : Prop :=
  (∀ i ∈ idx.1, i < n) ∧ (∀ i ∈ idx.2, i < n) ∧
  (bootstrap = true → idx.1 = draw n ∧ ∀ i, i ∈ idx.2 ↔ i < n ∧ i ∉ draw n) ∧
  (bootstrap = false → 0 < fraction → (idx.1 ++ idx.2).Perm (List.range n) ∧
    (idx.2.length : ℤ) = ⌊n * fraction⌋) ∧
  (bootstrap = false → fraction = 0 → idx = (List.range n, List.range n))

end PD.Spec
