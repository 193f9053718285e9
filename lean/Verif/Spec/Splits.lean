/- Vocabulary for splits of data sets. -/
import Verif.Model.Splits

namespace PD.Spec
open PD
variable {α : Type}

/-- A dictionary with at least one array, all of `n` rows. -/
def Rectangular (d : DataDict α) (n : ℕ) : Prop := d ≠ [] ∧ ∀ kv ∈ d, kv.2.length = n

/-- `part` consists of the rows `idx` of `whole`, in that order, the same rows in every array. -/
def RowsOf (whole : DataDict α) (idx : List ℕ) (part : DataDict α) : Prop :=
  List.Forall₂ (fun a b => b.1 = a.1 ∧ b.2.map some = idx.map (fun i => a.2[i]?)) whole part ∧
  ∀ kv ∈ whole, ∀ i ∈ idx, i < kv.2.length

end PD.Spec
