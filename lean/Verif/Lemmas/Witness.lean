/- Concrete generators and nearest-neighbour routines, used to show that the assumptions of the
theorems can be met. -/
import Verif.Lemmas.Material
import Mathlib.Data.List.Sort

set_option linter.unusedSectionVars false
set_option linter.unusedSimpArgs false

namespace PD.Witness
open PD
variable {K : Type} [Field K] [LinearOrder K] [IsStrictOrderedRing K]

/-- Squared distance from `q` to the `i`-th point. -/
def dist (ps : List (V2 K)) (q : V2 K) (i : ℕ) : K := V2.distSq q (ps.getD i 0)

/-- Indices of all points, sorted by distance. -/
def sortedIdx (ps : List (V2 K)) (q : V2 K) : List ℕ :=
  (List.range ps.length).insertionSort (fun i j => dist ps q i ≤ dist ps q j)

theorem dist_eq {ps : List (V2 K)} {q a : V2 K} {i : ℕ} (h : ps[i]? = some a) :
    dist ps q i = V2.distSq q a := by
  simp [dist, List.getD_eq_getElem?_getD, h]

/-- Sorting by distance is a nearest-neighbour routine. -/
def knn : Knn K where
  query ps q k := (sortedIdx ps q).take k
  spec ps q k hk := by
    have hperm : (sortedIdx ps q).Perm (List.range ps.length) := List.perm_insertionSort _ _
    have hlen : (sortedIdx ps q).length = ps.length := by simpa using hperm.length_eq
    haveI : Std.Total (fun i j => dist ps q i ≤ dist ps q j) := ⟨fun a b => le_total _ _⟩
    haveI : IsTrans ℕ (fun i j => dist ps q i ≤ dist ps q j) :=
      ⟨fun a b c h h' => le_trans h h'⟩
    have hsorted : (sortedIdx ps q).Pairwise (fun i j => dist ps q i ≤ dist ps q j) :=
      List.pairwise_insertionSort _ _
    have hnd : (sortedIdx ps q).Nodup := hperm.nodup_iff.2 List.nodup_range
    refine ⟨by simp [hlen, hk], hnd.sublist (List.take_sublist _ _), ?_, ?_, ?_⟩
    · intro i hi
      have := (hperm.mem_iff).1 (List.mem_of_mem_take hi)
      simpa using this
    · refine (hsorted.sublist (List.take_sublist k _)).imp ?_
      intro i j h a b ha hb
      rwa [dist_eq ha, dist_eq hb] at h
    · intro i hi j hj a b ha hb
      have hjl : j < ps.length := (List.getElem?_eq_some_iff.1 hb).1
      have hjm : j ∈ sortedIdx ps q := hperm.mem_iff.2 (by simpa using hjl)
      rw [← List.take_append_drop k (sortedIdx ps q)] at hjm hsorted
      rcases List.mem_append.1 hjm with h | h
      · exact absurd h hj
      · have := (List.pairwise_append.1 hsorted).2.2 i hi j h
        rwa [dist_eq ha, dist_eq hb] at this

/-- A generator that always draws `t` seconds, the middle of an interval, the first admissible
index. -/
def rng (t : K) : Rng K Unit where
  uniform lo hi g := ((lo + hi) / 2, g)
  exponential _ g := (t, g)
  choiceP p g := (p.findIdx (fun q => decide (0 < q)), g)
  choice _ g := (0, g)

theorem rng_lawful {t : K} (ht : 0 ≤ t) : (rng t).Lawful where
  uniform_mem lo hi g h := by simp only [rng]; constructor <;> linarith
  exponential_nonneg s g _ := ht
  choiceP_lt p g hp hs := by
    have hex : ∃ q ∈ p, 0 < q := by
      by_contra hc
      push Not at hc
      have : p.sum ≤ 0 := by
        clear hs hp
        induction p with
        | nil => simp
        | cons a p ih =>
          rw [List.sum_cons]
          have h1 := hc a (by simp)
          have h2 := ih (fun q hq => hc q (by simp [hq]))
          linarith
      linarith
    obtain ⟨q, hq, hq0⟩ := hex
    have hlt : p.findIdx (fun q => decide (0 < q)) < p.length :=
      List.findIdx_lt_length_of_exists ⟨q, hq, by simpa using hq0⟩
    refine ⟨p[p.findIdx (fun q => decide (0 < q))], by simp [rng, hlt], ?_⟩
    simpa using List.findIdx_getElem (w := hlt)
  choice_lt n g h := h

/-- Five atoms, the silicon in the middle. -/
def sheet : Grid ℚ := ⟨[⟨0, 0⟩, ⟨1, 0⟩, ⟨0, 1⟩, ⟨-1, 0⟩, ⟨0, -2⟩], [14, 6, 6, 6, 6]⟩

/-- Rate one for every neighbour. -/
def canon : CanonicalRateFn ℚ := fun _ _ _ n => .ok (n.map (fun _ => 1))

theorem sheet_singleDoped : Spec.SingleDoped sheet := by
  refine ⟨rfl, 0, by decide, ?_⟩
  decide

theorem sheet_nodup : sheet.positions.Nodup := by decide

end PD.Witness
