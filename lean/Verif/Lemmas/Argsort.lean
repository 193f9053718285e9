/- Facts about `argsort`. -/
import Verif.Model.DataPoints

set_option linter.unusedSectionVars false
set_option linter.unusedSimpArgs false

namespace PD
variable {K : Type} [LinearOrder K] [Zero K]

theorem argsort_perm (xs : List K) : (argsort xs).Perm (List.range xs.length) :=
  List.perm_insertionSort _ _

theorem argsort_length (xs : List K) : (argsort xs).length = xs.length := by
  simpa using (argsort_perm xs).length_eq

theorem argsort_sorted (xs : List K) :
    (argsort xs).Pairwise (fun i j => xs.getD i 0 ≤ xs.getD j 0) := by
  unfold argsort
  have : Std.Total (fun i j : ℕ => xs.getD i 0 ≤ xs.getD j 0) := ⟨fun a b => le_total _ _⟩
  have : IsTrans ℕ (fun i j : ℕ => xs.getD i 0 ≤ xs.getD j 0) := ⟨fun a b c => le_trans⟩
  exact List.pairwise_insertionSort _ _

theorem map_getD_range {α : Type} (xs : List α) (d : α) :
    (List.range xs.length).map (fun i => xs.getD i d) = xs := by
  apply List.ext_getElem? 
  intro k
  rw [List.getElem?_map]
  by_cases hk : k < xs.length
  · simp [hk]
  · simp [hk]

/-- The argsort of a permutation is its inverse. -/
theorem argsort_inverse {order : List ℕ} {n k r : ℕ} (hp : order.Perm (List.range n))
    (h : (argsort order)[k]? = some r) : order[r]? = some k := by
  have hn : order.length = n := by simpa using hp.length_eq
  set m := (argsort order).map (fun i => order.getD i 0) with hm
  have h1 : m.Perm (List.range n) := by
    have := (argsort_perm order).map (fun i => order.getD i 0)
    rw [map_getD_range] at this
    exact this.trans hp
  have h2 : m.Pairwise (· ≤ ·) := by
    rw [hm, List.pairwise_map]
    exact argsort_sorted order
  have h3 : m = List.range n := h1.eq_of_pairwise' h2 (List.pairwise_lt_range.imp le_of_lt)
  have hr : r < order.length := by
    have := (argsort_perm order).mem_iff.1 (List.mem_of_getElem? h)
    simpa using this
  have hk : k < n := by
    obtain ⟨hk, _⟩ := List.getElem?_eq_some_iff.1 h
    rw [argsort_length] at hk
    omega
  have h4 : m[k]? = some (order.getD r 0) := by rw [hm, List.getElem?_map, h]; rfl
  rw [h3, List.getElem?_range hk] at h4
  simp only [Option.some.injEq] at h4
  rw [h4]
  simp [hr]

theorem sorted_rank {ys : List K} {r : ℕ} {x : K} (hs : ys.Pairwise (· ≤ ·)) (hn : ys.Nodup)
    (hr : ys[r]? = some x) : r = (ys.filter (fun y => decide (y < x))).length := by
  induction ys generalizing r with
  | nil => simp at hr
  | cons y ys ih =>
    rw [List.pairwise_cons] at hs
    rw [List.nodup_cons] at hn
    cases r with
    | zero =>
      simp only [List.getElem?_cons_zero, Option.some.injEq] at hr
      subst hr
      have : (y :: ys).filter (fun z => decide (z < y)) = [] := by
        rw [List.filter_eq_nil_iff]
        intro z hz
        rcases List.mem_cons.1 hz with rfl | hz
        · simp
        · simpa using hs.1 z hz
      rw [this]; rfl
    | succ r =>
      simp only [List.getElem?_cons_succ] at hr
      have hm := List.mem_of_getElem? hr
      have hlt : y < x := lt_of_le_of_ne (hs.1 x hm) (fun e => hn.1 (e ▸ hm))
      rw [List.filter_cons_of_pos (by simpa using hlt), List.length_cons, ← ih hs.2 hn.2 hr]

/-- Position in the sorted order is the number of smaller entries. -/
theorem argsort_rank {xs : List K} {k r : ℕ} {x : K} (hnd : xs.Nodup)
    (h : (argsort xs)[r]? = some k) (hx : xs[k]? = some x) :
    r = (xs.filter (fun y => decide (y < x))).length := by
  have hperm : ((argsort xs).map (fun i => xs.getD i 0)).Perm xs := by
    have := (argsort_perm xs).map (fun i => xs.getD i 0)
    rwa [map_getD_range] at this
  rw [← (hperm.filter (fun y => decide (y < x))).length_eq]
  refine sorted_rank ?_ (hperm.nodup_iff.2 hnd) ?_
  · rw [List.pairwise_map]; exact argsort_sorted xs
  · rw [List.getElem?_map, h]; simp [hx]

end PD
