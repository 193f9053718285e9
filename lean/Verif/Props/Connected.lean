/- C130, first part: sheets hang together. -/
import Verif.Props.Lattice
import Verif.Spec.Reach

set_option linter.unusedSectionVars false
set_option linter.unusedSimpArgs false

namespace PD.Props
open PD PD.Spec

/-- `(X, Y)` is an atom of the grid of `n` columns. -/
structure OnGrid (n : ℕ) (X Y : ℤ) : Prop where
  parity : X % 2 = Y % 2
  kept : X % 3 ≠ 0
  left : 0 ≤ X
  right : X < 2 * n
  bottom : 0 ≤ Y
  top : Y < hexRows n

theorem OnGrid.mem {n : ℕ} {X Y : ℤ} (h : OnGrid n X Y) : site X Y ∈ hexagonalGrid n :=
  (mem_hexagonalGrid n _).2 ⟨X, Y, h.parity, h.kept, rfl, h.left, h.right, h.bottom, h.top⟩

theorem two_rows {n : ℕ} (hn : 2 ≤ n) : 2 ≤ hexRows n := by
  rw [hexRows, Nat.le_floor_iff (div_nonneg (Nat.cast_nonneg n) hexRatio_pos.le), le_div_iff₀ hexRatio_pos]
  have : (2 : ℝ) ≤ n := by exact_mod_cast hn
  have := hexRatio_lt_one
  push_cast
  linarith

section
variable (n : ℕ) (m : V2 ℝ → V2 ℝ) (hm : ∀ u v, Spec.dist (m u) (m v) = 142 / 100 * Spec.dist u v)
include hm

theorem bond {X Y X' Y' : ℤ} (h : OnGrid n X Y) (h' : OnGrid n X' Y') (hd : (X - X') ^ 2 + 3 * (Y - Y') ^ 2 = 4) :
    Walk ((hexagonalGrid n).map m) (m (site X Y)) (m (site X' Y')) := by
  refine Relation.ReflTransGen.single ⟨List.mem_map_of_mem h.mem, List.mem_map_of_mem h'.mem, ?_⟩
  rw [hm, dist_eq_sqrt, distSq_site, hd]
  norm_num

/-- Every atom of the first two columns is connected to the first one. -/
theorem first_strip (hn : 2 ≤ n) (Y : ℕ) (X : ℤ) (hX : X = 1 ∨ X = 2) (h : OnGrid n X Y) :
    Walk ((hexagonalGrid n).map m) (m (site X Y)) (m (site 2 0)) := by
  induction Y generalizing X with
  | zero =>
    have := h.parity
    obtain rfl : X = 2 := by
      rcases hX with rfl | rfl
      · norm_num at this
      · rfl
    exact Relation.ReflTransGen.refl
  | succ Y ih =>
    have hp := h.parity
    have ht := h.top
    have h' : OnGrid n (3 - X) Y := by
      refine ⟨?_, ?_, ?_, ?_, ?_, ?_⟩ <;> omega
    have hb := bond n m hm h h' (by push_cast; rcases hX with rfl | rfl <;> ring)
    exact hb.trans (ih _ (by omega) h')

/-- Every atom is connected to the first one. -/
theorem to_first (hn : 2 ≤ n) (X : ℕ) (Y : ℤ) (h : OnGrid n X Y) :
    Walk ((hexagonalGrid n).map m) (m (site X Y)) (m (site 2 0)) := by
  induction X using Nat.strong_induction_on generalizing Y with
  | _ X ih =>
    have hp := h.parity
    have hk := h.kept
    have hr := h.right
    have ht := h.top
    have hb0 := h.bottom
    have h2 := two_rows hn
    by_cases hsmall : X ≤ 2
    · lift Y to ℕ using h.bottom
      exact first_strip n m hm hn Y X (by omega) h
    have hmod : X % 3 = 1 ∨ X % 3 = 2 := by omega
    rcases hmod with h1 | h1
    · have h' : OnGrid n ((X - 2 : ℕ) : ℤ) Y := by
        refine ⟨?_, ?_, ?_, ?_, ?_, ?_⟩ <;> omega
      have hb := bond n m hm h h' (by
        have : ((X - 2 : ℕ) : ℤ) = X - 2 := by omega
        rw [this]; ring)
      exact hb.trans (ih (X - 2) (by omega) Y h')
    · have e : ((X - 1 : ℕ) : ℤ) = X - 1 := by omega
      by_cases hY : 1 ≤ Y
      · have h' : OnGrid n ((X - 1 : ℕ) : ℤ) (Y - 1) := by
          refine ⟨?_, ?_, ?_, ?_, ?_, ?_⟩ <;> omega
        have hb := bond n m hm h h' (by rw [e]; ring)
        exact hb.trans (ih (X - 1) (by omega) _ h')
      · have h' : OnGrid n ((X - 1 : ℕ) : ℤ) (Y + 1) := by
          refine ⟨?_, ?_, ?_, ?_, ?_, ?_⟩ <;> omega
        have hb := bond n m hm h h' (by rw [e]; ring)
        exact hb.trans (ih (X - 1) (by omega) _ h')

omit hm in
theorem walk_symm {sheet : List (V2 ℝ)} {p q : V2 ℝ} (h : Walk sheet p q) : Walk sheet q p := by
  induction h with
  | refl => exact Relation.ReflTransGen.refl
  | tail _ hab ih =>
    obtain ⟨h1, h2, h3⟩ := hab
    refine Relation.ReflTransGen.head ⟨h2, h1, ?_⟩ ih
    rw [← h3]
    simp only [Spec.dist]
    congr 1
    ring

theorem grid_connected (u v : V2 ℝ) (hu : u ∈ hexagonalGrid n) (hv : v ∈ hexagonalGrid n) :
    Walk ((hexagonalGrid n).map m) (m u) (m v) := by
  have key : ∀ w ∈ hexagonalGrid n, Walk ((hexagonalGrid n).map m) (m w) (m (site 2 0)) := by
    intro w hw
    obtain ⟨X, Y, h1, h2, rfl, h3, h4, h5, h6⟩ := (mem_hexagonalGrid n w).1 hw
    have h : OnGrid n X Y := ⟨h1, h2, h3, h4, h5, h6⟩
    have hn : 2 ≤ n := by
      by_contra hlt
      have hn1 : n ≤ 1 := by omega
      have hX : X = 1 := by omega
      have hrow : hexRows n ≤ 1 := by
        rw [hexRows]
        have h0 := hexRatio_pos
        have : hexRatio > 1 / 2 := by
          have := hexRatio_sq
          nlinarith
        apply Nat.le_of_lt_succ
        rw [Nat.floor_lt (div_nonneg (Nat.cast_nonneg n) h0.le), div_lt_iff₀ h0]
        have : (n : ℝ) ≤ 1 := by exact_mod_cast hn1
        push_cast
        linarith
      omega
    lift X to ℕ using h3
    exact to_first n m hm hn X Y h
  exact (key u hu).trans (walk_symm (key v hv))

end

/-- C130.  Every generated sheet hangs together: from each atom one can walk along bonds to every other. -/
theorem C130_connected (n : ℕ) (offset : V2 ℝ) (angle : ℝ) (p q : V2 ℝ) (hp : p ∈ layOutSheet n offset angle)
    (hq : q ∈ layOutSheet n offset angle) : Walk (layOutSheet n offset angle) p q := by
  rw [layOutSheet_eq] at hp hq ⊢
  obtain ⟨u, hu, rfl⟩ := List.mem_map.1 hp
  obtain ⟨v, hv, rfl⟩ := List.mem_map.1 hq
  exact grid_connected n _ (motion_dist _ _ _) u v hu hv

/-- A bonded atom is surely one of the three nearest. -/
theorem bonded_near (n : ℕ) (offset : V2 ℝ) (angle : ℝ) (i j : ℕ) (p q : V2 ℝ)
    (hi : (layOutSheet n offset angle)[i]? = some p) (hj : (layOutSheet n offset angle)[j]? = some q)
    (hd : Spec.dist p q = 142 / 100) : SurelyNear (layOutSheet n offset angle) i j := by
  have hnd := (C40_honeycomb n offset angle).1
  have hne : i ≠ j := by
    rintro rfl
    rw [hi] at hj
    cases hj
    norm_num [Spec.dist] at hd
  refine ⟨hne, p, q, hi, hj, fun ks hks hik hjk hall => ?_⟩
  set m := motion (meanPoint ((hexagonalGrid n).map (fun p => V2.smul BOND p))) offset angle with hm
  have hdist : ∀ u v, Spec.dist (m u) (m v) = 142 / 100 * Spec.dist u v := motion_dist _ _ _
  have hmem : ∀ (k : ℕ) (x : V2 ℝ), (layOutSheet n offset angle)[k]? = some x → ∃ X Y : ℤ, OnGrid n X Y ∧ x = m (site X Y) := by
    intro k x hk
    have := List.mem_of_getElem? hk
    rw [layOutSheet_eq] at this
    obtain ⟨u, hu, rfl⟩ := List.mem_map.1 this
    obtain ⟨X, Y, h1, h2, rfl, h3, h4, h5, h6⟩ := (mem_hexagonalGrid n u).1 hu
    exact ⟨X, Y, ⟨h1, h2, h3, h4, h5, h6⟩, rfl⟩
  obtain ⟨X, Y, hon, rfl⟩ := hmem i p hi
  -- the only places of bonded atoms
  have places : ∀ (k : ℕ) (x : V2 ℝ), i ≠ k → (layOutSheet n offset angle)[k]? = some x →
      Spec.dist (m (site X Y)) x ≤ 142 / 100 →
      x ∈ (if X % 3 = 1 then [m (site (X - 2) Y), m (site (X + 1) (Y + 1)), m (site (X + 1) (Y - 1))]
        else [m (site (X + 2) Y), m (site (X - 1) (Y + 1)), m (site (X - 1) (Y - 1))]) := by
    intro k x hik hk hle
    obtain ⟨X', Y', hon', rfl⟩ := hmem k x hk
    have hne' : (X, Y) ≠ (X', Y') := by
      intro h
      simp only [Prod.mk.injEq] at h
      obtain ⟨rfl, rfl⟩ := h
      have h1 := (List.getElem?_eq_some_iff.1 hi)
      have h2 := (List.getElem?_eq_some_iff.1 hk)
      obtain ⟨l1, e1⟩ := h1
      obtain ⟨l2, e2⟩ := h2
      exact hik ((List.Nodup.getElem_inj_iff hnd).1 (e1.trans e2.symm))
    rw [hdist, dist_eq_sqrt] at hle
    have hs : Real.sqrt (V2.distSq (site X Y) (site X' Y')) ≤ 1 := by linarith
    rw [Real.sqrt_le_iff, one_pow] at hs
    replace hs := hs.2
    have h1 : V2.distSq (site X Y) (site X' Y') = 1 := by
      rcases lattice_distances hon.parity hon'.parity hne' with h | h <;> linarith
    rw [distSq_site, div_eq_one_iff_eq (by norm_num)] at h1
    have h1 : (X - X') ^ 2 + 3 * (Y - Y') ^ 2 = 4 := by exact_mod_cast h1
    have hk := hon.kept
    have hk' := hon'.kept
    have hp := hon.parity
    have hp' := hon'.parity
    have hy : -1 ≤ Y - Y' ∧ Y - Y' ≤ 1 := by constructor <;> nlinarith [sq_nonneg (X - X')]
    have hx : -2 ≤ X - X' ∧ X - X' ≤ 2 := by constructor <;> nlinarith [sq_nonneg (Y - Y')]
    obtain ⟨a, ha⟩ : ∃ a, a = X - X' := ⟨_, rfl⟩
    obtain ⟨b, hb⟩ : ∃ b, b = Y - Y' := ⟨_, rfl⟩
    rw [← ha, ← hb] at h1
    rw [← ha] at hx
    rw [← hb] at hy
    obtain rfl : X' = X - a := by omega
    obtain rfl : Y' = Y - b := by omega
    have cases : (a = 2 ∧ b = 0) ∨ (a = -2 ∧ b = 0) ∨ (a = 1 ∧ b = 1) ∨ (a = 1 ∧ b = -1) ∨ (a = -1 ∧ b = 1) ∨
        (a = -1 ∧ b = -1) := by
      obtain ⟨x1, x2⟩ := hx
      obtain ⟨y1, y2⟩ := hy
      clear hon' hk' hp' hb ha
      interval_cases a <;> interval_cases b <;> first | (exfalso; norm_num at h1; done) | decide
    split_ifs with hmod
    · rcases cases with ⟨rfl, rfl⟩ | ⟨rfl, rfl⟩ | ⟨rfl, rfl⟩ | ⟨rfl, rfl⟩ | ⟨rfl, rfl⟩ | ⟨rfl, rfl⟩ <;>
        first | (exfalso; omega) | simp only [sub_zero, sub_neg_eq_add, List.mem_cons, true_or, or_true]
    · rcases cases with ⟨rfl, rfl⟩ | ⟨rfl, rfl⟩ | ⟨rfl, rfl⟩ | ⟨rfl, rfl⟩ | ⟨rfl, rfl⟩ | ⟨rfl, rfl⟩ <;>
        first | (exfalso; omega) | simp only [sub_zero, sub_neg_eq_add, List.mem_cons, true_or, or_true]
  set three := (if X % 3 = 1 then [m (site (X - 2) Y), m (site (X + 1) (Y + 1)), m (site (X + 1) (Y - 1))]
        else [m (site (X + 2) Y), m (site (X - 1) (Y + 1)), m (site (X - 1) (Y - 1))]) with hthree
  have h3 : three.length = 3 := by rw [hthree]; split_ifs <;> rfl
  have hlt : ∀ k ∈ j :: ks, ∃ x, (layOutSheet n offset angle)[k]? = some x ∧ x ∈ three := by
    intro k hk
    rcases List.mem_cons.1 hk with rfl | hk
    · exact ⟨q, hj, places _ q hne hj hd.le⟩
    · obtain ⟨x, hx, hle⟩ := hall k hk
      exact ⟨x, hx, places k x (fun h => hik (h ▸ hk)) hx (by rw [← hd]; exact hle)⟩
  have hnd2 : ((j :: ks).map (fun k => (layOutSheet n offset angle)[k]?)).Nodup := by
    refine List.Nodup.map_on ?_ (List.nodup_cons.2 ⟨hjk, hks⟩)
    intro a ha b hb hab
    obtain ⟨x, hx, -⟩ := hlt a ha
    rw [hx] at hab
    obtain ⟨l1, e1⟩ := List.getElem?_eq_some_iff.1 hx
    obtain ⟨l2, e2⟩ := List.getElem?_eq_some_iff.1 hab.symm
    exact (List.Nodup.getElem_inj_iff hnd).1 (e1.trans e2.symm)
  have hsub : (j :: ks).map (fun k => (layOutSheet n offset angle)[k]?) ⊆ three.map some := by
    intro y hy
    obtain ⟨k, hk, rfl⟩ := List.mem_map.1 hy
    obtain ⟨x, hx, hin⟩ := hlt k hk
    rw [hx]
    exact List.mem_map_of_mem hin
  have := (List.subperm_of_subset hnd2 hsub).length_le
  simp only [List.length_map, List.length_cons, h3] at this
  omega

end PD.Props
