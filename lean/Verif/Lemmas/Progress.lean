/- Lemmas for C151: of the three neighbours of an atom, one is nearer to the goal. -/
import Verif.Props.FloatGreedy

set_option linter.unusedSectionVars false
set_option linter.unusedSimpArgs false

namespace PD.Props
open PD PD.Spec

/-! ### On the lattice -/

/-- On which side of a site of column `X` the neighbour in the same row is. -/
def sideOf (X : ℤ) : ℤ := if X % 3 = 1 then -1 else 1

/-- The three sites at distance one. -/
noncomputable def sitesAround (X Y : ℤ) : List (V2 ℝ) :=
  [site (X + 2 * sideOf X) Y, site (X - sideOf X) (Y - 1), site (X - sideOf X) (Y + 1)]

theorem sideOf_cases {X : ℤ} (h3 : X % 3 ≠ 0) : (sideOf X = -1 ∧ X % 3 = 1) ∨ (sideOf X = 1 ∧ X % 3 = 2) := by
  unfold sideOf
  split <;> omega

/-- There are no others. -/
theorem mem_sitesAround {X Y X' Y' : ℤ} (h : X % 2 = Y % 2) (h3 : X % 3 ≠ 0) (h' : X' % 2 = Y' % 2) (h3' : X' % 3 ≠ 0)
    (hd : V2.distSq (site X Y) (site X' Y') = 1) : site X' Y' ∈ sitesAround X Y := by
  have hm := lattice_neighbours h h' hd
  simp only [List.mem_cons, Prod.mk.injEq, List.not_mem_nil, or_false] at hm
  simp only [sitesAround, List.mem_cons, List.not_mem_nil, or_false]
  rcases sideOf_cases h3 with ⟨e, e3⟩ | ⟨e, e3⟩ <;> rw [e]
  · rcases hm with ⟨rfl, rfl⟩ | ⟨rfl, rfl⟩ | ⟨rfl, rfl⟩ | ⟨rfl, rfl⟩ | ⟨rfl, rfl⟩ | ⟨rfl, rfl⟩ <;>
      first | (exfalso; omega) | exact .inl rfl | exact .inr (.inl rfl) | exact .inr (.inr rfl)
  · rcases hm with ⟨rfl, rfl⟩ | ⟨rfl, rfl⟩ | ⟨rfl, rfl⟩ | ⟨rfl, rfl⟩ | ⟨rfl, rfl⟩ | ⟨rfl, rfl⟩ <;>
      first | (exfalso; omega) | exact .inl rfl | exact .inr (.inl rfl) | exact .inr (.inr rfl)

/-- Of three directions at a third of a turn from each other, one is within a sixth of a turn of any given one. -/
theorem one_of_three {D x y z : ℝ} (hD : 0 < D) (hs : x + y + z = 0) (hq : x ^ 2 + y ^ 2 + z ^ 2 = 3 / 2 * D ^ 2) :
    D / 2 ≤ x ∨ D / 2 ≤ y ∨ D / 2 ≤ z := by
  by_contra hno
  simp only [not_or, not_le] at hno
  obtain ⟨h1, h2, h3⟩ := hno
  have k1 : 0 < (D / 2 - x) * (D + x) := mul_pos (by linarith) (by linarith)
  have k2 : 0 < (D / 2 - y) * (D + y) := mul_pos (by linarith) (by linarith)
  have k3 : 0 < (D / 2 - z) * (D + z) := mul_pos (by linarith) (by linarith)
  have : (D / 2 - x) * (D + x) + (D / 2 - y) * (D + y) + (D / 2 - z) * (D + z) = 0 := by
    linear_combination (-(D / 2)) * hs - hq
  linarith

/-- One of the three is nearer to any other site, by a fifth of a bond. -/
theorem sites_progress {X Y X' Y' : ℤ} (h : X % 2 = Y % 2) (h3 : X % 3 ≠ 0) (h' : X' % 2 = Y' % 2) (h3' : X' % 3 ≠ 0)
    (hne : (X, Y) ≠ (X', Y')) :
    ∃ w ∈ sitesAround X Y, Spec.dist w (site X' Y') ≤ Spec.dist (site X Y) (site X' Y') - 1 / 5 := by
  rcases lattice_distances h h' hne with hd | hd
  · refine ⟨_, mem_sitesAround h h3 h' h3' hd, ?_⟩
    rw [dist_self', dist_eq_sqrt, hd]
    norm_num
  · have hs2 : ((sideOf X : ℤ) : ℝ) ^ 2 = 1 := by
      rcases sideOf_cases h3 with ⟨e, _⟩ | ⟨e, _⟩ <;> rw [e] <;> norm_num
    set s : ℝ := ((sideOf X : ℤ) : ℝ) with hs
    set D := Spec.dist (site X Y) (site X' Y') with hDdef
    have hD0 : 0 ≤ D := by rw [hDdef, dist_eq_sqrt]; exact Real.sqrt_nonneg _
    have hDsq : D ^ 2 = V2.distSq (site X Y) (site X' Y') := by
      rw [hDdef, dist_eq_sqrt, Real.sq_sqrt (by linarith)]
    have hD2 : (16 / 10 : ℝ) ≤ D := by
      rw [hDdef, dist_eq_sqrt]
      exact Real.le_sqrt_of_sq_le (by norm_num; linarith)
    have e0 : D ^ 2 = (((X' : ℝ) - X) ^ 2 + 3 * ((Y' : ℝ) - Y) ^ 2) / 4 := by
      rw [hDsq, distSq_site]; push_cast; ring
    have finish : ∀ w : V2 ℝ, ∀ x : ℝ, V2.distSq w (site X' Y') = D ^ 2 - 2 * x + 1 → D / 2 ≤ x →
        Spec.dist w (site X' Y') ≤ D - 1 / 5 := by
      intro w x hw hx
      rw [dist_eq_sqrt, hw]
      refine Real.sqrt_le_iff.2 ⟨by linarith, ?_⟩
      nlinarith
    have e1 : V2.distSq (site (X + 2 * sideOf X) Y) (site X' Y') = D ^ 2 - 2 * (s * (X' - X) / 2) + 1 := by
      rw [distSq_site, e0]; push_cast; rw [← hs]
      linear_combination hs2
    have e2 : V2.distSq (site (X - sideOf X) (Y - 1)) (site X' Y') =
        D ^ 2 - 2 * (-(s * (X' - X) + 3 * (Y' - Y)) / 4) + 1 := by
      rw [distSq_site, e0]; push_cast; rw [← hs]
      linear_combination (1 / 4 : ℝ) * hs2
    have e3 : V2.distSq (site (X - sideOf X) (Y + 1)) (site X' Y') =
        D ^ 2 - 2 * (-(s * (X' - X) - 3 * (Y' - Y)) / 4) + 1 := by
      rw [distSq_site, e0]; push_cast; rw [← hs]
      linear_combination (1 / 4 : ℝ) * hs2
    rcases one_of_three (D := D) (x := s * (X' - X) / 2) (y := -(s * (X' - X) + 3 * (Y' - Y)) / 4)
      (z := -(s * (X' - X) - 3 * (Y' - Y)) / 4) (by linarith) (by ring)
      (by rw [e0]; linear_combination (3 / 8 * ((X' : ℝ) - X) ^ 2) * hs2) with hx | hx | hx
    · exact ⟨_, by simp [sitesAround], finish _ _ e1 hx⟩
    · exact ⟨_, by simp [sitesAround], finish _ _ e2 hx⟩
    · exact ⟨_, by simp [sitesAround], finish _ _ e3 hx⟩

/-! ### On the sheet -/

theorem list_images {α β : Type} (F : α → β) {g : List α} : ∀ {l : List β}, (∀ p ∈ l, ∃ u ∈ g, F u = p) →
    ∃ us : List α, us ⊆ g ∧ us.map F = l
  | [], _ => ⟨[], by simp, rfl⟩
  | p :: l, h => by
    obtain ⟨u, hu, rfl⟩ := h p (by simp)
    obtain ⟨us, h1, h2⟩ := list_images F (l := l) (fun q hq => h q (by simp [hq]))
    exact ⟨u :: us, List.cons_subset.2 ⟨hu, h1⟩, by rw [List.map_cons, h2]⟩

/-- The three bonds of an atom of a sheet, displaced or not, lead to the three sites around. -/
theorem bonded_sites (n : ℕ) (offset : V2 ℝ) (angle : ℝ) {ps : List (V2 ℝ)}
    (hD : Displaced (1 / 1000) (layOutSheet n offset angle) ps) {si : V2 ℝ} {nbrs : List (V2 ℝ)}
    (hbond : BondedTo ps si nbrs) :
    ∃ (F : V2 ℝ → V2 ℝ) (X Y : ℤ) (us : List (V2 ℝ)), ps = (hexagonalGrid n).map F ∧ X % 2 = Y % 2 ∧ X % 3 ≠ 0 ∧
      site X Y ∈ hexagonalGrid n ∧ si = F (site X Y) ∧ us ⊆ hexagonalGrid n ∧ us.Perm (sitesAround X Y) ∧
      nbrs = us.map F ∧ ∀ u ∈ hexagonalGrid n, ∀ v ∈ hexagonalGrid n,
        |Spec.dist (F u) (F v) - 142 / 100 * Spec.dist u v| ≤ 2 / 1000 := by
  have hnd0 := (C40_honeycomb n offset angle).1
  obtain ⟨f, rfl, hf⟩ := displaced_map hnd0 hD
  rw [layOutSheet_eq] at hf hbond ⊢
  set M := motion (meanPoint ((hexagonalGrid n).map (fun p => V2.smul BOND p))) offset angle with hM
  rw [List.map_map] at hbond ⊢
  have hdist : ∀ u ∈ hexagonalGrid n, ∀ v ∈ hexagonalGrid n,
      |Spec.dist ((f ∘ M) u) ((f ∘ M) v) - 142 / 100 * Spec.dist u v| ≤ 2 / 1000 := by
    intro u hu v hv
    have := displaced_dist (hf _ (List.mem_map_of_mem hu)) (hf _ (List.mem_map_of_mem hv))
    rw [hM, motion_dist] at this
    norm_num at this ⊢
    exact this
  obtain ⟨u, hu, rfl⟩ := List.mem_map.1 hbond.mem
  obtain ⟨X, Y, h, h3, rfl, _⟩ := (mem_hexagonalGrid n u).1 hu
  obtain ⟨us, hus, rfl⟩ := list_images (f ∘ M) (fun p hp => List.mem_map.1 (hbond.bonds p hp).1)
  have hsub : us ⊆ sitesAround X Y := by
    intro q hq
    have hpd := (hbond.bonds _ (List.mem_map_of_mem hq)).2
    have hqg := hus hq
    obtain ⟨A, B, hA, hA3, rfl, _⟩ := (mem_hexagonalGrid n q).1 hqg
    refine mem_sitesAround h h3 hA hA3 ?_
    have h1 := hdist _ hu _ hqg
    rw [abs_le] at h1 hpd
    have hneq : (X, Y) ≠ (A, B) := by
      intro e
      simp only [Prod.mk.injEq] at e
      rw [← e.1, ← e.2] at hpd
      rw [dist_self'] at hpd
      linarith [hpd.1]
    rcases lattice_distances h hA hneq with hd | hd
    · exact hd
    · have : (173 / 100 : ℝ) ≤ Spec.dist (site X Y) (site A B) := by
        rw [dist_eq_sqrt]
        exact Real.le_sqrt_of_sq_le (by norm_num; linarith)
      linarith [h1.1, hpd.2]
  have hlen : us.length = 3 := by have := hbond.three; rwa [List.length_map] at this
  have hperm := (hbond.nodup.of_map.subperm hsub).perm_of_length_le (by rw [hlen]; simp [sitesAround])
  exact ⟨f ∘ M, X, Y, us, rfl, h, h3, hu, rfl, hus, hperm, rfl, hdist⟩

/-- Of the three neighbours of an atom of a sheet, displaced or not, one is nearer to any other atom. -/
theorem bonded_progress (n : ℕ) (offset : V2 ℝ) (angle : ℝ) {ps : List (V2 ℝ)}
    (hD : Displaced (1 / 1000) (layOutSheet n offset angle) ps) {si b : V2 ℝ} {nbrs : List (V2 ℝ)}
    (hbond : BondedTo ps si nbrs) (hb : b ∈ ps) (hne : b ≠ si) :
    ∃ w ∈ nbrs, Spec.dist w b ≤ Spec.dist si b - 28 / 100 := by
  obtain ⟨F, X, Y, us, rfl, h, h3, hu, rfl, hus, hperm, rfl, hdist⟩ := bonded_sites n offset angle hD hbond
  obtain ⟨v, hv, rfl⟩ := List.mem_map.1 hb
  obtain ⟨X', Y', h', h3', rfl, _⟩ := (mem_hexagonalGrid n v).1 hv
  have hne' : (X, Y) ≠ (X', Y') := by
    intro e
    simp only [Prod.mk.injEq] at e
    exact hne (by rw [e.1, e.2])
  obtain ⟨w, hw, hwd⟩ := sites_progress h h3 h' h3' hne'
  have hwn : w ∈ us := hperm.mem_iff.2 hw
  refine ⟨_, List.mem_map_of_mem hwn, ?_⟩
  have h1 := hdist _ hu _ hv
  have h2 := hdist _ (hus hwn) _ hv
  rw [abs_le] at h1 h2
  linarith [h1.1, h2.2]

theorem around_apart {X Y : ℤ} (h3 : X % 3 ≠ 0) {u v : V2 ℝ} (hu : u ∈ sitesAround X Y) (hv : v ∈ sitesAround X Y)
    (hne : u ≠ v) : V2.distSq u v = 3 := by
  simp only [sitesAround, List.mem_cons, List.not_mem_nil, or_false] at hu hv
  rcases sideOf_cases h3 with ⟨e, _⟩ | ⟨e, _⟩ <;> rw [e] at hu hv <;>
    rcases hu with rfl | rfl | rfl <;> rcases hv with rfl | rfl | rfl <;>
    first | exact absurd rfl hne | (rw [distSq_site]; push_cast; ring)

/-- The neighbours of an atom are nearly two and a half Å from each other. -/
theorem bonded_apart (n : ℕ) (offset : V2 ℝ) (angle : ℝ) {ps : List (V2 ℝ)}
    (hD : Displaced (1 / 1000) (layOutSheet n offset angle) ps) {si : V2 ℝ} {nbrs : List (V2 ℝ)}
    (hbond : BondedTo ps si nbrs) {p q : V2 ℝ} (hp : p ∈ nbrs) (hq : q ∈ nbrs) (hne : p ≠ q) :
    245 / 100 ≤ Spec.dist p q := by
  obtain ⟨F, X, Y, us, rfl, h, h3, hu, rfl, hus, hperm, rfl, hdist⟩ := bonded_sites n offset angle hD hbond
  obtain ⟨u, hu', rfl⟩ := List.mem_map.1 hp
  obtain ⟨v, hv', rfl⟩ := List.mem_map.1 hq
  have h3' := around_apart h3 (hperm.mem_iff.1 hu') (hperm.mem_iff.1 hv') (fun e => hne (by rw [e]))
  have h1 := hdist _ (hus hu') _ (hus hv')
  have : (173 / 100 : ℝ) ≤ Spec.dist u v := by
    rw [dist_eq_sqrt, h3']
    exact Real.le_sqrt_of_sq_le (by norm_num)
  rw [abs_le] at h1
  linarith [h1.1]

end PD.Props
