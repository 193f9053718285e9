/- Property C40: generated sheets are honeycombs. -/
import Verif.Model.Lattice
import Verif.Spec.Lattice
import Verif.Lemmas.Material
import Verif.Props.Geometry
import Mathlib.Tactic.IntervalCases

set_option linter.unusedSectionVars false
set_option linter.unusedSimpArgs false

namespace PD.Props
open PD PD.Spec
variable {G : Type}

/-! ### The lattice in integer coordinates -/

theorem hexRatio_pos : 0 < hexRatio := by unfold hexRatio; positivity

theorem hexRatio_sq : hexRatio * hexRatio = 3 / 4 := by
  unfold hexRatio
  have := Real.mul_self_sqrt (show (0 : ℝ) ≤ 3 by norm_num)
  nlinarith

theorem hexRatio_lt_one : hexRatio < 1 := by
  have := hexRatio_sq
  have := hexRatio_pos
  nlinarith

/-- The honeycomb point with doubled column `X` and row `Y`. -/
noncomputable def site (X Y : ℤ) : V2 ℝ := ⟨X / 2, Y * hexRatio⟩

theorem hexPoint_eq (row col : ℕ) : hexPoint row col = site (2 * col + row % 2) row := by
  have : row % 2 = 0 ∨ row % 2 = 1 := by omega
  rcases this with h | h
  · have h' : ((row : ℤ) % 2) = 0 := by omega
    ext <;> simp [hexPoint, site, h, h']
  · have h' : ((row : ℤ) % 2) = 1 := by omega
    ext
    · simp [hexPoint, site, h, h']; ring
    · simp [hexPoint, site]

theorem site_inj {X Y X' Y' : ℤ} (h : site X Y = site X' Y') : X = X' ∧ Y = Y' := by
  have hx := congrArg V2.x h
  have hy := congrArg V2.y h
  simp only [site] at hx hy
  have hp := hexRatio_pos
  constructor
  · have : (X : ℝ) = X' := by linarith
    exact_mod_cast this
  · have : (Y : ℝ) = Y' := mul_right_cancel₀ hp.ne' hy
    exact_mod_cast this

theorem mem_hexagonalGrid (n : ℕ) (u : V2 ℝ) : u ∈ hexagonalGrid n ↔
    ∃ X Y : ℤ, X % 2 = Y % 2 ∧ X % 3 ≠ 0 ∧ u = site X Y ∧ 0 ≤ X ∧ X < 2 * n ∧ 0 ≤ Y ∧ Y < hexRows n := by
  simp only [hexagonalGrid, List.mem_flatMap, List.mem_range, List.mem_map, List.mem_filter]
  constructor
  · rintro ⟨row, hr, col, ⟨hc, hk⟩, rfl⟩
    refine ⟨2 * col + row % 2, row, by omega, ?_, hexPoint_eq row col, by omega, by omega, by omega,
      by omega⟩
    simp only [hexRemoved, Bool.not_eq_true', Bool.or_eq_false_iff, Bool.and_eq_false_iff,
      decide_eq_false_iff_not] at hk
    omega
  · rintro ⟨X, Y, hp, h3, rfl, hX0, hX, hY0, hY⟩
    obtain ⟨row, rfl⟩ := Int.eq_ofNat_of_zero_le hY0
    obtain ⟨x, rfl⟩ := Int.eq_ofNat_of_zero_le hX0
    refine ⟨row, by omega, x / 2, ⟨by omega, ?_⟩, ?_⟩
    · simp only [hexRemoved, Bool.not_eq_true', Bool.or_eq_false_iff, Bool.and_eq_false_iff,
        decide_eq_false_iff_not]
      omega
    · rw [hexPoint_eq]
      congr 1
      omega

theorem hexagonalGrid_nodup (n : ℕ) : (hexagonalGrid n).Nodup := by
  unfold hexagonalGrid
  rw [List.nodup_flatMap]
  constructor
  · intro row _
    refine List.Nodup.map_on ?_ (List.nodup_range.filter _)
    intro a _ b _ h
    rw [hexPoint_eq, hexPoint_eq] at h
    have := (site_inj h).1
    omega
  · refine List.nodup_range.imp ?_
    intro a b hab
    simp only [Function.onFun]
    intro u hu hv
    obtain ⟨c, _, rfl⟩ := List.mem_map.1 hu
    obtain ⟨d, _, h⟩ := List.mem_map.1 hv
    rw [hexPoint_eq, hexPoint_eq] at h
    have := (site_inj h).2
    omega

theorem distSq_site (X Y X' Y' : ℤ) : V2.distSq (site X Y) (site X' Y') =
    (((X - X') ^ 2 + 3 * (Y - Y') ^ 2 : ℤ) : ℝ) / 4 := by
  have h := hexRatio_sq
  simp only [V2.distSq, V2.normSq, V2.sub_x, V2.sub_y, site]
  push_cast
  linear_combination ((Y : ℝ) - Y') ^ 2 * h

/-- Squared distances of lattice points are whole numbers: 0 for the same point, 1 for the six
nearest, and at least 3 otherwise. -/
theorem lattice_distances {X Y X' Y' : ℤ} (h : X % 2 = Y % 2) (h' : X' % 2 = Y' % 2)
    (hne : (X, Y) ≠ (X', Y')) :
    V2.distSq (site X Y) (site X' Y') = 1 ∨ 3 ≤ V2.distSq (site X Y) (site X' Y') := by
  rw [distSq_site]
  obtain ⟨b, hb⟩ : ∃ b, X - X' = (Y - Y') + 2 * b := ⟨(X - X' - (Y - Y')) / 2, by omega⟩
  set a := Y - Y' with ha
  rw [hb]
  have hN : (a + 2 * b) ^ 2 + 3 * a ^ 2 = 4 * (a ^ 2 + a * b + b ^ 2) := by ring
  rw [hN]
  have hpos : 1 ≤ a ^ 2 + a * b + b ^ 2 := by
    by_contra hlt
    have h0 : (a + 2 * b) ^ 2 + 3 * a ^ 2 ≤ 0 := by rw [hN]; omega
    have ha0 : a = 0 := by nlinarith [sq_nonneg (a + 2 * b), sq_nonneg a]
    have hb0 : b = 0 := by
      rw [ha0] at h0
      nlinarith [sq_nonneg b]
    apply hne
    have : X = X' := by omega
    have : Y = Y' := by omega
    simp [*]
  have hne2 : a ^ 2 + a * b + b ^ 2 ≠ 2 := by
    intro h2
    rcases Int.even_or_odd' a with ⟨c, hc | hc⟩ <;> rcases Int.even_or_odd' b with ⟨d, hd | hd⟩ <;>
      rw [hc, hd] at h2 <;> ring_nf at h2 <;> omega
  rcases eq_or_lt_of_le hpos with h1 | h1
  · left
    rw [← h1]; norm_num
  · right
    have : (3 : ℤ) ≤ a ^ 2 + a * b + b ^ 2 := by omega
    have : (3 : ℝ) ≤ ((a ^ 2 + a * b + b ^ 2 : ℤ) : ℝ) := by exact_mod_cast this
    push_cast at this ⊢
    linarith

/-- The sites at distance one. -/
theorem lattice_neighbours {X Y X' Y' : ℤ} (h : X % 2 = Y % 2) (h' : X' % 2 = Y' % 2)
    (hd : V2.distSq (site X Y) (site X' Y') = 1) :
    (X', Y') ∈ [(X - 2, Y), (X + 2, Y), (X - 1, Y - 1), (X - 1, Y + 1), (X + 1, Y - 1), (X + 1, Y + 1)] := by
  rw [distSq_site] at hd
  have hd' : (X - X') ^ 2 + 3 * (Y - Y') ^ 2 = 4 := by
    have : (((X - X') ^ 2 + 3 * (Y - Y') ^ 2 : ℤ) : ℝ) = 4 := by linarith
    exact_mod_cast this
  have hy1 : Y - Y' ≤ 1 := by nlinarith [sq_nonneg (X - X')]
  have hy2 : -1 ≤ Y - Y' := by nlinarith [sq_nonneg (X - X')]
  have hx1 : X - X' ≤ 2 := by nlinarith [sq_nonneg (Y - Y')]
  have hx2 : -2 ≤ X - X' := by nlinarith [sq_nonneg (Y - Y')]
  simp only [List.mem_cons, Prod.mk.injEq, List.not_mem_nil, or_false]
  generalize hdx : X - X' = dx at *
  generalize hdy : Y - Y' = dy at *
  interval_cases dy <;> interval_cases dx <;> first | omega | (exfalso; revert hd'; norm_num)

/-! ### Rigid motions -/

/-- What `generate_pristine_graphene` does to a lattice point. -/
noncomputable def motion (mean offset : V2 ℝ) (θ : ℝ) (u : V2 ℝ) : V2 ℝ :=
  let p := V2.smul BOND u - mean + offset
  ⟨p.x * Real.cos θ + p.y * Real.sin θ, p.x * -Real.sin θ + p.y * Real.cos θ⟩

theorem motion_distSq (mean offset : V2 ℝ) (θ : ℝ) (u v : V2 ℝ) :
    V2.distSq (motion mean offset θ u) (motion mean offset θ v) = BOND ^ 2 * V2.distSq u v := by
  have h := Real.sin_sq_add_cos_sq θ
  simp only [motion, V2.distSq, V2.normSq, V2.sub_x, V2.sub_y, V2.add_x, V2.add_y, V2.smul_x,
    V2.smul_y]
  linear_combination (BOND ^ 2 * ((u.x - v.x) ^ 2 + (u.y - v.y) ^ 2)) * h

theorem dist_eq_sqrt (p q : V2 ℝ) : Spec.dist p q = Real.sqrt (V2.distSq p q) := by
  simp only [Spec.dist, V2.distSq, V2.normSq, V2.sub_x, V2.sub_y]
  congr 1
  ring

theorem motion_dist (mean offset : V2 ℝ) (θ : ℝ) (u v : V2 ℝ) :
    Spec.dist (motion mean offset θ u) (motion mean offset θ v) = 142 / 100 * Spec.dist u v := by
  rw [dist_eq_sqrt, dist_eq_sqrt, motion_distSq, Real.sqrt_mul (by positivity),
    Real.sqrt_sq (by norm_num [BOND])]
  norm_num [BOND]

theorem layOutSheet_eq (n : ℕ) (offset : V2 ℝ) (θ : ℝ) : layOutSheet n offset θ =
    (hexagonalGrid n).map (motion (meanPoint ((hexagonalGrid n).map (fun p => V2.smul BOND p)))
      offset θ) := by
  simp only [layOutSheet, List.map_map]
  rfl

theorem honeycomb_iff (u : V2 ℝ) : HoneycombPoint u ↔
    ∃ X Y : ℤ, X % 2 = Y % 2 ∧ X % 3 ≠ 0 ∧ u = site X Y := Iff.rfl

theorem motion_inj {mean offset : V2 ℝ} {θ : ℝ} {u v : V2 ℝ}
    (h : motion mean offset θ u = motion mean offset θ v) : u = v := by
  have hd := motion_distSq mean offset θ u v
  rw [h] at hd
  have h0 : V2.distSq (motion mean offset θ v) (motion mean offset θ v) = 0 := by
    simp [V2.distSq, V2.normSq]
  rw [h0] at hd
  have hB : (0 : ℝ) < BOND ^ 2 := by norm_num [BOND]
  exact V2.distSq_eq_zero.1 (by nlinarith)

theorem hexRows_le (n : ℕ) : (hexRows n : ℝ) * hexRatio ≤ n := by
  have h := Nat.floor_le (show (0 : ℝ) ≤ (n : ℝ) / hexRatio from
    div_nonneg (Nat.cast_nonneg n) hexRatio_pos.le)
  rw [le_div_iff₀ hexRatio_pos] at h
  exact h

theorem lt_hexRows (n : ℕ) : (n : ℝ) < (hexRows n + 1) * hexRatio := by
  have h := Nat.lt_floor_add_one ((n : ℝ) / hexRatio)
  rw [div_lt_iff₀ hexRatio_pos] at h
  exact h

/-- Three sites of the sheet at distance one from an inner site, and no others. -/
theorem inner_site {n : ℕ} {X Y : ℤ} (hp : X % 2 = Y % 2) (h3 : X % 3 ≠ 0) (hX : 2 ≤ X)
    (hX' : X + 2 < 2 * n) (hY : 1 ≤ Y) (hY' : Y + 1 < hexRows n) :
    ∃ a ∈ hexagonalGrid n, ∃ b ∈ hexagonalGrid n, ∃ c ∈ hexagonalGrid n,
      [site X Y, a, b, c].Nodup ∧ V2.distSq (site X Y) a = 1 ∧ V2.distSq (site X Y) b = 1 ∧
      V2.distSq (site X Y) c = 1 ∧
      ∀ q ∈ hexagonalGrid n, q ∉ [site X Y, a, b, c] → 3 ≤ V2.distSq (site X Y) q := by
  have hmod : X % 3 = 1 ∨ X % 3 = 2 := by omega
  have key : ∀ e : ℤ, (e = 1 ∨ e = -1) → (X + e) % 3 ≠ 0 → (X - 2 * e) % 3 ≠ 0 →
      ∃ a ∈ hexagonalGrid n, ∃ b ∈ hexagonalGrid n, ∃ c ∈ hexagonalGrid n,
      [site X Y, a, b, c].Nodup ∧ V2.distSq (site X Y) a = 1 ∧ V2.distSq (site X Y) b = 1 ∧
      V2.distSq (site X Y) c = 1 ∧
      ∀ q ∈ hexagonalGrid n, q ∉ [site X Y, a, b, c] → 3 ≤ V2.distSq (site X Y) q := by
    intro e he h1 h2
    have hn : ∀ {A B C D : ℤ}, (A, B) ≠ (C, D) → site A B ≠ site C D := by
      intro A B C D hne h
      exact hne (by rw [(site_inj h).1, (site_inj h).2])
    refine ⟨site (X - 2 * e) Y, ?_, site (X + e) (Y - 1), ?_, site (X + e) (Y + 1), ?_, ?_, ?_, ?_,
      ?_, ?_⟩
    · exact (mem_hexagonalGrid n _).2 ⟨_, _, by omega, h2, rfl, by omega, by omega, by omega, by omega⟩
    · exact (mem_hexagonalGrid n _).2 ⟨_, _, by omega, h1, rfl, by omega, by omega, by omega, by omega⟩
    · exact (mem_hexagonalGrid n _).2 ⟨_, _, by omega, h1, rfl, by omega, by omega, by omega, by omega⟩
    · simp only [List.nodup_cons, List.mem_cons, List.not_mem_nil, or_false, not_or, List.nodup_nil,
        and_true, not_false_eq_true]
      refine ⟨⟨hn ?_, hn ?_, hn ?_⟩, ⟨hn ?_, hn ?_⟩, hn ?_⟩ <;>
        simp only [ne_eq, Prod.mk.injEq, not_and] <;> omega
    · rw [distSq_site]
      rcases he with rfl | rfl <;> push_cast <;> ring
    · rw [distSq_site]
      rcases he with rfl | rfl <;> push_cast <;> ring
    · rw [distSq_site]
      rcases he with rfl | rfl <;> push_cast <;> ring
    · intro q hq hnot
      obtain ⟨X', Y', hp', h3', rfl, _⟩ := (mem_hexagonalGrid n q).1 hq
      simp only [List.mem_cons, List.not_mem_nil, or_false, not_or] at hnot
      have hne : (X, Y) ≠ (X', Y') := by
        intro h
        simp only [Prod.mk.injEq] at h
        exact hnot.1 (by rw [h.1, h.2])
      rcases lattice_distances hp hp' hne with h | h
      · exfalso
        have hm := lattice_neighbours hp hp' h
        simp only [List.mem_cons, Prod.mk.injEq, List.not_mem_nil, or_false] at hm
        obtain ⟨_, ha, hb, hc⟩ := hnot
        rcases he with rfl | rfl
        · rcases hm with ⟨rfl, rfl⟩ | ⟨rfl, rfl⟩ | ⟨rfl, rfl⟩ | ⟨rfl, rfl⟩ | ⟨rfl, rfl⟩ | ⟨rfl, rfl⟩
          · exact ha rfl
          · omega
          · omega
          · omega
          · exact hb rfl
          · exact hc rfl
        · rcases hm with ⟨rfl, rfl⟩ | ⟨rfl, rfl⟩ | ⟨rfl, rfl⟩ | ⟨rfl, rfl⟩ | ⟨rfl, rfl⟩ | ⟨rfl, rfl⟩
          · omega
          · exact ha rfl
          · exact hb rfl
          · exact hc rfl
          · omega
          · omega
      · exact h
  rcases hmod with h | h
  · exact key 1 (.inl rfl) (by omega) (by omega)
  · exact key (-1) (.inr rfl) (by omega) (by omega)

/-! ### C40 -/

/-- For every number of columns, offset and angle, the sheet is the part of a honeycomb inside an
`n` by `⌊2 n / √3⌋ √3 / 2` rectangle, carried into the plane by a map that multiplies all distances
by 1.42, no atom being listed twice; and every atom that is, in bond lengths, one away from the
lower and left and two from the upper and right sides of the `n` by `n` square has three neighbours
at exactly 1.42 Å, all others being further away. -/
theorem C40_honeycomb (n : ℕ) (offset : V2 ℝ) (angle : ℝ) :
    (layOutSheet n offset angle).Nodup ∧
    ∃ m : V2 ℝ → V2 ℝ, (∀ u v, Spec.dist (m u) (m v) = 142 / 100 * Spec.dist u v) ∧
      (∀ p, p ∈ layOutSheet n offset angle ↔ ∃ u, p = m u ∧ HoneycombPoint u ∧
        (0 ≤ u.x ∧ u.x < n) ∧ (0 ≤ u.y ∧ u.y < ⌊(n : ℝ) / (Real.sqrt 3 / 2)⌋₊ * (Real.sqrt 3 / 2))) ∧
      (∀ u, HoneycombPoint u → (1 ≤ u.x ∧ u.x ≤ n - 2) → (1 ≤ u.y ∧ u.y ≤ n - 2) →
        m u ∈ layOutSheet n offset angle ∧
        HasThreeNeighbours (layOutSheet n offset angle) (142 / 100) (m u)) := by
  rw [layOutSheet_eq]
  set M := motion (meanPoint ((hexagonalGrid n).map (fun p => V2.smul BOND p))) offset angle with hM
  have hinj : Function.Injective M := fun u v h => motion_inj h
  have hr := hexRatio_pos
  refine ⟨(hexagonalGrid_nodup n).map hinj, M, motion_dist _ _ _, ?_, ?_⟩
  · intro p
    rw [List.mem_map]
    constructor
    · rintro ⟨u, hu, rfl⟩
      obtain ⟨X, Y, hp, h3, rfl, h1, h2, h4, h5⟩ := (mem_hexagonalGrid n u).1 hu
      refine ⟨_, rfl, ⟨X, Y, hp, h3, rfl⟩, ⟨?_, ?_⟩, ?_, ?_⟩
      · have : (0 : ℝ) ≤ X := by exact_mod_cast h1
        simp only [site]; linarith
      · have : (X : ℝ) < 2 * n := by exact_mod_cast h2
        simp only [site]; linarith
      · have : (0 : ℝ) ≤ Y := by exact_mod_cast h4
        exact mul_nonneg this hr.le
      · have : (Y : ℝ) < hexRows n := by exact_mod_cast h5
        exact mul_lt_mul_of_pos_right this hr
    · rintro ⟨u, rfl, ⟨X, Y, hp, h3, rfl⟩, ⟨h1, h2⟩, h4, h5⟩
      refine ⟨_, (mem_hexagonalGrid n _).2 ⟨X, Y, hp, h3, rfl, ?_, ?_, ?_, ?_⟩, rfl⟩
      · have : (0 : ℝ) ≤ X := by dsimp only at h1; linarith
        exact_mod_cast this
      · have : (X : ℝ) < 2 * n := by dsimp only at h2; linarith
        exact_mod_cast this
      · have : (0 : ℝ) ≤ Y := nonneg_of_mul_nonneg_left h4 hr
        exact_mod_cast this
      · have : (Y : ℝ) < hexRows n := lt_of_mul_lt_mul_right h5 hr.le
        exact_mod_cast this
  · rintro u ⟨X, Y, hp, h3, rfl⟩ ⟨hx1, hx2⟩ ⟨hy1, hy2⟩
    dsimp only at hx1 hx2 hy1 hy2
    change 1 ≤ (Y : ℝ) * hexRatio at hy1
    change (Y : ℝ) * hexRatio ≤ n - 2 at hy2
    have hX : 2 ≤ X := by
      have : (2 : ℝ) ≤ X := by linarith
      exact_mod_cast this
    have hX' : X + 2 < 2 * n := by
      have : (X : ℝ) + 2 < 2 * n := by linarith
      exact_mod_cast this
    have hY : 1 ≤ Y := by
      have : (0 : ℝ) < Y := by
        by_contra h
        have : (Y : ℝ) * hexRatio ≤ 0 := mul_nonpos_of_nonpos_of_nonneg (not_lt.1 h) hr.le
        linarith
      have : 0 < Y := by exact_mod_cast this
      omega
    have hY' : Y + 1 < hexRows n := by
      have h1 := lt_hexRows n
      have h2 := hexRatio_lt_one
      have : ((Y : ℝ) + 1) * hexRatio < hexRows n * hexRatio := by nlinarith
      have := lt_of_mul_lt_mul_right this hr.le
      exact_mod_cast this
    have hmem : site X Y ∈ hexagonalGrid n := (mem_hexagonalGrid n _).2
      ⟨X, Y, hp, h3, rfl, by omega, by omega, by omega, by omega⟩
    refine ⟨List.mem_map_of_mem hmem, ?_⟩
    obtain ⟨a, ha, b, hb, c, hc, hnd, hda, hdb, hdc, hq⟩ := inner_site hp h3 hX hX' hY hY'
    have hone : ∀ v, V2.distSq (site X Y) v = 1 → Spec.dist (M (site X Y)) (M v) = 142 / 100 := by
      intro v hv
      rw [hM, motion_dist, dist_eq_sqrt, hv]; norm_num
    refine ⟨M a, List.mem_map_of_mem ha, M b, List.mem_map_of_mem hb, M c, List.mem_map_of_mem hc,
      ?_, hone a hda, hone b hdb, hone c hdc, ?_⟩
    · exact hnd.map hinj
    · intro q hq' hnot
      obtain ⟨v, hv, rfl⟩ := List.mem_map.1 hq'
      have hv3 := hq v hv (fun h => hnot (List.mem_map_of_mem (f := M) h))
      change 142 / 100 < Spec.dist (M (site X Y)) (M v)
      rw [hM, motion_dist, dist_eq_sqrt]
      have : 1 < Real.sqrt (V2.distSq (site X Y) v) := by
        rw [Real.lt_sqrt (by norm_num)]; linarith
      linarith

/-- No two atoms are closer than 1.42 Å. -/
theorem C40_min_distance (n : ℕ) (offset : V2 ℝ) (angle : ℝ) (p q : V2 ℝ)
    (hp : p ∈ layOutSheet n offset angle) (hq : q ∈ layOutSheet n offset angle) (hne : p ≠ q) :
    142 / 100 ≤ Spec.dist p q := by
  rw [layOutSheet_eq] at hp hq
  obtain ⟨u, hu, rfl⟩ := List.mem_map.1 hp
  obtain ⟨v, hv, rfl⟩ := List.mem_map.1 hq
  obtain ⟨X, Y, h1, _, rfl, _⟩ := (mem_hexagonalGrid n u).1 hu
  obtain ⟨X', Y', h1', _, rfl, _⟩ := (mem_hexagonalGrid n v).1 hv
  rw [motion_dist, dist_eq_sqrt]
  have hne' : (X, Y) ≠ (X', Y') := by
    intro h
    simp only [Prod.mk.injEq] at h
    exact hne (by rw [h.1, h.2])
  have : 1 ≤ Real.sqrt (V2.distSq (site X Y) (site X' Y')) := by
    rw [Real.one_le_sqrt]
    rcases lattice_distances h1 h1' hne' with h | h <;> linarith
  linarith

/-- The generator lays out such a sheet, with an offset of at most 0.71 Å each way and an angle
between 0 and 2π. -/
theorem C40_generated (rng : Rng ℝ G) (hl : rng.Lawful) (n : ℕ) (g : G) :
    ∃ offset angle, (generatePristineGraphene rng n g).1 = layOutSheet n offset angle ∧
      |offset.x| ≤ 71 / 100 ∧ |offset.y| ≤ 71 / 100 ∧ 0 ≤ angle ∧ angle ≤ 2 * Real.pi := by
  have hb : (-BOND / 2 : ℝ) ≤ BOND / 2 := by norm_num [BOND]
  have h1 := hl.uniform_mem (-BOND / 2) (BOND / 2) g hb
  have h2 := hl.uniform_mem (-BOND / 2) (BOND / 2) (rng.uniform (-BOND / 2) (BOND / 2) g).2 hb
  have h3 := hl.uniform_mem 0 (2 * Real.pi)
    (rng.uniform (-BOND / 2) (BOND / 2) (rng.uniform (-BOND / 2) (BOND / 2) g).2).2
    (by positivity)
  refine ⟨_, _, rfl, ?_, ?_, h3.1, h3.2⟩
  · rw [abs_le]; norm_num [BOND] at h1 ⊢; exact h1
  · rw [abs_le]; norm_num [BOND] at h2 ⊢; exact h2

/-- For two or more columns every atom, even at the border, has a neighbour at exactly 1.42 Å. -/
theorem C40_no_isolated_atom (n : ℕ) (hn : 2 ≤ n) (offset : V2 ℝ) (angle : ℝ) (p : V2 ℝ)
    (hp : p ∈ layOutSheet n offset angle) :
    ∃ q ∈ layOutSheet n offset angle, Spec.dist p q = 142 / 100 := by
  rw [layOutSheet_eq] at hp ⊢
  obtain ⟨u, hu, rfl⟩ := List.mem_map.1 hp
  obtain ⟨X, Y, h1, h3, rfl, hX0, hX, hY0, hY⟩ := (mem_hexagonalGrid n u).1 hu
  have hrows : 2 ≤ hexRows n := by
    rw [hexRows, Nat.le_floor_iff (div_nonneg (Nat.cast_nonneg n) hexRatio_pos.le),
      le_div_iff₀ hexRatio_pos]
    have : (2 : ℝ) ≤ n := by exact_mod_cast hn
    have := hexRatio_lt_one
    push_cast
    linarith
  have key : ∀ X' Y' : ℤ, X' % 2 = Y' % 2 → X' % 3 ≠ 0 → 0 ≤ X' → X' < 2 * n → 0 ≤ Y' →
      Y' < hexRows n → (X - X') ^ 2 + 3 * (Y - Y') ^ 2 = 4 →
      ∃ q ∈ (hexagonalGrid n).map (motion (meanPoint ((hexagonalGrid n).map
        (fun p => V2.smul BOND p))) offset angle),
        Spec.dist (motion (meanPoint ((hexagonalGrid n).map (fun p => V2.smul BOND p))) offset angle
          (site X Y)) q = 142 / 100 := by
    intro X' Y' a b c d e f h
    refine ⟨_, List.mem_map_of_mem ((mem_hexagonalGrid n (site X' Y')).2
      ⟨X', Y', a, b, rfl, c, d, e, f⟩), ?_⟩
    rw [motion_dist, dist_eq_sqrt, distSq_site, h]
    norm_num
  have hmod : X % 3 = 1 ∨ X % 3 = 2 := by omega
  rcases hmod with h | h
  · by_cases h4 : 2 ≤ X
    · exact key (X - 2) Y (by omega) (by omega) (by omega) (by omega) hY0 hY (by ring)
    · exact key (X + 1) (Y - 1) (by omega) (by omega) (by omega) (by omega) (by omega) (by omega)
        (by ring)
  · by_cases hY1 : 1 ≤ Y
    · exact key (X - 1) (Y - 1) (by omega) (by omega) (by omega) (by omega) (by omega) (by omega)
        (by ring)
    · exact key (X - 1) (Y + 1) (by omega) (by omega) (by omega) (by omega) (by omega) (by omega)
        (by ring)

/-- There are atoms away from the border already with seven columns: site (X, Y) = (5, 3). -/
example : ∃ u : V2 ℝ, HoneycombPoint u ∧ (1 ≤ u.x ∧ u.x ≤ (7 : ℕ) - 2) ∧ (1 ≤ u.y ∧ u.y ≤ (7 : ℕ) - 2) := by
  have h1 : Real.sqrt 3 ≤ 2 := by rw [Real.sqrt_le_left (by norm_num)]; norm_num
  have h2 : 1 ≤ Real.sqrt 3 := by rw [Real.one_le_sqrt]; norm_num
  refine ⟨⟨((5 : ℤ) : ℝ) / 2, ((3 : ℤ) : ℝ) * (Real.sqrt 3 / 2)⟩, ⟨5, 3, by norm_num, by norm_num, rfl⟩,
    ⟨by norm_num, by norm_num⟩, ?_, ?_⟩ <;> push_cast <;> linarith

end PD.Props
