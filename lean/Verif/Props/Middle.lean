/- Property C123: an episode starts with the silicon in the middle of the sheet. -/
import Verif.Props.SimData
import Verif.Props.Jumps

set_option linter.unusedSectionVars false
set_option linter.unusedSimpArgs false

namespace PD.Props
open PD PD.Spec
variable {G O P Img : Type}

/-! ### The mean of the lattice points -/

/-- The columns kept in a row. -/
def keptCols (row n : ℕ) : List ℕ := (List.range n).filter (fun col => !hexRemoved row col)

theorem keptCols_succ (row n : ℕ) :
    keptCols row (n + 1) = keptCols row n ++ if hexRemoved row n then [] else [n] := by
  unfold keptCols
  rw [List.range_succ, List.filter_append]
  cases h : hexRemoved row n <;> simp [h]

theorem keptCols_three (row k : ℕ) : (row % 2 = 0 →
      (keptCols row (3 * k)).length = 2 * k ∧ (keptCols row (3 * k)).sum = 3 * k ^ 2) ∧
    (row % 2 = 1 →
      (keptCols row (3 * k)).length = 2 * k ∧ (keptCols row (3 * k)).sum + k = 3 * k ^ 2) := by
  induction k with
  | zero => simp [keptCols]
  | succ k ih =>
    have e : 3 * (k + 1) = 3 * k + 1 + 1 + 1 := by ring
    rw [e, keptCols_succ, keptCols_succ, keptCols_succ]
    have m0 : (3 * k) % 3 = 0 := by omega
    have m1 : (3 * k + 1) % 3 = 1 := by omega
    have m2 : (3 * k + 1 + 1) % 3 = 2 := by omega
    constructor
    · intro h
      obtain ⟨h1, h2⟩ := ih.1 h
      simp [hexRemoved, h, m0, m1, m2, h1, h2]
      constructor
      · omega
      · ring
    · intro h
      obtain ⟨h1, h2⟩ := ih.2 h
      simp [hexRemoved, h, m0, m1, m2, h1]
      constructor
      · omega
      · nlinarith

/-- The mean column of a row, with the shift of the odd rows, is the middle up to one. -/
theorem keptCols_mean (row n : ℕ) :
    (n : ℝ) * (keptCols row n).length ≤
      2 * (((keptCols row n).sum : ℝ) + (if row % 2 = 1 then 1 / 2 else 0) * (keptCols row n).length) +
        2 * (keptCols row n).length ∧
    2 * (((keptCols row n).sum : ℝ) + (if row % 2 = 1 then 1 / 2 else 0) * (keptCols row n).length) ≤
      n * (keptCols row n).length + 2 * (keptCols row n).length := by
  obtain ⟨k, r, hr, rfl⟩ : ∃ k r, r < 3 ∧ n = 3 * k + r := ⟨n / 3, n % 3, by omega, by omega⟩
  have m0 : (3 * k) % 3 = 0 := by omega
  have m1 : (3 * k + 1) % 3 = 1 := by omega
  have hk : (0 : ℝ) ≤ k := Nat.cast_nonneg k
  have hp : row % 2 = 0 ∨ row % 2 = 1 := by omega
  rcases hp with h | h
  · obtain ⟨h1, h2⟩ := (keptCols_three row k).1 h
    have hs : ((keptCols row (3 * k)).sum : ℝ) = 3 * (k : ℝ) ^ 2 := by exact_mod_cast h2
    interval_cases r
    · simp [h, h1, hs]; constructor <;> nlinarith
    · rw [keptCols_succ]; simp [hexRemoved, h, m0, h1, hs]; constructor <;> nlinarith
    · rw [keptCols_succ, keptCols_succ]; simp [hexRemoved, h, m0, m1, h1, hs]; constructor <;> nlinarith
  · obtain ⟨h1, h2⟩ := (keptCols_three row k).2 h
    have hs : ((keptCols row (3 * k)).sum : ℝ) + k = 3 * (k : ℝ) ^ 2 := by exact_mod_cast h2
    have hs : ((keptCols row (3 * k)).sum : ℝ) = 3 * (k : ℝ) ^ 2 - k := by linarith
    interval_cases r
    · simp [h, h1, hs]; constructor <;> nlinarith
    · rw [keptCols_succ]; simp [hexRemoved, h, m0, h1, hs]; constructor <;> nlinarith
    · rw [keptCols_succ, keptCols_succ]; simp [hexRemoved, h, m0, m1, h1, hs]; constructor <;> nlinarith

theorem keptCols_parity (row n : ℕ) : keptCols row n = keptCols (row % 2) n := by
  unfold keptCols
  congr 1
  funext col
  simp [hexRemoved]

/-- Rows with alternating weights: the weighted mean row is the middle up to a half. -/
theorem alternating (a b : ℝ) (ha : 0 ≤ a) (hb : 0 ≤ b) (R : ℕ) :
    let w : ℕ → ℝ := fun Y => if Y % 2 = 1 then b else a
    let S0 := ((List.range R).map w).sum
    let S1 := ((List.range R).map (fun Y : ℕ => (Y : ℝ) * w Y)).sum
    (R - 2) * S0 ≤ 2 * S1 ∧ 2 * S1 ≤ R * S0 := by
  intro w S0 S1
  have hclosed : ∀ k : ℕ, ((List.range (2 * k)).map w).sum = k * (a + b) ∧
      ((List.range (2 * k)).map (fun Y : ℕ => (Y : ℝ) * w Y)).sum = a * (k * (k - 1)) + b * k ^ 2 := by
    intro k
    induction k with
    | zero => simp
    | succ k ih =>
      have e : 2 * (k + 1) = 2 * k + 1 + 1 := by ring
      have m0 : (2 * k) % 2 = 0 := by omega
      have m1 : (2 * k + 1) % 2 = 1 := by omega
      rw [e, List.range_succ, List.range_succ]
      simp only [List.map_append, List.sum_append, ih.1, ih.2, List.map_cons, List.map_nil, List.sum_cons,
        List.sum_nil, w, m0, m1]
      push_cast
      constructor
      · norm_num; ring
      · norm_num; ring
  rcases Nat.even_or_odd' R with ⟨k, rfl | rfl⟩
  · obtain ⟨h0, h1⟩ := hclosed k
    have hk : (0 : ℝ) ≤ k := Nat.cast_nonneg k
    simp only [S0, S1, h0, h1]
    push_cast
    constructor <;> nlinarith [mul_nonneg hk ha, mul_nonneg hk hb]
  · obtain ⟨h0, h1⟩ := hclosed k
    have hk : (0 : ℝ) ≤ k := Nat.cast_nonneg k
    have m0 : (2 * k) % 2 = 0 := by omega
    simp only [S0, S1, List.range_succ, List.map_append, List.sum_append, h0, h1, List.map_cons, List.map_nil,
      List.sum_cons, List.sum_nil, w, m0]
    push_cast
    constructor <;> norm_num <;> nlinarith [mul_nonneg hk ha, mul_nonneg hk hb]

theorem sum_flatMap {α β : Type} (L : List α) (f : α → List β) (g : β → ℝ) :
    ((L.flatMap f).map g).sum = (L.map (fun a => ((f a).map g).sum)).sum := by
  induction L with
  | nil => simp
  | cons a L ih => simp [List.flatMap_cons, ih]

theorem sum_range_le {R : ℕ} {f g : ℕ → ℝ} (h : ∀ Y, f Y ≤ g Y) :
    ((List.range R).map f).sum ≤ ((List.range R).map g).sum := by
  induction R with
  | zero => simp
  | succ R ih => simp only [List.range_succ, List.map_append, List.sum_append, List.map_cons, List.map_nil,
      List.sum_cons, List.sum_nil, add_zero]; exact add_le_add ih (h R)

theorem sum_mul_left' (L : List ℕ) (c : ℝ) (f : ℕ → ℝ) :
    (L.map (fun Y => c * f Y)).sum = c * (L.map f).sum := by
  induction L with
  | nil => simp
  | cons a L ih => simp [ih]; ring

theorem sum_add' (L : List ℕ) (f g : ℕ → ℝ) :
    (L.map (fun Y => f Y + g Y)).sum = (L.map f).sum + (L.map g).sum := by
  induction L with
  | nil => simp
  | cons a L ih => simp [ih]; ring

theorem row_sums (row n : ℕ) :
    (((keptCols row n).map (hexPoint row)).map (fun p => p.x)).sum =
      ((keptCols row n).sum : ℝ) + (if row % 2 = 1 then 1 / 2 else 0) * (keptCols row n).length ∧
    (((keptCols row n).map (hexPoint row)).map (fun p => p.y)).sum =
      hexRatio * ((row : ℝ) * (keptCols row n).length) ∧
    (((keptCols row n).map (hexPoint row)).map (fun _ => (1 : ℝ))).sum = (keptCols row n).length := by
  induction keptCols row n with
  | nil => simp
  | cons c l ih =>
    obtain ⟨h1, h2, h3⟩ := ih
    simp only [List.map_cons, List.sum_cons, h1, h2, h3, hexPoint, List.length_cons]
    push_cast
    refine ⟨by ring, by ring, by ring⟩

/-- The mean of the lattice points is in the middle of the square, up to one bond length across and one and
a half up. -/
theorem lattice_mean (n : ℕ) (hne : hexagonalGrid n ≠ []) :
    ((n : ℝ) / 2 - 1 ≤ (meanPoint (hexagonalGrid n)).x ∧ (meanPoint (hexagonalGrid n)).x ≤ n / 2 + 1) ∧
    ((n : ℝ) / 2 - 3 / 2 ≤ (meanPoint (hexagonalGrid n)).y ∧ (meanPoint (hexagonalGrid n)).y ≤ n / 2) := by
  have hgrid : hexagonalGrid n = (List.range (hexRows n)).flatMap (fun row =>
    (keptCols row n).map (hexPoint row)) := rfl
  set R := hexRows n with hR
  have hlen : ((hexagonalGrid n).length : ℝ) =
      ((List.range R).map (fun Y => ((keptCols Y n).length : ℝ))).sum := by
    have : ((hexagonalGrid n).length : ℝ) = ((hexagonalGrid n).map (fun _ => (1 : ℝ))).sum := by simp
    rw [this, hgrid, sum_flatMap]
    simp only [(row_sums _ n).2.2]
  have hx : ((hexagonalGrid n).map (fun p => p.x)).sum =
      ((List.range R).map (fun Y => ((keptCols Y n).sum : ℝ) +
        (if Y % 2 = 1 then 1 / 2 else 0) * (keptCols Y n).length)).sum := by
    rw [hgrid, sum_flatMap]
    simp only [(row_sums _ n).1]
  have hy : ((hexagonalGrid n).map (fun p => p.y)).sum =
      hexRatio * ((List.range R).map (fun Y : ℕ => (Y : ℝ) * (keptCols Y n).length)).sum := by
    rw [hgrid, sum_flatMap, ← sum_mul_left']
    simp only [(row_sums _ n).2.1]
  have hpos : (0 : ℝ) < (hexagonalGrid n).length := by
    have := List.length_pos_iff.2 hne
    exact_mod_cast this
  set L : ℝ := ((hexagonalGrid n).length : ℝ) with hL
  set S := ((List.range R).map (fun Y => ((keptCols Y n).sum : ℝ) +
        (if Y % 2 = 1 then 1 / 2 else 0) * (keptCols Y n).length)).sum with hS
  have hx1 : (n : ℝ) * L ≤ 2 * S + 2 * L := by
    rw [hlen, hS, ← sum_mul_left', ← sum_mul_left', ← sum_mul_left', ← sum_add']
    exact sum_range_le (fun Y => (keptCols_mean Y n).1)
  have hx2 : 2 * S ≤ n * L + 2 * L := by
    rw [hlen, hS, ← sum_mul_left', ← sum_mul_left', ← sum_mul_left', ← sum_add']
    exact sum_range_le (fun Y => (keptCols_mean Y n).2)
  have hw : ∀ Y, ((keptCols Y n).length : ℝ) =
      if Y % 2 = 1 then ((keptCols 1 n).length : ℝ) else (keptCols 0 n).length := by
    intro Y
    rw [keptCols_parity]
    have : Y % 2 = 0 ∨ Y % 2 = 1 := by omega
    rcases this with h | h <;> simp [h]
  have halt := alternating (keptCols 0 n).length (keptCols 1 n).length (Nat.cast_nonneg _) (Nat.cast_nonneg _) R
  simp only at halt
  simp only [← hw] at halt
  rw [← hlen] at halt
  set T := ((List.range R).map (fun Y : ℕ => (Y : ℝ) * (keptCols Y n).length)).sum with hT
  have hr0 := hexRatio_pos
  have hr1 := hexRatio_lt_one
  have h1 := hexRows_le n
  have h2 := lt_hexRows n
  rw [← hR] at h1 h2
  simp only [meanPoint, hx, hy, ← hL]
  refine ⟨⟨?_, ?_⟩, ?_, ?_⟩
  · rw [le_div_iff₀ hpos]; linarith
  · rw [div_le_iff₀ hpos]; linarith
  · rw [le_div_iff₀ hpos]
    have : hexRatio * ((R - 2) * L) ≤ hexRatio * (2 * T) := mul_le_mul_of_nonneg_left halt.1 hr0.le
    have h3 : (n : ℝ) * L ≤ (R + 1) * hexRatio * L := mul_le_mul_of_nonneg_right h2.le hpos.le
    have h4 : hexRatio * L ≤ 1 * L := mul_le_mul_of_nonneg_right hr1.le hpos.le
    nlinarith
  · rw [div_le_iff₀ hpos]
    have : hexRatio * (2 * T) ≤ hexRatio * (R * L) := mul_le_mul_of_nonneg_left halt.2 hr0.le
    have h3 : R * hexRatio * L ≤ n * L := mul_le_mul_of_nonneg_right h1 hpos.le
    nlinarith

/-! ### Some atom is near every point -/

theorem site_near (z : V2 ℝ) : ∃ X Y : ℤ, X % 2 = Y % 2 ∧ X % 3 ≠ 0 ∧
    |(site X Y).x - z.x| ≤ 1 ∧ |(site X Y).y - z.y| ≤ hexRatio / 2 := by
  set Y : ℤ := round (z.y / hexRatio) with hY
  have hr0 := hexRatio_pos
  have hy : |(Y : ℝ) * hexRatio - z.y| ≤ hexRatio / 2 := by
    have := abs_sub_round (z.y / hexRatio)
    rw [← hY, abs_sub_comm] at this
    have h2 : (Y : ℝ) * hexRatio - z.y = ((Y : ℝ) - z.y / hexRatio) * hexRatio := by
      field_simp
    rw [h2, abs_mul, abs_of_pos hr0]
    nlinarith
  set e : ℤ := Y % 2 with he
  set k : ℤ := ⌊z.x - (e : ℝ) / 2⌋ with hk
  have h1 := Int.floor_le (z.x - (e : ℝ) / 2)
  have h2 := Int.lt_floor_add_one (z.x - (e : ℝ) / 2)
  rw [← hk] at h1 h2
  by_cases h3 : (2 * k + e) % 3 = 0
  · refine ⟨2 * k + e + 2, Y, by omega, by omega, ?_, hy⟩
    simp only [site]
    push_cast
    rw [abs_le]
    constructor <;> linarith
  · refine ⟨2 * k + e, Y, by omega, h3, ?_, hy⟩
    simp only [site]
    push_cast
    rw [abs_le]
    constructor <;> linarith

/-! ### Where the atoms of a generated sheet are, seen from the origin -/

/-- The lattice point that the layout puts at the origin. -/
noncomputable def originOf (n : ℕ) (offset : V2 ℝ) : V2 ℝ :=
  ⟨(meanPoint (hexagonalGrid n)).x - offset.x / BOND, (meanPoint (hexagonalGrid n)).y - offset.y / BOND⟩

theorem mean_smul (ps : List (V2 ℝ)) (c : ℝ) :
    meanPoint (ps.map (fun p => V2.smul c p)) = V2.smul c (meanPoint ps) := by
  have h1 : ∀ l : List (V2 ℝ), ((l.map (fun p => V2.smul c p)).map (fun p => p.x)).sum =
      c * (l.map (fun p => p.x)).sum := by
    intro l
    induction l with
    | nil => simp
    | cons a l ih => simp only [List.map_cons, List.sum_cons, ih, V2.smul_x]; ring
  have h2 : ∀ l : List (V2 ℝ), ((l.map (fun p => V2.smul c p)).map (fun p => p.y)).sum =
      c * (l.map (fun p => p.y)).sum := by
    intro l
    induction l with
    | nil => simp
    | cons a l ih => simp only [List.map_cons, List.sum_cons, ih, V2.smul_y]; ring
  ext
  · simp only [meanPoint, h1, List.length_map, V2.smul_x]; ring
  · simp only [meanPoint, h2, List.length_map, V2.smul_y]; ring

theorem bond_val : (BOND : ℝ) = 142 / 100 := by norm_num [BOND]

theorem normSq_sheetMotion (n : ℕ) (offset : V2 ℝ) (angle : ℝ) (u : V2 ℝ) :
    V2.normSq (sheetMotion n offset angle u) = (142 / 100) ^ 2 *
      ((u.x - (originOf n offset).x) ^ 2 + (u.y - (originOf n offset).y) ^ 2) := by
  have h := Real.sin_sq_add_cos_sq angle
  have hb : (BOND : ℝ) ≠ 0 := by rw [bond_val]; norm_num
  rw [← bond_val]
  simp only [sheetMotion, mean_smul, motion, originOf, V2.normSq, V2.sub_x, V2.sub_y, V2.add_x, V2.add_y,
    V2.smul_x, V2.smul_y]
  set c := meanPoint (hexagonalGrid n)
  have hx : BOND * u.x - BOND * c.x + offset.x = BOND * (u.x - (c.x - offset.x / BOND)) := by
    field_simp; ring
  have hy : BOND * u.y - BOND * c.y + offset.y = BOND * (u.y - (c.y - offset.y / BOND)) := by
    field_simp; ring
  rw [hx, hy]
  set a := u.x - (c.x - offset.x / BOND)
  set b := u.y - (c.y - offset.y / BOND)
  linear_combination (BOND ^ 2 * (a ^ 2 + b ^ 2)) * h

theorem originOf_mem (n : ℕ) (hne : hexagonalGrid n ≠ []) (offset : V2 ℝ) (hx : |offset.x| ≤ 71 / 100)
    (hy : |offset.y| ≤ 71 / 100) :
    ((n : ℝ) / 2 - 3 / 2 ≤ (originOf n offset).x ∧ (originOf n offset).x ≤ n / 2 + 3 / 2) ∧
    ((n : ℝ) / 2 - 2 ≤ (originOf n offset).y ∧ (originOf n offset).y ≤ n / 2 + 1 / 2) := by
  obtain ⟨⟨h1, h2⟩, h3, h4⟩ := lattice_mean n hne
  obtain ⟨a1, a2⟩ := abs_le.1 hx
  obtain ⟨b1, b2⟩ := abs_le.1 hy
  have e : ∀ t : ℝ, t / BOND = t * (100 / 142) := by intro t; rw [bond_val]; ring
  simp only [originOf, e]
  refine ⟨⟨?_, ?_⟩, ?_, ?_⟩ <;> linarith

theorem dist_origin (p : V2 ℝ) : Spec.dist ⟨0, 0⟩ p = Real.sqrt (V2.normSq p) := by
  rw [dist_eq_sqrt]
  congr 1
  simp only [V2.distSq, V2.normSq, V2.sub_x, V2.sub_y]
  ring

/-- In a generated sheet of `n` columns every atom less than `0.71 n - 6.39` Å from the origin looks like
graphene. -/
theorem C123_disc (n : ℕ) (offset : V2 ℝ) (angle : ℝ) (hx : |offset.x| ≤ 71 / 100)
    (hy : |offset.y| ≤ 71 / 100) (p : V2 ℝ) (hp : p ∈ layOutSheet n offset angle)
    (hd : Spec.dist ⟨0, 0⟩ p ≤ 71 / 100 * n - 639 / 100) :
    ∃ nbrs, Honeycomb (layOutSheet n offset angle) p nbrs := by
  have hp' := hp
  rw [layOutSheet_eq] at hp'
  obtain ⟨u, hu, rfl⟩ := List.mem_map.1 hp'
  have hne : hexagonalGrid n ≠ [] := List.ne_nil_of_mem hu
  obtain ⟨X, Y, h1, h3, rfl, _⟩ := (mem_hexagonalGrid n u).1 hu
  obtain ⟨⟨a1, a2⟩, b1, b2⟩ := originOf_mem n hne offset hx hy
  have hd' : Spec.dist ⟨0, 0⟩ (sheetMotion n offset angle (site X Y)) ≤ 71 / 100 * n - 639 / 100 := hd
  have h0 : (0 : ℝ) ≤ 71 / 100 * n - 639 / 100 := le_trans (Real.sqrt_nonneg _) hd'
  rw [dist_origin] at hd'
  have hsq := (Real.sqrt_le_left h0).1 hd'
  rw [normSq_sheetMotion] at hsq
  set z := originOf n offset
  set w := site X Y with hw
  have hrad : (0 : ℝ) ≤ n / 2 - 9 / 2 := by linarith
  have key : (w.x - z.x) ^ 2 + (w.y - z.y) ^ 2 ≤ ((n : ℝ) / 2 - 9 / 2) ^ 2 := by nlinarith
  have kx := abs_le.1 (abs_le_of_sq_le_sq (by nlinarith [sq_nonneg (w.y - z.y)]) hrad :
    |w.x - z.x| ≤ (n : ℝ) / 2 - 9 / 2)
  have ky := abs_le.1 (abs_le_of_sq_le_sq (by nlinarith [sq_nonneg (w.x - z.x)]) hrad :
    |w.y - z.y| ≤ (n : ℝ) / 2 - 9 / 2)
  exact (inner_generated n offset angle w ⟨X, Y, h1, h3, rfl⟩ ⟨by linarith [kx.1], by linarith [kx.2]⟩
    ⟨by linarith [ky.1], by linarith [ky.2]⟩).2

/-- In a generated sheet of at least twelve columns some atom is within 1.55 Å of the origin. -/
theorem atom_near_origin (n : ℕ) (hn : 12 ≤ n) (offset : V2 ℝ) (angle : ℝ) (hx : |offset.x| ≤ 71 / 100)
    (hy : |offset.y| ≤ 71 / 100) :
    ∃ p ∈ layOutSheet n offset angle, Spec.dist ⟨0, 0⟩ p ≤ 31 / 20 := by
  have hn' : (12 : ℝ) ≤ n := by exact_mod_cast hn
  have hr0 := hexRatio_pos
  have hr1 := hexRatio_lt_one
  have hrs := hexRatio_sq
  have hlt := lt_hexRows n
  have hne : hexagonalGrid n ≠ [] := by
    have hR : (0 : ℤ) < hexRows n := by
      rcases Nat.eq_zero_or_pos (hexRows n) with h | h
      · rw [h] at hlt; push_cast at hlt; linarith
      · exact_mod_cast h
    exact List.ne_nil_of_mem ((mem_hexagonalGrid n (site 2 0)).2 ⟨2, 0, by norm_num, by norm_num, rfl, by norm_num,
      by omega, le_rfl, hR⟩)
  obtain ⟨⟨a1, a2⟩, b1, b2⟩ := originOf_mem n hne offset hx hy
  set z := originOf n offset with hz
  obtain ⟨X, Y, h1, h3, dx, dy⟩ := site_near z
  have ex := abs_le.1 dx
  have ey := abs_le.1 dy
  have exx : (site X Y).x = (X : ℝ) / 2 := rfl
  have eyy : (site X Y).y = (Y : ℝ) * hexRatio := rfl
  have hX0 : 0 ≤ X := by
    have : (0 : ℝ) ≤ X := by rw [exx] at ex; linarith [ex.1]
    exact_mod_cast this
  have hX1 : X < 2 * n := by
    have : (X : ℝ) < 2 * n := by rw [exx] at ex; linarith [ex.2]
    exact_mod_cast this
  have hY0 : 0 ≤ Y := by
    have h : (0 : ℝ) ≤ Y * hexRatio := by rw [eyy] at ey; linarith [ey.1]
    have : (0 : ℝ) ≤ Y := nonneg_of_mul_nonneg_left h hr0
    exact_mod_cast this
  have hY1 : Y < hexRows n := by
    have h : (Y : ℝ) * hexRatio < hexRows n * hexRatio := by rw [eyy] at ey; nlinarith [ey.2]
    have := lt_of_mul_lt_mul_right h hr0.le
    exact_mod_cast this
  refine ⟨sheetMotion n offset angle (site X Y), ?_, ?_⟩
  · rw [layOutSheet_eq]
    exact List.mem_map.2 ⟨_, (mem_hexagonalGrid n _).2 ⟨X, Y, h1, h3, rfl, hX0, hX1, hY0, hY1⟩, rfl⟩
  · rw [dist_origin, normSq_sheetMotion, ← hz]
    refine Real.sqrt_le_iff.2 ⟨by norm_num, ?_⟩
    have sx : ((site X Y).x - z.x) ^ 2 ≤ 1 := by
      rw [← sq_abs]; nlinarith [abs_nonneg ((site X Y).x - z.x)]
    have sy : ((site X Y).y - z.y) ^ 2 ≤ 3 / 16 := by
      rw [← sq_abs]; nlinarith [abs_nonneg ((site X Y).y - z.y)]
    nlinarith

/-! ### The start -/

/-- From every state, a reset on generated graphene of at least twelve columns returns, and after it the only
silicon is the atom nearest the origin, at most 1.55 Å from it, in a place that looks like graphene. -/
theorem C123_start (cfg : SimCfg ℝ G O P Img) (hl : cfg.rng.Lawful) (n : ℕ) (hn : 12 ≤ n)
    (hgen : cfg.generate = generatePristineGraphene cfg.rng n) (b : Bool) (s : Sim ℝ G O P) :
    ∃ o s' sheet si nbrs, Sim.reset cfg b s = .ok o s' ∧ s'.ctx.mat.grid = some sheet ∧
      silicons sheet = [si] ∧ (∀ p ∈ sheet.positions, Spec.dist ⟨0, 0⟩ si ≤ Spec.dist ⟨0, 0⟩ p) ∧
      Spec.dist ⟨0, 0⟩ si ≤ 31 / 20 ∧ Honeycomb sheet.positions si nbrs := by
  obtain ⟨offset, angle, he, hx, hy, _⟩ := C40_generated cfg.rng hl n s.ctx.g
  obtain ⟨o, s', hr⟩ := sim_reset_returns cfg b s (by rw [hgen, he]; exact sheet_ne_nil n (by omega) _ _)
  obtain ⟨sheet, si0, sc, hf⟩ := reset_ok hr
  have hpos : sheet.positions = layOutSheet n offset angle := by rw [hf.positions, hgen, he]
  obtain ⟨si, h1, h2, h3⟩ := dopeSheet_nearest (reset_dopes hr hf.grid)
  rw [hgen, he] at h2 h3
  have hmin : ∀ p ∈ layOutSheet n offset angle, Spec.dist ⟨0, 0⟩ si ≤ Spec.dist ⟨0, 0⟩ p := by
    intro p hp
    rw [dist_origin, dist_origin]
    exact Real.sqrt_le_sqrt (h3 p hp)
  obtain ⟨p, hp, hd⟩ := atom_near_origin n hn offset angle hx hy
  have hsi := (hmin p hp).trans hd
  have hn' : (12 : ℝ) ≤ n := by exact_mod_cast hn
  obtain ⟨nbrs, hH⟩ := C123_disc n offset angle hx hy si h2 (by linarith)
  exact ⟨o, s', sheet, si, nbrs, hr, hf.grid, h1, by rw [hpos]; exact hmin, hsi, by rw [hpos]; exact hH⟩

/-! ### What an experiment that stays near the middle yields -/

theorem dist_triangle0 (p q : V2 ℝ) : Spec.dist ⟨0, 0⟩ q ≤ Spec.dist ⟨0, 0⟩ p + Spec.dist p q := by
  rw [dist_origin, dist_origin, dist_eq_sqrt]
  set a := Real.sqrt (V2.normSq p) with ha
  set b := Real.sqrt (V2.distSq p q) with hb
  have ha0 : 0 ≤ a := Real.sqrt_nonneg _
  have hb0 : 0 ≤ b := Real.sqrt_nonneg _
  have ha2 : a ^ 2 = p.x * p.x + p.y * p.y := by
    rw [ha, Real.sq_sqrt]
    · rfl
    · simp only [V2.normSq]; nlinarith [mul_self_nonneg p.x, mul_self_nonneg p.y]
  have hb2 : b ^ 2 = (p.x - q.x) ^ 2 + (p.y - q.y) ^ 2 := by
    rw [hb, Real.sq_sqrt]
    · simp only [V2.distSq, V2.normSq, V2.sub_x, V2.sub_y]; ring
    · simp only [V2.distSq, V2.normSq]; nlinarith [mul_self_nonneg (p - q).x, mul_self_nonneg (p - q).y]
  refine Real.sqrt_le_iff.2 ⟨by linarith, ?_⟩
  simp only [V2.normSq]
  have hcs : p.x * (q.x - p.x) + p.y * (q.y - p.y) ≤ a * b := by
    refine le_of_abs_le (abs_le_of_sq_le_sq ?_ (mul_nonneg ha0 hb0))
    rw [mul_pow, ha2, hb2]
    nlinarith [sq_nonneg (p.x * (q.y - p.y) - p.y * (q.x - p.x))]
  nlinarith

/-- Steps within the disc start where the sheet looks like graphene. -/
theorem disc_clean {cfg : SimCfg ℝ G O P Img} (hk : KeepsDoping cfg.rate) {n : ℕ} {offset : V2 ℝ} {angle : ℝ}
    (hx : |offset.x| ≤ 71 / 100) (hy : |offset.y| ≤ 71 / 100) {s : Sim ℝ G O P}
    {l : List (BeamControl ℝ × Grid ℝ × Observation ℝ Img)} (hrec : Recorded cfg s l) :
    ∀ {sheet : Grid ℝ} {o0 : Observation ℝ Img}, Sees s sheet o0 → sheet.positions = layOutSheet n offset angle →
      AllSteps (DiscStep (71 / 100 * n - 639 / 100) (11 / 2)) sheet l → AllSteps Clean sheet l := by
  induction hrec with
  | done s => intros; trivial
  | @step s s' c sheet' o rest b' hs hg hrest ih =>
    intro sheet o0 h1 hpos hdisc
    obtain ⟨sheet2, h2, hpos2, _⟩ := sees_step hk h1 hs
    have : sheet2 = sheet' := by have := h2.grid; rw [hg] at this; cases this; rfl
    subst this
    refine ⟨?_, ih h2 (hpos2.trans hpos) hdisc.2⟩
    intro si si' hsi hsi'
    obtain ⟨hd1, hd2⟩ := hdisc.1 si si' hsi hsi'
    refine ⟨?_, hd2⟩
    rw [hpos]
    refine C123_disc n offset angle hx hy si ?_ hd1
    obtain ⟨i, _, hi⟩ := silicon_index (g := sheet) (si := si) (by rw [hsi]; simp)
    rw [← hpos]
    exact List.mem_of_getElem? hi

/-- On generated graphene: if each step of the record starts with the silicon at most `0.71 n - 6.39` Å from
the origin and moves it at most 5.5 Å, the data points are exactly those the true sheets call for. -/
theorem C123_data (knn : Knn ℝ) (cutoff : ℝ) (hcut : 0 ≤ cutoff) (cfg : SimCfg ℝ G O P Img) (n : ℕ)
    (hgen : cfg.generate = generatePristineGraphene cfg.rng n)
    (hl : cfg.rng.Lawful) (hr : SwapRates cfg.rate) (g : G) (obs : List O) (ops : List (SimOp ℝ O))
    (b : Bool) (o0 : Observation ℝ Img) (s : Sim ℝ G O P)
    (hreset : Sim.reset cfg b (Sim.run cfg (Sim.fresh g obs) ops).2 = .ok o0 s)
    (sheet : Grid ℝ) (hsheet : s.ctx.mat.grid = some sheet)
    (l : List (BeamControl ℝ × Grid ℝ × Observation ℝ Img)) (hrec : Recorded cfg s l)
    (hdisc : AllSteps (DiscStep (71 / 100 * n - 639 / 100) (11 / 2)) sheet l) :
    ∃ data k, transitionsToDatapoints knn cutoff
        (trajectoriesToTransitions true [o0 :: l.map (fun e => e.2.2)]) [] {} =
        .ok (data, { noSiliconNeighbor := k }) ∧
      Yields sheet o0.fov l data ∧ data.length + k = l.length := by
  have hinv : SimInv (Sim.run cfg (Sim.fresh g obs : Sim ℝ G O P) ops).2 :=
    (SimInv.fresh g obs).run hl hr.keepsDoping ops
  obtain ⟨sheet1, h1, hpos⟩ := sees_reset hl hinv hreset
  have : sheet1 = sheet := by have := h1.grid; rw [hsheet] at this; cases this; rfl
  subst this
  obtain ⟨offset, angle, he, hx, hy, _⟩ := C40_generated cfg.rng hl n
    (Sim.run cfg (Sim.fresh g obs : Sim ℝ G O P) ops).2.ctx.g
  rw [hgen, he] at hpos
  exact C122_simulated_data knn cutoff hcut cfg hl hr g obs ops b o0 s hreset sheet1 hsheet
    (by rw [hpos]; exact (C40_honeycomb n offset angle).1) l hrec
    (disc_clean hr.keepsDoping hx hy hrec h1 hpos hdisc)

theorem moves_disc {cfg : SimCfg ℝ G O P Img} (hk : KeepsDoping cfg.rate) {R d : ℝ} (hd : 0 ≤ d)
    {s : Sim ℝ G O P} {l : List (BeamControl ℝ × Grid ℝ × Observation ℝ Img)} (hrec : Recorded cfg s l) :
    ∀ {sheet : Grid ℝ} {o0 : Observation ℝ Img} {r : ℝ}, Sees s sheet o0 →
      (∀ si, silicons sheet = [si] → Spec.dist ⟨0, 0⟩ si ≤ r) → r + d * l.length ≤ R + d →
      AllSteps (Moves d) sheet l → AllSteps (DiscStep R d) sheet l := by
  induction hrec with
  | done s => intros; trivial
  | @step s s' c sheet' o rest b hs hg hr ih =>
    intro sheet o0 r h hsi hlen hm
    obtain ⟨sheet1, h1, _⟩ := sees_step hk h hs
    have : sheet1 = sheet' := by have := h1.grid; rw [hg] at this; cases this; rfl
    subst this
    simp only [List.length_cons, Nat.cast_add, Nat.cast_one] at hlen
    have hl0 : (0 : ℝ) ≤ d * rest.length := mul_nonneg hd (Nat.cast_nonneg _)
    refine ⟨?_, ih (r := r + d) h1 ?_ (by linarith) hm.2⟩
    · intro si si' e e'
      exact ⟨(hsi si e).trans (by linarith), hm.1 si si' e e'⟩
    · intro si' e'
      obtain ⟨i, si, hi, hn, e⟩ := h.doped.exists_index
      rw [getSiliconPositions_eq_silicons h.doped.wf] at e
      have := hm.1 si si' e e'
      linarith [dist_triangle0 si si', hsi si e]

/-- A record that is short for the size of the sheet needs no assumption on where the silicon is: the first
step starts in the middle, and steps of at most `d ≤ 5.5` Å take time to get near the border.  For the
default of 50 columns and steps to a neighbour, `d = 1.5`, this covers 19 steps. -/
theorem C123_short (knn : Knn ℝ) (cutoff : ℝ) (hcut : 0 ≤ cutoff) (cfg : SimCfg ℝ G O P Img) (n : ℕ)
    (hn : 12 ≤ n) (hgen : cfg.generate = generatePristineGraphene cfg.rng n)
    (hl : cfg.rng.Lawful) (hr : SwapRates cfg.rate) (g : G) (obs : List O) (ops : List (SimOp ℝ O))
    (b : Bool) (o0 : Observation ℝ Img) (s : Sim ℝ G O P)
    (hreset : Sim.reset cfg b (Sim.run cfg (Sim.fresh g obs) ops).2 = .ok o0 s)
    (sheet : Grid ℝ) (hsheet : s.ctx.mat.grid = some sheet)
    (l : List (BeamControl ℝ × Grid ℝ × Observation ℝ Img)) (hrec : Recorded cfg s l)
    (d : ℝ) (hd : 0 ≤ d) (hd' : d ≤ 11 / 2) (hmoves : AllSteps (Moves d) sheet l)
    (hlen : 31 / 20 + d * l.length ≤ 71 / 100 * n - 639 / 100 + d) :
    ∃ data k, transitionsToDatapoints knn cutoff
        (trajectoriesToTransitions true [o0 :: l.map (fun e => e.2.2)]) [] {} =
        .ok (data, { noSiliconNeighbor := k }) ∧
      Yields sheet o0.fov l data ∧ data.length + k = l.length := by
  have hinv : SimInv (Sim.run cfg (Sim.fresh g obs : Sim ℝ G O P) ops).2 :=
    (SimInv.fresh g obs).run hl hr.keepsDoping ops
  obtain ⟨sheet1, h1, _⟩ := sees_reset hl hinv hreset
  have : sheet1 = sheet := by have := h1.grid; rw [hsheet] at this; cases this; rfl
  subst this
  obtain ⟨o, s2, sheet2, si, nbrs, e1, e2, e3, _, e5, _⟩ := C123_start cfg hl n hn hgen b
    (Sim.run cfg (Sim.fresh g obs : Sim ℝ G O P) ops).2
  rw [hreset] at e1
  cases e1
  rw [hsheet] at e2
  cases e2
  refine C123_data knn cutoff hcut cfg n hgen hl hr g obs ops b o0 s hreset sheet1 hsheet l hrec ?_
  have := moves_disc hr.keepsDoping hd hrec (r := 31 / 20) (R := 71 / 100 * n - 639 / 100) h1
    (fun si' e => by rw [e3] at e; cases e; exact e5) hlen hmoves
  revert this
  clear * - hd'
  induction l generalizing sheet1 with
  | nil => intro _; trivial
  | cons e l ih =>
    intro h
    exact ⟨fun si si' h1 h2 => ⟨(h.1 si si' h1 h2).1, (h.1 si si' h1 h2).2.trans hd'⟩, ih _ h.2⟩

/-- A reset with the default sheet width, after a history that begins with a failing step. -/
example : ∃ o s' sheet si nbrs, Sim.reset playCfg.sim true (Sim.run playCfg.sim
      (Sim.fresh () [] : Sim ℝ Unit Unit Unit) [.step [] true, .reset false]).2 = .ok o s' ∧
    s'.ctx.mat.grid = some sheet ∧ silicons sheet = [si] ∧
    (∀ p ∈ sheet.positions, Spec.dist ⟨0, 0⟩ si ≤ Spec.dist ⟨0, 0⟩ p) ∧
    Spec.dist ⟨0, 0⟩ si ≤ 31 / 20 ∧ Honeycomb sheet.positions si nbrs :=
  C123_start playCfg.sim playCfg_ok.1 50 (by norm_num) rfl true _

/-- Imaging after the controls leaves the sheet alone. -/
theorem step_grid {cfg : SimCfg ℝ G O P Img} {cs : List (BeamControl ℝ)} {b : Bool} {s s' : Sim ℝ G O P}
    {fov : Fov ℝ} {o : Observation ℝ Img} (hreset : s.hasBeenReset = true) (hfov : s.fov = some fov)
    (h : Sim.step cfg cs b s = .ok o s') :
    ∃ el c, applyControls cfg fov cs 0 s.ctx = .ok el c ∧ s'.ctx.mat = c.mat := by
  rw [step_eq hreset hfov] at h
  cases hc : applyControls cfg fov cs 0 s.ctx with
  | error e c => simp only [hc] at h; cases h
  | ok el c =>
    simp only [hc] at h
    refine ⟨el, c, rfl, ?_⟩
    rcases observe_end cfg fov { s with ctx := c } with ⟨e, h1, _⟩ | ⟨grid, s1, h1, _, i1, _⟩
    · simp only [h1] at h; cases h
    simp only [h1] at h
    cases recentre_end cfg fov grid (el + cfg.imageDuration) s1 with
    | failed e s2 evs h2 => simp only [h2] at h; cases h
    | kept h2 =>
      simp only [h2] at h
      rcases maybeImage_end cfg b grid fov s1 with h3 | ⟨img, s3, h3, _, i3, _⟩
      · simp only [h3] at h; cases h
      · simp only [h3] at h; cases h; rw [i3.mat, i1.mat]
    | moved grid' si sc s2 h2 _ _ _ _ i2 =>
      simp only [h2] at h
      rcases maybeImage_end cfg b grid' (centredFov si sc) s2 with h3 | ⟨img, s3, h3, _, i3, _⟩
      · simp only [h3] at h; cases h
      · simp only [h3] at h; cases h; rw [i3.mat, i2.mat, i1.mat]

/-- In the example environment a control of less than a second is over before the first jump. -/
theorem brief_step {c : BeamControl ℝ} (hc1 : c.dwellTime < 1000000) {b : Bool} {s s' : Sim ℝ Unit Unit Unit}
    {sheet : Grid ℝ} {o0 o : Observation ℝ Unit} (h1 : Sees s sheet o0)
    (hs : Sim.step playCfg.sim [c] b s = .ok o s') : s'.ctx.mat.grid = some sheet := by
  have hflag : s.hasBeenReset = true := by
    by_contra hc
    simp [Sim.step, hc] at hs
  obtain ⟨el, c2, hc, hm⟩ := step_grid hflag h1.fov hs
  have hmflag := (h1.inv.sheet o0.fov h1.fov).2.1
  rw [hm]
  simp only [applyControls] at hc
  split at hc
  · cases hc
  rename_i c2 happ
  cases hc
  obtain ⟨evs, sheet', hj, hg', _⟩ := (C72_jump_process playCfg.sim.rng playCfg.sim.handle
    playCfg.sim.rate _ ⟨s.ctx.g, s.ctx.mat, notify _ _ s.ctx.obs⟩ c2 sheet hmflag h1.grid).1 ⟨_, happ⟩
  have hsec : ofSeconds (min (1 : ℝ) 3600) = 1000000 := by
    have : min (1 : ℝ) 3600 = totalSeconds 1000000 := by norm_num [totalSeconds]
    rw [this, ofSeconds_totalSeconds]
  rw [hg']
  cases hj with
  | over h => rfl
  | idle => rfl
  | late => rfl
  | jump h hr h0 hx hl' =>
    cases hx
    simp only [BeamControl.mk'] at hl'
    rw [hsec] at hl'
    omega

/-- The hypotheses of `C123_data` and `C123_short` can be met on the default sheet: a reset, and a control
of half a second, which is over before the first jump. -/
example : ∃ o0 s sheet c sheet' o, Sim.reset playCfg.sim true (Sim.run playCfg.sim
      (Sim.fresh () [] : Sim ℝ Unit Unit Unit) []).2 = .ok o0 s ∧
    s.ctx.mat.grid = some sheet ∧ Recorded playCfg.sim s [(c, sheet', o)] ∧
    AllSteps (Moves (3 / 2)) sheet [(c, sheet', o)] ∧
    (31 / 20 + 3 / 2 * (([(c, sheet', o)] : List (BeamControl ℝ × Grid ℝ × Observation ℝ Unit)).length : ℝ) ≤
      71 / 100 * (50 : ℕ) - 639 / 100 + 3 / 2) := by
  have hl : playCfg.sim.rng.Lawful := playCfg_ok.1
  have hsw : SwapRates playCfg.sim.rate := C39_pristine_swaps _ _
  have hinv : SimInv (Sim.fresh () [] : Sim ℝ Unit Unit Unit) := SimInv.fresh () []
  obtain ⟨o0, s, sheet, si, nbrs, hres, hg, hsi, _, _, hH⟩ := C123_start playCfg.sim hl 50 (by norm_num) rfl true
    (Sim.fresh () [] : Sim ℝ Unit Unit Unit)
  obtain ⟨sheet1, h1, hpos⟩ := sees_reset hl hinv hres
  have : sheet1 = sheet := by have := h1.grid; rw [hg] at this; cases this; rfl
  subst this
  obtain ⟨offset, angle, he, _⟩ := C40_generated playCfg.sim.rng hl 50 ()
  have hpos' : sheet1.positions = layOutSheet 50 offset angle := by rw [hpos]; exact he
  have hnd : sheet1.positions.Nodup := by rw [hpos']; exact (C40_honeycomb 50 offset angle).1
  obtain ⟨qs, hq1, hq2, hq3⟩ := hH.ten
  have h10 : 10 ≤ sheet1.positions.length := by
    rw [← hq2]
    exact (hq1.subperm (fun q hq => (hq3 q hq).1)).length_le
  have hgood : GoodSheet sheet1 := ⟨h1.doped, by omega, hnd⟩
  rcases simStep_returns playCfg.sim hl hsw (C99_rates_defined Witness.knn).2.1 true
    [BeamControl.mk' ⟨1 / 2, 1 / 2⟩ 500000] (by simp [BeamControl.mk']) s h1.inv o0.fov h1.fov sheet1 h1.grid hgood
    with ⟨o, s', hs⟩ | ⟨_, hbad⟩
  swap
  · exact absurd (hbad (fun _ _ => by norm_num [playCfg, Witness.rng])) (by simp [playCfg])
  have hsame := brief_step (by decide) h1 hs
  refine ⟨o0, s, sheet1, BeamControl.mk' ⟨1 / 2, 1 / 2⟩ 500000, sheet1, o, hres, hg,
    .step true hs hsame (.done _), ⟨?_, trivial⟩, by norm_num⟩
  intro a a' ha ha'
  rw [ha] at ha'
  cases ha'
  rw [dist_self']
  norm_num

end PD.Props
