/- Property C153: the canonical sheet. -/
import Verif.Props.Progress

set_option linter.unusedSectionVars false
set_option linter.unusedSimpArgs false

namespace PD.Props
open PD PD.Spec

theorem motion_flat (mean u : V2 ℝ) : motion mean 0 0 u = ⟨142 / 100 * u.x - mean.x, 142 / 100 * u.y - mean.y⟩ := by
  have e : (BOND : ℝ) = 142 / 100 := by norm_num [BOND]
  ext <;> simp [motion, e]

/-- The canonical sheet is the flat sheet, shifted so that its central atom is at the origin. -/
theorem canonical_eq {n : ℕ} (hne : layOutSheet n 0 0 ≠ []) : ∃ (g : Grid ℝ) (i : ℕ) (si : V2 ℝ), canonicalSheet n = .ok g ∧
    (layOutSheet n 0 0)[i]? = some si ∧ (∀ q ∈ layOutSheet n 0 0, V2.normSq si ≤ V2.normSq q) ∧
    g.positions = (layOutSheet n 0 0).map (fun p => p - si) ∧ SingleDoped g ∧ g.numbers[i]? = some SILICON := by
  obtain ⟨i, hi⟩ := argmin?_isSome (l := (layOutSheet n 0 0).map V2.normSq) (by simpa using hne)
  obtain ⟨v, hv, hmin, _⟩ := argmin?_eq_some hi
  rw [List.getElem?_map] at hv
  cases hsi : (layOutSheet n 0 0)[i]? with
  | none => rw [hsi] at hv; cases hv
  | some si =>
    rw [hsi, Option.map_some, Option.some.injEq] at hv
    subst hv
    have hlt := (List.getElem?_eq_some_iff.1 hsi).1
    have hd : dopeSheet (layOutSheet n 0 0) = .ok ⟨layOutSheet n 0 0,
        (List.replicate (layOutSheet n 0 0).length CARBON).set i SILICON⟩ := by
      simp only [dopeSheet, hi]
    have hdop := (dopeSheet_ok hd).2
    refine ⟨⟨(layOutSheet n 0 0).map (fun p => p - si), (List.replicate (layOutSheet n 0 0).length CARBON).set i SILICON⟩,
      i, si, ?_, hsi, fun q hq => hmin _ (List.mem_map_of_mem hq), rfl, ⟨?_, hdop.one⟩, by simp [hlt]⟩
    · simp only [canonicalSheet, hd, hi, hsi]
    · have := hdop.wf
      simp only [Grid.WF, List.length_map] at this ⊢
      exact this

theorem grid_nonempty {n : ℕ} (hn : 2 ≤ n) : layOutSheet n 0 0 ≠ [] := by
  have hrows : 1 ≤ hexRows n := by
    rw [hexRows, Nat.le_floor_iff (div_nonneg (Nat.cast_nonneg n) hexRatio_pos.le), le_div_iff₀ hexRatio_pos]
    have : (2 : ℝ) ≤ n := by exact_mod_cast hn
    have := hexRatio_lt_one
    push_cast
    linarith
  rw [layOutSheet_eq]
  refine List.ne_nil_of_mem (List.mem_map_of_mem ((mem_hexagonalGrid n (site 2 0)).2
    ⟨2, 0, by norm_num, by norm_num, rfl, by norm_num, by omega, by norm_num, by omega⟩))

/-- C153.  For two columns or more, the canonical sheet has one silicon, exactly at the origin, and the other atoms are
carbons.  The atoms are, each once, those of the honeycomb inside the rectangle, in the directions of the axes, 1.42 times
as large and shifted by the place `u₀` of the silicon, which is among the nearest to the centre of mass of the atoms. -/
theorem C153_centred (n : ℕ) (hn : 2 ≤ n) : ∃ g u₀, canonicalSheet n = .ok g ∧ SingleDoped g ∧
    silicons g = [⟨0, 0⟩] ∧ g.positions.Nodup ∧ HoneycombPoint u₀ ∧
    (∀ p, p ∈ g.positions ↔ ∃ u, HoneycombPoint u ∧ (0 ≤ u.x ∧ u.x < n) ∧
      (0 ≤ u.y ∧ u.y < ⌊(n : ℝ) / (Real.sqrt 3 / 2)⌋₊ * (Real.sqrt 3 / 2)) ∧
      p = ⟨142 / 100 * (u.x - u₀.x), 142 / 100 * (u.y - u₀.y)⟩) ∧
    ∀ m : V2 ℝ, (g.positions.map V2.x).sum = g.positions.length * m.x →
      (g.positions.map V2.y).sum = g.positions.length * m.y → ∀ p ∈ g.positions, Spec.dist m ⟨0, 0⟩ ≤ Spec.dist m p := by
  have hne := grid_nonempty hn
  obtain ⟨g, i, si, hg, hi, hmin, hpos, hdop, hnum⟩ := canonical_eq hne
  obtain ⟨u₀, hu₀, hsi⟩ : ∃ u ∈ hexagonalGrid n, motion (meanPoint ((hexagonalGrid n).map (fun p => V2.smul BOND p))) 0 0 u =
      si := by
    have := List.mem_of_getElem? hi
    rw [layOutSheet_eq] at this
    exact List.mem_map.1 this
  set mean := meanPoint ((hexagonalGrid n).map (fun p => V2.smul BOND p)) with hmean
  have hplace : ∀ u, motion mean 0 0 u - si = ⟨142 / 100 * (u.x - u₀.x), 142 / 100 * (u.y - u₀.y)⟩ := by
    intro u
    rw [← hsi, motion_flat, motion_flat]
    ext
    · simp only [V2.sub_x]; ring
    · simp only [V2.sub_y]; ring
  have hpos' : g.positions = (hexagonalGrid n).map (fun u => motion mean 0 0 u - si) := by
    rw [hpos, layOutSheet_eq, List.map_map]
    rfl
  have hhc : ∀ {u}, u ∈ hexagonalGrid n ↔ HoneycombPoint u ∧ (0 ≤ u.x ∧ u.x < n) ∧
      (0 ≤ u.y ∧ u.y < ⌊(n : ℝ) / (Real.sqrt 3 / 2)⌋₊ * (Real.sqrt 3 / 2)) := by
    intro u
    have hr := hexRatio_pos
    constructor
    · intro hu
      obtain ⟨X, Y, hp, h3, rfl, h1, h2, h4, h5⟩ := (mem_hexagonalGrid n u).1 hu
      refine ⟨⟨X, Y, hp, h3, rfl⟩, ⟨?_, ?_⟩, ?_, ?_⟩
      · have : (0 : ℝ) ≤ X := by exact_mod_cast h1
        simp only [site]; linarith
      · have : (X : ℝ) < 2 * n := by exact_mod_cast h2
        simp only [site]; linarith
      · have : (0 : ℝ) ≤ Y := by exact_mod_cast h4
        exact mul_nonneg this hr.le
      · have : (Y : ℝ) < hexRows n := by exact_mod_cast h5
        exact mul_lt_mul_of_pos_right this hr
    · rintro ⟨⟨X, Y, hp, h3, rfl⟩, ⟨h1, h2⟩, h4, h5⟩
      refine (mem_hexagonalGrid n _).2 ⟨X, Y, hp, h3, rfl, ?_, ?_, ?_, ?_⟩
      · have : (0 : ℝ) ≤ X := by dsimp only at h1; linarith
        exact_mod_cast this
      · have : (X : ℝ) < 2 * n := by dsimp only at h2; linarith
        exact_mod_cast this
      · have : (0 : ℝ) ≤ Y := nonneg_of_mul_nonneg_left h4 hr
        exact_mod_cast this
      · have : (Y : ℝ) < hexRows n := lt_of_mul_lt_mul_right h5 hr.le
        exact_mod_cast this
  have hsil : silicons g = [⟨0, 0⟩] := by
    obtain ⟨q, hq, _, _⟩ := doped_silicon hdop
    have : (⟨0, 0⟩ : V2 ℝ) ∈ silicons g := mem_silicons.2 (by
      refine List.mem_iff_getElem?.2 ⟨i, ?_⟩
      simp only [atoms, List.getElem?_zip_eq_some]
      refine ⟨?_, hnum⟩
      rw [hpos, List.getElem?_map, hi]
      simp only [Option.map_some, Option.some.injEq]
      ext <;> simp)
    rw [hq] at this ⊢
    rw [List.mem_singleton.1 this]
  refine ⟨g, u₀, hg, hdop, hsil, ?_, (hhc.1 hu₀).1, ?_, ?_⟩
  · rw [hpos]
    refine ((C40_honeycomb n 0 0).1).map (fun a b e => ?_)
    have h1 := congrArg V2.x e
    have h2 := congrArg V2.y e
    simp only [V2.sub_x, V2.sub_y, sub_left_inj] at h1 h2
    ext <;> assumption
  · intro p
    rw [hpos', List.mem_map]
    constructor
    · rintro ⟨u, hu, rfl⟩
      obtain ⟨h1, h2, h3⟩ := hhc.1 hu
      exact ⟨u, h1, h2, h3, hplace u⟩
    · rintro ⟨u, h1, h2, h3, rfl⟩
      exact ⟨u, hhc.2 ⟨h1, h2, h3⟩, hplace u⟩
  · intro m hx hy p hp
    have hlen : (0 : ℝ) < (hexagonalGrid n).length := by
      exact_mod_cast List.length_pos_of_mem hu₀
    have eB : (BOND : ℝ) = 142 / 100 := by norm_num [BOND]
    have hm : m = ⟨-si.x, -si.y⟩ := by
      rw [hpos', List.length_map, List.map_map] at hx hy
      have ex : ∀ l : List (V2 ℝ), (l.map (V2.x ∘ fun u => motion mean 0 0 u - si)).sum =
          ((l.map (fun p => V2.smul BOND p)).map (fun p => p.x)).sum - l.length * (mean.x + si.x) := by
        intro l
        induction l with
        | nil => simp
        | cons a l ih =>
          rw [List.map_cons, List.sum_cons, ih]
          simp only [List.map_cons, List.sum_cons, List.length_cons, Function.comp_apply, motion_flat, V2.sub_x, V2.smul_x, eB]
          push_cast
          ring
      have ey : ∀ l : List (V2 ℝ), (l.map (V2.y ∘ fun u => motion mean 0 0 u - si)).sum =
          ((l.map (fun p => V2.smul BOND p)).map (fun p => p.y)).sum - l.length * (mean.y + si.y) := by
        intro l
        induction l with
        | nil => simp
        | cons a l ih =>
          rw [List.map_cons, List.sum_cons, ih]
          simp only [List.map_cons, List.sum_cons, List.length_cons, Function.comp_apply, motion_flat, V2.sub_y, V2.smul_y, eB]
          push_cast
          ring
      rw [ex] at hx
      rw [ey] at hy
      have mx : ((hexagonalGrid n).map (fun p => V2.smul BOND p) |>.map (fun p => p.x)).sum =
          (hexagonalGrid n).length * mean.x := by
        rw [hmean]
        simp only [meanPoint, List.length_map]
        field_simp
      have my : ((hexagonalGrid n).map (fun p => V2.smul BOND p) |>.map (fun p => p.y)).sum =
          (hexagonalGrid n).length * mean.y := by
        rw [hmean]
        simp only [meanPoint, List.length_map]
        field_simp
      rw [mx] at hx
      rw [my] at hy
      have hx' : (hexagonalGrid n).length * (m.x + si.x) = 0 := by linarith
      have hy' : (hexagonalGrid n).length * (m.y + si.y) = 0 := by linarith
      have h1 := (mul_eq_zero.1 hx').resolve_left hlen.ne'
      have h2 := (mul_eq_zero.1 hy').resolve_left hlen.ne'
      ext
      · simp only; linarith
      · simp only; linarith
    subst hm
    rw [hpos] at hp
    obtain ⟨q, hq, rfl⟩ := List.mem_map.1 hp
    have := hmin q hq
    rw [dist_eq_sqrt, dist_eq_sqrt]
    apply Real.sqrt_le_sqrt
    simp only [V2.distSq, V2.normSq, V2.sub_x, V2.sub_y] at this ⊢
    ring_nf at this ⊢
    linarith

/-- C153.  With fewer columns there are no atoms, and there is no sheet. -/
theorem C153_too_small (n : ℕ) (hn : n < 2) : canonicalSheet n = .error .valueError := by
  have hnil : layOutSheet n 0 0 = [] := by
    rw [layOutSheet_eq, List.map_eq_nil_iff, List.eq_nil_iff_forall_not_mem]
    intro u hu
    obtain ⟨X, Y, h1, h3, _, hX, hX', hY, hY'⟩ := (mem_hexagonalGrid n u).1 hu
    have hrows : hexRows n < 2 := by
      rw [hexRows, Nat.floor_lt (div_nonneg (Nat.cast_nonneg n) hexRatio_pos.le), div_lt_iff₀ hexRatio_pos]
      have h4 : (n : ℝ) ≤ 1 := by exact_mod_cast Nat.lt_succ_iff.1 hn
      have h5 := hexRatio_sq
      have h6 := hexRatio_pos
      push_cast
      nlinarith
    omega
  simp only [canonicalSheet, hnil, dopeSheet]
  rfl

/-- C153.  For 12 columns or more the silicon has three neighbours at 1.42 Å, at a third of a turn from each other, one
of them in the direction of the first axis or opposite to it, and all other atoms are at least 2.4 Å away. -/
theorem C153_neighbours (n : ℕ) (hn : 12 ≤ n) : ∃ g, ∃ s : ℝ, canonicalSheet n = .ok g ∧ (s = 1 ∨ s = -1) ∧
    BondedTo g.positions ⟨0, 0⟩ [⟨142 / 100 * s, 0⟩, ⟨-(142 / 100 * s / 2), -(142 / 100 * (Real.sqrt 3 / 2))⟩,
      ⟨-(142 / 100 * s / 2), 142 / 100 * (Real.sqrt 3 / 2)⟩] := by
  have hne := grid_nonempty (n := n) (by omega)
  have hn' : (12 : ℝ) ≤ n := by exact_mod_cast hn
  obtain ⟨g, i, si, hg, hi, hmin, hpos, hdop, hnum⟩ := canonical_eq hne
  have hsim := List.mem_of_getElem? hi
  obtain ⟨q, hq, hqd⟩ := atom_near_origin n hn 0 0 (by norm_num) (by norm_num)
  have hD : Displaced (1 / 1000) (layOutSheet n 0 0) (layOutSheet n 0 0) :=
    List.forall₂_same.2 (fun p _ => by rw [dist_self']; norm_num)
  have hsid : Spec.dist ⟨0, 0⟩ si ≤ 31 / 20 := by
    refine le_trans ?_ hqd
    have := hmin q hq
    rw [dist_eq_sqrt, dist_eq_sqrt]
    apply Real.sqrt_le_sqrt
    simp only [V2.distSq, V2.normSq, V2.sub_x, V2.sub_y] at this ⊢
    ring_nf at this ⊢
    linarith
  obtain ⟨nbrs, hbond⟩ := C146_bonds n 0 0 (by norm_num) (by norm_num) _ hD si hsim (by linarith)
  obtain ⟨F, X, Y, us, hF, h, h3, hu, hsiF, hus, hperm, hnbrs, _⟩ := bonded_sites n 0 0 hD hbond
  rw [layOutSheet_eq] at hF
  set mean := meanPoint ((hexagonalGrid n).map (fun p => V2.smul BOND p)) with hmean
  have hFM : ∀ u ∈ hexagonalGrid n, motion mean 0 0 u = F u := List.map_inj_left.1 hF
  have hplace : ∀ u ∈ hexagonalGrid n, F u - si = ⟨142 / 100 * (u.x - X / 2), 142 / 100 * (u.y - Y * hexRatio)⟩ := by
    intro u hu'
    rw [hsiF, ← hFM u hu', ← hFM _ hu, motion_flat, motion_flat]
    ext
    · simp only [V2.sub_x, site]; ring
    · simp only [V2.sub_y, site]; ring
  have hsub : ∀ a b : V2 ℝ, Spec.dist (a - si) (b - si) = Spec.dist a b := by
    intro a b
    rw [dist_eq_sqrt, dist_eq_sqrt]
    congr 1
    simp only [V2.distSq, V2.normSq, V2.sub_x, V2.sub_y]
    ring
  have hinj : Function.Injective (fun p : V2 ℝ => p - si) := by
    intro a b e
    have h1 := congrArg V2.x e
    have h2 := congrArg V2.y e
    simp only [V2.sub_x, V2.sub_y, sub_left_inj] at h1 h2
    ext <;> assumption
  have hzero : si - si = (⟨0, 0⟩ : V2 ℝ) := by ext <;> simp
  have hmoved : BondedTo g.positions ⟨0, 0⟩ (nbrs.map (fun p => p - si)) := by
    rw [hpos]
    refine ⟨hbond.distinct.map hinj, List.mem_map.2 ⟨si, hsim, hzero⟩, by rw [List.length_map, hbond.three],
      hbond.nodup.map hinj, ?_, ?_⟩
    · intro p hp
      obtain ⟨r, hr, rfl⟩ := List.mem_map.1 hp
      obtain ⟨h1, h2⟩ := hbond.bonds r hr
      exact ⟨List.mem_map_of_mem h1, by rw [← hzero, hsub]; exact h2⟩
    · intro p hp hpn hpnb
      obtain ⟨r, hr, rfl⟩ := List.mem_map.1 hp
      rw [← hzero, hsub]
      exact hbond.far r hr (fun e => hpn (by rw [e, hzero])) (fun e => hpnb (List.mem_map_of_mem e))
  have hpl : (nbrs.map (fun p => p - si)).Perm ((sitesAround X Y).map
      (fun u => (⟨142 / 100 * (u.x - X / 2), 142 / 100 * (u.y - Y * hexRatio)⟩ : V2 ℝ))) := by
    have e : nbrs.map (fun p => p - si) = us.map
        (fun u => (⟨142 / 100 * (u.x - X / 2), 142 / 100 * (u.y - Y * hexRatio)⟩ : V2 ℝ)) := by
      rw [hnbrs, List.map_map]
      exact List.map_congr_left (fun u hu' => hplace u (hus hu'))
    rw [e]
    exact hperm.map _
  refine ⟨g, sideOf X, hg, ?_, ?_⟩
  · rcases sideOf_cases h3 with ⟨e, _⟩ | ⟨e, _⟩ <;> rw [e] <;> norm_num
  · have hlist : (sitesAround X Y).map
        (fun u => (⟨142 / 100 * (u.x - X / 2), 142 / 100 * (u.y - Y * hexRatio)⟩ : V2 ℝ)) =
        [⟨142 / 100 * (sideOf X : ℤ), 0⟩, ⟨-(142 / 100 * (sideOf X : ℤ) / 2), -(142 / 100 * (Real.sqrt 3 / 2))⟩,
          ⟨-(142 / 100 * (sideOf X : ℤ) / 2), 142 / 100 * (Real.sqrt 3 / 2)⟩] := by
      simp only [sitesAround, List.map_cons, List.map_nil, site, hexRatio, List.cons.injEq, V2.mk.injEq, and_true]
      push_cast
      refine ⟨⟨by ring, by ring⟩, ⟨by ring, by ring⟩, by ring, by ring⟩
    rw [← hlist]
    exact ⟨hmoved.distinct, hmoved.mem, by rw [← hpl.length_eq]; exact hmoved.three, hpl.nodup_iff.1 hmoved.nodup,
      fun p hp => hmoved.bonds p (hpl.mem_iff.2 hp), fun p hp h1 h2 => hmoved.far p hp h1 (fun e => h2 (hpl.mem_iff.1 e))⟩

/-- The default of ten columns. -/
example : ∃ g, canonicalSheet 10 = .ok g ∧ SingleDoped g ∧ silicons g = [⟨0, 0⟩] := by
  obtain ⟨g, _, h1, h2, h3, _⟩ := C153_centred 10 (by norm_num)
  exact ⟨g, h1, h2, h3⟩

/-- One column is too few. -/
example : canonicalSheet 1 = .error .valueError := C153_too_small 1 (by norm_num)

/-- Fifty columns. -/
example : ∃ g, canonicalSheet 50 = .ok g ∧ ∃ nbrs, BondedTo g.positions ⟨0, 0⟩ nbrs := by
  obtain ⟨g, s, h1, _, h2⟩ := C153_neighbours 50 (by norm_num)
  exact ⟨g, h1, _, h2⟩

end PD.Props
