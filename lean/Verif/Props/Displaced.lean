/- C138: small errors in the positions of atoms do not change which atoms are neighbours. -/
import Verif.Spec.Displaced
import Verif.Props.Middle
import Verif.Lemmas.Floats

set_option linter.unusedSectionVars false
set_option linter.unusedSimpArgs false

namespace PD.Props
open PD PD.Spec

theorem dist_tri (a b c : V2 ℝ) : Spec.dist a c ≤ Spec.dist a b + Spec.dist b c := by
  have h := dist_triangle0 (b - a) (c - a)
  have e1 : Spec.dist ⟨0, 0⟩ (c - a) = Spec.dist a c := by
    unfold Spec.dist
    congr 1
    simp only [V2.sub_x, V2.sub_y]
    ring
  have e2 : Spec.dist ⟨0, 0⟩ (b - a) = Spec.dist a b := by
    unfold Spec.dist
    congr 1
    simp only [V2.sub_x, V2.sub_y]
    ring
  have e3 : Spec.dist (b - a) (c - a) = Spec.dist b c := by
    unfold Spec.dist
    congr 1
    simp only [V2.sub_x, V2.sub_y]
    ring
  rwa [e1, e2, e3] at h

/-- Distances between two displaced atoms change by at most twice the displacement. -/
theorem displaced_dist {η : ℝ} {p q p' q' : V2 ℝ} (hp : Spec.dist p p' ≤ η) (hq : Spec.dist q q' ≤ η) :
    |Spec.dist p' q' - Spec.dist p q| ≤ 2 * η := by
  have h1 := dist_tri p' p q'
  have h2 := dist_tri p q q'
  have h3 := dist_tri p p' q
  have h4 := dist_tri p' q' q
  rw [dist_comm' p' p] at h1
  rw [dist_comm' q' q] at h4
  rw [abs_le]
  constructor <;> linarith

theorem displaced_get {η : ℝ} {ps qs : List (V2 ℝ)} (h : Displaced η ps qs) (i : ℕ) {q : V2 ℝ} (hq : qs[i]? = some q) :
    ∃ p, ps[i]? = some p ∧ Spec.dist p q ≤ η := by
  unfold Displaced at h
  rw [List.forall₂_iff_get] at h
  obtain ⟨hl, hg⟩ := h
  obtain ⟨hi, rfl⟩ := List.getElem?_eq_some_iff.1 hq
  refine ⟨ps[i], by simp [hl, hi], ?_⟩
  exact hg i (by omega) hi

theorem displaced_length {η : ℝ} {ps qs : List (V2 ℝ)} (h : Displaced η ps qs) : ps.length = qs.length :=
  List.Forall₂.length_eq h

/-- A list of three distinct numbers, all of them in another such list, is a rearrangement of it. -/
theorem perm_of_three {r s : List ℕ} (hr : r.Nodup) (hlen : r.length = s.length) (h : ∀ x ∈ r, x ∈ s) :
    r.Perm s := by
  have : r.Subperm s := List.Nodup.subperm hr h
  exact this.perm_of_length_le (by omega)

/-! ### C138 small errors do not change neighbours -/

/-- If the atoms of a sheet are displaced by at most `η`, and the neighbours of an atom are closer than all others by
more than four times that, and no atom is within twice that of it, then whatever nearest neighbour search is used, it
finds the same neighbours. -/
theorem C138_gap (knn : Knn ℝ) {ps qs : List (V2 ℝ)} {η near far : ℝ} {i : ℕ} {nbrs : List ℕ} {q : V2 ℝ}
    (hd : Displaced η ps qs) (hn : Neighbours ps i nbrs near far) (hgap : near + 4 * η < far)
    (hself : ∀ j, j ≠ i → ∀ p r, ps[i]? = some p → ps[j]? = some r → 2 * η < Spec.dist p r)
    (hq : qs[i]? = some q) : ∃ r, nearestNeighbors3 knn qs q = .ok r ∧ r.Perm nbrs := by
  have hlen := displaced_length hd
  obtain ⟨p, hp, hpq⟩ := displaced_get hd i hq
  have hil : i < ps.length := (List.getElem?_eq_some_iff.1 hp).1
  have h4 : 4 ≤ qs.length := by
    have hsub : (i :: nbrs).Subperm (List.range qs.length) := by
      refine List.Nodup.subperm (List.nodup_cons.2 ⟨hn.other, hn.nodup⟩) ?_
      intro x hx
      rw [List.mem_range]
      rcases List.mem_cons.1 hx with rfl | hx
      · omega
      · have := hn.lt x hx; omega
    have := hsub.length_le
    simp only [List.length_cons, List.length_range, hn.three] at this
    omega
  have hnear : ∀ j ∈ nbrs, ∀ b, qs[j]? = some b → Spec.dist q b ≤ near + 2 * η := by
    intro j hj b hb
    obtain ⟨a, ha, hab⟩ := displaced_get hd j hb
    have h1 := abs_le.1 (displaced_dist hpq hab)
    have h2 := hn.bonds j hj p a hp ha
    linarith [h1.2]
  have hfar : ∀ j, j ≠ i → j ∉ nbrs → ∀ b, qs[j]? = some b → near + 2 * η < Spec.dist q b := by
    intro j hji hj b hb
    obtain ⟨a, ha, hab⟩ := displaced_get hd j hb
    have h1 := abs_le.1 (displaced_dist hpq hab)
    have h2 := hn.rest j hji hj p a hp ha
    linarith [h1.1]
  have hpos : ∀ j, j ≠ i → ∀ b, qs[j]? = some b → 0 < Spec.dist q b := by
    intro j hji b hb
    obtain ⟨a, ha, hab⟩ := displaced_get hd j hb
    have h1 := abs_le.1 (displaced_dist hpq hab)
    have h2 := hself j hji p a hp ha
    linarith [h1.1]
  have hk := knn.spec qs q 4 h4
  set r := knn.query qs q 4 with hr
  refine ⟨r.drop 1, nearestNeighbors3_eq knn q h4, ?_⟩
  have hi_mem : i ∈ r := by
    by_contra hno
    obtain ⟨x, hx⟩ : ∃ x, x ∈ r := by
      have := hk.length
      cases hrr : r with
      | nil => rw [hrr] at this; simp at this
      | cons a t => exact ⟨a, by simp⟩
    have hxl := hk.lt x hx
    have hxi : x ≠ i := fun h => hno (h ▸ hx)
    have h1 := hk.nearest x hx i hno qs[x] q (by simp [hxl]) hq
    rw [distSq_le_iff, dist_self'] at h1
    have h2 := hpos x hxi qs[x] (by simp [hxl])
    linarith
  have hhead : ∃ t, r = i :: t := by
    cases hrr : r with
    | nil => rw [hrr] at hi_mem; simp at hi_mem
    | cons a t =>
      by_cases hai : a = i
      · exact ⟨t, by rw [hai]⟩
      · exfalso
        have hs := hk.sorted
        rw [hrr, List.pairwise_cons] at hs
        have hit : i ∈ t := by
          rw [hrr] at hi_mem
          rcases List.mem_cons.1 hi_mem with h | h
          · exact absurd h.symm hai
          · exact h
        have hal : a < qs.length := hk.lt a (by rw [hrr]; simp)
        have h1 := hs.1 i hit qs[a] q (by simp [hal]) hq
        rw [distSq_le_iff, dist_self'] at h1
        have h2 := hpos a hai qs[a] (by simp [hal])
        linarith
  obtain ⟨t, ht⟩ := hhead
  have hnd := hk.nodup
  rw [ht, List.nodup_cons] at hnd
  have htl : t.length = 3 := by
    have := hk.length
    rw [ht] at this
    simpa using this
  rw [ht]
  show t.Perm nbrs
  have hsub : ∀ x ∈ nbrs, x ∈ t := by
    intro x hx
    by_contra hno
    have hxi : x ≠ i := fun h => hn.other (h ▸ hx)
    have hxr : x ∉ r := by
      rw [ht]
      simp only [List.mem_cons, not_or]
      exact ⟨hxi, hno⟩
    obtain ⟨y, hy, hyn⟩ : ∃ y ∈ t, y ∉ nbrs := by
      by_contra hall
      push Not at hall
      have hp := perm_of_three hnd.2 (by rw [htl, hn.three]) hall
      exact hno (hp.mem_iff.2 hx)
    have hyi : y ≠ i := fun h => hnd.1 (h ▸ hy)
    have hyr : y ∈ r := by rw [ht]; exact List.mem_cons_of_mem _ hy
    have hyl := hk.lt y hyr
    have hxl : x < qs.length := by have := hn.lt x hx; omega
    have h1 := hk.nearest y hyr x hxr qs[y] qs[x] (by simp [hyl]) (by simp [hxl])
    rw [distSq_le_iff] at h1
    have h2 := hnear x hx qs[x] (by simp [hxl])
    have h3 := hfar y hyi hyn qs[y] (by simp [hyl])
    linarith
  exact (perm_of_three hn.nodup (by rw [htl, hn.three]) hsub).symm

/-- In a generated sheet two atoms are one bond length apart, or more than 2.45 Å. -/
theorem sheet_gap (n : ℕ) (offset : V2 ℝ) (angle : ℝ) {p q : V2 ℝ} (hp : p ∈ layOutSheet n offset angle)
    (hq : q ∈ layOutSheet n offset angle) (hne : p ≠ q) : Spec.dist p q = 142 / 100 ∨ 245 / 100 ≤ Spec.dist p q := by
  rw [layOutSheet_eq] at hp hq
  obtain ⟨u, hu, rfl⟩ := List.mem_map.1 hp
  obtain ⟨v, hv, rfl⟩ := List.mem_map.1 hq
  obtain ⟨X, Y, h1, _, rfl, _⟩ := (mem_hexagonalGrid n u).1 hu
  obtain ⟨X', Y', h1', _, rfl, _⟩ := (mem_hexagonalGrid n v).1 hv
  rw [motion_dist, dist_eq_sqrt]
  have hne' : (X, Y) ≠ (X', Y') := by
    intro h
    simp only [Prod.mk.injEq] at h
    exact hne (by rw [h.1, h.2])
  rcases lattice_distances h1 h1' hne' with h | h
  · left
    rw [h]; norm_num
  · right
    have : (173 / 100 : ℝ) ≤ Real.sqrt (V2.distSq (site X Y) (site X' Y')) :=
      Real.le_sqrt_of_sq_le (by norm_num; linarith)
    linarith

/-- The three neighbours of an inner atom of a generated sheet, as indices. -/
theorem sheet_neighbours (n : ℕ) (offset : V2 ℝ) (angle : ℝ) {i : ℕ} {p : V2 ℝ}
    (hp : (layOutSheet n offset angle)[i]? = some p)
    (h3 : HasThreeNeighbours (layOutSheet n offset angle) (142 / 100) p) :
    ∃ nbrs, Neighbours (layOutSheet n offset angle) i nbrs (142 / 100) (245 / 100) ∧
      ∀ j ∈ nbrs, ∃ r, (layOutSheet n offset angle)[j]? = some r ∧ Spec.dist p r = 142 / 100 := by
  have hnd := (C40_honeycomb n offset angle).1
  set sheet := layOutSheet n offset angle with hsheet
  obtain ⟨a, ha, b, hb, c, hc, hpabc, da, db, dc, hrest⟩ := h3
  obtain ⟨ja, hja⟩ := List.getElem?_of_mem ha
  obtain ⟨jb, hjb⟩ := List.getElem?_of_mem hb
  obtain ⟨jc, hjc⟩ := List.getElem?_of_mem hc
  simp only [List.nodup_cons, List.mem_cons, List.not_mem_nil, or_false, not_or, List.nodup_nil, and_true,
    not_false_eq_true] at hpabc
  obtain ⟨⟨pa, pb, pc⟩, ⟨ab, ac⟩, bc⟩ := hpabc
  have hne : ∀ {j k : ℕ} {x y : V2 ℝ}, sheet[j]? = some x → sheet[k]? = some y → x ≠ y → j ≠ k := by
    rintro j k x y h1 h2 hxy rfl
    rw [h1] at h2
    exact hxy (Option.some.inj h2)
  have hidx : ∀ {j k : ℕ} {x : V2 ℝ}, sheet[j]? = some x → sheet[k]? = some x → j = k := by
    intro j k x h1 h2
    obtain ⟨l1, e1⟩ := List.getElem?_eq_some_iff.1 h1
    obtain ⟨l2, e2⟩ := List.getElem?_eq_some_iff.1 h2
    exact (List.Nodup.getElem_inj_iff hnd).1 (e1.trans e2.symm)
  have hget : ∀ j ∈ [ja, jb, jc], ∃ r, sheet[j]? = some r ∧ Spec.dist p r = 142 / 100 := by
    intro j hj
    simp only [List.mem_cons, List.not_mem_nil, or_false] at hj
    rcases hj with rfl | rfl | rfl
    · exact ⟨a, hja, da⟩
    · exact ⟨b, hjb, db⟩
    · exact ⟨c, hjc, dc⟩
  refine ⟨[ja, jb, jc], ⟨rfl, ?_, ?_, ?_, ?_, ?_⟩, hget⟩
  · simp only [List.nodup_cons, List.mem_cons, List.not_mem_nil, or_false, not_or, List.nodup_nil, and_true,
      not_false_eq_true]
    exact ⟨⟨hne hja hjb ab, hne hja hjc ac⟩, hne hjb hjc bc⟩
  · simp only [List.mem_cons, List.not_mem_nil, or_false, not_or]
    exact ⟨hne hp hja pa, hne hp hjb pb, hne hp hjc pc⟩
  · intro j hj
    obtain ⟨r, hr, -⟩ := hget j hj
    exact (List.getElem?_eq_some_iff.1 hr).1
  · intro j hj p' q hp' hq
    rw [hp] at hp'
    cases hp'
    obtain ⟨r, hr, hd⟩ := hget j hj
    rw [hq] at hr
    cases hr
    exact hd.le
  · intro j hji hj p' q hp' hq
    rw [hp] at hp'
    cases hp'
    have hpq : p ≠ q := fun h => hji (hidx (h ▸ hq) hp)
    rcases sheet_gap n offset angle (List.mem_of_getElem? hp) (List.mem_of_getElem? hq) hpq with h | h
    · exfalso
      have hnot : q ∉ [p, a, b, c] := by
        simp only [List.mem_cons, List.not_mem_nil, or_false, not_or]
        refine ⟨fun h => hpq h.symm, ?_, ?_, ?_⟩
        · rintro rfl; exact hj (by rw [hidx hq hja]; simp)
        · rintro rfl; exact hj (by rw [hidx hq hjb]; simp)
        · rintro rfl; exact hj (by rw [hidx hq hjc]; simp)
      have := hrest q (List.mem_of_getElem? hq) hnot
      linarith
    · exact h

/-- Take an inner atom of a generated sheet, so that it has three neighbours.  If every atom of the sheet is seen up to
a quarter of an Ångström from where it is, the three nearest atoms seen are those three atoms, whatever search is
used. -/
theorem C138_sheet (n : ℕ) (offset : V2 ℝ) (angle : ℝ) {i : ℕ} {p : V2 ℝ}
    (hp : (layOutSheet n offset angle)[i]? = some p)
    (h3 : HasThreeNeighbours (layOutSheet n offset angle) (142 / 100) p) :
    ∃ nbrs : List ℕ, nbrs.length = 3 ∧ nbrs.Nodup ∧
      (∀ j ∈ nbrs, ∃ r, (layOutSheet n offset angle)[j]? = some r ∧ Spec.dist p r = 142 / 100) ∧
      ∀ qs q, Displaced (1 / 4) (layOutSheet n offset angle) qs → qs[i]? = some q →
        ∀ knn : Knn ℝ, ∃ r, nearestNeighbors3 knn qs q = .ok r ∧ r.Perm nbrs := by
  obtain ⟨nbrs, hn, hd⟩ := sheet_neighbours n offset angle hp h3
  refine ⟨nbrs, hn.three, hn.nodup, hd, fun qs q hdis hq knn => C138_gap knn hdis hn (by norm_num) ?_ hq⟩
  intro j hji p' r hp' hr
  rw [hp] at hp'
  cases hp'
  have hne : p ≠ r := by
    rintro rfl
    obtain ⟨l1, e1⟩ := List.getElem?_eq_some_iff.1 hp
    obtain ⟨l2, e2⟩ := List.getElem?_eq_some_iff.1 hr
    exact hji ((List.Nodup.getElem_inj_iff (C40_honeycomb n offset angle).1).1 (e2.trans e1.symm))
  have := C40_min_distance n offset angle p r (List.mem_of_getElem? hp) (List.mem_of_getElem? hr) hne
  linarith

theorem gmmSuccessors_grids (g : Gmm) (norm : ℝ) (grid : Grid ℝ) (si beam : V2 ℝ) :
    ∀ (l : List (ℕ × V2 ℝ)) ss, g.successors norm grid si beam l = .ok ss →
      ss.map (·.grid) = l.map (fun x => successorGrid grid x.1)
  | [], ss, h => by
    unfold Gmm.successors at h
    cases h
    rfl
  | (i, p) :: rest, ss, h => by
    unfold Gmm.successors at h
    split at h
    · cases h
    split at h
    · cases h
    rename_i ss' hss'
    cases h
    simp [gmmSuccessors_grids g norm grid si beam rest ss' hss']

theorem map_zip_fst {α β γ : Type} (f : α → γ) : ∀ (l : List α) (m : List β), l.length = m.length →
    (l.zip m).map (fun x => f x.1) = l.map f
  | [], _, _ => by simp
  | a :: l, [], h => by simp at h
  | a :: l, b :: m, h => by
    simp only [List.zip_cons_cons, List.map_cons, List.cons.injEq, true_and]
    exact map_zip_fst f l m (by simpa using h)

/-- So on the displaced sheet the silicon can make the same three moves: both kinds of rate functions built on the
nearest neighbours propose to put it at those three atoms, if they do not raise. -/
theorem C138_moves (n : ℕ) (offset : V2 ℝ) (angle : ℝ) {i : ℕ} {p : V2 ℝ}
    (hp : (layOutSheet n offset angle)[i]? = some p)
    (h3 : HasThreeNeighbours (layOutSheet n offset angle) (142 / 100) p) :
    ∃ nbrs : List ℕ, nbrs.length = 3 ∧ nbrs.Nodup ∧
      (∀ j ∈ nbrs, ∃ r, (layOutSheet n offset angle)[j]? = some r ∧ Spec.dist p r = 142 / 100) ∧
      ∀ qs, Displaced (1 / 4) (layOutSheet n offset angle) qs →
        ∀ grid : ℕ → Grid ℝ, (∀ j, grid j = ⟨qs, (List.replicate qs.length CARBON).set j SILICON⟩) →
        (∀ (knn : Knn ℝ) (canon : CanonicalRateFn ℝ) (beam : V2 ℝ) ss,
          pristineRates knn canon (grid i) beam = .ok ss → (ss.map (·.grid)).Perm (nbrs.map grid)) ∧
        (∀ (knn : Knn ℝ) (g : Gmm) (beam : V2 ℝ) ss,
          g.call knn (grid i) beam = .ok ss → (ss.map (·.grid)).Perm (nbrs.map grid)) := by
  obtain ⟨nbrs, k1, k2, k3, k4⟩ := C138_sheet n offset angle hp h3
  refine ⟨nbrs, k1, k2, k3, fun qs hdis grid hgrid => ?_⟩
  have hil : i < qs.length := by
    rw [← displaced_length hdis]; exact (List.getElem?_eq_some_iff.1 hp).1
  have hq : qs[i]? = some qs[i] := by simp [hil]
  have hpos : (grid i).positions = qs := by rw [hgrid]
  have hsucc : ∀ j, successorGrid (grid i) j = grid j := by
    intro j
    rw [hgrid, hgrid]
    simp [successorGrid]
  have hsil : getSingleSiliconPosition (grid i) = .ok qs[i] := by
    apply getSingleSiliconPosition_of_singleton
    exact getSiliconPositions_doped _ i _ (by rw [hgrid]; rfl) (by rw [hpos]; exact hq)
  constructor
  · intro knn canon beam ss hss
    obtain ⟨r, hr, hperm⟩ := k4 qs qs[i] hdis hq knn
    unfold pristineRates at hss
    rw [hsil] at hss
    simp only at hss
    rw [hpos, hr] at hss
    simp only at hss
    split at hss
    · cases hss
    rename_i rates _
    split at hss
    · split at hss
      · rename_i hl
        cases hss
        rw [List.map_map]
        have := map_zip_fst (fun j => successorGrid (grid i) j) r rates hl.symm
        refine (List.Perm.of_eq this).trans ?_
        simp only [hsucc]
        exact hperm.map grid
      · cases hss
    · cases hss
  · intro knn g beam ss hss
    obtain ⟨r, hr, hperm⟩ := k4 qs qs[i] hdis hq knn
    unfold Gmm.call at hss
    rw [hsil] at hss
    simp only at hss
    rw [hpos, hr] at hss
    simp only at hss
    split at hss
    · cases hss
    rename_i rows hrows
    split at hss
    · cases hss
    rw [gmmSuccessors_grids g _ _ _ _ _ _ hss,
      map_zip_fst (fun j => successorGrid (grid i) j) r rows (takeRows_ok hrows).1.symm]
    simp only [hsucc]
    exact hperm.map grid

/-- Rounding the positions to single precision is such a displacement, for sheets up to 2²¹ Å (0.2 mm) from the
origin. -/
theorem C138_float32 (ps : List (V2 ℝ)) (h : ∀ p ∈ ps, |p.x| ≤ 2 ^ 21 ∧ |p.y| ≤ 2 ^ 21) :
    Displaced (1 / 4) ps (ps.map (fun p => ⟨f32 p.x, f32 p.y⟩)) := by
  have hone : ∀ x : ℝ, |x| ≤ 2 ^ 21 → |f32 x - x| ≤ 13 / 100 := by
    intro x hx
    have h1 := abs_f32_sub_le_all x
    have h2 : (2 : ℝ) ^ (-150 : ℤ) ≤ 5 / 1000 := by norm_num
    have h3 : |x| * (2 : ℝ) ^ (-24 : ℤ) ≤ 1 / 8 := by
      refine (mul_le_mul_of_nonneg_right hx (by positivity)).trans ?_
      norm_num
    refine h1.trans ((add_le_add h3 h2).trans ?_)
    norm_num
  unfold Displaced
  rw [List.forall₂_map_right_iff, List.forall₂_same]
  intro p hp
  obtain ⟨hx, hy⟩ := h p hp
  have h1 := hone _ hx
  have h2 := hone _ hy
  unfold Spec.dist
  apply Real.sqrt_le_iff.2
  refine ⟨by norm_num, ?_⟩
  have e1 := sq_le_sq' (by linarith [(abs_le.1 h1).1]) (abs_le.1 h1).2
  have e2 := sq_le_sq' (by linarith [(abs_le.1 h2).1]) (abs_le.1 h2).2
  simp only
  nlinarith [e1, e2]

/-- The case is met by a sheet of seven columns, at any place and angle: it has an atom with three neighbours, and
moving all atoms by 0.2 Å to the right is such a displacement. -/
example (offset : V2 ℝ) (angle : ℝ) : ∃ (i : ℕ) (p : V2 ℝ), (layOutSheet 7 offset angle)[i]? = some p ∧
    HasThreeNeighbours (layOutSheet 7 offset angle) (142 / 100) p ∧
    Displaced (1 / 4) (layOutSheet 7 offset angle)
      ((layOutSheet 7 offset angle).map (fun p => ⟨p.x + 1 / 5, p.y⟩)) := by
  obtain ⟨-, m, -, -, h3⟩ := C40_honeycomb 7 offset angle
  have h1 : Real.sqrt 3 ≤ 2 := by rw [Real.sqrt_le_left (by norm_num)]; norm_num
  have h2 : 1 ≤ Real.sqrt 3 := by rw [Real.one_le_sqrt]; norm_num
  obtain ⟨hmem, hthree⟩ := h3 ⟨((5 : ℤ) : ℝ) / 2, ((3 : ℤ) : ℝ) * (Real.sqrt 3 / 2)⟩
    ⟨5, 3, by norm_num, by norm_num, rfl⟩ ⟨by norm_num, by norm_num⟩
    ⟨by push_cast; linarith, by push_cast; linarith⟩
  obtain ⟨i, hi⟩ := List.getElem?_of_mem hmem
  refine ⟨i, _, hi, hthree, ?_⟩
  unfold Displaced
  rw [List.forall₂_map_right_iff, List.forall₂_same]
  intro p _
  unfold Spec.dist
  apply Real.sqrt_le_iff.2
  refine ⟨by norm_num, ?_⟩
  simp only
  ring_nf
  norm_num

end PD.Props
