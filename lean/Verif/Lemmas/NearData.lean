/- Helper lemmas for C142: data points from atoms that are seen with small errors. -/
import Verif.Lemmas.SimData

set_option linter.unusedSectionVars false
set_option linter.unusedSimpArgs false

namespace PD
open PD.Spec PD.Props
variable {Img G O P : Type}

/-- The atoms around `q`, less than 2 Å away, are those at `xs`, four in number. -/
structure Around (ps : List (V2 ℝ)) (q : V2 ℝ) (xs : List (V2 ℝ)) : Prop where
  four : xs.length = 4
  nodup : xs.Nodup
  near : ∀ x ∈ xs, x ∈ ps ∧ Spec.dist q x < 2
  far : ∀ x ∈ ps, x ∉ xs → 2 < Spec.dist q x

theorem Around.covers {ps : List (V2 ℝ)} {q : V2 ℝ} {xs : List (V2 ℝ)} (hnd : ps.Nodup)
    (h : Around ps q xs) {js : List ℕ} (h1 : js.Nodup) (h2 : js.length = 4)
    (h3 : ∀ j ∈ js, ∃ a, ps[j]? = some a ∧ Spec.dist q a ≤ 2) {p : V2 ℝ} (hp : p ∈ xs) :
    ∃ j ∈ js, ps[j]? = some p := by
  obtain ⟨qs, h4, h5, h6⟩ := positions_of hnd h1
    (fun j hj => by obtain ⟨a, ha, _⟩ := h3 j hj; exact (List.getElem?_eq_some_iff.1 ha).1)
  obtain ⟨h7, h8⟩ := mem_positions_of h6
  have hsub : qs ⊆ xs := by
    intro q hq
    obtain ⟨j, hj, hj'⟩ := h7 q hq
    obtain ⟨a, ha, had⟩ := h3 j hj
    rw [hj'] at ha
    cases ha
    by_contra hc
    linarith [h.far q (List.mem_of_getElem? hj') hc]
  have hperm := (List.subperm_of_subset h4 hsub).perm_of_length_le (by simp [h.four, h5, h2])
  exact h7 p (hperm.mem_iff.2 hp)

theorem Around.fourNearest {ps : List (V2 ℝ)} {q : V2 ℝ} {xs : List (V2 ℝ)} (hnd : ps.Nodup)
    (h : Around ps q xs) {js : List ℕ} (hj : FourNearest ps q js) {p : V2 ℝ}
    (hp : p ∈ xs) : ∃ j ∈ js, ps[j]? = some p := by
  obtain ⟨h1, h2, h3, h4⟩ := hj
  obtain ⟨k, hk⟩ := List.getElem?_of_mem (h.near p hp).1
  by_cases hkj : k ∈ js
  · exact ⟨k, hkj, hk⟩
  · refine h.covers hnd h1 h2 (fun j hj => ⟨ps[j]'(h3 j hj), by simp [h3 j hj], ?_⟩) hp
    have := h4 j hj k hkj (ps[j]'(h3 j hj)) p (by simp [h3 j hj]) hk
    linarith [(h.near p hp).2]

/-- The data point of a transition whose two grids show the same four places, not quite in the same positions. -/
theorem datapoint_near (knn : Knn ℝ) {cutoff : ℝ} {t : Transition ℝ Img}
    {c : BeamControl ℝ} {si si' : V2 ℝ} {nbrs xs : List (V2 ℝ)}
    (hb : t.gridBefore.WF) (ha : t.gridAfter.WF)
    (hnd : (placedOn t.fovBefore t.gridBefore).positions.Nodup)
    (hnd' : (placedOn t.fovAfter t.gridAfter).positions.Nodup)
    (hc : t.controls = [c]) (hsi : silicons (placedOn t.fovBefore t.gridBefore) = [si])
    (hsi' : silicons (placedOn t.fovAfter t.gridAfter) = [si'])
    (h10 : 10 ≤ (placedOn t.fovBefore t.gridBefore).positions.length)
    (hH : Bonded (placedOn t.fovBefore t.gridBefore).positions si nbrs)
    (hbond : ∀ p ∈ nbrs, Spec.dist si p ≤ 3 / 2)
    (hB : Around (placedOn t.fovAfter t.gridAfter).positions si xs)
    (hm : ∀ p ∈ si :: nbrs, ∃ x ∈ xs, Spec.dist p x ≤ cutoff) :
    ∃ r, datapointOf knn cutoff t = .ok r ∧
      (∀ d, r = .inr d → si' ∈ xs ∧ d.secondsBetween = (c.dwellTime : ℝ) / 1000000 ∧ d.current = c.currentNa ∧
        d.voltage = c.voltageKv ∧ ∃ n2, n2.Perm nbrs ∧ ∃ q ∈ n2,
          let beam := lerp t.fovBefore.lowerLeft t.fovBefore.upperRight c.position
          (∀ p ∈ n2, Spec.dist beam q ≤ Spec.dist beam p) ∧ d.beamPos = along (q - si) (beam - si) ∧
          ∃ θs : List ℝ, List.Forall₂ (fun p θ => CcwAngle (q - si) (p - si) θ) n2 θs ∧
            (θs.Nodup → IsLabel si si' n2 θs d.nextState)) ∧
      (∀ x, r = .inl x → x = .noSiliconNeighbor ∧ si' ∉ xs) := by
  have hwa := placedOn_wf (f := t.fovAfter) ha
  obtain ⟨i, hi, hip⟩ := silicon_index (g := placedOn t.fovBefore t.gridBefore) (si := si)
    (by rw [hsi]; simp)
  obtain ⟨i', hi', hip'⟩ := silicon_index (g := placedOn t.fovAfter t.gridAfter) (si := si')
    (by rw [hsi']; simp)
  have h4 : 4 ≤ (placedOn t.fovAfter t.gridAfter).positions.length := by
    have := (List.subperm_of_subset hB.nodup (fun q hq => (hB.near q hq).1)).length_le
    rwa [hB.four] at this
  obtain ⟨r, hr⟩ := checkBefore_total knn _ si h10
  have hdp : datapointOf knn cutoff t = match checkBefore knn (placedOn t.fovBefore t.gridBefore) si with
      | .error e => .error e
      | .ok (.inl x) => .ok (.inl x)
      | .ok (.inr nbrs) =>
        match checkAfter knn cutoff (placedOn t.fovAfter t.gridAfter) si nbrs with
        | .error e => .error e
        | .ok (.inl x) => .ok (.inl x)
        | .ok (.inr siAfter) =>
          match makeDataPoint c (lerp t.fovBefore.lowerLeft t.fovBefore.upperRight c.position)
            si siAfter nbrs with
          | .error e => .error e
          | .ok d => .ok (.inr d) := by
    unfold datapointOf
    simp only [hc, gridToMaterial_eq_placedOn, toMaterial_eq_lerp,
      getSiliconPositions_eq_silicons (placedOn_wf hb), hsi]
    rfl
  rw [hr] at hdp
  cases r with
  | inl x =>
    exfalso
    rcases checkBefore_excluded hnd hip hr with ⟨-, hx⟩ | ⟨-, js, h1, h2, h3, h3l, h5⟩
    · exact hx nbrs (hH.threeBonds hnd hip)
    · obtain ⟨p, hp⟩ : ∃ p, p ∈ nbrs := by
        cases hn : nbrs with
        | nil => have := hH.three; rw [hn] at this; simp at this
        | cons p _ => exact ⟨p, List.mem_cons_self⟩
      obtain ⟨k, hk⟩ := List.getElem?_of_mem (hH.bonds p hp).1
      have hki : k ≠ i := by
        rintro rfl
        rw [hk] at hip
        cases hip
        exact hH.other hp
      obtain ⟨j, hj, hjp⟩ := hH.covers hnd h1 h2 (fun j hj => ⟨_, List.getElem?_eq_getElem (h3l j hj), by
        have := h5 j hj k hki _ p (List.getElem?_eq_getElem (h3l j hj)) hk
        linarith [hbond p hp]⟩) List.mem_cons_self
      exact h3 (getElem?_inj hnd hjp hip ▸ hj)
  | inr n2 =>
    obtain ⟨ps, rfl, hps⟩ := checkBefore_ok hnd hip hr
    have hpm : ps.Perm nbrs := (ThreeBonds.bonded hnd hps).perm hH
    have hpn : ps ≠ [] := by rintro rfl; simp [ThreeBonds] at hps
    obtain ⟨r', hr'⟩ := checkAfter_total knn cutoff _ si (si :: ps) hwa h4
    simp only [hr'] at hdp
    cases r' with
    | inl x =>
      refine ⟨_, hdp, by simp, fun y hy => ?_⟩
      cases hy
      have hx : x = .noSiliconNeighbor := by
        rcases checkAfter_excluded hwa (by simp) hr' with ⟨-, h1⟩ | ⟨h1, -⟩ | ⟨-, p, hp, js, hj, h6⟩
        · rw [hsi'] at h1; simp at h1
        · exact h1
        · have hp' : p ∈ si :: nbrs := by
            rcases List.mem_cons.1 hp with rfl | hp
            · exact List.mem_cons_self
            · exact List.mem_cons_of_mem _ (hpm.mem_iff.1 hp)
          obtain ⟨x, hx, hpx⟩ := hm p hp'
          obtain ⟨j, hjm, hjp⟩ := hB.fourNearest hnd' hj hx
          have := h6 j hjm x hjp
          linarith
      refine ⟨hx, ?_⟩
      intro hmem
      rcases checkAfter_excluded hwa (by simp) hr' with ⟨h1, -⟩ | ⟨-, s2, h1, js, h2, h3, h5⟩ | ⟨h1, -⟩
      · rw [hx] at h1; cases h1
      · rw [hsi'] at h1
        cases h1
        have hlt := (hB.near si' hmem).2
        obtain ⟨j, hj, hjp⟩ := hB.covers hnd' h2 h3 (fun j hj => by
          obtain ⟨-, a, ha, hd⟩ := h5 j hj
          exact ⟨a, ha, by linarith⟩) hmem
        have := getElem?_inj hnd' hjp hip'
        subst this
        exact (h5 j hj).1 hi'
      · rw [hx] at h1; cases h1
    | inr sa =>
      obtain ⟨hsa, js, hjs, j, hj, hjsi⟩ := checkAfter_ok hwa hr'
      rw [hsi'] at hsa
      cases hsa
      obtain ⟨d, hd⟩ := makeDataPoint_total c
        (lerp t.fovBefore.lowerLeft t.fovBefore.upperRight c.position) si si' hpn
      simp only [hd] at hdp
      refine ⟨_, hdp, ?_, by simp⟩
      intro d' hd'
      cases hd'
      have near : si' ∈ xs := by
        obtain ⟨qs, hq1, hq2, hq3⟩ := positions_of hnd' hjs.1 hjs.2.2.1
        obtain ⟨hq4, hq5⟩ := mem_positions_of hq3
        have hsub : xs ⊆ qs := by
          intro p hp
          obtain ⟨k, hk, hkp⟩ := hB.fourNearest hnd' hjs hp
          obtain ⟨q, hq, he⟩ := hq5 k hk
          rw [hkp] at he
          cases he
          exact hq
        have hperm := (List.subperm_of_subset hB.nodup hsub).perm_of_length_le (by rw [hq2, hjs.2.1, hB.four])
        obtain ⟨q, hq, hjq⟩ := hq5 j hj
        have hqsi : q = si' := by
          have : q ∈ silicons (placedOn t.fovAfter t.gridAfter) := by
            simp only [silicons, atoms, List.mem_map, List.mem_filter, decide_eq_true_eq]
            exact ⟨(q, SILICON), ⟨List.mem_of_getElem? (List.getElem?_zip_eq_some.2 ⟨hjq, hjsi⟩), rfl⟩, rfl⟩
          rw [hsi'] at this
          simpa using this
        exact hperm.mem_iff.2 (hqsi ▸ hq)
      refine ⟨near, ?_⟩
      obtain ⟨c2, i2, s2, s2', n3, k1, k2, k3, k4, k5, k6, k7, k8, q, hq, k9, k10, θs, k11, k12⟩ :=
        C42_kept knn cutoff t d hb ha hnd hdp
      rw [hc] at k1
      rw [hsi] at k2
      rw [hsi'] at k3
      cases k1
      cases k2
      cases k3
      exact ⟨k6, k7, k8, n3, (ThreeBonds.bonded hnd k5).perm hH, q, hq, k9, k10, θs, k11, k12⟩

/-! ### Three directions, each more than a right angle from the others -/

/-- Directions `u`, `v` and `w` are more than a right angle apart. -/
structure Spread (u v w : V2 ℝ) : Prop where
  uv : dot u v < 0
  uw : dot u w < 0
  vw : dot v w < 0

theorem Spread.cross {u v w : V2 ℝ} (h : Spread u v w) :
    (0 < Spec.cross u v ∧ Spec.cross u w < 0) ∨ (Spec.cross u v < 0 ∧ 0 < Spec.cross u w) := by
  have hid : (u.x ^ 2 + u.y ^ 2) * dot v w = dot u v * dot u w + Spec.cross u v * Spec.cross u w := by
    simp only [dot, Spec.cross]; ring
  have hu : 0 ≤ u.x ^ 2 + u.y ^ 2 := by positivity
  have h1 : 0 < dot u v * dot u w := mul_pos_of_neg_of_neg h.uv h.uw
  have h2 : (u.x ^ 2 + u.y ^ 2) * dot v w ≤ 0 := mul_nonpos_of_nonneg_of_nonpos hu h.vw.le
  have h3 : Spec.cross u v * Spec.cross u w < 0 := by linarith
  rcases mul_neg_iff.1 h3 with ⟨a, b⟩ | ⟨a, b⟩
  · exact .inl ⟨a, b⟩
  · exact .inr ⟨a, b⟩

theorem len_pos_of_dot {u v : V2 ℝ} (h : dot u v < 0) : 0 < len u ∧ 0 < len v := by
  constructor
  · rcases (Real.sqrt_nonneg (u.x ^ 2 + u.y ^ 2)).lt_or_eq with hl | hl
    · exact hl
    · exfalso
      have h0 := Real.sqrt_eq_zero'.1 hl.symm
      have hx : u.x = 0 := by nlinarith [sq_nonneg u.x, sq_nonneg u.y]
      have hy : u.y = 0 := by nlinarith [sq_nonneg u.x, sq_nonneg u.y]
      simp [dot, hx, hy] at h
  · rcases (Real.sqrt_nonneg (v.x ^ 2 + v.y ^ 2)).lt_or_eq with hl | hl
    · exact hl
    · exfalso
      have h0 := Real.sqrt_eq_zero'.1 hl.symm
      have hx : v.x = 0 := by nlinarith [sq_nonneg v.x, sq_nonneg v.y]
      have hy : v.y = 0 := by nlinarith [sq_nonneg v.x, sq_nonneg v.y]
      simp [dot, hx, hy] at h

theorem ccw_self {u : V2 ℝ} {θ : ℝ} (hu : 0 < len u) (h : CcwAngle u u θ) : θ = 0 := by
  obtain ⟨⟨h0, h1⟩, hd, hc⟩ := h
  have hl : dot u u = len u * len u := by rw [len_sq]; simp only [dot]; ring
  have hcos : Real.cos θ = 1 := by
    rw [hl] at hd
    have := mul_pos hu hu
    nlinarith
  obtain ⟨k, hk⟩ := (Real.cos_eq_one_iff θ).1 hcos
  have hpi := Real.pi_pos
  have hk0 : k = 0 := by
    have a : (-1 : ℝ) < k := by
      by_contra hcon
      push Not at hcon
      nlinarith
    have b : (k : ℝ) < 1 := by
      by_contra hcon
      push Not at hcon
      nlinarith
    have a' : (-1 : ℤ) < k := by exact_mod_cast a
    have b' : k < (1 : ℤ) := by exact_mod_cast b
    omega
  rw [← hk, hk0]
  simp

theorem ccw_left {u v : V2 ℝ} {θ : ℝ} (hu : 0 < len u) (hv : 0 < len v) (h : CcwAngle u v θ) (hc : 0 < Spec.cross u v) :
    0 < θ ∧ θ < Real.pi := by
  obtain ⟨⟨h0, h1⟩, _, hs⟩ := h
  have hsin : 0 < Real.sin θ := by
    rw [hs] at hc
    exact (pos_iff_pos_of_mul_pos hc).1 (mul_pos hu hv)
  constructor
  · rcases h0.lt_or_eq with h | h
    · exact h
    · rw [← h, Real.sin_zero] at hsin; exact absurd hsin (lt_irrefl _)
  · by_contra hcon
    push Not at hcon
    have := Real.sin_nonneg_of_nonneg_of_le_pi (x := θ - Real.pi) (by linarith) (by linarith)
    rw [Real.sin_sub_pi] at this
    linarith

theorem ccw_right {u v : V2 ℝ} {θ : ℝ} (hu : 0 < len u) (hv : 0 < len v) (h : CcwAngle u v θ) (hc : Spec.cross u v < 0) :
    Real.pi < θ := by
  obtain ⟨⟨h0, h1⟩, _, hs⟩ := h
  have hsin : Real.sin θ < 0 := by
    rw [hs] at hc
    by_contra hcon
    push Not at hcon
    have := mul_nonneg (mul_pos hu hv).le hcon
    linarith
  by_contra hcon
  push Not at hcon
  have := Real.sin_nonneg_of_nonneg_of_le_pi h0 hcon
  linarith

end PD
