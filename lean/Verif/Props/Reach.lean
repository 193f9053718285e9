/- C130: no atom is out of reach. -/
import Verif.Props.Connected
import Verif.Props.Chance

set_option linter.unusedSectionVars false
set_option linter.unusedSimpArgs false

namespace PD.Props
open PD PD.Spec MeasureTheory

/-! ### The rate functions of the package never let the silicon stick -/

theorem siliconAt_eq (ps : List (V2 ℝ)) (i : ℕ) : siliconAt ps i = dopedAt ps i := rfl

theorem siliconAt_get {ps : List (V2 ℝ)} {i j : ℕ} (hj : j < ps.length) :
    (siliconAt ps i).numbers[j]? = some (if j = i then SILICON else CARBON) := by
  rw [siliconAt_eq]
  simp [dopedAt, hj]

theorem siliconAt_doped {ps : List (V2 ℝ)} {i : ℕ} (hi : i < ps.length) : SingleDoped (siliconAt ps i) where
  wf := by simp [Grid.WF, siliconAt]
  one := ⟨i, by simpa [siliconAt] using hi, fun j hj => siliconAt_get (by simpa [siliconAt] using hj)⟩

theorem silicon_unique {ps : List (V2 ℝ)} {i j : ℕ} (h : (siliconAt ps i).numbers[j]? = some SILICON) : j = i := by
  have hj : j < ps.length := by
    have := (List.getElem?_eq_some_iff.1 h).1
    simpa [siliconAt] using this
  rw [siliconAt_get hj, Option.some.injEq] at h
  by_contra hne
  rw [if_neg hne] at h
  exact absurd h (by decide)

theorem eq_siliconAt {ps : List (V2 ℝ)} {x : Grid ℝ} {j : ℕ} (hd : SingleDoped x) (hp : x.positions = ps)
    (hj : x.numbers[j]? = some SILICON) : x = siliconAt ps j := by
  obtain ⟨i, hi, he⟩ := doped_eq hd
  rw [he] at hj
  have := silicon_unique (ps := x.positions) (i := i) hj
  rw [he, this, ← siliconAt_eq, ← hp]

theorem abs_le_dist (p : V2 ℝ) : |p.x| ≤ Spec.dist 0 p ∧ |p.y| ≤ Spec.dist 0 p := by
  constructor
  · refine Real.abs_le_sqrt ?_
    have : (0 : V2 ℝ).x = 0 := rfl
    have : (0 : V2 ℝ).y = 0 := rfl
    simp only [*]
    nlinarith [sq_nonneg p.y]
  · refine Real.abs_le_sqrt ?_
    have : (0 : V2 ℝ).x = 0 := rfl
    have : (0 : V2 ℝ).y = 0 := rfl
    simp only [*]
    nlinarith [sq_nonneg p.x]

/-- A bound for the coordinates of some points. -/
noncomputable def spread (ps : List (V2 ℝ)) : ℝ := (ps.map (Spec.dist 0)).sum

theorem spread_nonneg (ps : List (V2 ℝ)) : 0 ≤ spread ps := by
  refine List.sum_nonneg fun x hx => ?_
  obtain ⟨p, -, rfl⟩ := List.mem_map.1 hx
  exact dist_nonneg _ _

theorem le_spread {ps : List (V2 ℝ)} {p : V2 ℝ} (hp : p ∈ ps) : |p.x| ≤ spread ps ∧ |p.y| ≤ spread ps := by
  have : Spec.dist 0 p ≤ spread ps := List.single_le_sum (fun x hx => by
    obtain ⟨p, -, rfl⟩ := List.mem_map.1 hx
    exact dist_nonneg _ _) _ (List.mem_map_of_mem hp)
  obtain ⟨h1, h2⟩ := abs_le_dist p
  exact ⟨h1.trans this, h2.trans this⟩

/-- Three neighbours as near as possible include every atom that is surely near. -/
theorem near_included {ps : List (V2 ℝ)} {i j : ℕ} {si : V2 ℝ} {nbrs : List ℕ} (hi : ps[i]? = some si)
    (h3 : nbrs.length = 3) (hnd : nbrs.Nodup) (hne : ∀ k ∈ nbrs, i ≠ k) (hlt : ∀ k ∈ nbrs, k < ps.length)
    (hnear : ∀ k ∈ nbrs, ∀ l, l ≠ i → l ∉ nbrs → ∀ pk pl, ps[k]? = some pk → ps[l]? = some pl →
      V2.distSq si pk ≤ V2.distSq si pl) (h : SurelyNear ps i j) : j ∈ nbrs := by
  by_contra hj
  obtain ⟨hij, pi, pj, hpi, hpj, hall⟩ := h
  rw [hi, Option.some.injEq] at hpi
  subst hpi
  have := hall nbrs hnd (fun hm => hne i hm rfl) hj (fun k hk => by
    have hk' := hlt k hk
    refine ⟨ps[k], List.getElem?_eq_getElem hk', ?_⟩
    rw [dist_eq_sqrt, dist_eq_sqrt]
    exact Real.sqrt_le_sqrt (hnear k hk j hij.symm hj _ _ (List.getElem?_eq_getElem hk') hpj))
  omega

theorem sum_le_three {ss : List (Successor ℝ)} {M : ℝ} (h3 : ss.length = 3) (h : ∀ y ∈ ss, y.rate ≤ M) :
    sumRates ss ≤ 3 * M := by
  have := List.sum_le_card_nsmul (ss.map (·.rate)) M (by
    intro x hx
    obtain ⟨y, hy, rfl⟩ := List.mem_map.1 hx
    exact h y hy)
  simpa [sumRates, h3] using this

theorem pristine_unstuck (knn : Knn ℝ) (canon : CanonicalRateFn ℝ) {ps : List (V2 ℝ)} (h4 : 4 ≤ ps.length)
    (hnd : ps.Nodup) {D ε M : ℝ} (hε : 0 < ε)
    (htotal : ∀ g p si idx, (∀ j ∈ idx, j < g.positions.length) →
      ∃ rates, canon g p si idx = .ok rates ∧ rates.length = idx.length ∧ ∀ r ∈ rates, 0 ≤ r)
    (hbound : ∀ i si beam nbrs rates, ps[i]? = some si → Spec.dist 0 beam ≤ D → (∀ j ∈ nbrs, j < ps.length) →
      canon (siliconAt ps i) beam si nbrs = .ok rates → ∀ r ∈ rates, ε ≤ r ∧ r ≤ M) :
    Unstuck (pristineRates knn canon) ps D ε (3 * M) where
  positive := hε
  moves := by
    intro i hi beam hb
    obtain ⟨i', si, nbrs, rates, ss, hi', hsi, hcan, hss, hlen, hn3, hnn, hnear, hcut, hsucc⟩ :=
      C39_three_neighbour_swaps knn canon (siliconAt ps i) beam (siliconAt_doped hi) h4 hnd
        (fun s n hn => htotal _ _ s n hn)
    obtain rfl := silicon_unique hi'
    have hlt : ∀ k ∈ nbrs, k < ps.length := fun k hk => by
      obtain ⟨-, _, pk, -, hpk, -⟩ := hnear k hk
      exact (List.getElem?_eq_some_iff.1 hpk).1
    have hr := hbound i' si beam nbrs rates hsi hb hlt hcan
    have hall : ∀ y ∈ ss, ∃ j ∈ nbrs, y.grid = siliconAt ps j ∧ y.rate ∈ rates := by
      intro y hy
      obtain ⟨n, hn⟩ := List.getElem?_of_mem hy
      have hnl : n < nbrs.length := by
        have := (List.getElem?_eq_some_iff.1 hn).1
        omega
      obtain ⟨x, hx, hxp, hxd, hxn, hxr, -⟩ := hsucc n nbrs[n] (List.getElem?_eq_getElem hnl)
      rw [hn, Option.some.injEq] at hx
      subst hx
      exact ⟨nbrs[n], List.getElem_mem hnl, eq_siliconAt hxd hxp hxn, List.mem_of_getElem? hxr⟩
    refine ⟨ss, hss, by rintro rfl; simp at hlen, sum_le_three hlen (fun y hy => ?_), fun y hy => ?_, fun j hj => ?_⟩
    · obtain ⟨j, -, -, hm⟩ := hall y hy
      exact (hr _ hm).2
    · obtain ⟨j, hj, he, hm⟩ := hall y hy
      exact ⟨(hr _ hm).1, j, hlt j hj, he⟩
    · have hin := near_included hsi hn3 hnn (fun k hk => (hnear k hk).1) hlt hcut hj
      obtain ⟨n, hn⟩ := List.getElem?_of_mem hin
      obtain ⟨x, hx, hxp, hxd, hxn, -⟩ := hsucc n j hn
      exact ⟨x, List.mem_of_getElem? hx, eq_siliconAt hxd hxp hxn⟩

theorem simple_unstuck (knn : Knn ℝ) {ps : List (V2 ℝ)} (h4 : 4 ≤ ps.length) (hnd : ps.Nodup) (D : ℝ) :
    ∃ ε B, Unstuck (pristineRates knn simpleCanonicalRates) ps D ε B := by
  set L := spread ps
  have hB : (0 : ℝ) < 4 / BOND := by norm_num [BOND]
  refine ⟨1 / (2 * (D + L) ^ 2 * (4 / BOND) ^ 2 + 1), 3 * 1, pristine_unstuck knn _ h4 hnd (by positivity) ?_ ?_⟩
  · intro g p si idx hidx
    obtain ⟨rs, hrs⟩ := takeRows_inRange hidx
    refine ⟨rs.map (simpleRate p si), by simp [simpleCanonicalRates, hrs], by simp [(takeRows_ok hrs).1], ?_⟩
    intro r hr
    obtain ⟨q, _, rfl⟩ := List.mem_map.1 hr
    exact (C36_range_and_order p si q q).1.le
  · intro i si beam nbrs rates hsi hb hlt hcan r hr
    obtain ⟨rs, hrs⟩ := takeRows_inRange (rows := ps) hlt
    have hrs' : takeRows (siliconAt ps i).positions nbrs = .ok rs := hrs
    simp only [simpleCanonicalRates, hrs', Except.ok.injEq] at hcan
    subst hcan
    obtain ⟨q, hq, rfl⟩ := List.mem_map.1 hr
    refine ⟨?_, (C36_range_and_order beam si q q).2.1⟩
    have hqm : q ∈ ps := by
      obtain ⟨k, hk⟩ := List.getElem?_of_mem hq
      rw [(takeRows_ok hrs).2 k] at hk
      obtain ⟨j, -, hj⟩ := Option.bind_eq_some_iff.1 hk
      exact List.mem_of_getElem? hj
    obtain ⟨q1, q2⟩ := le_spread hqm
    obtain ⟨b1, b2⟩ := abs_le_dist beam
    have hx : |beam.x - q.x| ≤ D + L := (abs_sub _ _).trans (add_le_add (b1.trans hb) q1)
    have hy : |beam.y - q.y| ≤ D + L := (abs_sub _ _).trans (add_le_add (b2.trans hb) q2)
    rw [simpleRate_eq]
    apply one_div_le_one_div_of_le (by positivity)
    rw [mul_pow]
    have : Spec.dist beam q ^ 2 ≤ 2 * (D + L) ^ 2 := by
      rw [Spec.dist, Real.sq_sqrt (by positivity)]
      have := sq_le_sq' (neg_le_of_abs_le hx) (le_of_abs_le hx)
      have := sq_le_sq' (neg_le_of_abs_le hy) (le_of_abs_le hy)
      linarith
    gcongr

/-- A Gaussian density is not below a bound that only depends on the distance. -/
theorem mvnPdf_ge {m : Mat2} (hm : m.PosDef) {p mean : V2 ℝ} {d S T : ℝ} (h : mvnPdf p mean m = .ok d)
    (hx : |p.x - mean.x| ≤ S) (hy : |p.y - mean.y| ≤ S) (hT : m.a11 + m.a22 ≤ T) :
    Real.exp (-(T * (2 * S ^ 2) / m.det / 2)) / (2 * Real.pi * Real.sqrt m.det) ≤ d := by
  have hd : 0 < m.det := hm.2.2
  simp only [mvnPdf, hm, if_true, Except.ok.injEq] at h
  rw [← h]
  have hpi := Real.pi_pos
  apply div_le_div_of_nonneg_right _ (by positivity)
  rw [Real.exp_le_exp, neg_le_neg_iff]
  apply div_le_div_of_nonneg_right _ (by norm_num)
  apply div_le_div_of_nonneg_right _ hd.le
  have hq := quad_nonneg hm (p.y - mean.y) (-(p.x - mean.x))
  have sx := sq_le_sq' (neg_le_of_abs_le hx) (le_of_abs_le hx)
  have sy := sq_le_sq' (neg_le_of_abs_le hy) (le_of_abs_le hy)
  have h1 := hm.2.1
  have h22 : 0 < m.a22 := by
    have h1 := hm.1
    simp only [Mat2.det, ← h1] at hd
    nlinarith [sq_nonneg m.a12, hm.2.1]
  have hs : (p.x - mean.x) ^ 2 + (p.y - mean.y) ^ 2 ≤ 2 * S ^ 2 := by linarith
  have hmul : (m.a11 + m.a22) * ((p.x - mean.x) ^ 2 + (p.y - mean.y) ^ 2) ≤ T * (2 * S ^ 2) :=
    mul_le_mul hT hs (by positivity) (by linarith)
  simp only [V2.sub_x, V2.sub_y]
  nlinarith

theorem prior_unstuck (knn : Knn ℝ) {ps : List (V2 ℝ)} (h4 : 4 ≤ ps.length) (hnd : ps.Nodup) (D : ℝ) :
    ∃ ε B, Unstuck (pristineRates knn HumanPrior.default.predict) ps D ε B := by
  set L := spread ps
  set m := HumanPrior.default.cov with hm
  have hlog : 0 < Real.log 2 / 3 := by have := Real.log_pos one_lt_two; positivity
  have hdet : 0 < m.det := default_posDef.2.2
  have hpi := Real.pi_pos
  have hs : 0 < Real.sqrt m.det := Real.sqrt_pos.2 hdet
  set P := 1 / (2 * Real.pi * Real.sqrt m.det) with hP
  have hPpos : 0 < P := by positivity
  refine ⟨Real.exp (-((m.a11 + m.a22) * (2 * ((D + L) / BOND + 85 / 100) ^ 2) / m.det / 2)) /
    (2 * Real.pi * Real.sqrt m.det) * (Real.log 2 / 3 / P), 3 * (Real.log 2 / 3),
    pristine_unstuck knn _ h4 hnd (by positivity) ?_ ?_⟩
  · intro g p si idx hidx
    obtain ⟨nbrs, hn⟩ := takeRows_inRange hidx
    obtain ⟨rates, h3, h4, h5⟩ := mapM_ok (f := HumanPrior.default.rateAt (V2.smul (1 / BOND) (p - si)))
      (l := getAngles (nbrs.map (fun n => n - si))) (P := fun _ r => 0 < r) (by
        intro a _
        obtain ⟨r, h1, h2, _⟩ := singleSiliconPriorRates_le default_posDef (V2.smul (1 / BOND) (p - si))
          (rotate HumanPrior.default.mean (-a)) hlog
        exact ⟨r, h1, h2⟩)
    refine ⟨rates, by simp only [HumanPrior.predict, hn, h3], by simp [h4, getAngles, (takeRows_ok hn).1], ?_⟩
    intro r hr
    obtain ⟨k, hk⟩ := List.mem_iff_getElem?.1 hr
    have hkl : k < (getAngles (nbrs.map (fun n => n - si))).length := by
      rw [← h4]; exact (List.getElem?_eq_some_iff.1 hk).1
    obtain ⟨b, hb, _, hpos⟩ := h5 k _ (List.getElem?_eq_getElem hkl)
    rw [hk] at hb
    cases hb
    exact hpos.le
  · intro i si beam idx rates hsi hb hlt hcan r hr
    obtain ⟨nbrs, hn⟩ := takeRows_inRange (rows := ps) hlt
    have hn' : takeRows (siliconAt ps i).positions idx = .ok nbrs := hn
    obtain ⟨q1, q2⟩ := le_spread (List.mem_of_getElem? hsi)
    obtain ⟨b1, b2⟩ := abs_le_dist beam
    have hBpos : (0 : ℝ) < BOND := by norm_num [BOND]
    have hx : |beam.x - si.x| ≤ D + L := (abs_sub _ _).trans (add_le_add (b1.trans hb) q1)
    have hy : |beam.y - si.y| ≤ D + L := (abs_sub _ _).trans (add_le_add (b2.trans hb) q2)
    obtain ⟨rates', h3, h4, h5⟩ := mapM_ok (f := HumanPrior.default.rateAt (V2.smul (1 / BOND) (beam - si)))
      (l := getAngles (nbrs.map (fun n => n - si))) (P := fun _ r =>
        Real.exp (-((m.a11 + m.a22) * (2 * ((D + L) / BOND + 85 / 100) ^ 2) / m.det / 2)) /
          (2 * Real.pi * Real.sqrt m.det) * (Real.log 2 / 3 / P) ≤ r ∧ r ≤ Real.log 2 / 3) (by
        intro a _
        obtain ⟨r, h1, -, h2, -⟩ := singleSiliconPriorRates_le default_posDef (V2.smul (1 / BOND) (beam - si))
          (rotate HumanPrior.default.mean (-a)) hlog
        refine ⟨r, h1, ?_, h2⟩
        obtain ⟨d, hd, -⟩ := mvnPdf_le default_posDef (V2.smul (1 / BOND) (beam - si))
          (rotate HumanPrior.default.mean (-a))
        simp only [singleSiliconPriorRates, mvnPdf_self default_posDef, hd, Except.ok.injEq] at h1
        rw [← h1]
        apply mul_le_mul_of_nonneg_right _ (by positivity)
        have hrot : |(rotate HumanPrior.default.mean (-a)).x| ≤ 85 / 100 ∧
            |(rotate HumanPrior.default.mean (-a)).y| ≤ 85 / 100 := by
          simp only [rotate, HumanPrior.default, Real.cos_neg, Real.sin_neg]
          have hc := Real.abs_cos_le_one a
          have hs := Real.abs_sin_le_one a
          rw [abs_le] at hc hs
          constructor <;> rw [abs_le] <;> constructor <;> linarith
        have hsx : |(V2.smul (1 / BOND) (beam - si)).x| ≤ (D + L) / BOND := by
          rw [V2.smul_x, V2.sub_x, abs_mul, abs_of_pos (by positivity), one_div_mul_eq_div]
          exact div_le_div_of_nonneg_right hx hBpos.le
        have hsy : |(V2.smul (1 / BOND) (beam - si)).y| ≤ (D + L) / BOND := by
          rw [V2.smul_y, V2.sub_y, abs_mul, abs_of_pos (by positivity), one_div_mul_eq_div]
          exact div_le_div_of_nonneg_right hy hBpos.le
        exact mvnPdf_ge default_posDef hd ((abs_sub _ _).trans (add_le_add hsx hrot.1))
          ((abs_sub _ _).trans (add_le_add hsy hrot.2)) le_rfl)
    simp only [HumanPrior.predict, hn', h3, Except.ok.injEq] at hcan
    subst hcan
    obtain ⟨k, hk⟩ := List.mem_iff_getElem?.1 hr
    have hkl : k < (getAngles (nbrs.map (fun n => n - si))).length := by
      rw [← h4]; exact (List.getElem?_eq_some_iff.1 hk).1
    obtain ⟨b, hb, _, hpos⟩ := h5 k _ (List.getElem?_eq_getElem hkl)
    rw [hk] at hb
    cases hb
    exact hpos

theorem eigenvectors_eq {delta : V2 ℝ} (hd : delta ≠ 0) :
    ∃ u w : ℝ, u ^ 2 + w ^ 2 = 1 ∧ eigenvectors delta = ⟨u, -w, w, u⟩ := by
  have hl : norm2 delta ≠ 0 := by
    rw [norm2_eq_len]
    intro h
    apply hd
    have : Spec.dist delta 0 = 0 := by
      rw [dist_eq_len, ← h]; congr 1; ext <;> simp
    exact dist_eq_zero.1 this
  have hsq : norm2 delta ^ 2 = delta.x * delta.x + delta.y * delta.y := by
    rw [norm2, Real.sq_sqrt (by nlinarith [mul_self_nonneg delta.x, mul_self_nonneg delta.y])]
  refine ⟨1 / norm2 delta * delta.x, 1 / norm2 delta * delta.y, ?_, ?_⟩
  · field_simp
    rw [hsq]
    ring
  · simp only [eigenvectors, norm2_orthog, V2.smul]
    congr 1
    ring

theorem covariance_trace {delta : V2 ℝ} (hd : delta ≠ 0) (v : V2 ℝ) {einv : Mat2}
    (h : (eigenvectors delta).inv = some einv) :
    (((eigenvectors delta).mul (Mat2.diag v)).mul einv).a11 + (((eigenvectors delta).mul (Mat2.diag v)).mul einv).a22 =
      v.x + v.y := by
  obtain ⟨u, w, huw, he⟩ := eigenvectors_eq hd
  rw [he] at h ⊢
  have hdet : (⟨u, -w, w, u⟩ : Mat2).det = 1 := by simp only [Mat2.det]; linear_combination huw
  simp [Mat2.inv, hdet] at h
  rw [← h]
  simp only [Mat2.mul, Mat2.diag]
  linear_combination (v.x + v.y) * huw

/-- The contribution of a component is not below a bound that only depends on the distances. -/
theorem mixtureRate_ge {norm : ℝ} (hn : 0 ≤ norm) {si beam delta : V2 ℝ} (hd : delta ≠ 0) {c : Component}
    (hw : 0 ≤ c.weight) (hx : 0 < c.variance.x) (hy : 0 < c.variance.y) {r S : ℝ}
    (hr : mixtureRate norm si beam delta c = .ok r) (hsx : |beam.x - (si.x + c.locDistance * delta.x)| ≤ S)
    (hsy : |beam.y - (si.y + c.locDistance * delta.y)| ≤ S) :
    Real.exp (-((c.variance.x + c.variance.y) * (2 * S ^ 2) / (c.variance.x * c.variance.y) / 2)) /
      (2 * Real.pi * Real.sqrt (c.variance.x * c.variance.y)) * norm * c.weight ≤ r := by
  obtain ⟨einv, h1, h2, h3⟩ := covariance_posDef hd hx hy
  obtain ⟨d, h4, -⟩ := mvnPdf_le h2 beam (si + V2.smul c.locDistance delta)
  simp only [mixtureRate, h1, h4, Except.ok.injEq] at hr
  rw [← hr, ← h3]
  have := mvnPdf_ge h2 h4 (S := S) (by simpa using hsx) (by simpa using hsy) (covariance_trace hd c.variance h1).le
  gcongr

theorem neighborRate_ge {norm : ℝ} (hn : 0 ≤ norm) {si beam delta : V2 ℝ} (cs : List Component)
    (hw : ∀ c ∈ cs, 0 ≤ c.weight) {r0 r e : ℝ} (he : 0 ≤ e)
    (h : Gmm.neighborRate norm si beam delta cs r0 = .ok r) :
    r0 ≤ r ∧ ∀ c ∈ cs, (∀ q, mixtureRate norm si beam delta c = .ok q → e ≤ q) → r0 + e ≤ r := by
  induction cs generalizing r0 with
  | nil =>
    simp only [Gmm.neighborRate, Except.ok.injEq] at h
    exact ⟨h.le, by simp⟩
  | cons c cs ih =>
    simp only [Gmm.neighborRate] at h
    split at h
    · cases h
    · rename_i r1 h1
      have h0 := mixtureRate_nonneg hn (hw c List.mem_cons_self) h1
      obtain ⟨ih1, ih2⟩ := ih (fun c' hc' => hw c' (List.mem_cons_of_mem _ hc')) h
      refine ⟨by linarith, fun c' hc' hq => ?_⟩
      rcases List.mem_cons.1 hc' with rfl | hc'
      · have := hq _ h1
        linarith
      · have := ih2 c' hc' hq
        linarith

theorem mixture_unstuck (knn : Knn ℝ) (g : Gmm) (hg : ValidMixture g) {ps : List (V2 ℝ)} (h4 : 4 ≤ ps.length)
    (hnd : ps.Nodup) (D : ℝ) : ∃ ε B, Unstuck (g.call knn) ps D ε B := by
  set L := spread ps
  obtain ⟨norm, hno, hnp, -⟩ := normalizingFactor_ok hg
  obtain ⟨c, hc, hcw⟩ := hg.weighted
  obtain ⟨hvx, hvy⟩ := hg.variances c hc
  have hpi := Real.pi_pos
  have hsq : 0 < Real.sqrt (c.variance.x * c.variance.y) := Real.sqrt_pos.2 (mul_pos hvx hvy)
  have hL : 0 ≤ L := spread_nonneg ps
  set S := D + (L + |c.locDistance| * (L + L)) with hS
  set ε := Real.exp (-((c.variance.x + c.variance.y) * (2 * S ^ 2) / (c.variance.x * c.variance.y) / 2)) /
      (2 * Real.pi * Real.sqrt (c.variance.x * c.variance.y)) * norm * c.weight with hε
  have hεpos : 0 < ε := by positivity
  refine ⟨ε, 3 * (g.components.length * g.maxRate), hεpos, ?_⟩
  intro i hi beam hb
  obtain ⟨i', si, nbrs, ss, norm', hi', hsi, hno', hnp', hss, hlen, hnbrs, hn3, hnn, hnear, hsucc⟩ :=
    gmm_call knn g hg (siliconAt ps i) beam (siliconAt_doped hi) h4 hnd
  obtain rfl := silicon_unique hi'
  rw [hno, Except.ok.injEq] at hno'
  subst hno'
  have hknn := knn.spec ps si 4 h4
  obtain ⟨t, ht⟩ := hknn.head_eq hnd hsi
  have hcut : ∀ k ∈ nbrs, ∀ l, l ≠ i' → l ∉ nbrs → ∀ pk pl, ps[k]? = some pk → ps[l]? = some pl →
      V2.distSq si pk ≤ V2.distSq si pl := by
    intro k hk l hl hln pk pl hpk hpl
    have e : nbrs = t := by
      rw [hnbrs]
      change (knn.query ps si 4).drop 1 = t
      rw [ht]
      rfl
    rw [e] at hk hln
    refine hknn.nearest k (by rw [ht]; exact List.mem_cons_of_mem _ hk) l ?_ pk pl hpk hpl
    rw [ht, List.mem_cons]
    push Not
    exact ⟨hl, hln⟩
  have hlt : ∀ k ∈ nbrs, k < ps.length := fun k hk => by
    obtain ⟨-, _, pk, -, hpk, -⟩ := hnear k hk
    exact (List.getElem?_eq_some_iff.1 hpk).1
  obtain ⟨q1, q2⟩ := le_spread (List.mem_of_getElem? hsi)
  obtain ⟨b1, b2⟩ := abs_le_dist beam
  have hat : ∀ n, n < 3 → ∃ x j, ss[n]? = some x ∧ nbrs[n]? = some j ∧ x.grid = siliconAt ps j ∧ ε ≤ x.rate ∧
      x.rate ≤ g.components.length * g.maxRate := by
    intro n hn
    have hnl : n < nbrs.length := by omega
    obtain ⟨x, p, hx, hp, hpne, hxg, hrate, h0, hmax⟩ := hsucc n nbrs[n] (List.getElem?_eq_getElem hnl)
    have hjl : nbrs[n] < ps.length := hlt _ (List.getElem_mem hnl)
    refine ⟨x, nbrs[n], hx, List.getElem?_eq_getElem hnl, ?_, ?_, hmax⟩
    · have hd := singleDoped_successor (siliconAt_doped hi).wf hjl
      refine eq_siliconAt (hxg ▸ hd) (by rw [hxg]; rfl) ?_
      rw [hxg, successorGrid_numbers _ (siliconAt_doped hi).wf]
      exact (doped_get _ _ _ hjl).trans (by simp)
    · have hdne : p - si ≠ 0 := by
        intro h
        apply hpne
        have h1 := congrArg V2.x h
        have h2 := congrArg V2.y h
        simp at h1 h2
        ext <;> linarith
      obtain ⟨p1, p2⟩ := le_spread (List.mem_of_getElem? hp)
      have key := (neighborRate_ge hnp.le g.components hg.weights hεpos.le hrate).2 c hc (by
        intro q hq
        refine mixtureRate_ge hnp.le hdne hcw.le hvx hvy hq ?_ ?_
        · refine (abs_sub _ _).trans (add_le_add (b1.trans hb) ((abs_add_le _ _).trans (add_le_add q1 ?_)))
          rw [abs_mul, V2.sub_x]
          exact mul_le_mul_of_nonneg_left ((abs_sub _ _).trans (add_le_add p1 q1)) (abs_nonneg _)
        · refine (abs_sub _ _).trans (add_le_add (b2.trans hb) ((abs_add_le _ _).trans (add_le_add q2 ?_)))
          rw [abs_mul, V2.sub_y]
          exact mul_le_mul_of_nonneg_left ((abs_sub _ _).trans (add_le_add p2 q2)) (abs_nonneg _))
      linarith
  have hall : ∀ y ∈ ss, ∃ j ∈ nbrs, y.grid = siliconAt ps j ∧ ε ≤ y.rate ∧
      y.rate ≤ g.components.length * g.maxRate := by
    intro y hy
    obtain ⟨n, hn⟩ := List.getElem?_of_mem hy
    have hn3 : n < 3 := by
      have := (List.getElem?_eq_some_iff.1 hn).1
      omega
    obtain ⟨x, j, hx, hj, h⟩ := hat n hn3
    rw [hn, Option.some.injEq] at hx
    subst hx
    exact ⟨j, List.mem_of_getElem? hj, h⟩
  refine ⟨ss, hss, by rintro rfl; simp at hlen, sum_le_three hlen (fun y hy => ?_), fun y hy => ?_, fun j hj => ?_⟩
  · obtain ⟨j, -, -, -, h⟩ := hall y hy
    exact h
  · obtain ⟨j, hj, he, h, -⟩ := hall y hy
    exact ⟨h, j, hlt j hj, he⟩
  · have hin := near_included hsi hn3 hnn (fun k hk => (hnear k hk).1) hlt hcut hj
    obtain ⟨n, hn⟩ := List.getElem?_of_mem hin
    have hn3 : n < 3 := by
      have := (List.getElem?_eq_some_iff.1 hn).1
      omega
    obtain ⟨x, j', hx, hj', he, -⟩ := hat n hn3
    rw [hn, Option.some.injEq] at hj'
    subst hj'
    exact ⟨x, List.mem_of_getElem? hx, he⟩

/-- C130.  With the rate functions of the package (the simple one, the human prior and every mixture with proper
parameters) the silicon never sticks: on every sheet of at least four atoms at different places, and for all beam
positions within any given distance, the rates of the moves are bounded from below and above, and no surely nearest
atom is left out. -/
theorem C130_unstuck (knn : Knn ℝ) (ps : List (V2 ℝ)) (h4 : 4 ≤ ps.length) (hnd : ps.Nodup) (D : ℝ) :
    (∃ ε B, Unstuck (pristineRates knn simpleCanonicalRates) ps D ε B) ∧
    (∃ ε B, Unstuck (pristineRates knn HumanPrior.default.predict) ps D ε B) ∧
    ∀ m : Gmm, ValidMixture m → ∃ ε B, Unstuck (m.call knn) ps D ε B :=
  ⟨simple_unstuck knn h4 hnd D, prior_unstuck knn h4 hnd D, fun m hm => mixture_unstuck knn m hm h4 hnd D⟩

/-! ### Getting from atom to atom -/

section
variable {G O Img : Type} [MeasurableSpace G] {rng : Rng ℝ G} {μ : Measure G} {rate : RateFunction ℝ}

theorem quiet_ge {R B : ℝ} (h0 : 0 ≤ R) (hB : R ≤ B) {dwell : Timedelta} (hpos : 0 < dwell) (hd : dwell < 3600000000) :
    Real.exp (-(B * 3600)) ≤ quietProb R (dwell + 1) := by
  rw [quietProb_exposure R hpos, Real.exp_le_exp, neg_le_neg_iff]
  have h1 : exposure dwell ≤ 3600 := by
    unfold exposure
    rw [div_le_iff₀ (by norm_num)]
    have : (dwell : ℝ) ≤ 3600000000 - 1 := by
      have : dwell ≤ 3600000000 - 1 := by omega
      exact_mod_cast this
    linarith
  have h2 : 0 ≤ exposure dwell := by
    unfold exposure
    have : (0 : ℝ) < dwell := by exact_mod_cast hpos
    positivity
  exact mul_le_mul hB h1 h2 (h0.trans hB)

theorem share_ge {ss : List (Successor ℝ)} {ε B : ℝ} (hε : 0 < ε) (hss : ∀ y ∈ ss, ε ≤ y.rate) (hB : sumRates ss ≤ B)
    {y : Successor ℝ} (hy : y ∈ ss) : ε / B ≤ shareOf ss y.grid := by
  classical
  have hle : y.rate ≤ sumRates ss := by
    refine List.single_le_sum (fun x hx => ?_) _ (List.mem_map_of_mem hy)
    obtain ⟨z, hz, rfl⟩ := List.mem_map.1 hx
    exact hε.le.trans (hss z hz)
  have hpos : 0 < sumRates ss := lt_of_lt_of_le (lt_of_lt_of_le hε (hss y hy)) hle
  have h1 : y.rate / sumRates ss ≤ shareOf ss y.grid := by
    refine List.single_le_sum (fun x hx => ?_) _ (List.mem_map.2 ⟨y, hy, by simp⟩)
    obtain ⟨z, hz, rfl⟩ := List.mem_map.1 hx
    split_ifs
    · exact div_nonneg (hε.le.trans (hss z hz)) hpos.le
    · exact le_rfl
  refine le_trans ?_ h1
  exact div_le_div₀ (hε.le.trans (hss y hy)) (hss y hy) hpos hB

theorem lastSheet_cons (sheet : Grid ℝ) (t : Timedelta) (next : Grid ℝ) (evs : List (Timedelta × Grid ℝ)) :
    lastSheet sheet ((t, next) :: evs) = lastSheet next evs := by
  unfold lastSheet
  cases evs with
  | nil => rfl
  | cons e evs => rw [List.getLast?_cons_cons, List.getLast?_eq_some_getLast (List.cons_ne_nil e evs)]; rfl

/-- Along a walk there is a history that leads to its end. -/
theorem walk_history {ps : List (V2 ℝ)} {D ε B : ℝ} (hu : Unstuck rate ps D ε B)
    (hbond : ∀ i j p q, ps[i]? = some p → ps[j]? = some q → Spec.dist p q = 142 / 100 → SurelyNear ps i j)
    {p q : V2 ℝ} (hw : Walk ps p q) (j : ℕ) (hj : ps[j]? = some q) (huniq : ∀ i, ps[i]? = some q → i = j) :
    ∀ i, ps[i]? = some p → ∃ δ > 0, ∀ (beam : V2 ℝ) (dwell : Timedelta), Spec.dist 0 beam ≤ D → 0 < dwell →
      dwell < 3600000000 → ∃ evs, lastSheet (siliconAt ps i) evs = siliconAt ps j ∧
        δ ≤ historyProb rate beam dwell 0 (siliconAt ps i) evs := by
  have hε := hu.positive
  induction hw using Relation.ReflTransGen.head_induction_on with
  | refl =>
    intro i hi
    obtain rfl := huniq i hi
    have hil := (List.getElem?_eq_some_iff.1 hi).1
    refine ⟨Real.exp (-(B * 3600)), Real.exp_pos _, fun beam dwell hb h0 hd => ⟨[], rfl, ?_⟩⟩
    obtain ⟨ss, hss, hne, hB, hall, -⟩ := hu.moves i hil beam hb
    have hnn : 0 ≤ sumRates ss := by
      refine List.sum_nonneg fun x hx => ?_
      obtain ⟨y, hy, rfl⟩ := List.mem_map.1 hx
      exact hε.le.trans (hall y hy).1
    rw [historyProb, if_neg (by omega), hss]
    simp only
    rw [if_neg hne, sub_zero]
    exact quiet_ge hnn hB h0 hd
  | head hab _ ih =>
    obtain ⟨ha, hb, hd⟩ := hab
    intro i hi
    have hil := (List.getElem?_eq_some_iff.1 hi).1
    obtain ⟨k, hk⟩ := List.getElem?_of_mem hb
    obtain ⟨δ, hδ, hrest⟩ := ih k hk
    have hnear := hbond i k _ _ hi hk hd
    have hw0 : 0 < 1 - Real.exp (-(ε * ((1 - 1 / 2) / 1000000))) := by
      rw [sub_pos, Real.exp_lt_one_iff]
      have : 0 < ε * ((1 - 1 / 2) / 1000000) := by positivity
      linarith
    have hB : 0 < max B ε := lt_max_of_lt_right hε
    refine ⟨(1 - Real.exp (-(ε * ((1 - 1 / 2) / 1000000)))) * (ε / max B ε) * δ, by positivity, fun beam dwell hbm h0 hdw => ?_⟩
    obtain ⟨evs, hlast, hprob⟩ := hrest beam dwell hbm h0 hdw
    obtain ⟨ss, hss, hne, hBs, hall, hoff⟩ := hu.moves i hil beam hbm
    obtain ⟨y, hy, hyg⟩ := hoff k hnear
    refine ⟨(0, siliconAt ps k) :: evs, by rw [lastSheet_cons, hlast], ?_⟩
    rw [historyProb, if_pos ⟨h0, le_rfl, h0.le⟩, hss]
    simp only
    have hyle : ε ≤ sumRates ss := by
      refine (hall y hy).1.trans (List.single_le_sum (fun x hx => ?_) _ (List.mem_map_of_mem hy))
      obtain ⟨z, hz, rfl⟩ := List.mem_map.1 hx
      exact hε.le.trans (hall z hz).1
    have hwait : 1 - Real.exp (-(ε * ((1 - 1 / 2) / 1000000))) ≤ waitProb (sumRates ss) (0 - 0) := by
      have : waitProb (sumRates ss) (0 - 0) = 1 - Real.exp (-(sumRates ss * ((1 - 1 / 2) / 1000000))) := by
        unfold waitProb quietProb
        norm_num
      rw [this]
      apply sub_le_sub_left
      rw [Real.exp_le_exp, neg_le_neg_iff]
      exact mul_le_mul_of_nonneg_right hyle (by norm_num)
    have hshare := share_ge hε (fun y hy => (hall y hy).1) (hBs.trans (le_max_left B ε)) hy
    rw [hyg] at hshare
    refine mul_le_mul (mul_le_mul hwait hshare (by positivity) (hw0.le.trans hwait)) hprob hδ.le ?_
    exact mul_nonneg (hw0.le.trans hwait) ((by positivity : (0:ℝ) ≤ ε / max B ε).trans hshare)

/-- On a generated sheet there is, for all pairs of atoms, a history from one to the other, of a probability that is not
below a common bound. -/
theorem sheet_histories (n : ℕ) (offset : V2 ℝ) (angle : ℝ) {D ε B : ℝ}
    (hu : Unstuck rate (layOutSheet n offset angle) D ε B) :
    ∃ δ > 0, ∀ i j, i < (layOutSheet n offset angle).length → j < (layOutSheet n offset angle).length →
      ∀ (beam : V2 ℝ) (dwell : Timedelta), Spec.dist 0 beam ≤ D → 0 < dwell → dwell < 3600000000 →
        ∃ evs, lastSheet (siliconAt (layOutSheet n offset angle) i) evs = siliconAt (layOutSheet n offset angle) j ∧
          δ ≤ historyProb rate beam dwell 0 (siliconAt (layOutSheet n offset angle) i) evs := by
  set ps := layOutSheet n offset angle with hps
  have hnd : ps.Nodup := (C40_honeycomb n offset angle).1
  have hpair : ∀ x : Fin ps.length × Fin ps.length, ∃ δ : ℝ, 0 < δ ∧ ∀ (beam : V2 ℝ) (dwell : Timedelta),
      Spec.dist 0 beam ≤ D → 0 < dwell → dwell < 3600000000 →
        ∃ evs, lastSheet (siliconAt ps x.1) evs = siliconAt ps x.2 ∧
          δ ≤ historyProb rate beam dwell 0 (siliconAt ps x.1) evs := by
    rintro ⟨i, j⟩
    have hi : ps[(i : ℕ)]? = some ps[i] := List.getElem?_eq_getElem i.2
    have hj : ps[(j : ℕ)]? = some ps[j] := List.getElem?_eq_getElem j.2
    obtain ⟨δ, hδ, h⟩ := walk_history hu (fun i j p q => bonded_near n offset angle i j p q)
      (C130_connected n offset angle ps[i] ps[j] (List.getElem_mem i.2) (List.getElem_mem j.2)) j hj (by
        intro k hk
        obtain ⟨l1, e1⟩ := List.getElem?_eq_some_iff.1 hk
        exact (List.Nodup.getElem_inj_iff hnd).1 e1) i hi
    exact ⟨δ, hδ, h⟩
  choose f hf0 hf using hpair
  by_cases hne : Nonempty (Fin ps.length × Fin ps.length)
  · obtain ⟨x0, hx0⟩ := Finite.exists_min f
    refine ⟨f x0, hf0 x0, fun i j hi hj beam dwell hb h0 hd => ?_⟩
    obtain ⟨evs, h1, h2⟩ := hf (⟨i, hi⟩, ⟨j, hj⟩) beam dwell hb h0 hd
    exact ⟨evs, h1, (hx0 _).trans h2⟩
  · exact ⟨1, one_pos, fun i j hi hj => absurd ⟨(⟨i, hi⟩, ⟨j, hj⟩)⟩ hne⟩

/-- C130.  On a generated sheet no atom is out of reach, wherever the beam is: there is a positive number such that one
control, of any duration below an hour and with the beam anywhere within the distance `D`, takes the silicon from any
atom to any other with at least this probability. -/
theorem C130_reached (hf : Fair rng μ) (hl : rng.Lawful) (hr : SwapRates rate) (handle : Event ℝ Img → O → O)
    (obs : List O) (n : ℕ) (offset : V2 ℝ) (angle D ε B : ℝ) (hu : Unstuck rate (layOutSheet n offset angle) D ε B) :
    ∃ δ : ℝ, 0 < δ ∧ ∀ i j, i < (layOutSheet n offset angle).length → j < (layOutSheet n offset angle).length →
      ∀ c : BeamControl ℝ, Spec.dist 0 c.position ≤ D → 0 < c.dwellTime → c.dwellTime < 3600000000 →
      ENNReal.ofReal δ ≤ μ {g | ∃ fuel s', Material.applyControl rng handle rate fuel c
        ⟨g, ⟨true, some (siliconAt (layOutSheet n offset angle) i)⟩, obs⟩ = .ok () s' ∧
        s'.mat.grid = some (siliconAt (layOutSheet n offset angle) j)} := by
  obtain ⟨δ, hδ, h⟩ := sheet_histories n offset angle hu
  refine ⟨δ, hδ, fun i j hi hj c hb h0 hd => ?_⟩
  obtain ⟨evs, hlast, hprob⟩ := h i j hi hj c.position c.dwellTime hb h0 hd
  have key := (histories_law hf hl hd (fun sheet ss => hr.nonneg sheet c.position ss) MeasurableSet.univ evs 0
    (siliconAt (layOutSheet n offset angle) i) le_rfl).2
  rw [hf.total, mul_one] at key
  refine (ENNReal.ofReal_le_ofReal hprob).trans (key ▸ measure_mono ?_)
  rintro g ⟨g', sheet', hj', -⟩
  obtain ⟨fuel, h⟩ := (C72_jump_process rng handle rate c ⟨g, ⟨true, some (siliconAt (layOutSheet n offset angle) i)⟩, obs⟩
    ⟨g', ⟨true, some sheet'⟩, obs.map (observeAll handle (evs.map (fun e => Event.transition e.1 e.2)))⟩ _ rfl
    rfl).2 ⟨evs, sheet', hj', rfl, rfl, rfl⟩
  refine ⟨fuel, _, h, ?_⟩
  rw [jumps_last hj', hlast]

end

theorem four_atoms {n : ℕ} (hn : 5 ≤ n) (offset : V2 ℝ) (angle : ℝ) : 4 ≤ (layOutSheet n offset angle).length := by
  obtain ⟨x, hx⟩ := List.exists_mem_of_ne_nil _ (sheet_ne_nil n hn offset angle)
  obtain ⟨b, c, d, hnd, hall⟩ := four_near n hn offset angle x hx
  have := (hnd.subperm (fun q hq => (hall q hq).1)).length_le
  simpa using this

/-- A sheet of the default width with the human prior's rates, and a beam at most 30 Å from the origin. -/
example (offset : V2 ℝ) (angle : ℝ) : ∃ δ : ℝ, 0 < δ ∧ ∀ i j, i < (layOutSheet 50 offset angle).length →
    j < (layOutSheet 50 offset angle).length → ∀ c : BeamControl ℝ, Spec.dist 0 c.position ≤ 30 → 0 < c.dwellTime →
    c.dwellTime < 3600000000 → ENNReal.ofReal δ ≤ Witness.streamLaw {g | ∃ fuel s',
      Material.applyControl Witness.streamRng (fun (_ : Event ℝ Unit) (o : Unit) => o)
        (pristineRates Witness.knn HumanPrior.default.predict) fuel c
        ⟨g, ⟨true, some (siliconAt (layOutSheet 50 offset angle) i)⟩, []⟩ = .ok () s' ∧
      s'.mat.grid = some (siliconAt (layOutSheet 50 offset angle) j)} := by
  obtain ⟨ε, B, hu⟩ := (C130_unstuck Witness.knn _ (four_atoms (n := 50) (by norm_num) offset angle)
    (C40_honeycomb 50 offset angle).1 30).2.1
  exact C130_reached Witness.streamRng_fair Witness.streamRng_lawful (C39_pristine_swaps _ _) _ [] 50 offset angle 30 ε B hu

/-- There are two atoms to walk between. -/
example : ∃ p q, p ≠ q ∧ p ∈ layOutSheet 50 0 0 ∧ q ∈ layOutSheet 50 0 0 := by
  obtain ⟨x, hx⟩ := List.exists_mem_of_ne_nil _ (sheet_ne_nil 50 (by norm_num) 0 0)
  obtain ⟨b, c, d, hnd, hall⟩ := four_near 50 (by norm_num) 0 0 x hx
  exact ⟨x, b, fun h => by simp [h] at hnd, hx, (hall b (by simp)).1⟩

end PD.Props
