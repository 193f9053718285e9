/- The tests on transitions and the nearest neighbours, with floating point numbers. -/
import Verif.Lemmas.FloatLabel

set_option linter.unusedSectionVars false
set_option linter.unusedSimpArgs false

namespace PD.Props
open PD PD.Spec
variable {Img : Type}

/-! ### Nearest neighbours -/

/-- Points that are clearly nearer than all others come first. -/
theorem rows_prefix {R xs ps : List (V2 ℝ)} {q : V2 ℝ} (hR : R.Nodup) (hsub : ∀ a ∈ R, a ∈ ps)
    (hs : R.Pairwise (fun a b => V2.distSq q a ≤ V2.distSq q b + 1 / 1000))
    (hn : ∀ a ∈ R, ∀ b ∈ ps, b ∉ R → V2.distSq q a ≤ V2.distSq q b + 1 / 1000) (hxs : xs.Nodup)
    (hxp : ∀ x ∈ xs, x ∈ ps) (hl : xs.length ≤ R.length)
    (gap : ∀ x ∈ xs, ∀ p ∈ ps, p ∉ xs → V2.distSq q x + 1 / 1000 < V2.distSq q p) :
    (R.take xs.length).Perm xs := by
  have hin : ∀ x ∈ xs, x ∈ R := by
    intro x hx
    by_contra hxR
    have : ∃ a ∈ R, a ∉ xs := by
      by_contra hcon
      push Not at hcon
      have hs : R ⊆ xs.erase x := fun a ha =>
        (hxs.mem_erase_iff).2 ⟨fun e => hxR (e ▸ ha), hcon a ha⟩
      have h1 := (List.subperm_of_subset hR hs).length_le
      rw [List.length_erase_of_mem hx] at h1
      have := List.length_pos_of_mem hx
      omega
    obtain ⟨a, ha, hax⟩ := this
    have h1 := hn a ha x (hxp x hx) hxR
    have h2 := gap x hx a (hsub a ha) hax
    linarith
  have htl : (R.take xs.length).length = xs.length := by rw [List.length_take]; omega
  have hnd : (R.take xs.length).Nodup := hR.sublist (List.take_sublist _ _)
  have hall : ∀ a ∈ R.take xs.length, a ∈ xs := by
    intro a ha
    by_contra hax
    have : ∃ x ∈ xs, x ∉ R.take xs.length := by
      by_contra hcon
      push Not at hcon
      have := (List.subperm_of_subset hxs hcon).perm_of_length_le (by omega)
      exact hax (this.mem_iff.2 ha)
    obtain ⟨x, hx, hxt⟩ := this
    have hxd : x ∈ R.drop xs.length := by
      have h1 := hin x hx
      rw [← List.take_append_drop xs.length R, List.mem_append] at h1
      exact h1.resolve_left hxt
    rw [← List.take_append_drop xs.length R, List.pairwise_append] at hs
    have h1 := hs.2.2 a ha x hxd
    have h2 := gap x hx a (hsub a (List.mem_of_mem_take ha)) hax
    linarith
  exact (List.subperm_of_subset hnd hall).perm_of_length_le (by omega)

theorem knn_rows {ps : List (V2 ℝ)} (hnd : ps.Nodup) {q : V2 ℝ} {k : ℕ} {r : List ℕ} (h : IsFloatKnn ps q k r) :
    ∃ R, takeRows ps r = .ok R ∧ R.length = k ∧ R.Nodup ∧ (∀ a ∈ R, a ∈ ps) ∧
      R.Pairwise (fun a b => V2.distSq q a ≤ V2.distSq q b + 1 / 1000) ∧
      (∀ a ∈ R, ∀ b ∈ ps, b ∉ R → V2.distSq q a ≤ V2.distSq q b + 1 / 1000) ∧
      ∀ j a, ps[j]? = some a → (j ∈ r ↔ a ∈ R) := by
  obtain ⟨R, hR⟩ := takeRows_inRange h.lt
  have hmap := takeRows_map hR
  obtain ⟨qs, q1, q2, q3⟩ := positions_of hnd h.nodup h.lt
  have hqs : qs = R := by
    have := q3.symm.trans hmap
    exact List.map_injective_iff.2 (Option.some_injective _) this
  subst hqs
  obtain ⟨m1, m2⟩ := mem_positions_of hmap
  have hmem : ∀ j a, ps[j]? = some a → (j ∈ r ↔ a ∈ qs) := by
    intro j a hj
    constructor
    · intro hjr
      obtain ⟨b, hb, hjb⟩ := m2 j hjr
      rw [hj] at hjb
      cases hjb
      exact hb
    · intro ha
      obtain ⟨i, hi, hia⟩ := m1 a ha
      rw [getElem?_inj hnd hj hia]
      exact hi
  refine ⟨qs, hR, q2.trans h.length, q1, ?_, ?_, ?_, hmem⟩
  · intro a ha
    obtain ⟨i, -, hi⟩ := m1 a ha
    exact List.mem_of_getElem? hi
  · have h1 : (qs.map some).Pairwise (fun a b : Option (V2 ℝ) => ∀ x y, a = some x → b = some y →
        V2.distSq q x ≤ V2.distSq q y + 1 / 1000) := by
      rw [← hmap, List.pairwise_map]
      exact h.sorted
    rw [List.pairwise_map] at h1
    exact h1.imp (fun h2 => h2 _ _ rfl rfl)
  · intro a ha b hb hbn
    obtain ⟨i, hi, hia⟩ := m1 a ha
    obtain ⟨j, hj⟩ := List.getElem?_of_mem hb
    exact h.nearest i hi j (fun hjr => hbn ((hmem j b hj).1 hjr)) a b hia hj

theorem distSq_of_dist (q a : V2 ℝ) : V2.distSq q a = Spec.dist q a ^ 2 := by
  unfold Spec.dist
  rw [Real.sq_sqrt (by positivity)]
  simp [V2.distSq, V2.normSq, pow_two]

theorem gap_of_dist {q x p : V2 ℝ} (hx : Spec.dist q x ≤ 15 / 10) (hp : 24 / 10 ≤ Spec.dist q p) :
    V2.distSq q x + 1 / 1000 < V2.distSq q p := by
  rw [distSq_of_dist, distSq_of_dist]
  have := dist_nonneg' q x
  nlinarith

/-! ### The tests on the grid before -/

/-- Coordinates that are not too large. -/
def InBox (p : V2 ℝ) : Prop := |p.x| ≤ 32000 ∧ |p.y| ≤ 32000

theorem InBox.near {p : V2 ℝ} (h : InBox p) : Near16 p := ⟨h.1.trans (by norm_num), h.2.trans (by norm_num)⟩

theorem InBox.diff {p q : V2 ℝ} (hp : InBox p) (hq : InBox q) : |p.x - q.x| ≤ 64000 ∧ |p.y - q.y| ≤ 64000 := by
  obtain ⟨a, b⟩ := hp
  obtain ⟨c, d⟩ := hq
  constructor
  · refine (abs_sub _ _).trans ?_; linarith
  · refine (abs_sub _ _).trans ?_; linarith

theorem InBox.dist_err {p q : V2 ℝ} (hp : InBox p) (hq : InBox q) :
    |floatNorm .plain (floatSub p q) - Spec.dist p q| ≤ 1 / 10 ^ 7 :=
  floatDist_err ((hp.diff hq).1.trans (by norm_num)) ((hp.diff hq).2.trans (by norm_num))

theorem floatCheckBefore_ok (L : FloatLib) {before : Grid ℝ} {si : V2 ℝ} {nbrs : List (V2 ℝ)}
    (hnd : before.positions.Nodup) (h10 : 10 ≤ before.positions.length) (hbox : ∀ p ∈ before.positions, InBox p)
    (hsi : si ∈ before.positions) (hnb : ∀ p ∈ nbrs, p ∈ before.positions) (h3 : nbrs.length = 3) (hn : nbrs.Nodup)
    (hout : si ∉ nbrs) (near : ∀ p ∈ nbrs, 13 / 10 ≤ Spec.dist si p ∧ Spec.dist si p ≤ 15 / 10)
    (far : ∀ p ∈ before.positions, p ≠ si → p ∉ nbrs → 24 / 10 ≤ Spec.dist si p) :
    ∃ n2, floatCheckBefore L before si = .ok (.inr (si :: n2)) ∧ n2.Perm nbrs := by
  have hspec := L.knn.spec before.positions si 10 h10 (fun p hp => (hbox p hp).near) (hbox si hsi).near
  obtain ⟨R, hR, hlen, hRnd, hsub, hsort, hnear, -⟩ := knn_rows hnd hspec
  have hself : Spec.dist si si = 0 := dist_self' si
  have p4 : (R.take 4).Perm (si :: nbrs) := by
    have := rows_prefix (xs := si :: nbrs) hRnd hsub hsort hnear (List.nodup_cons.2 ⟨hout, hn⟩)
      (fun x hx => by
        rcases List.mem_cons.1 hx with rfl | hx
        · exact hsi
        · exact hnb x hx) (by simp [h3, hlen])
      (fun x hx p hp hpn => by
        rw [List.mem_cons, not_or] at hpn
        refine gap_of_dist ?_ (far p hp hpn.1 hpn.2)
        rcases List.mem_cons.1 hx with rfl | hx
        · rw [hself]; norm_num
        · exact (near x hx).2)
    simpa [h3] using this
  have p1 : (R.take 1).Perm [si] := by
    refine rows_prefix (xs := [si]) hRnd hsub hsort hnear (by simp) (by simpa using hsi) (by simp [hlen]) ?_
    intro x hx p hp hpn
    simp only [List.mem_singleton] at hx hpn
    subst hx
    rw [distSq_of_dist, distSq_of_dist, hself]
    by_cases hpm : p ∈ nbrs
    · have := (near p hpm).1
      nlinarith
    · have := far p hp hpn hpm
      nlinarith
  match R, hlen with
  | [r0, r1, r2, r3, r4, r5, r6, r7, r8, r9], _ =>
    simp only [List.take_succ_cons, List.take_zero, List.perm_singleton, List.cons.injEq, and_true] at p1 p4
    subst p1
    have pn : [r1, r2, r3].Perm nbrs := List.Perm.cons_inv p4
    have hmem : ∀ p, p ∈ nbrs ↔ p ∈ [r1, r2, r3] := fun p => pn.mem_iff.symm
    have small : ∀ p ∈ [r1, r2, r3], floatNorm .plain (floatSub r0 p) ≤ 151 / 100 := by
      intro p hp
      have hp' := (hmem p).2 hp
      have := abs_le.1 ((hbox r0 hsi).dist_err (hbox p (hnb p hp')))
      norm_num at this
      linarith [this.2, (near p hp').2]
    have large : ∀ p ∈ [r4, r5, r6, r7, r8, r9], 239 / 100 ≤ floatNorm .plain (floatSub r0 p) := by
      intro p hp
      have hpR : p ∈ [r0, r1, r2, r3, r4, r5, r6, r7, r8, r9] := by
        have : p ∈ [r0, r1, r2, r3] ++ [r4, r5, r6, r7, r8, r9] := List.mem_append_right _ hp
        simpa using this
      have hdis : p ∉ [r0, r1, r2, r3] := by
        have h1 : ([r0, r1, r2, r3] ++ [r4, r5, r6, r7, r8, r9]).Nodup := hRnd
        exact fun hc => (List.disjoint_of_nodup_append h1) hc hp
      rw [List.mem_cons, not_or] at hdis
      have hd := far p (hsub p hpR) hdis.1 (fun hc => hdis.2 ((hmem p).1 hc))
      have := abs_le.1 ((hbox r0 hsi).dist_err (hbox p (hsub p hpR)))
      norm_num at this
      linarith [this.1]
    refine ⟨[r1, r2, r3], ?_, pn⟩
    have s1 := small r1 (by simp)
    have s2 := small r2 (by simp)
    have s3 := small r3 (by simp)
    have l4 := large r4 (by simp)
    have l5 := large r5 (by simp)
    have l6 := large r6 (by simp)
    have l7 := large r7 (by simp)
    have l8 := large r8 (by simp)
    have l9 := large r9 (by simp)
    have hf : ¬ |f64 (floatNorm .plain (floatSub r0 r1) - floatNorm .plain (floatSub r0 r4))| < 1 / 2 := by
      rw [not_lt]
      generalize floatNorm .plain (floatSub r0 r1) = a at *
      generalize floatNorm .plain (floatSub r0 r4) = b at *
      have hm : f64 (a - b) ≤ f64 (-(1 / 2)) := f64_mono (by linarith)
      have hh : f64 (-(1 / 2) : ℝ) ≤ -(1 / 2) + 1 / 10 ^ 15 := by
        have := (abs_le.1 (f64_err_small (x := (-(1 / 2) : ℝ)) (by rw [abs_neg, abs_of_pos] <;> norm_num))).2
        linarith
      rw [abs_of_nonpos (by norm_num at hh ⊢; linarith)]
      have hm' : f64 (a - b) ≤ f64 (-(3 / 4)) := f64_mono (by linarith)
      have hh' := (abs_le.1 (f64_err_small (x := (-(3 / 4) : ℝ)) (by rw [abs_neg, abs_of_pos] <;> norm_num))).2
      norm_num at hh' ⊢
      linarith
    unfold floatCheckBefore FloatKnn.kneighbors
    simp only [if_pos h10, hR, hspec.length]
    simp only [List.length_cons, List.length_nil, List.map_cons, List.map_nil, List.getD_cons_succ, List.getD_cons_zero,
      List.drop_succ_cons, List.drop_zero, List.take_succ_cons, List.take_zero, List.all_cons, List.all_nil, hf,
      decide_false]
    have t1 : floatNorm .plain (floatSub r0 r1) < 2 := by linarith
    have t2 : floatNorm .plain (floatSub r0 r2) < 2 := by linarith
    have t3 : floatNorm .plain (floatSub r0 r3) < 2 := by linarith
    have t4 : floatNorm .plain (floatSub r0 r4) > 2 := by linarith
    have t5 : floatNorm .plain (floatSub r0 r5) > 2 := by linarith
    have t6 : floatNorm .plain (floatSub r0 r6) > 2 := by linarith
    have t7 : floatNorm .plain (floatSub r0 r7) > 2 := by linarith
    have t8 : floatNorm .plain (floatSub r0 r8) > 2 := by linarith
    have t9 : floatNorm .plain (floatSub r0 r9) > 2 := by linarith
    simp [t1, t2, t3, t4, t5, t6, t7, t8, t9]

/-! ### The tests on the grid after -/

theorem mapM_bounded {α : Type} {f : α → Option ℝ} {B : ℝ} : ∀ {l : List α},
    (∀ p ∈ l, ∃ v, f p = some v ∧ 0 ≤ v ∧ v ≤ B) →
    ∃ ds, l.mapM f = some ds ∧ ds.length = l.length ∧ ∀ d ∈ ds, 0 ≤ d ∧ d ≤ B
  | [], _ => ⟨[], rfl, rfl, by simp⟩
  | p :: l, h => by
    obtain ⟨v, hv, hv0, hvB⟩ := h p List.mem_cons_self
    obtain ⟨ds, h1, h2, h3⟩ := mapM_bounded (l := l) (fun q hq => h q (List.mem_cons_of_mem _ hq))
    refine ⟨v :: ds, by simp [List.mapM_cons, hv, h1], by simp [h2], ?_⟩
    intro d hd
    rcases List.mem_cons.1 hd with rfl | hd
    · exact ⟨hv0, hvB⟩
    · exact h3 d hd

theorem floatNorm_nonneg (v : V2 ℝ) : 0 ≤ floatNorm .plain v := f64_nonneg (Real.sqrt_nonneg _)

theorem floatMeanNearest_ok (L : FloatLib) {before after : List (V2 ℝ)} {r : ℝ} (h4 : before.length = 4) (hr : r ≤ 2)
    (h : ∀ p ∈ before, ∃ x ∈ after, floatNorm .plain (floatSub p x) ≤ r) :
    ∃ m, floatMeanNearest L before after = .ok m ∧ m ≤ r + 1 / 10 ^ 10 := by
  obtain ⟨ds, h1, h2, h3⟩ := mapM_bounded (f := fun p => (after.map (fun q => floatNorm .plain (floatSub p q))).min?)
    (B := r) (l := before) (by
      intro p hp
      obtain ⟨x, hx, hxr⟩ := h p hp
      have hm : floatNorm .plain (floatSub p x) ∈ after.map (fun q => floatNorm .plain (floatSub p q)) :=
        List.mem_map_of_mem hx
      cases hmin : (after.map (fun q => floatNorm .plain (floatSub p q))).min? with
      | none =>
        rw [List.min?_eq_none_iff] at hmin
        rw [hmin] at hm
        cases hm
      | some v =>
        obtain ⟨a, b⟩ := List.min?_eq_some_iff.1 hmin
        refine ⟨v, rfl, ?_, (b _ hm).trans hxr⟩
        obtain ⟨y, _, rfl⟩ := List.mem_map.1 a
        exact floatNorm_nonneg _)
  refine ⟨_, by unfold floatMeanNearest; rw [h1], ?_⟩
  rw [h4] at h2
  match ds, h2 with
  | [a, b, c, d], _ =>
    obtain ⟨a0, a1⟩ := h3 a (by simp)
    obtain ⟨b0, b1⟩ := h3 b (by simp)
    obtain ⟨c0, c1⟩ := h3 c (by simp)
    obtain ⟨d0, d1⟩ := h3 d (by simp)
    have e := L.sums.err [a, b, c, d] (by norm_num)
    have hz : (2 : ℝ) ^ (-1000 : ℤ) ≤ 1 / 10 ^ 20 :=
      (zpow_le_zpow_right₀ (by norm_num) (show (-1000 : ℤ) ≤ -70 by norm_num)).trans (by norm_num)
    have hu : (2 : ℝ) ^ (-52 : ℤ) ≤ 1 / 10 ^ 15 := by norm_num
    have hu0 : (0 : ℝ) ≤ (2 : ℝ) ^ (-52 : ℤ) := by positivity
    simp only [List.length_cons, List.length_nil, List.sum_cons, List.sum_nil, List.map_cons, List.map_nil,
      abs_of_nonneg a0, abs_of_nonneg b0, abs_of_nonneg c0, abs_of_nonneg d0] at e ⊢
    generalize (2 : ℝ) ^ (-1000 : ℤ) = z at e hz
    generalize (2 : ℝ) ^ (-52 : ℤ) = u at e hu hu0
    generalize L.sums.sum [a, b, c, d] = s at *
    have e' : s ≤ 4 * r + 1 / 10 ^ 12 := by
      have := (abs_le.1 e).2
      have hprod : u * (a + (b + (c + (d + 0)))) ≤ 1 / 10 ^ 15 * 8 :=
        mul_le_mul hu (by linarith) (by linarith) (by norm_num)
      norm_num at this hz hprod ⊢
      nlinarith
    have hr0 : 0 ≤ r := a0.trans a1
    have hm : f64 (s / ((0 + 1 + 1 + 1 + 1 : ℕ) : ℝ)) ≤ f64 (r + 1 / 10 ^ 12) := f64_mono (by
      push_cast
      norm_num at e' ⊢
      linarith)
    have hf := (f64_err_rel' (x := r + 1 / 10 ^ 12) (by positivity)).2
    refine hm.trans (hf.trans ?_)
    norm_num
    linarith

theorem floatCheckAfter_ok (L : FloatLib) {cutoff r : ℝ} {after : Grid ℝ} {si si' : V2 ℝ} {xs bs : List (V2 ℝ)}
    (hwf : after.WF) (hnd : after.positions.Nodup) (hbox : ∀ p ∈ after.positions, InBox p) (hsi : InBox si)
    (hsil : silicons after = [si']) (h4 : xs.length = 4) (hxn : xs.Nodup)
    (hxs : ∀ x ∈ xs, x ∈ after.positions ∧ Spec.dist si x ≤ 15 / 10)
    (far : ∀ p ∈ after.positions, p ∉ xs → 24 / 10 ≤ Spec.dist si p) (hb4 : bs.length = 4) (hbb : ∀ p ∈ bs, InBox p)
    (hr : r ≤ 1) (hm : ∀ p ∈ bs, ∃ x ∈ xs, Spec.dist p x ≤ r) (hcut : r + 1 / 10 ^ 6 ≤ cutoff) :
    ∃ res, floatCheckAfter L cutoff after si bs = .ok res ∧
      ((res = .inr si' ∧ si' ∈ xs) ∨ (res = .inl .noSiliconNeighbor ∧ si' ∉ xs)) := by
  have hl : 4 ≤ after.positions.length := by
    have := (List.subperm_of_subset hxn (fun q hq => (hxs q hq).1)).length_le
    rwa [h4] at this
  have hspec := L.knn.spec after.positions si 4 hl (fun p hp => (hbox p hp).near) hsi.near
  obtain ⟨R, hR, hlen, hRnd, hsub, hsort, hnear, hidx⟩ := knn_rows hnd hspec
  have hperm : R.Perm xs := by
    have := rows_prefix (xs := xs) hRnd hsub hsort hnear hxn (fun x hx => (hxs x hx).1) (by rw [h4, hlen])
      (fun x hx p hp hpn => gap_of_dist (hxs x hx).2 (far p hp hpn))
    rwa [h4, ← hlen, List.take_length] at this
  obtain ⟨ns, hns⟩ := takeRows_inRange (rows := after.numbers) (by rw [← hwf]; exact hspec.lt)
  obtain ⟨n1, n2⟩ := takeRows_ok hns
  obtain ⟨i, hi, hip⟩ := silicon_index (g := after) (si := si') (by rw [hsil]; simp)
  have hany : ns.any (fun n => decide (n = SILICON)) = decide (si' ∈ xs) := by
    rw [Bool.eq_iff_iff, List.any_eq_true, decide_eq_true_eq]
    constructor
    · rintro ⟨n, hn, e⟩
      rw [decide_eq_true_eq] at e
      subst e
      obtain ⟨k, hk⟩ := List.getElem?_of_mem hn
      rw [n2 k] at hk
      obtain ⟨j, hj, hjn⟩ := Option.bind_eq_some_iff.1 hk
      have hjr := List.mem_of_getElem? hj
      have hjl := hspec.lt j hjr
      have hjp := List.getElem?_eq_getElem hjl
      have hp : after.positions[j] = si' := by
        have : after.positions[j] ∈ silicons after := by
          simp only [silicons, atoms, List.mem_map, List.mem_filter, decide_eq_true_eq]
          exact ⟨(after.positions[j], SILICON),
            ⟨List.mem_of_getElem? (List.getElem?_zip_eq_some.2 ⟨hjp, hjn⟩), rfl⟩, rfl⟩
        rw [hsil] at this
        simpa using this
      rw [← hp]
      exact hperm.mem_iff.1 ((hidx j _ hjp).1 hjr)
    · intro hmem
      have hir := (hidx i si' hip).2 (hperm.mem_iff.2 hmem)
      obtain ⟨k, hk⟩ := List.getElem?_of_mem hir
      refine ⟨SILICON, ?_, by simp⟩
      have := n2 k
      rw [hk, Option.bind_some, hi] at this
      exact List.mem_of_getElem? this
  obtain ⟨m, hm1, hm2⟩ := floatMeanNearest_ok L (before := bs) (after := R) (r := r + 1 / 10 ^ 7) hb4
    (by norm_num; linarith) (by
      intro p hp
      obtain ⟨x, hx, hd⟩ := hm p hp
      refine ⟨x, hperm.mem_iff.2 hx, ?_⟩
      have := (abs_le.1 ((hbb p hp).dist_err (hbox x (hxs x hx).1))).2
      linarith)
  have hmc : ¬ m > cutoff := by
    rw [gt_iff_lt, not_lt]
    norm_num at hm2 hcut
    linarith
  unfold floatCheckAfter FloatKnn.kneighbors
  simp only [if_pos hl, hR, hns, getSiliconPositions_eq_silicons hwf, hsil, hany]
  by_cases hmem : si' ∈ xs
  · refine ⟨.inr si', ?_, .inl ⟨rfl, hmem⟩⟩
    simp [hmem, hlen, hspec.length, n1, hm1, hmc]
  · refine ⟨.inl .noSiliconNeighbor, ?_, .inr ⟨rfl, hmem⟩⟩
    simp [hmem]

end PD.Props
