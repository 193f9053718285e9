/- Property C42: every transition is used or accounted for. -/
import Verif.Spec.DataPoints
import Verif.Lemmas.Argsort
import Verif.Lemmas.Goal
import Verif.Lemmas.Witness
import Verif.Props.Geometry
import Verif.Props.Rates

set_option linter.unusedSectionVars false
set_option linter.unusedSimpArgs false

namespace PD.Props
open PD PD.Spec
variable {Img : Type}

theorem toMaterial_eq_lerp (f : Fov ℝ) (p : V2 ℝ) :
    f.toMaterial p = lerp f.lowerLeft f.upperRight p := by
  ext <;> simp [Fov.toMaterial, lerp, Fov.scale, Fov.width, Fov.height] <;> ring

theorem gridToMaterial_eq_placedOn (f : Fov ℝ) (g : Grid ℝ) : f.gridToMaterial g = placedOn f g := by
  simp only [Fov.gridToMaterial, placedOn]
  congr 1
  exact List.map_congr_left (fun p _ => toMaterial_eq_lerp f p)

theorem dist_comm' (p q : V2 ℝ) : Spec.dist p q = Spec.dist q p := by
  unfold Spec.dist; congr 1; ring

theorem norm2_sub (p q : V2 ℝ) : norm2 (p - q) = Spec.dist p q := by
  rw [norm2_eq_len, dist_eq_len]

theorem pyMod_range (x : ℝ) : 0 ≤ pyMod x (2 * Real.pi) ∧ pyMod x (2 * Real.pi) < 2 * Real.pi := by
  have hp : 0 < 2 * Real.pi := Real.two_pi_pos
  unfold pyMod
  have h1 := Int.floor_le (x / (2 * Real.pi))
  have h2 := Int.lt_floor_add_one (x / (2 * Real.pi))
  rw [le_div_iff₀ hp] at h1
  rw [div_lt_iff₀ hp] at h2
  constructor <;> nlinarith

theorem pyMod_cos (x : ℝ) : Real.cos (pyMod x (2 * Real.pi)) = Real.cos x := by
  unfold pyMod
  rw [mul_comm]
  exact Real.cos_sub_int_mul_two_pi x _

theorem pyMod_sin (x : ℝ) : Real.sin (pyMod x (2 * Real.pi)) = Real.sin x := by
  unfold pyMod
  rw [mul_comm]
  exact Real.sin_sub_int_mul_two_pi x _

theorem ccwAngle_pyMod (u v : V2 ℝ) :
    CcwAngle u v (pyMod (getAngle v + -getAngle u) (2 * Real.pi)) := by
  refine ⟨pyMod_range _, ?_, ?_⟩
  · rw [pyMod_cos, ← sub_eq_add_neg, Real.cos_sub]
    have h1 := len_cos_angle u; have h2 := len_sin_angle u
    have h3 := len_cos_angle v; have h4 := len_sin_angle v
    rw [dot, ← h1, ← h2, ← h3, ← h4]; ring
  · rw [pyMod_sin, ← sub_eq_add_neg, Real.sin_sub]
    have h1 := len_cos_angle u; have h2 := len_sin_angle u
    have h3 := len_cos_angle v; have h4 := len_sin_angle v
    rw [cross, ← h1, ← h2, ← h3, ← h4]; ring

theorem rotate_along {u : V2 ℝ} (hu : len u ≠ 0) (b : V2 ℝ) : rotate b (-getAngle u) = along u b := by
  have h1 := len_cos_angle u; have h2 := len_sin_angle u
  ext
  · simp only [rotate, along, Real.cos_neg, Real.sin_neg, dot]
    rw [eq_div_iff hu, ← h1, ← h2]; 
    rw [h1, h2] 
    linear_combination b.x * h1 + b.y * h2
  · simp only [rotate, along, Real.cos_neg, Real.sin_neg, cross]
    rw [eq_div_iff hu]
    linear_combination b.y * h1 - b.x * h2

/-! ### The standard frame and the label -/

theorem makeDataPoint_spec {c : BeamControl ℝ} {beam si siAfter : V2 ℝ} {nbrs : List (V2 ℝ)}
    {d : DataPoint} (hne : ∀ p ∈ nbrs, p ≠ si)
    (h : makeDataPoint c beam si siAfter (si :: nbrs) = .ok d) :
    d.secondsBetween = totalSeconds c.dwellTime ∧ d.current = c.currentNa ∧
    d.voltage = c.voltageKv ∧
    ∃ q ∈ nbrs, (∀ p ∈ nbrs, Spec.dist beam q ≤ Spec.dist beam p) ∧
      d.beamPos = along (q - si) (beam - si) ∧
      ∃ θs : List ℝ, List.Forall₂ (fun p θ => CcwAngle (q - si) (p - si) θ) nbrs θs ∧
        (θs.Nodup → IsLabel si siAfter nbrs θs d.nextState) := by
  unfold makeDataPoint at h
  simp only [List.map_cons, List.drop_succ_cons, List.drop_zero] at h
  cases hst : standardize (beam - si) (nbrs.map (fun p => p - si)) with
  | error e => rw [hst] at h; cases h
  | ok r =>
    obtain ⟨beam', rot, order⟩ := r
    rw [hst] at h
    simp only at h
    unfold standardize at hst
    cases hn : argmin? ((nbrs.map (fun p => p - si)).map (fun n => norm2 (n - (beam - si)))) with
    | none => rw [hn] at hst; cases hst
    | some nearest =>
      rw [hn] at hst
      simp only at hst
      cases ha : (getAngles (nbrs.map (fun p => p - si)))[nearest]? with
      | none => rw [ha] at hst; cases hst
      | some a =>
        rw [ha] at hst
        simp only [Except.ok.injEq, Prod.mk.injEq] at hst
        obtain ⟨hb, -, ho⟩ := hst
        simp only [getAngles, List.getElem?_map, Option.map_eq_some_iff] at ha
        obtain ⟨_, ⟨q, hq, rfl⟩, rfl⟩ := ha
        have hqm := List.mem_of_getElem? hq
        have hlen : len (q - si) ≠ 0 := by
          intro h0
          apply hne q hqm
          have h1 := len_cos_angle (q - si); have h2 := len_sin_angle (q - si)
          rw [h0, zero_mul] at h1 h2
          ext
          · exact (sub_eq_zero.1 h1.symm)
          · exact (sub_eq_zero.1 h2.symm)
        set θs := (getAngles (nbrs.map (fun p => p - si))).map
          (fun t => pyMod (t + -getAngle (q - si)) (2 * Real.pi)) with hθ
        have hθn : θs = nbrs.map (fun p => pyMod (getAngle (p - si) + -getAngle (q - si)) (2 * Real.pi)) := by
          simp [hθ, getAngles]
        have hnear : ∀ p ∈ nbrs, Spec.dist beam q ≤ Spec.dist beam p := by
          obtain ⟨v, hv, hmin, -⟩ := argmin?_eq_some hn
          rw [List.map_map] at hv hmin
          rw [List.getElem?_map, hq] at hv
          simp only [Option.map_some, Option.some.injEq, Function.comp] at hv
          intro p hp
          have := hmin _ (List.mem_map_of_mem hp)
          simp only [Function.comp] at this
          have hh : ∀ p : V2 ℝ, norm2 (p - si - (beam - si)) = Spec.dist beam p := by
            intro p
            rw [dist_comm', ← norm2_sub]
            congr 1; ext <;> simp
          rw [hh] at this hv
          rw [hv]; exact this
        have hfor : List.Forall₂ (fun p θ => CcwAngle (q - si) (p - si) θ) nbrs θs := by
          rw [hθn]
          rw [List.forall₂_map_right_iff]
          exact List.forall₂_same.2 (fun p _ => ccwAngle_pyMod _ _)
        have hbeam : beam' = along (q - si) (beam - si) := by rw [← hb]; exact rotate_along hlen _
        cases hs : argmin? (norm2 (si - siAfter) :: nbrs.map (fun p => norm2 (p - siAfter))) with
        | none => rw [hs] at h; cases h
        | some k =>
          rw [hs] at h
          obtain ⟨v, hv, hmin, hfirst⟩ := argmin?_eq_some hs
          cases k with
          | zero =>
            simp only [Except.ok.injEq] at h
            subst h
            refine ⟨rfl, rfl, rfl, q, hqm, hnear, hbeam, θs, hfor, fun _ => Or.inl ⟨?_, rfl⟩⟩
            simp only [List.getElem?_cons_zero, Option.some.injEq] at hv
            subst hv
            intro p hp
            have := hmin _ (List.mem_cons_of_mem _ (List.mem_map_of_mem hp))
            rw [norm2_sub, norm2_sub] at this
            rwa [dist_comm', dist_comm' _ p]
          | succ k =>
            simp only at h
            cases hr : (argsort order)[k]? with
            | none => rw [hr] at h; cases h
            | some rank =>
              rw [hr] at h
              simp only [Except.ok.injEq] at h
              subst h
              refine ⟨rfl, rfl, rfl, q, hqm, hnear, hbeam, θs, hfor, fun hnd => Or.inr ?_⟩
              simp only [List.getElem?_cons_succ, List.getElem?_map, Option.map_eq_some_iff] at hv
              obtain ⟨p, hp, hpv⟩ := hv
              have hθk : θs[k]? = some (pyMod (getAngle (p - si) + -getAngle (q - si)) (2 * Real.pi)) := by
                rw [hθn, List.getElem?_map, hp]; rfl
              refine ⟨k, p, _, hp, hθk, ?_, ?_, ?_⟩
              · have := hfirst 0 (Nat.succ_pos _) _ rfl
                rw [← hpv, norm2_sub, norm2_sub] at this
                rwa [dist_comm', dist_comm' _ si]
              · intro p' hp'
                have := hmin _ (List.mem_cons_of_mem _ (List.mem_map_of_mem hp'))
                rw [← hpv, norm2_sub, norm2_sub] at this
                rwa [dist_comm', dist_comm' _ p']
              · have hperm : order.Perm (List.range θs.length) := by rw [← ho]; exact argsort_perm _
                have := argsort_inverse hperm hr
                rw [← ho] at this
                rw [← argsort_rank hnd this hθk, Nat.add_comm]

theorem distSq_le_iff (q a b : V2 ℝ) :
    V2.distSq q a ≤ V2.distSq q b ↔ Spec.dist q a ≤ Spec.dist q b := by
  unfold Spec.dist
  rw [Real.sqrt_le_sqrt_iff (by positivity)]
  simp [V2.distSq, V2.normSq, pow_two]

theorem takeRows_map {α : Type} {rows : List α} {idx : List ℕ} {rs : List α}
    (h : takeRows rows idx = .ok rs) : idx.map (fun j => rows[j]?) = rs.map some := by
  obtain ⟨h1, h2⟩ := takeRows_ok h
  apply List.ext_getElem?
  intro k
  rw [List.getElem?_map, List.getElem?_map, h2 k]
  cases hk : idx[k]? with
  | none => rfl
  | some j =>
    have : k < rs.length := by rw [h1]; exact (List.getElem?_eq_some_iff.1 hk).1
    have h3 := h2 k
    rw [hk, List.getElem?_eq_getElem this] at h3
    simp only [Option.bind_some] at h3
    simp [← h3]

theorem checkBefore_ok {knn : Knn ℝ} {before : Grid ℝ} {si : V2 ℝ} {i : ℕ} {nbrs : List (V2 ℝ)}
    (hnd : before.positions.Nodup) (hi : before.positions[i]? = some si)
    (h : checkBefore knn before si = .ok (.inr nbrs)) :
    ∃ ps, nbrs = si :: ps ∧ ThreeBonds before.positions i si ps := by
  unfold checkBefore Knn.kneighbors at h
  split at h
  · cases h
  · rename_i idx hidx
    split at hidx
    · rename_i hl
      simp only [Except.ok.injEq] at hidx
      have hk := knn.spec before.positions si 10 hl
      rw [hidx] at hk
      split at h
      · cases h
      · rename_i rows hrows
        obtain ⟨hr1, hr2⟩ := takeRows_ok hrows
        obtain ⟨t, rfl⟩ := hk.head_eq hnd hi
        have hlen := hk.length
        split at h
        · cases h
        · split at h
          · cases h
          · simp only at h
            split at h
            · cases h
            · split at h
              · cases h
              · rename_i h4 h3
                simp only [Except.ok.injEq, Sum.inr.injEq] at h
                have h3' : (((rows.map (fun p => norm2 (si - p))).drop 1).take 3).all
                      (fun d => decide (d < 2)) = true ∧
                    ((rows.map (fun p => norm2 (si - p))).drop 4).all (fun d => decide (d > 2)) = true := by
                  rw [← Bool.and_eq_true]
                  by_contra hc
                  simp only [Bool.not_eq_true] at hc
                  apply h3
                  rw [hc]
                  simpa using h4
                have hm := takeRows_map hrows
                cases rows with
                | nil => simp at hr1
                | cons r0 rs =>
                  simp only [List.map_cons, List.cons.injEq, hi, Option.some.injEq] at hm
                  obtain ⟨rfl, hm⟩ := hm
                  simp only [List.map_cons, List.drop_succ_cons, List.drop_zero, List.all_eq_true,
                    decide_eq_true_eq, ← List.map_take, ← List.map_drop, List.mem_map,
                    forall_exists_index, and_imp, forall_apply_eq_imp_iff₂, norm2_sub] at h3'
                  simp only [List.length_cons] at hlen hr1
                  refine ⟨rs.take 3, by rw [← h]; rfl, hi, by simp; omega, t.take 3, ?_, ?_, ?_, ?_⟩
                  · exact (List.nodup_cons.1 hk.nodup).2.sublist (List.take_sublist 3 t)
                  · exact fun hc => (List.nodup_cons.1 hk.nodup).1 (List.mem_of_mem_take hc)
                  · rw [List.map_take, hm, List.map_take]
                  · have hfar : ∀ j p, before.positions[j]? = some p → j ∈ t.drop 3 →
                        2 < Spec.dist si p := by
                      intro j p hp hj
                      apply h3'.2
                      have h5 : some p ∈ (t.map (fun j => before.positions[j]?)).drop 3 := by
                        rw [← List.map_drop, ← hp]
                        exact List.mem_map_of_mem hj
                      rw [hm, ← List.map_drop] at h5
                      obtain ⟨x, hx, he⟩ := List.mem_map.1 h5
                      cases he
                      exact hx
                    intro j p hp hj
                    split
                    · rename_i hjt
                      apply h3'.1
                      have h5 : some p ∈ (t.map (fun j => before.positions[j]?)).take 3 := by
                        rw [← List.map_take, ← hp]
                        exact List.mem_map_of_mem hjt
                      rw [hm, ← List.map_take] at h5
                      obtain ⟨x, hx, he⟩ := List.mem_map.1 h5
                      cases he
                      exact hx
                    · rename_i hjt
                      by_cases hjd : j ∈ t.drop 3
                      · exact hfar j p hp hjd
                      · have hjn : j ∉ i :: t := by
                          rw [List.mem_cons, ← List.take_append_drop 3 t, List.mem_append]
                          push Not
                          exact ⟨hj, hjt, hjd⟩
                        have h8 : t[8] ∈ t.drop 3 := by
                          rw [List.mem_iff_getElem]
                          exact ⟨5, by simp; omega, by simp⟩
                        have h8l := hk.lt t[8] (List.mem_cons_of_mem _ (by simp))
                        have h8p : before.positions[t[8]]? = some before.positions[t[8]] := by simp [h8l]
                        have h9 := hk.nearest t[8] (List.mem_cons_of_mem _ (by simp)) j hjn _ _ h8p hp
                        rw [distSq_le_iff] at h9
                        exact lt_of_lt_of_le (hfar _ _ h8p h8) h9
    · cases hidx


theorem silicon_index {g : Grid ℝ} {si : V2 ℝ} (h : si ∈ silicons g) :
    ∃ i, IsSiliconAt g i ∧ g.positions[i]? = some si := by
  simp only [silicons, atoms, List.mem_map, List.mem_filter, decide_eq_true_eq] at h
  obtain ⟨⟨p, n⟩, ⟨hm, hn⟩, rfl⟩ := h
  obtain ⟨i, hi⟩ := List.getElem?_of_mem hm
  rw [List.getElem?_zip_eq_some] at hi
  exact ⟨i, by simp only at hn; rw [IsSiliconAt, hi.2, hn], hi.1⟩

theorem placedOn_wf {f : Fov ℝ} {g : Grid ℝ} (h : g.WF) : (placedOn f g).WF := by
  simpa [Grid.WF, placedOn] using h

/-! ### C42 -/

/-- Every transition is either kept as one data point, in order, or counted once under exactly one
reason: the counter of a reason is the number of transitions left out for it, and the data points and
the counters together make up all transitions. -/
theorem C42_accounting (knn : Knn ℝ) (cutoff : ℝ) (ts : List (Transition ℝ Img))
    (data : List DataPoint) (counters : Counters)
    (h : transitionsToDatapoints knn cutoff ts [] {} = .ok (data, counters)) :
    (∃ outcomes : List (Exclusion ⊕ DataPoint),
      List.Forall₂ (fun t r => datapointOf knn cutoff t = .ok r) ts outcomes ∧
      data = outcomes.filterMap Sum.getRight? ∧
      ∀ x, count counters x = outcomes.countP (fun r => decide (r.getLeft? = some x))) ∧
    data.length + totalExcluded counters = ts.length := by
  have key : ∀ (ts : List (Transition ℝ Img)) d0 c0 data counters,
      transitionsToDatapoints knn cutoff ts d0 c0 = .ok (data, counters) →
      (∃ outcomes : List (Exclusion ⊕ DataPoint),
        List.Forall₂ (fun t r => datapointOf knn cutoff t = .ok r) ts outcomes ∧
        data = d0 ++ outcomes.filterMap Sum.getRight? ∧
        ∀ x, count counters x = count c0 x +
          outcomes.countP (fun r => decide (r.getLeft? = some x))) ∧
      data.length + totalExcluded counters = d0.length + totalExcluded c0 + ts.length := by
    intro ts
    induction ts with
    | nil =>
      intro d0 c0 data counters h
      simp only [transitionsToDatapoints, Except.ok.injEq, Prod.mk.injEq] at h
      obtain ⟨rfl, rfl⟩ := h
      exact ⟨⟨[], .nil, by simp, by simp⟩, by simp⟩
    | cons t ts ih =>
      intro d0 c0 data counters h
      rw [transitionsToDatapoints] at h
      split at h
      · cases h
      · rename_i x hx
        obtain ⟨⟨os, h1, h2, h3⟩, h4⟩ := ih _ _ _ _ h
        refine ⟨⟨.inl x :: os, .cons hx h1, by rw [h2]; rfl, ?_⟩, ?_⟩
        · intro y
          rw [h3 y, List.countP_cons]
          cases x <;> cases y <;> simp [count, Counters.bump] <;> omega
        · rw [h4]
          cases x <;> simp [totalExcluded, count, Counters.bump] <;> omega
      · rename_i d hd
        obtain ⟨⟨os, h1, h2, h3⟩, h4⟩ := ih _ _ _ _ h
        refine ⟨⟨.inr d :: os, .cons hd h1, by simpa using h2, ?_⟩, ?_⟩
        · intro y
          rw [h3 y, List.countP_cons]
          simp
        · rw [h4]; simp; omega
  obtain ⟨⟨os, h1, h2, h3⟩, h4⟩ := key _ _ _ _ _ h
  refine ⟨⟨os, h1, by simpa using h2, ?_⟩, by simpa [totalExcluded, count] using h4⟩
  intro x
  rw [h3 x]
  cases x <;> simp [count]

/-- What a kept transition is, and what its data point says.  There was one beam control, one silicon
before and one after, and the silicon before had exactly three bonds.  The point carries the time,
current and voltage of the control; the place of the beam as seen from the silicon, in the frame whose
first axis points to the neighbour `q` nearest the beam; and the label: 0 if the silicon is now nearest
to where it was, else the counter-clockwise rank, counted from `q`, of the neighbour it moved to. -/
theorem C42_kept (knn : Knn ℝ) (cutoff : ℝ) (t : Transition ℝ Img) (d : DataPoint)
    (hb : t.gridBefore.WF) (ha : t.gridAfter.WF)
    (hnd : (placedOn t.fovBefore t.gridBefore).positions.Nodup)
    (h : datapointOf knn cutoff t = .ok (.inr d)) :
    ∃ c i si siAfter nbrs, t.controls = [c] ∧
      silicons (placedOn t.fovBefore t.gridBefore) = [si] ∧
      silicons (placedOn t.fovAfter t.gridAfter) = [siAfter] ∧
      IsSiliconAt t.gridBefore i ∧
      ThreeBonds (placedOn t.fovBefore t.gridBefore).positions i si nbrs ∧
      d.secondsBetween = (c.dwellTime : ℝ) / 1000000 ∧ d.current = c.currentNa ∧
      d.voltage = c.voltageKv ∧
      ∃ q ∈ nbrs, let beam := lerp t.fovBefore.lowerLeft t.fovBefore.upperRight c.position
        (∀ p ∈ nbrs, Spec.dist beam q ≤ Spec.dist beam p) ∧
        d.beamPos = along (q - si) (beam - si) ∧
        ∃ θs : List ℝ, List.Forall₂ (fun p θ => CcwAngle (q - si) (p - si) θ) nbrs θs ∧
          (θs.Nodup → IsLabel si siAfter nbrs θs d.nextState) := by
  unfold datapointOf at h
  split at h
  · rename_i c hc
    simp only [gridToMaterial_eq_placedOn, toMaterial_eq_lerp,
      getSiliconPositions_eq_silicons (placedOn_wf hb)] at h
    split at h
    · rename_i si hsi
      split at h
      · cases h
      · cases h
      · rename_i nbrs hnb
        split at h
        · cases h
        · cases h
        · rename_i siAfter hsa
          split at h
          · cases h
          · rename_i d' hd
            simp only [Except.ok.injEq, Sum.inr.injEq] at h
            subst h
            obtain ⟨i, hi, hip⟩ := silicon_index (g := placedOn t.fovBefore t.gridBefore) (si := si)
              (by rw [hsi]; simp)
            obtain ⟨ps, rfl, hps⟩ := checkBefore_ok hnd hip hnb
            have hne : ∀ p ∈ ps, p ≠ si := by
              obtain ⟨-, -, js, -, hij, hjs, -⟩ := hps
              rintro p hp rfl
              have : some p ∈ js.map (fun j => (placedOn t.fovBefore t.gridBefore).positions[j]?) := by
                rw [hjs]; exact List.mem_map_of_mem hp
              obtain ⟨j, hj, hjp⟩ := List.mem_map.1 this
              obtain ⟨h1, h2⟩ := List.getElem?_eq_some_iff.1 hjp
              obtain ⟨h3, h4⟩ := List.getElem?_eq_some_iff.1 hip
              have := (List.Nodup.getElem_inj_iff hnd).1 (h2.trans h4.symm)
              exact hij (this ▸ hj)
            obtain ⟨h1, h2, h3, h4⟩ := makeDataPoint_spec hne hd
            refine ⟨c, i, si, siAfter, ps, hc, hsi, ?_, hi, hps, ?_, h2, h3, h4⟩
            · unfold checkAfter at hsa
              rw [getSiliconPositions_eq_silicons (placedOn_wf ha)] at hsa
              repeat' split at hsa
              all_goals first
                | (cases hsa; done)
                | skip
              rename_i hs _ _ _ _ _ _ _ _
              simp only [Except.ok.injEq, Sum.inr.injEq] at hsa
              rw [← hsa]; exact hs
            · rw [h1]; simp [totalSeconds]
    · cases h
  · cases h


theorem threeBonds_first {ps : List (V2 ℝ)} {i : ℕ} {si : V2 ℝ} {nbrs : List (V2 ℝ)}
    {t : List ℕ} (hk : IsKnn ps si 10 (i :: t)) (h : ThreeBonds ps i si nbrs) :
    (∀ j ∈ t.take 3, ∀ p, ps[j]? = some p → Spec.dist si p < 2) ∧
    (∀ j ∈ t.drop 3, ∀ p, ps[j]? = some p → 2 < Spec.dist si p) := by
  obtain ⟨hi, hl, js, hnd, hij, hjs, hd⟩ := h
  have hjl : js.length = 3 := by simpa [hl] using congrArg List.length hjs
  have hlen := hk.length
  simp only [List.length_cons, Nat.add_eq_right] at hlen
  have htn := (List.nodup_cons.1 hk.nodup).2
  have hit := (List.nodup_cons.1 hk.nodup).1
  have hsort := (List.pairwise_cons.1 hk.sorted).2
  have hjps : ∀ j ∈ js, ∃ p, ps[j]? = some p := by
    intro j hj
    have : ps[j]? ∈ js.map (fun j => ps[j]?) := List.mem_map_of_mem hj
    rw [hjs] at this
    obtain ⟨p, _, hp⟩ := List.mem_map.1 this
    exact ⟨p, hp.symm⟩
  have htps : ∀ j ∈ t, ps[j]? = some (ps[j]?.getD 0) := by
    intro j hj
    have := hk.lt j (List.mem_cons_of_mem _ hj)
    simp [this]
  -- an atom of the list outside `js` has all of `js` strictly before it
  have hbefore : ∀ k (hk' : k < t.length), t[k] ∉ js → ∀ j ∈ js, j ∈ t.take k := by
    intro k hk' hnk j hj
    obtain ⟨p, hp⟩ := hjps j hj
    have hq := htps t[k] (List.getElem_mem hk')
    have h1 := hd _ _ hq (fun e => hit (e ▸ List.getElem_mem hk'))
    rw [if_neg hnk] at h1
    have h2 := hd j p hp (fun e => hij (e ▸ hj))
    rw [if_pos hj] at h2
    by_contra hc
    have hle : V2.distSq si (ps[t[k]]?.getD 0) ≤ V2.distSq si p := by
      by_cases hjt : j ∈ t
      · obtain ⟨m, hm, rfl⟩ := List.getElem_of_mem hjt
        have hkm : k < m := by
          rcases lt_trichotomy m k with h | h | h
          · exact absurd (List.mem_take_iff_getElem.2 ⟨m, by omega, rfl⟩) hc
          · subst h; exact absurd hj hnk
          · exact h
        exact List.pairwise_iff_getElem.1 hsort k m hk' hm hkm _ _ hq hp
      · refine hk.nearest t[k] (List.mem_cons_of_mem _ (List.getElem_mem hk')) j ?_ _ _ hq hp
        rw [List.mem_cons]
        rintro (rfl | h)
        · exact hij hj
        · exact hjt h
    rw [distSq_le_iff] at hle
    linarith
  have hin : ∀ j ∈ t.take 3, j ∈ js := by
    intro j hj
    obtain ⟨k, hk3, rfl⟩ := List.mem_take_iff_getElem.1 hj
    by_contra hc
    have hsub : js ⊆ t.take k := fun j hj => hbefore k (by omega) hc j hj
    have := (List.subperm_of_subset hnd hsub).length_le
    rw [hjl, List.length_take] at this
    omega
  have hall : ∀ j ∈ js, j ∈ t.take 3 := by
    have hs := List.subperm_of_subset (htn.sublist (List.take_sublist 3 t)) hin
    have := hs.perm_of_length_le (by rw [hjl, List.length_take]; omega)
    exact fun j hj => this.mem_iff.2 hj
  refine ⟨fun j hj p hp => ?_, fun j hj p hp => ?_⟩
  · have := hd j p hp (fun e => hit (e ▸ List.mem_of_mem_take hj))
    rwa [if_pos (hin j hj)] at this
  · have := hd j p hp (fun e => hit (e ▸ List.mem_of_mem_drop hj))
    rwa [if_neg] at this
    intro hc
    have h1 := hall j hc
    have := List.nodup_append.1 ((List.take_append_drop 3 t).symm ▸ htn)
    exact this.2.2 j h1 j hj rfl


theorem checkBefore_excluded {knn : Knn ℝ} {before : Grid ℝ} {si : V2 ℝ} {i : ℕ} {x : Exclusion}
    (hnd : before.positions.Nodup) (hi : before.positions[i]? = some si)
    (h : checkBefore knn before si = .ok (.inl x)) :
    (x = .notThreefold ∧ ∀ nbrs, ¬ ThreeBonds before.positions i si nbrs) ∨
    (x = .fourfold ∧ FourClose before.positions i si) := by
  unfold checkBefore Knn.kneighbors at h
  split at h
  · cases h
  · rename_i idx hidx
    split at hidx
    · rename_i hl
      simp only [Except.ok.injEq] at hidx
      have hk := knn.spec before.positions si 10 hl
      rw [hidx] at hk
      split at h
      · cases h
      · rename_i rows hrows
        obtain ⟨hr1, hr2⟩ := takeRows_ok hrows
        obtain ⟨t, rfl⟩ := hk.head_eq hnd hi
        have hlen := hk.length
        have hm := takeRows_map hrows
        split at h
        · exact absurd (hr1.trans hlen) (by assumption)
        · split at h
          · contradiction
          · simp only at h
            split at h
            · rename_i h4
              right
              simp only [Except.ok.injEq, Sum.inl.injEq] at h
              refine ⟨h.symm, t.take 4, ?_, ?_, ?_, ?_, ?_⟩
              · exact (List.nodup_cons.1 hk.nodup).2.sublist (List.take_sublist 4 t)
              · simp only [List.length_cons] at hlen; simp; omega
              · exact fun hc => (List.nodup_cons.1 hk.nodup).1 (List.mem_of_mem_take hc)
              · exact fun j hj => hk.lt j (List.mem_cons_of_mem _ (List.mem_of_mem_take hj))
              · simp only [List.length_cons, Nat.add_eq_right] at hlen
                have hsort := (List.pairwise_cons.1 hk.sorted).2
                have hget : ∀ k (hk' : k < t.length) p, before.positions[t[k]]? = some p →
                    (rows.map (fun p => norm2 (si - p))).getD (k + 1) 0 = Spec.dist si p := by
                  intro k hk' p hp
                  have := hr2 (k + 1)
                  simp only [List.getElem?_cons_succ, List.getElem?_eq_getElem hk', Option.bind_some,
                    hp] at this
                  rw [List.getD_eq_getElem?_getD, List.getElem?_map, this]
                  simp [norm2_sub]
                have htps : ∀ k (hk' : k < t.length),
                    ∃ p, before.positions[t[k]]? = some p := by
                  intro k hk'
                  have := hk.lt t[k] (List.mem_cons_of_mem _ (List.getElem_mem hk'))
                  exact ⟨_, List.getElem?_eq_getElem this⟩
                have hle : ∀ k m (hk' : k < t.length) (hm' : m < t.length) p q, k ≤ m →
                    before.positions[t[k]]? = some p → before.positions[t[m]]? = some q →
                    Spec.dist si p ≤ Spec.dist si q := by
                  intro k m hk' hm' p q hkm hp hq
                  rcases Nat.lt_or_eq_of_le hkm with h | h
                  · exact (distSq_le_iff _ _ _).1
                      (List.pairwise_iff_getElem.1 hsort k m hk' hm' h _ _ hp hq)
                  · subst h; rw [hp] at hq; cases hq; exact le_rfl
                obtain ⟨p0, hp0⟩ := htps 0 (by omega)
                obtain ⟨p3, hp3⟩ := htps 3 (by omega)
                simp only [decide_eq_true_eq] at h4
                rw [hget 0 (by omega) p0 hp0, hget 3 (by omega) p3 hp3] at h4
                intro j hj k hki p q hp hq
                obtain ⟨m, hm4, rfl⟩ := List.mem_take_iff_getElem.1 hj
                have h1 := hle m 3 (by omega) (by omega) p p3 (by omega) hp hp3
                have h2 : Spec.dist si p0 ≤ Spec.dist si q := by
                  by_cases hkt : k ∈ t
                  · obtain ⟨n, hn, rfl⟩ := List.getElem_of_mem hkt
                    exact hle 0 n (by omega) hn p0 q (Nat.zero_le _) hp0 hq
                  · refine (distSq_le_iff _ _ _).1 (hk.nearest t[0] (List.mem_cons_of_mem _
                      (List.getElem_mem _)) k ?_ _ _ hp0 hq)
                    rw [List.mem_cons]
                    rintro (h | h)
                    · exact hki h
                    · exact hkt h
                have h3 := (abs_lt.1 h4).1
                linarith
            · split at h
              · rename_i h4 h3
                left
                simp only [Except.ok.injEq, Sum.inl.injEq] at h
                refine ⟨h.symm, fun nbrs hc => ?_⟩
                obtain ⟨h5, h6⟩ := threeBonds_first hk hc
                cases rows with
                | nil => simp at hr1
                | cons r0 rs =>
                  simp only [List.map_cons, List.cons.injEq] at hm
                  have h7 : ((rs.map (fun p => norm2 (si - p))).take 3).all
                      (fun d => decide (d < 2)) = true := by
                    simp only [← List.map_take, List.all_eq_true, List.mem_map, decide_eq_true_eq]
                    rintro _ ⟨p, hp, rfl⟩
                    have : some p ∈ (rs.map some).take 3 := by
                      rw [← List.map_take]; exact List.mem_map_of_mem hp
                    rw [← hm.2, ← List.map_take] at this
                    obtain ⟨j, hj, hjp⟩ := List.mem_map.1 this
                    rw [norm2_sub]; exact h5 j hj p hjp
                  have h8 : ((rs.map (fun p => norm2 (si - p))).drop 3).all
                      (fun d => decide (d > 2)) = true := by
                    simp only [← List.map_drop, List.all_eq_true, List.mem_map, decide_eq_true_eq]
                    rintro _ ⟨p, hp, rfl⟩
                    have : some p ∈ (rs.map some).drop 3 := by
                      rw [← List.map_drop]; exact List.mem_map_of_mem hp
                    rw [← hm.2, ← List.map_drop] at this
                    obtain ⟨j, hj, hjp⟩ := List.mem_map.1 this
                    rw [norm2_sub]; exact h6 j hj p hjp
                  simp only [List.map_cons, List.drop_succ_cons, List.drop_zero, h7, h8] at h3
                  simp at h3
              · cases h
    · cases hidx


theorem sum_le_of_le (ds : List ℝ) (c : ℝ) (h : ∀ d ∈ ds, d ≤ c) : ds.sum ≤ ds.length * c := by
  induction ds with
  | nil => simp
  | cons d ds ih =>
    have h1 := h d (by simp)
    have h2 := ih (fun x hx => h x (List.mem_cons_of_mem _ hx))
    simp only [List.sum_cons, List.length_cons, Nat.cast_add, Nat.cast_one]
    linarith

theorem mapM_option {α β : Type} {f : α → Option β} {xs : List α} {ys : List β}
    (h : xs.mapM f = some ys) : List.Forall₂ (fun x y => f x = some y) xs ys := by
  induction xs generalizing ys with
  | nil => simp at h; subst h; exact .nil
  | cons x xs ih =>
    simp only [List.mapM_cons, Option.pure_def, Option.bind_eq_bind, Option.bind_eq_some_iff,
      Option.some.injEq] at h
    obtain ⟨y, hy, zs, hz, rfl⟩ := h
    exact .cons hy (ih hz)

theorem meanNearest_gt {before after : List (V2 ℝ)} {m c : ℝ} (hne : before ≠ [])
    (h : meanNearest before after = .ok m) (hm : c < m) :
    ∃ p ∈ before, ∀ q ∈ after, c < Spec.dist p q := by
  unfold meanNearest at h
  split at h
  · cases h
  · rename_i ds hds
    rw [Except.ok.injEq] at h
    have hds := mapM_option hds
    by_contra hc
    push Not at hc
    have hle : ∀ d ∈ ds, d ≤ c := by
      intro d hd
      obtain ⟨k, hk⟩ := List.getElem?_of_mem hd
      obtain ⟨hkl, hke⟩ := List.getElem?_eq_some_iff.1 hk
      have hl := hds.length_eq
      have h1 := hds.get (i := k) (by omega) hkl
      simp only [List.get_eq_getElem, hke] at h1
      obtain ⟨q, hq, hqd⟩ := hc before[k] (List.getElem_mem _)
      rw [List.min?_eq_some_iff] at h1
      have := h1.2 _ (List.mem_map_of_mem hq)
      rw [norm2_sub] at this
      linarith
    have h1 := sum_le_of_le ds c hle
    have h2 : 0 < (ds.length : ℝ) := by
      rw [← hds.length_eq]
      exact_mod_cast List.length_pos_iff.2 hne
    rw [← h, lt_div_iff₀ h2] at hm
    linarith

theorem checkAfter_excluded {knn : Knn ℝ} {cutoff : ℝ} {after : Grid ℝ} {si : V2 ℝ}
    {nbrs : List (V2 ℝ)} {x : Exclusion} (hwf : after.WF) (hne : nbrs ≠ [])
    (h : checkAfter knn cutoff after si nbrs = .ok (.inl x)) :
    (x = .wrongSilicons ∧ (silicons after).length ≠ 1) ∨
    (x = .noSiliconNeighbor ∧ ∃ siAfter, silicons after = [siAfter] ∧
      FourOthersNearer after si siAfter) ∨
    (x = .tooDistant ∧ ∃ p ∈ nbrs, ∃ js, FourNearest after.positions si js ∧
      ∀ j ∈ js, ∀ q, after.positions[j]? = some q → cutoff < Spec.dist p q) := by
  unfold checkAfter Knn.kneighbors at h
  split at h
  · cases h
  rename_i idx hidx
  split at hidx
  swap
  · cases hidx
  rename_i hl
  simp only [Except.ok.injEq] at hidx
  have hk := knn.spec after.positions si 4 hl
  rw [hidx] at hk
  split at h
  · cases h
  rename_i rows hrows
  split at h
  · cases h
  rename_i nums hnums
  obtain ⟨hr1, hr2⟩ := takeRows_ok hrows
  obtain ⟨hn1, hn2⟩ := takeRows_ok hnums
  rw [getSiliconPositions_eq_silicons hwf] at h
  have hfour : FourNearest after.positions si idx := by
    refine ⟨hk.nodup, hk.length, hk.lt, fun j hj k hk' a b ha hb => ?_⟩
    exact (distSq_le_iff _ _ _).1 (hk.nearest j hj k hk' a b ha hb)
  split at h
  · rename_i siAfter hs
    split at h
    · rename_i hany
      right; left
      simp only [Except.ok.injEq, Sum.inl.injEq] at h
      refine ⟨h.symm, siAfter, hs, idx, hk.nodup, hk.length, ?_⟩
      have hnot : ∀ j ∈ idx, ¬ IsSiliconAt after j := by
        intro j hj hc
        obtain ⟨k, hk'⟩ := List.getElem?_of_mem hj
        have := hn2 k
        rw [hk', Option.bind_some, hc] at this
        simp only [Bool.not_eq_eq_eq_not, Bool.not_true, List.any_eq_false, decide_eq_true_eq] at hany
        exact hany _ (List.mem_of_getElem? this) rfl
      obtain ⟨m, hm, hmp⟩ := silicon_index (g := after) (si := siAfter) (by rw [hs]; simp)
      intro j hj
      have hjl := hk.lt j hj
      refine ⟨hnot j hj, after.positions[j], by simp [hjl], ?_⟩
      exact hfour.2.2.2 j hj m (fun hc => hnot m hc hm) _ _ (by simp [hjl]) hmp
    · split at h
      · exact absurd (hr1.trans hk.length) (by assumption)
      · split at h
        · exact absurd hk.length (by assumption)
        · split at h
          · exact absurd (hn1.trans hk.length) (by assumption)
          · split at h
            · cases h
            · rename_i m hmean
              split at h
              · rename_i hgt
                right; right
                simp only [Except.ok.injEq, Sum.inl.injEq] at h
                obtain ⟨p, hp, hq⟩ := meanNearest_gt hne hmean hgt
                refine ⟨h.symm, p, hp, idx, hfour, ?_⟩
                intro j hj q hjq
                obtain ⟨k, hk'⟩ := List.getElem?_of_mem hj
                have := hr2 k
                rw [hk', Option.bind_some, hjq] at this
                exact hq q (List.mem_of_getElem? this)
              · cases h
  · rename_i hs
    left
    simp only [Except.ok.injEq, Sum.inl.injEq] at h
    refine ⟨h.symm, fun hc => ?_⟩
    obtain ⟨p, hp⟩ := List.length_eq_one_iff.1 hc
    exact hs p hp

/-- A transition is left out only for the reason it is counted under: not exactly one control; not
exactly one silicon before or after; the silicon before not three-fold bonded, or with four atoms about
equally near; the silicon after not among the four atoms nearest its old place; or some atom bonded
before having, among the four atoms nearest the old place after, none within the cutoff.  The two
counters for a wrong number of neighbours stay at zero. -/
theorem C42_reasons (knn : Knn ℝ) (cutoff : ℝ) (t : Transition ℝ Img) (x : Exclusion)
    (hb : t.gridBefore.WF) (ha : t.gridAfter.WF)
    (hnd : (placedOn t.fovBefore t.gridBefore).positions.Nodup)
    (h : datapointOf knn cutoff t = .ok (.inl x)) :
    Reason t.controls.length (placedOn t.fovBefore t.gridBefore) (placedOn t.fovAfter t.gridAfter)
      cutoff x := by
  unfold datapointOf at h
  split at h
  · rename_i c hc
    simp only [gridToMaterial_eq_placedOn, toMaterial_eq_lerp,
      getSiliconPositions_eq_silicons (placedOn_wf hb)] at h
    split at h
    · rename_i si hsi
      obtain ⟨i, hi, hip⟩ := silicon_index (g := placedOn t.fovBefore t.gridBefore) (si := si)
        (by rw [hsi]; simp)
      split at h
      · cases h
      · rename_i y hy
        simp only [Except.ok.injEq, Sum.inl.injEq] at h
        subst h
        rcases checkBefore_excluded hnd hip hy with ⟨rfl, h1⟩ | ⟨rfl, h1⟩
        · exact ⟨i, si, hi, hip, h1⟩
        · exact ⟨i, si, hi, hip, h1⟩
      · rename_i nbrs hnb
        obtain ⟨ps, rfl, hps⟩ := checkBefore_ok hnd hip hnb
        split at h
        · cases h
        · rename_i y hy
          simp only [Except.ok.injEq, Sum.inl.injEq] at h
          subst h
          rcases checkAfter_excluded (placedOn_wf ha) (by simp) hy with ⟨rfl, h1⟩ | ⟨rfl, sa, h1, h2⟩ |
            ⟨rfl, p, hp, js, h1, h2⟩
          · exact Or.inr h1
          · exact ⟨si, sa, hsi, h1, h2⟩
          · refine ⟨si, p, js, hsi, ?_, ?_, h1, h2⟩
            · rcases List.mem_cons.1 hp with rfl | hp
              · exact List.mem_of_getElem? hip
              · obtain ⟨-, -, js', -, -, hjs, -⟩ := hps
                have : some p ∈ js'.map (fun j => (placedOn t.fovBefore t.gridBefore).positions[j]?) := by
                  rw [hjs]; exact List.mem_map_of_mem hp
                obtain ⟨j, -, hj⟩ := List.mem_map.1 this
                exact List.mem_of_getElem? hj
            · rcases List.mem_cons.1 hp with rfl | hp
              · simp [Spec.dist]
              · obtain ⟨-, -, js', -, hij, hjs, hd⟩ := hps
                have : some p ∈ js'.map (fun j => (placedOn t.fovBefore t.gridBefore).positions[j]?) := by
                  rw [hjs]; exact List.mem_map_of_mem hp
                obtain ⟨j, hj', hj⟩ := List.mem_map.1 this
                have := hd j p hj (fun e => hij (e ▸ hj'))
                rwa [if_pos hj'] at this
        · split at h <;> cases h
    · rename_i hs
      simp only [Except.ok.injEq, Sum.inl.injEq] at h
      subst h
      left
      intro hc
      obtain ⟨p, hp⟩ := List.length_eq_one_iff.1 hc
      exact hs p hp
  · rename_i hs
    simp only [Except.ok.injEq, Sum.inl.injEq] at h
    subst h
    intro hc
    obtain ⟨p, hp⟩ := List.length_eq_one_iff.1 hc
    exact hs p hp


theorem makeDataPoint_total (c : BeamControl ℝ) (beam si siAfter : V2 ℝ) {nbrs : List (V2 ℝ)}
    (hne : nbrs ≠ []) : ∃ d, makeDataPoint c beam si siAfter (si :: nbrs) = .ok d := by
  unfold makeDataPoint
  simp only [List.map_cons, List.drop_succ_cons, List.drop_zero]
  have hst : ∃ r, standardize (beam - si) (nbrs.map (fun p => p - si)) = .ok r ∧
      r.2.2.length = nbrs.length := by
    unfold standardize
    obtain ⟨k, hk⟩ := argmin?_isSome
      (l := (nbrs.map (fun p => p - si)).map (fun n => norm2 (n - (beam - si)))) (by simpa using hne)
    have hkl := argmin?_lt hk
    simp only [List.length_map] at hkl
    rw [hk]
    simp only [getAngles, List.getElem?_map, List.getElem?_eq_getElem hkl, Option.map_some]
    exact ⟨_, rfl, by simp [argsort_length]⟩
  obtain ⟨⟨b, r, order⟩, hr, hol⟩ := hst
  rw [hr]
  simp only at hol ⊢
  obtain ⟨k, hk⟩ := argmin?_isSome
    (l := norm2 (si - siAfter) :: nbrs.map (fun p => norm2 (p - siAfter))) (by simp)
  have hkl := argmin?_lt hk
  simp only [List.length_cons, List.length_map] at hkl
  rw [hk]
  cases k with
  | zero => exact ⟨_, rfl⟩
  | succ k =>
    have : k < (argsort order).length := by rw [argsort_length, hol]; omega
    simp only [List.getElem?_eq_getElem this]
    exact ⟨_, rfl⟩

theorem meanNearest_total (before : List (V2 ℝ)) {after : List (V2 ℝ)} (hne : after ≠ []) :
    ∃ m, meanNearest before after = .ok m := by
  have : ∃ ds, before.mapM (fun p => (after.map (fun q => norm2 (p - q))).min?) = some ds := by
    induction before with
    | nil => exact ⟨[], rfl⟩
    | cons p ps ih =>
      obtain ⟨ds, hds⟩ := ih
      cases after with
      | nil => exact absurd rfl hne
      | cons a as =>
        simp only [List.mapM_cons, hds, Option.pure_def, Option.bind_eq_bind, Option.bind_some]
        simp only [List.map_cons, List.min?_cons', Option.bind_some]
        exact ⟨_, rfl⟩
  obtain ⟨ds, hds⟩ := this
  exact ⟨_, by unfold meanNearest; rw [hds]⟩

theorem checkBefore_total (knn : Knn ℝ) (before : Grid ℝ) (si : V2 ℝ)
    (hl : 10 ≤ before.positions.length) : ∃ r, checkBefore knn before si = .ok r := by
  have hk := knn.spec before.positions si 10 hl
  obtain ⟨rs, hrs⟩ := takeRows_inRange hk.lt
  unfold checkBefore Knn.kneighbors
  simp only [if_pos hl, hrs]
  repeat' split
  all_goals exact ⟨_, rfl⟩

theorem checkAfter_total (knn : Knn ℝ) (cutoff : ℝ) (after : Grid ℝ) (si : V2 ℝ)
    (nbrs : List (V2 ℝ)) (hwf : after.WF)
    (hl : 4 ≤ after.positions.length) : ∃ r, checkAfter knn cutoff after si nbrs = .ok r := by
  have hk := knn.spec after.positions si 4 hl
  obtain ⟨rs, hrs⟩ := takeRows_inRange hk.lt
  obtain ⟨ns, hns⟩ := takeRows_inRange (rows := after.numbers) (by rw [← hwf]; exact hk.lt)
  have hrl := (takeRows_ok hrs).1.trans hk.length
  have hrne : rs ≠ [] := by rintro rfl; simp at hrl
  obtain ⟨m, hm⟩ := meanNearest_total nbrs hrne
  unfold checkAfter Knn.kneighbors
  simp only [if_pos hl, hrs, hns, hm]
  repeat' split
  all_goals exact ⟨_, rfl⟩

/-- Turning a transition into data raises only when there is one control and one silicon before and
the grids are too small for the neighbour search, fewer than 10 atoms before or fewer than 4 after,
and then it is `ValueError`; with fewer than 10 atoms before it does raise. -/
theorem C42_raises (knn : Knn ℝ) (cutoff : ℝ) (t : Transition ℝ Img) (c : BeamControl ℝ) (si : V2 ℝ)
    (hb : t.gridBefore.WF) (ha : t.gridAfter.WF)
    (hnd : (placedOn t.fovBefore t.gridBefore).positions.Nodup) :
    (∀ e, datapointOf knn cutoff t = .error e → e = .valueError ∧ t.controls.length = 1 ∧
      (silicons (placedOn t.fovBefore t.gridBefore)).length = 1 ∧
      (t.gridBefore.positions.length < 10 ∨ t.gridAfter.positions.length < 4)) ∧
    (t.controls = [c] → silicons (placedOn t.fovBefore t.gridBefore) = [si] →
      t.gridBefore.positions.length < 10 → datapointOf knn cutoff t = .error .valueError) := by
  have hlb : (placedOn t.fovBefore t.gridBefore).positions.length = t.gridBefore.positions.length := by
    simp [placedOn]
  have hla : (placedOn t.fovAfter t.gridAfter).positions.length = t.gridAfter.positions.length := by
    simp [placedOn]
  constructor
  · intro e h
    unfold datapointOf at h
    split at h
    swap
    · cases h
    rename_i c hc
    simp only [gridToMaterial_eq_placedOn, toMaterial_eq_lerp,
      getSiliconPositions_eq_silicons (placedOn_wf hb)] at h
    split at h
    swap
    · cases h
    rename_i si hsi
    rw [hc, hsi]
    refine ⟨?_, rfl, rfl, ?_⟩
    · by_cases h10 : 10 ≤ (placedOn t.fovBefore t.gridBefore).positions.length
      · obtain ⟨r, hr⟩ := checkBefore_total knn _ si h10
        obtain ⟨i, hi, hip⟩ := silicon_index (g := placedOn t.fovBefore t.gridBefore) (si := si)
          (by rw [hsi]; simp)
        rw [hr] at h
        cases r with
        | inl x => cases h
        | inr nbrs =>
          obtain ⟨ps, rfl, hps⟩ := checkBefore_ok hnd hip hr
          have hpn : ps ≠ [] := by rintro rfl; simp [ThreeBonds] at hps
          by_cases h4 : 4 ≤ (placedOn t.fovAfter t.gridAfter).positions.length
          · obtain ⟨r', hr'⟩ := checkAfter_total knn cutoff _ si (si :: ps) (placedOn_wf ha) h4
            simp only [hr'] at h
            cases r' with
            | inl x => cases h
            | inr sa =>
              obtain ⟨d, hd⟩ := makeDataPoint_total c
                (lerp t.fovBefore.lowerLeft t.fovBefore.upperRight c.position) si sa hpn
              simp only [hd] at h
              cases h
          · unfold checkAfter Knn.kneighbors at h
            simp only [if_neg h4] at h
            cases h; rfl
      · unfold checkBefore Knn.kneighbors at h
        simp only [if_neg h10] at h
        cases h; rfl
    · by_contra hcon
      push Not at hcon
      obtain ⟨h10, h4⟩ := hcon
      rw [← hlb] at h10
      rw [← hla] at h4
      obtain ⟨r, hr⟩ := checkBefore_total knn _ si h10
      obtain ⟨i, hi, hip⟩ := silicon_index (g := placedOn t.fovBefore t.gridBefore) (si := si)
        (by rw [hsi]; simp)
      rw [hr] at h
      cases r with
      | inl x => cases h
      | inr nbrs =>
        obtain ⟨ps, rfl, hps⟩ := checkBefore_ok hnd hip hr
        have hpn : ps ≠ [] := by rintro rfl; simp [ThreeBonds] at hps
        obtain ⟨r', hr'⟩ := checkAfter_total knn cutoff _ si (si :: ps) (placedOn_wf ha) h4
        simp only [hr'] at h
        cases r' with
        | inl x => cases h
        | inr sa =>
          obtain ⟨d, hd⟩ := makeDataPoint_total c
            (lerp t.fovBefore.lowerLeft t.fovBefore.upperRight c.position) si sa hpn
          simp only [hd] at h
          cases h
  · intro hc hsi hlt
    unfold datapointOf
    rw [hc]
    simp only [gridToMaterial_eq_placedOn, getSiliconPositions_eq_silicons (placedOn_wf hb), hsi]
    unfold checkBefore Knn.kneighbors
    rw [if_neg (by rw [hlb]; omega)]

/-! ### A kept transition -/

/-- Lists already sorted by distance: the first `k` indices are `k` nearest neighbours. -/
theorem isKnn_range {ps : List (V2 ℝ)} {q : V2 ℝ} {k : ℕ} (hk : k ≤ ps.length)
    (h : ps.Pairwise (fun a b => V2.distSq q a ≤ V2.distSq q b)) : IsKnn ps q k (List.range k) := by
  have hle : ∀ (i j : ℕ) a b, i < j → ps[i]? = some a → ps[j]? = some b →
      V2.distSq q a ≤ V2.distSq q b := by
    intro i j a b hij ha hb
    obtain ⟨h1, rfl⟩ := List.getElem?_eq_some_iff.1 ha
    obtain ⟨h2, rfl⟩ := List.getElem?_eq_some_iff.1 hb
    exact List.pairwise_iff_getElem.1 h i j h1 h2 hij
  refine ⟨by simp, List.nodup_range, ?_, ?_, ?_⟩
  · intro i hi; have := List.mem_range.1 hi; omega
  · exact List.pairwise_lt_range.imp (fun {i j} (hij : i < j) a b ha hb => hle i j a b hij ha hb)
  · intro i hi j hj a b ha hb
    have h1 := List.mem_range.1 hi
    have h2 : k ≤ j := by simpa using hj
    exact hle i j a b (by omega) ha hb

namespace DataExample

/-- Silicon at the origin, three neighbours at distance 1, six atoms far away. -/
noncomputable def sheet : List (V2 ℝ) :=
  [⟨0, 0⟩, ⟨1, 0⟩, ⟨-3 / 5, 4 / 5⟩, ⟨-3 / 5, -4 / 5⟩, ⟨3, 0⟩, ⟨4, 0⟩, ⟨5, 0⟩, ⟨6, 0⟩, ⟨7, 0⟩, ⟨8, 0⟩]

/-- The silicon moves to the third atom. -/
noncomputable def t : Transition ℝ Unit where
  gridBefore := ⟨sheet, [14, 6, 6, 6, 6, 6, 6, 6, 6, 6]⟩
  gridAfter := ⟨sheet, [6, 6, 14, 6, 6, 6, 6, 6, 6, 6]⟩
  fovBefore := ⟨⟨0, 0⟩, ⟨1, 1⟩⟩
  fovAfter := ⟨⟨0, 0⟩, ⟨1, 1⟩⟩
  controls := [⟨⟨1 / 2, 0⟩, 1500000, none, none⟩]
  imageBefore := none
  imageAfter := none
  labelImageBefore := none
  labelImageAfter := none

open Classical in
/-- A neighbour search that returns the first indices when the atoms are in order of distance. -/
noncomputable def knn : Knn ℝ where
  query ps q k := if ps.Pairwise (fun a b => V2.distSq q a ≤ V2.distSq q b) then List.range k
    else PD.Witness.knn.query ps q k
  spec ps q k hk := by
    split
    · exact isKnn_range hk (by assumption)
    · exact PD.Witness.knn.spec ps q k hk

theorem sheet_sorted : sheet.Pairwise (fun a b => V2.distSq ⟨0, 0⟩ a ≤ V2.distSq ⟨0, 0⟩ b) := by
  simp only [sheet, List.pairwise_cons, List.mem_cons, List.not_mem_nil, or_false, forall_eq_or_imp,
    forall_eq, V2.distSq, V2.normSq, V2.sub_x, V2.sub_y]
  norm_num

theorem sheet_nodup : sheet.Nodup := by
  simp only [sheet, List.nodup_cons, List.mem_cons, List.not_mem_nil, or_false, V2.mk.injEq]
  norm_num

theorem query_sheet (k : ℕ) : knn.query sheet ⟨0, 0⟩ k = List.range k := by
  simp only [knn]
  rw [if_pos sheet_sorted]

theorem placed (ns : List ℤ) : placedOn ⟨⟨0, 0⟩, ⟨1, 1⟩⟩ ⟨sheet, ns⟩ = ⟨sheet, ns⟩ := by
  have : lerp (⟨0, 0⟩ : V2 ℝ) ⟨1, 1⟩ = id := by funext p; simp [lerp]
  simp [placedOn, this]

theorem before_ok : checkBefore knn ⟨sheet, [14, 6, 6, 6, 6, 6, 6, 6, 6, 6]⟩ ⟨0, 0⟩ =
    .ok (.inr [⟨0, 0⟩, ⟨1, 0⟩, ⟨-3 / 5, 4 / 5⟩, ⟨-3 / 5, -4 / 5⟩]) := by
  have h1 : takeRows sheet (List.range 10) = .ok sheet := rfl
  have hn : ∀ x y d : ℝ, 0 ≤ d → x * x + y * y = d * d → norm2 ((⟨0, 0⟩ : V2 ℝ) - ⟨x, y⟩) = d := by
    intro x y d hd h
    have : norm2 ((⟨0, 0⟩ : V2 ℝ) - ⟨x, y⟩) = Real.sqrt (x * x + y * y) := by simp [norm2]
    rw [this, h, Real.sqrt_mul_self hd]
  have hds : sheet.map (fun p => norm2 ((⟨0, 0⟩ : V2 ℝ) - p)) = [0, 1, 1, 1, 3, 4, 5, 6, 7, 8] := by
    simp only [sheet, List.map_cons, List.map_nil]
    rw [hn 0 0 0, hn 1 0 1, hn (-3 / 5) (4 / 5) 1, hn (-3 / 5) (-4 / 5) 1, hn 3 0 3, hn 4 0 4,
      hn 5 0 5, hn 6 0 6, hn 7 0 7, hn 8 0 8] <;> norm_num
  unfold checkBefore Knn.kneighbors
  rw [if_pos (by simp [sheet]), query_sheet]
  simp only [h1, hds]
  rw [if_neg (by simp [sheet]), if_neg (by simp), if_neg (by norm_num), if_neg (by norm_num)]
  rfl

theorem after_ok : checkAfter knn 2 ⟨sheet, [6, 6, 14, 6, 6, 6, 6, 6, 6, 6]⟩ ⟨0, 0⟩
      [⟨0, 0⟩, ⟨1, 0⟩, ⟨-3 / 5, 4 / 5⟩, ⟨-3 / 5, -4 / 5⟩] = .ok (.inr ⟨-3 / 5, 4 / 5⟩) := by
  have h1 : takeRows sheet (List.range 4) = .ok (sheet.take 4) := rfl
  have h2 : takeRows ([6, 6, 14, 6, 6, 6, 6, 6, 6, 6] : List ℤ) (List.range 4) = .ok [6, 6, 14, 6] := rfl
  have h3 : getSiliconPositions (⟨sheet, [6, 6, 14, 6, 6, 6, 6, 6, 6, 6]⟩ : Grid ℝ) =
      [⟨-3 / 5, 4 / 5⟩] := rfl
  obtain ⟨m, hm⟩ := meanNearest_total [⟨0, 0⟩, ⟨1, 0⟩, ⟨-3 / 5, 4 / 5⟩, ⟨-3 / 5, -4 / 5⟩]
    (after := sheet.take 4) (by simp [sheet])
  have hm2 : ¬ m > 2 := by
    intro hc
    obtain ⟨p, hp, hq⟩ := meanNearest_gt (by simp) hm hc
    have : p ∈ sheet.take 4 := by simpa [sheet] using hp
    have := hq p this
    simp [Spec.dist] at this
    norm_num at this
  unfold checkAfter Knn.kneighbors
  rw [if_pos (by simp [sheet]), query_sheet]
  simp only [h1, h2, h3, hm]
  rw [if_neg (by decide), if_neg (by simp [sheet]), if_neg (by simp), if_neg (by simp), if_neg hm2]

/-- The transition is kept. -/
theorem kept : ∃ d, datapointOf knn 2 t = .ok (.inr d) := by
  obtain ⟨d, hd⟩ := makeDataPoint_total ⟨⟨1 / 2, 0⟩, 1500000, none, none⟩
    (lerp ⟨0, 0⟩ ⟨1, 1⟩ ⟨1 / 2, 0⟩) ⟨0, 0⟩ ⟨-3 / 5, 4 / 5⟩
    (nbrs := [⟨1, 0⟩, ⟨-3 / 5, 4 / 5⟩, ⟨-3 / 5, -4 / 5⟩]) (by simp)
  refine ⟨d, ?_⟩
  have h3 : getSiliconPositions (⟨sheet, [14, 6, 6, 6, 6, 6, 6, 6, 6, 6]⟩ : Grid ℝ) = [⟨0, 0⟩] := rfl
  unfold datapointOf
  simp only [t, gridToMaterial_eq_placedOn, toMaterial_eq_lerp, placed, h3, before_ok, after_ok, hd]

end DataExample

open DataExample in
/-- The hypotheses of `C42_kept` hold of a transition in which the silicon moves to a neighbour; see `DataExample.t`. -/
example : t.gridBefore.WF ∧ t.gridAfter.WF ∧ (placedOn t.fovBefore t.gridBefore).positions.Nodup ∧
    ∃ d, datapointOf DataExample.knn 2 t = .ok (.inr d) := by
  refine ⟨rfl, rfl, ?_, DataExample.kept⟩
  simp only [t, DataExample.placed]
  exact DataExample.sheet_nodup

end PD.Props
