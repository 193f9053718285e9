/- Lemmas about the predictor with floating point numbers and any canonical rate function that works row by row. -/
import Verif.Lemmas.FloatRates
import Verif.Lemmas.FloatChecks
import Verif.Spec.FloatRates
import Verif.Props.FloatBeam

set_option linter.unusedSectionVars false
set_option linter.unusedSimpArgs false

namespace PD.Props
open PD PD.Spec

/-- A canonical rate function that computes the rate of each neighbour separately. -/
noncomputable def rowByRow (f : V2 ℝ → V2 ℝ → V2 ℝ → ℝ) : CanonicalRateFn ℝ := fun grid beam si idx =>
  match takeRows grid.positions idx with
  | .error e => .error e
  | .ok nbrs => .ok (nbrs.map (f beam si))

/-- What the predictor does with neighbours that are atoms of the sheet. -/
theorem pristine_ok (knn : FloatKnn) (f : V2 ℝ → V2 ℝ → V2 ℝ → ℝ) {g : Grid ℝ} {beam si : V2 ℝ} (hd : SingleDoped g)
    (hsi : silicons g = [si]) {idx : List ℕ} (hidx : knn.kneighbors g.positions si 4 = .ok idx) {R : List (V2 ℝ)}
    (hR : takeRows g.positions (idx.drop 1) = .ok R) (hrate : ∀ p ∈ R, 0 ≤ f beam si p) :
    ∃ ss, floatPristineRates knn (rowByRow f) g beam = .ok ss ∧ List.Forall₂ (fun x p => x.grid.positions = g.positions ∧
      SingleDoped x.grid ∧ silicons x.grid = [p] ∧ x.rate = f beam si p) ss R := by
  have hone : getSingleSiliconPosition g = .ok si := by
    apply getSingleSiliconPosition_of_singleton
    rw [getSiliconPositions_eq_silicons hd.wf]
    exact hsi
  have hmap := takeRows_map hR
  have hlen : R.length = (idx.drop 1).length := by
    have := congrArg List.length hmap
    simpa using this.symm
  unfold floatPristineRates floatNearest3
  simp only [hone, hidx, rowByRow, hR]
  have hall : (R.map (f beam si)).all (fun r => decide (0 ≤ r)) = true := by
    simp only [List.all_map, List.all_eq_true, Function.comp_apply, decide_eq_true_eq]
    exact hrate
  rw [if_pos hall, if_pos (by rw [List.length_map]; exact hlen)]
  refine ⟨_, rfl, ?_⟩
  generalize idx.drop 1 = js at hmap hlen
  clear hall hR hidx hrate
  induction js generalizing R with
  | nil =>
    have : R = [] := List.eq_nil_of_length_eq_zero (by simpa using hlen)
    subst this
    simp
  | cons j js ih =>
    cases R with
    | nil => simp at hlen
    | cons r R =>
      simp only [List.map_cons, List.cons.injEq] at hmap
      simp only [List.map_cons, List.zip_cons_cons, List.forall₂_cons]
      refine ⟨?_, ih hmap.2 (by simpa using hlen)⟩
      have hj : j < g.positions.length := (List.getElem?_eq_some_iff.1 hmap.1).1
      have hdop := singleDoped_successor hd.wf hj
      refine ⟨rfl, hdop, ?_, trivial⟩
      obtain ⟨i, s, hi, hi2, hs'⟩ := hdop.exists_index
      have e : i = j := by
        by_contra hne
        have hil : i < g.positions.length := (List.getElem?_eq_some_iff.1 hi).1
        rw [successorGrid_numbers g hd.wf j] at hi2
        have := congrArg (·[i]?) hi2
        rw [show (successorGrid g j).positions = g.positions from rfl] at this
        rw [doped_get _ _ _ hil, doped_get _ _ _ hil, if_neg hne, if_pos rfl] at this
        simp [CARBON, SILICON] at this
      rw [← getSiliconPositions_eq_silicons hdop.wf, hs']
      subst e
      have : g.positions[i]? = some s := hi
      rw [hmap.1] at this
      rw [Option.some.inj this]

theorem pristine_doped (knn : FloatKnn) (f : V2 ℝ → V2 ℝ → V2 ℝ → ℝ) : DopedRates (floatPristineRates knn (rowByRow f)) := by
  have key : ∀ g p ss, floatPristineRates knn (rowByRow f) g p = .ok ss → ∃ js rates R,
      takeRows g.positions js = .ok R ∧ (∀ r ∈ rates, (0 : ℝ) ≤ r) ∧
      ss = (js.zip rates).map (fun ir => ⟨successorGrid g ir.1, ir.2⟩) := by
    intro g p ss h
    unfold floatPristineRates at h
    cases h1 : getSingleSiliconPosition g with
    | error e => rw [h1] at h; cases h
    | ok si =>
      rw [h1] at h
      dsimp only at h
      cases h2 : floatNearest3 knn g.positions si with
      | error e => rw [h2] at h; cases h
      | ok js =>
        rw [h2] at h
        dsimp only at h
        unfold rowByRow at h
        cases h3 : takeRows g.positions js with
        | error e => rw [h3] at h; cases h
        | ok R =>
          rw [h3] at h
          dsimp only at h
          split_ifs at h with h4 h5
          · refine ⟨js, _, R, h3, ?_, (Except.ok.inj h).symm⟩
            intro r hr
            have := List.all_eq_true.1 h4 r hr
            simpa using this
  constructor
  · intro g p ss h x hx
    obtain ⟨js, rates, R, _, h1, rfl⟩ := key g p ss h
    obtain ⟨ir, hir, rfl⟩ := List.mem_map.1 hx
    exact h1 _ (List.of_mem_zip hir).2
  · intro g p ss h hd x hx
    obtain ⟨js, rates, R, h1, _, rfl⟩ := key g p ss h
    obtain ⟨ir, hir, rfl⟩ := List.mem_map.1 hx
    have hmap := takeRows_map h1
    have hmem : g.positions[ir.1]? ∈ R.map some := by
      rw [← hmap]
      exact List.mem_map_of_mem (f := fun j => g.positions[j]?) (List.of_mem_zip hir).1
    obtain ⟨r, _, hr⟩ := List.mem_map.1 hmem
    exact ⟨singleDoped_successor hd.wf (List.getElem?_eq_some_iff.1 hr.symm).1, rfl⟩

theorem takeRows_tail {ps : List (V2 ℝ)} {idx : List ℕ} {a : V2 ℝ} {R : List (V2 ℝ)}
    (h : takeRows ps idx = .ok (a :: R)) : takeRows ps (idx.drop 1) = .ok R := by
  cases idx with
  | nil => simp [takeRows] at h
  | cons j js =>
    simp only [takeRows] at h
    cases h1 : ps[j]? with
    | none => rw [h1] at h; cases h
    | some r =>
      rw [h1] at h
      dsimp only at h
      cases h2 : takeRows ps js with
      | error e => rw [h2] at h; cases h
      | ok rs =>
        rw [h2] at h
        simp only [Except.ok.injEq, List.cons.injEq] at h
        rw [List.drop_one, List.tail_cons, h2, h.2]

/-- The neighbours the predictor finds for an atom with three bonds are the atoms it is bonded to. -/
theorem pristine_bonded (knn : FloatKnn) {ps : List (V2 ℝ)} {si : V2 ℝ} {nbrs : List (V2 ℝ)} (hbond : BondedTo ps si nbrs)
    (hbox : ∀ p ∈ ps, Near16 p) :
    ∃ idx R, knn.kneighbors ps si 4 = .ok idx ∧ takeRows ps (idx.drop 1) = .ok R ∧ R.Perm nbrs := by
  have hother : si ∉ nbrs := by
    intro h
    have := (hbond.bonds si h).2
    rw [dist_self', abs_le] at this
    norm_num at this
  have hnd : (si :: nbrs).Nodup := List.nodup_cons.2 ⟨hother, hbond.nodup⟩
  have hsub : ∀ x ∈ si :: nbrs, x ∈ ps := by
    intro x hx
    rcases List.mem_cons.1 hx with rfl | hx
    · exact hbond.mem
    · exact (hbond.bonds x hx).1
  have h4 : 4 ≤ ps.length := by
    have := (hnd.subperm hsub).length_le
    rw [List.length_cons, hbond.three] at this
    exact this
  have hk : knn.kneighbors ps si 4 = .ok (knn.query ps si 4) := by
    unfold FloatKnn.kneighbors
    rw [if_pos h4]
  obtain ⟨R, hR, hl, hRn, hRs, hRp, hRf, _⟩ := knn_rows hbond.distinct
    (knn.spec ps si 4 h4 hbox (hbox si hbond.mem))
  have d0 : V2.distSq si si = 0 := by rw [distSq_of_dist, dist_self']; norm_num
  have dist1 : ∀ p ∈ ps, p ≠ si → 1 ≤ Spec.dist si p := by
    intro p hp hne
    by_cases h : p ∈ nbrs
    · have := (hbond.bonds p h).2
      rw [abs_le] at this
      linarith [this.1]
    · linarith [hbond.far p hp hne h]
  have hone : (R.take 1).Perm [si] := rows_prefix (xs := [si]) hRn hRs hRp hRf (by simp) (by simpa using hbond.mem)
    (by rw [hl]; simp) (by
      intro x hx p hp hne
      rw [List.mem_singleton] at hx
      subst hx
      have h1 := dist1 p hp (by simpa using hne)
      rw [d0, distSq_of_dist]
      nlinarith)
  have hall : (R.take 4).Perm (si :: nbrs) := by
    have := rows_prefix (xs := si :: nbrs) hRn hRs hRp hRf hnd hsub (by rw [hl, List.length_cons, hbond.three]) (by
      intro x hx p hp hne
      simp only [List.mem_cons, not_or] at hne
      refine gap_of_dist ?_ (hbond.far p hp hne.1 hne.2)
      rcases List.mem_cons.1 hx with rfl | hx
      · rw [dist_self']; norm_num
      · have := (hbond.bonds x hx).2
        rw [abs_le] at this
        linarith [this.2])
    rwa [List.length_cons, hbond.three] at this
  obtain ⟨a, R', rfl⟩ : ∃ a R', R = a :: R' := by
    cases R with
    | nil => simp at hl
    | cons a R' => exact ⟨a, R', rfl⟩
  have ha : a = si := by simpa using hone
  subst ha
  rw [List.take_of_length_le (by rw [hl])] at hall
  exact ⟨_, R', hk, takeRows_tail hR, List.Perm.cons_inv hall⟩

/-- The neighbours the predictor finds on any sheet of four or more atoms. -/
theorem pristine_rows (knn : FloatKnn) {ps : List (V2 ℝ)} {si : V2 ℝ} (h4 : 4 ≤ ps.length) (hbox : ∀ p ∈ ps, Near16 p)
    (hmem : si ∈ ps) :
    ∃ idx R, knn.kneighbors ps si 4 = .ok idx ∧ takeRows ps (idx.drop 1) = .ok R ∧ R.length = 3 ∧ ∀ p ∈ R, p ∈ ps := by
  have hspec := knn.spec ps si 4 h4 hbox (hbox si hmem)
  have hk : knn.kneighbors ps si 4 = .ok (knn.query ps si 4) := by
    unfold FloatKnn.kneighbors
    rw [if_pos h4]
  obtain ⟨R, hR⟩ := takeRows_inRange (rows := ps) (idx := (knn.query ps si 4).drop 1)
    (fun j hj => hspec.lt j (List.mem_of_mem_drop hj))
  have hmap := takeRows_map hR
  refine ⟨_, R, hk, hR, ?_, ?_⟩
  · have := congrArg List.length hmap
    simp only [List.length_map, List.length_drop, hspec.length] at this
    omega
  · intro p hp
    have : some p ∈ R.map some := List.mem_map_of_mem hp
    rw [← hmap] at this
    obtain ⟨j, _, hj⟩ := List.mem_map.1 this
    exact List.mem_of_getElem? hj

end PD.Props
