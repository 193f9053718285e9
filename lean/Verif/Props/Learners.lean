/- C114: the learners the training script offers. -/
import Verif.Model.Learners
import Verif.Props.Predictor
import Verif.Props.StackData

set_option linter.unusedSectionVars false
set_option linter.unusedSimpArgs false

namespace PD.Spec
open PD

/-- The probability a classifier gives to a state: none if it never saw it. -/
noncomputable def probOf (m : SkModel) (x : List ℝ) (state : ℕ) : ℝ :=
  match m.proba x with
  | .ok p => if state ∈ m.classes then p.getD (m.classes.idxOf state) 0 else 0
  | .error _ => 0

/-- The mean of the members' probabilities of a state. -/
noncomputable def meanProb (models : List SkModel) (x : List ℝ) (state : ℕ) : ℝ :=
  (models.map (fun m => probOf m x state)).sum / models.length

end PD.Spec

namespace PD.Props
open PD PD.Spec

/-! ### scikit-learn -/

theorem trainMembers_fit {sk : Sklearn} {learner : String} {data : List (LabelledRows × LabelledRows)}
    {rs : List (SkModel × ℝ × ℝ)} (h : trainMembers sk learner data = .ok rs) :
    List.Forall₂ (fun d r => ∃ kind, getSklearnClassifier learner = .ok kind ∧
      sk.fit kind d.1.rows d.1.labels = .ok r.1) data rs := by
  unfold trainMembers at h
  induction data generalizing rs with
  | nil =>
    cases h
    exact .nil
  | cons d ds ih =>
    rw [List.mapM_cons] at h
    cases hk : getSklearnClassifier learner with
    | error e => rw [hk] at h; cases h
    | ok kind =>
      rw [hk] at h ih
      cases hf : sk.fit kind d.1.rows d.1.labels with
      | error e => simp only [trainSklearn, hf, bind, Except.bind] at h; cases h
      | ok m =>
        cases h1 : m.score d.2 with
        | error e => simp only [trainSklearn, hf, h1, bind, Except.bind] at h; cases h
        | ok a =>
          cases h2 : m.score d.1 with
          | error e => simp only [trainSklearn, hf, h1, h2, bind, Except.bind] at h; cases h
          | ok b =>
            cases h3 : ds.mapM (fun d => (do
                let kind ← (Except.ok kind : Except Err LearnerType)
                trainSklearn sk kind d.1 d.2)) with
            | error e =>
              simp only [trainSklearn, hf, h1, h2, bind, Except.bind, pure, Except.pure] at h h3
              rw [h3] at h
              cases h
            | ok ms =>
              have hi := ih h3
              simp only [trainSklearn, hf, h1, h2, bind, Except.bind, pure, Except.pure] at h h3
              rw [h3] at h
              cases h
              exact .cons ⟨kind, rfl, hf⟩ hi

theorem mapM_proba {models : List SkModel} {x : List ℝ} {ps : List (List ℝ)}
    (h : models.mapM (fun m => m.proba x) = .ok ps) :
    List.Forall₂ (fun m p => m.proba x = .ok p) models ps := by
  induction models generalizing ps with
  | nil => cases h; exact .nil
  | cons m ms ih =>
    rw [List.mapM_cons] at h
    cases h1 : m.proba x with
    | error e => rw [h1] at h; cases h
    | ok p =>
      cases h2 : ms.mapM (fun m => m.proba x) with
      | error e => rw [h1, h2] at h; cases h
      | ok qs =>
        rw [h1, h2] at h
        cases h
        exact .cons h1 (ih h2)

theorem averageRows_ok {ps : List (List ℝ)} {r : List ℝ} (h : averageRows ps = .ok r) :
    ps ≠ [] ∧ (∀ p ∈ ps, p.length = r.length) ∧
      ∀ k < r.length, r.getD k 0 = (ps.map (fun q => q.getD k 0)).sum / ps.length := by
  cases ps with
  | nil => cases h
  | cons p ps =>
    simp only [averageRows] at h
    by_cases hall : (ps.all (fun q => decide (q.length = p.length))) = true
    · rw [if_pos hall] at h
      cases h
      refine ⟨by simp, ?_, ?_⟩
      · intro q hq
        simp only [List.length_map, List.length_range]
        rcases List.mem_cons.1 hq with rfl | hq
        · rfl
        · simpa using List.all_eq_true.1 hall q hq
      · intro k hk
        simp only [List.length_map, List.length_range] at hk
        simp [List.getD_eq_getElem?_getD, hk]
    · rw [if_neg hall] at h
      cases h

theorem votedRates_ok {models : List SkModel} {x rates : List ℝ} (h : votedRates models x = .ok rates) :
    ∃ ps r, List.Forall₂ (fun m p => m.proba x = .ok p) models ps ∧ averageRows ps = .ok r ∧
      rates = r.drop 1 := by
  unfold votedRates at h
  cases h1 : models.mapM (fun m => m.proba x) with
  | error e => rw [h1] at h; cases h
  | ok ps =>
    rw [h1] at h
    change (averageRows ps >>= fun p => pure (p.drop 1)) = .ok rates at h
    cases h2 : averageRows ps with
    | error e => rw [h2] at h; cases h
    | ok r =>
      rw [h2] at h
      cases h
      exact ⟨ps, r, mapM_proba h1, h2, rfl⟩

/-- Classes in increasing order are those in increasing order with the same members. -/
theorem sorted_eq {a b : List ℕ} (ha : a.Pairwise (· < ·)) (hb : b.Pairwise (· < ·))
    (h : ∀ c, c ∈ a ↔ c ∈ b) : a = b := by
  have hp : a.Perm b := (List.perm_ext_iff_of_nodup (ha.imp (fun h => Nat.ne_of_lt h))
    (hb.imp (fun h => Nat.ne_of_lt h))).2 h
  exact hp.eq_of_pairwise (fun x y _ _ h1 h2 => by omega) ha hb

theorem all_four {a : List ℕ} (ha : a.Pairwise (· < ·)) (hle : ∀ c ∈ a, c ≤ 3) (hl : 4 ≤ a.length) :
    a = [0, 1, 2, 3] := by
  have hn : a.Nodup := ha.imp (fun h => Nat.ne_of_lt h)
  have hsub : a.toFinset ⊆ Finset.range 4 := by
    intro c hc
    have := hle c (List.mem_toFinset.1 hc)
    exact Finset.mem_range.2 (by omega)
  have heq : a.toFinset = Finset.range 4 := Finset.eq_of_subset_of_card_le hsub (by
    rw [List.toFinset_card_of_nodup hn]; simpa using hl)
  refine sorted_eq ha (by decide) (fun c => ?_)
  rw [← List.mem_toFinset, heq, Finset.mem_range]
  simp only [List.mem_cons, List.not_mem_nil, or_false]
  omega

theorem forall₂_map_fst {sk : Sklearn} {learner : String} {data : List (LabelledRows × LabelledRows)}
    {rs : List (SkModel × ℝ × ℝ)} (h : trainMembers sk learner data = .ok rs) :
    List.Forall₂ (fun d m => ∃ kind, getSklearnClassifier learner = .ok kind ∧
      sk.fit kind d.1.rows d.1.labels = .ok m) data (rs.map Prod.fst) :=
  List.forall₂_map_right_iff.2 (trainMembers_fit h)

/-- With labels from 0 to 3, whenever the vote of the trained members gives three rates, rate `i` is the mean
of the members' probabilities of state `i + 1`; and it gives three whenever it gives anything and every member
saw all four states. -/
theorem C114_voted_partial (sk : Sklearn) (learner : String) (data : List (LabelledRows × LabelledRows))
    (hs : ∀ d ∈ data, ∀ c ∈ d.1.labels, c ≤ 3) (rs : List (SkModel × ℝ × ℝ))
    (ht : trainMembers sk learner data = .ok rs) (x rates : List ℝ)
    (hv : votedRates (rs.map Prod.fst) x = .ok rates) :
    (rates.length = 3 → ∀ i < 3, rates[i]? = some (meanProb (rs.map Prod.fst) x (i + 1))) ∧
    ((∀ d ∈ data, ∀ c ≤ 3, c ∈ d.1.labels) → rates.length = 3) := by
  obtain ⟨ps, r, hf, ha, rfl⟩ := votedRates_ok hv
  obtain ⟨hne, hlen, hval⟩ := averageRows_ok ha
  have hfit := forall₂_map_fst ht
  generalize rs.map Prod.fst = models at hf hfit
  -- every member knows as many classes as there are columns
  have hcl : ∀ m ∈ models, ∃ d ∈ data, ∃ p ∈ ps, m.proba x = .ok p ∧ m.classes.Pairwise (· < ·) ∧
      (∀ c, c ∈ m.classes ↔ c ∈ d.1.labels) ∧ m.classes.length = r.length := by
    intro m hm
    obtain ⟨i, hi, rfl⟩ := List.getElem_of_mem hm
    have h1 : i < data.length := by rw [hfit.length_eq]; exact hi
    have h2 : i < ps.length := by rw [← hf.length_eq]; exact hi
    obtain ⟨kind, -, hk⟩ := hfit.get h1 hi
    have hp := hf.get hi h2
    simp only [List.get_eq_getElem] at hk hp
    obtain ⟨c1, c2⟩ := sk.classes _ _ _ _ hk
    exact ⟨_, List.getElem_mem h1, _, List.getElem_mem h2, hp, c1, c2,
      by rw [← sk.columns _ _ _ _ hk x _ hp]; exact hlen _ (List.getElem_mem h2)⟩
  constructor
  · intro h3 i hi
    rw [List.length_drop] at h3
    have hr : r.length = 4 := by omega
    have h4 : ∀ m ∈ models, m.classes = [0, 1, 2, 3] := by
      intro m hm
      obtain ⟨d, hd, p, -, -, c1, c2, c3⟩ := hcl m hm
      exact all_four c1 (fun c hc => hs d hd c ((c2 c).1 hc)) (by omega)
    have hv := hval (i + 1) (by omega)
    have hm : models.map (fun m => probOf m x (i + 1)) = ps.map (fun q => q.getD (i + 1) 0) := by
      clear hcl hval hlen hne hfit ha hv ht
      induction hf with
      | nil => rfl
      | cons hp _ ih =>
        rename_i m p ms ps' _
        rw [List.map_cons, List.map_cons, ih (fun m hm => h4 m (List.mem_cons_of_mem _ hm))]
        congr 1
        simp only [probOf, hp, h4 m (by simp)]
        have : i = 0 ∨ i = 1 ∨ i = 2 := by omega
        rcases this with rfl | rfl | rfl <;> simp [List.idxOf_cons]
    rw [meanProb, hm, hf.length_eq, ← hv, List.getElem?_drop, Nat.add_comm 1 i]
    have : i + 1 < r.length := by omega
    simp [List.getD_eq_getElem?_getD, this]
  · intro hall
    have hm : ∃ m, m ∈ models := by
      cases models with
      | nil => cases hf; exact absurd rfl hne
      | cons m ms => exact ⟨m, by simp⟩
    obtain ⟨m, hm⟩ := hm
    obtain ⟨d, hd, p, -, -, c1, c2, c3⟩ := hcl m hm
    have : m.classes = [0, 1, 2, 3] := sorted_eq c1 (by decide) (fun c => by
      rw [c2]
      constructor
      · intro h
        have := hs d hd c h
        simp only [List.mem_cons, List.not_mem_nil, or_false]
        omega
      · intro h
        refine hall d hd c ?_
        simp only [List.mem_cons, List.not_mem_nil, or_false] at h
        omega)
    rw [List.length_drop, ← c3, this]
    rfl

/-- When a member never saw one of the states, the vote gives fewer than three rates or raises. -/
theorem C114_unseen_state (sk : Sklearn) (learner : String) (data : List (LabelledRows × LabelledRows))
    (hs : ∀ d ∈ data, ∀ c ∈ d.1.labels, c ≤ 3) (d : LabelledRows × LabelledRows) (hd : d ∈ data)
    (c : ℕ) (hc : c ≤ 3) (hun : c ∉ d.1.labels) (rs : List (SkModel × ℝ × ℝ))
    (ht : trainMembers sk learner data = .ok rs) (x rates : List ℝ)
    (hv : votedRates (rs.map Prod.fst) x = .ok rates) : rates.length < 3 := by
  obtain ⟨ps, r, hf, ha, rfl⟩ := votedRates_ok hv
  obtain ⟨hne, hlen, -⟩ := averageRows_ok ha
  have hfit := forall₂_map_fst ht
  generalize rs.map Prod.fst = models at hf hfit
  obtain ⟨i, h1, rfl⟩ := List.getElem_of_mem hd
  have hi : i < models.length := by rw [← hfit.length_eq]; exact h1
  have h2 : i < ps.length := by rw [← hf.length_eq]; exact hi
  obtain ⟨kind, -, hk⟩ := hfit.get h1 hi
  have hp := hf.get hi h2
  simp only [List.get_eq_getElem] at hk hp
  obtain ⟨c1, c2⟩ := sk.classes _ _ _ _ hk
  have hl : models[i].classes.length = r.length := by
    rw [← sk.columns _ _ _ _ hk x _ hp]; exact hlen _ (List.getElem_mem h2)
  by_contra hge
  rw [List.length_drop] at hge
  have := all_four c1 (fun c hc => hs _ hd c ((c2 c).1 hc)) (by omega)
  refine hun ((c2 c).1 ?_)
  rw [this]
  simp only [List.mem_cons, List.not_mem_nil, or_false]
  omega

theorem score_ok {m : SkModel} (h : ∀ x, ∃ c, m.predict x = .ok c) {d : LabelledRows} (hd : d.rows ≠ []) :
    ∃ a, m.score d = .ok a := by
  have hm : ∀ rows : List (List ℝ), ∃ cs, rows.mapM m.predict = .ok cs := by
    intro rows
    induction rows with
    | nil => exact ⟨[], rfl⟩
    | cons x rows ih =>
      obtain ⟨c, hc⟩ := h x
      obtain ⟨cs, hcs⟩ := ih
      exact ⟨c :: cs, by rw [List.mapM_cons, hc, hcs]; rfl⟩
  obtain ⟨cs, hcs⟩ := hm d.rows
  exact ⟨_, by rw [SkModel.score, if_neg hd, hcs]⟩

/-- How many examples a classifier decides correctly. -/
noncomputable def rightDecisions (m : SkModel) (d : LabelledRows) : ℕ :=
  ((d.rows.zip d.labels).filter (fun e => decide (m.predict e.1 = .ok e.2))).length

theorem score_eq {m : SkModel} {d : LabelledRows} {a : ℝ} (h : m.score d = .ok a) :
    d.rows ≠ [] ∧ a = rightDecisions m d / d.rows.length := by
  unfold SkModel.score at h
  split_ifs at h with hd
  refine ⟨hd, ?_⟩
  split at h
  · cases h
  · rename_i cs hcs
    rw [Except.ok.injEq] at h
    rw [← h]
    have key : ∀ (rows : List (List ℝ)) (cs ls : List ℕ), rows.mapM m.predict = .ok cs →
        ((cs.zip ls).filter (fun cl => decide (cl.1 = cl.2))).length =
          ((rows.zip ls).filter (fun e => decide (m.predict e.1 = .ok e.2))).length := by
      intro rows
      induction rows with
      | nil => intro cs ls h; rw [List.mapM_nil] at h; cases h; simp
      | cons x rows ih =>
        intro cs ls h
        rw [List.mapM_cons] at h
        cases hx : m.predict x with
        | error e => rw [hx] at h; cases h
        | ok c =>
          rw [hx] at h
          cases hr : rows.mapM m.predict with
          | error e => rw [hr] at h; cases h
          | ok cs' =>
            rw [hr] at h
            cases h
            cases ls with
            | nil => simp
            | cons l ls =>
              have := ih cs' ls hr
              by_cases hcl : c = l
              · subst hcl; simp [hx, this]
              · simp [hx, hcl, this]
    rw [rightDecisions, key d.rows cs d.labels hcs]

/-- C114: the two accuracies of a member are the fractions of the training and of the test examples it decides
correctly, in this order; there are examples of both kinds. -/
theorem C114_accuracies (sk : Sklearn) (kind : LearnerType) (train test : LabelledRows) (m : SkModel) (a b : ℝ)
    (h : trainSklearn sk kind train test = .ok (m, a, b)) :
    sk.fit kind train.rows train.labels = .ok m ∧ train.rows ≠ [] ∧ test.rows ≠ [] ∧
      a = rightDecisions m train / train.rows.length ∧ b = rightDecisions m test / test.rows.length := by
  simp only [trainSklearn, bind, Except.bind, pure, Except.pure] at h
  cases hm : sk.fit kind train.rows train.labels with
  | error e => rw [hm] at h; cases h
  | ok m' =>
    simp only [hm] at h
    cases h1 : m'.score test with
    | error e => rw [h1] at h; cases h
    | ok b' =>
      simp only [h1] at h
      cases h2 : m'.score train with
      | error e => rw [h2] at h; cases h
      | ok a' =>
        simp only [h2, Except.ok.injEq, Prod.mk.injEq] at h
        obtain ⟨rfl, rfl, rfl⟩ := h
        exact ⟨rfl, (score_eq h2).1, (score_eq h1).1, (score_eq h2).2, (score_eq h1).2⟩

/-- A forest is trained whatever the data, and every member gives probabilities. -/
theorem C114_forest_completes (sk : Sklearn) (data : List (LabelledRows × LabelledRows))
    (h : ∀ d ∈ data, d.1.rows ≠ [] ∧ d.1.rows.length = d.1.labels.length ∧ d.2.rows ≠ []) :
    ∃ rs, trainMembers sk "random_forest" data = .ok rs ∧ rs.length = data.length ∧
      ∀ m ∈ rs.map Prod.fst, ∀ x, ∃ p, m.proba x = .ok p := by
  unfold trainMembers
  induction data with
  | nil => exact ⟨[], rfl, rfl, by simp⟩
  | cons d ds ih =>
    obtain ⟨rs, h1, h2, h3⟩ := ih (fun e he => h e (List.mem_cons_of_mem _ he))
    obtain ⟨d1, d2, d3⟩ := h d (by simp)
    obtain ⟨m, hm, hx⟩ := sk.forest d.1.rows d.1.labels d1 d2
    obtain ⟨a, ha⟩ := score_ok (fun x => (hx x).1) d3
    obtain ⟨b, hb⟩ := score_ok (fun x => (hx x).1) d1
    have hone : (do
        let kind ← getSklearnClassifier "random_forest"
        trainSklearn sk kind d.1 d.2) = (Except.ok (m, b, a) : Except Err _) := by
      change trainSklearn sk .randomForest d.1 d.2 = _
      simp only [trainSklearn, hm, ha, hb, bind, Except.bind, pure, Except.pure]
    refine ⟨(m, b, a) :: rs, ?_, by simp [h2], ?_⟩
    · rw [List.mapM_cons, hone, h1]
      rfl
    · intro m' hm' x
      rw [List.map_cons] at hm'
      rcases List.mem_cons.1 hm' with rfl | hm'
      · exact (hx x).2
      · exact h3 m' hm' x

/-- A forest whose members all saw all four states gives, for every input, three rates: the means of the
members' probabilities of the three neighbours. -/
theorem C114_forest_partial (sk : Sklearn) (data : List (LabelledRows × LabelledRows)) (hne : data ≠ [])
    (h : ∀ d ∈ data, d.1.rows ≠ [] ∧ d.1.rows.length = d.1.labels.length ∧ d.2.rows ≠ [] ∧
      ∀ c, c ∈ d.1.labels ↔ c ≤ 3) :
    ∃ rs, trainMembers sk "random_forest" data = .ok rs ∧ ∀ x,
      votedRates (rs.map Prod.fst) x = .ok [meanProb (rs.map Prod.fst) x 1, meanProb (rs.map Prod.fst) x 2,
        meanProb (rs.map Prod.fst) x 3] := by
  obtain ⟨rs, ht, hl, hp⟩ := C114_forest_completes sk data
    (fun d hd => ⟨(h d hd).1, (h d hd).2.1, (h d hd).2.2.1⟩)
  refine ⟨rs, ht, fun x => ?_⟩
  have hfit := forall₂_map_fst ht
  have hex : ∃ rates, votedRates (rs.map Prod.fst) x = .ok rates := by
    have hcl : ∀ m ∈ rs.map Prod.fst, ∃ p, m.proba x = .ok p ∧ p.length = 4 := by
      intro m hm
      obtain ⟨p, hpx⟩ := hp m hm x
      obtain ⟨i, hi, rfl⟩ := List.getElem_of_mem hm
      have h1 : i < data.length := by rw [hfit.length_eq]; exact hi
      obtain ⟨kind, -, hk⟩ := hfit.get h1 hi
      simp only [List.get_eq_getElem] at hk
      obtain ⟨c1, c2⟩ := sk.classes _ _ _ _ hk
      have hc : (rs.map Prod.fst)[i].classes = [0, 1, 2, 3] := sorted_eq c1 (by decide) (fun c => by
        rw [c2, (h _ (List.getElem_mem h1)).2.2.2]
        simp only [List.mem_cons, List.not_mem_nil, or_false]
        omega)
      exact ⟨p, hpx, by rw [sk.columns _ _ _ _ hk x _ hpx, hc]; rfl⟩
    have hne' : rs.map Prod.fst ≠ [] := by
      intro hc
      rw [List.map_eq_nil_iff] at hc
      rw [hc] at hl
      exact hne (List.length_eq_zero_iff.1 hl.symm)
    generalize rs.map Prod.fst = models at hcl hne'
    have hps : ∃ ps, models.mapM (fun m => m.proba x) = .ok ps ∧ ps.length = models.length ∧
        ∀ p ∈ ps, p.length = 4 := by
      clear hne'
      induction models with
      | nil => exact ⟨[], rfl, rfl, by simp⟩
      | cons m ms ih =>
        obtain ⟨p, e1, e2⟩ := hcl m (by simp)
        obtain ⟨ps, e3, e4, e5⟩ := ih (fun m hm => hcl m (List.mem_cons_of_mem _ hm))
        exact ⟨p :: ps, by rw [List.mapM_cons, e1, e3]; rfl, by simp [e4], by simpa [e2] using e5⟩
    obtain ⟨ps, e1, e2, e3⟩ := hps
    cases ps with
    | nil => exact absurd (List.length_eq_zero_iff.1 e2.symm) hne'
    | cons p ps =>
      have hall : ps.all (fun q => decide (q.length = p.length)) = true := by
        rw [List.all_eq_true]
        intro q hq
        simp [e3 q (List.mem_cons_of_mem _ hq), e3 p (by simp)]
      obtain ⟨q, hq⟩ : ∃ q, averageRows (p :: ps) = .ok q := ⟨_, if_pos hall⟩
      refine ⟨q.drop 1, ?_⟩
      unfold votedRates
      rw [e1]
      change (averageRows (p :: ps) >>= fun p => pure (p.drop 1)) = _
      rw [hq]
      rfl
  obtain ⟨rates, hv⟩ := hex
  obtain ⟨hval, hlen⟩ := C114_voted_partial sk _ data (fun d hd c hc => ((h d hd).2.2.2 c).1 hc) rs ht x rates hv
  have h3 := hlen (fun d hd c hc => ((h d hd).2.2.2 c).2 hc)
  rw [hv, Except.ok.injEq]
  match rates, h3 with
  | [a, b, c], _ =>
    have h0 := hval rfl 0 (by decide)
    have h1 := hval rfl 1 (by decide)
    have h2 := hval rfl 2 (by decide)
    simp only [List.getElem?_cons_zero, List.getElem?_cons_succ, Option.some.injEq] at h0 h1 h2
    rw [h0, h1, h2]

/-- Support vector machines are trained, but their vote always raises. -/
theorem C114_svm (sk : Sklearn) (data : List (LabelledRows × LabelledRows)) (hne : data ≠ [])
    (rs : List (SkModel × ℝ × ℝ)) (ht : trainMembers sk "svm" data = .ok rs) (x : List ℝ) :
    votedRates (rs.map Prod.fst) x = .error .attributeError := by
  have hfit := forall₂_map_fst ht
  generalize rs.map Prod.fst = models at hfit
  cases hfit with
  | nil => exact absurd rfl hne
  | cons h _ =>
    obtain ⟨kind, hk, hf⟩ := h
    cases hk
    unfold votedRates
    rw [List.mapM_cons, sk.svm _ _ _ hf x]
    rfl

/-- Training scikit-learn's perceptron always raises, and so does a name that is no classifier. -/
theorem C114_refused (sk : Sklearn) (learner : String) (data : List (LabelledRows × LabelledRows)) (hne : data ≠ [])
    (h : learner ∉ ["random_forest", "svm", "knn", "gp"]) :
    trainMembers sk learner data = .error .valueError := by
  obtain ⟨d, ds, rfl⟩ := List.exists_cons_of_ne_nil hne
  simp only [List.mem_cons, List.not_mem_nil, or_false, not_or] at h
  obtain ⟨n1, n2, n3, n4⟩ := h
  have hk : getSklearnClassifier learner = .ok .sklearnMlp ∨ getSklearnClassifier learner = .error .valueError := by
    unfold getSklearnClassifier learnerType?
    split <;> simp_all
    all_goals (split at * <;> simp_all)
  unfold trainMembers
  rw [List.mapM_cons]
  rcases hk with hk | hk
  · rw [hk]
    change ((trainSklearn sk .sklearnMlp d.1 d.2) >>= _) = _
    simp only [trainSklearn, sk.mlp, bind, Except.bind]
  · rw [hk]
    rfl

/-! ### A library with these properties -/

/-- The labels in increasing order. -/
def labelsOf (ys : List ℕ) : List ℕ := ys.dedup.insertionSort (· ≤ ·)

theorem labelsOf_sorted (ys : List ℕ) : (labelsOf ys).Pairwise (· < ·) := by
  have h1 : (labelsOf ys).Pairwise (· ≤ ·) := List.pairwise_insertionSort (· ≤ ·) _
  have h2 : (labelsOf ys).Nodup := (List.perm_insertionSort (· ≤ ·) _).nodup_iff.2 (List.nodup_dedup ys)
  exact (h1.and h2).imp (fun h => lt_of_le_of_ne h.1 h.2)

theorem mem_labelsOf (ys : List ℕ) (c : ℕ) : c ∈ labelsOf ys ↔ c ∈ ys := by
  rw [labelsOf, (List.perm_insertionSort (· ≤ ·) _).mem_iff, List.mem_dedup]

/-- A classifier that is sure of the last of its classes. -/
def lastClass (ys : List ℕ) : SkModel where
  classes := labelsOf ys
  predict := fun _ => .ok ((labelsOf ys).getLastD 0)
  proba := fun _ => .ok ((labelsOf ys).map (fun c => if c = (labelsOf ys).getLastD 0 then 1 else 0))

/-- A library of such classifiers. -/
def lastClassSk : Sklearn where
  fit := fun t _ ys =>
    if t = .sklearnMlp then .error .valueError
    else if t = .svm then .ok { lastClass ys with proba := fun _ => .error .attributeError }
    else .ok (lastClass ys)
  classes := by
    intro t xs ys m h
    split at h
    · cases h
    · split at h <;> cases h <;> exact ⟨labelsOf_sorted ys, mem_labelsOf ys⟩
  columns := by
    intro t xs ys m h x p hp
    split at h
    · cases h
    · split at h <;> cases h
      · cases hp
      · cases hp
        simp [lastClass]
  svm := by
    intro xs ys m h x
    simp only [reduceCtorEq, if_false, if_true] at h
    cases h
    rfl
  mlp := by intro xs ys; simp
  forest := by
    intro xs ys _ _
    exact ⟨lastClass ys, by simp, fun x => ⟨⟨_, rfl⟩, ⟨_, rfl⟩⟩⟩

/-- Two members, one of which never saw a move to neighbour 3 and one never one to neighbour 2. -/
def mixedData : List (LabelledRows × LabelledRows) :=
  [(⟨[[0], [1], [2]], [0, 1, 2]⟩, ⟨[[0]], [0]⟩), (⟨[[0], [1], [2]], [0, 1, 3]⟩, ⟨[[0]], [0]⟩)]

/-- Probabilities of different neighbours are averaged without an error: one member is sure of neighbour 2 and
the other of neighbour 3, and the vote gives a single rate for both, which is neither's mean. -/
theorem C114_mixed : ∃ rs, trainMembers lastClassSk "random_forest" mixedData = .ok rs ∧
    votedRates (rs.map Prod.fst) [5] = .ok [0, 1] ∧
    meanProb (rs.map Prod.fst) [5] 2 = 1 / 2 ∧ meanProb (rs.map Prod.fst) [5] 3 = 1 / 2 := by
  obtain ⟨rs, h, -, -⟩ := C114_forest_completes lastClassSk mixedData (by simp [mixedData])
  refine ⟨rs, h, ?_⟩
  have hm : rs.map Prod.fst = [lastClass [0, 1, 2], lastClass [0, 1, 3]] := by
    have hf := forall₂_map_fst h
    generalize rs.map Prod.fst = models at hf
    cases hf with
    | cons h1 hf =>
      cases hf with
      | cons h2 hf =>
        cases hf
        obtain ⟨k1, e1, f1⟩ := h1
        obtain ⟨k2, e2, f2⟩ := h2
        cases e1
        cases e2
        cases f1
        cases f2
        rfl
  have l1 : labelsOf [0, 1, 2] = [0, 1, 2] := by decide
  have l2 : labelsOf [0, 1, 3] = [0, 1, 3] := by decide
  have p1 : (lastClass [0, 1, 2]).proba [5] = .ok [0, 0, 1] := by simp [lastClass, l1]
  have p2 : (lastClass [0, 1, 3]).proba [5] = .ok [0, 0, 1] := by simp [lastClass, l2]
  have c1 : (lastClass [0, 1, 2]).classes = [0, 1, 2] := l1
  have c2 : (lastClass [0, 1, 3]).classes = [0, 1, 3] := l2
  rw [hm]
  refine ⟨?_, ?_, ?_⟩
  · have : [lastClass [0, 1, 2], lastClass [0, 1, 3]].mapM (fun m => m.proba [5]) =
        (.ok [[0, 0, 1], [0, 0, 1]] : Except Err _) := by
      simp only [List.mapM_cons, List.mapM_nil, p1, p2]
      rfl
    unfold votedRates
    rw [this]
    change (averageRows [[0, 0, 1], [0, 0, 1]] >>= fun p => pure (p.drop 1)) = .ok [0, 1]
    have : averageRows [[0, 0, 1], [0, 0, 1]] = .ok [0, 0, 1] := by
      simp [averageRows, List.range_succ]
    rw [this]
    rfl
  · simp [meanProb, probOf, p1, p2, c1, c2, List.idxOf_cons]
  · simp [meanProb, probOf, p1, p2, c1, c2, List.idxOf_cons]

/-- The hypotheses of `C114_forest_partial`, and so of `C114_voted_partial`: a member that saw all four states. -/
example : ∀ d ∈ [((⟨[[0], [1], [2], [3]], [3, 1, 0, 2]⟩, ⟨[[0]], [0]⟩) : LabelledRows × LabelledRows)],
    d.1.rows ≠ [] ∧ d.1.rows.length = d.1.labels.length ∧ d.2.rows ≠ [] ∧ ∀ c, c ∈ d.1.labels ↔ c ≤ 3 := by
  intro d hd
  rw [List.mem_singleton] at hd
  subst hd
  refine ⟨by simp, rfl, by simp, fun c => ?_⟩
  simp only [List.mem_cons, List.not_mem_nil, or_false]
  omega

/-- The hypotheses of `C114_unseen_state` and `C114_forest_completes`. -/
example : (∀ d ∈ mixedData, (∀ c ∈ d.1.labels, c ≤ 3) ∧ d.1.rows ≠ [] ∧ d.1.rows.length = d.1.labels.length ∧
    d.2.rows ≠ []) ∧ ∃ d ∈ mixedData, 3 ∉ d.1.labels := by
  simp [mixedData]

/-- A case of `C114_accuracies`. -/
example : ∃ m a b, trainSklearn lastClassSk .randomForest ⟨[[0], [1]], [1, 1]⟩ ⟨[[0]], [0]⟩ = .ok (m, a, b) := by
  obtain ⟨m, hm, hp⟩ := lastClassSk.forest [[0], [1]] [1, 1] (by simp) rfl
  obtain ⟨a, ha⟩ := score_ok (fun x => (hp x).1) (d := ⟨[[0], [1]], [1, 1]⟩) (by simp)
  obtain ⟨b, hb⟩ := score_ok (fun x => (hp x).1) (d := ⟨[[0]], [0]⟩) (by simp)
  refine ⟨m, a, b, ?_⟩
  simp only [trainSklearn, hm, bind, Except.bind, ha, hb]
  rfl

/-- The hypotheses of `C114_svm`. -/
example : ∃ rs, trainMembers lastClassSk "svm" [(⟨[[0]], [1]⟩, ⟨[[0]], [0]⟩)] = .ok rs := by
  obtain ⟨m, hm, hp⟩ : ∃ m, lastClassSk.fit .svm [[0]] [1] = .ok m ∧ ∀ x, ∃ c, m.predict x = .ok c :=
    ⟨_, rfl, fun x => ⟨_, rfl⟩⟩
  obtain ⟨a, ha⟩ := score_ok hp (d := ⟨[[0]], [0]⟩) (by simp)
  obtain ⟨b, hb⟩ := score_ok hp (d := ⟨[[0]], [1]⟩) (by simp)
  have hone : trainSklearn lastClassSk .svm ⟨[[0]], [1]⟩ ⟨[[0]], [0]⟩ = .ok (m, b, a) := by
    simp only [trainSklearn, hm, bind, Except.bind, ha, hb]
    rfl
  refine ⟨[(m, b, a)], ?_⟩
  unfold trainMembers
  rw [List.mapM_cons, List.mapM_nil]
  change ((trainSklearn lastClassSk .svm ⟨[[0]], [1]⟩ ⟨[[0]], [0]⟩) >>= _) = _
  rw [hone]
  rfl

/-- The hypotheses of `C114_refused`. -/
example : "sklearn_mlp" ∉ ["random_forest", "svm", "knn", "gp"] ∧ "forest" ∉ ["random_forest", "svm", "knn", "gp"] := by
  decide

/-! ### The networks -/

section
variable {P S : Type}

/-- The contexts the learner is given. -/
theorem prepared (useCurrent useVoltage rateNetwork : Bool) (data : List DataPoint) (hne : data ≠ [])
    (hs : ∀ p ∈ data, p.nextState ≤ 3) (hcur : useCurrent = true → ∀ p ∈ data, p.current.isSome)
    (hvol : useVoltage = true → ∀ p ∈ data, p.voltage.isSome)
    (hsome : useCurrent = true ∨ useVoltage = true ∨ rateNetwork = false) :
    ∃ d r rows, prepareData useCurrent useVoltage rateNetwork data = .ok d ∧ d.toRateData = .ok r ∧
      r.context = some rows ∧ rows.length = data.length ∧
      ∀ (i : ℕ) (p : DataPoint), data[i]? = some p → ∃ x, rows[i]? = some x ∧
        x.map some = contextOf useCurrent useVoltage (!rateNetwork) p := by
  obtain ⟨d, r, h1, h2, hsz, -, hc, hrow⟩ := C86_accepted useCurrent useVoltage (!rateNetwork) data hne hs hcur hvol
  have hc' : r.context.isSome := hc.2 (by
    rcases hsome with h | h | h
    · exact .inl h
    · exact .inr (.inl h)
    · exact .inr (.inr (by simp [h])))
  obtain ⟨rows, hrows⟩ := Option.isSome_iff_exists.1 hc'
  have hctx : ∃ r', (d.forLearner rateNetwork).toRateData = .ok r' ∧ r'.context = r.context := by
    unfold StackedData.toRateData StackedData.forLearner at *
    cases rateNetwork with
    | true => exact ⟨r, h2, rfl⟩
    | false =>
      simp only [Bool.false_eq_true, if_false]
      cases hd : d.context with
      | none => simp only [hd] at h2; cases h2; exact ⟨_, rfl, rfl⟩
      | some rs =>
        simp only [hd] at h2
        cases hm : rs.mapM plainRow with
        | error e => rw [hm] at h2; cases h2
        | ok cs => rw [hm] at h2; cases h2; exact 
          ⟨⟨d.nextState.map (fun s : ℕ => (s : ℤ)), d.dt.map (fun _ => 1), d.rates, d.position, some cs⟩,
            by simp only [hm], rfl⟩
  obtain ⟨r', e1, e2⟩ := hctx
  refine ⟨_, r', rows, by simp only [prepareData, h1], e1, e2.trans hrows, hsz.2.2.2.2 rows hrows, ?_⟩
  intro i p hp
  obtain ⟨q, hq, -, -, -, hx⟩ := hrow i p hp
  simp only [row, hrows] at hq
  split at hq
  · cases hr : rows[i]? with
    | none => rw [hr] at hq; cases hq
    | some x =>
      rw [hr] at hq
      cases hq
      exact ⟨x, rfl, hx x rfl⟩
  · cases hq

theorem medianRow_length {rows : List (List ℝ)} {x : List ℝ} (h : rows[0]? = some x) :
    (medianRow rows).length = x.length := by
  cases rows with
  | nil => cases h
  | cons y ys => cases h; simp [medianRow]

theorem contextDim_fresh (params : P) (state : S) (cfg : PredictorCfg) :
    (Predictor.fresh params state cfg).contextDim = contexts cfg + 2 := by
  obtain ⟨v, c⟩ := cfg
  cases v <;> cases c <;> rfl

theorem prepared_width (cfg : PredictorCfg) (rateNetwork : Bool) (data : List DataPoint) (hne : data ≠ [])
    (rows : List (List ℝ)) (h : ∀ (i : ℕ) (p : DataPoint), data[i]? = some p → ∃ x, rows[i]? = some x ∧
      x.map some = contextOf cfg.useCurrent cfg.useVoltage (!rateNetwork) p) :
    (medianRow rows).length = contexts cfg + (if rateNetwork then 0 else 1) := by
  obtain ⟨p, ps, rfl⟩ := List.exists_cons_of_ne_nil hne
  obtain ⟨x, hx, hm⟩ := h 0 p rfl
  rw [medianRow_length hx, ← List.length_map (f := some), hm]
  obtain ⟨v, c⟩ := cfg
  cases v <;> cases c <;> cases rateNetwork <;> rfl

/-- The median of some numbers: the middle one in order, or the mean of the two in the middle. -/
def IsMedian (xs : List ℝ) (m : ℝ) : Prop :=
  ∃ ys : List ℝ, ys.Perm xs ∧ ys.Pairwise (· ≤ ·) ∧ ∃ a b, ys[(xs.length - 1) / 2]? = some a ∧ ys[xs.length / 2]? = some b ∧
    m = (a + b) / 2

theorem medianOf_isMedian {xs : List ℝ} (h : xs ≠ []) : IsMedian xs (medianOf xs) := by
  have hl : (xs.insertionSort (· ≤ ·)).length = xs.length := List.length_insertionSort _ _
  have hpos : 0 < xs.length := List.length_pos_iff.2 h
  have h1 : (xs.length - 1) / 2 < (xs.insertionSort (· ≤ ·)).length := by rw [hl]; omega
  have h2 : xs.length / 2 < (xs.insertionSort (· ≤ ·)).length := by rw [hl]; omega
  refine ⟨xs.insertionSort (· ≤ ·), List.perm_insertionSort _ _, List.pairwise_insertionSort _ _, _, _,
    List.getElem?_eq_getElem h1, List.getElem?_eq_getElem h2, ?_⟩
  simp only [medianOf, hl, List.getD_eq_getElem?_getD, List.getElem?_eq_getElem h1, List.getElem?_eq_getElem h2,
    Option.getD_some]

/-- `fixed` holds the median of every column of `rows`. -/
def AreMedians (rows : List (List ℝ)) (fixed : List ℝ) : Prop :=
  (∀ r ∈ rows, r.length = fixed.length) ∧
  ∀ (k : ℕ) (m : ℝ), fixed[k]? = some m → ∃ col : List ℝ, List.Forall₂ (fun r x => r[k]? = some x) rows col ∧ IsMedian col m

theorem medianRow_areMedians {rows : List (List ℝ)} {w : ℕ} (hne : rows ≠ []) (hw : ∀ r ∈ rows, r.length = w) :
    AreMedians rows (medianRow rows) := by
  obtain ⟨x, rest, rfl⟩ := List.exists_cons_of_ne_nil hne
  have hx : x.length = w := hw x (by simp)
  have hlen : (medianRow (x :: rest)).length = w := by rw [medianRow_length (x := x) rfl, hx]
  refine ⟨fun r hr => by rw [hlen, hw r hr], ?_⟩
  intro k m hk
  have hkw : k < w := by rw [← hlen]; exact (List.getElem?_eq_some_iff.1 hk).1
  refine ⟨(x :: rest).map (fun r => r.getD k 0), ?_, ?_⟩
  · rw [List.forall₂_map_right_iff, List.forall₂_same]
    intro r hr
    have : k < r.length := by rw [hw r hr]; exact hkw
    simp [List.getD_eq_getElem?_getD, this]
  · have : m = medianOf ((x :: rest).map (fun r => r.getD k 0)) := by
      simp only [medianRow, List.head?_cons, Option.map_some, Option.getD_some, List.getElem?_map, hx] at hk
      rw [List.getElem?_range hkw] at hk
      simpa using hk.symm
    rw [this]
    exact medianOf_isMedian (by simp)

/-- A single rate network trained on data with a current or a voltage is saved, together with the medians of
the recorded values.  Loaded without its configuration by a predictor that uses neither, it gives the trained
network's predictions at those medians; loaded with its configuration, as is the default, no prediction can
be had. -/
theorem C114_network_partial (direct : Bool) (nets nets' : P → S → List (List ℝ → List ℝ))
    (fitted : RateData → P × S) (net : RateData → List ℝ → List ℝ)
    (hn : ∀ r, nets (fitted r).1 (fitted r).2 = [net r]) (params : P) (state : S) (cfg : PredictorCfg)
    (data : List DataPoint) (hne : data ≠ []) (hs : ∀ p ∈ data, p.nextState ≤ 3)
    (hcur : cfg.useCurrent = true → ∀ p ∈ data, p.current.isSome)
    (hvol : cfg.useVoltage = true → ∀ p ∈ data, p.voltage.isSome)
    (hsome : cfg.useCurrent = true ∨ cfg.useVoltage = true) (dir : String) :
    ∃ r rows fixed s₁, r.context = some rows ∧ rows.length = data.length ∧
      (∀ (i : ℕ) (p : DataPoint), data[i]? = some p → ∃ x : List ℝ, rows[i]? = some x ∧ x.map some =
        (if cfg.useCurrent then [p.current] else []) ++ (if cfg.useVoltage then [p.voltage] else [])) ∧
      AreMedians rows fixed ∧
      trainAndSave nets fitted true data dir (freshSystem params state cfg) = .ok () s₁ ∧
      (∀ (q : Predictor P S) (lp : Bool), q.cfg = ⟨false, false⟩ →
        ∃ t, PredSystem.load dir 0 lp false ⟨q, s₁.disk⟩ = .ok () t ∧
          ∀ a, outcome (PredSystem.predict direct nets' a t) =
            predictionOf [net r] fixed ⟨false, false⟩ a) ∧
      ∀ (q : Predictor P S) (lp : Bool), ∃ t, PredSystem.load dir 0 lp true ⟨q, s₁.disk⟩ = .ok () t ∧
        ∀ a, (∀ i ∈ a.idx, i < a.grid.positions.length) → a.idx ≠ [] →
          outcome (PredSystem.predict direct nets' a t) = .error .valueError := by
  obtain ⟨d, r, rows, h1, h2, h3, h4, h5⟩ := prepared cfg.useCurrent cfg.useVoltage true data hne hs hcur hvol
    (by rcases hsome with h | h <;> simp [h])
  have hw := prepared_width cfg true data hne rows h5
  simp only [if_true, Nat.add_zero] at hw
  let s0 : PredSystem P S :=
    { freshSystem params state cfg with pred := (Predictor.fresh params state cfg).trained (fitted r).1 (fitted r).2 }
  have hdim : s0.pred.contextDim = contexts cfg + 2 := contextDim_fresh params state cfg
  obtain ⟨s₁, hsave, hload⟩ := C80_round_trip_partial direct nets nets' s0 (net r) (hn r) dir 0
    (some (medianRow rows)) (by rw [hdim, Option.getD_some, hw])
  refine ⟨r, rows, medianRow rows, s₁, h3, h4, ?_, ?_, ?_, ?_, ?_⟩
  · intro i p hp
    obtain ⟨x, hx, hm⟩ := h5 i p hp
    exact ⟨x, hx, by rw [hm]; simp [contextOf]⟩
  · refine medianRow_areMedians (w := contexts cfg) (List.length_pos_iff.1 (by rw [h4]; exact List.length_pos_iff.2 hne)) ?_
    intro x hx
    obtain ⟨i, hi⟩ := List.getElem?_of_mem hx
    have hil : i < data.length := by rw [← h4]; exact (List.getElem?_eq_some_iff.1 hi).1
    obtain ⟨x', hx', hm⟩ := h5 i _ (List.getElem?_eq_getElem hil)
    rw [hi] at hx'
    cases hx'
    rw [← List.length_map (f := some), hm]
    obtain ⟨v, c⟩ := cfg
    cases v <;> cases c <;> rfl
  · simp only [trainAndSave]
    have e1 : prepareData (freshSystem params state cfg : PredSystem P S).pred.cfg.useCurrent
      (freshSystem params state cfg : PredSystem P S).pred.cfg.useVoltage true data = .ok d := h1
    simp only [e1, h2, h3]
    have e2 : (medianRow rows).length + 2 = (freshSystem params state cfg : PredSystem P S).pred.contextDim := by
      rw [hw]; exact (contextDim_fresh params state cfg).symm
    rw [networksFor, if_pos e2]
    exact hsave
  · intro q lp hq
    obtain ⟨t, e1, -, e2, -, e3⟩ := hload q [] (by simp) lp false
    refine ⟨t, e1, fun a => ?_⟩
    have e4 : t.pred.cfg = ⟨false, false⟩ := e2.trans hq
    rw [e3 a, e4]
    rfl
  · intro q lp
    obtain ⟨t, e1, -, e2, -, e3⟩ := hload q [] (by simp) lp true
    refine ⟨t, e1, fun a hi hne => ?_⟩
    have e4 : t.pred.cfg = cfg := e2
    rw [e3 a, e4, predictionOf]
    exact C70_default_raises _ _ _ _ _ _ _ hsome.symm hi hne

/-- Saving a model that cannot be traced raises after the checkpoint is written. -/
theorem save_untraced (nets : P → S → List (List ℝ → List ℝ)) (s : PredSystem P S)
    (hn : ∀ net, nets s.pred.params s.pred.state ≠ [net]) (dir : String) (step : ℕ) (fixed : Option (List ℝ)) :
    ∃ s₁, PredSystem.save nets dir step fixed s = .error .valueError s₁ ∧ (s₁.disk dir).model = (s.disk dir).model := by
  unfold PredSystem.save Predictor.package
  by_cases h : s.pred.contextDim < (fixed.getD []).length
  · simp only [h, if_true]
    exact ⟨_, rfl, by simp [Disk.put]⟩
  · have ht : ∀ m : Packaged, m.traced = none → m.trace (nets s.pred.params s.pred.state) = .error .valueError := by
      intro m hm
      unfold Packaged.trace
      rw [hm]
      match h : nets s.pred.params s.pred.state with
      | [] => rfl
      | [net] => exact absurd h (hn net)
      | _ :: _ :: _ => rfl
    simp only [h, if_false, ht ⟨fixed.getD [], s.pred.contextDim - (fixed.getD []).length, none, false⟩ rfl]
    exact ⟨_, rfl, by simp [Disk.put]⟩

/-- The classification network cannot be saved after its training, and nor can several rate networks that were
not distilled: no model is written. -/
theorem C114_unsaved (nets : P → S → List (List ℝ → List ℝ)) (fitted : RateData → P × S) (params : P) (state : S)
    (cfg : PredictorCfg) (rateNetwork : Bool) (data : List DataPoint) (hne : data ≠ [])
    (hs : ∀ p ∈ data, p.nextState ≤ 3) (hcur : cfg.useCurrent = true → ∀ p ∈ data, p.current.isSome)
    (hvol : cfg.useVoltage = true → ∀ p ∈ data, p.voltage.isSome) (dir : String)
    (h : rateNetwork = false ∨ (cfg.useCurrent = true ∨ cfg.useVoltage = true) ∧
      ∀ r, (nets (fitted r).1 (fitted r).2).length ≠ 1) :
    ∃ s₁, trainAndSave nets fitted rateNetwork data dir (freshSystem params state cfg) = .error .valueError s₁ ∧
      (s₁.disk dir).model = none := by
  obtain ⟨d, r, rows, h1, h2, h3, -, h5⟩ := prepared cfg.useCurrent cfg.useVoltage rateNetwork data hne hs hcur hvol
    (by rcases h with h | ⟨h | h, -⟩ <;> simp [h])
  have hw := prepared_width cfg rateNetwork data hne rows h5
  have e1 : prepareData (freshSystem params state cfg : PredSystem P S).pred.cfg.useCurrent
    (freshSystem params state cfg : PredSystem P S).pred.cfg.useVoltage rateNetwork data = .ok d := h1
  have hdim : (freshSystem params state cfg : PredSystem P S).pred.contextDim = contexts cfg + 2 :=
    contextDim_fresh params state cfg
  simp only [trainAndSave, e1, h2, h3, hdim]
  refine save_untraced _ _ ?_ dir 0 _
  intro net hc
  rw [hw] at hc
  rcases h with rfl | ⟨-, h⟩
  · rw [networksFor, if_neg (by simp)] at hc
    cases hc
  · by_cases hd : contexts cfg + (if rateNetwork then 0 else 1) + 2 = contexts cfg + 2
    · rw [networksFor, if_pos hd] at hc
      exact h r (by simpa [Predictor.trained] using congrArg List.length hc)
    · rw [networksFor, if_neg hd] at hc
      cases hc

/-- A rate network for the beam's position alone, which the script offers, cannot be trained by it. -/
theorem C114_no_context (nets : P → S → List (List ℝ → List ℝ)) (fitted : RateData → P × S) (params : P) (state : S)
    (data : List DataPoint) (hne : data ≠ []) (hs : ∀ p ∈ data, p.nextState ≤ 3) (dir : String) :
    trainAndSave nets fitted true data dir (freshSystem params state ⟨false, false⟩) =
      .error .typeError (freshSystem params state ⟨false, false⟩) := by
  obtain ⟨d, r, h1, h2, -, -, hc, -⟩ := C86_accepted false false false data hne hs (by simp) (by simp)
  have hn : r.context = none := by
    cases h : r.context with
    | none => rfl
    | some c => rw [h] at hc; simp at hc
  have e1 : prepareData (freshSystem params state ⟨false, false⟩ : PredSystem P S).pred.cfg.useCurrent
      (freshSystem params state ⟨false, false⟩ : PredSystem P S).pred.cfg.useVoltage true data = .ok d := by
    change prepareData false false true data = _
    simp only [prepareData, Bool.not_true, h1, StackedData.forLearner, if_true]
  simp only [trainAndSave, e1, h2, hn]

/-- The hypotheses of `C114_network_partial`, `C114_unsaved` and `C114_no_context`. -/
example : stackExample ≠ [] ∧ (∀ p ∈ stackExample, p.nextState ≤ 3 ∧ p.current.isSome ∧ p.voltage.isSome) ∧
    (∀ r : RateData, (fun (w : ℝ) (_ : Unit) => [fun x : List ℝ => x.map (w * ·)]) (r.dt.sum) () =
      [fun x => x.map (r.dt.sum * ·)]) ∧
    ∀ r : RateData, ((fun (w : ℝ) (_ : Unit) => [fun x : List ℝ => x.map (w * ·), fun x => x]) (r.dt.sum) ()).length ≠ 1 :=
  ⟨by simp [stackExample], by simp [stackExample], fun _ => rfl, fun _ => by simp⟩

end

end PD.Props
