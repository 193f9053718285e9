/- Properties of the training script up to the learner: C119, C120 and C121. -/
import Verif.Model.TrainScript
import Verif.Props.StackData
import Verif.Props.DataPoints
import Verif.Props.Augment
import Verif.Props.FramePictures
import Verif.Props.Records
set_option linter.unusedSectionVars false
set_option linter.unusedSimpArgs false

namespace PD.Props
open PD PD.Spec

/-! ### What a picture of data should show -/

/-- How the picture names a state. -/
def movement (s : ℤ) : String :=
  if s = 0 then "No movement" else if s = 1 then "Moved right" else if s = 2 then "Moved up-left"
  else "Moved down-left"

/-- All dots of a picture, each with the name of its series, its place and its opacity. -/
def dots (pic : DataPicture) : List (String × V2 ℝ × ℝ) :=
  pic.series.flatMap (fun s => (s.points.zip s.alphas).map (fun x => (s.label, x)))

/-- The picture shows each example, given by state, place and time, as one dot at its place, in the series of its
state and with its time, relative to the longest one, as opacity; no two series have the same name. -/
def IsPictureOf (examples : List (ℤ × V2 ℝ × ℝ)) (pic : DataPicture) : Prop :=
  ∃ longest, IsGreatest {t | ∃ e ∈ examples, e.2.2 = t} longest ∧
    (dots pic).Perm (examples.map (fun e => (movement e.1, e.2.1, e.2.2 / longest))) ∧
    (pic.series.map DataSeries.label).Nodup ∧ pic.silicon = ⟨0, 0⟩ ∧ pic.limits = (-5, 5)

theorem classes_perm {α : Type} (l : List α) (f : α → ℤ) (n : ℕ) (h : ∀ x ∈ l, 0 ≤ f x ∧ f x < n) :
    ((List.range n).flatMap (fun k : ℕ => l.filter (fun x => decide (f x = (k : ℤ))))).Perm l := by
  induction n generalizing l with
  | zero =>
    cases l with
    | nil => simp
    | cons x l => have := h x (by simp); omega
  | succ n ih =>
    rw [List.range_succ, List.flatMap_append]
    simp only [List.flatMap_cons, List.flatMap_nil, List.append_nil]
    have h1 := ih (l.filter (fun x => !decide (f x = (n : ℤ)))) (by
      intro x hx
      simp only [List.mem_filter, Bool.not_eq_true', decide_eq_false_iff_not] at hx
      have := h x hx.1
      push_cast at this
      omega)
    have h2 : ((List.range n).flatMap (fun k : ℕ => (l.filter (fun x => !decide (f x = (n : ℤ)))).filter
        (fun x => decide (f x = (k : ℤ))))) = (List.range n).flatMap (fun k : ℕ => l.filter (fun x => decide (f x = (k : ℤ)))) := by
      apply List.flatMap_congr
      intro k hk
      have hkn := List.mem_range.1 hk
      rw [List.filter_filter]
      apply List.filter_congr
      intro x _
      by_cases hx : f x = (k : ℤ)
      · have : (k : ℤ) ≠ n := by omega
        simp [hx, this]
      · simp [hx]
    rw [h2] at h1
    refine (h1.append_right _).trans ?_
    exact (List.perm_append_comm).trans (List.filter_append_perm _ l)

theorem maskSelect_examples {α β : Type} (ex : List α) (p : α → Bool) (g : α → β) :
    maskSelect (ex.map p) (ex.map g) = (ex.filter p).map g := by
  induction ex with
  | nil => rfl
  | cons x ex ih => by_cases h : p x <;> simp [maskSelect, h, ih]

/-- The series of a state. -/
noncomputable def seriesOf (ex : List (ℤ × V2 ℝ × ℝ)) (longest : ℝ) (i : ℕ) : Option DataSeries :=
  let members := ex.filter (fun e => decide (e.1 = (i : ℤ)))
  if members = [] then none
  else some ⟨movement i, members.map (fun e => e.2.1), members.map (fun e => e.2.2 / longest)⟩

theorem stateLabel_movement {i : ℕ} (h : i ≤ 3) : stateLabel i = .ok (movement i) := by
  interval_cases i <;> rfl

theorem dataSeries_ok {ex : List (ℤ × V2 ℝ × ℝ)} {longest : ℝ} {i : ℕ} (hi : i ≤ 3)
    (hmax : greatestOf (ex.map (fun e => e.2.2)) = .ok longest) (hpos : 0 < longest)
    (hall : ∀ e ∈ ex, 0 ≤ e.2.2 ∧ e.2.2 ≤ longest) :
    dataSeries (ex.map (fun e => e.1)) (ex.map (fun e => e.2.1)) (ex.map (fun e => e.2.2)) i =
      .ok (seriesOf ex longest i) := by
  unfold dataSeries seriesOf
  simp only [List.map_map, List.length_map, ne_eq, not_true_eq_false, if_false, maskSelect_examples,
    List.map_eq_nil_iff, Function.comp_def]
  by_cases hm : ex.filter (fun e => decide (e.1 = (i : ℤ))) = []
  · simp only [hm, if_true]
  · simp only [hm, if_false, stateLabel_movement hi, hmax, opacities, hpos.ne', List.map_map]
    rw [if_pos]
    · rfl
    · rw [List.all_eq_true]
      intro a ha
      simp only [List.mem_map, Function.comp_apply, List.mem_filter] at ha
      obtain ⟨e, ⟨he, -⟩, rfl⟩ := ha
      obtain ⟨h1, h2⟩ := hall e he
      simp [div_nonneg h1 hpos.le, (div_le_one hpos).2 h2]

theorem visualizeData_ok {ex : List (ℤ × V2 ℝ × ℝ)} (hs : ∀ e ∈ ex, 0 ≤ e.1 ∧ e.1 ≤ 3)
    (ht : ∀ e ∈ ex, 0 ≤ e.2.2) (hp : ∃ e ∈ ex, 0 < e.2.2) :
    ∃ pic, visualizeData (ex.map (fun e => e.1)) (ex.map (fun e => e.2.1)) (ex.map (fun e => e.2.2)) 3 = .ok pic ∧
      IsPictureOf ex pic := by
  obtain ⟨e0, he0, hpos0⟩ := hp
  obtain ⟨longest, hl, hg⟩ := greatestOf_ok (xs := ex.map (fun e => e.2.2)) (by
    intro h; rw [List.map_eq_nil_iff] at h; rw [h] at he0; cases he0)
  have hall : ∀ e ∈ ex, 0 ≤ e.2.2 ∧ e.2.2 ≤ longest :=
    fun e he => ⟨ht e he, hg.2 (List.mem_map.2 ⟨e, he, rfl⟩)⟩
  have hpos : 0 < longest := hpos0.trans_le (hall e0 he0).2
  have hser := fun i hi => dataSeries_ok (i := i) hi hl hpos hall
  have hrun : visualizeData (ex.map (fun e => e.1)) (ex.map (fun e => e.2.1)) (ex.map (fun e => e.2.2)) 3 =
      .ok ⟨(List.range 4).filterMap (seriesOf ex longest), ⟨0, 0⟩, (-5, 5)⟩ := by
    unfold visualizeData
    simp only [List.range_succ, List.range_zero, List.nil_append, List.cons_append, List.mapM_cons, List.mapM_nil,
      hser 0 (by omega), hser 1 (by omega), hser 2 (by omega), hser 3 (by omega), bind, Except.bind, pure, Except.pure]
    have : List.filterMap id ([0, 1, 2, 3].map (seriesOf ex longest)) = List.filterMap (seriesOf ex longest) [0, 1, 2, 3] := by
      rw [List.filterMap_map]; rfl
    rw [← this]
    rfl
  refine ⟨_, hrun, longest, ?_, ?_, ?_, rfl, rfl⟩
  · constructor
    · obtain ⟨e, he, h⟩ := List.mem_map.1 hg.1
      exact ⟨e, he, h⟩
    · rintro t ⟨e, he, rfl⟩
      exact (hall e he).2
  · have hd : dots ⟨(List.range 4).filterMap (seriesOf ex longest), ⟨0, 0⟩, (-5, 5)⟩ =
        (((List.range 4).flatMap (fun k : ℕ => ex.filter (fun e => decide (e.1 = (k : ℤ))))).map
          (fun e => (movement e.1, e.2.1, e.2.2 / longest))) := by
      rw [List.map_flatMap]
      unfold dots
      simp only
      generalize List.range 4 = l
      induction l with
      | nil => rfl
      | cons k l ih =>
        rw [List.flatMap_cons, ← ih, List.filterMap_cons]
        have hk : ∀ e ∈ ex.filter (fun e => decide (e.1 = (k : ℤ))), e.1 = (k : ℤ) := by
          intro e he; simpa using (List.mem_filter.1 he).2
        unfold seriesOf
        by_cases hm : ex.filter (fun e => decide (e.1 = (k : ℤ))) = []
        · simp only [hm, if_true]; rfl
        · simp only [hm, if_false, List.flatMap_cons]
          congr 1
          rw [List.zip_map', List.map_map]
          apply List.map_congr_left
          intro e he
          simp only [Function.comp_apply, hk e he]
    rw [hd]
    refine List.Perm.map _ (classes_perm ex (fun e => e.1) 4 ?_)
    intro e he
    have := hs e he
    push_cast
    omega
  · have : ((List.range 4).filterMap (seriesOf ex longest)).map DataSeries.label =
        ((List.range 4).filter (fun i => (seriesOf ex longest i).isSome)).map (fun i : ℕ => movement i) := by
      generalize List.range 4 = l
      induction l with
      | nil => rfl
      | cons k l ih =>
        rw [List.filterMap_cons, List.filter_cons]
        cases hk : seriesOf ex longest k with
        | none => simpa [hk] using ih
        | some s =>
          have : s.label = movement k := by
            unfold seriesOf at hk
            simp only at hk
            split_ifs at hk
            cases hk
            rfl
          simp [hk, ih, this]
    show (((List.range 4).filterMap (seriesOf ex longest)).map DataSeries.label).Nodup
    rw [this]
    have hnd : ((List.range 4).map (fun i : ℕ => movement i)).Nodup := by decide
    exact hnd.sublist (List.filter_sublist.map _)

/-! ### Data points -/

section
variable {Img : Type}

theorem checkBefore_four {knn : Knn ℝ} {before : Grid ℝ} {si : V2 ℝ} {nbrs : List (V2 ℝ)}
    (h : checkBefore knn before si = .ok (.inr nbrs)) : nbrs.length = 4 := by
  unfold checkBefore at h
  repeat' split at h
  all_goals first
    | (cases h; done)
    | skip
  dsimp only at h
  split_ifs at h <;> first | (cases h; done) | skip
  simp only [Except.ok.injEq, Sum.inr.injEq] at h
  rw [← h, List.length_take]
  omega

theorem standardize_order {beam : V2 ℝ} {nbrs : List (V2 ℝ)} {r : V2 ℝ × List (V2 ℝ) × List ℕ}
    (h : standardize beam nbrs = .ok r) : r.2.2.Perm (List.range nbrs.length) := by
  unfold standardize at h
  split at h
  · cases h
  · dsimp only at h
    split at h
    · cases h
    · rename_i a _
      rw [Except.ok.injEq] at h
      rw [← h]
      simpa [getAngles] using argsort_perm ((getAngles nbrs).map (fun t => pyMod (t + -a) (2 * Real.pi)))

/-- The values given to `plot_transition` exist for every transition that is kept. -/
theorem kept_arguments {knn : Knn ℝ} {cutoff : ℝ} {t : Transition ℝ Img} {d : DataPoint}
    (h : datapointOf knn cutoff t = .ok (.inr d)) :
    d.nextState ≤ 3 ∧ (∃ c, t.controls = [c]) ∧ ∃ si siAfter nbrs order,
      plotArguments knn cutoff t = .ok (si, siAfter, nbrs, order) ∧ nbrs.length = 4 ∧ order.Perm (List.range 3) := by
  unfold datapointOf at h
  unfold plotArguments
  split at h
  · rename_i c hc
    dsimp only at h
    split at h
    · rename_i si hsi
      split at h
      · cases h
      · cases h
      · rename_i nbrs hnb
        split at h
        · cases h
        · cases h
        · rename_i siAfter hsa
          split at h
          · cases h
          · rename_i d' hd
            simp only [Except.ok.injEq, Sum.inr.injEq] at h
            subst h
            have hl := checkBefore_four hnb
            unfold makeDataPoint at hd
            dsimp only at hd
            split at hd
            · cases hd
            · rename_i beam' rot order hst
              have hperm := standardize_order hst
              have hl3 : ((nbrs.map (fun p => p - si)).drop 1).length = 3 := by simp [hl]
              rw [hl3] at hperm
              refine ⟨?_, ⟨c, hc⟩, si, siAfter, nbrs, order, ?_, hl, hperm⟩
              · split at hd
                · cases hd
                · cases hd; simp
                · split at hd
                  · cases hd
                  · rename_i k rank hr
                    have hm := (argsort_perm order).mem_iff.1 (List.mem_of_getElem? hr)
                    rw [hperm.length_eq, List.length_range, List.mem_range] at hm
                    cases hd
                    simp only
                    omega
              · simp only [hc, hsi, hnb, hsa, hst]
    · cases h
  · cases h

theorem loop_plain (knn : Knn ℝ) (cutoff : ℝ) (height : Img → ℕ) (plots : OsPath) (ts : List (Transition ℝ Img))
    (data : List DataPoint) (counters : Counters) (s : ScriptDisk Img) :
    datapointsLoop knn cutoff false height plots ts data counters s =
      match transitionsToDatapoints knn cutoff ts data counters with
      | .error e => .error e s
      | .ok r => .ok r s := by
  induction ts generalizing data counters with
  | nil => rfl
  | cons t ts ih =>
    rw [datapointsLoop, transitionsToDatapoints]
    cases datapointOf knn cutoff t with
    | error e => rfl
    | ok r =>
      cases r with
      | inl x => exact ih _ _
      | inr d =>
        simp only [Bool.false_eq_true, if_false]
        rw [← ih]

theorem kept_states {knn : Knn ℝ} {cutoff : ℝ} {ts : List (Transition ℝ Img)} {data : List DataPoint} {counters : Counters}
    (h : transitionsToDatapoints knn cutoff ts [] {} = .ok (data, counters)) : ∀ p ∈ data, p.nextState ≤ 3 := by
  obtain ⟨⟨outcomes, h1, rfl, -⟩, -⟩ := C42_accounting knn cutoff ts data counters h
  intro p hp
  obtain ⟨r, hr, hrp⟩ := List.mem_filterMap.1 hp
  cases r with
  | inl x => cases hrp
  | inr d =>
    simp only [Sum.getRight?_inr, Option.some.injEq] at hrp
    subst hrp
    obtain ⟨i, hi⟩ := List.getElem?_of_mem hr
    obtain ⟨hl, hall⟩ := List.forall₂_iff_get.1 h1
    have hil := (List.getElem?_eq_some_iff.1 hi).1
    have := hall i (by omega) hil
    rw [List.get_eq_getElem, List.get_eq_getElem, (List.getElem?_eq_some_iff.1 hi).2] at this
    exact (kept_arguments this).1

/-! ### The arrays and their copies -/

/-- The examples of some arrays: state, place and time. -/
def examplesOf (d : RateData) : List (ℤ × V2 ℝ × ℝ) := d.states.zip (d.position.zip d.dt)

theorem examplesOf_maps {d : RateData} {n : ℕ} (h : HasSize d n) :
    (examplesOf d).map (fun e => e.1) = d.states ∧ (examplesOf d).map (fun e => e.2.1) = d.position ∧
      (examplesOf d).map (fun e => e.2.2) = d.dt := by
  obtain ⟨h1, h2, -, h3, -⟩ := h
  refine ⟨List.map_fst_zip (by simp [h1, h2, h3]), ?_, ?_⟩
  · have : (examplesOf d).map (fun e => e.2.1) = ((examplesOf d).map Prod.snd).map Prod.fst := by
      rw [List.map_map]; rfl
    rw [this, examplesOf, List.map_snd_zip (by simp [h1, h2, h3]), List.map_fst_zip (by simp [h2, h3])]
  · have : (examplesOf d).map (fun e => e.2.2) = ((examplesOf d).map Prod.snd).map Prod.snd := by
      rw [List.map_map]; rfl
    rw [this, examplesOf, List.map_snd_zip (by simp [h1, h2, h3]), List.map_snd_zip (by simp [h2, h3])]

theorem row_entries {d : RateData} {i : ℕ} {p : RatePoint} (h : row d i = some p) :
    d.states[i]? = some p.state ∧ d.dt[i]? = some p.dt ∧ d.rates[i]? = some p.rates ∧ d.position[i]? = some p.position := by
  unfold row at h
  split at h
  · rename_i h1 h2 h3 h4
    split at h
    · cases h; exact ⟨h1, h2, h3, h4⟩
    · rw [Option.map_eq_some_iff] at h
      obtain ⟨c, -, rfl⟩ := h
      exact ⟨h1, h2, h3, h4⟩
  · cases h

theorem augmented_rows {n : ℕ} {d d' : RateData} (hn : HasSize d n) (hv : ∀ i p, row d i = some p → Valid 3 p)
    (h : augmentData true 3 d = .ok d') : HasSize d' (6 * n) ∧ (∀ j < 6 * n, ∃ p', row d' j = some p' ∧ Valid 3 p' ∧
      ∃ i p, row d i = some p ∧ p'.dt = p.dt) ∧ ∀ i p, row d i = some p → ∃ j p', row d' j = some p' ∧ p'.dt = p.dt := by
  obtain ⟨d'', h1, h2, h3⟩ := C43_augment n d hn hv
  rw [h, Except.ok.injEq] at h1
  subst h1
  refine ⟨h2, ?_, ?_⟩
  · intro j hj
    by_cases hjn : j / 3 < n
    · obtain ⟨p, hp⟩ := Option.isSome_iff_exists.1 ((hasSize_row hn (j / 3)).2 hjn)
      obtain ⟨p', e1, e2, e3⟩ := (h3 _ p hp (j % 3) (Nat.mod_lt _ (by norm_num))).1
      rw [Nat.div_add_mod] at e1
      exact ⟨p', e1, e2, _, p, hp, e3.dt⟩
    · obtain ⟨p, hp⟩ := Option.isSome_iff_exists.1 ((hasSize_row hn (j / 3 - n)).2 (by omega))
      obtain ⟨p', e1, e2, e3⟩ := (h3 _ p hp (j % 3) (Nat.mod_lt _ (by norm_num))).2
      have : 3 * (n + (j / 3 - n)) + j % 3 = j := by omega
      rw [this] at e1
      exact ⟨p', e1, e2, _, p, hp, e3.dt⟩
  · intro i p hp
    obtain ⟨p', e1, e2, e3⟩ := (h3 _ p hp 0 (by norm_num)).1
    exact ⟨_, p', e1, e3.dt⟩

/-- The dwell times that the pictures are made of. -/
noncomputable def shownTime (rateNetwork : Bool) (p : DataPoint) : ℝ := if rateNetwork then p.secondsBetween else 1

theorem prepareData_fields (useCurrent useVoltage rateNetwork : Bool) {data : List DataPoint} (hne : data ≠ []) :
    ∃ d, prepareData useCurrent useVoltage rateNetwork data = .ok d ∧ d.nextState = data.map DataPoint.nextState ∧
      d.position = data.map DataPoint.beamPos ∧ d.dt = data.map (shownTime rateNetwork) := by
  unfold prepareData stackData
  simp only [hne, if_false]
  have hone : List.map (shownTime false) data = data.map (fun _ => 1) := rfl
  have hsame : List.map (shownTime true) data = data.map DataPoint.secondsBetween := rfl
  refine ⟨_, rfl, ?_, ?_, ?_⟩ <;> cases rateNetwork <;>
    simp [StackedData.forLearner, hone, hsame, Function.comp_def]

theorem toRateData_fields {d : StackedData} {r : RateData} (h : d.toRateData = .ok r) :
    r.states = d.nextState.map (fun s : ℕ => (s : ℤ)) ∧ r.position = d.position ∧ r.dt = d.dt := by
  unfold StackedData.toRateData at h
  dsimp only at h
  split at h
  · cases h; exact ⟨rfl, rfl, rfl⟩
  · split at h
    · cases h
    · cases h; exact ⟨rfl, rfl, rfl⟩

theorem prepared_arrays (useCurrent useVoltage rateNetwork : Bool) {data : List DataPoint} (hne : data ≠ [])
    (hs : ∀ p ∈ data, p.nextState ≤ 3) (hcur : useCurrent = true → ∀ p ∈ data, p.current.isSome)
    (hvol : useVoltage = true → ∀ p ∈ data, p.voltage.isSome) :
    ∃ d r, prepareData useCurrent useVoltage rateNetwork data = .ok d ∧ d.toRateData = .ok r ∧
      HasSize r data.length ∧ ∀ i q, row r i = some q → Valid 3 q := by
  obtain ⟨d, r, h1, h2, hsz, hval, -, -⟩ := C86_accepted useCurrent useVoltage (!rateNetwork) data hne hs hcur hvol
  have h3 : (d.forLearner rateNetwork).toRateData = .ok { r with dt := (d.forLearner rateNetwork).dt } := by
    unfold StackedData.toRateData StackedData.forLearner at *
    cases rateNetwork with
    | true =>
      simp only [if_true]
      rw [h2]
      dsimp only at h2
      split at h2
      · cases h2; rfl
      · split at h2
        · cases h2
        · cases h2; rfl
    | false =>
      simp only [Bool.false_eq_true, if_false]
      dsimp only at h2
      cases hc : d.context with
      | none => simp only [hc] at h2; cases h2; rfl
      | some rows =>
        simp only [hc] at h2
        cases hm : rows.mapM plainRow with
        | error e => rw [hm] at h2; cases h2
        | ok cs => rw [hm] at h2; cases h2; simp only [hm]
  have hlen : (d.forLearner rateNetwork).dt.length = data.length := by
    have : d.dt = r.dt := (toRateData_fields h2).2.2.symm
    unfold StackedData.forLearner
    split_ifs
    · rw [this]; exact hsz.2.1
    · simp only [List.length_map, this]; exact hsz.2.1
  refine ⟨_, _, by simp only [prepareData, h1], h3, ⟨hsz.1, hlen, hsz.2.2.1, hsz.2.2.2.1, hsz.2.2.2.2⟩, ?_⟩
  intro i q hq
  obtain ⟨e1, -, e3, -⟩ := row_entries hq
  have hi : i < data.length := by
    have := (List.getElem?_eq_some_iff.1 e1).1
    rw [← hsz.1]; exact this
  obtain ⟨q0, hq0⟩ := Option.isSome_iff_exists.1 ((hasSize_row hsz i).2 hi)
  obtain ⟨f1, -, f3, -⟩ := row_entries hq0
  have hv := hval i q0 hq0
  have g1 : q.state = q0.state := Option.some.inj (e1.symm.trans f1)
  have g3 : q.rates = q0.rates := Option.some.inj (e3.symm.trans f3)
  exact ⟨by rw [g3]; exact hv.1, by rw [g1]; exact hv.2.1, by rw [g1]; exact hv.2.2⟩

/-! ### The script -/

theorem locate_file (s : ScriptDisk Img) (w : OsPath) (n : String) :
    s.locate (w.join (.file n)) = s.locate w ++ [n] := by
  unfold ScriptDisk.locate OsPath.join OsPath.file
  cases w.abs <;> simp

theorem locate_makeDirs (s : ScriptDisk Img) (p q : OsPath) : (s.makeDirs p).locate q = s.locate q := rfl

/-- What the script does when transitions are not drawn and the data can be used: the first picture is written, and
the learner is reached unless the second cannot be. -/
theorem script_runs (knn : Knn ℝ) (height : Img → ℕ) (args : ScriptArgs)
    (trajectories : List (List (Observation ℝ Img))) (s : ScriptDisk Img) (data : List DataPoint) (counters : Counters)
    (hplot : args.plotTransitions = false)
    (hdata : transitionsToDatapoints knn args.cutoff (trajectoriesToTransitions args.previousControls trajectories) [] {} =
      .ok (data, counters)) (hne : data ≠ [])
    (hcur : args.useCurrent = true → ∀ p ∈ data, p.current.isSome)
    (hvol : args.useVoltage = true → ∀ p ∈ data, p.voltage.isSome)
    (hnn : ∀ p ∈ data, 0 ≤ shownTime args.rateNetwork p) (hpos : ∃ p ∈ data, 0 < shownTime args.rateNetwork p) :
    ∃ stacked arrays augmented raw aug,
      prepareData args.useCurrent args.useVoltage args.rateNetwork data = .ok stacked ∧
      stacked.toRateData = .ok arrays ∧ augmentData true 3 arrays = .ok augmented ∧
      HasSize arrays data.length ∧ (∀ i q, row arrays i = some q → Valid 3 q) ∧
      IsPictureOf (data.map (fun p => ((p.nextState : ℤ), p.beamPos, shownTime args.rateNetwork p))) raw ∧
      IsPictureOf (examplesOf augmented) aug ∧
      let s2 : ScriptDisk Img := { (s.makeDirs (args.workdir.join (.file "data_plots"))) with
        written := s.written ++ [(s.locate args.workdir ++ ["raw_data.png"], .data raw)] }
      scriptData knn height args trajectories s =
        match s2.save (args.workdir.join (args.workdir.join (.file "augmented_data.png"))) (.data aug) with
        | .error e => .error e s2
        | .ok s3 => .ok ⟨(List.range 4).map (fun k => (data.filter (fun d => decide (d.nextState = k))).length),
            stacked, augmented⟩ s3 := by
  have hs := kept_states hdata
  obtain ⟨d, f1, f2, f3, f4⟩ := prepareData_fields args.useCurrent args.useVoltage args.rateNetwork hne
  obtain ⟨d', r, g1, g2, g3, g4⟩ := prepared_arrays args.useCurrent args.useVoltage args.rateNetwork hne hs hcur hvol
  rw [f1, Except.ok.injEq] at g1
  subst g1
  obtain ⟨augmented, a1, -, -⟩ := C43_augment _ r g3 g4
  obtain ⟨b1, b2, b3⟩ := augmented_rows g3 g4 a1
  obtain ⟨c1, c2, c3⟩ := examplesOf_maps b1
  -- the first picture
  obtain ⟨raw, r1, r2⟩ := visualizeData_ok
    (ex := data.map (fun p => ((p.nextState : ℤ), p.beamPos, shownTime args.rateNetwork p)))
    (by
      intro e he
      obtain ⟨p, hp, rfl⟩ := List.mem_map.1 he
      have := hs p hp
      exact ⟨Int.natCast_nonneg _, Int.ofNat_le.2 this⟩)
    (by
      intro e he
      obtain ⟨p, hp, rfl⟩ := List.mem_map.1 he
      exact hnn p hp)
    (by
      obtain ⟨p, hp, h⟩ := hpos
      exact ⟨_, List.mem_map.2 ⟨p, hp, rfl⟩, h⟩)
  simp only [List.map_map, Function.comp_def] at r1
  -- the second picture
  have hrdt : ∀ i p, row r i = some p → 0 ≤ p.dt := by
    intro i p hp
    have := List.mem_of_getElem? (row_entries hp).2.1
    rw [(toRateData_fields g2).2.2, f4] at this
    obtain ⟨x, hx, hxe⟩ := List.mem_map.1 this
    rw [← hxe]
    exact hnn x hx
  have hex : ∀ e ∈ examplesOf augmented, ∃ j p, row augmented j = some p ∧ e.1 = p.state ∧ e.2.2 = p.dt ∧ j < 6 * data.length := by
    intro e he
    obtain ⟨j, hj⟩ := List.getElem?_of_mem he
    have e1 : augmented.states[j]? = some e.1 := by rw [← c1, List.getElem?_map, hj]; rfl
    have e2 : augmented.dt[j]? = some e.2.2 := by rw [← c3, List.getElem?_map, hj]; rfl
    have hjl : j < 6 * data.length := by rw [← b1.1]; exact (List.getElem?_eq_some_iff.1 e1).1
    obtain ⟨p, hp⟩ := Option.isSome_iff_exists.1 ((hasSize_row b1 j).2 hjl)
    obtain ⟨p1, p2, -, -⟩ := row_entries hp
    exact ⟨j, p, hp, Option.some.inj (e1.symm.trans p1), Option.some.inj (e2.symm.trans p2), hjl⟩
  obtain ⟨aug, u1, u2⟩ := visualizeData_ok (ex := examplesOf augmented)
    (by
      intro e he
      obtain ⟨j, p, hp, h1, -, hjl⟩ := hex e he
      obtain ⟨p', hp', hv, -⟩ := b2 j hjl
      rw [hp, Option.some.injEq] at hp'
      subst hp'
      rw [h1]
      exact ⟨hv.2.1, by exact_mod_cast hv.2.2⟩)
    (by
      intro e he
      obtain ⟨j, p, hp, -, h2, hjl⟩ := hex e he
      obtain ⟨p', hp', -, i, q, hq, hdt⟩ := b2 j hjl
      rw [hp, Option.some.injEq] at hp'
      subst hp'
      rw [h2, hdt]
      exact hrdt i q hq)
    (by
      obtain ⟨p, hp, h⟩ := hpos
      have hm : shownTime args.rateNetwork p ∈ r.dt := by
        rw [(toRateData_fields g2).2.2, f4]; exact List.mem_map.2 ⟨p, hp, rfl⟩
      obtain ⟨i, hi⟩ := List.getElem?_of_mem hm
      have hil : i < data.length := by rw [← g3.2.1]; exact (List.getElem?_eq_some_iff.1 hi).1
      obtain ⟨q, hq⟩ := Option.isSome_iff_exists.1 ((hasSize_row g3 i).2 hil)
      have hqd : q.dt = shownTime args.rateNetwork p := Option.some.inj ((row_entries hq).2.1.symm.trans hi)
      obtain ⟨j, p', hp', hd'⟩ := b3 i q hq
      have : p'.dt ∈ (examplesOf augmented).map (fun e => e.2.2) := by
        rw [c3]; exact List.mem_of_getElem? (row_entries hp').2.1
      obtain ⟨e, he, hee⟩ := List.mem_map.1 this
      exact ⟨e, he, by rw [hee, hd', hqd]; exact h⟩)
  rw [c1, c2, c3] at u1
  refine ⟨d, r, augmented, raw, aug, f1, g2, a1, g3, g4, r2, u2, ?_⟩
  have hcount : countStates data = .ok ((List.range 4).map (fun k => (data.filter (fun d => decide (d.nextState = k))).length)) := by
    unfold countStates
    rw [if_pos]
    rw [List.all_eq_true]
    intro p hp
    simpa using hs p hp
  have hdir : (s.locate (args.workdir.join (.file "raw_data.png"))).dropLast ∈
      (s.makeDirs (args.workdir.join (.file "data_plots"))).dirs := by
    rw [locate_file, List.dropLast_concat]
    refine List.mem_append.2 (.inr ?_)
    rw [List.mem_inits, locate_file]
    exact List.prefix_append _ _
  dsimp only
  have r1' : visualizeData (d.nextState.map (fun s : ℕ => (s : ℤ))) d.position d.dt 3 = .ok raw := by
    rw [f2, f3, f4, List.map_map]; exact r1
  have hsave : (s.makeDirs (args.workdir.join (.file "data_plots"))).save (args.workdir.join (.file "raw_data.png"))
      (.data raw) = .ok { (s.makeDirs (args.workdir.join (.file "data_plots"))) with
        written := s.written ++ [(s.locate args.workdir ++ ["raw_data.png"], .data raw)] } := by
    unfold ScriptDisk.save
    rw [locate_makeDirs, if_pos hdir, locate_file]
    rfl
  unfold scriptData
  simp only [bind, EStateM.bind, modify, modifyGet, MonadStateOf.modifyGet, EStateM.modifyGet, hplot, loop_plain, hdata,
    hcount, pureStep, f1, pure, EStateM.pure, saveDataPicture, r1', hsave, g2, a1, u1]
  cases ScriptDisk.save _ (args.workdir.join (args.workdir.join (.file "augmented_data.png"))) (.data aug) <;> rfl

/-! ### C119 -/

/-- C119: with an absolute working directory, or `.`, the script for a rate network reaches the learner and leaves
exactly two pictures, both in the working directory: one of the data points, one of their symmetric copies, which
show every example once with its state, place and dwell time relative to the longest.  The learner gets the data points
(`C86_accepted`), the distillation their copies (`C43_augment`), and the counts printed are those of the four states.
Missing from the full claim: other working directories (`C119_relative`), other learners (`C119_other_learners`) and
data without dwell times (`C119_no_dwell_times`). -/
theorem C119_pictures_partial (knn : Knn ℝ) (height : Img → ℕ) (args : ScriptArgs)
    (trajectories : List (List (Observation ℝ Img))) (s : ScriptDisk Img) (data : List DataPoint) (counters : Counters)
    (hplot : args.plotTransitions = false) (hrn : args.rateNetwork = true)
    (hw : args.workdir.abs = true ∨ args.workdir.parts = [])
    (hdata : transitionsToDatapoints knn args.cutoff (trajectoriesToTransitions args.previousControls trajectories) [] {} =
      .ok (data, counters)) (hne : data ≠ [])
    (hcur : args.useCurrent = true → ∀ p ∈ data, p.current.isSome)
    (hvol : args.useVoltage = true → ∀ p ∈ data, p.voltage.isSome)
    (hnn : ∀ p ∈ data, 0 ≤ p.secondsBetween) (hpos : ∃ p ∈ data, 0 < p.secondsBetween) :
    ∃ out s' arrays raw aug, scriptData knn height args trajectories s = .ok out s' ∧
      (∀ k < 4, out.counts[k]? = some (data.countP (fun p => decide (p.nextState = k)))) ∧
      stackData args.useCurrent args.useVoltage false 3 data = .ok out.stacked ∧
      out.stacked.toRateData = .ok arrays ∧ augmentData true 3 arrays = .ok out.augmented ∧
      s'.written = s.written ++ [(s.locate args.workdir ++ ["raw_data.png"], .data raw),
        (s.locate args.workdir ++ ["augmented_data.png"], .data aug)] ∧
      IsPictureOf (data.map (fun p => ((p.nextState : ℤ), p.beamPos, p.secondsBetween))) raw ∧
      IsPictureOf (examplesOf out.augmented) aug := by
  have hsh : shownTime args.rateNetwork = DataPoint.secondsBetween := by funext p; simp [shownTime, hrn]
  obtain ⟨stacked, arrays, augmented, raw, aug, h1, h2, h3, -, -, h6, h7, h8⟩ := script_runs knn height args trajectories s
    data counters hplot hdata hne hcur hvol (by rw [hsh]; exact hnn) (by rw [hsh]; exact hpos)
  dsimp only at h8
  have hloc : s.locate (args.workdir.join (args.workdir.join (.file "augmented_data.png"))) =
      s.locate args.workdir ++ ["augmented_data.png"] := by
    rcases hw with h | h
    · simp [ScriptDisk.locate, OsPath.join, OsPath.file, h]
    · rcases hb : args.workdir with ⟨b, parts⟩
      rw [hb] at h
      simp only at h
      subst h
      cases b <;> simp [ScriptDisk.locate, OsPath.join, OsPath.file]
  rw [ScriptDisk.save, if_pos] at h8
  · refine ⟨_, _, arrays, raw, aug, h8, ?_, ?_, h2, h3, ?_, by rw [hsh] at h6; exact h6, h7⟩
    · intro k hk
      simp only [List.getElem?_map, List.getElem?_range hk, Option.map_some, List.countP_eq_length_filter]
    · rw [hrn] at h1
      unfold prepareData at h1
      simp only [Bool.not_true] at h1
      split at h1
      · cases h1
      · rename_i d hd
        simp only [StackedData.forLearner, if_true, Except.ok.injEq] at h1
        rw [hd, h1]
    · simp only [List.append_assoc]
      congr 2
      change [_, (s.locate _, _)] = _
      rw [hloc]
  · change (s.locate _).dropLast ∈ (s.makeDirs (args.workdir.join (.file "data_plots"))).dirs
    rw [hloc, List.dropLast_concat]
    refine List.mem_append.2 (.inr ?_)
    rw [List.mem_inits, locate_file]
    exact List.prefix_append _ _

/-- C119 fails for other learners: the script reaches the learner, but every dot of its pictures is fully opaque, whatever the
dwell times. -/
theorem C119_other_learners (knn : Knn ℝ) (height : Img → ℕ) (args : ScriptArgs)
    (trajectories : List (List (Observation ℝ Img))) (s : ScriptDisk Img) (data : List DataPoint) (counters : Counters)
    (hplot : args.plotTransitions = false) (hrn : args.rateNetwork = false) (hw : args.workdir.abs = true)
    (hdata : transitionsToDatapoints knn args.cutoff (trajectoriesToTransitions args.previousControls trajectories) [] {} =
      .ok (data, counters)) (hne : data ≠ [])
    (hcur : args.useCurrent = true → ∀ p ∈ data, p.current.isSome)
    (hvol : args.useVoltage = true → ∀ p ∈ data, p.voltage.isSome) :
    ∃ out s' raw aug, scriptData knn height args trajectories s = .ok out s' ∧
      s'.written = s.written ++ [(s.locate args.workdir ++ ["raw_data.png"], .data raw),
        (s.locate args.workdir ++ ["augmented_data.png"], .data aug)] ∧
      (dots raw).Perm (data.map (fun p => (movement p.nextState, p.beamPos, 1))) := by
  have hsh : shownTime args.rateNetwork = fun _ => 1 := by funext p; simp [shownTime, hrn]
  obtain ⟨p0, hp0⟩ := List.exists_mem_of_ne_nil data hne
  obtain ⟨stacked, arrays, augmented, raw, aug, h1, h2, h3, -, -, h6, h7, h8⟩ := script_runs knn height args trajectories s
    data counters hplot hdata hne hcur hvol (by rw [hsh]; intro _ _; exact zero_le_one)
    ⟨p0, hp0, by rw [hsh]; exact zero_lt_one⟩
  dsimp only at h8
  have hloc : s.locate (args.workdir.join (args.workdir.join (.file "augmented_data.png"))) =
      s.locate args.workdir ++ ["augmented_data.png"] := by
    simp [ScriptDisk.locate, OsPath.join, OsPath.file, hw]
  rw [ScriptDisk.save, if_pos] at h8
  · refine ⟨_, _, raw, aug, h8, ?_, ?_⟩
    · simp only [List.append_assoc]
      congr 2
      change [_, (s.locate _, _)] = _
      rw [hloc]
    · obtain ⟨longest, hg, hd, -⟩ := h6
      have : longest = 1 := by
        obtain ⟨e, he, hee⟩ := hg.1
        obtain ⟨p, -, rfl⟩ := List.mem_map.1 he
        rw [← hee, hsh]
      subst this
      rw [List.map_map] at hd
      refine hd.trans (List.Perm.of_eq ?_)
      apply List.map_congr_left
      intro p _
      simp [hsh]
  · change (s.locate _).dropLast ∈ (s.makeDirs (args.workdir.join (.file "data_plots"))).dirs
    rw [hloc, List.dropLast_concat]
    refine List.mem_append.2 (.inr ?_)
    rw [List.mem_inits, locate_file]
    exact List.prefix_append _ _

/-- C119 fails with a relative working directory other than `.`: the second picture goes to the working directory inside the
working directory.  If there is none, the script ends with `FileNotFoundError` once the first picture is written, and
nothing is trained, whatever the data. -/
theorem C119_relative (knn : Knn ℝ) (height : Img → ℕ) (args : ScriptArgs)
    (trajectories : List (List (Observation ℝ Img))) (s : ScriptDisk Img) (data : List DataPoint) (counters : Counters)
    (hplot : args.plotTransitions = false) (hw : args.workdir.abs = false) (hp : args.workdir.parts ≠ [])
    (hnp : args.workdir.parts ≠ ["data_plots"]) (hdir : s.cwd ++ args.workdir.parts ++ args.workdir.parts ∉ s.dirs)
    (hdata : transitionsToDatapoints knn args.cutoff (trajectoriesToTransitions args.previousControls trajectories) [] {} =
      .ok (data, counters)) (hne : data ≠ [])
    (hcur : args.useCurrent = true → ∀ p ∈ data, p.current.isSome)
    (hvol : args.useVoltage = true → ∀ p ∈ data, p.voltage.isSome)
    (hnn : ∀ p ∈ data, 0 ≤ p.secondsBetween) (hpos : ∃ p ∈ data, 0 < p.secondsBetween) :
    ∃ s' raw, scriptData knn height args trajectories s = .error .notFound s' ∧
      s'.written = s.written ++ [(s.cwd ++ args.workdir.parts ++ ["raw_data.png"], .data raw)] := by
  obtain ⟨stacked, arrays, augmented, raw, aug, h1, h2, h3, -, -, h6, h7, h8⟩ := script_runs knn height args trajectories s
    data counters hplot hdata hne hcur hvol
    (by
      intro p hp
      unfold shownTime
      split_ifs
      · exact hnn p hp
      · exact zero_le_one)
    (by
      obtain ⟨p, hp, h⟩ := hpos
      refine ⟨p, hp, ?_⟩
      unfold shownTime
      split_ifs
      · exact h
      · exact zero_lt_one)
  dsimp only at h8
  have hws : s.locate args.workdir = s.cwd ++ args.workdir.parts := by simp [ScriptDisk.locate, hw]
  rw [ScriptDisk.save, if_neg] at h8
  · exact ⟨_, raw, h8, by simp only [hws]⟩
  · change (s.locate _).dropLast ∉ (s.makeDirs (args.workdir.join (.file "data_plots"))).dirs
    have : s.locate (args.workdir.join (args.workdir.join (.file "augmented_data.png"))) =
        s.cwd ++ args.workdir.parts ++ args.workdir.parts ++ ["augmented_data.png"] := by
      simp [ScriptDisk.locate, OsPath.join, OsPath.file, hw]
    rw [this, List.dropLast_concat]
    intro hm
    rcases List.mem_append.1 hm with h | h
    · exact hdir h
    · rw [List.mem_inits, locate_file, hws, List.append_assoc, List.append_assoc, List.prefix_append_right_inj,
        List.prefix_append_right_inj] at h
      have hl := h.length_le
      have := h.eq_of_length (le_antisymm hl (List.length_pos_iff.2 hp))
      exact hnp this

/-- C119 fails without dwell times: if all of them are zero, drawing raises `ValueError`, nothing is written and no rate network
is trained. -/
theorem C119_no_dwell_times (knn : Knn ℝ) (height : Img → ℕ) (args : ScriptArgs)
    (trajectories : List (List (Observation ℝ Img))) (s : ScriptDisk Img) (data : List DataPoint) (counters : Counters)
    (hplot : args.plotTransitions = false) (hrn : args.rateNetwork = true)
    (hdata : transitionsToDatapoints knn args.cutoff (trajectoriesToTransitions args.previousControls trajectories) [] {} =
      .ok (data, counters)) (hne : data ≠ []) (hzero : ∀ p ∈ data, p.secondsBetween = 0) :
    ∃ s', scriptData knn height args trajectories s = .error .valueError s' ∧ s'.written = s.written := by
  have hs := kept_states hdata
  obtain ⟨d, f1, f2, f3, f4⟩ := prepareData_fields args.useCurrent args.useVoltage args.rateNetwork hne
  have hcount : ∃ c, countStates data = .ok c := by
    unfold countStates
    rw [if_pos]
    · exact ⟨_, rfl⟩
    · rw [List.all_eq_true]
      intro p hp
      simpa using hs p hp
  obtain ⟨c, hcount⟩ := hcount
  have hsh : shownTime args.rateNetwork = DataPoint.secondsBetween := by funext p; simp [shownTime, hrn]
  have hmax : greatestOf d.dt = .ok 0 := by
    obtain ⟨m, h1, h2⟩ := greatestOf_ok (xs := d.dt) (by rw [f4]; simpa using hne)
    have := h2.1
    simp only [Set.mem_ofPred_eq, f4, hsh] at this
    obtain ⟨p, hp, h⟩ := List.mem_map.1 this
    rw [h1, ← h, hzero p hp]
  have hser : ∀ i : ℕ, i ≤ 3 → dataSeries (d.nextState.map (fun s : ℕ => (s : ℤ))) d.position d.dt i =
      if data.any (fun p => decide (p.nextState = i)) then .error .valueError else .ok none := by
    intro i hi
    have hmask : maskSelect ((d.nextState.map (fun s : ℕ => (s : ℤ))).map (fun s => decide (s = (i : ℤ)))) d.position =
        (data.filter (fun p => decide (p.nextState = i))).map DataPoint.beamPos := by
      rw [f2, f3, List.map_map, List.map_map, maskSelect_examples]
      congr 1
      apply List.filter_congr
      intro p _
      simp
    unfold dataSeries
    simp only [hmask, hmax, stateLabel_movement hi, opacities, if_true]
    have hl1 : d.position.length = (d.nextState.map (fun s : ℕ => (s : ℤ))).length := by rw [f2, f3]; simp
    have hl2 : d.dt.length = (d.nextState.map (fun s : ℕ => (s : ℤ))).length := by rw [f2, f4]; simp
    simp only [hl1, hl2, ne_eq, not_true_eq_false, if_false, List.map_eq_nil_iff]
    by_cases hany : data.any (fun p => decide (p.nextState = i)) = true
    · rw [if_pos hany, if_neg]
      intro hnil
      obtain ⟨p, hp, h⟩ := List.any_eq_true.1 hany
      have := List.filter_eq_nil_iff.1 hnil p hp
      exact this h
    · rw [if_neg hany, if_pos]
      rw [List.filter_eq_nil_iff]
      intro p hp h
      exact hany (List.any_eq_true.2 ⟨p, hp, h⟩)
  have hvis : visualizeData (d.nextState.map (fun s : ℕ => (s : ℤ))) d.position d.dt 3 = .error .valueError := by
    unfold visualizeData
    simp only [List.range_succ, List.range_zero, List.nil_append, List.cons_append, List.mapM_cons, List.mapM_nil,
      hser 0 (by omega), hser 1 (by omega), hser 2 (by omega), hser 3 (by omega), bind, Except.bind, pure, Except.pure]
    obtain ⟨p, hp⟩ := List.exists_mem_of_ne_nil data hne
    have hp3 := hs p hp
    have hany : data.any (fun q => decide (q.nextState = p.nextState)) = true :=
      List.any_eq_true.2 ⟨p, hp, by simp⟩
    generalize p.nextState = k at hp3 hany
    interval_cases k <;> simp only [hany, if_true] <;> repeat' split_ifs <;> rfl
  refine ⟨s.makeDirs (args.workdir.join (.file "data_plots")), ?_, rfl⟩
  unfold scriptData
  simp only [bind, EStateM.bind, modify, modifyGet, MonadStateOf.modifyGet, EStateM.modifyGet, hplot, loop_plain, hdata,
    hcount, pureStep, f1, pure, EStateM.pure, saveDataPicture, hvis]

/-! ### C120 -/

/-- Drawing a kept transition raises `TypeError`: the height of the image is indexed as if it were a shape. -/
theorem plotKept_fails {knn : Knn ℝ} {cutoff : ℝ} {t : Transition ℝ Img} {d : DataPoint}
    (h : datapointOf knn cutoff t = .ok (.inr d)) (height : Img → ℕ) (plots : OsPath) (n : ℕ) (s : ScriptDisk Img) :
    plotKept knn cutoff height plots t d n s =
      .error .typeError (s.makeDirs (plots.join (.file s!"class_{d.nextState}"))) := by
  obtain ⟨-, ⟨c, hc⟩, si, siAfter, nbrs, order, h1, h2, h3⟩ := kept_arguments h
  have hol : order.length = 3 := by simpa using h3.length_eq
  have h0 : order[0]? = some order[0] := List.getElem?_eq_getElem (by omega)
  have hlt : order[0] < 3 := List.mem_range.1 (h3.mem_iff.1 (List.getElem_mem _))
  have hn : nbrs[order[0] + 1]? = some nbrs[order[0] + 1] := List.getElem?_eq_getElem (by omega)
  have hfirst : ∀ imsize, plotNeighbor t.fovBefore imsize nbrs order d.nextState 0 = .error .typeError := by
    intro imsize
    unfold plotNeighbor
    rw [h0]
    simp only [hn, intItem]
  have hpic : plotTransition height t nbrs order si siAfter d.nextState = .error .typeError := by
    unfold plotTransition
    simp only [hc, List.range_succ, List.range_zero, List.nil_append, List.cons_append, List.mapM_cons, hfirst, bind,
      Except.bind]
  unfold plotKept
  simp only [h1, hpic]

theorem loop_plotted (knn : Knn ℝ) (cutoff : ℝ) (height : Img → ℕ) (plots : OsPath) (ts : List (Transition ℝ Img))
    (data : List DataPoint) (counters : Counters) (s : ScriptDisk Img) (r : List DataPoint × Counters) (s' : ScriptDisk Img)
    (h : datapointsLoop knn cutoff true height plots ts data counters s = .ok r s') :
    r.1 = data ∧ s' = s ∧ ∀ t ∈ ts, ∃ x, datapointOf knn cutoff t = .ok (.inl x) := by
  induction ts generalizing counters with
  | nil => cases h; exact ⟨rfl, rfl, by simp⟩
  | cons t ts ih =>
    rw [datapointsLoop] at h
    cases ht : datapointOf knn cutoff t with
    | error e => rw [ht] at h; cases h
    | ok o =>
      rw [ht] at h
      cases o with
      | inl x =>
        obtain ⟨h1, h2, h3⟩ := ih _ h
        exact ⟨h1, h2, by
          intro u hu
          rcases List.mem_cons.1 hu with rfl | hu
          · exact ⟨x, ht⟩
          · exact h3 u hu⟩
      | inr d =>
        simp only [if_true, bind, EStateM.bind, plotKept_fails ht] at h
        cases h

theorem loop_first_kept (knn : Knn ℝ) (cutoff : ℝ) (height : Img → ℕ) (plots : OsPath) (pre post : List (Transition ℝ Img))
    (t : Transition ℝ Img) (d : DataPoint) (hpre : ∀ u ∈ pre, ∃ x, datapointOf knn cutoff u = .ok (.inl x))
    (ht : datapointOf knn cutoff t = .ok (.inr d)) (data : List DataPoint) (counters : Counters) (s : ScriptDisk Img) :
    datapointsLoop knn cutoff true height plots (pre ++ t :: post) data counters s =
      .error .typeError (s.makeDirs (plots.join (.file s!"class_{d.nextState}"))) := by
  induction pre generalizing counters with
  | nil =>
    rw [List.nil_append, datapointsLoop, ht]
    simp only [if_true, bind, EStateM.bind, plotKept_fails ht]
  | cons u pre ih =>
    obtain ⟨x, hx⟩ := hpre u (by simp)
    rw [List.cons_append, datapointsLoop, hx]
    exact ih (fun v hv => hpre v (by simp [hv])) _

theorem loop_plotted_written (knn : Knn ℝ) (cutoff : ℝ) (height : Img → ℕ) (plots : OsPath) (ts : List (Transition ℝ Img))
    (data : List DataPoint) (counters : Counters) (s : ScriptDisk Img) (e : Err) (s' : ScriptDisk Img)
    (h : datapointsLoop knn cutoff true height plots ts data counters s = .error e s') : s'.written = s.written := by
  induction ts generalizing counters with
  | nil => cases h
  | cons t ts ih =>
    rw [datapointsLoop] at h
    cases ht : datapointOf knn cutoff t with
    | error e => rw [ht] at h; cases h; rfl
    | ok o =>
      rw [ht] at h
      cases o with
      | inl x => exact ih _ h
      | inr d =>
        simp only [if_true, bind, EStateM.bind, plotKept_fails ht] at h
        cases h
        rfl

theorem loop_left_out (knn : Knn ℝ) (cutoff : ℝ) (height : Img → ℕ) (plots : OsPath) (plot : Bool)
    (ts : List (Transition ℝ Img)) (h : ∀ t ∈ ts, ∃ x, datapointOf knn cutoff t = .ok (.inl x)) (data : List DataPoint)
    (counters : Counters) (s : ScriptDisk Img) :
    ∃ c, datapointsLoop knn cutoff plot height plots ts data counters s = .ok (data, c) s ∧
      transitionsToDatapoints knn cutoff ts data counters = .ok (data, c) := by
  induction ts generalizing counters with
  | nil => exact ⟨_, rfl, rfl⟩
  | cons t ts ih =>
    obtain ⟨x, hx⟩ := h t (by simp)
    obtain ⟨c, h1, h2⟩ := ih (fun u hu => h u (by simp [hu])) (counters.bump x)
    refine ⟨c, ?_, ?_⟩
    · rw [datapointsLoop, hx]; exact h1
    · rw [transitionsToDatapoints, hx]; exact h2

/-- C120 fails: if transitions are to be drawn, the script never reaches the learner and writes no picture at all. -/
theorem C120_never_trains (knn : Knn ℝ) (height : Img → ℕ) (args : ScriptArgs)
    (trajectories : List (List (Observation ℝ Img))) (s : ScriptDisk Img) (hplot : args.plotTransitions = true) :
    ∃ e s', scriptData knn height args trajectories s = .error e s' ∧ s'.written = s.written := by
  unfold scriptData
  simp only [bind, EStateM.bind, modify, modifyGet, MonadStateOf.modifyGet, EStateM.modifyGet, hplot]
  cases hl : datapointsLoop knn args.cutoff true height (args.workdir.join (.file "data_plots"))
      (trajectoriesToTransitions args.previousControls trajectories) [] {}
      (s.makeDirs (args.workdir.join (.file "data_plots"))) with
  | error e s' =>
    have := loop_plotted_written _ _ _ _ _ _ _ _ _ _ hl
    exact ⟨e, s', rfl, this⟩
  | ok r s' =>
    obtain ⟨h1, rfl, -⟩ := loop_plotted _ _ _ _ _ _ _ _ _ _ hl
    obtain ⟨r1, r2⟩ := r
    simp only at h1
    subst h1
    exact ⟨_, _, rfl, rfl⟩

/-- C120 fails: the first transition that is kept ends the script with `TypeError`, after the directory of its class is made. -/
theorem C120_type_error (knn : Knn ℝ) (height : Img → ℕ) (args : ScriptArgs)
    (trajectories : List (List (Observation ℝ Img))) (s : ScriptDisk Img) (hplot : args.plotTransitions = true)
    (pre post : List (Transition ℝ Img)) (t : Transition ℝ Img) (d : DataPoint)
    (hts : trajectoriesToTransitions args.previousControls trajectories = pre ++ t :: post)
    (hpre : ∀ u ∈ pre, ∃ x, datapointOf knn args.cutoff u = .ok (.inl x))
    (ht : datapointOf knn args.cutoff t = .ok (.inr d)) :
    ∃ s', scriptData knn height args trajectories s = .error .typeError s' ∧ s'.written = s.written ∧
      s.locate args.workdir ++ ["data_plots", s!"class_{d.nextState}"] ∈ s'.dirs := by
  refine ⟨(s.makeDirs (args.workdir.join (.file "data_plots"))).makeDirs
    ((args.workdir.join (.file "data_plots")).join (.file s!"class_{d.nextState}")), ?_, rfl, ?_⟩
  · unfold scriptData
    simp only [bind, EStateM.bind, modify, modifyGet, MonadStateOf.modifyGet, EStateM.modifyGet, hplot, hts,
      loop_first_kept knn args.cutoff height _ pre post t d hpre ht]
  · refine List.mem_append.2 (.inr ?_)
    rw [List.mem_inits, locate_makeDirs, locate_file, locate_file, List.append_assoc]
    exact List.prefix_refl _

/-- C120 where it holds: only if every transition is left out does drawing make no difference.  Missing from the full
claim: every run that keeps a transition, see `C120_never_trains`. -/
theorem C120_nothing_kept_partial (knn : Knn ℝ) (height : Img → ℕ) (args : ScriptArgs)
    (trajectories : List (List (Observation ℝ Img))) (s : ScriptDisk Img)
    (h : ∀ t ∈ trajectoriesToTransitions args.previousControls trajectories, ∃ x, datapointOf knn args.cutoff t = .ok (.inl x)) :
    scriptData knn height { args with plotTransitions := true } trajectories s =
      scriptData knn height { args with plotTransitions := false } trajectories s ∧
    ∃ s', scriptData knn height args trajectories s = .error .valueError s' := by
  have key : ∀ plot, scriptData knn height { args with plotTransitions := plot } trajectories s =
      .error .valueError (s.makeDirs (args.workdir.join (.file "data_plots"))) := by
    intro plot
    obtain ⟨c, h1, -⟩ := loop_left_out knn args.cutoff height (args.workdir.join (.file "data_plots")) plot _ h [] {}
      (s.makeDirs (args.workdir.join (.file "data_plots")))
    unfold scriptData
    simp only [bind, EStateM.bind, modify, modifyGet, MonadStateOf.modifyGet, EStateM.modifyGet, h1, pureStep]
    rfl
  exact ⟨by rw [key, key], _, key args.plotTransitions⟩

end

/-! ### C121 -/

section
variable {A B : Type}

/-- A record file: the right extension, and every record can be read. -/
def IsRecordFile (de : B → Except Err A) (fs : Files B) (name : List Char) (as : List A) : Prop :=
  (∃ stem, stem ≠ [] ∧ name = stem ++ ".tfrecords".toList) ∧
    ∃ bs, fs name = some bs ∧ List.Forall₂ (fun b a => de b = .ok a) bs as

theorem readAll_iff (de : B → Except Err A) (bs : List B) (as : List A) :
    readAll de bs = (as, none) ↔ List.Forall₂ (fun b a => de b = .ok a) bs as := by
  constructor
  · intro h
    induction bs generalizing as with
    | nil => simp only [readAll, Prod.mk.injEq, and_true] at h; subst h; exact .nil
    | cons b bs ih =>
      rw [readAll] at h
      cases hb : de b with
      | error e => rw [hb] at h; cases h
      | ok a =>
        rw [hb] at h
        simp only [Prod.mk.injEq] at h
        obtain ⟨rfl, h2⟩ := h
        exact .cons hb (ih _ (Prod.ext rfl h2))
  · exact readAll_ok de bs as

theorem readRecords_iff (de : B → Except Err A) (fs : Files B) (name : List Char) (as : List A) :
    readRecords de fs name = (as, none) ↔ IsRecordFile de fs name as := by
  unfold readRecords IsRecordFile
  have hx : fileSuffix name = tfrecords ↔ ∃ stem, stem ≠ [] ∧ name = stem ++ ".tfrecords".toList := fileSuffix_iff name
  rw [← hx]
  by_cases h : fileSuffix name = tfrecords
  · simp only [h, if_true]
    cases hf : fs name with
    | none => simp
    | some bs => simp [readAll_iff]
  · simp [h]

/-- C121: trajectories are loaded if and only if every file of the source is a record file, and then they are those of all
the files, in order. -/
theorem C121_all (de : B → Except Err A) (fs : Files B) (source : RecordSource) (as : List A) :
    loadTrajectories de fs source = .ok as ↔
      ∃ parts, List.Forall₂ (fun f p => IsRecordFile de fs f p)
        (match source with | .several files => files | .directory children => children | .single file => [file]) parts ∧
        as = parts.flatten := by
  have key : ∀ (files : List (List Char)) as, readSources de fs files = .ok as ↔
      ∃ parts, List.Forall₂ (fun f p => IsRecordFile de fs f p) files parts ∧ as = parts.flatten := by
    intro files
    induction files with
    | nil =>
      intro as
      constructor
      · intro h; cases h; exact ⟨[], .nil, rfl⟩
      · rintro ⟨parts, h, rfl⟩; cases h; rfl
    | cons f files ih =>
      intro as
      constructor
      · intro h
        rw [readSources] at h
        split at h
        · cases h
        · rename_i as' hr
          split at h
          · cases h
          · rename_i more hm
            cases h
            obtain ⟨parts, h1, rfl⟩ := (ih _).1 hm
            exact ⟨_ :: parts, .cons ((readRecords_iff de fs f as').1 hr) h1, rfl⟩
      · rintro ⟨parts, h, rfl⟩
        cases h with
        | cons hf hrest =>
          rename_i p ps
          rw [readSources, (readRecords_iff de fs f p).2 hf]
          simp only [(ih _).2 ⟨ps, hrest, rfl⟩, List.flatten_cons]
  unfold loadTrajectories
  rw [key]
  cases source <;> rfl

/-- C121: the first file that is not a record file ends loading: with `ValueError` if its name has another extension, for example
another child of the directory; with the exception for missing files if there is none; with the exception of its first
record that cannot be read. -/
theorem C121_first_bad (de : B → Except Err A) (fs : Files B) (source : RecordSource) (pre post : List (List Char)) (f : List Char)
    (hfiles : source.files = pre ++ f :: post) (hpre : ∀ g ∈ pre, ∃ as, IsRecordFile de fs g as) :
    ((¬ ∃ stem, stem ≠ [] ∧ f = stem ++ ".tfrecords".toList) → loadTrajectories de fs source = .error .valueError) ∧
    ((∃ stem, stem ≠ [] ∧ f = stem ++ ".tfrecords".toList) → fs f = none →
      loadTrajectories de fs source = .error .notFound) ∧
    (∀ good b bad as e, (∃ stem, stem ≠ [] ∧ f = stem ++ ".tfrecords".toList) → fs f = some (good ++ b :: bad) →
      List.Forall₂ (fun b a => de b = .ok a) good as → de b = .error e →
      loadTrajectories de fs source = .error e) := by
  have key : ∀ (as : List A) (e : Err), readRecords de fs f = (as, some e) → loadTrajectories de fs source = .error e := by
    intro as e h
    unfold loadTrajectories
    rw [hfiles]
    clear hfiles
    induction pre with
    | nil => rw [List.nil_append, readSources, h]
    | cons g pre ih =>
      obtain ⟨as', hg⟩ := hpre g (by simp)
      rw [List.cons_append, readSources, (readRecords_iff de fs g as').2 hg]
      simp only [ih (fun x hx => hpre x (by simp [hx]))]
  have hx : fileSuffix f = tfrecords ↔ ∃ stem, stem ≠ [] ∧ f = stem ++ ".tfrecords".toList := fileSuffix_iff f
  refine ⟨?_, ?_, ?_⟩
  · intro h
    rw [← hx] at h
    exact key [] _ (by simp only [readRecords, h, if_false])
  · intro h hn
    rw [← hx] at h
    exact key [] _ (by simp only [readRecords, h, if_true, hn])
  · intro good b bad as e h hb hgood he
    rw [← hx] at h
    have : ∃ as', readAll de (good ++ b :: bad) = (as', some e) := by
      clear hb
      induction hgood with
      | nil => exact ⟨[], by simp only [List.nil_append, readAll, he]⟩
      | @cons b' a' l1 l2 h1 _ ih =>
        obtain ⟨as', ih⟩ := ih
        exact ⟨a' :: as', by rw [List.cons_append, readAll, h1]; simp only [ih]⟩
    obtain ⟨as', has⟩ := this
    exact key as' e (by simp only [readRecords, h, if_true, hb, has])

end

/-! ### Examples -/

namespace ScriptExample
open DataExample

/-- Two observations, between which the silicon moves as in `DataExample.t`. -/
noncomputable def trajectory : List (Observation ℝ Unit) :=
  [⟨t.gridBefore, t.fovBefore, t.controls, 0, none, none⟩, ⟨t.gridAfter, t.fovAfter, [], 0, none, none⟩]

theorem transitions : trajectoriesToTransitions false [trajectory] = [t] := rfl

noncomputable def args : ScriptArgs :=
  { workdir := ⟨true, ["out"]⟩, cutoff := 2, useVoltage := false, useCurrent := false }

/-- The hypotheses of `C119_pictures_partial`, `C119_other_learners` and `C119_relative`. -/
example : ∃ data counters, transitionsToDatapoints knn args.cutoff
      (trajectoriesToTransitions args.previousControls [trajectory]) [] {} = .ok (data, counters) ∧ data ≠ [] ∧
      (∀ p ∈ data, 0 ≤ p.secondsBetween) ∧ ∃ p ∈ data, 0 < p.secondsBetween := by
  obtain ⟨d, hd⟩ := kept
  have h1 : transitionsToDatapoints knn args.cutoff (trajectoriesToTransitions args.previousControls [trajectory]) [] {} =
      .ok ([d], {}) := by
    change transitionsToDatapoints knn 2 [t] [] {} = _
    simp only [transitionsToDatapoints, hd, List.nil_append]
  obtain ⟨c, -, -, -, -, hc, -, -, -, -, hsec, -⟩ := C42_kept knn 2 t d rfl rfl (by
    simp only [t, placed]; exact sheet_nodup) hd
  have hc' : c.dwellTime = 1500000 := by
    simp only [t, List.cons.injEq, and_true] at hc
    rw [← hc]
  have hpos : 0 < d.secondsBetween := by rw [hsec, hc']; norm_num
  exact ⟨[d], {}, h1, by simp, by simpa using hpos.le, d, by simp, hpos⟩

/-- The hypotheses of `C120_type_error`. -/
example : ∃ pre post u d, trajectoriesToTransitions args.previousControls [trajectory] = pre ++ u :: post ∧
    (∀ v ∈ pre, ∃ x, datapointOf knn args.cutoff v = .ok (.inl x)) ∧ datapointOf knn args.cutoff u = .ok (.inr d) := by
  obtain ⟨d, hd⟩ := kept
  exact ⟨[], [], t, d, rfl, by simp, hd⟩

/-- The hypothesis of `C120_nothing_kept_partial`: no controls. -/
example : ∀ u ∈ trajectoriesToTransitions true [trajectory], ∃ x, datapointOf knn args.cutoff u = .ok (.inl x) := by
  intro u hu
  have : u = { t with controls := [] } := List.mem_singleton.1 (show u ∈ [_] from hu)
  subst this
  exact ⟨_, rfl⟩

/-- The same without dwell time. -/
noncomputable def instant : Transition ℝ Unit := { t with controls := [⟨⟨1 / 2, 0⟩, 0, none, none⟩] }

theorem instant_kept : ∃ d, datapointOf knn 2 instant = .ok (.inr d) := by
  obtain ⟨d, hd⟩ := makeDataPoint_total ⟨⟨1 / 2, 0⟩, 0, none, none⟩
    (lerp ⟨0, 0⟩ ⟨1, 1⟩ ⟨1 / 2, 0⟩) ⟨0, 0⟩ ⟨-3 / 5, 4 / 5⟩
    (nbrs := [⟨1, 0⟩, ⟨-3 / 5, 4 / 5⟩, ⟨-3 / 5, -4 / 5⟩]) (by simp)
  refine ⟨d, ?_⟩
  have h3 : getSiliconPositions (⟨sheet, [14, 6, 6, 6, 6, 6, 6, 6, 6, 6]⟩ : Grid ℝ) = [⟨0, 0⟩] := rfl
  unfold datapointOf
  simp only [instant, t, gridToMaterial_eq_placedOn, toMaterial_eq_lerp, placed, h3, before_ok, after_ok, hd]

/-- The hypotheses of `C119_no_dwell_times`. -/
example : ∃ (trajectories : List (List (Observation ℝ Unit))) (data : List DataPoint) (counters : Counters), transitionsToDatapoints knn args.cutoff
      (trajectoriesToTransitions args.previousControls trajectories) [] {} = .ok (data, counters) ∧ data ≠ [] ∧
      ∀ p ∈ data, p.secondsBetween = 0 := by
  obtain ⟨d, hd⟩ := instant_kept
  refine ⟨[[⟨instant.gridBefore, instant.fovBefore, instant.controls, 0, none, none⟩,
    ⟨instant.gridAfter, instant.fovAfter, [], 0, none, none⟩]], [d], {}, ?_, by simp, ?_⟩
  · change transitionsToDatapoints knn 2 [instant] [] {} = _
    simp only [transitionsToDatapoints, hd, List.nil_append]
  · obtain ⟨c, -, -, -, -, hc, -, -, -, -, hsec, -⟩ := C42_kept knn 2 instant d rfl rfl (by
      simp only [instant, t, placed]; exact sheet_nodup) hd
    have hc' : c.dwellTime = 0 := by
      simp only [instant, List.cons.injEq, and_true] at hc
      rw [← hc]
    simp [hsec, hc']

/-- A relative directory. -/
example : (⟨["home"], [["home"]], []⟩ : ScriptDisk Unit).locate
    (OsPath.join ⟨false, ["out"]⟩ (OsPath.join ⟨false, ["out"]⟩ (.file "augmented_data.png"))) =
    ["home", "out", "out", "augmented_data.png"] := by decide

/-- The hypotheses of `C121_first_bad`: a directory with a record file and a note. -/
example : let fs : Files ℕ := fun n => if n = "a.tfrecords".toList then some [1, 2] else none
    loadTrajectories (fun b => .ok b) fs (.directory ["a.tfrecords".toList]) = .ok [1, 2] ∧
    loadTrajectories (fun b => .ok b) fs (.directory ["a.tfrecords".toList, "README".toList]) = .error .valueError :=
  ⟨rfl, rfl⟩

end ScriptExample

end PD.Props
