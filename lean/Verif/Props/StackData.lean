/- C86: stacking keeps examples together. -/
import Verif.Model.StackData
import Verif.Props.Ensemble

set_option linter.unusedSectionVars false
set_option linter.unusedSimpArgs false

namespace PD.Props
open PD PD.Spec

/-- The context of one data point: current, voltage and dwell time, as asked for. -/
def contextOf (useCurrent useVoltage dwell : Bool) (p : DataPoint) : List (Option ℝ) :=
  (if useCurrent then [p.current] else []) ++ (if useVoltage then [p.voltage] else []) ++
  (if dwell then [some p.secondsBetween] else [])

theorem contextColumns_row (useCurrent useVoltage dwell : Bool) (data : List DataPoint) (i : ℕ) (p : DataPoint)
    (hp : data[i]? = some p) :
    (contextColumns useCurrent useVoltage dwell data).filterMap (fun c => c[i]?) =
      contextOf useCurrent useVoltage dwell p := by
  cases useCurrent <;> cases useVoltage <;> cases dwell <;> simp [contextColumns, contextOf, hp]

theorem contextColumns_nil (useCurrent useVoltage dwell : Bool) (data : List DataPoint) :
    contextColumns useCurrent useVoltage dwell data = [] ↔
      useCurrent = false ∧ useVoltage = false ∧ dwell = false := by
  cases useCurrent <;> cases useVoltage <;> cases dwell <;> simp [contextColumns]

/-- Row `i` of every array comes from data point `i`, rates start at zero, and the context has current, voltage
and dwell time in that order, as asked for; there is no context when nothing is asked for.  Without data points
stacking raises. -/
theorem C86_rows (useCurrent useVoltage dwell : Bool) (neighbors : ℕ) (data : List DataPoint) :
    (data = [] → stackData useCurrent useVoltage dwell neighbors data = .error .valueError) ∧
    (data ≠ [] → ∃ d, stackData useCurrent useVoltage dwell neighbors data = .ok d ∧
      d.nextState.length = data.length ∧ d.position.length = data.length ∧ d.dt.length = data.length ∧
      d.rates.length = data.length ∧ (∀ rows, d.context = some rows → rows.length = data.length) ∧
      (d.context = none ↔ useCurrent = false ∧ useVoltage = false ∧ dwell = false) ∧
      ∀ (i : ℕ) (p : DataPoint), data[i]? = some p → d.nextState[i]? = some p.nextState ∧ d.position[i]? = some p.beamPos ∧
        d.dt[i]? = some p.secondsBetween ∧ d.rates[i]? = some (List.replicate neighbors 0) ∧
        ∀ rows, d.context = some rows → rows[i]? = some
          ((if useCurrent then [p.current] else []) ++ (if useVoltage then [p.voltage] else []) ++
            (if dwell then [some p.secondsBetween] else []))) := by
  constructor
  · intro h
    simp [stackData, h]
  · intro h
    have key : ∀ rows, (if contextColumns useCurrent useVoltage dwell data = [] then none else
        some (stackColumns data.length (contextColumns useCurrent useVoltage dwell data))) = some rows →
        rows = stackColumns data.length (contextColumns useCurrent useVoltage dwell data) := by
      intro rows hr
      split at hr
      · cases hr
      · exact (Option.some.inj hr).symm
    refine ⟨_, by rw [stackData, if_neg h], by simp, by simp, by simp, by simp, ?_, ?_, ?_⟩
    · intro rows hr
      rw [key rows hr]
      simp [stackColumns]
    · rw [← contextColumns_nil useCurrent useVoltage dwell data]
      constructor
      · intro hn
        by_contra hne
        simp [hne] at hn
      · intro hn
        simp [hn]
    · intro i p hp
      have hi : i < data.length := (List.getElem?_eq_some_iff.1 hp).1
      refine ⟨by simp [hp], by simp [hp], by simp [hp], by simp [hi], ?_⟩
      intro rows hr
      rw [key rows hr]
      simp only [stackColumns, List.getElem?_map, List.getElem?_range hi, Option.map_some]
      rw [contextColumns_row useCurrent useVoltage dwell data i p hp]
      rfl

/-- Learners other than the rate network see times of one, but the dwell times stay in their contexts. -/
theorem C86_dwell_kept (useCurrent useVoltage : Bool) (data : List DataPoint) (hne : data ≠ []) :
    ∃ d, prepareData useCurrent useVoltage false data = .ok d ∧
      d.dt = List.replicate data.length 1 ∧
      ∃ rows : List (List (Option ℝ)), d.context = some rows ∧ ∀ (i : ℕ) (p : DataPoint), data[i]? = some p →
        ∃ r : List (Option ℝ), rows[i]? = some r ∧ r.getLast? = some (some p.secondsBetween) := by
  obtain ⟨d, h1, -, -, h2, -, -, h3, h4⟩ := (C86_rows useCurrent useVoltage true 3 data).2 hne
  refine ⟨d.forLearner false, by simp [prepareData, h1], ?_, ?_⟩
  · simp only [StackedData.forLearner, Bool.false_eq_true, if_false]
    rw [List.map_const', h2]
  · cases hc : d.context with
    | none =>
      have := h3.1 hc
      simp at this
    | some rows =>
      refine ⟨rows, by simp [StackedData.forLearner, hc], fun i p hp => ⟨_, (h4 i p hp).2.2.2.2 rows hc, ?_⟩⟩
      simp

theorem plainRow_ok {l : List (Option ℝ)} (h : ∀ x ∈ l, x.isSome) :
    ∃ r, plainRow l = .ok r ∧ r.map some = l := by
  induction l with
  | nil => exact ⟨[], rfl, rfl⟩
  | cons x l ih =>
    obtain ⟨v, hv⟩ := Option.isSome_iff_exists.1 (h x (by simp))
    obtain ⟨r, hr, hm⟩ := ih (fun y hy => h y (by simp [hy]))
    subst hv
    exact ⟨v :: r, by simp [plainRow, hr], by simp [hm]⟩

/-- When the recorded currents and voltages asked for are present, the stacked arrays are data the ensemble
accepts (`C85_members`), row by row the data points. -/
theorem C86_accepted (useCurrent useVoltage dwell : Bool) (data : List DataPoint) (hne : data ≠ [])
    (hs : ∀ p ∈ data, p.nextState ≤ 3) (hcur : useCurrent = true → ∀ p ∈ data, p.current.isSome)
    (hvol : useVoltage = true → ∀ p ∈ data, p.voltage.isSome) :
    ∃ d r, stackData useCurrent useVoltage dwell 3 data = .ok d ∧ d.toRateData = .ok r ∧
      HasSize r data.length ∧ (∀ i q, row r i = some q → Valid 3 q) ∧
      (r.context.isSome ↔ (useCurrent = true ∨ useVoltage = true ∨ dwell = true)) ∧
      ∀ (i : ℕ) (p : DataPoint), data[i]? = some p → ∃ q, row r i = some q ∧ q.state = p.nextState ∧ q.dt = p.secondsBetween ∧
        q.position = p.beamPos ∧
        ∀ c, q.context = some c → c.map some =
          ((if useCurrent then [p.current] else []) ++ (if useVoltage then [p.voltage] else []) ++
            (if dwell then [some p.secondsBetween] else [])) := by
  obtain ⟨d, h1, l1, l2, l3, l4, l5, h3, h4⟩ := (C86_rows useCurrent useVoltage dwell 3 data).2 hne
  -- the context as numbers
  have hctx : ∃ c : Option (List (List ℝ)), d.toRateData =
      .ok ⟨d.nextState.map (fun s : ℕ => (s : ℤ)), d.dt, d.rates, d.position, c⟩ ∧
      (c = none ↔ d.context = none) ∧ ∀ cs, c = some cs → cs.length = data.length ∧
        ∀ (i : ℕ) (p : DataPoint), data[i]? = some p → ∃ x, cs[i]? = some x ∧
          x.map some = contextOf useCurrent useVoltage dwell p := by
    cases hc : d.context with
    | none => exact ⟨none, by simp [StackedData.toRateData, hc], by simp, by simp⟩
    | some rows =>
      have hlen := l5 rows hc
      have hrows : ∀ x ∈ rows, ∀ y ∈ x, Option.isSome y := by
        intro x hx
        obtain ⟨i, hi⟩ := List.mem_iff_getElem?.1 hx
        have hi' : i < data.length := by rw [← hlen]; exact (List.getElem?_eq_some_iff.1 hi).1
        have hp : data[i]? = some data[i] := List.getElem?_eq_getElem hi'
        have := (h4 i _ hp).2.2.2.2 rows hc
        rw [hi, Option.some.injEq] at this
        subst this
        have hm := List.mem_of_getElem? hp
        intro y hy
        simp only [List.mem_append] at hy
        rcases hy with (hy | hy) | hy
        · split at hy
          · rename_i hu
            simp only [List.mem_cons, List.not_mem_nil, or_false] at hy
            exact hy ▸ hcur hu _ hm
          · cases hy
        · split at hy
          · rename_i hu
            simp only [List.mem_cons, List.not_mem_nil, or_false] at hy
            exact hy ▸ hvol hu _ hm
          · cases hy
        · split at hy
          · simp only [List.mem_cons, List.not_mem_nil, or_false] at hy
            exact hy ▸ rfl
          · cases hy
      obtain ⟨cs, hm, hf⟩ := mapM_forall₂ (f := plainRow) (P := fun a b => a = b ∧ ∀ y ∈ b, Option.isSome y)
        (Q := fun (a : List (Option ℝ)) (c : List ℝ) => c.map some = a)
        (fun a b hab => by obtain ⟨r, h, h'⟩ := plainRow_ok hab.2; exact ⟨r, h, by rw [h', hab.1]⟩)
        (forall₂_self (l := rows) (fun x hx => ⟨rfl, hrows x hx⟩))
      refine ⟨some cs, by simp only [StackedData.toRateData, hc, hm], by simp, ?_⟩
      intro cs' e
      rw [Option.some.injEq] at e
      subst e
      have hcl : cs.length = data.length := by rw [← hf.length_eq, hlen]
      refine ⟨hcl, fun i p hp => ?_⟩
      have hi : i < cs.length := by rw [hcl]; exact (List.getElem?_eq_some_iff.1 hp).1
      have hx : cs[i]? = some cs[i] := List.getElem?_eq_getElem hi
      obtain ⟨a, ha, hq⟩ := forall₂_get hf hx
      rw [(h4 i p hp).2.2.2.2 rows hc, Option.some.injEq] at ha
      exact ⟨_, hx, hq.trans ha.symm⟩
  obtain ⟨c, hr, hnone, hcs⟩ := hctx
  have hrow : ∀ (i : ℕ) (p : DataPoint), data[i]? = some p → ∃ q, row
      ⟨d.nextState.map (fun s : ℕ => (s : ℤ)), d.dt, d.rates, d.position, c⟩ i = some q ∧ q.state = p.nextState ∧
      q.dt = p.secondsBetween ∧ q.position = p.beamPos ∧ q.rates = List.replicate 3 0 ∧
      ∀ x, q.context = some x → x.map some = contextOf useCurrent useVoltage dwell p := by
    intro i p hp
    obtain ⟨g1, g2, g3, g4, -⟩ := h4 i p hp
    cases c with
    | none =>
      refine ⟨_, by simp only [row, List.getElem?_map, g1, g2, g3, g4, Option.map_some]; rfl, rfl, rfl, rfl, rfl, ?_⟩
      simp
    | some cs =>
      obtain ⟨x, hx, he⟩ := (hcs cs rfl).2 i p hp
      refine ⟨_, by simp only [row, List.getElem?_map, g1, g2, g3, g4, hx, Option.map_some]; rfl,
        rfl, rfl, rfl, rfl, ?_⟩
      intro y hy
      rw [← Option.some.inj hy]
      exact he
  have hsize : HasSize ⟨d.nextState.map (fun s : ℕ => (s : ℤ)), d.dt, d.rates, d.position, c⟩ data.length :=
    ⟨by simp [l1], l3, l4, l2, fun cs h => (hcs cs h).1⟩
  refine ⟨d, _, h1, hr, hsize, ?_, ?_, ?_⟩
  · intro i q hq
    have hi : i < data.length := (hasSize_row hsize i).1 (by rw [hq]; rfl)
    have hp : data[i]? = some data[i] := List.getElem?_eq_getElem hi
    obtain ⟨q', hq', e1, -, -, e4, -⟩ := hrow i _ hp
    rw [hq, Option.some.injEq] at hq'
    subst hq'
    have := hs _ (List.mem_of_getElem? hp)
    refine ⟨by rw [e4]; simp, by rw [e1]; positivity, by rw [e1]; exact_mod_cast this⟩
  · have : c.isSome ↔ ¬ (c = none) := by cases c <;> simp
    simp only [this, hnone, h3]
    cases useCurrent <;> cases useVoltage <;> cases dwell <;> simp
  · intro i p hp
    obtain ⟨q, h1, h2, h3, h4, -, h5⟩ := hrow i p hp
    exact ⟨q, h1, h2, h3, h4, h5⟩

theorem plainRow_missing {l : List (Option ℝ)} (h : none ∈ l) : plainRow l = .error .typeError := by
  induction l with
  | nil => cases h
  | cons x l ih =>
    cases x with
    | none => rfl
    | some v =>
      have : none ∈ l := by simpa using h
      simp [plainRow, ih this]

theorem plainRow_total (l : List (Option ℝ)) : (∃ r, plainRow l = .ok r) ∨ plainRow l = .error .typeError := by
  by_cases h : none ∈ l
  · exact .inr (plainRow_missing h)
  · obtain ⟨r, hr, -⟩ := plainRow_ok (l := l) (fun x hx => by
      cases x with
      | none => exact absurd hx h
      | some v => rfl)
    exact .inl ⟨r, hr⟩

theorem mapM_plainRow_missing {rows : List (List (Option ℝ))} {r : List (Option ℝ)} (hr : r ∈ rows) (h : none ∈ r) :
    rows.mapM plainRow = .error .typeError := by
  induction rows with
  | nil => cases hr
  | cons x rows ih =>
    rw [List.mapM_cons]
    rcases List.mem_cons.1 hr with rfl | hr
    · rw [plainRow_missing h]; rfl
    · rcases plainRow_total x with ⟨y, hy⟩ | hy
      · rw [hy, ih hr]; rfl
      · rw [hy]; rfl

/-- When a current or a voltage that is asked for was not recorded for some data point, the learner raises: no
row is left out, cut or filled in. -/
theorem C86_missing_raises (useCurrent useVoltage dwell : Bool) (data : List DataPoint) (p : DataPoint)
    (hp : p ∈ data) (h : useCurrent = true ∧ p.current = none ∨ useVoltage = true ∧ p.voltage = none) :
    ∃ d, stackData useCurrent useVoltage dwell 3 data = .ok d ∧ d.toRateData = .error .typeError := by
  obtain ⟨d, h1, -, -, -, -, -, h3, h4⟩ :=
    (C86_rows useCurrent useVoltage dwell 3 data).2 (List.ne_nil_of_mem hp)
  refine ⟨d, h1, ?_⟩
  cases hc : d.context with
  | none =>
    obtain ⟨e1, e2, -⟩ := h3.1 hc
    simp [e1, e2] at h
  | some rows =>
    obtain ⟨i, hi⟩ := List.mem_iff_getElem?.1 hp
    have hr := (h4 i p hi).2.2.2.2 rows hc
    have hm := mapM_plainRow_missing (List.mem_of_getElem? hr) (by
      rcases h with ⟨e1, e2⟩ | ⟨e1, e2⟩ <;> simp [e1, e2])
    simp only [StackedData.toRateData, hc, hm]

example : ∃ p ∈ [(⟨0, ⟨1, 0⟩, 3, none, some 60⟩ : DataPoint)], p.current = none := ⟨_, List.mem_singleton_self _, rfl⟩

/-- Two data points with current and voltage. -/
noncomputable def stackExample : List DataPoint :=
  [⟨0, ⟨1, 0⟩, 3, some 1, some 60⟩, ⟨2, ⟨0, 1⟩, 5, some 2, some 80⟩]

example : stackExample ≠ [] ∧ (∀ p ∈ stackExample, p.nextState ≤ 3) ∧
    (∀ p ∈ stackExample, p.current.isSome) ∧ (∀ p ∈ stackExample, p.voltage.isSome) := by
  simp [stackExample]

example : ∃ d, stackData true true true 3 stackExample = .ok d ∧
    d.context = some [[some 1, some 60, some 3], [some 2, some 80, some 5]] :=
  ⟨_, rfl, by simp [contextColumns, stackColumns, stackExample, List.range_succ]⟩

end PD.Props
