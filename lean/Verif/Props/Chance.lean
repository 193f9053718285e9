/- C127 and C128: the chances of what happens under the beam, and that it ends. -/
import Verif.Lemmas.FairRng
import Verif.Props.Play
import Verif.Spec.Scoring

set_option linter.unusedSectionVars false
set_option linter.unusedSimpArgs false

namespace PD.Props
open PD PD.Spec MeasureTheory ProbabilityTheory

/-! ### Running the loop longer -/

section
variable {K G O P Img : Type} [Field K] [LinearOrder K] [IsStrictOrderedRing K] [FloorRing K]

theorem applyLoop_more {rng : Rng K G} {handle : Event K Img → O → O} {rate : RateFunction K} {c : BeamControl K}
    (fuel : ℕ) (t : Timedelta) (s s' : MatCtx K G O) (h : applyLoop rng handle rate c fuel t s = .ok () s') :
    applyLoop rng handle rate c (fuel + 1) t s = .ok () s' := by
  induction fuel generalizing t s with
  | zero =>
    by_cases h1 : t < c.dwellTime
    · rw [applyLoop] at h; simp only [h1, if_true] at h; cases h
    · rw [applyLoop_over _ _ h1] at h ⊢; exact h
  | succ fuel ih =>
    by_cases h1 : t < c.dwellTime
    swap
    · rw [applyLoop_over _ _ h1] at h ⊢; exact h
    rw [applyLoop_round _ _ h1] at h ⊢
    cases hread : s.mat.read with
    | error e => rw [hread] at h; cases h
    | ok grid =>
    rw [hread] at h
    simp only at h ⊢
    cases hr : rate grid c.position with
    | error e => rw [hr] at h; cases h
    | ok ss =>
    rw [hr] at h
    simp only at h ⊢
    cases hd : drawTransitionTime rng ss s.g with
    | error e => rw [hd] at h; cases h
    | ok x =>
    obtain ⟨dt, g⟩ := x
    rw [hd] at h
    simp only at h ⊢
    split_ifs at h ⊢ with h2
    · cases hp : performTransition rng handle (t + dt) ss { s with g := g } with
      | error e s2 => rw [hp] at h; cases h
      | ok u s2 =>
        rw [hp] at h
        simp only at h ⊢
        exact ih _ _ h
    · exact ih _ _ h

theorem applyControl_more {rng : Rng K G} {handle : Event K Img → O → O} {rate : RateFunction K} {c : BeamControl K}
    {fuel : ℕ} {s s' : MatCtx K G O} (h : Material.applyControl rng handle rate fuel c s = .ok () s') (k : ℕ)
    (hk : fuel ≤ k) : Material.applyControl rng handle rate k c s = .ok () s' := by
  induction k, hk using Nat.le_induction with
  | base => exact h
  | succ k _ ih =>
    unfold Material.applyControl at ih ⊢
    split_ifs at ih ⊢ with h1
    exact applyLoop_more k 0 s s' ih

theorem applyControls_more {cfg : SimCfg K G O P Img} {fov : Fov K} {cs : List (BeamControl K)} {fuel : ℕ}
    {el el' : Timedelta} {s s' : MatCtx K G O}
    (h : applyControls { cfg with fuel := fuel } fov cs el s = .ok el' s') (k : ℕ) (hk : fuel ≤ k) :
    applyControls { cfg with fuel := k } fov cs el s = .ok el' s' := by
  induction cs generalizing el s with
  | nil => exact h
  | cons c cs ih =>
    simp only [applyControls] at h ⊢
    cases ha : Material.applyControl cfg.rng cfg.handle cfg.rate fuel
        (BeamControl.mk' (fov.toMaterial c.position) c.dwellTime)
        { s with obs := notify cfg.handle (.applyControl (BeamControl.mk' (fov.toMaterial c.position) c.dwellTime)) s.obs }
      with
    | error e s2 => rw [ha] at h; cases h
    | ok u s2 =>
      rw [ha] at h
      rw [applyControl_more ha k hk]
      exact ih h

end

section
variable {G P Img : Type} [MeasurableSpace G] {rng : Rng ℝ G} {μ : Measure G} {rate : RateFunction ℝ}

theorem jumps_last {p : V2 ℝ} {dwell t : Timedelta} {g g' : G} {sheet sheet' : Grid ℝ} {evs : List (Timedelta × Grid ℝ)}
    (h : Jumps rng rate p dwell t g sheet evs g' sheet') : sheet' = lastSheet sheet evs := by
  induction h with
  | over h => rfl
  | idle => rfl
  | late => rfl
  | jump h hr h0 hx hl hi hy rest ih =>
    rw [ih]
    rename_i evs _ _
    cases hl : evs.getLast? with
    | none => rw [List.getLast?_eq_none_iff] at hl; subst hl; rfl
    | some e => simp [lastSheet, List.getLast?_cons, hl]

/-- Writing down transitions. -/
theorem recorder_transitions (hs : List (List (Timedelta × Grid ℝ))) (h evs : List (Timedelta × Grid ℝ)) :
    observeAll (recorder (Img := Img)) (evs.map (fun e => Event.transition e.1 e.2)) (hs ++ [h]) = hs ++ [h ++ evs] := by
  induction evs generalizing h with
  | nil => simp [observeAll]
  | cons e evs ih =>
    have := ih (h ++ [e])
    simp only [observeAll, List.map_cons, List.foldl_cons, recorder] at this ⊢
    rw [List.getLast?_concat, List.dropLast_concat]
    simp only
    rw [this]
    simp

/-! ### One control -/

/-- What an observer hears during a control. -/
theorem heard (c : BeamControl ℝ) (g : G) (sheet : Grid ℝ) (evs : List (Timedelta × Grid ℝ)) :
    (∃ fuel s', Material.applyControl rng (recorder (Img := Img)) rate fuel c ⟨g, ⟨true, some sheet⟩, [[[]]]⟩ =
      .ok () s' ∧ s'.obs = [[evs]]) ↔
    ∃ g' sheet', Jumps rng rate c.position c.dwellTime 0 g sheet evs g' sheet' := by
  constructor
  · rintro ⟨fuel, s', h, hobs⟩
    obtain ⟨evs', sheet', hj, -, -, ho⟩ := (C72_jump_process rng recorder rate c ⟨g, ⟨true, some sheet⟩, [[[]]]⟩ s' sheet
      rfl rfl).1 ⟨fuel, h⟩
    have := recorder_transitions (Img := Img) [] [] evs'
    simp only [List.nil_append] at this
    rw [hobs] at ho
    simp only [List.map_cons, List.map_nil, this, List.cons.injEq, and_true] at ho
    subst ho
    exact ⟨_, _, hj⟩
  · rintro ⟨g', sheet', hj⟩
    have := recorder_transitions (Img := Img) [] [] evs
    simp only [List.nil_append] at this
    obtain ⟨fuel, h⟩ := (C72_jump_process rng (recorder (Img := Img)) rate c ⟨g, ⟨true, some sheet⟩, [[[]]]⟩
      ⟨g', ⟨true, some sheet'⟩, [[evs]]⟩ sheet rfl rfl).2 ⟨evs, sheet', hj, rfl, rfl, by simp [this]⟩
    exact ⟨fuel, _, h, rfl⟩

/-- C127.  The beam is held at one place for less than an hour, with a perfect generator.  For every history (times and
sheets) the probability that an observer hears exactly this history is the product of the probabilities of its waiting
times, under the total rate of the sheet at that time, of its successors, in proportion to their rates, and of nothing
happening from the last one to the end. -/
theorem C127_history (hf : Fair rng μ) (hl : rng.Lawful) (c : BeamControl ℝ) (hd : c.dwellTime < 3600000000)
    (hrate : ∀ sheet ss, rate sheet c.position = .ok ss → ∀ y ∈ ss, 0 ≤ y.rate) (sheet : Grid ℝ)
    (evs : List (Timedelta × Grid ℝ)) :
    μ {g | ∃ fuel s', Material.applyControl rng (recorder (Img := Img)) rate fuel c ⟨g, ⟨true, some sheet⟩, [[[]]]⟩ =
      .ok () s' ∧ s'.obs = [[evs]]} = ENNReal.ofReal (historyProb rate c.position c.dwellTime 0 sheet evs) := by
  have key := (histories_law hf hl hd hrate MeasurableSet.univ evs 0 sheet le_rfl).2
  rw [hf.total, mul_one] at key
  rw [← key]
  congr 1
  ext g
  simp only [histories, Set.mem_ofPred_eq, Set.mem_univ, and_true]
  exact heard c g sheet evs

theorem quietProb_exposure (R : ℝ) {dwell : Timedelta} (h : 0 < dwell) :
    quietProb R (dwell + 1) = Real.exp (-(R * exposure dwell)) := by
  unfold quietProb exposure
  rw [if_neg (by omega)]
  push_cast
  congr 4
  ring

/-- C127.  In particular nothing happens with the probability `exp (-R t)`, for the total rate `R` and the time `t` of
the exposure: this is the probability of the label 0 that the scoring of rate predictions is based on (C126). -/
theorem C127_stays (hf : Fair rng μ) (hl : rng.Lawful) (c : BeamControl ℝ) (h0 : 0 < c.dwellTime)
    (hd : c.dwellTime < 3600000000) (hrate : ∀ sheet ss, rate sheet c.position = .ok ss → ∀ y ∈ ss, 0 ≤ y.rate)
    (sheet : Grid ℝ) (ss : List (Successor ℝ)) (hr : rate sheet c.position = .ok ss) (hne : ss ≠ []) :
    μ {g | ∃ fuel s', Material.applyControl rng (recorder (Img := Img)) rate fuel c ⟨g, ⟨true, some sheet⟩, [[[]]]⟩ =
      .ok () s' ∧ s'.obs = [[[]]]} = ENNReal.ofReal (labelProb (ss.map (·.rate)) (exposure c.dwellTime) 0) := by
  rw [C127_history hf hl c hd hrate sheet []]
  congr 1
  unfold historyProb labelProb
  rw [if_neg (by omega), hr]
  simp only [if_true]
  rw [if_neg hne, sub_zero, quietProb_exposure _ h0]
  rfl

theorem rounds_law (hf : Fair rng μ) {dwell : Timedelta} (h0 : 0 < dwell) (hd : dwell < 3600000000)
    {ss : List (Successor ℝ)} (hnn : ∀ y ∈ ss, 0 ≤ y.rate) (hs : sumRates ss ≠ 0) (next : Grid ℝ) (E : ℤ → Set G)
    (hE : ∀ k, 0 ≤ k → MeasurableSet (E k) ∧ μ (E k) = 1) :
    μ (⋃ k ∈ Finset.Icc 0 dwell, ⋃ i ∈ leadingTo ss next,
      round rng (sumRates ss) (ss.map (fun z => z.rate / sumRates ss)) k i (E k)) =
      ENNReal.ofReal ((1 - quietProb (sumRates ss) (dwell + 1)) * shareOf ss next) := by
  have hpos := sumRates_pos hnn hs
  have hk : ∀ k ∈ Finset.Icc 0 dwell, 0 ≤ k ∧ k + 1 ≤ 3600000000 := by
    intro k hk
    have := Finset.mem_Icc.1 hk
    omega
  have hgd : ∀ i ∈ leadingTo ss next, 0 ≤ (ss.map (fun z => z.rate / sumRates ss)).getD i 0 := by
    intro i hi
    have hi' : i < (ss.map (fun z => z.rate / sumRates ss)).length := by
      simp only [leadingTo, Finset.mem_filter, Finset.mem_range] at hi
      simpa using hi.1
    rw [List.getD_eq_getElem?_getD, List.getElem?_eq_getElem hi', Option.getD_some]
    exact shares_nonneg hnn _ (List.getElem_mem hi')
  rw [measure_biUnion_finset]
  · have inner : ∀ k ∈ Finset.Icc 0 dwell, μ (⋃ i ∈ leadingTo ss next,
        round rng (sumRates ss) (ss.map (fun z => z.rate / sumRates ss)) k i (E k)) =
        ENNReal.ofReal (waitProb (sumRates ss) k) * ENNReal.ofReal (shareOf ss next) := by
      intro k hk'
      rw [measure_biUnion_finset]
      · rw [Finset.sum_congr rfl (fun i _ => round_prob hf hpos (shares_nonneg hnn) (shares_total hs) (hk k hk').2 i
          (hE k (hk k hk').1).1), (hE k (hk k hk').1).2, ← Finset.mul_sum]
        simp only [mul_one]
        rw [← ENNReal.ofReal_sum_of_nonneg hgd, sum_leadingTo]
      · intro i _ j _ hij
        simp only [Function.onFun]
        rw [Set.disjoint_left]
        rintro g ⟨_, hi, _⟩ ⟨_, hj, _⟩
        exact hij (hi.symm.trans hj)
      · intro i _
        exact round_measurable hf hpos _ (hk k hk').2 i (hE k (hk k hk').1).1
    rw [Finset.sum_congr rfl inner, ← Finset.sum_mul,
      ← ENNReal.ofReal_sum_of_nonneg (fun k _ => waitProb_nonneg hpos.le k)]
    have := sum_waitProb (sumRates ss) dwell.toNat
    rw [Int.toNat_of_nonneg h0.le] at this
    rw [this, ENNReal.ofReal_mul]
    exact sub_nonneg.2 (quietProb_le_one hpos.le _)
  · intro i _ j _ hij
    simp only [Function.onFun]
    rw [Set.disjoint_left]
    intro g h1 h2
    simp only [Set.mem_iUnion] at h1 h2
    obtain ⟨_, _, hi, _⟩ := h1
    obtain ⟨_, _, hj, _⟩ := h2
    exact hij (hi.symm.trans hj)
  · intro k hk'
    exact Finset.measurableSet_biUnion _ (fun i _ => round_measurable hf hpos _ (hk k hk').2 i (hE k (hk k hk').1).1)

/-- C127.  And the first transition is that to the `k`-th successor with the probability of the label `k + 1`: one minus
`exp (-R t)`, times the successor's share of the total rate. -/
theorem C127_leaves (hf : Fair rng μ) (hl : rng.Lawful) (c : BeamControl ℝ) (h0 : 0 < c.dwellTime)
    (hd : c.dwellTime < 3600000000) (Sheets : Grid ℝ → Prop) (B : ℝ) (ho : Orderly rate c.position Sheets B)
    (sheet : Grid ℝ) (hsheet : Sheets sheet) (ss : List (Successor ℝ)) (hr : rate sheet c.position = .ok ss)
    (hnd : (ss.map (·.grid)).Nodup) (k : ℕ) (y : Successor ℝ) (hy : ss[k]? = some y) :
    μ {g | ∃ fuel s', Material.applyControl rng (recorder (Img := Img)) rate fuel c ⟨g, ⟨true, some sheet⟩, [[[]]]⟩ =
      .ok () s' ∧ ∃ time rest, s'.obs = [[(time, y.grid) :: rest]]} =
      ENNReal.ofReal (labelProb (ss.map (·.rate)) (exposure c.dwellTime) (k + 1)) := by
  classical
  obtain ⟨ss', hr', hne, hss, hB⟩ := ho.rates sheet hsheet
  rw [hr, Except.ok.injEq] at hr'
  subst hr'
  have hnn : ∀ y ∈ ss, 0 ≤ y.rate := fun y hy => (hss y hy).1
  have hset : {g | ∃ fuel s', Material.applyControl rng (recorder (Img := Img)) rate fuel c
      ⟨g, ⟨true, some sheet⟩, [[[]]]⟩ = .ok () s' ∧ ∃ time rest, s'.obs = [[(time, y.grid) :: rest]]} =
      {g | ∃ time rest g' sheet', Jumps rng rate c.position c.dwellTime 0 g sheet ((time, y.grid) :: rest) g' sheet'} := by
    ext g
    simp only [Set.mem_ofPred_eq]
    constructor
    · rintro ⟨fuel, s', h, time, rest, hobs⟩
      exact ⟨time, rest, (heard c g sheet _).1 ⟨fuel, s', h, hobs⟩⟩
    · rintro ⟨time, rest, h⟩
      obtain ⟨fuel, s', h, hobs⟩ := (heard (Img := Img) c g sheet _).2 h
      exact ⟨fuel, s', h, time, rest, hobs⟩
  rw [hset]
  have hshare : shareOf ss y.grid = y.rate / sumRates ss := by
    have hlead : leadingTo ss y.grid = {k} := by
      ext i
      simp only [leadingTo, Finset.mem_filter, Finset.mem_range, Finset.mem_singleton]
      constructor
      · rintro ⟨hi, z, hz, hzg⟩
        have h1 : (ss.map (·.grid))[i]? = some y.grid := by simp [hz, hzg]
        have h2 : (ss.map (·.grid))[k]? = some y.grid := by simp [hy]
        exact (List.getElem?_inj (by simpa using hi) hnd).1 (h1.trans h2.symm)
      · rintro rfl
        exact ⟨(List.getElem?_eq_some_iff.1 hy).1, y, hy, rfl⟩
    rw [← sum_leadingTo, hlead, Finset.sum_singleton, List.getD_eq_getElem?_getD, List.getElem?_map, hy]
    rfl
  have hlabel : labelProb (ss.map (·.rate)) (exposure c.dwellTime) (k + 1) =
      (1 - quietProb (sumRates ss) (c.dwellTime + 1)) * shareOf ss y.grid := by
    rw [hshare, quietProb_exposure _ h0]
    unfold labelProb
    rw [if_neg (by omega), Nat.add_sub_cancel, List.getD_eq_getElem?_getD, List.getElem?_map, hy]
    rfl
  rw [hlabel]
  by_cases hs : sumRates ss = 0
  · have : {g | ∃ time rest g' sheet', Jumps rng rate c.position c.dwellTime 0 g sheet ((time, y.grid) :: rest) g'
        sheet'} = ∅ := by
      ext g
      simp only [Set.mem_ofPred_eq, Set.mem_empty_iff_false, iff_false]
      rintro ⟨time, rest, g', sheet', hj⟩
      generalize y.grid = next at hj
      cases hj with
      | jump _ hr' h0' => rw [hr, Except.ok.injEq] at hr'; subst hr'; exact h0' hs
    rw [this, measure_empty, hshare, hs]
    simp
  have hpos := sumRates_pos hnn hs
  apply le_antisymm
  · rw [← rounds_law hf h0 hd hnn hs y.grid (fun _ => Set.univ) (fun _ _ => ⟨MeasurableSet.univ, hf.total⟩)]
    apply measure_mono
    rintro g ⟨time, rest, g', sheet', hj⟩
    have hnon : ∀ x g1, rng.exponential (1 / sumRates ss) g = (x, g1) → 0 ≤ ofSeconds (min x 3600) := by
      intro x g1 hx
      have := hl.exponential_nonneg (1 / sumRates ss) g (by positivity)
      rw [hx] at this
      exact ofSeconds_nonneg (le_min this (by norm_num))
    have htime : 0 ≤ time ∧ time ≤ c.dwellTime := by
      clear hshare hlabel hset
      generalize y.grid = next at hj
      cases hj with
      | jump _ hr' _ hx hle =>
        rw [hr, Except.ok.injEq] at hr'
        subst hr'
        have := hnon _ _ hx
        omega
    have hmem : g ∈ histories rng rate c.position c.dwellTime Set.univ 0 sheet ((time, y.grid) :: rest) :=
      ⟨g', sheet', hj, trivial⟩
    rw [histories_cons h0 htime.2 hr hs] at hmem
    simp only [Set.mem_iUnion] at hmem ⊢
    obtain ⟨i, hi, hw, hp, -⟩ := hmem
    exact ⟨time, Finset.mem_Icc.2 htime, i, hi, by simpa using hw, hp, trivial⟩
  · have hmemy : y ∈ ss := List.mem_of_getElem? hy
    set bad : ℤ → Set G := fun time => toMeasurable μ {g | ¬ ∃ evs g' sheet',
      Jumps rng rate c.position c.dwellTime time g y.grid evs g' sheet' ∧ Sheets sheet' ∧ g' ∉ (∅ : Set G)} with hbad
    rw [← rounds_law hf h0 hd hnn hs y.grid (fun time => (bad time)ᶜ) (by
      intro time ht
      refine ⟨(measurableSet_toMeasurable _ _).compl, ?_⟩
      have hzero : μ (bad time) = 0 := by
        rw [hbad]
        simp only
        rw [measure_toMeasurable]
        exact ends (N := fun _ => ∅) hf hl hd ho (fun _ _ => measure_empty) ht (hss y hmemy).2
      rw [measure_compl (measurableSet_toMeasurable _ _) (by rw [hzero]; simp), hf.total, hzero, tsub_zero])]
    apply measure_mono
    intro g hg
    simp only [Set.mem_iUnion] at hg
    obtain ⟨time, ht, i, hi, hw, hp, hgood⟩ := hg
    have ht' := Finset.mem_Icc.1 ht
    have : ∃ evs g' sheet', Jumps rng rate c.position c.dwellTime time
        (rng.choiceP (ss.map (fun z => z.rate / sumRates ss)) (rng.exponential (1 / sumRates ss) g).2).2 y.grid evs g'
        sheet' := by
      by_contra hno
      apply hgood
      apply subset_toMeasurable
      rintro ⟨evs, g', sheet', hj, -⟩
      exact hno ⟨evs, g', sheet', hj⟩
    obtain ⟨evs, g', sheet', hj⟩ := this
    have hmem : g ∈ histories rng rate c.position c.dwellTime Set.univ 0 sheet ((time, y.grid) :: evs) := by
      rw [histories_cons h0 ht'.2 hr hs]
      simp only [Set.mem_iUnion]
      exact ⟨i, hi, by simpa using hw, hp, g', sheet', hj, trivial⟩
    obtain ⟨g', sheet', hj, -⟩ := hmem
    exact ⟨time, evs, g', sheet', hj⟩

/-! ### Several controls -/

/-- The states from which the controls have the histories `hs`, leaving a state in `E`. -/
def runs (rng : Rng ℝ G) (rate : RateFunction ℝ) (E : Set G) :
    Grid ℝ → List (V2 ℝ × Timedelta) → List (List (Timedelta × Grid ℝ)) → Set G
  | _, [], [] => E
  | sheet, (p, dwell) :: cs, evs :: hs => histories rng rate p dwell (runs rng rate E (lastSheet sheet evs) cs hs) 0 sheet evs
  | _, _, _ => ∅

theorem controlsProb_nonneg (hrate : ∀ sheet p ss, rate sheet p = .ok ss → ∀ y ∈ ss, 0 ≤ y.rate)
    (cs : List (V2 ℝ × Timedelta)) (sheet : Grid ℝ) (hs : List (List (Timedelta × Grid ℝ))) :
    0 ≤ controlsProb rate sheet cs hs := by
  induction cs generalizing sheet hs with
  | nil => cases hs <;> simp [controlsProb]
  | cons c cs ih =>
    cases hs with
    | nil => simp [controlsProb]
    | cons evs hs =>
      exact mul_nonneg (historyProb_nonneg (fun sheet ss => hrate sheet c.1 ss) 0 sheet evs) (ih _ _)

theorem runs_law (hf : Fair rng μ) (hl : rng.Lawful)
    (hrate : ∀ sheet p ss, rate sheet p = .ok ss → ∀ y ∈ ss, 0 ≤ y.rate) {E : Set G} (hE : MeasurableSet E)
    (cs : List (V2 ℝ × Timedelta)) (hd : ∀ c ∈ cs, c.2 < 3600000000) (sheet : Grid ℝ)
    (hs : List (List (Timedelta × Grid ℝ))) :
    MeasurableSet (runs rng rate E sheet cs hs) ∧
    μ (runs rng rate E sheet cs hs) = ENNReal.ofReal (controlsProb rate sheet cs hs) * μ E := by
  induction cs generalizing sheet hs with
  | nil =>
    cases hs with
    | nil => exact ⟨hE, by simp [runs, controlsProb]⟩
    | cons evs hs => exact ⟨MeasurableSet.empty, by simp [runs, controlsProb]⟩
  | cons c cs ih =>
    cases hs with
    | nil => exact ⟨MeasurableSet.empty, by simp [runs, controlsProb]⟩
    | cons evs hs =>
      obtain ⟨m, e⟩ := ih (fun c hc => hd c (List.mem_cons_of_mem _ hc)) (lastSheet sheet evs) hs
      obtain ⟨m', e'⟩ := histories_law hf hl (hd c List.mem_cons_self) (fun sheet ss => hrate sheet c.1 ss) m evs 0 sheet
        le_rfl
      refine ⟨m', ?_⟩
      simp only [runs]
      rw [e', e, controlsProb, ENNReal.ofReal_mul (historyProb_nonneg (fun sheet ss => hrate sheet c.1 ss) 0 sheet evs),
        mul_assoc]

theorem recorder_control (hs : List (List (Timedelta × Grid ℝ))) (c : BeamControl ℝ) :
    recorder (Img := Img) (.applyControl c) hs = hs ++ [[]] := rfl

theorem controls_start (cfg : SimCfg ℝ G (List (List (Timedelta × Grid ℝ))) P Img) (hrec : cfg.handle = recorder)
    (fov : Fov ℝ) (c : BeamControl ℝ) (cs : List (BeamControl ℝ)) (el : Timedelta) (g : G) (sheet : Grid ℝ)
    (old : List (List (Timedelta × Grid ℝ))) :
    applyControls cfg fov (c :: cs) el ⟨g, ⟨true, some sheet⟩, [old]⟩ =
      match Material.applyControl cfg.rng (recorder (Img := Img)) cfg.rate cfg.fuel
        (BeamControl.mk' (fov.toMaterial c.position) c.dwellTime) ⟨g, ⟨true, some sheet⟩, [old ++ [[]]]⟩ with
      | .error e s2 => .error e s2
      | .ok () s2 => applyControls cfg fov cs (el + c.dwellTime) s2 := by
  simp only [applyControls, notify, hrec, List.map_cons, List.map_nil, recorder_control]
  cases Material.applyControl cfg.rng (recorder (Img := Img)) cfg.rate cfg.fuel
        (BeamControl.mk' (fov.toMaterial c.position) c.dwellTime) ⟨g, ⟨true, some sheet⟩, [old ++ [[]]]⟩ <;> rfl

/-- The state after a control. -/
theorem control_heard {c : BeamControl ℝ} {fuel : ℕ} {g : G} {sheet : Grid ℝ}
    {old : List (List (Timedelta × Grid ℝ))} {s2 : MatCtx ℝ G (List (List (Timedelta × Grid ℝ)))}
    (h : Material.applyControl rng (recorder (Img := Img)) rate fuel c ⟨g, ⟨true, some sheet⟩, [old ++ [[]]]⟩ = .ok () s2) :
    ∃ evs sheet', Jumps rng rate c.position c.dwellTime 0 g sheet evs s2.g sheet' ∧
      s2 = ⟨s2.g, ⟨true, some sheet'⟩, [old ++ [evs]]⟩ := by
  obtain ⟨evs, sheet', hj, hg2, hm2, ho2⟩ := (C72_jump_process rng recorder rate c
    ⟨g, ⟨true, some sheet⟩, [old ++ [[]]]⟩ s2 sheet rfl rfl).1 ⟨fuel, h⟩
  have hrt := recorder_transitions (Img := Img) old [] evs
  simp only [List.nil_append] at hrt
  simp only [List.map_cons, List.map_nil, hrt] at ho2
  refine ⟨evs, sheet', hj, ?_⟩
  obtain ⟨g2, ⟨m1, m2⟩, o2⟩ := s2
  simp only at hg2 hm2 ho2
  subst hg2 hm2 ho2
  rfl

theorem controls_append (cfg : SimCfg ℝ G (List (List (Timedelta × Grid ℝ))) P Img) (hrec : cfg.handle = recorder)
    (fov : Fov ℝ) (cs : List (BeamControl ℝ)) (g : G) (el el' : Timedelta) (sheet : Grid ℝ)
    (old : List (List (Timedelta × Grid ℝ))) (s' : MatCtx ℝ G (List (List (Timedelta × Grid ℝ))))
    (h : applyControls cfg fov cs el ⟨g, ⟨true, some sheet⟩, [old]⟩ = .ok el' s') : ∃ hs, s'.obs = [old ++ hs] := by
  induction cs generalizing g el sheet old with
  | nil =>
    simp only [applyControls, EStateM.Result.ok.injEq] at h
    exact ⟨[], by rw [← h.2]; simp⟩
  | cons c cs ih =>
    rw [controls_start cfg hrec] at h
    cases ha : Material.applyControl cfg.rng (recorder (Img := Img)) cfg.rate cfg.fuel
        (BeamControl.mk' (fov.toMaterial c.position) c.dwellTime) ⟨g, ⟨true, some sheet⟩, [old ++ [[]]]⟩ with
    | error e s2 => rw [ha] at h; cases h
    | ok u s2 =>
      rw [ha] at h
      obtain ⟨evs, sheet', -, hs2⟩ := control_heard ha
      rw [hs2] at h
      obtain ⟨hs, e⟩ := ih _ _ _ _ h
      exact ⟨evs :: hs, by rw [e]; simp⟩

theorem controls_heard (cfg : SimCfg ℝ G (List (List (Timedelta × Grid ℝ))) P Img) (hrec : cfg.handle = recorder)
    (fov : Fov ℝ) (cs : List (BeamControl ℝ)) (g : G) (el : Timedelta) (sheet : Grid ℝ)
    (old hs : List (List (Timedelta × Grid ℝ))) :
    (∃ fuel el' s', applyControls { cfg with fuel := fuel } fov cs el ⟨g, ⟨true, some sheet⟩, [old]⟩ = .ok el' s' ∧
      s'.obs = [old ++ hs]) ↔
    g ∈ runs cfg.rng cfg.rate Set.univ sheet (cs.map (fun c => (fov.toMaterial c.position, c.dwellTime))) hs := by
  induction cs generalizing g el sheet old hs with
  | nil =>
    simp only [applyControls, List.map_nil]
    constructor
    · rintro ⟨fuel, el', s', h, hobs⟩
      simp only [EStateM.Result.ok.injEq] at h
      rw [← h.2] at hobs
      simp only [List.cons.injEq, and_true] at hobs
      have : hs = [] := by simpa using hobs
      subst this
      exact trivial
    · cases hs with
      | nil => exact fun _ => ⟨0, _, _, rfl, by simp⟩
      | cons evs hs => exact fun h => absurd h (by simp [runs])
  | cons c cs ih =>
    constructor
    · rintro ⟨fuel, el', s', h, hobs⟩
      rw [controls_start { cfg with fuel := fuel } hrec] at h
      cases ha : Material.applyControl cfg.rng (recorder (Img := Img)) cfg.rate fuel
          (BeamControl.mk' (fov.toMaterial c.position) c.dwellTime) ⟨g, ⟨true, some sheet⟩, [old ++ [[]]]⟩ with
      | error e s2 => simp only [ha] at h; cases h
      | ok u s2 =>
        simp only [ha] at h
        obtain ⟨evs, sheet', hj, hs2⟩ := control_heard ha
        rw [hs2] at h
        obtain ⟨hs', happ⟩ := controls_append { cfg with fuel := fuel } hrec _ _ _ _ _ _ _ _ h
        have hmem := (ih s2.g (el + c.dwellTime) sheet' (old ++ [evs]) hs').1 ⟨fuel, el', s', h, happ⟩
        rw [hobs, List.cons.injEq, List.append_assoc, List.append_cancel_left_eq] at happ
        obtain ⟨rfl, -⟩ := happ
        refine ⟨s2.g, sheet', hj, ?_⟩
        rw [← jumps_last hj]
        exact hmem
    · intro hmem
      cases hs with
      | nil => exact absurd hmem (by simp [runs])
      | cons evs hs =>
        obtain ⟨g', sheet', hj, hrest⟩ := hmem
        rw [← jumps_last hj] at hrest
        obtain ⟨fuel2, el', s', h2, hobs⟩ := (ih g' (el + c.dwellTime) sheet' (old ++ [evs]) hs).2 hrest
        have hrt := recorder_transitions (Img := Img) old [] evs
        simp only [List.nil_append] at hrt
        obtain ⟨fuel1, h1⟩ := (C72_jump_process cfg.rng (recorder (Img := Img)) cfg.rate
          (BeamControl.mk' (fov.toMaterial c.position) c.dwellTime) ⟨g, ⟨true, some sheet⟩, [old ++ [[]]]⟩ ⟨g', ⟨true, some sheet'⟩, [old ++ [evs]]⟩ sheet rfl rfl).2
          ⟨evs, sheet', hj, rfl, rfl, by simp [hrt]⟩
        refine ⟨max fuel1 fuel2, el', s', ?_, by rw [hobs]; simp⟩
        rw [controls_start { cfg with fuel := max fuel1 fuel2 } hrec]
        simp only
        rw [applyControl_more h1 _ (le_max_left _ _)]
        simp only
        exact applyControls_more h2 _ (le_max_right _ _)

/-- C127.  When the beam is held at one place after the other, the histories of the controls have the probabilities of
the sheets they start from: the probability that an observer hears exactly these histories is their product. -/
theorem C127_controls (cfg : SimCfg ℝ G (List (List (Timedelta × Grid ℝ))) P Img) (hrec : cfg.handle = recorder)
    (hf : Fair cfg.rng μ) (hl : cfg.rng.Lawful)
    (hrate : ∀ sheet p ss, cfg.rate sheet p = .ok ss → ∀ y ∈ ss, 0 ≤ y.rate) (fov : Fov ℝ)
    (cs : List (BeamControl ℝ)) (hd : ∀ c ∈ cs, c.dwellTime < 3600000000) (sheet : Grid ℝ)
    (hs : List (List (Timedelta × Grid ℝ))) :
    μ {g | ∃ fuel el s', applyControls { cfg with fuel := fuel } fov cs 0 ⟨g, ⟨true, some sheet⟩, [[]]⟩ = .ok el s' ∧
      s'.obs = [hs]} =
    ENNReal.ofReal (controlsProb cfg.rate sheet (cs.map (fun c => (fov.toMaterial c.position, c.dwellTime))) hs) := by
  have key := (runs_law hf hl hrate MeasurableSet.univ (cs.map (fun c => (fov.toMaterial c.position, c.dwellTime)))
    (by
      intro c hc
      obtain ⟨c, hc', rfl⟩ := List.mem_map.1 hc
      exact hd c hc') sheet hs).2
  rw [hf.total, mul_one] at key
  rw [← key]
  congr 1
  ext g
  rw [Set.mem_ofPred_eq, ← controls_heard cfg hrec fov cs g 0 sheet [] hs]
  rfl

end

/-! ### C128: it ends -/

section
variable {G O P Img F : Type} [MeasurableSpace G] {rng : Rng ℝ G} {μ : Measure G} {rate : RateFunction ℝ}

/-- The sheet with these positions whose `i`-th atom is the silicon. -/
def dopedAt (positions : List (V2 ℝ)) (i : ℕ) : Grid ℝ :=
  ⟨positions, (List.range positions.length).map (fun j => if j = i then SILICON else CARBON)⟩

theorem doped_eq {g : Grid ℝ} (h : SingleDoped g) : ∃ i < g.positions.length, g = dopedAt g.positions i := by
  obtain ⟨i, hi, hall⟩ := h.one
  refine ⟨i, by rw [h.wf]; exact hi, ?_⟩
  ext1
  · rfl
  · apply List.ext_getElem?
    intro j
    by_cases hj : j < g.numbers.length
    · rw [hall j hj]
      simp [dopedAt, h.wf, hj]
    · rw [List.getElem?_eq_none (by omega), List.getElem?_eq_none (by simp [dopedAt, h.wf]; omega)]

/-- Regular rate functions are orderly: there are only finitely many sheets to get to. -/
theorem orderly (hr : SwapRates rate) (hdef : RatesDefined rate) (p : V2 ℝ) {sheet : Grid ℝ} (hgood : GoodSheet sheet) :
    ∃ B, Orderly rate p (fun g => SingleDoped g ∧ g.positions = sheet.positions) B := by
  set total : ℕ → ℝ := fun i => match rate (dopedAt sheet.positions i) p with
    | .ok ss => sumRates ss
    | .error _ => 0 with htotal
  have hnn : ∀ i, 0 ≤ total i := by
    intro i
    rw [htotal]
    simp only
    cases h : rate (dopedAt sheet.positions i) p with
    | error e => exact le_rfl
    | ok ss =>
      refine List.sum_nonneg fun x hx => ?_
      obtain ⟨y, hy, rfl⟩ := List.mem_map.1 hx
      exact hr.nonneg _ _ _ h y hy
  refine ⟨∑ i ∈ Finset.range sheet.positions.length, total i, ⟨fun g hg => ?_⟩⟩
  obtain ⟨hdop, hpos⟩ := hg
  obtain ⟨ss, hss, hne⟩ := hdef g p hdop (by rw [hpos]; exact hgood.four) (by rw [hpos]; exact hgood.nodup)
  refine ⟨ss, hss, hne, fun y hy => ⟨hr.nonneg _ _ _ hss y hy, ?_⟩, ?_⟩
  · obtain ⟨h1, h2⟩ := hr.doped g p ss hss hdop y hy
    exact ⟨h1, h2.trans hpos⟩
  · obtain ⟨i, hi, he⟩ := doped_eq hdop
    have : total i = sumRates ss := by
      rw [htotal]
      simp only
      rw [← hpos, ← he, hss]
    rw [← this]
    exact Finset.single_le_sum (f := total) (fun i _ => hnn i) (Finset.mem_range.2 (by rw [← hpos]; exact hi))

/-- C128.  With a perfect generator, holding the beam for less than an hour ends with probability one, on every sheet
with a single silicon, whatever the observers do: the probability of the generator states from which the control does
not return for any number of rounds is zero. -/
theorem C128_ends (hf : Fair rng μ) (hl : rng.Lawful) (hr : SwapRates rate) (hdef : RatesDefined rate)
    (handle : Event ℝ Img → O → O) (obs : List O) (c : BeamControl ℝ) (hd : c.dwellTime < 3600000000)
    (sheet : Grid ℝ) (hgood : GoodSheet sheet) :
    μ {g | ¬ ∃ fuel s', Material.applyControl rng handle rate fuel c ⟨g, ⟨true, some sheet⟩, obs⟩ = .ok () s'} = 0 := by
  obtain ⟨B, ho⟩ := orderly hr hdef c.position hgood
  refine measure_mono_null ?_ (ends (N := fun _ => ∅) hf hl hd ho (fun _ _ => measure_empty) le_rfl ⟨hgood.doped, rfl⟩)
  rintro g hg ⟨evs, g', sheet', hj, -⟩
  obtain ⟨fuel, h⟩ := (C72_jump_process rng handle rate c ⟨g, ⟨true, some sheet⟩, obs⟩
    ⟨g', ⟨true, some sheet'⟩, obs.map (observeAll handle (evs.map (fun e => Event.transition e.1 e.2)))⟩ sheet rfl
    rfl).2 ⟨evs, sheet', hj, rfl, rfl, rfl⟩
  exact hg ⟨fuel, _, h⟩

/-- C128.  Many transitions during one control are exponentially unlikely: if the total rates are at most `B` per
second, `n` or more of them have at most the probability `(1 - exp (-B t)) ^ n` for an exposure of `t` seconds. -/
theorem C128_many (hf : Fair rng μ) (hl : rng.Lawful) (c : BeamControl ℝ) (h0 : 0 < c.dwellTime)
    (hd : c.dwellTime < 3600000000) (Sheets : Grid ℝ → Prop) (B : ℝ) (ho : Orderly rate c.position Sheets B)
    (sheet : Grid ℝ) (hsheet : Sheets sheet) (n : ℕ) :
    μ {g | ∃ fuel s', Material.applyControl rng (recorder (Img := Img)) rate fuel c ⟨g, ⟨true, some sheet⟩, [[[]]]⟩ =
      .ok () s' ∧ ∃ evs, s'.obs = [[evs]] ∧ n ≤ evs.length} ≤
      ENNReal.ofReal ((1 - Real.exp (-(B * exposure c.dwellTime))) ^ n) := by
  rw [← quietProb_exposure B h0]
  refine (measure_mono ?_).trans (many hf hl hd ho hsheet n)
  rintro g ⟨fuel, s', h, evs, hobs, hn⟩
  obtain ⟨g', sheet', hj⟩ := (heard c g sheet evs).1 ⟨fuel, s', h, hobs⟩
  exact ⟨evs, g', sheet', hj, hn⟩

/-- Almost surely all controls return. -/
theorem controls_end (cfg : SimCfg ℝ G O P Img) (hf : Fair cfg.rng μ) (hl : cfg.rng.Lawful) (hr : SwapRates cfg.rate)
    (hdef : RatesDefined cfg.rate) (fov : Fov ℝ) (cs : List (BeamControl ℝ))
    (hd : ∀ c ∈ cs, c.dwellTime < 3600000000) (sheet : Grid ℝ) (hgood : GoodSheet sheet) :
    μ {g | ¬ ∀ el obs, ∃ fuel el' s', applyControls { cfg with fuel := fuel } fov cs el ⟨g, ⟨true, some sheet⟩, obs⟩ =
      .ok el' s'} = 0 := by
  induction cs generalizing sheet with
  | nil =>
    have : {g : G | ¬ ∀ el obs, ∃ fuel el' s', applyControls { cfg with fuel := fuel } fov [] el
        ⟨g, ⟨true, some sheet⟩, obs⟩ = .ok el' s'} = ∅ := by
      ext g
      simp only [Set.mem_ofPred_eq, Set.mem_empty_iff_false, iff_false, not_not]
      exact fun el obs => ⟨0, _, _, rfl⟩
    rw [this, measure_empty]
  | cons c cs ih =>
    obtain ⟨B, ho⟩ := orderly hr hdef (fov.toMaterial c.position) hgood
    refine measure_mono_null ?_ (ends (N := fun sheet' => {g | ¬ ∀ el obs, ∃ fuel el' s',
      applyControls { cfg with fuel := fuel } fov cs el ⟨g, ⟨true, some sheet'⟩, obs⟩ = .ok el' s'}) hf hl
      (hd c List.mem_cons_self) ho (fun sheet' hs' => ih (fun c hc => hd c (List.mem_cons_of_mem _ hc)) sheet'
        ⟨hs'.1, by rw [hs'.2]; exact hgood.four, by rw [hs'.2]; exact hgood.nodup⟩) le_rfl ⟨hgood.doped, rfl⟩)
    rintro g hg ⟨evs, g', sheet', hj, -, hrest⟩
    apply hg
    intro el obs
    simp only [Set.mem_ofPred_eq, not_not] at hrest
    set c' := BeamControl.mk' (fov.toMaterial c.position) c.dwellTime with hc'
    set obs' := (notify cfg.handle (.applyControl c') obs).map
      (observeAll cfg.handle (evs.map (fun e => Event.transition e.1 e.2))) with hobs'
    obtain ⟨fuel1, h1⟩ := (C72_jump_process cfg.rng cfg.handle cfg.rate c'
      ⟨g, ⟨true, some sheet⟩, notify cfg.handle (.applyControl c') obs⟩ ⟨g', ⟨true, some sheet'⟩, obs'⟩ sheet rfl rfl).2
      ⟨evs, sheet', hj, rfl, rfl, rfl⟩
    obtain ⟨fuel2, el', s', h2⟩ := hrest (el + c'.dwellTime) obs'
    refine ⟨max fuel1 fuel2, el', s', ?_⟩
    simp only [applyControls]
    rw [← hc', applyControl_more h1 _ (le_max_left _ _)]
    exact applyControls_more h2 _ (le_max_right _ _)

/-- C128.  So every step of the simulator, with any number of controls of less than an hour each, returns with
probability one, given enough rounds. -/
theorem C128_step (cfg : SimCfg ℝ G O P Img) (hf : Fair cfg.rng μ) (hl : cfg.rng.Lawful) (hr : SwapRates cfg.rate)
    (hdef : RatesDefined cfg.rate) (b : Bool) (cs : List (BeamControl ℝ)) (hd : ∀ c ∈ cs, c.dwellTime < 3600000000)
    (s : Sim ℝ G O P) (hinv : SimInv s) (fov : Fov ℝ) (hfov : s.fov = some fov) (sheet : Grid ℝ)
    (hsheet : s.ctx.mat.grid = some sheet) (hgood : GoodSheet sheet) :
    μ {g | ¬ ∃ rounds, ∀ fuel, rounds ≤ fuel → ∃ o s', Sim.step { cfg with fuel := fuel } cs b
      { s with ctx := { s.ctx with g := g } } = .ok o s'} = 0 := by
  refine measure_mono_null ?_ (controls_end cfg hf hl hr hdef fov cs hd sheet hgood)
  intro g hg hall
  apply hg
  obtain ⟨-, hmat, -⟩ := hinv.sheet fov hfov
  obtain ⟨fuel, el, c', h⟩ := hall 0 s.ctx.obs
  refine ⟨fuel, fun k hk => ?_⟩
  refine simStep_ok { cfg with fuel := k } hr b cs { s with ctx := { s.ctx with g := g } } (SimInv.reseed hinv g) fov hfov sheet
    hsheet hgood (el := el) (c' := c') ?_
  have e : ({ s.ctx with g := g } : MatCtx ℝ G O) = ⟨g, ⟨true, some sheet⟩, s.ctx.obs⟩ := by
    obtain ⟨⟨g0, ⟨m1, m2⟩, o0⟩, _⟩ := s
    simp only at hmat hsheet
    subst hmat hsheet
    rfl
  simp only
  rw [e]
  exact applyControls_more h k hk

/-- C128.  And so does every step of an environment, after any history of calls and whatever the action (of the right
length) is. -/
theorem C128_episode (cfg : EnvCfg ℝ G O P Img F) (n : ℕ) (hc : PlayCfg cfg n) (hf : Fair cfg.sim.rng μ) (g0 : G)
    (ga : Option G) (beam : V2 ℝ) (goal : GoalState ℝ) (hgoal : GoalRangeOk goal) (history : List (EnvOp ℝ O))
    (a : List ℝ) (ha : a.length = actionSize cfg.adapter) (s : Env ℝ G O P Img)
    (hs : s = Env.after cfg (Env.fresh g0 ga beam goal) history) :
    μ {g | ¬ ∃ rounds, ∀ fuel, rounds ≤ fuel → ∃ t s', Env.step { cfg with sim := { cfg.sim with fuel := fuel } } a
      { s with sim := { s.sim with ctx := { s.sim.ctx with g := g } } } = .ok t s'} = 0 := by
  have h : Playing n s := by
    rw [hs]; exact after_plays hc history (fresh_plays (O := O) (P := P) (Img := Img) n g0 ga beam hgoal)
  have hcfg : ∀ fuel, PlayCfg { cfg with sim := { cfg.sim with fuel := fuel } } n := fun fuel =>
    ⟨hc.lawful, hc.wide, hc.generate, hc.features, hc.swaps, hc.rates, hc.dwellOrder, hc.dwellHour⟩
  have hplay : ∀ g, Playing n { s with sim := { s.sim with ctx := { s.sim.ctx with g := g } } } := fun g =>
    ⟨SimInv.reseed h.inv g, h.range, h.live⟩
  by_cases hq : s.requiresReset = true
  · have : {g | ¬ ∃ rounds, ∀ fuel, rounds ≤ fuel → ∃ t s', Env.step { cfg with sim := { cfg.sim with fuel := fuel } } a
        { s with sim := { s.sim with ctx := { s.sim.ctx with g := g } } } = .ok t s'} = ∅ := by
      ext g
      simp only [Set.mem_ofPred_eq, Set.mem_empty_iff_false, iff_false, not_not]
      refine ⟨0, fun fuel _ => ?_⟩
      obtain ⟨t, s', hr, -⟩ := reset_plays (hcfg fuel) (hplay g)
      exact ⟨t, s', by rw [envStep_eq, if_pos hq, hr]⟩
    rw [this, measure_empty]
  simp only [Bool.not_eq_true] at hq
  obtain ⟨⟨fov, hfov⟩, ⟨sheet, off, ang, hg, hgp⟩, hwf, ⟨p, hp⟩, hw, hh⟩ := h.live hq
  obtain ⟨cs, beam', hact⟩ := (C24_total cfg.adapter s.last hwf hw.ne' hh.ne' a ha s.beam).1 (fun _ => by rw [hp]; rfl)
  obtain ⟨c, rfl, _, _, hdw⟩ := C24_one_control_in_view cfg.adapter hc.dwellOrder s.last a s.beam beam' cs hact
  have hgood : GoodSheet sheet := by
    refine ⟨h.inv.doped sheet hg, ?_, ?_⟩
    · rw [hgp]
      obtain ⟨x, hx⟩ := List.exists_mem_of_ne_nil _ (sheet_ne_nil n hc.wide off ang)
      obtain ⟨b, c, d, hnd, hall⟩ := four_near n hc.wide off ang x hx
      have := (hnd.subperm (fun q hq => (hall q hq).1)).length_le
      simpa using this
    · rw [hgp]; exact (C40_honeycomb n off ang).1
  refine measure_mono_null ?_ (C128_step cfg.sim hf hc.lawful hc.swaps hc.rates cfg.requiresImage [c] (by
    intro x hx
    rw [List.mem_singleton.1 hx]
    exact lt_of_le_of_lt hdw hc.dwellHour) s.sim h.inv fov hfov sheet hg hgood)
  rintro g hg' ⟨rounds, hall⟩
  apply hg'
  refine ⟨rounds, fun fuel hfuel => ?_⟩
  obtain ⟨o, sim, hsim⟩ := hall fuel hfuel
  exact envStep_ok (hcfg fuel) (hplay g) hq hact hsim

end

/-! ### The hypotheses can be met -/

/-- Two sheets of two atoms. -/
def sheetA : Grid ℝ := ⟨[⟨0, 0⟩, ⟨1, 0⟩], [14, 6]⟩
def sheetB : Grid ℝ := ⟨[⟨0, 0⟩, ⟨1, 0⟩], [6, 14]⟩

/-- From everywhere to the first with one per second, to the second with two per second. -/
def twoRates : RateFunction ℝ := fun _ _ => .ok [⟨sheetA, 1⟩, ⟨sheetB, 2⟩]

theorem sheets_differ : sheetA ≠ sheetB := by
  intro h
  have := congrArg Grid.numbers h
  simp [sheetA, sheetB] at this

theorem twoRates_nonneg : ∀ sheet p ss, twoRates sheet p = .ok ss → ∀ y ∈ ss, 0 ≤ y.rate := by
  intro sheet p ss h y hy
  simp only [twoRates, Except.ok.injEq] at h
  subst h
  simp only [List.mem_cons, List.not_mem_nil, or_false] at hy
  rcases hy with rfl | rfl <;> norm_num

theorem twoRates_orderly (p : V2 ℝ) : Orderly twoRates p (fun _ => True) 3 :=
  ⟨fun sheet _ => ⟨_, rfl, by simp, fun y hy => ⟨twoRates_nonneg sheet p _ rfl y hy, trivial⟩, by norm_num [sumRates]⟩⟩

theorem twoRates_share : shareOf [⟨sheetA, 1⟩, ⟨sheetB, 2⟩] sheetB = 2 / 3 := by
  norm_num [shareOf, sheets_differ, sumRates]

/-- In a second: a move to the second sheet after half a second, and nothing else. -/
example : Witness.streamLaw {g | ∃ fuel s', Material.applyControl Witness.streamRng (recorder (Img := Unit)) twoRates fuel
    (BeamControl.mk' 0 1000000) ⟨g, ⟨true, some sheetA⟩, [[[]]]⟩ = .ok () s' ∧ s'.obs = [[[(500000, sheetB)]]]} =
    ENNReal.ofReal ((Real.exp (-(3 * ((500000 - 1 / 2) / 1000000))) - Real.exp (-(3 * ((500001 - 1 / 2) / 1000000)))) *
      (2 / 3) * Real.exp (-(3 * ((500001 - 1 / 2) / 1000000)))) := by
  rw [C127_history Witness.streamRng_fair Witness.streamRng_lawful _ (by decide)
    (fun sheet ss => twoRates_nonneg sheet _ ss)]
  congr 1
  have e : sumRates [⟨sheetA, 1⟩, ⟨sheetB, 2⟩] = (3 : ℝ) := by norm_num [sumRates]
  have hne : [⟨sheetA, 1⟩, ⟨sheetB, 2⟩] ≠ ([] : List (Successor ℝ)) := by simp
  norm_num [historyProb, BeamControl.mk', twoRates, twoRates_share, e, waitProb, quietProb, hne]

/-- Nothing happens in a second. -/
example : Witness.streamLaw {g | ∃ fuel s', Material.applyControl Witness.streamRng (recorder (Img := Unit)) twoRates fuel
    (BeamControl.mk' 0 1000000) ⟨g, ⟨true, some sheetA⟩, [[[]]]⟩ = .ok () s' ∧ s'.obs = [[[]]]} =
    ENNReal.ofReal (labelProb [1, 2] (exposure 1000000) 0) :=
  C127_stays Witness.streamRng_fair Witness.streamRng_lawful (BeamControl.mk' 0 1000000) (by decide) (by decide)
    (fun sheet ss => twoRates_nonneg sheet _ ss) sheetA _ rfl (by simp)

/-- The first move in a second is to the second sheet. -/
example : Witness.streamLaw {g | ∃ fuel s', Material.applyControl Witness.streamRng (recorder (Img := Unit)) twoRates fuel
    (BeamControl.mk' 0 1000000) ⟨g, ⟨true, some sheetA⟩, [[[]]]⟩ = .ok () s' ∧
      ∃ time rest, s'.obs = [[(time, sheetB) :: rest]]} =
    ENNReal.ofReal (labelProb [1, 2] (exposure 1000000) 2) :=
  C127_leaves Witness.streamRng_fair Witness.streamRng_lawful (BeamControl.mk' 0 1000000) (by decide) (by decide)
    (fun _ => True) 3 (twoRates_orderly _) sheetA trivial _ rfl (by simp [sheets_differ]) 1 ⟨sheetB, 2⟩ rfl

/-- Twenty moves or more in a second. -/
example : Witness.streamLaw {g | ∃ fuel s', Material.applyControl Witness.streamRng (recorder (Img := Unit)) twoRates fuel
    (BeamControl.mk' 0 1000000) ⟨g, ⟨true, some sheetA⟩, [[[]]]⟩ = .ok () s' ∧
      ∃ evs, s'.obs = [[evs]] ∧ 20 ≤ evs.length} ≤
    ENNReal.ofReal ((1 - Real.exp (-(3 * exposure 1000000))) ^ 20) :=
  C128_many Witness.streamRng_fair Witness.streamRng_lawful (BeamControl.mk' 0 1000000) (by decide) (by decide)
    (fun _ => True) 3 (twoRates_orderly _) sheetA trivial 20

/-- An environment like that of C99 with a perfect generator. -/
noncomputable def chanceCfg (O Img : Type) (handle : Event ℝ Img → O → O) (image : Img) :
    EnvCfg ℝ (ℕ → ℝ) O Unit Img (List ℝ) where
  sim := {
    fuel := 10
    rng := Witness.streamRng
    generate := generatePristineGraphene Witness.streamRng 50
    rate := pristineRates Witness.knn HumanPrior.default.predict
    render := fun _ _ _ g => (image, g)
    sampleParams := fun g => ((), g)
    imageDuration := 2000000
    handle := handle }
  adapter := .relative 1500000 10000000 BOND
  features := pristineFeatures Witness.knn
  requiresImage := false
  seedRng := fun _ _ => 0

theorem chanceCfg_ok (O Img : Type) (handle : Event ℝ Img → O → O) (image : Img) :
    PlayCfg (chanceCfg O Img handle image) 50 :=
  ⟨Witness.streamRng_lawful, by norm_num, rfl, (C69_features_defined Witness.knn id).1 _,
    C39_pristine_swaps _ _, (C99_rates_defined Witness.knn).2.1,
    show (1500000 : ℤ) ≤ 10000000 by decide, show (10000000 : ℤ) < 3600000000 by decide⟩

/-- A sheet of four atoms. -/
def smallSheet : Grid ℝ := ⟨[⟨0, 0⟩, ⟨1, 0⟩, ⟨0, 1⟩, ⟨1, 1⟩], [14, 6, 6, 6]⟩

theorem smallSheet_good : GoodSheet smallSheet where
  doped := ⟨rfl, 0, by decide, fun j hj => by
    have : j < 4 := hj
    interval_cases j <;> rfl⟩
  four := le_rfl
  nodup := by simp [smallSheet, V2.ext_iff]

/-- A control of ten seconds. -/
example : Witness.streamLaw {g | ¬ ∃ fuel s', Material.applyControl Witness.streamRng (recorder (Img := Unit))
    (pristineRates Witness.knn HumanPrior.default.predict) fuel (BeamControl.mk' 0 10000000)
    ⟨g, ⟨true, some smallSheet⟩, [[]]⟩ = .ok () s'} = 0 :=
  C128_ends Witness.streamRng_fair Witness.streamRng_lawful (C39_pristine_swaps _ _) (C99_rates_defined Witness.knn).2.1
    _ _ _ (by decide) _ smallSheet_good

/-- A step with two controls of a second. -/
example : Witness.streamLaw {g | ¬ ∃ rounds, ∀ fuel, rounds ≤ fuel → ∃ o s',
    Sim.step { (chanceCfg Unit Unit (fun _ o => o) ()).sim with fuel := fuel }
      [BeamControl.mk' 0 1000000, BeamControl.mk' ⟨1, 1⟩ 1000000] false
      ⟨⟨g, ⟨true, some smallSheet⟩, []⟩, true, some 20, some (centredFov 0 20), some ()⟩ = .ok o s'} = 0 :=
  C128_step (chanceCfg Unit Unit (fun _ o => o) ()).sim Witness.streamRng_fair Witness.streamRng_lawful
    (C39_pristine_swaps _ _) (C99_rates_defined Witness.knn).2.1 false _ (by intro c hc; fin_cases hc <;> decide)
    ⟨⟨fun _ => 1, ⟨true, some smallSheet⟩, []⟩, true, some 20, some (centredFov 0 20), some ()⟩
    ⟨fun g hg => by simp only [Option.some.injEq] at hg; rw [← hg]; exact smallSheet_good.doped,
      fun f hf => by
        simp only [Option.some.injEq] at hf
        exact ⟨0, 20, rfl, hf.symm, by norm_num, by norm_num⟩,
      fun f _ => ⟨rfl, rfl, ⟨_, rfl⟩, ⟨_, rfl⟩⟩⟩ _ rfl smallSheet rfl smallSheet_good

/-- Two controls of a second under the human prior's rates. -/
example (sheet : Grid ℝ) (hs : List (List (Timedelta × Grid ℝ))) (fov : Fov ℝ) :
    Witness.streamLaw {g | ∃ fuel el s', applyControls { (chanceCfg _ Unit recorder ()).sim with fuel := fuel } fov
      [BeamControl.mk' 0 1000000, BeamControl.mk' ⟨1, 1⟩ 1000000] 0 ⟨g, ⟨true, some sheet⟩, [[]]⟩ = .ok el s' ∧
      s'.obs = [hs]} =
    ENNReal.ofReal (controlsProb (pristineRates Witness.knn HumanPrior.default.predict) sheet
      [(fov.toMaterial 0, 1000000), (fov.toMaterial ⟨1, 1⟩, 1000000)] hs) :=
  C127_controls (chanceCfg _ Unit recorder ()).sim rfl Witness.streamRng_fair Witness.streamRng_lawful
    (fun sheet p ss => (C39_pristine_swaps (Witness.knn (K := ℝ)) HumanPrior.default.predict).nonneg sheet p ss) fov _
    (by intro c hc; fin_cases hc <;> decide) sheet hs

/-- An action out of range, after a history with an action of the wrong size. -/
example (s : Env ℝ (ℕ → ℝ) Unit Unit Unit) (hs : s = Env.after (chanceCfg Unit Unit (fun _ o => o) ())
    (Env.fresh (fun _ => 1) none ⟨0, 0⟩ GoalState.fresh) [.reset, .step [0, 0, 1], .step [5], .seed 3, .step [1, 0, 0]]) :
    Witness.streamLaw {g | ¬ ∃ rounds, ∀ fuel, rounds ≤ fuel → ∃ t s', Env.step { chanceCfg Unit Unit (fun _ o => o) ()
      with sim := { (chanceCfg Unit Unit (fun _ o => o) ()).sim with fuel := fuel } } [1 / 2, -3, 7]
      { s with sim := { s.sim with ctx := { s.sim.ctx with g := g } } } = .ok t s'} = 0 :=
  C128_episode _ 50 (chanceCfg_ok Unit Unit (fun _ o => o) ()) Witness.streamRng_fair _ none ⟨0, 0⟩ GoalState.fresh
    ⟨by norm_num [GoalState.fresh], by norm_num [GoalState.fresh], by norm_num [GoalState.fresh]⟩ _ _ rfl s hs

end PD.Props
