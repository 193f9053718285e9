/- The chances of histories under the beam (for C127 and C128). -/
import Verif.Spec.Chance
import Verif.Props.Jumps
import Mathlib.Algebra.BigOperators.Field
import Mathlib.Analysis.SpecificLimits.Basic

set_option linter.unusedSectionVars false
set_option linter.unusedSimpArgs false

namespace PD.Props
open PD PD.Spec MeasureTheory ProbabilityTheory

/-! ### Rounding to microseconds -/

theorem le_roundHalfEven (n : ℤ) (y : ℝ) :
    n ≤ roundHalfEven y ↔ (n : ℝ) - 1 / 2 < y ∨ (y = n - 1 / 2 ∧ n % 2 = 0) := by
  have h1 := Int.floor_le y
  have h2 := Int.lt_floor_add_one y
  unfold roundHalfEven
  simp only
  set f := ⌊y⌋ with hf
  split_ifs with a b c
  · constructor
    · intro h
      have : (n : ℝ) ≤ f := by exact_mod_cast h
      left; linarith
    · rintro (h | ⟨h, -⟩)
      · have : (n : ℝ) < f + 1 := by linarith
        have : n < f + 1 := by exact_mod_cast this
        omega
      · have : (n : ℝ) < f + 1 := by linarith
        have : n < f + 1 := by exact_mod_cast this
        omega
  · constructor
    · intro h
      have : (n : ℝ) ≤ f + 1 := by exact_mod_cast h
      left; linarith
    · rintro (h | ⟨h, -⟩)
      · have : (n : ℝ) < f + 2 := by linarith
        have : n < f + 2 := by exact_mod_cast this
        omega
      · have : (n : ℝ) < f + 2 := by linarith
        have : n < f + 2 := by exact_mod_cast this
        omega
  · have hy : y = f + 1 / 2 := by linarith
    constructor
    · intro h
      have : (n : ℝ) ≤ f := by exact_mod_cast h
      left; linarith
    · rintro (h | ⟨h, hn⟩)
      · have : (n : ℝ) < f + 1 := by linarith
        have : n < f + 1 := by exact_mod_cast this
        omega
      · have : (n : ℝ) = f + 1 := by linarith
        have : n = f + 1 := by exact_mod_cast this
        omega
  · have hy : y = f + 1 / 2 := by linarith
    constructor
    · intro h
      rcases h.lt_or_eq with h | h
      · have : (n : ℝ) < f + 1 := by exact_mod_cast h
        left; linarith
      · right
        have : (n : ℝ) = f + 1 := by exact_mod_cast h
        exact ⟨by linarith, by omega⟩
    · rintro (h | ⟨h, -⟩)
      · have : (n : ℝ) < f + 1 := by linarith
        have : n < f + 1 := by exact_mod_cast this
        omega
      · have : (n : ℝ) = f + 1 := by linarith
        have : n = f + 1 := by exact_mod_cast this
        omega

/-- Waiting times of at least `n` microseconds. -/
def atLeast (n : ℤ) : Set ℝ := {x | n ≤ ofSeconds (min x 3600)}

theorem atLeast_eq {n : ℤ} (hn : n ≤ 3600000000) :
    atLeast n = {x | ((n : ℝ) - 1 / 2) / 1000000 < x ∨ (x = (n - 1 / 2) / 1000000 ∧ n % 2 = 0)} := by
  ext x
  have h1 : n ≤ ofSeconds (min x 3600) ↔ n ≤ ofSeconds x := by
    rcases le_total x 3600 with h | h
    · rw [min_eq_left h]
    · rw [min_eq_right h]
      have := ofSeconds_mono h
      rw [hour] at this ⊢
      exact ⟨fun _ => hn.trans this, fun _ => hn⟩
  simp only [atLeast, Set.mem_ofPred_eq]
  rw [h1]
  unfold ofSeconds
  rw [le_roundHalfEven]
  have e1 : (n : ℝ) - 1 / 2 < x * 1000000 ↔ ((n : ℝ) - 1 / 2) / 1000000 < x := by
    rw [div_lt_iff₀ (by norm_num)]
  have e2 : x * 1000000 = (n : ℝ) - 1 / 2 ↔ x = ((n : ℝ) - 1 / 2) / 1000000 := by
    rw [eq_div_iff (by norm_num)]
  rw [e1, e2]

theorem atLeast_measurable {n : ℤ} (hn : n ≤ 3600000000) : MeasurableSet (atLeast n) := by
  rw [atLeast_eq hn]
  by_cases h : n % 2 = 0
  · have : {x : ℝ | ((n : ℝ) - 1 / 2) / 1000000 < x ∨ (x = (n - 1 / 2) / 1000000 ∧ n % 2 = 0)} =
        Set.Ioi (((n : ℝ) - 1 / 2) / 1000000) ∪ {((n : ℝ) - 1 / 2) / 1000000} := by
      ext x
      simp only [h, and_true, Set.mem_union, Set.mem_Ioi, Set.mem_singleton_iff, Set.mem_ofPred_eq]
    rw [this]
    exact measurableSet_Ioi.union (measurableSet_singleton _)
  · have : {x : ℝ | ((n : ℝ) - 1 / 2) / 1000000 < x ∨ (x = (n - 1 / 2) / 1000000 ∧ n % 2 = 0)} =
        Set.Ioi (((n : ℝ) - 1 / 2) / 1000000) := by
      ext x; simp [h]
    rw [this]
    exact measurableSet_Ioi

theorem exp_Ioi {R : ℝ} (hR : 0 < R) (a : ℝ) :
    expMeasure R (Set.Ioi a) = ENNReal.ofReal (if 0 ≤ a then Real.exp (-(R * a)) else 1) := by
  have := isProbabilityMeasure_expMeasure hR
  rw [← Set.compl_Iic, prob_compl_eq_one_sub measurableSet_Iic, ← ofReal_cdf, cdf_expMeasure_eq hR,
    ← ENNReal.ofReal_one, ← ENNReal.ofReal_sub _ (by split_ifs <;> simp [Real.exp_le_one_iff, mul_nonneg, hR.le, *])]
  congr 1
  split_ifs <;> ring

theorem exp_point (R a : ℝ) : expMeasure R {a} = 0 := by
  unfold expMeasure gammaMeasure
  exact withDensity_absolutelyContinuous _ _ (by simp)

theorem exp_atLeast {R : ℝ} (hR : 0 < R) {n : ℤ} (hn : n ≤ 3600000000) :
    expMeasure R (atLeast n) = ENNReal.ofReal (quietProb R n) := by
  have key : expMeasure R (atLeast n) = expMeasure R (Set.Ioi (((n : ℝ) - 1 / 2) / 1000000)) := by
    apply le_antisymm
    · calc expMeasure R (atLeast n) ≤ expMeasure R (Set.Ioi (((n : ℝ) - 1 / 2) / 1000000) ∪
            {((n : ℝ) - 1 / 2) / 1000000}) := by
            apply measure_mono
            rw [atLeast_eq hn]
            rintro x (h | h)
            · exact .inl h
            · exact .inr h.1
        _ ≤ _ := measure_union_le _ _
        _ = _ := by rw [exp_point, add_zero]
    · apply measure_mono
      rw [atLeast_eq hn]
      exact fun x h => .inl h
  rw [key, exp_Ioi hR]
  congr 1
  unfold quietProb
  by_cases h : n ≤ 0
  · have : (n : ℝ) ≤ 0 := by exact_mod_cast h
    rw [if_pos h, if_neg]
    rw [not_le]
    exact div_neg_of_neg_of_pos (by linarith) (by norm_num)
  · have : (1 : ℝ) ≤ n := by exact_mod_cast (by omega : 1 ≤ n)
    rw [if_neg h, if_pos]
    exact div_nonneg (by linarith) (by norm_num)

theorem quietProb_nonneg (R : ℝ) (n : ℤ) : 0 ≤ quietProb R n := by
  unfold quietProb; split_ifs <;> positivity

theorem quietProb_anti {R S : ℝ} (hR : 0 ≤ R) (hRS : R ≤ S) {n m : ℤ} (h : n ≤ m) :
    quietProb S m ≤ quietProb R n := by
  unfold quietProb
  split_ifs with h1 h2 h2
  · rfl
  · omega
  · rw [Real.exp_le_one_iff, Left.neg_nonpos_iff]
    have : (1 : ℝ) ≤ m := by exact_mod_cast (by omega : 1 ≤ m)
    have : 0 ≤ ((m : ℝ) - 1 / 2) / 1000000 := div_nonneg (by linarith) (by norm_num)
    exact mul_nonneg (hR.trans hRS) this
  · rw [Real.exp_le_exp, neg_le_neg_iff]
    have h3 : (1 : ℝ) ≤ n := by exact_mod_cast (by omega : 1 ≤ n)
    have h4 : (n : ℝ) ≤ m := by exact_mod_cast h
    have h5 : 0 ≤ ((n : ℝ) - 1 / 2) / 1000000 := div_nonneg (by linarith) (by norm_num)
    exact mul_le_mul hRS (by linarith) h5 (hR.trans hRS)

theorem waitProb_nonneg {R : ℝ} (hR : 0 ≤ R) (n : ℤ) : 0 ≤ waitProb R n :=
  sub_nonneg.2 (quietProb_anti hR le_rfl (by omega))

/-- Waiting times of `n` microseconds. -/
theorem exp_wait {R : ℝ} (hR : 0 < R) {n : ℤ} (hn : n + 1 ≤ 3600000000) :
    MeasurableSet {x : ℝ | ofSeconds (min x 3600) = n} ∧
    expMeasure R {x : ℝ | ofSeconds (min x 3600) = n} = ENNReal.ofReal (waitProb R n) := by
  have := isProbabilityMeasure_expMeasure hR
  have e : {x : ℝ | ofSeconds (min x 3600) = n} = atLeast n \ atLeast (n + 1) := by
    ext x
    simp only [atLeast, Set.mem_ofPred_eq, Set.mem_sdiff]
    omega
  have h1 := atLeast_measurable (n := n) (by omega)
  have h2 := atLeast_measurable hn
  refine ⟨by rw [e]; exact h1.diff h2, ?_⟩
  rw [e, measure_sdiff (fun x hx => by simp only [atLeast, Set.mem_ofPred_eq] at hx ⊢; omega)
    h2.nullMeasurableSet (measure_ne_top _ _), exp_atLeast hR (by omega), exp_atLeast hR hn,
    ← ENNReal.ofReal_sub _ (quietProb_nonneg _ _)]
  rfl

/-! ### One round -/

section
variable {G : Type} [MeasurableSpace G] {rng : Rng ℝ G} {μ : Measure G}

/-- The states in which the next event comes after `n` microseconds, is number `i`, and leaves a state in `E`. -/
def round (rng : Rng ℝ G) (R : ℝ) (ps : List ℝ) (n : ℤ) (i : ℕ) (E : Set G) : Set G :=
  {g | ofSeconds (min (rng.exponential (1 / R) g).1 3600) = n ∧
    (rng.choiceP ps (rng.exponential (1 / R) g).2).1 = i ∧ (rng.choiceP ps (rng.exponential (1 / R) g).2).2 ∈ E}

theorem picks_set (hf : Fair rng μ) (ps : List ℝ) (i : ℕ) {E : Set G} (hE : MeasurableSet E) :
    MeasurableSet {g | (rng.choiceP ps g).1 = i ∧ (rng.choiceP ps g).2 ∈ E} :=
  (hf.picks_measurable ps) ((measurableSet_singleton i).prod hE)

theorem round_measurable (hf : Fair rng μ) {R : ℝ} (hR : 0 < R) (ps : List ℝ) {n : ℤ} (hn : n + 1 ≤ 3600000000)
    (i : ℕ) {E : Set G} (hE : MeasurableSet E) : MeasurableSet (round rng R ps n i E) :=
  (hf.waits_measurable (1 / R) (by positivity)) ((exp_wait hR hn).1.prod (picks_set hf ps i hE))

theorem round_prob (hf : Fair rng μ) {R : ℝ} (hR : 0 < R) {ps : List ℝ} (hp : ∀ p ∈ ps, 0 ≤ p) (hs : ps.sum = 1)
    {n : ℤ} (hn : n + 1 ≤ 3600000000) (i : ℕ) {E : Set G} (hE : MeasurableSet E) :
    μ (round rng R ps n i E) = ENNReal.ofReal (waitProb R n) * (ENNReal.ofReal (ps.getD i 0) * μ E) := by
  have h := hf.waits (1 / R) (by positivity) _ (exp_wait hR hn).1 _ (picks_set hf ps i hE)
  rw [hf.picks ps hp hs i E hE, one_div_one_div, (exp_wait hR hn).2] at h
  exact h

/-- The states in which nothing happens for `n` microseconds, leaving a state in `E`. -/
def late (rng : Rng ℝ G) (R : ℝ) (n : ℤ) (E : Set G) : Set G :=
  {g | n ≤ ofSeconds (min (rng.exponential (1 / R) g).1 3600) ∧ (rng.exponential (1 / R) g).2 ∈ E}

theorem late_prob (hf : Fair rng μ) {R : ℝ} (hR : 0 < R) {n : ℤ} (hn : n ≤ 3600000000) {E : Set G}
    (hE : MeasurableSet E) :
    MeasurableSet (late rng R n E) ∧ μ (late rng R n E) = ENNReal.ofReal (quietProb R n) * μ E := by
  have h := hf.waits (1 / R) (by positivity) _ (atLeast_measurable hn) _ hE
  rw [one_div_one_div, exp_atLeast hR hn] at h
  exact ⟨(hf.waits_measurable (1 / R) (by positivity)) ((atLeast_measurable hn).prod hE), h⟩

end

/-! ### Histories -/

theorem sumRates_pos {ss : List (Successor ℝ)} (h : ∀ y ∈ ss, 0 ≤ y.rate) (h0 : sumRates ss ≠ 0) : 0 < sumRates ss := by
  apply lt_of_le_of_ne _ (Ne.symm h0)
  apply List.sum_nonneg
  intro x hx
  obtain ⟨y, hy, rfl⟩ := List.mem_map.1 hx
  exact h y hy

theorem shares_nonneg {ss : List (Successor ℝ)} (h : ∀ y ∈ ss, 0 ≤ y.rate) :
    ∀ q ∈ ss.map (fun z => z.rate / sumRates ss), 0 ≤ q := by
  intro q hq
  obtain ⟨y, hy, rfl⟩ := List.mem_map.1 hq
  apply div_nonneg (h y hy)
  apply List.sum_nonneg
  intro x hx
  obtain ⟨y, hy, rfl⟩ := List.mem_map.1 hx
  exact h y hy

theorem shares_total {ss : List (Successor ℝ)} (h0 : sumRates ss ≠ 0) :
    (ss.map (fun z => z.rate / sumRates ss)).sum = 1 := by
  have : (ss.map (fun z => z.rate / sumRates ss)).sum = (ss.map (·.rate)).sum / sumRates ss := by
    clear h0
    generalize sumRates ss = c
    induction ss with
    | nil => simp
    | cons y ss ih => simp only [List.map_cons, List.sum_cons, ih, add_div]
  rw [this]
  exact div_self h0

theorem finset_sum_getD (l : List ℝ) : ∑ i ∈ Finset.range l.length, l.getD i 0 = l.sum := by
  induction l with
  | nil => simp
  | cons a l ih =>
    rw [List.length_cons, Finset.sum_range_succ']
    simp only [List.getD_cons_succ, List.getD_cons_zero, ih, List.sum_cons]
    ring

open Classical in
/-- The numbers of the successors that make the sheet `next`. -/
noncomputable def leadingTo (ss : List (Successor ℝ)) (next : Grid ℝ) : Finset ℕ :=
  (Finset.range ss.length).filter (fun i => ∃ y, ss[i]? = some y ∧ y.grid = next)

theorem sum_leadingTo (ss : List (Successor ℝ)) (next : Grid ℝ) :
    ∑ i ∈ leadingTo ss next, (ss.map (fun z => z.rate / sumRates ss)).getD i 0 = shareOf ss next := by
  classical
  unfold leadingTo shareOf
  rw [Finset.sum_filter, ← finset_sum_getD, List.length_map]
  apply Finset.sum_congr rfl
  intro i hi
  have hi' := Finset.mem_range.1 hi
  simp only [List.getD_eq_getElem?_getD, List.getElem?_map, List.getElem?_eq_getElem hi', Option.map_some,
    Option.getD_some, Option.some.injEq, exists_eq_left']

section
variable {G : Type} [MeasurableSpace G] {rng : Rng ℝ G} {μ : Measure G} {rate : RateFunction ℝ} {p : V2 ℝ}
  {dwell : Timedelta}

/-- The states from which the history is `evs`, leaving a state in `E`. -/
def histories (rng : Rng ℝ G) (rate : RateFunction ℝ) (p : V2 ℝ) (dwell : Timedelta) (E : Set G) (t : Timedelta)
    (sheet : Grid ℝ) (evs : List (Timedelta × Grid ℝ)) : Set G :=
  {g | ∃ g' sheet', Jumps rng rate p dwell t g sheet evs g' sheet' ∧ g' ∈ E}

theorem histories_none {E : Set G} {t : Timedelta} (h : t < dwell) {sheet : Grid ℝ}
    {ss : List (Successor ℝ)} (hr : rate sheet p = .ok ss) (h0 : sumRates ss ≠ 0) :
    histories rng rate p dwell E t sheet [] = late rng (sumRates ss) (dwell - t + 1) E := by
  ext g
  simp only [histories, late, Set.mem_ofPred_eq]
  constructor
  · rintro ⟨g', sheet', hj, hE⟩
    cases hj with
    | over h' => omega
    | idle _ hr' _ h0' => rw [hr, Except.ok.injEq] at hr'; subst hr'; exact absurd h0' h0
    | late _ hr' _ hx hl =>
      rw [hr, Except.ok.injEq] at hr'; subst hr'
      rw [hx]
      simp only
      exact ⟨by omega, hE⟩
  · rintro ⟨hl, hE⟩
    exact ⟨(rng.exponential (1 / sumRates ss) g).2, sheet,
      .late (x := (rng.exponential (1 / sumRates ss) g).1) h hr h0 rfl (by omega), hE⟩

theorem histories_cons {E : Set G} {t time : Timedelta} {sheet next : Grid ℝ} {evs : List (Timedelta × Grid ℝ)}
    (h : t < dwell) (htime : time ≤ dwell) {ss : List (Successor ℝ)} (hr : rate sheet p = .ok ss)
    (h0 : sumRates ss ≠ 0) :
    histories rng rate p dwell E t sheet ((time, next) :: evs) =
      ⋃ i ∈ leadingTo ss next, round rng (sumRates ss) (ss.map (fun z => z.rate / sumRates ss)) (time - t) i
        (histories rng rate p dwell E time next evs) := by
  classical
  ext g
  simp only [histories, round, leadingTo, Set.mem_ofPred_eq, Set.mem_iUnion, Finset.mem_filter, Finset.mem_range,
    exists_prop]
  constructor
  · rintro ⟨g', sheet', hj, hE'⟩
    cases hj with
    | jump h' hr' h0' hx hl hi hy rest =>
      rename_i ss' x g1 i g2 y
      rw [hr, Except.ok.injEq] at hr'; subst hr'
      refine ⟨i, ⟨?_, y, hy, rfl⟩, ?_⟩
      · rw [List.getElem?_eq_some_iff] at hy; exact hy.1
      · rw [hx]
        simp only
        rw [hi]
        exact ⟨by omega, rfl, g', sheet', rest, hE'⟩
  · rintro ⟨i, ⟨-, y, hy, rfl⟩, hw, hi, g', sheet', rest, hE'⟩
    refine ⟨g', sheet', ?_, hE'⟩
    cases hx : rng.exponential (1 / sumRates ss) g with
    | mk x g1 =>
    rw [hx] at hw hi rest
    simp only at hw hi rest
    cases hc : rng.choiceP (ss.map (fun z => z.rate / sumRates ss)) g1 with
    | mk j g2 =>
    rw [hc] at hi rest
    simp only at hi rest
    subst hi
    have e : time = t + ofSeconds (min x 3600) := by omega
    subst e
    exact .jump h hr h0 hx htime hc hy rest

theorem shareOf_nonneg {ss : List (Successor ℝ)} (h : ∀ y ∈ ss, 0 ≤ y.rate) (next : Grid ℝ) : 0 ≤ shareOf ss next := by
  classical
  unfold shareOf
  apply List.sum_nonneg
  intro x hx
  obtain ⟨y, hy, rfl⟩ := List.mem_map.1 hx
  split_ifs
  · exact shares_nonneg h _ (List.mem_map_of_mem hy)
  · rfl

theorem historyProb_nonneg (hrate : ∀ sheet ss, rate sheet p = .ok ss → ∀ y ∈ ss, 0 ≤ y.rate) (t : Timedelta)
    (sheet : Grid ℝ) (evs : List (Timedelta × Grid ℝ)) : 0 ≤ historyProb rate p dwell t sheet evs := by
  induction evs generalizing t sheet with
  | nil =>
    unfold historyProb
    split_ifs
    · exact zero_le_one
    · cases rate sheet p with
      | error e => exact le_rfl
      | ok ss =>
        simp only
        split_ifs
        · exact le_rfl
        · exact quietProb_nonneg _ _
  | cons e evs ih =>
    obtain ⟨time, next⟩ := e
    unfold historyProb
    split_ifs
    · cases hr : rate sheet p with
      | error e => exact le_rfl
      | ok ss =>
        have h := hrate sheet ss hr
        have : 0 ≤ sumRates ss := by
          apply List.sum_nonneg
          intro x hx
          obtain ⟨y, hy, rfl⟩ := List.mem_map.1 hx
          exact h y hy
        exact mul_nonneg (mul_nonneg (waitProb_nonneg this _) (shareOf_nonneg h next)) (ih _ _)
    · exact le_rfl

theorem histories_law (hf : Fair rng μ) (hl' : rng.Lawful) (hd : dwell < 3600000000)
    (hrate : ∀ sheet ss, rate sheet p = .ok ss → ∀ y ∈ ss, 0 ≤ y.rate) {E : Set G}
    (hE : MeasurableSet E) (evs : List (Timedelta × Grid ℝ)) :
    ∀ (t : Timedelta) (sheet : Grid ℝ), 0 ≤ t →
      MeasurableSet (histories rng rate p dwell E t sheet evs) ∧
      μ (histories rng rate p dwell E t sheet evs) =
        ENNReal.ofReal (historyProb rate p dwell t sheet evs) * μ E := by
  classical
  induction evs with
  | nil =>
    intro t sheet ht
    by_cases h : dwell ≤ t
    · have e : histories rng rate p dwell E t sheet [] = E := by
        ext g
        simp only [histories, Set.mem_ofPred_eq]
        constructor
        · rintro ⟨g', sheet', hj, hE'⟩
          cases hj with
          | over h' => exact hE'
          | idle h' => omega
          | late h' => omega
        · exact fun hg => ⟨g, sheet, .over h, hg⟩
      rw [e]
      exact ⟨hE, by simp [historyProb, h]⟩
    · have h' : t < dwell := by omega
      cases hr : rate sheet p with
      | error e =>
        have e : histories rng rate p dwell E t sheet [] = ∅ := by
          ext g
          simp only [histories, Set.mem_ofPred_eq, Set.mem_empty_iff_false, iff_false]
          rintro ⟨g', sheet', hj, hE'⟩
          cases hj with
          | over h'' => omega
          | idle _ hr' => rw [hr] at hr'; cases hr'
          | late _ hr' => rw [hr] at hr'; cases hr'
        rw [e, measure_empty]
        exact ⟨MeasurableSet.empty, by simp [historyProb, h, hr]⟩
      | ok ss =>
        by_cases hne : ss = []
        · have e : histories rng rate p dwell E t sheet [] = ∅ := by
            ext g
            simp only [histories, Set.mem_ofPred_eq, Set.mem_empty_iff_false, iff_false]
            rintro ⟨g', sheet', hj, hE'⟩
            cases hj with
            | over h'' => omega
            | idle _ hr' hne' => rw [hr, Except.ok.injEq] at hr'; subst hr'; exact hne' hne
            | late _ hr' h0 => rw [hr, Except.ok.injEq] at hr'; subst hr'; subst hne; exact h0 rfl
          rw [e, measure_empty]
          exact ⟨MeasurableSet.empty, by simp [historyProb, h, hr, hne]⟩
        by_cases h0 : sumRates ss = 0
        · have e : histories rng rate p dwell E t sheet [] = {g | (rng.exponential 0 g).2 ∈ E} := by
            ext g
            simp only [histories, Set.mem_ofPred_eq]
            constructor
            · rintro ⟨g', sheet', hj, hE'⟩
              cases hj with
              | over h'' => omega
              | idle => exact hE'
              | late _ hr' h0' => rw [hr, Except.ok.injEq] at hr'; subst hr'; exact absurd h0 h0'
            · exact fun hg => ⟨_, sheet, .idle h' hr hne h0 (by omega), hg⟩
          rw [e, hf.pause E hE]
          refine ⟨hf.pause_measurable hE, ?_⟩
          simp only [historyProb, h, hr, h0, hne, if_false, quietProb]
          split_ifs <;> simp
        · have hpos := sumRates_pos (hrate sheet ss hr) h0
          rw [histories_none h' hr h0]
          obtain ⟨m, e⟩ := late_prob hf hpos (n := dwell - t + 1) (by omega) hE
          refine ⟨m, ?_⟩
          rw [e]
          simp only [historyProb, h, hr, hne, if_false]
  | cons ev evs ih =>
    obtain ⟨time, next⟩ := ev
    intro t sheet ht
    have empty : ∀ hno : (∀ (x : ℝ) ss, rate sheet p = .ok ss → sumRates ss ≠ 0 → t < dwell →
        0 ≤ ofSeconds (min x 3600) → t + ofSeconds (min x 3600) ≤ dwell → time ≠ t + ofSeconds (min x 3600)),
        histories rng rate p dwell E t sheet ((time, next) :: evs) = ∅ := by
      intro hno
      ext g
      simp only [histories, Set.mem_ofPred_eq, Set.mem_empty_iff_false, iff_false]
      rintro ⟨g', sheet', hj, hE'⟩
      cases hj with
      | jump h' hr' h0' hx hl hi hy rest =>
        rename_i ss x g1 _ _ _
        have hpos := sumRates_pos (hrate sheet ss hr') h0'
        refine hno x _ hr' h0' h' (ofSeconds_nonneg (le_min ?_ (by norm_num))) hl rfl
        have := hl'.exponential_nonneg (1 / sumRates ss) g (by positivity)
        rwa [hx] at this
    by_cases hc : t < dwell ∧ t ≤ time ∧ time ≤ dwell
    swap
    · rw [empty (fun x ss _ _ h1 h2 h3 h4 => hc ⟨h1, by omega, by omega⟩), measure_empty]
      exact ⟨MeasurableSet.empty, by simp [historyProb, hc]⟩
    · obtain ⟨h', h1, h2⟩ := hc
      cases hr : rate sheet p with
      | error e =>
        rw [empty (fun x ss hr' => by rw [hr] at hr'; cases hr'), measure_empty]
        exact ⟨MeasurableSet.empty, by simp [historyProb, hr]⟩
      | ok ss =>
        by_cases h0 : sumRates ss = 0
        · rw [empty (fun x ss' hr' h0' => by rw [hr, Except.ok.injEq] at hr'; subst hr'; exact absurd h0 h0'),
            measure_empty]
          refine ⟨MeasurableSet.empty, ?_⟩
          have : waitProb (sumRates ss) (time - t) = 0 := by
            rw [h0]; simp [waitProb, quietProb]
          simp [historyProb, hr, this]
        · have hpos := sumRates_pos (hrate sheet ss hr) h0
          have hnn := shares_nonneg (hrate sheet ss hr)
          obtain ⟨im, ie⟩ := ih time next (by omega)
          rw [histories_cons h' h2 hr h0]
          refine ⟨Finset.measurableSet_biUnion _ (fun i _ => round_measurable hf hpos _ (by omega) i im), ?_⟩
          rw [measure_biUnion_finset]
          · rw [Finset.sum_congr rfl (fun i _ => round_prob hf hpos hnn (shares_total h0) (by omega) i im), ie]
            have hgd : ∀ i ∈ leadingTo ss next, 0 ≤ (ss.map (fun z => z.rate / sumRates ss)).getD i 0 := by
              intro i hi
              have hi' : i < (ss.map (fun z => z.rate / sumRates ss)).length := by
                simp only [leadingTo, Finset.mem_filter, Finset.mem_range] at hi
                simpa using hi.1
              rw [List.getD_eq_getElem?_getD, List.getElem?_eq_getElem hi', Option.getD_some]
              exact hnn _ (List.getElem_mem hi')
            rw [← Finset.mul_sum, ← Finset.sum_mul, ← ENNReal.ofReal_sum_of_nonneg hgd, sum_leadingTo]
            simp only [historyProb, hr, h', h1, h2, and_self, if_true]
            rw [ENNReal.ofReal_mul (mul_nonneg (waitProb_nonneg hpos.le _) (shareOf_nonneg (hrate sheet ss hr) next)),
              ENNReal.ofReal_mul (waitProb_nonneg hpos.le _)]
            ring
          · intro i _ j _ hij
            simp only [Function.onFun]
            rw [Set.disjoint_left]
            rintro g ⟨_, hi, _⟩ ⟨_, hj, _⟩
            exact hij (hi.symm.trans hj)
          · intro i _
            exact round_measurable hf hpos _ (by omega) i im

end

/-! ### Ending -/

section
variable {G : Type} [MeasurableSpace G] {rng : Rng ℝ G} {μ : Measure G} {rate : RateFunction ℝ} {p : V2 ℝ}
  {dwell : Timedelta}

open Classical in
/-- The states from which there are `n` events, or fewer and then a state in `N` of the last sheet. -/
noncomputable def unfinished (rng : Rng ℝ G) (rate : RateFunction ℝ) (p : V2 ℝ) (dwell : Timedelta)
    (N : Grid ℝ → Set G) : ℕ → Timedelta → Grid ℝ → Set G
  | 0, _, _ => Set.univ
  | n + 1, t, sheet =>
    if t < dwell then
      match rate sheet p with
      | .error _ => Set.univ
      | .ok ss =>
        if sumRates ss = 0 then {g | (rng.exponential 0 g).2 ∈ N sheet} else
          late rng (sumRates ss) (dwell - t + 1) (N sheet) ∪
          ⋃ k ∈ Finset.Icc 0 (dwell - t), ⋃ i ∈ Finset.range ss.length,
            round rng (sumRates ss) (ss.map (fun z => z.rate / sumRates ss)) k i
              (match ss[i]? with
                | some y => unfinished rng rate p dwell N n (t + k) y.grid
                | none => ∅)
    else N sheet

theorem finished {Sheets : Grid ℝ → Prop} {B : ℝ} {N : Grid ℝ → Set G} (hl : rng.Lawful) (hd : dwell < 3600000000)
    (ho : Orderly rate p Sheets B) (n : ℕ) :
    ∀ (t : Timedelta) (sheet : Grid ℝ) (g : G), 0 ≤ t → Sheets sheet → g ∉ unfinished rng rate p dwell N n t sheet →
      ∃ evs g' sheet', Jumps rng rate p dwell t g sheet evs g' sheet' ∧ evs.length < n ∧ Sheets sheet' ∧
        g' ∉ N sheet' := by
  induction n with
  | zero =>
    intro t sheet g ht hs hg
    simp [unfinished] at hg
  | succ n ih =>
    intro t sheet g ht hs hg
    by_cases h : t < dwell
    swap
    · simp only [unfinished, h, if_false] at hg
      exact ⟨[], g, sheet, .over (by omega), by simp, hs, hg⟩
    obtain ⟨ss, hr, hne, hy, hB⟩ := ho.rates sheet hs
    by_cases h0 : sumRates ss = 0
    · simp only [unfinished, h, hr, h0, if_true, Set.mem_ofPred_eq] at hg
      exact ⟨[], _, sheet, .idle h hr hne h0 (by omega), by simp, hs, hg⟩
    have hpos := sumRates_pos (fun y m => (hy y m).1) h0
    simp only [unfinished, h, hr, h0, if_true, if_false, Set.mem_iUnion, not_exists, Finset.mem_Icc,
      Finset.mem_range, Set.mem_union, not_or] at hg
    obtain ⟨hg0, hg⟩ := hg
    cases hx : rng.exponential (1 / sumRates ss) g with
    | mk x g1 =>
    have hx0 : 0 ≤ ofSeconds (min x 3600) := by
      have := hl.exponential_nonneg (1 / sumRates ss) g (by positivity)
      rw [hx] at this
      exact ofSeconds_nonneg (le_min this (by norm_num))
    by_cases hlate : dwell < t + ofSeconds (min x 3600)
    · refine ⟨[], g1, sheet, .late h hr h0 hx hlate, by simp, hs, fun hN => hg0 ?_⟩
      simp only [late, Set.mem_ofPred_eq, hx]
      exact ⟨by omega, hN⟩
    cases hc : rng.choiceP (ss.map (fun z => z.rate / sumRates ss)) g1 with
    | mk i g2 =>
    obtain ⟨q, hq, -⟩ := hl.choiceP_lt _ g1 (shares_nonneg (fun y m => (hy y m).1)) (shares_total h0)
    rw [hc] at hq
    simp only [List.getElem?_map, Option.map_eq_some_iff] at hq
    obtain ⟨y, hyi, -⟩ := hq
    have hi : i < ss.length := (List.getElem?_eq_some_iff.1 hyi).1
    have hg' := hg (ofSeconds (min x 3600)) ⟨hx0, by omega⟩ i hi
    rw [hyi] at hg'
    simp only [round, hx, hc, Set.mem_ofPred_eq, true_and] at hg'
    obtain ⟨evs, g', sheet', hj, hlen, hN⟩ := ih _ y.grid g2 (by omega) (hy y (List.mem_of_getElem? hyi)).2 hg'
    exact ⟨_, g', sheet', .jump h hr h0 hx (by omega) hc hyi hj, by simpa using hlen, hN⟩

theorem sum_waitProb (R : ℝ) (m : ℕ) :
    ∑ k ∈ Finset.Icc (0 : ℤ) m, waitProb R k = 1 - quietProb R (m + 1) := by
  induction m with
  | zero => simp [waitProb, quietProb]
  | succ m ih =>
    have e : Finset.Icc (0 : ℤ) ((m + 1 : ℕ) : ℤ) = insert ((m + 1 : ℕ) : ℤ) (Finset.Icc (0 : ℤ) m) := by
      ext x
      simp only [Finset.mem_Icc, Finset.mem_insert]
      push_cast
      omega
    rw [e, Finset.sum_insert (by simp), ih]
    unfold waitProb
    push_cast
    ring

theorem unfinished_bound {Sheets : Grid ℝ → Prop} {B : ℝ} {N : Grid ℝ → Set G} (hf : Fair rng μ)
    (hd : dwell < 3600000000) (ho : Orderly rate p Sheets B)
    (hN : ∀ sheet, Sheets sheet → MeasurableSet (N sheet) ∧ μ (N sheet) = 0) (n : ℕ) :
    ∀ (t : Timedelta) (sheet : Grid ℝ), 0 ≤ t → Sheets sheet →
      MeasurableSet (unfinished rng rate p dwell N n t sheet) ∧
      μ (unfinished rng rate p dwell N n t sheet) ≤ ENNReal.ofReal ((1 - quietProb B (dwell + 1)) ^ n) := by
  induction n with
  | zero =>
    intro t sheet ht hs
    exact ⟨MeasurableSet.univ, by simp only [unfinished]; rw [hf.total]; simp⟩
  | succ n ih =>
    intro t sheet ht hs
    by_cases h : t < dwell
    swap
    · simp only [unfinished, h, if_false]
      exact ⟨(hN sheet hs).1, by rw [(hN sheet hs).2]; exact zero_le⟩
    obtain ⟨ss, hr, hne, hy, hB⟩ := ho.rates sheet hs
    by_cases h0 : sumRates ss = 0
    · simp only [unfinished, h, hr, h0, if_true]
      exact ⟨hf.pause_measurable (hN sheet hs).1, by rw [hf.pause _ (hN sheet hs).1, (hN sheet hs).2]; exact zero_le⟩
    have hrate : ∀ y ∈ ss, 0 ≤ y.rate := fun y m => (hy y m).1
    have hpos := sumRates_pos hrate h0
    have hnn := shares_nonneg hrate
    set ps := ss.map (fun z => z.rate / sumRates ss) with hps
    set q := 1 - quietProb B (dwell + 1) with hq
    have hq1 : 1 - quietProb (sumRates ss) (dwell - t + 1) ≤ q := by
      have := quietProb_anti hpos.le hB (n := dwell - t + 1) (m := dwell + 1) (by omega)
      rw [hq]; linarith
    have hq0 : 0 ≤ 1 - quietProb (sumRates ss) (dwell - t + 1) := by
      have := quietProb_anti hpos.le le_rfl (n := 0) (m := dwell - t + 1) (by omega)
      have e : quietProb (sumRates ss) 0 = 1 := by simp [quietProb]
      linarith
    have rest : ∀ k ∈ Finset.Icc 0 (dwell - t), ∀ i ∈ Finset.range ss.length,
        MeasurableSet (match ss[i]? with
          | some y => unfinished rng rate p dwell N n (t + k) y.grid
          | none => ∅) ∧
        μ (match ss[i]? with
          | some y => unfinished rng rate p dwell N n (t + k) y.grid
          | none => ∅) ≤ ENNReal.ofReal (q ^ n) := by
      intro k hk i hi
      cases hyi : ss[i]? with
      | none => exact ⟨MeasurableSet.empty, by simp⟩
      | some y => exact ih (t + k) y.grid (by have := (Finset.mem_Icc.1 hk).1; omega) (hy y (List.mem_of_getElem? hyi)).2
    have hk1 : ∀ k ∈ Finset.Icc 0 (dwell - t), k + 1 ≤ 3600000000 := by
      intro k hk
      have := (Finset.mem_Icc.1 hk).2
      omega
    simp only [unfinished, h, hr, h0, if_true, if_false]
    obtain ⟨lm, le⟩ := late_prob hf hpos (n := dwell - t + 1) (by omega) (hN sheet hs).1
    rw [(hN sheet hs).2, mul_zero] at le
    refine ⟨lm.union (Finset.measurableSet_biUnion _ (fun k hk => Finset.measurableSet_biUnion _ (fun i hi =>
      round_measurable hf hpos _ (hk1 k hk) i (rest k hk i hi).1))), ?_⟩
    refine (measure_union_le _ _).trans ?_
    rw [le, zero_add]
    have hgd : ∀ i ∈ Finset.range ss.length, 0 ≤ ps.getD i 0 := by
      intro i hi
      have hi' : i < ps.length := by simpa [hps] using hi
      rw [List.getD_eq_getElem?_getD, List.getElem?_eq_getElem hi', Option.getD_some]
      exact hnn _ (List.getElem_mem hi')
    have one : ∑ i ∈ Finset.range ss.length, ENNReal.ofReal (ps.getD i 0) = 1 := by
      rw [← ENNReal.ofReal_sum_of_nonneg hgd]
      have := finset_sum_getD ps
      rw [hps, List.length_map, shares_total h0, ← hps] at this
      rw [this, ENNReal.ofReal_one]
    calc _ ≤ ∑ k ∈ Finset.Icc 0 (dwell - t), ∑ i ∈ Finset.range ss.length,
              ENNReal.ofReal (waitProb (sumRates ss) k) * (ENNReal.ofReal (ps.getD i 0) * ENNReal.ofReal (q ^ n)) := by
            refine (measure_biUnion_finset_le _ _).trans (Finset.sum_le_sum fun k hk => ?_)
            refine (measure_biUnion_finset_le _ _).trans (Finset.sum_le_sum fun i hi => ?_)
            rw [round_prob hf hpos hnn (shares_total h0) (hk1 k hk) i (rest k hk i hi).1]
            exact mul_le_mul_right (mul_le_mul_right (rest k hk i hi).2 _) _
      _ = ENNReal.ofReal (1 - quietProb (sumRates ss) (dwell - t + 1)) * ENNReal.ofReal (q ^ n) := by
            have e : ∀ k ∈ Finset.Icc 0 (dwell - t), ∑ i ∈ Finset.range ss.length,
                ENNReal.ofReal (waitProb (sumRates ss) k) * (ENNReal.ofReal (ps.getD i 0) * ENNReal.ofReal (q ^ n)) =
                ENNReal.ofReal (waitProb (sumRates ss) k) * ENNReal.ofReal (q ^ n) := by
              intro k _
              rw [← Finset.mul_sum, ← Finset.sum_mul, one, one_mul]
            rw [Finset.sum_congr rfl e, ← Finset.sum_mul,
              ← ENNReal.ofReal_sum_of_nonneg (fun k _ => waitProb_nonneg hpos.le k)]
            have m : dwell - t = ((dwell - t).toNat : ℤ) := by omega
            have := sum_waitProb (sumRates ss) (dwell - t).toNat
            rw [← m] at this
            rw [this]
      _ ≤ ENNReal.ofReal q * ENNReal.ofReal (q ^ n) := mul_le_mul_left (ENNReal.ofReal_le_ofReal hq1) _
      _ = ENNReal.ofReal (q ^ (n + 1)) := by
            rw [← ENNReal.ofReal_mul (hq0.trans hq1), pow_succ']

theorem quietProb_le_one {B : ℝ} (hB : 0 ≤ B) (n : ℤ) : quietProb B n ≤ 1 := by
  by_cases h : n ≤ 0
  · simp [quietProb, h]
  · have := quietProb_anti hB le_rfl (n := 0) (m := n) (by omega)
    have e : quietProb B 0 = 1 := by simp [quietProb]
    linarith

theorem quietProb_pos (B : ℝ) (n : ℤ) : 0 < quietProb B n := by unfold quietProb; split_ifs <;> positivity

theorem Spec.Orderly.bound_nonneg {Sheets : Grid ℝ → Prop} {B : ℝ} (ho : Orderly rate p Sheets B) {sheet : Grid ℝ}
    (hs : Sheets sheet) : 0 ≤ B := by
  obtain ⟨ss, -, -, hy, hB⟩ := ho.rates sheet hs
  refine le_trans (List.sum_nonneg fun x hx => ?_) hB
  obtain ⟨y, hy', rfl⟩ := List.mem_map.1 hx
  exact (hy y hy').1

/-- Almost surely the beam's time ends, in a state outside of null sets. -/
theorem ends {Sheets : Grid ℝ → Prop} {B : ℝ} {N : Grid ℝ → Set G} (hf : Fair rng μ) (hl : rng.Lawful)
    (hd : dwell < 3600000000) (ho : Orderly rate p Sheets B) (hN : ∀ sheet, Sheets sheet → μ (N sheet) = 0)
    {t : Timedelta} (ht : 0 ≤ t) {sheet : Grid ℝ} (hs : Sheets sheet) :
    μ {g | ¬ ∃ evs g' sheet', Jumps rng rate p dwell t g sheet evs g' sheet' ∧ Sheets sheet' ∧ g' ∉ N sheet'} = 0 := by
  have hle : ∀ n : ℕ, μ {g | ¬ ∃ evs g' sheet', Jumps rng rate p dwell t g sheet evs g' sheet' ∧ Sheets sheet' ∧
      g' ∉ N sheet'} ≤ ENNReal.ofReal ((1 - quietProb B (dwell + 1)) ^ n) := by
    intro n
    refine (measure_mono fun g hg => ?_).trans (unfinished_bound (N := fun sheet => toMeasurable μ (N sheet)) hf hd ho
      (fun sheet hs => ⟨measurableSet_toMeasurable _ _, by rw [measure_toMeasurable, hN sheet hs]⟩) n t sheet ht hs).2
    by_contra hn
    obtain ⟨evs, g', sheet', hj, -, h1, h2⟩ := finished hl hd ho n t sheet g ht hs hn
    exact hg ⟨evs, g', sheet', hj, h1, fun hc => h2 (subset_toMeasurable _ _ hc)⟩
  have h0 := quietProb_pos B (dwell + 1)
  have h1 := quietProb_le_one (Spec.Orderly.bound_nonneg ho hs) (dwell + 1)
  have lim : Filter.Tendsto (fun n : ℕ => ENNReal.ofReal ((1 - quietProb B (dwell + 1)) ^ n)) Filter.atTop (nhds 0) := by
    rw [← ENNReal.ofReal_zero]
    exact ENNReal.tendsto_ofReal (tendsto_pow_atTop_nhds_zero_of_lt_one (by linarith) (by linarith))
  exact le_antisymm (ge_of_tendsto' lim hle) zero_le

/-- Many events are exponentially unlikely. -/
theorem many {Sheets : Grid ℝ → Prop} {B : ℝ} (hf : Fair rng μ) (hl : rng.Lawful) (hd : dwell < 3600000000)
    (ho : Orderly rate p Sheets B) {sheet : Grid ℝ} (hs : Sheets sheet) (n : ℕ) :
    μ {g | ∃ evs g' sheet', Jumps rng rate p dwell 0 g sheet evs g' sheet' ∧ n ≤ evs.length} ≤
      ENNReal.ofReal ((1 - quietProb B (dwell + 1)) ^ n) := by
  refine (measure_mono ?_).trans (unfinished_bound (N := fun _ => ∅) hf hd ho
    (fun sheet hs => ⟨MeasurableSet.empty, measure_empty⟩) n 0 sheet le_rfl hs).2
  rintro g ⟨evs, g', sheet', hj, hn⟩
  by_contra hc
  obtain ⟨evs', g'', sheet'', hj', hlen, -⟩ := finished hl hd ho n 0 sheet g le_rfl hs hc
  have := (C72_deterministic rng rate p dwell 0 g g' g'' sheet sheet' sheet'' evs evs' hj hj').1
  subst this
  omega

end
end PD.Props
