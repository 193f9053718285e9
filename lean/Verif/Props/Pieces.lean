/- C154: holding the beam in pieces. -/
import Verif.Props.AimedMoves
import Verif.Spec.Pieces

set_option linter.unusedSectionVars false
set_option linter.unusedSimpArgs false

namespace PD.Props
open PD PD.Spec MeasureTheory ProbabilityTheory

section
variable {G P Img : Type} [MeasurableSpace G] {rng : Rng ℝ G} {μ : Measure G} {rate : RateFunction ℝ}

theorem runs_length {E : Set G} {g : G} {cs : List (V2 ℝ × Timedelta)} {sheet : Grid ℝ}
    {hs : List (List (Timedelta × Grid ℝ))} (h : g ∈ runs rng rate E sheet cs hs) : hs.length = cs.length := by
  induction cs generalizing sheet hs g with
  | nil =>
    cases hs with
    | nil => rfl
    | cons => exact absurd h (by simp [runs])
  | cons c cs ih =>
    cases hs with
    | nil => exact absurd h (by simp [runs])
    | cons evs hs =>
      obtain ⟨g', _, _, h⟩ := h
      rw [List.length_cons, List.length_cons, ih h]

/-- Two histories from one state: if one is empty, so is the other. -/
theorem quiet_unique {p : V2 ℝ} {d : Timedelta} (h0 : 0 < d) {g g1 g2 : G} {sheet s1 s2 : Grid ℝ}
    {evs : List (Timedelta × Grid ℝ)} (h1 : Jumps rng rate p d 0 g sheet evs g1 s1)
    (h2 : Jumps rng rate p d 0 g sheet [] g2 s2) : evs = [] ∧ g1 = g2 := by
  cases h2 with
  | over h => omega
  | idle _ hr _ hz =>
    cases h1 with
    | over h => omega
    | idle => exact ⟨rfl, rfl⟩
    | late _ hr' h0' => rw [hr, Except.ok.injEq] at hr'; subst hr'; exact absurd hz h0'
    | jump _ hr' h0' => rw [hr, Except.ok.injEq] at hr'; subst hr'; exact absurd hz h0'
  | late _ hr hz hx hl =>
    cases h1 with
    | over h => omega
    | idle _ hr' _ h0' => rw [hr, Except.ok.injEq] at hr'; subst hr'; exact absurd h0' hz
    | late _ hr' _ hx' =>
      rw [hr, Except.ok.injEq] at hr'; subst hr'
      rw [hx, Prod.mk.injEq] at hx'
      exact ⟨rfl, hx'.2.symm⟩
    | jump _ hr' _ hx' hl' =>
      rw [hr, Except.ok.injEq] at hr'; subst hr'
      rw [hx, Prod.mk.injEq] at hx'
      rw [hx'.1] at hl
      omega

/-- The states from which the first transition within `d` leads to `next`. -/
noncomputable def movesTo (rng : Rng ℝ G) (ss : List (Successor ℝ)) (next : Grid ℝ) (d : Timedelta) : Set G :=
  ⋃ k ∈ Finset.Icc 0 d, ⋃ i ∈ leadingTo ss next,
    round rng (sumRates ss) (ss.map (fun z => z.rate / sumRates ss)) k i Set.univ

theorem mem_movesTo (hl : rng.Lawful) {p : V2 ℝ} {d : Timedelta} (h0 : 0 < d) {g g1 : G} {sheet s1 next : Grid ℝ}
    {evs : List (Timedelta × Grid ℝ)} (hj : Jumps rng rate p d 0 g sheet evs g1 s1) {ss : List (Successor ℝ)}
    (hr : rate sheet p = .ok ss) (hnn : ∀ y ∈ ss, 0 ≤ y.rate) (hs : sumRates ss ≠ 0) :
    g ∈ movesTo rng ss next d ↔ evs.head?.map Prod.snd = some next := by
  have hpos := sumRates_pos hnn hs
  simp only [movesTo, Set.mem_iUnion, round, leadingTo, Set.mem_ofPred_eq, Finset.mem_filter, Finset.mem_range,
    Finset.mem_Icc, exists_prop, Set.mem_univ, and_true]
  cases hj with
  | over h => omega
  | idle _ hr' _ h0' => rw [hr, Except.ok.injEq] at hr'; subst hr'; exact absurd h0' hs
  | late _ hr' _ hx hl' =>
    rw [hr, Except.ok.injEq] at hr'; subst hr'
    rw [hx]
    simp only [List.head?_nil, Option.map_none, reduceCtorEq, iff_false]
    rintro ⟨k, ⟨_, hk⟩, i, _, e, _⟩
    omega
  | jump h' hr' h0' hx hl' hi hy rest =>
    rename_i ss' x g1 i g2 y evs'
    rw [hr, Except.ok.injEq] at hr'; subst hr'
    rw [hx]
    simp only [List.head?_cons, Option.map_some, Option.some.injEq]
    rw [hi]
    simp only
    have hx0 : 0 ≤ ofSeconds (min x 3600) := by
      have := hl.exponential_nonneg (1 / sumRates ss) g (by positivity)
      rw [hx] at this
      exact ofSeconds_nonneg (le_min this (by norm_num))
    constructor
    · rintro ⟨k, _, j, ⟨_, z, hz, rfl⟩, _, rfl⟩
      rw [hy, Option.some.injEq] at hz
      rw [hz]
    · rintro rfl
      exact ⟨_, ⟨hx0, by omega⟩, i, ⟨(List.getElem?_eq_some_iff.1 hy).1, y, hy, rfl⟩, rfl, rfl⟩

/-- The states from which the first transition, when the beam is held at `p` in pieces, leads to `next`. -/
noncomputable def piecesTo (rng : Rng ℝ G) (rate : RateFunction ℝ) (p : V2 ℝ) (sheet : Grid ℝ) (ss : List (Successor ℝ))
    (next : Grid ℝ) : List Timedelta → Set G
  | [] => ∅
  | d :: ds => movesTo rng ss next d ∪ histories rng rate p d (piecesTo rng rate p sheet ss next ds) 0 sheet []

theorem mem_piecesTo (hl : rng.Lawful) {p : V2 ℝ} {sheet next : Grid ℝ} {ss : List (Successor ℝ)}
    (hr : rate sheet p = .ok ss) (hnn : ∀ y ∈ ss, 0 ≤ y.rate) (hs : sumRates ss ≠ 0) (ds : List Timedelta)
    (h0 : ∀ d ∈ ds, 0 < d) (g : G) (hs' : List (List (Timedelta × Grid ℝ)))
    (h : g ∈ runs rng rate Set.univ sheet (ds.map (fun d => (p, d))) hs') :
    g ∈ piecesTo rng rate p sheet ss next ds ↔ firstHeard hs' = some next := by
  induction ds generalizing g hs' with
  | nil =>
    cases hs' with
    | nil => simp [piecesTo, firstHeard]
    | cons => exact absurd h (by simp [runs])
  | cons d ds ih =>
    cases hs' with
    | nil => exact absurd h (by simp [runs])
    | cons evs hs' =>
      obtain ⟨g', s', hj, h⟩ := h
      have hd := h0 d List.mem_cons_self
      have hm := mem_movesTo (next := next) hl hd hj hr hnn hs
      rw [piecesTo, Set.mem_union, hm]
      cases evs with
      | nil =>
        have := ih (fun d hd => h0 d (List.mem_cons_of_mem _ hd)) g' hs' h
        simp only [List.head?_nil, Option.map_none, reduceCtorEq, false_or, firstHeard, List.flatten_cons, List.nil_append]
        rw [firstHeard] at this
        rw [← this]
        constructor
        · rintro ⟨g2, s2, hj2, h2⟩
          rw [(quiet_unique hd hj hj2).2]
          exact h2
        · exact fun h2 => ⟨g', s', hj, h2⟩
      | cons e evs =>
        simp only [List.head?_cons, Option.map_some, firstHeard, List.flatten_cons, List.cons_append]
        constructor
        · rintro (h2 | ⟨g2, s2, hj2, _⟩)
          · exact h2
          · exact absurd (quiet_unique hd hj hj2).1 (by simp)
        · exact Or.inl

theorem quiet_prob {p : V2 ℝ} {d : Timedelta} (h0 : 0 < d) {sheet : Grid ℝ} {ss : List (Successor ℝ)}
    (hr : rate sheet p = .ok ss) (hne : ss ≠ []) :
    historyProb rate p d 0 sheet [] = Real.exp (-(sumRates ss * exposure d)) := by
  unfold historyProb
  rw [if_neg (by omega), hr]
  simp only
  rw [if_neg hne, sub_zero, quietProb_exposure _ h0]

theorem piecesTo_law (hf : Fair rng μ) (hl : rng.Lawful) {p : V2 ℝ}
    (hrate : ∀ sheet ss, rate sheet p = .ok ss → ∀ y ∈ ss, 0 ≤ y.rate) {sheet next : Grid ℝ} {ss : List (Successor ℝ)}
    (hr : rate sheet p = .ok ss) (hs : sumRates ss ≠ 0) (ds : List Timedelta)
    (h0 : ∀ d ∈ ds, 0 < d) (hd : ∀ d ∈ ds, d < 3600000000) :
    MeasurableSet (piecesTo rng rate p sheet ss next ds) ∧ μ (piecesTo rng rate p sheet ss next ds) =
      ENNReal.ofReal ((1 - Real.exp (-(sumRates ss * (ds.map exposure).sum))) * shareOf ss next) := by
  have hnn := hrate sheet ss hr
  have hpos := sumRates_pos hnn hs
  have hne : ss ≠ [] := by rintro rfl; exact hs rfl
  have hshare : 0 ≤ shareOf ss next := by
    unfold shareOf
    refine List.sum_nonneg ?_
    intro x hx
    obtain ⟨y, hy, rfl⟩ := List.mem_map.1 hx
    split_ifs
    · exact div_nonneg (hnn y hy) hpos.le
    · exact le_rfl
  induction ds with
  | nil => simp [piecesTo]
  | cons d ds ih =>
    obtain ⟨m, e⟩ := ih (fun d hd => h0 d (List.mem_cons_of_mem _ hd)) (fun d h => hd d (List.mem_cons_of_mem _ h))
    have h0' := h0 d List.mem_cons_self
    have hd' := hd d List.mem_cons_self
    obtain ⟨m2, e2⟩ := histories_law hf hl hd' hrate m [] 0 sheet le_rfl
    have e1 := rounds_law hf h0' hd' hnn hs next (fun _ => Set.univ) (fun _ _ => ⟨MeasurableSet.univ, hf.total⟩)
    have m1 : MeasurableSet (movesTo rng ss next d) := by
      refine Finset.measurableSet_biUnion _ (fun k hk => Finset.measurableSet_biUnion _ (fun i _ =>
        round_measurable hf hpos _ ?_ i MeasurableSet.univ))
      have := Finset.mem_Icc.1 hk
      omega
    have hdis : Disjoint (movesTo rng ss next d) (histories rng rate p d (piecesTo rng rate p sheet ss next ds) 0 sheet []) := by
      rw [Set.disjoint_left]
      rintro g hg ⟨g', s', hj, _⟩
      have := (mem_movesTo hl h0' hj hr hnn hs).1 hg
      simp at this
    refine ⟨m1.union m2, ?_⟩
    rw [piecesTo, measure_union hdis m2, e2, e, quiet_prob h0' hr hne]
    rw [movesTo, e1, quietProb_exposure _ h0', ← ENNReal.ofReal_mul (Real.exp_pos _).le, ← ENNReal.ofReal_add]
    · congr 1
      rw [List.map_cons, List.sum_cons, mul_add, neg_add, Real.exp_add]
      ring
    · exact mul_nonneg (by
        have : Real.exp (-(sumRates ss * exposure d)) ≤ 1 := by
          rw [Real.exp_le_one_iff, neg_nonpos]
          exact mul_nonneg hpos.le (by unfold exposure; have : (0 : ℝ) < d := by exact_mod_cast h0'
                                       positivity)
        linarith) hshare
    · refine mul_nonneg (Real.exp_pos _).le (mul_nonneg ?_ hshare)
      have : Real.exp (-(sumRates ss * (ds.map exposure).sum)) ≤ 1 := by
        rw [Real.exp_le_one_iff, neg_nonpos]
        refine mul_nonneg hpos.le (List.sum_nonneg ?_)
        intro x hx
        obtain ⟨d, hd, rfl⟩ := List.mem_map.1 hx
        unfold exposure
        have : (0 : ℝ) < d := by exact_mod_cast h0 _ (List.mem_cons_of_mem _ hd)
        positivity
      linarith

end

/-- The share of a successor whose sheet no other successor has. -/
theorem share_of_index {ss : List (Successor ℝ)} (hnd : (ss.map (·.grid)).Nodup) {k : ℕ} {y : Successor ℝ}
    (hy : ss[k]? = some y) : shareOf ss y.grid = y.rate / sumRates ss := by
  classical
  have hlead : leadingTo ss y.grid = {k} := by
    ext i
    simp only [leadingTo, Finset.mem_filter, Finset.mem_range, Finset.mem_singleton]
    constructor
    · rintro ⟨hi, z, hz, hzg⟩
      have h1 : (ss.map (·.grid))[i]? = some y.grid := by simp [hz, hzg]
      have h2 : (ss.map (·.grid))[k]? = some y.grid := by simp [hy]
      exact (List.getElem?_inj (by simpa using hi) hnd).1 (h1.trans h2.symm)
    · rintro rfl
      exact ⟨(List.getElem?_eq_some_iff.1 hy).1, y, hy, rfl⟩
  rw [← sum_leadingTo, hlead, Finset.sum_singleton, List.getD_eq_getElem?_getD, List.getElem?_map, hy]
  rfl

/-- How likely labels are does not depend much on the time. -/
theorem labelProb_close {rates : List ℝ} (hnn : ∀ r ∈ rates, 0 ≤ r) {t u : ℝ} (h0 : 0 ≤ t) (h : t ≤ u) (j : ℕ) :
    |labelProb rates u j - labelProb rates t j| ≤ rates.sum * (u - t) := by
  have hR : 0 ≤ rates.sum := List.sum_nonneg hnn
  have h1 : Real.exp (-(rates.sum * t)) ≤ 1 := by
    rw [Real.exp_le_one_iff, neg_nonpos]; exact mul_nonneg hR h0
  have h2 : Real.exp (-(rates.sum * u)) ≤ Real.exp (-(rates.sum * t)) :=
    Real.exp_le_exp.2 (neg_le_neg (mul_le_mul_of_nonneg_left h hR))
  have h3 : Real.exp (-(rates.sum * t)) - Real.exp (-(rates.sum * u)) ≤ rates.sum * (u - t) := by
    have e : Real.exp (-(rates.sum * u)) = Real.exp (-(rates.sum * t)) * Real.exp (-(rates.sum * (u - t))) := by
      rw [← Real.exp_add]; congr 1; ring
    have h4 := Real.add_one_le_exp (-(rates.sum * (u - t)))
    have h5 := mul_nonneg hR (sub_nonneg.2 h)
    have h6 := Real.exp_pos (-(rates.sum * t))
    rw [e]
    nlinarith
  unfold labelProb
  split_ifs with hj
  · rw [abs_sub_comm, abs_of_nonneg (sub_nonneg.2 h2)]
    exact h3
  · have hs : 0 ≤ rates.getD (j - 1) 0 / rates.sum ∧ rates.getD (j - 1) 0 / rates.sum ≤ 1 := by
      rw [List.getD_eq_getElem?_getD]
      cases hg : rates[j - 1]? with
      | none => simp
      | some r =>
        have hm := List.mem_of_getElem? hg
        simp only [Option.getD_some]
        exact ⟨div_nonneg (hnn r hm) hR, div_le_one_of_le₀ (List.single_le_sum hnn r hm) hR⟩
    rw [← sub_mul, abs_mul, abs_of_nonneg hs.1, show ∀ a b : ℝ, 1 - a - (1 - b) = b - a by intros; ring,
      abs_of_nonneg (sub_nonneg.2 h2)]
    nlinarith [sub_nonneg.2 h2]

theorem exposures_eq (cs : List (BeamControl ℝ)) : exposures cs =
    (((cs.map (·.dwellTime)).sum : ℤ) : ℝ) / 1000000 + cs.length / 2000000 := by
  unfold exposures
  induction cs with
  | nil => simp
  | cons c cs ih =>
    rw [List.map_cons, List.sum_cons, ih, List.map_cons, List.sum_cons, List.length_cons]
    unfold exposure
    push_cast
    ring

section
variable {G P Img : Type} [MeasurableSpace G] {μ : Measure G}

/-- What the observer hears is a run. -/
theorem heard_runs (cfg : SimCfg ℝ G (List (List (Timedelta × Grid ℝ))) P Img) (hrec : cfg.handle = recorder)
    (fov : Fov ℝ) (q : V2 ℝ) (cs : List (BeamControl ℝ)) (hq : ∀ c ∈ cs, c.position = q) (g : G) (sheet : Grid ℝ)
    (hs : List (List (Timedelta × Grid ℝ))) :
    (∃ fuel el s', applyControls { cfg with fuel := fuel } fov cs 0 ⟨g, ⟨true, some sheet⟩, [[]]⟩ = .ok el s' ∧
      s'.obs = [hs]) ↔
    g ∈ runs cfg.rng cfg.rate Set.univ sheet ((cs.map (·.dwellTime)).map (fun d => (fov.toMaterial q, d))) hs := by
  have e : (cs.map (·.dwellTime)).map (fun d => (fov.toMaterial q, d)) =
      cs.map (fun c => (fov.toMaterial c.position, c.dwellTime)) := by
    rw [List.map_map]
    exact List.map_congr_left (fun c hc => by simp [hq c hc])
  rw [e, ← controls_heard cfg hrec fov cs g 0 sheet [] hs]
  rfl

/-- C154.  The beam is held at one place in pieces: with the probability `exp (-R t)` nothing is heard, where `t` is the
sum of the exposures. -/
theorem C154_stays (cfg : SimCfg ℝ G (List (List (Timedelta × Grid ℝ))) P Img) (hrec : cfg.handle = recorder)
    (hf : Fair cfg.rng μ) (hl : cfg.rng.Lawful)
    (hrate : ∀ sheet p ss, cfg.rate sheet p = .ok ss → ∀ y ∈ ss, 0 ≤ y.rate) (fov : Fov ℝ) (q : V2 ℝ)
    (cs : List (BeamControl ℝ)) (hq : ∀ c ∈ cs, c.position = q) (h0 : ∀ c ∈ cs, 0 < c.dwellTime)
    (hd : ∀ c ∈ cs, c.dwellTime < 3600000000) (sheet : Grid ℝ) (ss : List (Successor ℝ))
    (hr : cfg.rate sheet (fov.toMaterial q) = .ok ss) (hne : ss ≠ []) :
    μ {g | ∃ fuel el s', applyControls { cfg with fuel := fuel } fov cs 0 ⟨g, ⟨true, some sheet⟩, [[]]⟩ = .ok el s' ∧
      ∃ hs, s'.obs = [hs] ∧ firstHeard hs = none} =
    ENNReal.ofReal (labelProb (ss.map (·.rate)) (exposures cs) 0) := by
  have hset : {g | ∃ fuel el s', applyControls { cfg with fuel := fuel } fov cs 0 ⟨g, ⟨true, some sheet⟩, [[]]⟩ =
      .ok el s' ∧ ∃ hs, s'.obs = [hs] ∧ firstHeard hs = none} =
      {g | ∃ fuel el s', applyControls { cfg with fuel := fuel } fov cs 0 ⟨g, ⟨true, some sheet⟩, [[]]⟩ =
      .ok el s' ∧ s'.obs = [List.replicate cs.length []]} := by
    ext g
    constructor
    · rintro ⟨fuel, el, s', h, hs, hobs, hnone⟩
      have hlen := runs_length ((heard_runs cfg hrec fov q cs hq g sheet hs).1 ⟨fuel, el, s', h, hobs⟩)
      have : hs = List.replicate cs.length [] := by
        rw [List.eq_replicate_iff]
        refine ⟨by simpa using hlen, ?_⟩
        have : hs.flatten = [] := by simpa [firstHeard] using hnone
        simpa using this
      exact ⟨fuel, el, s', h, by rw [hobs, this]⟩
    · rintro ⟨fuel, el, s', h, hobs⟩
      exact ⟨fuel, el, s', h, _, hobs, by simp [firstHeard]⟩
  rw [hset, C127_controls cfg hrec hf hl hrate fov cs hd sheet]
  congr 1
  clear hset
  unfold exposures labelProb
  rw [if_pos rfl]
  induction cs with
  | nil => simp [controlsProb]
  | cons c cs ih =>
    rw [List.length_cons, List.replicate_succ, List.map_cons, List.map_cons, List.sum_cons, controlsProb,
      hq c List.mem_cons_self, quiet_prob (h0 c List.mem_cons_self) hr hne]
    have e : lastSheet sheet [] = sheet := rfl
    rw [e, ih (fun c hc => hq c (List.mem_cons_of_mem _ hc)) (fun c hc => h0 c (List.mem_cons_of_mem _ hc))
      (fun c hc => hd c (List.mem_cons_of_mem _ hc)), ← Real.exp_add]
    congr 1
    have : sumRates ss = (ss.map (·.rate)).sum := rfl
    rw [this]
    ring

/-- C154.  And the first thing heard is the transition to the `k`-th successor with the probability of the label `k + 1`
for the sum of the exposures. -/
theorem C154_first (cfg : SimCfg ℝ G (List (List (Timedelta × Grid ℝ))) P Img) (hrec : cfg.handle = recorder)
    (hf : Fair cfg.rng μ) (hl : cfg.rng.Lawful) (hsw : SwapRates cfg.rate) (hdef : RatesDefined cfg.rate)
    (fov : Fov ℝ) (q : V2 ℝ)
    (cs : List (BeamControl ℝ)) (hq : ∀ c ∈ cs, c.position = q) (h0 : ∀ c ∈ cs, 0 < c.dwellTime)
    (hd : ∀ c ∈ cs, c.dwellTime < 3600000000) (sheet : Grid ℝ) (hgood : GoodSheet sheet) (ss : List (Successor ℝ))
    (hr : cfg.rate sheet (fov.toMaterial q) = .ok ss) (hnd : (ss.map (·.grid)).Nodup) (k : ℕ) (y : Successor ℝ)
    (hy : ss[k]? = some y) :
    μ {g | ∃ fuel el s', applyControls { cfg with fuel := fuel } fov cs 0 ⟨g, ⟨true, some sheet⟩, [[]]⟩ = .ok el s' ∧
      ∃ hs, s'.obs = [hs] ∧ firstHeard hs = some y.grid} =
    ENNReal.ofReal (labelProb (ss.map (·.rate)) (exposures cs) (k + 1)) := by
  classical
  have hnn := hsw.nonneg _ _ _ hr
  have hsum : (ss.map (·.rate)).sum = sumRates ss := rfl
  have h0' : ∀ d ∈ cs.map (·.dwellTime), 0 < d := by
    intro d hd'
    obtain ⟨c, hc, rfl⟩ := List.mem_map.1 hd'
    exact h0 c hc
  have hd' : ∀ d ∈ cs.map (·.dwellTime), d < 3600000000 := by
    intro d h
    obtain ⟨c, hc, rfl⟩ := List.mem_map.1 h
    exact hd c hc
  by_cases hs : sumRates ss = 0
  · have : {g | ∃ fuel el s', applyControls { cfg with fuel := fuel } fov cs 0 ⟨g, ⟨true, some sheet⟩, [[]]⟩ = .ok el s' ∧
        ∃ hs, s'.obs = [hs] ∧ firstHeard hs = some y.grid} = ∅ := by
      ext g
      simp only [Set.mem_ofPred_eq, Set.mem_empty_iff_false, iff_false]
      rintro ⟨fuel, el, s', h, hs', hobs, hfirst⟩
      have hrun := (heard_runs cfg hrec fov q cs hq g sheet hs').1 ⟨fuel, el, s', h, hobs⟩
      clear hobs h hq hd' hd h0 h0'
      generalize cs.map (·.dwellTime) = ds at hrun
      induction ds generalizing g hs' with
      | nil =>
        cases hs' with
        | nil => simp [firstHeard] at hfirst
        | cons => exact absurd hrun (by simp [runs])
      | cons d ds ih =>
        cases hs' with
        | nil => exact absurd hrun (by simp [runs])
        | cons evs hs' =>
          obtain ⟨g', s2, hj, hrun⟩ := hrun
          cases hj with
          | over h => exact ih _ hs' hfirst hrun
          | idle => exact ih _ hs' hfirst hrun
          | late => exact ih _ hs' hfirst hrun
          | jump _ hr' h0'' => rw [hr, Except.ok.injEq] at hr'; subst hr'; exact absurd hs h0''
    rw [this, measure_empty]
    unfold labelProb
    rw [if_neg (by omega), hsum, hs]
    simp
  have hlaw := (piecesTo_law (next := y.grid) hf hl (fun sheet ss => hsw.nonneg sheet (fov.toMaterial q) ss) hr hs
    (cs.map (·.dwellTime)) h0' hd').2
  have hval : (1 - Real.exp (-(sumRates ss * ((cs.map (·.dwellTime)).map exposure).sum))) * shareOf ss y.grid =
      labelProb (ss.map (·.rate)) (exposures cs) (k + 1) := by
    unfold labelProb exposures
    rw [if_neg (by omega), hsum, List.map_map, Nat.add_sub_cancel, List.getD_eq_getElem?_getD, List.getElem?_map, hy,
      share_of_index hnd hy]
    rfl
  rw [← hval, ← hlaw]
  apply le_antisymm
  · apply measure_mono
    rintro g ⟨fuel, el, s', h, hs', hobs, hfirst⟩
    exact (mem_piecesTo hl hr hnn hs _ h0' g hs'
      ((heard_runs cfg hrec fov q cs hq g sheet hs').1 ⟨fuel, el, s', h, hobs⟩)).2 hfirst
  · have hzero := controls_end cfg hf hl hsw hdef fov cs hd sheet hgood
    refine (measure_mono (t := {g | ∃ fuel el s', applyControls { cfg with fuel := fuel } fov cs 0
      ⟨g, ⟨true, some sheet⟩, [[]]⟩ = .ok el s' ∧ ∃ hs, s'.obs = [hs] ∧ firstHeard hs = some y.grid} ∪
      {g | ¬ ∀ el obs, ∃ fuel el' s', applyControls { cfg with fuel := fuel } fov cs el
        ⟨g, ⟨true, some sheet⟩, obs⟩ = .ok el' s'}) ?_).trans ((measure_union_le _ _).trans (by rw [hzero, add_zero]))
    intro g hg
    by_cases hret : ∀ el obs, ∃ fuel el' s', applyControls { cfg with fuel := fuel } fov cs el
        ⟨g, ⟨true, some sheet⟩, obs⟩ = .ok el' s'
    · left
      obtain ⟨fuel, el, s', h⟩ := hret 0 [[]]
      obtain ⟨hs', hobs⟩ := controls_append { cfg with fuel := fuel } hrec fov cs g 0 el sheet [] s' h
      rw [List.nil_append] at hobs
      exact ⟨fuel, el, s', h, hs', hobs, (mem_piecesTo hl hr hnn hs _ h0' g hs'
        ((heard_runs cfg hrec fov q cs hq g sheet hs').1 ⟨fuel, el, s', h, hobs⟩)).1 hg⟩
    · right
      exact hret

/-- C154.  So it does not matter whether the beam is held at a place at once or in pieces, except for the rounding of the
times to microseconds: the probabilities that nothing is heard, and of what is heard first, differ by at most half a
microsecond times the total rate for each cut. -/
theorem C154_cut (cfg : SimCfg ℝ G (List (List (Timedelta × Grid ℝ))) P Img) (hrec : cfg.handle = recorder)
    (hf : Fair cfg.rng μ) (hl : cfg.rng.Lawful) (hsw : SwapRates cfg.rate) (hdef : RatesDefined cfg.rate)
    (fov : Fov ℝ) (q : V2 ℝ) (cs : List (BeamControl ℝ)) (hcs : cs ≠ []) (hq : ∀ c ∈ cs, c.position = q)
    (h0 : ∀ c ∈ cs, 0 < c.dwellTime) (whole : BeamControl ℝ) (hwq : whole.position = q)
    (hw : whole.dwellTime = (cs.map (·.dwellTime)).sum) (hd : whole.dwellTime < 3600000000) (sheet : Grid ℝ)
    (hgood : GoodSheet sheet) (ss : List (Successor ℝ))
    (hr : cfg.rate sheet (fov.toMaterial q) = .ok ss) (hnd : (ss.map (·.grid)).Nodup) (first : Option (Grid ℝ))
    (hfirst : ∀ next, first = some next → next ∈ ss.map (·.grid)) :
    |(μ {g | ∃ fuel el s', applyControls { cfg with fuel := fuel } fov cs 0 ⟨g, ⟨true, some sheet⟩, [[]]⟩ = .ok el s' ∧
        ∃ hs, s'.obs = [hs] ∧ firstHeard hs = first}).toReal -
      (μ {g | ∃ fuel el s', applyControls { cfg with fuel := fuel } fov [whole] 0 ⟨g, ⟨true, some sheet⟩, [[]]⟩ =
        .ok el s' ∧ ∃ hs, s'.obs = [hs] ∧ firstHeard hs = first}).toReal| ≤
    (ss.map (·.rate)).sum * ((cs.length - 1) / 2000000) := by
  have hne : ss ≠ [] := by
    obtain ⟨ss', h1, h2⟩ := hdef sheet (fov.toMaterial q) hgood.doped hgood.four hgood.nodup
    rw [hr, Except.ok.injEq] at h1
    rwa [h1]
  have hsum0 : ∀ c ∈ cs, c.dwellTime ≤ (cs.map (·.dwellTime)).sum := fun c hc =>
    List.single_le_sum (fun d hd => by
      obtain ⟨c, hc, rfl⟩ := List.mem_map.1 hd
      exact (h0 c hc).le) _ (List.mem_map_of_mem hc)
  have hd' : ∀ c ∈ cs, c.dwellTime < 3600000000 := fun c hc => (hsum0 c hc).trans_lt (hw ▸ hd)
  have hw0 : 0 < whole.dwellTime := by
    obtain ⟨c, hc⟩ := List.exists_mem_of_ne_nil cs hcs
    rw [hw]
    exact (h0 c hc).trans_le (hsum0 c hc)
  have hlen : (1 : ℝ) ≤ cs.length := by
    have := List.length_pos_of_ne_nil hcs
    exact_mod_cast this
  have hnn : ∀ r ∈ ss.map (·.rate), 0 ≤ r := by
    intro r hr'
    obtain ⟨y, hy, rfl⟩ := List.mem_map.1 hr'
    exact hsw.nonneg _ _ _ hr y hy
  have e1 := exposures_eq cs
  have e2 := exposures_eq [whole]
  simp only [List.map_cons, List.map_nil, List.sum_cons, List.sum_nil, add_zero, List.length_cons, List.length_nil,
    Nat.cast_zero, zero_add, Nat.cast_one] at e2
  rw [← hw] at e1
  have hpos : 0 ≤ exposures [whole] := by
    rw [e2]
    have : (0 : ℝ) < whole.dwellTime := by exact_mod_cast hw0
    positivity
  have hle : exposures [whole] ≤ exposures cs := by rw [e1, e2]; linarith
  have hdiff : exposures cs - exposures [whole] = (cs.length - 1) / 2000000 := by rw [e1, e2]; ring
  have hR : 0 ≤ (ss.map (·.rate)).sum := List.sum_nonneg hnn
  have hprob : ∀ t : ℝ, 0 ≤ t → ∀ j, 0 ≤ labelProb (ss.map (·.rate)) t j := by
    intro t ht j
    unfold labelProb
    split_ifs
    · exact (Real.exp_pos _).le
    · refine mul_nonneg (sub_nonneg.2 ?_) (div_nonneg ?_ hR)
      · rw [Real.exp_le_one_iff, neg_nonpos]; exact mul_nonneg hR ht
      · rw [List.getD_eq_getElem?_getD]
        cases hg : (ss.map (·.rate))[j - 1]? with
        | none => simp
        | some r => exact hnn r (List.mem_of_getElem? hg)
  rw [← hdiff]
  cases first with
  | none =>
    rw [C154_stays cfg hrec hf hl hsw.nonneg fov q cs hq h0 hd' sheet ss hr hne,
      C154_stays cfg hrec hf hl hsw.nonneg fov q [whole] (by simpa using hwq) (by simpa using hw0) (by simpa using hd)
        sheet ss hr hne, ENNReal.toReal_ofReal (hprob _ (hpos.trans hle) _), ENNReal.toReal_ofReal (hprob _ hpos _)]
    exact labelProb_close hnn hpos hle 0
  | some next =>
    obtain ⟨y, hy, rfl⟩ := List.mem_map.1 (hfirst next rfl)
    obtain ⟨k, hk⟩ := List.mem_iff_getElem?.1 hy
    rw [C154_first cfg hrec hf hl hsw hdef fov q cs hq h0 hd' sheet hgood ss hr hnd k y hk,
      C154_first cfg hrec hf hl hsw hdef fov q [whole] (by simpa using hwq) (by simpa using hw0) (by simpa using hd)
        sheet hgood ss hr hnd k y hk, ENNReal.toReal_ofReal (hprob _ (hpos.trans hle) _),
      ENNReal.toReal_ofReal (hprob _ hpos _)]
    exact labelProb_close hnn hpos hle (k + 1)

/-- Where the silicon is determines the sheet. -/
theorem sheet_unique {a b : Grid ℝ} (ha : SingleDoped a) (hb : SingleDoped b) (hpos : a.positions = b.positions)
    (hnd : a.positions.Nodup) {p : V2 ℝ} (h1 : silicons a = [p]) (h2 : silicons b = [p]) : a = b := by
  have h1' : p ∈ silicons a := by rw [h1]; exact List.mem_singleton_self p
  have h2' : p ∈ silicons b := by rw [h2]; exact List.mem_singleton_self p
  obtain ⟨i, hi⟩ := List.mem_iff_getElem?.1 (mem_silicons.1 h1')
  obtain ⟨hi, hsi⟩ := List.getElem?_zip_eq_some.1 hi
  obtain ⟨j, hj⟩ := List.mem_iff_getElem?.1 (mem_silicons.1 h2')
  obtain ⟨hj, hsj⟩ := List.getElem?_zip_eq_some.1 hj
  have hij : i = j := by
    rw [← hpos] at hj
    exact (List.getElem?_inj (List.getElem?_eq_some_iff.1 hi).1 hnd).1 (hi.trans hj.symm)
  subst hij
  obtain ⟨wa, ia, hia, na⟩ := ha
  obtain ⟨wb, ib, hib, nb⟩ := hb
  have hlt : i < a.numbers.length := (List.getElem?_eq_some_iff.1 hsi).1
  have hlt' : i < b.numbers.length := (List.getElem?_eq_some_iff.1 hsj).1
  have ea : i = ia := by
    by_contra hne
    have := na i hlt
    rw [hsi, if_neg hne] at this
    simp [SILICON, CARBON] at this
  have eb : i = ib := by
    by_contra hne
    have := nb i hlt'
    rw [hsj, if_neg hne] at this
    simp [SILICON, CARBON] at this
  subst ea eb
  obtain ⟨pa, qa⟩ := a
  obtain ⟨pb, qb⟩ := b
  simp only at *
  subst hpos
  congr 1
  apply List.ext_getElem?
  intro k
  by_cases hk : k < qa.length
  · rw [na k hk, nb k (by omega)]
  · rw [List.getElem?_eq_none (by omega), List.getElem?_eq_none (by omega)]

/-- C154.  With the simple rates: for a silicon with three bonds, the probabilities that it stays and that it moves to a
given neighbour first differ by at most one and a half millionths for each cut. -/
theorem C154_simple (cfg : SimCfg ℝ G (List (List (Timedelta × Grid ℝ))) P Img) (hrec : cfg.handle = recorder)
    (hf : Fair cfg.rng μ) (hl : cfg.rng.Lawful) (knn : Knn ℝ) (hc : cfg.rate = pristineRates knn simpleCanonicalRates)
    (fov : Fov ℝ) (q : V2 ℝ) (cs : List (BeamControl ℝ)) (hcs : cs ≠ []) (hq : ∀ c ∈ cs, c.position = q)
    (h0 : ∀ c ∈ cs, 0 < c.dwellTime) (whole : BeamControl ℝ) (hwq : whole.position = q)
    (hw : whole.dwellTime = (cs.map (·.dwellTime)).sum) (hd : whole.dwellTime < 3600000000) (sheet : Grid ℝ)
    (hdop : SingleDoped sheet) (si : V2 ℝ) (hsi : silicons sheet = [si]) (nbrs : List (V2 ℝ))
    (hbond : BondedTo sheet.positions si nbrs) (first : Option (Grid ℝ))
    (hfirst : ∀ next, first = some next → next.positions = sheet.positions ∧ SingleDoped next ∧
      ∃ p ∈ nbrs, silicons next = [p]) :
    |(μ {g | ∃ fuel el s', applyControls { cfg with fuel := fuel } fov cs 0 ⟨g, ⟨true, some sheet⟩, [[]]⟩ = .ok el s' ∧
        ∃ hs, s'.obs = [hs] ∧ firstHeard hs = first}).toReal -
      (μ {g | ∃ fuel el s', applyControls { cfg with fuel := fuel } fov [whole] 0 ⟨g, ⟨true, some sheet⟩, [[]]⟩ =
        .ok el s' ∧ ∃ hs, s'.obs = [hs] ∧ firstHeard hs = first}).toReal| ≤
    3 / 2000000 * (cs.length - 1) := by
  obtain ⟨h4, _⟩ := bonded_four hbond
  obtain ⟨ss, places, hss, hperm, hall⟩ := simple_successors knn hdop hsi hbond (fov.toMaterial q)
  have hlen : ss.length = 3 := by rw [hall.length_eq, hperm.length_eq, hbond.three]
  have hsis : ss.map (fun x => silicons x.grid) = places.map (fun p => [p]) := by
    clear hperm hlen hss
    induction hall with
    | nil => rfl
    | cons h _ ih => rw [List.map_cons, List.map_cons, ih, h.2.2.1]
  have hnd : (ss.map (·.grid)).Nodup := by
    have : (ss.map (fun x => silicons x.grid)).Nodup := by
      rw [hsis]
      exact (hperm.nodup_iff.2 hbond.nodup).map (fun a b e => by simpa using e)
    rw [show ss.map (fun x => silicons x.grid) = (ss.map (·.grid)).map silicons by rw [List.map_map]; rfl] at this
    exact List.Nodup.of_map _ this
  have hmem : ∀ next, first = some next → next ∈ ss.map (·.grid) := by
    intro next e
    obtain ⟨n1, n2, p, hp, n3⟩ := hfirst next e
    have hp' : p ∈ places := hperm.mem_iff.2 hp
    obtain ⟨k, hk⟩ := List.mem_iff_getElem?.1 hp'
    have hklt : k < ss.length := by
      rw [hall.length_eq]; exact (List.getElem?_eq_some_iff.1 hk).1
    obtain ⟨x1, x2, x3, _⟩ := List.forall₂_iff_get.1 hall |>.2 k hklt (hall.length_eq ▸ hklt)
    have hpk : places.get ⟨k, hall.length_eq ▸ hklt⟩ = p := (List.getElem?_eq_some_iff.1 hk).2
    rw [hpk] at x3
    have : next = (ss.get ⟨k, hklt⟩).grid :=
      sheet_unique n2 x2 (n1.trans x1.symm) (n1 ▸ hbond.distinct) n3 x3
    rw [this]
    exact List.mem_map_of_mem (List.get_mem _ _)
  have hrate : ∀ r ∈ ss.map (·.rate), r ≤ 1 := by
    intro r hr
    obtain ⟨x, hx, rfl⟩ := List.mem_map.1 hr
    obtain ⟨p, hp⟩ : ∃ p, x.rate = simpleRateAt (fov.toMaterial q) p := by
      clear hsis hperm hlen hnd hmem hr hss
      induction hall with
      | nil => cases hx
      | cons h _ ih =>
        rcases List.mem_cons.1 hx with rfl | hx
        · exact ⟨_, h.2.2.2⟩
        · exact ih hx
    rw [hp]
    unfold simpleRateAt
    rw [div_le_one (by positivity)]
    nlinarith [sq_nonneg (4 * Spec.dist (fov.toMaterial q) p / (142 / 100))]
  have hsum : (ss.map (·.rate)).sum ≤ 3 := by
    have := List.sum_le_card_nsmul _ _ hrate
    rw [List.length_map, hlen] at this
    simpa using this
  have hn : (1 : ℝ) ≤ cs.length := by
    have := List.length_pos_of_ne_nil hcs
    exact_mod_cast this
  refine (C154_cut cfg hrec hf hl (hc ▸ C39_pristine_swaps knn _) (hc ▸ (C99_rates_defined knn).1) fov q cs hcs hq h0 whole
    hwq hw hd sheet ⟨hdop, h4, hbond.distinct⟩ ss (hc ▸ hss) hnd first hmem).trans ?_
  have : (0 : ℝ) ≤ (cs.length - 1) / 2000000 := by linarith
  nlinarith

end

/-- Six seconds or three times two seconds, in the middle of a sheet of 50 columns. -/
example : ∃ (sheet : Grid ℝ) (cfg : SimCfg ℝ _ (List (List (Timedelta × Grid ℝ))) Unit Unit) (p : V2 ℝ) (next : Grid ℝ),
    silicons next = [p] ∧ next ≠ sheet ∧
    |(Witness.streamLaw {g | ∃ fuel el s', applyControls { cfg with fuel := fuel } ⟨⟨-10, -10⟩, ⟨10, 10⟩⟩
        [BeamControl.mk' ⟨1 / 2, 1 / 2⟩ 2000000, BeamControl.mk' ⟨1 / 2, 1 / 2⟩ 2000000, BeamControl.mk' ⟨1 / 2, 1 / 2⟩ 2000000]
        0 ⟨g, ⟨true, some sheet⟩, [[]]⟩ = .ok el s' ∧ ∃ hs, s'.obs = [hs] ∧ firstHeard hs = some next}).toReal -
      (Witness.streamLaw {g | ∃ fuel el s', applyControls { cfg with fuel := fuel } ⟨⟨-10, -10⟩, ⟨10, 10⟩⟩
        [BeamControl.mk' ⟨1 / 2, 1 / 2⟩ 6000000] 0 ⟨g, ⟨true, some sheet⟩, [[]]⟩ =
        .ok el s' ∧ ∃ hs, s'.obs = [hs] ∧ firstHeard hs = some next}).toReal| ≤ 3 / 1000000 := by
  obtain ⟨sheet, si, nbrs, nbrs', p, _, hdop, hD, hsi, hbond, hp, _⟩ := middle_silicon
  let cfg : SimCfg ℝ _ (List (List (Timedelta × Grid ℝ))) Unit Unit :=
    ⟨Witness.streamRng, recorder, pristineRates Witness.knn simpleCanonicalRates, fun g => ([], g), 0, 0,
      fun g => ((), g), fun _ _ _ g => ((), g)⟩
  obtain ⟨ss, places, hss, hperm, hall⟩ := simple_successors Witness.knn hdop hsi hbond ⟨0, 0⟩
  have hpl : p ∈ places := hperm.mem_iff.2 hp
  obtain ⟨k, hk⟩ := List.mem_iff_getElem?.1 hpl
  have hklt : k < ss.length := by
    rw [hall.length_eq]; exact (List.getElem?_eq_some_iff.1 hk).1
  obtain ⟨x1, x2, x3, _⟩ := List.forall₂_iff_get.1 hall |>.2 k hklt (hall.length_eq ▸ hklt)
  have hpk : places.get ⟨k, hall.length_eq ▸ hklt⟩ = p := (List.getElem?_eq_some_iff.1 hk).2
  rw [hpk] at x3
  refine ⟨sheet, cfg, p, (ss.get ⟨k, hklt⟩).grid, x3, ?_, ?_⟩
  · intro e
    rw [e, hsi, List.singleton_inj] at x3
    have := (hbond.bonds p hp).2
    rw [x3, dist_self', abs_le] at this
    norm_num at this
  · refine (C154_simple cfg rfl Witness.streamRng_fair Witness.streamRng_lawful Witness.knn rfl _ ⟨1 / 2, 1 / 2⟩ _ (by simp)
      (by simp [BeamControl.mk']) (by simp [BeamControl.mk']) (BeamControl.mk' ⟨1 / 2, 1 / 2⟩ 6000000) rfl
      (by simp [BeamControl.mk']) (show (6000000 : ℤ) < 3600000000 by decide) sheet hdop si hsi nbrs hbond _ ?_).trans
      (by norm_num)
    intro next e
    rw [Option.some.injEq] at e
    subst e
    exact ⟨x1, x2, p, hp, x3⟩

end PD.Props
