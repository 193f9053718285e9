/- C134: for almost every row of random numbers, nothing a client does hangs. -/
import Verif.Lemmas.Endless
import Verif.Props.Experiments

set_option linter.unusedSectionVars false
set_option linter.unusedSimpArgs false

namespace PD.Props
open PD PD.Spec MeasureTheory ProbabilityTheory

/-! ### Rows of numbers -/

theorem rises_shift {g : ℕ → ℝ} (h : RisesForever g) : RisesForever (fun n => g (n + 1)) := by
  intro T N odd
  fin_cases odd
  · obtain ⟨i, hi, hT⟩ := h T N 1
    exact ⟨i, hi, by simpa using hT⟩
  · obtain ⟨i, hi, hT⟩ := h T (N + 1) 0
    refine ⟨i - 1, by omega, ?_⟩
    have : 2 * (i - 1) + 1 + 1 = 2 * i := by omega
    simpa [this] using hT

theorem rises_waits {g : ℕ → ℝ} (h : RisesForever g) {m T : ℝ} (hm : 0 < m) : WaitsLong Witness.streamRng m T g := by
  obtain ⟨N, hN⟩ := exists_nat_ge (T / m)
  obtain ⟨i, -, hi⟩ := h N 0 0
  have hT : T / m ≤ g (2 * i) := hN.trans (by simpa using hi)
  clear hi hN h
  induction i generalizing g with
  | zero =>
    refine .now fun mean hmean => ?_
    rw [div_le_iff₀ hm] at hT
    simp only [Witness.streamRng]
    have h0 : 0 ≤ max (g 0) 0 := le_max_right _ _
    calc T ≤ g (2 * 0) * m := hT
      _ ≤ max (g 0) 0 * m := mul_le_mul_of_nonneg_right (le_max_left _ _) hm.le
      _ ≤ max (g 0) 0 * mean := mul_le_mul_of_nonneg_left hmean h0
      _ = mean * max (g 0) 0 := mul_comm _ _
  | succ i ih =>
    refine .later fun mean hmean ps => ?_
    simp only [Witness.streamRng]
    exact ih hT

/-- The chance that none of `k` numbers, at every other place, is as large as `T`. -/
theorem small_chance (T : ℝ) (k a : ℕ) :
    Witness.streamLaw {g | ∀ i < k, g (a + 2 * i) < T} = (expMeasure 1 (Set.Iio T)) ^ k := by
  have hm : ∀ k a, MeasurableSet {g : ℕ → ℝ | ∀ i < k, g (a + 2 * i) < T} := by
    intro k a
    have : {g : ℕ → ℝ | ∀ i < k, g (a + 2 * i) < T} = ⋂ i, ⋂ (_ : i < k), (fun g : ℕ → ℝ => g (a + 2 * i)) ⁻¹' Set.Iio T := by
      ext g
      simp
    rw [this]
    exact MeasurableSet.iInter fun i => MeasurableSet.iInter fun _ => measurable_pi_apply _ measurableSet_Iio
  induction k generalizing a with
  | zero => simp [Witness.streamLaw]
  | succ k ihk =>
    induction a with
    | zero =>
      have e : {g : ℕ → ℝ | ∀ i < k + 1, g (0 + 2 * i) < T} =
          {g | g 0 ∈ Set.Iio T ∧ (fun n => g (n + 1)) ∈ {g : ℕ → ℝ | ∀ i < k, g (1 + 2 * i) < T}} := by
        ext g
        simp only [Set.mem_ofPred_eq, Set.mem_Iio]
        constructor
        · intro h
          refine ⟨by simpa using h 0 (by omega), fun i hi => ?_⟩
          have := h (i + 1) (by omega)
          rwa [show 0 + 2 * (i + 1) = 1 + 2 * i + 1 by ring] at this
        · rintro ⟨h0, h1⟩ i hi
          cases i with
          | zero => simpa using h0
          | succ i =>
            have := h1 i (by omega)
            rwa [show 0 + 2 * (i + 1) = 1 + 2 * i + 1 by ring]
      rw [e, Witness.streamLaw_head_tail measurableSet_Iio (hm k 1), ihk, pow_succ, mul_comm]
    | succ a iha =>
      have e : {g : ℕ → ℝ | ∀ i < k + 1, g (a + 1 + 2 * i) < T} =
          {g | g 0 ∈ Set.univ ∧ (fun n => g (n + 1)) ∈ {g : ℕ → ℝ | ∀ i < k + 1, g (a + 2 * i) < T}} := by
        ext g
        simp only [Set.mem_ofPred_eq, Set.mem_univ, true_and]
        constructor
        · intro h i hi
          have := h i hi
          rwa [show a + 1 + 2 * i = a + 2 * i + 1 by ring] at this
        · intro h i hi
          have := h i hi
          rwa [show a + 1 + 2 * i = a + 2 * i + 1 by ring]
      rw [e, Witness.streamLaw_head_tail MeasurableSet.univ (hm (k + 1) a), iha, measure_univ, one_mul]

theorem below_lt_one (T : ℕ) : expMeasure 1 (Set.Iio (T : ℝ)) < 1 := by
  refine lt_of_le_of_lt (measure_mono Set.Iio_subset_Iic_self) ?_
  have h1 : expMeasure 1 (Set.Iic (T : ℝ)) = ENNReal.ofReal (cdf (expMeasure 1) T) :=
    (ofReal_cdf (expMeasure 1) (T : ℝ)).symm
  rw [h1, cdf_expMeasure_eq zero_lt_one, if_pos (Nat.cast_nonneg T), ← ENNReal.ofReal_one]
  rw [ENNReal.ofReal_lt_ofReal_iff zero_lt_one]
  have := Real.exp_pos (-(1 * (T : ℝ)))
  linarith

/-- Almost every row of independent numbers rises forever. -/
theorem rises_surely : Witness.streamLaw {g | ¬ RisesForever g} = 0 := by
  have e : {g : ℕ → ℝ | ¬ RisesForever g} ⊆ ⋃ T : ℕ, ⋃ N : ℕ, ⋃ odd : Fin 2,
      {g | ∀ i, g (2 * N + odd + 2 * i) < T} := by
    intro g hg
    simp only [RisesForever, Set.mem_ofPred_eq, not_forall, not_exists, not_and, not_le] at hg
    obtain ⟨T, N, odd, h⟩ := hg
    simp only [Set.mem_iUnion, Set.mem_ofPred_eq]
    refine ⟨T, N, odd, fun i => ?_⟩
    have := h (N + i) (by omega)
    rwa [show 2 * (N + i) + (odd : ℕ) = 2 * N + odd + 2 * i by ring] at this
  refine measure_mono_null e ?_
  rw [measure_iUnion_null_iff]
  intro T
  rw [measure_iUnion_null_iff]
  intro N
  rw [measure_iUnion_null_iff]
  intro odd
  have hle : ∀ k : ℕ, Witness.streamLaw {g | ∀ i, g (2 * N + odd + 2 * i) < T} ≤ (expMeasure 1 (Set.Iio (T : ℝ))) ^ k := by
    intro k
    rw [← small_chance (T : ℝ) k (2 * N + odd)]
    exact measure_mono fun g hg i _ => hg i
  have hlim := ENNReal.tendsto_pow_atTop_nhds_zero_of_lt_one (below_lt_one T)
  exact le_antisymm (ge_of_tendsto' hlim hle) bot_le

/-- C134.  Random numbers are like this: for almost every row of independent numbers, whatever is drawn and however
often, and whatever means and probabilities are asked for, another wait of any length is still to come. -/
theorem C134_streams : Patient Witness.streamRng RisesForever ∧ Witness.streamLaw {g | ¬ RisesForever g} = 0 :=
  ⟨⟨fun _ _ _ h => rises_shift h, fun _ _ h => rises_shift h, fun _ _ h => rises_shift h, fun _ _ h => rises_shift h,
    fun _ h _ _ hm => rises_waits h hm⟩, rises_surely⟩

section
variable {G O P Img F : Type} {Good : G → Prop}

/-! ### All calls -/

theorem after_settles {cfg : EnvCfg ℝ G O P Img F} {n : ℕ} (hc : PlayCfg cfg n) (hp : PatientEnv cfg Good)
    (ops : List (EnvOp ℝ O)) {s : Env ℝ G O P Img} (h : Ready n Good s) :
    ∃ rounds, ∀ fuel, rounds ≤ fuel → ∀ pre op post, ops = pre ++ op :: post →
      (op = .reset → ∃ t s', Env.reset (withRounds cfg fuel) (Env.after (withRounds cfg fuel) s pre) = .ok t s') ∧
      ∀ a, op = .step a → a.length = actionSize cfg.adapter →
        ∃ t s', Env.step (withRounds cfg fuel) a (Env.after (withRounds cfg fuel) s pre) = .ok t s' := by
  induction ops generalizing s with
  | nil => exact ⟨0, fun fuel _ pre op post e => by simp at e⟩
  | cons op0 ops ih =>
    obtain ⟨r1, s1, h1, h2⟩ := exec_settles hc hp h op0
    obtain ⟨r2, h3⟩ := ih h2
    have h4 : ∃ r3, ∀ fuel, r3 ≤ fuel → ∀ a, op0 = .step a → a.length = actionSize cfg.adapter →
        ∃ t s', Env.step (withRounds cfg fuel) a s = .ok t s' := by
      cases op0 with
      | step a =>
        obtain ⟨r3, r, h5, -, h6⟩ := step_settles hc hp h a
        refine ⟨r3, fun fuel hf a' ha' hlen => ?_⟩
        cases ha'
        rw [h5 fuel hf]
        exact h6 hlen
      | _ => exact ⟨0, fun fuel _ a ha => by cases ha⟩
    obtain ⟨r3, h4⟩ := h4
    refine ⟨max r1 (max r2 r3), fun fuel hf pre op post e => ?_⟩
    cases pre with
    | nil =>
      simp only [List.nil_append, List.cons.injEq] at e
      obtain ⟨rfl, rfl⟩ := e
      refine ⟨fun _ => ?_, fun a ha hlen => h4 fuel (by omega) a ha hlen⟩
      obtain ⟨t, s', h5, -⟩ := reset_settles hc hp h
      exact ⟨t, s', h5 fuel⟩
    | cons x pre =>
      simp only [List.cons_append, List.cons.injEq] at e
      obtain ⟨rfl, rfl⟩ := e
      have := h3 fuel (by omega) pre op post rfl
      simp only [Env.after, List.foldl_cons] at this ⊢
      rw [h1 fuel (by omega)]
      exact this

/-- C134.  An environment whose generator starts in such a state: whatever sequence of resets, steps with actions of any
size and values, seedings and changes of observers a client performs, every reset in it and every step with an action of
the right size returns, as soon as the loops may take sufficiently many rounds (in the code they may take any number).
The random numbers do not have to be chosen again for another sequence: those of `C134_streams` do for all of them. -/
theorem C134_calls (cfg : EnvCfg ℝ G O P Img F) (n : ℕ) (hc : PlayCfg cfg n) (hp : PatientEnv cfg Good) (g : G)
    (hg : Good g) (ga : Option G) (beam : V2 ℝ) (goal : GoalState ℝ) (hgoal : GoalRangeOk goal)
    (calls : List (EnvOp ℝ O)) :
    ∃ rounds, ∀ fuel, rounds ≤ fuel → ∀ before call later, calls = before ++ call :: later →
      (call = .reset →
        ∃ t s', Env.reset (withRounds cfg fuel) (Env.after (withRounds cfg fuel) (Env.fresh g ga beam goal) before) =
          .ok t s') ∧
      ∀ a, call = .step a → a.length = actionSize cfg.adapter →
        ∃ t s', Env.step (withRounds cfg fuel) a
          (Env.after (withRounds cfg fuel) (Env.fresh g ga beam goal) before) = .ok t s' :=
  after_settles hc hp calls ⟨fresh_plays n g ga beam hgoal, hg⟩

/-! ### Whole experiments -/

/-- Every call of an environment in a `StepLimitWrapper` returns, the same for all sufficiently many rounds. -/
theorem limited_settles {cfg : EnvCfg ℝ G O P Img F} {n : ℕ} (hc : PlayCfg cfg n) (hp : PatientEnv cfg Good)
    {Q : F → Prop} (hQ : ∀ o goal f, cfg.features o (.singleSilicon goal) = .ok f → Q f) (limit : Option ℤ)
    (s : Env ℝ G O P Img × ℤ) (hs : Ready n Good s.1) (c : EnvCall (List ℝ))
    (hcall : ∀ a, c = .step a → a.length = actionSize cfg.adapter) :
    ∃ rounds t s', (∀ fuel, rounds ≤ fuel →
      (stepLimit (Env.like (withRounds cfg fuel)) limit).call c s = .ok t s') ∧ Ready n Good s'.1 ∧ Q t.observation := by
  obtain ⟨s, k⟩ := s
  have hr : ∃ t s', (∀ fuel, Env.reset (withRounds cfg fuel) s = .ok t s') ∧ Ready n Good s' ∧ Q t.observation := by
    obtain ⟨t, s', h1, h2⟩ := reset_settles hc hp hs
    exact ⟨t, s', h1, h2, hQ _ _ _ (envReset_ok (h1 0)).2.2.2.2.2⟩
  have hst : ∀ a : List ℝ, a.length = actionSize cfg.adapter →
      ∃ rounds t s', (∀ fuel, rounds ≤ fuel → Env.step (withRounds cfg fuel) a s = .ok t s') ∧ Ready n Good s' ∧
        Q t.observation := by
    intro a ha
    by_cases hq : s.requiresReset = true
    · obtain ⟨t, s', h1, h2⟩ := hr
      exact ⟨0, t, s', fun fuel _ => by rw [envStep_eq, if_pos hq, h1], h2⟩
    · simp only [Bool.not_eq_true] at hq
      obtain ⟨rounds, r, h1, h2, h3⟩ := step_settles hc hp hs a
      obtain ⟨t, s', rfl⟩ := h3 ha
      refine ⟨rounds, t, s', h1, h2, ?_⟩
      cases envStep_end (withRounds cfg rounds) a s hq with
      | failed e s2 h4 => rw [h1 rounds le_rfl] at h4; cases h4
      | ok t2 s2 h4 cs beam hcs hsim hfeat =>
        rw [h1 rounds le_rfl] at h4
        cases h4
        exact hQ _ _ _ hfeat
  cases c with
  | reset =>
    obtain ⟨t, s', h1, h2, h3⟩ := hr
    exact ⟨0, t, (s', 0), fun fuel _ => by simp only [EnvLike.call, stepLimit, Env.like, h1], h2, h3⟩
  | step a =>
    have : ∃ rounds t s', (∀ fuel, rounds ≤ fuel → (if k = -1 then (Env.like (withRounds cfg fuel)).reset s
        else (Env.like (withRounds cfg fuel)).step a s) = .ok t s') ∧ Ready n Good s' ∧ Q t.observation := by
      split_ifs
      · obtain ⟨t, s', h1, h2⟩ := hr
        exact ⟨0, t, s', fun fuel _ => h1 fuel, h2⟩
      · exact hst a (hcall a rfl)
    obtain ⟨rounds, t, s', h1, h2, h3⟩ := this
    refine ⟨rounds, ?_⟩
    by_cases hfirst : t.stepType = .first
    · exact ⟨t, (s', 0), fun fuel hf => by simp only [EnvLike.call, stepLimit, h1 fuel hf, hfirst, if_true], h2, h3⟩
    · cases limit with
      | none =>
        exact ⟨t, (s', k + 1), fun fuel hf => by simp only [EnvLike.call, stepLimit, h1 fuel hf, hfirst, if_false], h2,
          h3⟩
      | some l =>
        by_cases hl : k + 1 ≥ l
        · exact ⟨TimeStep.truncation t.reward t.observation t.discount, (s', -1), fun fuel hf => by
            simp only [EnvLike.call, stepLimit, h1 fuel hf, hfirst, if_false, hl, if_true], h2, h3⟩
        · exact ⟨t, (s', k + 1), fun fuel hf => by
            simp only [EnvLike.call, stepLimit, h1 fuel hf, hfirst, if_false]
            exact if_neg hl, h2, h3⟩

theorem runs_settle {cfg : EnvCfg ℝ G O P Img F} {n : ℕ} (hc : PlayCfg cfg n) (hp : PatientEnv cfg Good)
    {Q : F → Prop} (hQ : ∀ o goal f, cfg.features o (.singleSilicon goal) = .ok f → Q f) (limit : Option ℤ)
    (calls : List (EnvCall (List ℝ))) (hcalls : ∀ a, .step a ∈ calls → a.length = actionSize cfg.adapter)
    (s : Env ℝ G O P Img × ℤ) (hs : Ready n Good s.1) :
    ∃ rounds, ∀ fuel, rounds ≤ fuel → ∀ r ∈ ((stepLimit (Env.like (withRounds cfg fuel)) limit).run s calls).1,
      ∃ t, r.2 = .ok t ∧ Q t.observation := by
  induction calls generalizing s with
  | nil => exact ⟨0, fun fuel _ r hr => by simp [EnvLike.run] at hr⟩
  | cons c calls ih =>
    obtain ⟨r1, t, s', h1, h2, h3⟩ := limited_settles hc hp hQ limit s hs c
      (fun a ha => hcalls a (by rw [ha]; exact List.mem_cons_self))
    obtain ⟨r2, h4⟩ := ih (fun a ha => hcalls a (List.mem_cons_of_mem _ ha)) s' h2
    refine ⟨max r1 r2, fun fuel hf r hr => ?_⟩
    simp only [EnvLike.run, h1 fuel (by omega), List.mem_cons] at hr
    rcases hr with rfl | hr
    · exact ⟨t, rfl, h3⟩
    · exact h4 fuel (by omega) r hr

theorem created_ready {cfg : EnvCfg ℝ G O P Img F} (hp : PatientEnv cfg Good) (n : ℕ) (seed limit : ℤ) (g : G)
    (ga : Option G) (beam : V2 ℝ) : Ready n Good (createEnv cfg seed limit g ga beam GoalState.fresh).2.1 :=
  ⟨created_plays cfg n seed limit g ga beam, hp.seeds seed⟩

end

section
variable {σ α A F : Type}

theorem evalLoop_settles (E : ℕ → EvalEnv σ A F) (hel : ∀ k l, (E k).elapsed = (E l).elapsed) (ag : Agent α A F)
    (timeout d : Timedelta) (hd : 0 < d) (ht : ∀ k, Takes (E k) ag d) {I : σ → Prop} {good : A → Prop}
    (hag : ∀ t a, ∃ x a', ag.step t a = .ok x a' ∧ good x.1)
    (hstep : ∀ s a, I s → good a → ∃ rounds t s', (∀ k, rounds ≤ k → (E k).like.step a s = .ok t s') ∧ I s')
    (fuel : ℕ) (v : LoopVars F) (s : σ) (a : α) (hs : I s)
    (hf : timeout - (v.agentTime + v.envTime) ≤ fuel * d) :
    ∃ rounds v' p', (∀ k, rounds ≤ k → evalLoop (E k) ag timeout fuel v (s, a) = .ok v' p') ∧ I p'.1 := by
  induction fuel generalizing v s a with
  | zero =>
    simp only [Nat.cast_zero, zero_mul] at hf
    have : ¬ v.agentTime + v.envTime < timeout := by omega
    exact ⟨0, v, (s, a), fun k _ => by simp [evalLoop, this], hs⟩
  | succ fuel ih =>
    by_cases hlt : v.agentTime + v.envTime < timeout
    swap
    · exact ⟨0, v, (s, a), fun k _ => by simp only [evalLoop, hlt, if_false], hs⟩
    obtain ⟨⟨act, spent⟩, a', h1, h2⟩ := hag v.timeStep a
    obtain ⟨r1, t, s', h3, h4⟩ := hstep s act hs h2
    by_cases hlast : t.stepType = .last
    · refine ⟨r1, ⟨t, v.numActions + 1, v.totalReward + t.reward, v.agentTime + spent, v.envTime + (E 0).elapsed s'⟩,
        (s', a'), fun k hk => ?_, h4⟩
      simp only [evalLoop, hlt, if_true, h1, h3 k hk, hlast, hel k 0]
    · have h5 := (ht r1).env (.step act) s t s' (h3 r1 le_rfl)
      have h6 := (ht r1).agent _ _ _ _ h1
      simp only at h6
      push_cast at hf
      obtain ⟨r2, v', p', h7, h8⟩ := ih ⟨t, v.numActions + 1, v.totalReward + t.reward, v.agentTime + spent,
        v.envTime + (E 0).elapsed s'⟩ s' a' h4 (by simp only; rw [hel r1 0] at h5; nlinarith)
      refine ⟨max r1 r2, v', p', fun k hk => ?_, h8⟩
      simp only [evalLoop, hlt, if_true, h1, h3 k (by omega), hlast, if_false, hel k 0]
      exact h7 k (by omega)

theorem evaluate_settles (E : ℕ → EvalEnv σ A F) (hel : ∀ k l, (E k).elapsed = (E l).elapsed)
    (hsd : ∀ k l, (E k).seed = (E l).seed) (ag : Agent α A F) (timeout d : Timedelta) (hd : 0 < d)
    (ht : ∀ k, Takes (E k) ag d) {I : σ → Prop} {good : A → Prop}
    (hag : ∀ t a, ∃ x a', ag.step t a = .ok x a' ∧ good x.1) (hseed : ∀ k z s, I s → I ((E k).seed z s))
    (hreset : ∀ s, I s → ∃ rounds t s', (∀ k, rounds ≤ k → (E k).like.reset s = .ok t s') ∧ I s')
    (hstep : ∀ s a, I s → good a → ∃ rounds t s', (∀ k, rounds ≤ k → (E k).like.step a s = .ok t s') ∧ I s')
    (fuel : ℕ) (hf : timeout ≤ fuel * d) (seeds : List ℤ) (s : σ) (a : α) (hs : I s) :
    ∃ rounds rs p', (∀ k, rounds ≤ k → evaluate (E k) ag timeout fuel false seeds (s, a) = .ok rs p') ∧
      rs.map (·.seed) = seeds := by
  have hone : ∀ z s a, I s → ∃ rounds r p', (∀ k, rounds ≤ k → evalSeed (E k) ag timeout fuel z (s, a) = .ok r p') ∧
      I p'.1 ∧ r.seed = z := by
    intro z s a hs
    obtain ⟨r1, t, s1, h1, h2⟩ := hreset _ (hseed 0 z s hs)
    have h3 := (ht r1).env .reset _ t s1 (h1 r1 le_rfl)
    rw [hel r1 0] at h3
    obtain ⟨r2, v, p, h4, h5⟩ := evalLoop_settles E hel ag timeout d hd ht hag hstep fuel
      ⟨t, 0, 0, 0, 0 + (E 0).elapsed s1⟩ s1 a h2 (by simp only; omega)
    have h6 : ∀ k, max r1 r2 ≤ k → evalSeed (E k) ag timeout fuel z (s, a) =
        evalSeed (E (max r1 r2)) ag timeout fuel z (s, a) := by
      intro k hk
      simp only [evalSeed, hsd k 0, hel k 0, hsd (max r1 r2) 0, hel (max r1 r2) 0, h1 k (by omega), h4 k (by omega),
        h1 (max r1 r2) (by omega), h4 (max r1 r2) (by omega)]
    have h7 : ∃ r, evalSeed (E (max r1 r2)) ag timeout fuel z (s, a) = .ok r p ∧ r.seed = z := by
      simp only [evalSeed, hsd (max r1 r2) 0, hel (max r1 r2) 0, h1 (max r1 r2) (by omega), h4 (max r1 r2) (by omega)]
      exact ⟨_, rfl, rfl⟩
    obtain ⟨r, h8, h9⟩ := h7
    exact ⟨max r1 r2, r, p, fun k hk => (h6 k hk).trans h8, h5, h9⟩
  have hall : ∀ s a, I s → ∃ rounds rs p', (∀ k, rounds ≤ k →
      evalSeeds (E k) ag timeout fuel false seeds (s, a) = .ok rs p') ∧ rs.map (·.seed) = seeds := by
    induction seeds with
    | nil => intro s a _; exact ⟨0, [], _, fun k _ => rfl, rfl⟩
    | cons z seeds ih =>
      intro s a hs
      obtain ⟨r1, r, ⟨s1, a1⟩, h1, h2, h3⟩ := hone z s a hs
      obtain ⟨r2, rs, p2, h4, h5⟩ := ih s1 a1 h2
      refine ⟨max r1 r2, r :: rs, p2, fun k hk => ?_, by rw [List.map_cons, h3, h5]⟩
      simp only [evalSeeds, h1 k (by omega), h4 k (by omega), Bool.false_eq_true, if_false]
  obtain ⟨rounds, rs, p, h1, h2⟩ := hall s (ag.setEvalMode a) hs
  exact ⟨rounds, rs, p, fun k hk => by simp only [evaluate, Bool.false_eq_true, if_false, h1 k hk], h2⟩

end

section
variable {G O P Img : Type} {Good : G → Prop}

/-- What the libraries do to the generator: making images keeps it good, and seeds are good. -/
structure PatientWorld (w : World G O P Img) (Good : G → Prop) : Prop where
  rng : Patient w.rng Good
  params : ∀ g, Good g → Good (w.sampleParams g).2
  images : ∀ grid fov p g, Good g → Good (w.render grid fov p g).2
  seeds : ∀ z, Good (w.seedRng z)

theorem PatientWorld.env {w : World G O P Img} (hp : PatientWorld w Good) (parts : AdaptersAndGoal ℝ)
    (rates : RatesKind) : PatientEnv (envCfg w parts rates) Good := ⟨hp.rng, hp.params, hp.images, hp.seeds⟩

theorem envCfg_rounds (w : World G O P Img) (parts : AdaptersAndGoal ℝ) (rates : RatesKind) (k : ℕ) :
    envCfg { w with fuel := k } parts rates = withRounds (envCfg w parts rates) k := rfl

theorem parts_settle (w : World G O P Img) (hl : w.Lawful) (hp : PatientWorld w Good) {parts : AdaptersAndGoal ℝ}
    (hm : parts ∈ shippedParts ℝ) (rates : RatesKind) (seed : ℤ) (g : G) (calls : List (EnvCall (List ℝ)))
    (hcalls : ∀ a, .step a ∈ calls → a.length = parts.adapter.actionSpec.length) :
    ∃ rounds, ∀ fuel, rounds ≤ fuel →
      let env := createEnv (envCfg { w with fuel := fuel } parts rates) seed 600 g none 0 GoalState.fresh
      ∀ r ∈ (env.1.run env.2 calls).1, ∃ t, r.2 = .ok t ∧ t.observation.shape w = parts.features.spec := by
  obtain ⟨_, _, _, h4⟩ := C103_adapters parts hm
  obtain ⟨rounds, h⟩ := runs_settle (shipped_plays w hl hm rates) (hp.env parts rates)
    (fun o goal f h => C103_features_as_declared w hl parts.features o _ f h) (some 600) calls
    (fun a ha => (hcalls a ha).trans h4) _ (created_ready (hp.env parts rates) 50 seed 600 g none 0)
  exact ⟨rounds, fun fuel hf => h fuel hf⟩

/-- C134.  The environments of all training and evaluation experiments: every sequence of calls with actions of the
declared size, but any values, returns observations of the declared shape. -/
theorem C134_experiments (w : World G O P Img) (hl : w.Lawful) (hp : PatientWorld w Good) (seed : ℤ) (g : G)
    (calls : List (EnvCall (List ℝ))) :
    (∀ name e, (shipped (K := ℝ)).createTrain name = .ok e →
      (∀ a, .step a ∈ calls → a.length = e.parts.adapter.actionSpec.length) →
      ∃ rounds, ∀ fuel, rounds ≤ fuel →
        let env := createEnv (envCfg { w with fuel := fuel } e.parts e.rates) seed 600 g none 0 GoalState.fresh
        ∀ r ∈ (env.1.run env.2 calls).1, ∃ t, r.2 = .ok t ∧ t.observation.shape w = e.parts.features.spec) ∧
    ∀ name e, (shipped (K := ℝ)).createEval name = .ok e →
      (∀ a, .step a ∈ calls → a.length = e.parts.adapter.actionSpec.length) →
      ∃ rounds, ∀ fuel, rounds ≤ fuel →
        let env := createEnv (envCfg { w with fuel := fuel } e.parts e.rates) seed 600 g none 0 GoalState.fresh
        ∀ r ∈ (env.1.run env.2 calls).1, ∃ t, r.2 = .ok t ∧ t.observation.shape w = e.parts.features.spec := by
  constructor
  · intro name e he hcalls
    have hm : (name, e) ∈ trainExperiments := createFrom_mem he
    refine parts_settle w hl hp ?_ e.rates seed g calls hcalls
    simp only [shippedParts, List.mem_append, List.mem_map]
    exact .inl (.inr ⟨_, hm, rfl⟩)
  · intro name e he hcalls
    have hm : (name, e) ∈ evalExperiments := createFrom_mem he
    refine parts_settle w hl hp ?_ e.rates seed g calls hcalls
    simp only [shippedParts, List.mem_append, List.mem_map]
    exact .inr ⟨_, hm, rfl⟩

/-- C134.  Evaluating the random agent on either experiment and any suite runs to its end: a result for each seed, in
order, with fewer than 300 actions each, and their averages; from some bound on the rounds on, always the same. -/
theorem C134_evaluation (w : World G O P Img) (hl : w.Lawful) (hp : PatientWorld w Good) (clock : ℕ → Timedelta)
    (hclock : ∀ n, 0 ≤ clock n) (rounds : ℕ) (hrounds : 300 ≤ rounds) (o : O) (g0 : G) (name : String)
    (hname : name = "relative_random_simple" ∨ name = "relative_random_prior_rates") (suite : String) (seeds : List ℤ)
    (hsuite : evalSuites.lookup suite = some seeds) :
    ∃ enough results averages, (∀ fuel, enough ≤ fuel →
        evalMain { w with fuel := fuel } clock rounds o g0 name suite = .ok (results, averages)) ∧
      results.map (·.seed) = seeds ∧ (∀ r ∈ results, r.numActions < 300) ∧
      aggregateResults results = .ok averages := by
  have key : ∃ rates : RatesKind, (shipped (K := ℝ)).createEval name = .ok ⟨.random, goalReaching, rates⟩ ∧
      (goalReaching : AdaptersAndGoal ℝ) ∈ shippedParts ℝ := by
    have hm : (goalReaching : AdaptersAndGoal ℝ) ∈ shippedParts ℝ := by
      simp [shippedParts, microscopeExperiments]
    rcases hname with rfl | rfl
    · exact ⟨.simple, rfl, hm⟩
    · exact ⟨.humanPrior, rfl, hm⟩
  obtain ⟨rates, hcreate, hparts⟩ := key
  obtain ⟨d1, d2, d3, d4⟩ := C103_adapters _ hparts
  have hplay := shipped_plays w hl hparts rates
  have hpat := hp.env (goalReaching : AdaptersAndGoal ℝ) rates
  set cfg := envCfg w (goalReaching : AdaptersAndGoal ℝ) rates with hcfg
  set E : ℕ → EvalEnv (Env ℝ G O P Img × ℤ) (List ℝ) (Features Img) := fun k =>
    wrappedEvalEnv (evalEnv (withRounds cfg k) o 0 (fun _ _ => .ok ())) (some 600) with hE
  set ag : Agent (G × ℕ) (List ℝ) (Features Img) :=
    randomAgent w.rng (goalReaching : AdaptersAndGoal ℝ).adapter.actionSpec clock with hag
  have htakes : ∀ k, Takes (E k) ag 2000000 := fun k => (C29_environment (withRounds cfg k)
    (le_trans (by norm_num) d2) d1 (by norm_num [hcfg, envCfg, withRounds]) o 0 (fun _ _ => .ok ()) ag (by
      rintro t ⟨g, n⟩ x a' h
      simp only [hag, randomAgent, EStateM.Result.ok.injEq] at h
      rw [← h.1]
      exact hclock n) (some 600)).2
  have hlimit := limited_settles (Q := fun _ => True) hplay hpat (fun _ _ _ _ => trivial) (some 600)
  obtain ⟨enough, rs, p', h1, h2⟩ := evaluate_settles E (fun _ _ => rfl) (fun _ _ => rfl) ag 600000000 2000000
    (by norm_num) htakes
    (I := fun s => Ready 50 Good s.1) (good := fun a => a.length = actionSize cfg.adapter)
    (by
      rintro t ⟨g, n⟩
      exact ⟨_, _, rfl, (drawAction_length _ _ _).trans d4⟩)
    (fun k z s hs => ⟨⟨SimInv.reseed hs.plays.inv _, hs.plays.range, hs.plays.live⟩, hp.seeds z⟩)
    (fun s hs => by
      obtain ⟨r, t, s', h1, h2, _⟩ := hlimit s hs .reset (fun a ha => by cases ha)
      exact ⟨r, t, s', h1, h2⟩)
    (fun s a hs ha => by
      obtain ⟨r, t, s', h1, h2, _⟩ := hlimit s hs (.step a) (fun b hb => by cases hb; exact ha)
      exact ⟨r, t, s', h1, h2⟩)
    rounds (by have : (300 : ℤ) ≤ rounds := by exact_mod_cast hrounds
               linarith) seeds _ (w.seedRng 0, 0) (created_ready hpat 50 0 600 g0 none 0)
  have hrs : rs.length ≠ 0 := by
    intro h
    have := congrArg List.length h2
    rw [List.length_map, h] at this
    exact suite_ne_nil hsuite (List.length_eq_zero_iff.1 this.symm)
  obtain ⟨av, hav⟩ : ∃ averages, aggregateResults rs = .ok averages := by
    unfold aggregateResults
    simp only [hrs, if_false]
    exact ⟨_, rfl⟩
  refine ⟨enough, rs, av, fun fuel hf => ?_, h2, ?_, hav⟩
  · have := h1 fuel hf
    simp only [evalMain, hcreate, hsuite, envCfg_rounds, ← hcfg]
    rw [show evaluate (wrappedEvalEnv (evalEnv (withRounds cfg fuel) o 0 fun _ _ => .ok ()) (some 600))
      (randomAgent w.rng (goalReaching : AdaptersAndGoal ℝ).adapter.actionSpec clock) 600000000 rounds false seeds
      ((createEnv (withRounds cfg fuel) 0 600 g0 none 0 GoalState.fresh).2, w.seedRng 0, 0) = .ok rs p' from this]
    simp only [hav]
  · intro r hr
    have := C29_few_actions (E enough) ag 600000000 2000000 (htakes enough) rounds false seeds _ _ p' rs
      (h1 enough le_rfl) r hr
    omega

end

/-! ### The hypotheses can be met -/

theorem counting_rises : RisesForever (fun n => (n : ℝ)) := by
  intro T N odd
  refine ⟨T + N, by omega, ?_⟩
  push_cast
  have h1 : (0 : ℝ) ≤ T := Nat.cast_nonneg _
  have h2 : (0 : ℝ) ≤ N := Nat.cast_nonneg _
  have h3 : (0 : ℝ) ≤ ((odd : ℕ) : ℝ) := Nat.cast_nonneg _
  linarith

/-- Libraries with rows of numbers for random numbers: some waits are far below a microsecond. -/
noncomputable def streamWorld : World (ℕ → ℝ) Unit Unit (ℕ × ℕ) where
  rng := Witness.streamRng
  knn := Witness.knn
  resize := fun _ width height => (height, width)
  size := id
  render := fun _ _ _ g => ((512, 512), fun n => g (n + 1))
  sampleParams := fun g => ((), fun n => g (n + 1))
  seedRng := fun _ n => n
  handle := fun _ o => o
  fuel := 0

theorem streamWorld_lawful : streamWorld.Lawful := ⟨Witness.streamRng_lawful, fun _ _ _ => rfl⟩

theorem streamWorld_patient : PatientWorld streamWorld RisesForever :=
  ⟨C134_streams.1, fun _ h => rises_shift h, fun _ _ _ _ h => rises_shift h, fun _ => counting_rises⟩

/-- The waits of `C99_returns` are not assumed. -/
example : ¬ WaitsATick streamWorld.rng := by
  intro h
  have := h 0 (fun _ => 0)
  norm_num [streamWorld, Witness.streamRng] at this

/-- Sequences of calls of an environment that shows images. -/
example (calls : List (EnvOp ℝ Unit)) :=
  C134_calls (envCfg streamWorld (goalReachingPixels 1000000 10000000) .simple) 50
    (shipped_plays _ streamWorld_lawful (by simp [shippedParts, microscopeExperiments, trainExperiments]) _)
    (streamWorld_patient.env _ _) (fun n => n) counting_rises none ⟨0, 0⟩ GoalState.fresh
    ⟨by norm_num [GoalState.fresh], by norm_num [GoalState.fresh], by norm_num [GoalState.fresh]⟩ calls

/-- Ten seeds of the small evaluation. -/
example : ∃ enough results averages, (∀ fuel, enough ≤ fuel → evalMain { streamWorld with fuel := fuel } (fun _ => 1000) 300
      () (fun _ => 0) "relative_random_prior_rates" "tiny_eval" = .ok (results, averages)) ∧
    results.map (·.seed) = [0, 1, 2, 3, 4, 5, 6, 7, 8, 9] ∧ (∀ r ∈ results, r.numActions < 300) ∧
    aggregateResults results = .ok averages :=
  C134_evaluation streamWorld streamWorld_lawful streamWorld_patient _ (fun _ => by norm_num) 300 le_rfl () _ _ (.inr rfl)
    "tiny_eval" _ rfl

end PD.Props
