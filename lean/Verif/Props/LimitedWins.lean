/- Property C162: the step limit leaves time to win. -/
import Verif.Spec.LimitedWins
import Verif.Props.DeclaredWins

set_option linter.unusedSectionVars false
set_option linter.unusedSimpArgs false

namespace PD.Props
open PD PD.Spec MeasureTheory

section
variable {G O P Img F : Type}

/-- The environment inside has seen a history of calls of its own. -/
theorem limited_history (cfg : EnvCfg ℝ G O P Img F) (limit : ℤ) (history : List (EnvOp ℝ O)) :
    ∀ w : Env ℝ G O P Img × ℤ, ∃ inside : List (EnvOp ℝ O), (limitedAfter cfg limit w history).1 = Env.after cfg w.1 inside := by
  have one : ∀ (w : Env ℝ G O P Img × ℤ) (op : EnvOp ℝ O), ∃ op', (limitedCall cfg limit w op).1 = Env.exec cfg w.1 op' := by
    intro w op
    cases op with
    | reset =>
      refine ⟨.reset, ?_⟩
      simp only [limitedCall, stepLimit, Env.like, Env.exec]
      cases Env.reset cfg w.1 <;> rfl
    | step a =>
      by_cases hn : w.2 = -1
      · refine ⟨.reset, ?_⟩
        simp only [limitedCall, stepLimit, Env.like, Env.exec, hn, if_true]
        cases Env.reset cfg w.1 with
        | error e s => rfl
        | ok t s => dsimp only; split_ifs <;> rfl
      · refine ⟨.step a, ?_⟩
        simp only [limitedCall, stepLimit, Env.like, Env.exec, if_neg hn]
        cases Env.step cfg a w.1 with
        | error e s => rfl
        | ok t s => dsimp only; split_ifs <;> rfl
    | seed z => exact ⟨.seed z, rfl⟩
    | addObserver o => exact ⟨.addObserver o, rfl⟩
    | removeObserver i => exact ⟨.removeObserver i, rfl⟩
  induction history with
  | nil => exact fun w => ⟨[], rfl⟩
  | cons op history ih =>
    intro w
    obtain ⟨op', h⟩ := one w op
    obtain ⟨inside, h'⟩ := ih (limitedCall cfg limit w op)
    refine ⟨op' :: inside, ?_⟩
    simp only [limitedAfter, Env.after, List.foldl_cons] at h' ⊢
    rw [h', h]

/-- C162.  An episode that is won on a path is won through a step limit, too, if the path is not longer than the steps that are
left: even a last step that reaches the limit keeps its reward and its discount. -/
theorem C162_within (cfg : EnvCfg ℝ G O P Img F) (limit : ℤ) {s : Env ℝ G O P Img} {path : List (V2 ℝ)}
    (h : WonDeclared cfg s path) : ∀ n : ℤ, 0 ≤ n → n + path.length ≤ limit → WonLimited cfg limit (s, n) path := by
  induction h with
  | last seen declared returned ends discount reward goal =>
    intro n hn hl
    rename_i s s' x p path fuel t
    have hne : n ≠ -1 := by omega
    have hf : t.stepType ≠ .first := by rw [ends]; simp
    by_cases hlim : n + 1 ≥ limit
    · refine .last (w' := (s', -1)) (fuel := fuel) (t := TimeStep.truncation t.reward t.observation t.discount) seen declared ?_ rfl
        discount reward goal
      simp only [stepLimit, Env.like, if_neg hne, returned, if_neg hf, if_pos hlim]
    · refine .last (w' := (s', n + 1)) (fuel := fuel) seen declared ?_ ends discount reward goal
      simp only [stepLimit, Env.like, if_neg hne, returned, if_neg hf, if_neg hlim]
  | more seen declared returned goesOn reward same rest ih =>
    intro n hn hl
    rename_i s s' x p path fuel t
    have hne : n ≠ -1 := by omega
    have hf : t.stepType ≠ .first := by rw [goesOn]; simp
    have hpos : 0 < path.length := by cases rest <;> simp
    rw [List.length_cons] at hl
    push_cast at hl
    have hlim : ¬ n + 1 ≥ limit := by omega
    refine .more (w' := (s', n + 1)) (fuel := fuel) seen declared ?_ goesOn reward same (ih (n + 1) (by omega) (by omega))
    simp only [stepLimit, Env.like, if_neg hne, returned, if_neg hf, if_neg hlim]

variable [MeasurableSpace G] {μ : Measure G}

/-- C162.  The training experiments with the simple rates, with the default limit of 600 steps or any of at least 88: after any
history of calls, every episode can be won before the limit, with at least the probability one half to the power of the number
of moves. -/
theorem C162_training (cfg : EnvCfg ℝ G O P Img F) (n : ℕ) (hp : PlayCfg cfg n) (hn : 74 ≤ n) (hf : Fair cfg.sim.rng μ) (knn : Knn ℝ)
    (name : String) (exp : TrainExperiment ℝ) (hexp : (name, exp) ∈ trainExperiments (K := ℝ)) (hsimple : exp.rates = .simple)
    (hr : cfg.sim.rate = pristineRates knn simpleCanonicalRates) (ha : cfg.adapter = exp.parts.adapter)
    (hi : cfg.requiresImage = true → FairImages cfg.sim.render μ)
    (seed limit : ℤ) (hlimit : 88 ≤ limit)
    (g0 : G) (ga : Option G) (beam : V2 ℝ) (goal : GoalState ℝ) (hgoal : GoalRangeOk goal) (hreq : goal.required = 1)
    (history : List (EnvOp ℝ O)) (t : TimeStep F) (w : Env ℝ G O P Img × ℤ)
    (h : (createEnv cfg seed limit g0 ga beam goal).1.reset
      (limitedAfter cfg limit (createEnv cfg seed limit g0 ga beam goal).2 history) = .ok t w) :
    ∃ path : List (V2 ℝ), path.length ≤ 88 ∧
      ENNReal.ofReal ((1 / 2) ^ path.length) ≤ μ {g | WonLimited cfg limit (reseeded w.1 g, w.2) path} := by
  obtain ⟨inside, hin⟩ := limited_history cfg limit history (createEnv cfg seed limit g0 ga beam goal).2
  have hinside : (limitedAfter cfg limit (createEnv cfg seed limit g0 ga beam goal).2 history).1 =
      Env.after cfg (Env.fresh g0 ga beam goal) (.seed seed :: inside) := hin
  obtain ⟨h1, h2⟩ : Env.reset cfg (limitedAfter cfg limit (createEnv cfg seed limit g0 ga beam goal).2 history).1 = .ok t w.1 ∧
      w.2 = 0 := by
    simp only [createEnv, stepLimit, Env.like] at h ⊢
    split at h
    · rename_i t' s' he
      cases h
      exact ⟨he, rfl⟩
    · cases h
  rw [hinside] at h1
  have hone : w.1.goal.required = 1 := by
    have hrr := reset_required cfg (Env.after cfg (Env.fresh g0 ga beam goal) (.seed seed :: inside))
    rw [h1, after_required] at hrr
    exact hrr.trans hreq
  obtain ⟨path, hlen, hprob⟩ := C159_training cfg n hp hn hf knn name exp hexp hsimple hr ha hi g0 ga beam goal hgoal _ t w.1 h1 hone
  refine ⟨path, hlen, hprob.trans (measure_mono fun g hg => ?_)⟩
  rw [Set.mem_setOf_eq, h2]
  exact C162_within cfg limit hg 0 le_rfl (by omega)

end

/-- The environment of C159 with the default limit, after a history of calls. -/
example : ∃ t w path, (createEnv trainWin 7 600 (fun _ => 0) none 0 GoalState.fresh).1.reset
    (limitedAfter trainWin 600 (createEnv trainWin 7 600 (fun _ => 0) none 0 GoalState.fresh).2 [.reset, .step [0, 1], .step [5]]) =
      .ok t w ∧
    ENNReal.ofReal ((1 / 2) ^ path.length) ≤ Witness.streamLaw {g | WonLimited trainWin 600 (reseeded w.1 g, w.2) path} := by
  have hrange : GoalRangeOk GoalState.fresh := by norm_num [GoalRangeOk, GoalState.fresh]
  obtain ⟨inside, hin⟩ := limited_history trainWin 600 [.reset, .step [0, 1], .step [5]]
    (createEnv trainWin 7 600 (fun _ => 0) none 0 GoalState.fresh).2
  have hinside : (limitedAfter trainWin 600 (createEnv trainWin 7 600 (fun _ => 0) none 0 GoalState.fresh).2
      [.reset, .step [0, 1], .step [5]]).1 = Env.after trainWin (Env.fresh (fun _ => 0) none 0 GoalState.fresh)
        (.seed 7 :: inside) := hin
  obtain ⟨⟨t, s, h⟩, _⟩ := C99_never_fails trainWin 80 trainWin_ok (fun _ => 0) none 0 GoalState.fresh hrange (.seed 7 :: inside)
  have hw : (createEnv trainWin 7 600 (fun _ => 0) none 0 GoalState.fresh).1.reset
      (limitedAfter trainWin 600 (createEnv trainWin 7 600 (fun _ => 0) none 0 GoalState.fresh).2
        [.reset, .step [0, 1], .step [5]]) = .ok t (s, 0) := by
    rw [← hinside] at h
    simp only [createEnv, stepLimit, Env.like] at h ⊢
    rw [h]
  obtain ⟨path, _, h2⟩ := C162_training trainWin 80 trainWin_ok (by norm_num) Witness.streamRng_fair Witness.knn
    "relative_simple_rates" ⟨goalReaching, .simple⟩ (by simp [trainExperiments]) rfl rfl rfl (fun h => by cases h) 7 600
    (by norm_num) _ _ _ _ hrange rfl _ t (s, 0) hw
  exact ⟨t, (s, 0), path, hw, h2⟩

end PD.Props
