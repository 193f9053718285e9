/- C116: a logging block writes the log exactly when it ends without an exception. -/
import Verif.Model.LoggerBlock
import Verif.Props.MicroscopeAgent

set_option linter.unusedSectionVars false
set_option linter.unusedSimpArgs false

namespace PD.Spec
open PD
variable {K G Img : Type}

/-- The observations given to `step` between one reset and the next. -/
def betweenResets (cur : List (Observation K Img)) : List (AgentOp K G Img) → List (List (Observation K Img))
  | [] => [cur]
  | .reset _ _ :: ops => cur :: betweenResets [] ops
  | .step o :: ops => betweenResets (cur ++ [o]) ops
  | .flush :: ops => betweenResets cur ops

/-- The observations given to `step`. -/
def stepped : List (AgentOp K G Img) → List (Observation K Img)
  | [] => []
  | .step o :: ops => o :: stepped ops
  | _ :: ops => stepped ops

end PD.Spec

namespace PD.Props
open PD PD.Spec
variable {K G Img F α : Type} [Field K] [LinearOrder K] [IsStrictOrderedRing K] [FloorRing K]

/-- What a call returns that does not raise. -/
theorem exec_kind (cfg : MicroCfg K G Img F α) (l : Logger K G Img α) (op : AgentOp K G Img) :
    (∃ e, (Logger.exec cfg l op).1 = .raised e) ∨
    (match op with
      | .reset _ _ => ∃ g, (Logger.exec cfg l op).1 = .reset g
      | .step _ => ∃ c, (Logger.exec cfg l op).1 = .step c
      | .flush => (Logger.exec cfg l op).1 = .flushed) := by
  cases op with
  | reset g o =>
    simp only [Logger.exec]
    cases Logger.reset cfg g o l with
    | ok g' l' => exact .inr ⟨g', rfl⟩
    | error e l' => exact .inl ⟨e, rfl⟩
  | step o =>
    simp only [Logger.exec]
    cases Logger.step cfg o l with
    | ok g' l' => exact .inr ⟨g', rfl⟩
    | error e l' => exact .inl ⟨e, rfl⟩
  | flush => exact .inr rfl

theorem block_cons (cfg : MicroCfg K G Img F α) (i : Option Err) (op : AgentOp K G Img)
    (ops : List (AgentOp K G Img)) (l : Logger K G Img α) :
    (∃ e, (Logger.exec cfg l op).1 = .raised e ∧ Logger.block cfg i (op :: ops) l = (some e, (Logger.exec cfg l op).2)) ∨
    ((∀ e, (Logger.exec cfg l op).1 ≠ .raised e) ∧
      Logger.block cfg i (op :: ops) l = Logger.block cfg i ops (Logger.exec cfg l op).2) := by
  rw [Logger.block]
  cases h : Logger.exec cfg l op with
  | mk r l' =>
    cases r with
    | raised e => exact .inl ⟨e, rfl, rfl⟩
    | reset g => exact .inr ⟨by simp, rfl⟩
    | step c => exact .inr ⟨by simp, rfl⟩
    | flushed => exact .inr ⟨by simp, rfl⟩

/-- A block that ends normally is the history of its calls, each of which returned. -/
theorem block_history (cfg : MicroCfg K G Img F α) (ops : List (AgentOp K G Img)) (l l' : Logger K G Img α)
    (i : Option Err) (h : Logger.block cfg i ops l = (none, l')) (cur : List (Observation K Img)) :
    i = none ∧ (Logger.history cfg ops l).2 = l' ∧
      stretches cur ops (Logger.history cfg ops l).1 = betweenResets cur ops ∧
      actedOn ops (Logger.history cfg ops l).1 = stepped ops := by
  induction ops generalizing l cur with
  | nil =>
    simp only [Logger.block, Prod.mk.injEq] at h
    exact ⟨h.1, h.2, rfl, rfl⟩
  | cons op ops ih =>
    rcases block_cons cfg i op ops l with ⟨e, -, hb⟩ | ⟨hr, hb⟩
    · rw [hb] at h
      cases h
    · rw [hb] at h
      rcases exec_kind cfg l op with ⟨e, he⟩ | hk
      · exact absurd he (hr e)
      · simp only [Logger.history]
        cases op with
        | reset g o =>
          obtain ⟨g', hg⟩ := hk
          obtain ⟨h1, h2, h3, h4⟩ := ih _ h []
          refine ⟨h1, h2, ?_, ?_⟩
          · rw [hg, stretches, betweenResets, h3]
          · rw [hg]; exact h4
        | step o =>
          obtain ⟨c, hc⟩ := hk
          obtain ⟨h1, h2, h3, h4⟩ := ih _ h (cur ++ [o])
          refine ⟨h1, h2, ?_, ?_⟩
          · rw [hc, stretches, betweenResets, h3]
          · rw [hc, actedOn, stepped, h4]
        | flush =>
          obtain ⟨h1, h2, h3, h4⟩ := ih _ h cur
          refine ⟨h1, h2, ?_, ?_⟩
          · rw [hk]; exact h3
          · rw [hk]; exact h4

/-- When the block ends without an exception (and without flushes of the caller's own) the files hold every
observation given to `step`, in order: a trajectory for each stretch between resets, a step record for each
observation of each trajectory, and an episode record for each trajectory. -/
theorem C116_written (cfg : MicroCfg K G Img F α) (a : Micro K G α) (ops : List (AgentOp K G Img))
    (hops : NoFlush ops) (interrupt : Option Err) (h : (withLogger cfg a ops interrupt).1 = none) :
    ∃ files, (withLogger cfg a ops interrupt).2.files = some files ∧
      files.trajectories = (betweenResets [] ops).filter (fun t => t ≠ []) ∧
      files.trajectories.flatten = stepped ops ∧
      files.steps.map StepRecord.key = stepKeys files.trajectories ∧
      files.episodes.map (fun r => r.episodeSteps) = files.trajectories.map List.length := by
  unfold withLogger at *
  cases hb : Logger.block cfg interrupt ops (Logger.fresh a) with
  | mk e l =>
    rw [hb] at h
    simp only at h
    subst h
    obtain ⟨-, h2, h3, h4⟩ := block_history cfg ops _ l interrupt hb []
    obtain ⟨files, f1, f2, f3, f4, f5, -⟩ := C34_log_partial cfg ops hops a
    rw [h2] at f1
    rw [h3] at f2
    rw [h4] at f3
    exact ⟨files, f1, f2, f3, f4, f5⟩

theorem exec_files (cfg : MicroCfg K G Img F α) (l : Logger K G Img α) (op : AgentOp K G Img) (h : op ≠ .flush) :
    (Logger.exec cfg l op).2.files = l.files := by
  have hclose : ∀ l : Logger K G Img α, l.closeEpisode.files = l.files := by
    intro l
    unfold Logger.closeEpisode
    dsimp only
    split <;> split <;> rfl
  cases op with
  | flush => exact absurd rfl h
  | reset g o =>
    simp only [Logger.exec, Logger.reset]
    cases Micro.reset cfg g o l.closeEpisode.agent with
    | ok g' a => exact hclose l
    | error e a => exact hclose l
  | step o =>
    simp only [Logger.exec, Logger.step]
    cases Micro.step cfg o l.agent with
    | error e a => rfl
    | ok c a =>
      dsimp only
      cases GoalState.calculate o a.goal with
      | error e g => rfl
      | ok r g => rfl

/-- When the block ends with an exception, one of a call's or one of the caller's own, the exception is passed on
and nothing at all is written of what was recorded. -/
theorem C116_exception_writes_nothing (cfg : MicroCfg K G Img F α) (a : Micro K G α) (ops : List (AgentOp K G Img))
    (hops : NoFlush ops) (interrupt : Option Err) (e : Err) (h : (withLogger cfg a ops interrupt).1 = some e) :
    (withLogger cfg a ops interrupt).2.files = none := by
  have key : ∀ (ops : List (AgentOp K G Img)) (l : Logger K G Img α), NoFlush ops →
      (Logger.block cfg interrupt ops l).2.files = l.files := by
    intro ops
    induction ops with
    | nil => intro l _; rfl
    | cons op ops ih =>
      intro l ho
      have hf := exec_files cfg l op (ho op (by simp))
      rcases block_cons cfg interrupt op ops l with ⟨e, -, hb⟩ | ⟨-, hb⟩
      · rw [hb]; exact hf
      · rw [hb, ih _ (fun o h => ho o (List.mem_cons_of_mem _ h))]; exact hf
  have := key ops (Logger.fresh a) hops
  unfold withLogger at *
  cases hb : Logger.block cfg interrupt ops (Logger.fresh a) with
  | mk e' l =>
    rw [hb] at h this
    simp only at h
    subst h
    exact this

/-- The exception is the first that a call raised, or else the caller's own. -/
theorem C116_exception_passed_on (cfg : MicroCfg K G Img F α) (a : Micro K G α) (before after : List (AgentOp K G Img))
    (op : AgentOp K G Img) (interrupt : Option Err) (e : Err)
    (hb : (withLogger cfg a before none).1 = none) :
    (withLogger cfg a before interrupt).1 = interrupt ∧
    ((Logger.exec cfg (Logger.history cfg before (Logger.fresh a)).2 op).1 = .raised e →
      (withLogger cfg a (before ++ op :: after) interrupt).1 = some e) := by
  have key : ∀ (before : List (AgentOp K G Img)) (l : Logger K G Img α), (Logger.block cfg none before l).1 = none →
      (Logger.block cfg interrupt before l).1 = interrupt ∧
      Logger.block cfg interrupt (before ++ op :: after) l =
        Logger.block cfg interrupt (op :: after) (Logger.history cfg before l).2 := by
    intro before
    induction before with
    | nil => intro l _; exact ⟨rfl, rfl⟩
    | cons b bs ih =>
      intro l h
      rcases block_cons cfg none b bs l with ⟨e, -, h1⟩ | ⟨hr, h1⟩
      · rw [h1] at h; cases h
      · rw [h1] at h
        obtain ⟨i1, i2⟩ := ih _ h
        rcases block_cons cfg interrupt b bs l with ⟨e, he, -⟩ | ⟨-, h2⟩
        · exact absurd he (hr e)
        rcases block_cons cfg interrupt b (bs ++ op :: after) l with ⟨e, he, -⟩ | ⟨-, h3⟩
        · exact absurd he (hr e)
        refine ⟨by rw [h2]; exact i1, ?_⟩
        rw [List.cons_append, h3, i2]
        simp only [Logger.history]
  have hw : ∀ ops i, (withLogger cfg a ops i).1 = (Logger.block cfg i ops (Logger.fresh a)).1 := fun _ _ => rfl
  rw [hw] at hb
  obtain ⟨k1, k2⟩ := key before _ hb
  refine ⟨by rw [hw]; exact k1, fun he => ?_⟩
  rw [hw, k2]
  rcases block_cons cfg interrupt op after (Logger.history cfg before (Logger.fresh a)).2 with ⟨e', he', h⟩ | ⟨hr, -⟩
  · rw [h]
    rw [he] at he'
    cases he'
    rfl
  · exact absurd he (hr e)

/-- One observation without a silicon, to which the agent by itself answers with a new scan, ends the block and
loses the whole log. -/
theorem C116_lost_silicon_loses_log (cfg : MicroCfg K G Img F α) (a : Micro K G α)
    (before after : List (AgentOp K G Img)) (hops : NoFlush (before ++ after)) (o : Observation K Img)
    (hwf : o.grid.WF) (ho : ¬ ShowsSilicon o) (hf : FeaturesFollowSilicon cfg.features o) (interrupt : Option Err)
    (hb : (withLogger cfg a before none).1 = none) :
    (Micro.step cfg o (Logger.history cfg before (Logger.fresh a)).2.agent =
      .ok rescan (Logger.history cfg before (Logger.fresh a)).2.agent) ∧
    (withLogger cfg a (before ++ .step o :: after) interrupt).1 = some .siliconNotFound ∧
    (withLogger cfg a (before ++ .step o :: after) interrupt).2.files = none := by
  obtain ⟨h1, h2⟩ := C34_lost_silicon_raises cfg o hwf ho hf (Logger.history cfg before (Logger.fresh a)).2
  have h3 := (C116_exception_passed_on cfg a before after (.step o) interrupt .siliconNotFound hb).2
    (by simp only [Logger.exec, h2])
  refine ⟨h1, h3, C116_exception_writes_nothing cfg a _ ?_ interrupt _ h3⟩
  intro op hop
  rcases List.mem_append.1 hop with h | h
  · exact hops op (List.mem_append_left _ h)
  · rcases List.mem_cons.1 h with rfl | h
    · simp
    · exact hops op (List.mem_append_right _ h)

/-- The hypotheses of `C116_written`: a reset and three steps. -/
example : NoFlush MicroExample.ops ∧
    (withLogger MicroExample.cfg (MicroExample.agent 1) MicroExample.ops none).1 = none := by
  constructor
  · intro op hop
    simp only [MicroExample.ops, List.mem_cons, List.not_mem_nil, or_false] at hop
    rcases hop with rfl | rfl | rfl | rfl <;> simp
  · decide +kernel

/-- The hypotheses of `C116_exception_writes_nothing`: the same calls, then an interruption. -/
example : (withLogger MicroExample.cfg (MicroExample.agent 1) MicroExample.ops (some .runtimeError)).1 =
    some .runtimeError := by decide +kernel

/-- The hypotheses of `C116_lost_silicon_loses_log`: the same calls, then a view without a silicon. -/
example : GoalExample.bare.grid.WF ∧ ¬ ShowsSilicon GoalExample.bare ∧
    FeaturesFollowSilicon MicroExample.cfg.features GoalExample.bare :=
  ⟨by decide, by decide, MicroExample.follows _ (by decide)⟩

end PD.Props
