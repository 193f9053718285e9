/- C29-C31: evaluation and its summary. -/
import Verif.Spec.Eval
import Verif.Props.Environment
import Verif.Lemmas.Tags

set_option linter.unusedSectionVars false
set_option linter.unusedSimpArgs false

namespace PD.Props
open PD PD.Spec
variable {σ α A F : Type}

/-! ### C29 accounting -/

/-- What the loop does, relative to the values its variables start with. -/
theorem evalLoop_spec (E : EvalEnv σ A F) (ag : Agent α A F) (timeout : Timedelta) (fuel : ℕ)
    (v v' : LoopVars F) (p p' : σ × α) (h : evalLoop E ag timeout fuel v p = .ok v' p') :
    ∃ rs : List (Round A F), Played E ag v.timeStep p rs p' ∧
      v'.timeStep = (rs.map (·.result)).getLastD v.timeStep ∧
      v'.numActions = v.numActions + rs.length ∧
      v'.totalReward = v.totalReward + (rs.map (·.result.reward)).sum ∧
      v'.agentTime = v.agentTime + (rs.map (·.agentTime)).sum ∧
      v'.envTime = v.envTime + (rs.map (·.envTime)).sum ∧
      (∀ k, k < rs.length → v.agentTime + v.envTime +
        ((rs.take k).map (fun r => r.agentTime + r.envTime)).sum < timeout) ∧
      (∀ r ∈ rs.dropLast, r.result.stepType ≠ .last) ∧
      (timeout ≤ v.agentTime + v.envTime + (rs.map (fun r => r.agentTime + r.envTime)).sum ∨
        (rs ≠ [] ∧ ((rs.map (·.result)).getLastD v.timeStep).stepType = .last)) := by
  induction fuel generalizing v p with
  | zero =>
    simp only [evalLoop] at h
    split_ifs at h with hlt
    simp only [EStateM.Result.ok.injEq] at h
    obtain ⟨rfl, rfl⟩ := h
    exact ⟨[], .nil _ _, by simp, by simp, by simp, by simp, by simp, by simp, by simp,
      .inl (by simpa using hlt)⟩
  | succ fuel ih =>
    obtain ⟨s, a⟩ := p
    simp only [evalLoop] at h
    split_ifs at h with hlt
    · split at h
      · cases h
      · rename_i action spent a' hag
        split at h
        · cases h
        · rename_i t s' hst
          split_ifs at h with hlast
          · simp only [EStateM.Result.ok.injEq] at h
            obtain ⟨rfl, rfl⟩ := h
            refine ⟨[⟨action, spent, t, E.elapsed s'⟩], .cons _ _ _ _ _ _ _ _ hag hst rfl (.nil _ _),
              by simp, by simp, by simp, by simp, by simp, ?_, by simp, .inr ⟨by simp, by simpa using hlast⟩⟩
            intro k hk
            simp only [List.length_singleton, Nat.lt_one_iff] at hk
            subst hk
            simpa using hlt
          · obtain ⟨rs, h1, h2, h3, h4, h5, h6, h7, h8, h9⟩ := ih _ _ h
            refine ⟨⟨action, spent, t, E.elapsed s'⟩ :: rs, .cons _ _ _ _ _ _ _ _ hag hst rfl h1,
              ?_, ?_, ?_, ?_, ?_, ?_, ?_, ?_⟩
            · rw [h2]; cases rs with
              | nil => simp
              | cons r rs => simp [List.getLastD]
            · rw [h3]; simp only [List.length_cons]; omega
            · rw [h4]; simp only [List.map_cons, List.sum_cons]; ring
            · rw [h5]; simp only [List.map_cons, List.sum_cons]; omega
            · rw [h6]; simp only [List.map_cons, List.sum_cons]; omega
            · intro k hk
              cases k with
              | zero => simpa using hlt
              | succ k =>
                have := h7 k (by simpa using hk)
                simp only [List.take_succ_cons, List.map_cons, List.sum_cons]
                simp only at this
                omega
            · intro r hr
              cases rs with
              | nil => simp at hr
              | cons r' rs =>
                rw [List.dropLast_cons_of_ne_nil (by simp)] at hr
                rcases List.mem_cons.1 hr with rfl | hr
                · exact hlast
                · exact h8 r hr
            · rcases h9 with h9 | ⟨h9, h10⟩
              · left
                simp only [List.map_cons, List.sum_cons]
                simp only at h9
                omega
              · right
                refine ⟨by simp, ?_⟩
                cases rs with
                | nil => exact absurd rfl h9
                | cons r rs => simpa [List.getLastD] using h10
    · simp only [EStateM.Result.ok.injEq] at h
      obtain ⟨rfl, rfl⟩ := h
      exact ⟨[], .nil _ _, by simp, by simp, by simp, by simp, by simp, by simp, by simp,
        .inl (by simpa using hlt)⟩

/-- One seed. -/
theorem evalSeed_spec (E : EvalEnv σ A F) (ag : Agent α A F) (timeout : Timedelta) (fuel : ℕ)
    (z : ℤ) (s : σ) (a : α) (p' : σ × α) (r : EvalResult ℝ)
    (h : evalSeed E ag timeout fuel z (s, a) = .ok r p') :
    ∃ (e : Episode A F) (s1 : σ), E.like.reset (E.seed z s) = .ok e.first s1 ∧
      e.firstTime = E.elapsed s1 ∧ Played E ag e.first (s1, a) e.rounds p' ∧
      Describes r z e ∧ e.Timely timeout := by
  simp only [evalSeed] at h
  split at h
  · cases h
  · rename_i t s1 hreset
    split at h
    · cases h
    · rename_i v p hloop
      obtain ⟨rs, h1, h2, h3, h4, h5, h6, h7, h8, h9⟩ := evalLoop_spec E ag timeout fuel _ _ _ _ hloop
      simp only [EStateM.Result.ok.injEq] at h
      obtain ⟨rfl, rfl⟩ := h
      have hfin : v.timeStep = Episode.final ⟨t, E.elapsed s1, rs⟩ := h2
      have hreach : (decide (v.timeStep.stepType = .last) && decide (v.timeStep.discount = 0)) = true
          ↔ Episode.Reached ⟨t, E.elapsed s1, rs⟩ := by
        rw [hfin]; simp [Episode.Reached]
      refine ⟨⟨t, E.elapsed s1, rs⟩, s1, hreset, rfl, h1, ⟨rfl, by simpa using h3, by simpa using h4,
        hreach, ?_, ?_⟩, ⟨?_, h8, ?_⟩⟩
      · intro hr
        have hr' := hreach.2 hr
        simp only [hr', if_true]
        rw [h5, h6]
        simp [totalSeconds]
      · intro hr
        have hr' : (decide (v.timeStep.stepType = .last) && decide (v.timeStep.discount = 0)) = false := by
          rw [← Bool.not_eq_true]; exact fun hc => hr (hreach.1 hc)
        simp only [hr', Bool.false_eq_true, if_false]
        exact ⟨trivial, trivial⟩
      · intro k hk
        have := h7 k hk
        simpa [Episode.timeAfter] using this
      · rcases h9 with h9 | h9
        · left; simpa [Episode.timeAfter] using h9
        · exact .inr h9

theorem evalSeeds_spec (E : EvalEnv σ A F) (ag : Agent α A F) (timeout : Timedelta) (fuel : ℕ)
    (video : Bool) (seeds : List ℤ) (p p' : σ × α) (rs : List (EvalResult ℝ))
    (h : evalSeeds E ag timeout fuel video seeds p = .ok rs p') :
    ∃ es : List (ℤ × Episode A F), PlayedAll E ag p es p' ∧ es.map Prod.fst = seeds ∧
      List.Forall₂ (fun r ze => Describes r ze.1 ze.2) rs es ∧
      ∀ ze ∈ es, ze.2.Timely timeout := by
  induction seeds generalizing p rs with
  | nil =>
    simp only [evalSeeds, EStateM.Result.ok.injEq] at h
    obtain ⟨rfl, rfl⟩ := h
    exact ⟨[], .nil _, rfl, .nil, by simp⟩
  | cons z seeds ih =>
    obtain ⟨s, a⟩ := p
    simp only [evalSeeds] at h
    split at h
    · cases h
    · rename_i r p1 hseed
      split at h
      · cases h
      · split at h
        · cases h
        · rename_i rs' p2 hrest
          simp only [EStateM.Result.ok.injEq] at h
          obtain ⟨rfl, rfl⟩ := h
          obtain ⟨e, s1, e1, e2, e3, e4, e5⟩ := evalSeed_spec E ag timeout fuel z s a p1 r hseed
          obtain ⟨es, h1, h2, h3, h4⟩ := ih p1 rs' hrest
          refine ⟨(z, e) :: es, .cons _ _ _ _ _ _ _ _ e1 e2 e3 h1, by simp [h2], .cons e4 h3, ?_⟩
          intro ze hze
          rcases List.mem_cons.1 hze with rfl | hze
          · exact e5
          · exact h4 ze hze

/-- When `evaluate` returns, episodes took place one after the other, one for each seed in order,
and the results describe them: number of actions, sum of the rewards, whether the final step was
LAST with discount 0, times.  Every action was taken before the timeout and none after a LAST. -/
theorem C29_accounting (E : EvalEnv σ A F) (ag : Agent α A F) (timeout : Timedelta) (fuel : ℕ)
    (video : Bool) (seeds : List ℤ) (s : σ) (a : α) (p' : σ × α) (rs : List (EvalResult ℝ))
    (h : evaluate E ag timeout fuel video seeds (s, a) = .ok rs p') :
    ∃ es : List (ℤ × Episode A F),
      (∃ p1, PlayedAll E ag (if video then E.addObserver s else s, ag.setEvalMode a) es p1) ∧
      es.map Prod.fst = seeds ∧ List.Forall₂ (fun r ze => Describes r ze.1 ze.2) rs es ∧
      ∀ ze ∈ es, ze.2.Timely timeout := by
  simp only [evaluate] at h
  split at h
  · cases h
  · rename_i rs' p1 hs
    obtain ⟨es, h1, h2, h3, h4⟩ := evalSeeds_spec E ag timeout fuel video seeds _ p1 rs' hs
    have : rs' = rs := by
      split_ifs at h
      · split at h
        · cases h
        · simp only [EStateM.Result.ok.injEq] at h; exact h.1
      · simp only [EStateM.Result.ok.injEq] at h; exact h.1
    subst this
    exact ⟨es, ⟨p1, h1⟩, h2, h3, h4⟩

/-- The environment's calls take at least `d` when they return, and the agent's clock does not run
backwards. -/
structure Takes (E : EvalEnv σ A F) (ag : Agent α A F) (d : Timedelta) : Prop where
  env : ∀ (c : EnvCall A) s t s', E.like.call c s = .ok t s' → d ≤ E.elapsed s'
  agent : ∀ t a x a', ag.step t a = .ok x a' → 0 ≤ x.2

theorem played_time {E : EvalEnv σ A F} {ag : Agent α A F} {d : Timedelta} (h : Takes E ag d)
    {t : TimeStep F} {p p' : σ × α} {rs : List (Round A F)} (hp : Played E ag t p rs p') :
    ∀ k ≤ rs.length, (k : ℤ) * d ≤ ((rs.take k).map (fun r => r.agentTime + r.envTime)).sum := by
  induction hp with
  | nil => intro k hk; simp at hk; simp [hk]
  | cons t s s' a a' r rs p hc hperf ht hrest ih =>
    intro k hk
    cases k with
    | zero => simp
    | succ k =>
      have := ih k (by simpa using hk)
      have h1 := h.env (.step r.action) s r.result s' hperf
      have h2 := h.agent t a _ a' hc
      simp only [List.take_succ_cons, List.map_cons, List.sum_cons]
      push_cast
      simp only at h2
      rw [ht]
      linarith

/-- If every call takes at least `d > 0`, an episode has fewer than `timeout / d` actions (or
none). -/
theorem C29_few_actions (E : EvalEnv σ A F) (ag : Agent α A F) (timeout d : Timedelta)
    (ht : Takes E ag d) (fuel : ℕ)
    (video : Bool) (seeds : List ℤ) (s : σ) (a : α) (p' : σ × α) (rs : List (EvalResult ℝ))
    (h : evaluate E ag timeout fuel video seeds (s, a) = .ok rs p') :
    ∀ r ∈ rs, r.numActions = 0 ∨ (r.numActions : ℤ) * d < timeout := by
  obtain ⟨es, ⟨p1, h1⟩, h2, h3, h4⟩ := C29_accounting E ag timeout fuel video seeds s a p' rs h
  generalize hp0 : ((if video = true then E.addObserver s else s), ag.setEvalMode a) = p0 at h1
  have key : ∀ ze ∈ es, ze.2.rounds.length = 0 ∨ (ze.2.rounds.length : ℤ) * d < timeout := by
    intro ze hze
    have hT := h4 ze hze
    have hplay : ∃ (z' : ℤ) (s0 s1 : σ) (a0 : α) (p2 : σ × α), E.like.reset (E.seed z' s0) = .ok ze.2.first s1 ∧
        ze.2.firstTime = E.elapsed s1 ∧ Played E ag ze.2.first (s1, a0) ze.2.rounds p2 := by
      clear h2 h3 h4 hT hp0 h
      induction h1 with
      | nil => simp at hze
      | cons s s1 a z e es p p' hst htime hplay hrest ih =>
        rcases List.mem_cons.1 hze with rfl | hze
        · exact ⟨z, s, s1, a, p, hst, htime, hplay⟩
        · exact ih hze
    obtain ⟨z', s0, s1, a0, p2, q1, q2, q3⟩ := hplay
    rcases Nat.eq_zero_or_pos ze.2.rounds.length with h0 | h0
    · exact .inl h0
    · right
      have hb := hT.before (ze.2.rounds.length - 1) (by omega)
      have hk := played_time ht q3 (ze.2.rounds.length - 1) (by omega)
      have hf := ht.env .reset _ _ _ q1
      simp only [Episode.timeAfter] at hb
      rw [q2] at hb
      have hc : ((ze.2.rounds.length - 1 : ℕ) : ℤ) = (ze.2.rounds.length : ℤ) - 1 := by omega
      rw [hc] at hk
      nlinarith
  intro r hr
  obtain ⟨i, hi, rfl⟩ := List.getElem_of_mem hr
  have hlen := h3.length_eq
  have hD := h3.get hi (by omega)
  have hm := key (es[i]'(by omega)) (List.getElem_mem _)
  simp only [List.get_eq_getElem] at hD
  rw [hD.actions]
  exact hm

theorem evalLoop_fuel (E : EvalEnv σ A F) (ag : Agent α A F) (timeout d : Timedelta) (hd : 0 < d)
    (ht : Takes E ag d) (fuel fuel' : ℕ) (v : LoopVars F) (p : σ × α)
    (h : timeout - (v.agentTime + v.envTime) ≤ fuel * d)
    (h' : timeout - (v.agentTime + v.envTime) ≤ fuel' * d) :
    evalLoop E ag timeout fuel v p = evalLoop E ag timeout fuel' v p := by
  have done : ∀ n, ¬ v.agentTime + v.envTime < timeout → evalLoop E ag timeout n v p = .ok v p := by
    intro n hn
    cases n <;> simp [evalLoop, hn]
  by_cases hlt : v.agentTime + v.envTime < timeout
  · obtain ⟨fuel, rfl⟩ : ∃ n, fuel = n + 1 := by
      cases fuel with
      | zero => simp only [Nat.cast_zero, zero_mul] at h; omega
      | succ n => exact ⟨n, rfl⟩
    obtain ⟨fuel', rfl⟩ : ∃ n, fuel' = n + 1 := by
      cases fuel' with
      | zero => simp only [Nat.cast_zero, zero_mul] at h'; omega
      | succ n => exact ⟨n, rfl⟩
    obtain ⟨s, a⟩ := p
    simp only [evalLoop, hlt, if_true]
    cases hag : ag.step v.timeStep a with
    | error e a' => rfl
    | ok x a' =>
      obtain ⟨action, spent⟩ := x
      dsimp only
      cases hst : E.like.step action s with
      | error e s' => rfl
      | ok t s' =>
        dsimp only
        split_ifs with hl
        · rfl
        · have h1 := ht.env (.step action) s t s' hst
          have h2 := ht.agent _ _ _ _ hag
          simp only at h2
          push_cast at h h'
          exact evalLoop_fuel E ag timeout d hd ht fuel fuel' _ _ (by simp only; nlinarith)
            (by simp only; nlinarith)
  · rw [done _ hlt, done _ hlt]
termination_by fuel

/-- The loops end by themselves: with calls that take at least `d > 0`, any bound of at least
`timeout / d` rounds gives the same outcome. -/
theorem C29_terminates (E : EvalEnv σ A F) (ag : Agent α A F) (timeout d : Timedelta) (hd : 0 < d)
    (ht : Takes E ag d) (fuel fuel' : ℕ) (hf : timeout ≤ fuel * d) (hf' : timeout ≤ fuel' * d)
    (video : Bool) (seeds : List ℤ) (p : σ × α) :
    evaluate E ag timeout fuel video seeds p = evaluate E ag timeout fuel' video seeds p := by
  have hseed : ∀ z p, evalSeed E ag timeout fuel z p = evalSeed E ag timeout fuel' z p := by
    intro z p
    obtain ⟨s, a⟩ := p
    simp only [evalSeed]
    cases hr : E.like.reset (E.seed z s) with
    | error e s1 => rfl
    | ok t s1 =>
      dsimp only
      have := ht.env .reset _ t s1 hr
      rw [evalLoop_fuel E ag timeout d hd ht fuel fuel' _ _ (by simp only; omega) (by simp only; omega)]
  have hseeds : ∀ p, evalSeeds E ag timeout fuel video seeds p =
      evalSeeds E ag timeout fuel' video seeds p := by
    induction seeds with
    | nil => intro p; rfl
    | cons z seeds ih =>
      intro p
      simp only [evalSeeds, hseed]
      cases evalSeed E ag timeout fuel' z p with
      | error e p' => rfl
      | ok r p' => simp only [ih]
  obtain ⟨s, a⟩ := p
  simp only [evaluate, hseeds]

/-- Under `d > 0` and enough rounds, a `diverges` error can only come from within the agent, the
environment or the video: the loop itself never runs out. -/
theorem C29_loop_never_diverges (E : EvalEnv σ A F) (ag : Agent α A F) (timeout d : Timedelta)
    (hd : 0 < d) (ht : Takes E ag d) (fuel : ℕ) (v : LoopVars F) (p p' : σ × α)
    (hf : timeout - (v.agentTime + v.envTime) ≤ fuel * d)
    (hag : ∀ t a a', ag.step t a ≠ .error .diverges a')
    (henv : ∀ x s s', E.like.step x s ≠ .error .diverges s') :
    evalLoop E ag timeout fuel v p ≠ .error .diverges p' := by
  induction fuel generalizing v p with
  | zero =>
    simp only [Nat.cast_zero, zero_mul] at hf
    have : ¬ v.agentTime + v.envTime < timeout := by omega
    simp [evalLoop, this]
  | succ fuel ih =>
    obtain ⟨s, a⟩ := p
    simp only [evalLoop]
    split_ifs with hlt
    · split
      · rename_i e a' h
        intro hc
        simp only [EStateM.Result.error.injEq] at hc
        rw [hc.1] at h
        exact hag _ _ _ h
      · rename_i action spent a' h
        split
        · rename_i e s' h2
          intro hc
          simp only [EStateM.Result.error.injEq] at hc
          rw [hc.1] at h2
          exact henv _ _ _ h2
        · rename_i t s' h2
          split_ifs
          · simp
          · have h3 := ht.env (.step action) s t s' h2
            have h4 := ht.agent _ _ _ _ h
            simp only at h4
            push_cast at hf
            exact ih _ _ (by simp only; nlinarith)
    · simp

/-- What an evaluation in a step limit did, with the counter left out of the state. -/
def dropCounter {β : Type} : EStateM.Result Err ((σ × ℤ) × α) β → EStateM.Result Err (σ × α) β
  | .ok r p => .ok r (p.1.1, p.2)
  | .error e p => .error e (p.1.1, p.2)

theorem wrapped_loop (E : EvalEnv σ A F) (ag : Agent α A F) (timeout d : Timedelta) (hd : 0 < d) (ht : Takes E ag d)
    (limit : Option ℤ) (hlimit : ∀ l, limit = some l → timeout ≤ l * d) (fuel : ℕ) (v : LoopVars F) (s : σ) (n : ℤ) (a : α)
    (hn : 0 ≤ n) (hv : (n + 1) * d ≤ v.agentTime + v.envTime) :
    dropCounter (evalLoop (wrappedEvalEnv E limit) ag timeout fuel v ((s, n), a)) = evalLoop E ag timeout fuel v (s, a) := by
  induction fuel generalizing v s n a with
  | zero =>
    simp only [evalLoop]
    split_ifs <;> rfl
  | succ fuel ih =>
    simp only [evalLoop]
    split_ifs with hlt
    swap
    · rfl
    cases hag : ag.step v.timeStep a with
    | error e a' => rfl
    | ok x a' =>
      obtain ⟨action, spent⟩ := x
      dsimp only
      have hspent : 0 ≤ spent := ht.agent _ _ _ _ hag
      have hn1 : n ≠ -1 := by omega
      cases hst : E.like.step action s with
      | error e s' => simp only [wrappedEvalEnv, stepLimit, hn1, if_false, hst, dropCounter]
      | ok t s' =>
        have htime := ht.env (.step action) s t s' hst
        have hstep : ∃ n', (wrappedEvalEnv E limit).like.step action (s, n) = .ok t (s', n') ∧ 0 ≤ n' ∧ n' ≤ n + 1 := by
          simp only [wrappedEvalEnv, stepLimit, hn1, if_false, hst]
          split_ifs with hf
          · exact ⟨0, rfl, le_rfl, by omega⟩
          · cases hl : limit with
            | none => exact ⟨n + 1, rfl, by omega, le_rfl⟩
            | some l =>
              have hlt' : ¬ n + 1 ≥ l := by
                intro hge
                have h1 := hlimit l hl
                have h2 : l * d ≤ (n + 1) * d := mul_le_mul_of_nonneg_right hge hd.le
                omega
              dsimp only
              rw [if_neg hlt']
              exact ⟨n + 1, rfl, by omega, le_rfl⟩
        obtain ⟨n', hw, h0, h1⟩ := hstep
        rw [hw]
        dsimp only
        split_ifs
        · rfl
        · refine ih _ s' n' a' h0 ?_
          have : (n' + 1) * d ≤ (n + 1) * d + d := by nlinarith
          simp only [wrappedEvalEnv]
          linarith

/-- A step limit that cannot be reached before the timeout, or none, changes nothing: the evaluation of an environment in
such a wrapper has the results of the evaluation of the environment itself, raises what it raises, and leaves the
environment and the agent as it does.  In particular seeds reach the wrapped environment. -/
theorem C29_generous_limit (E : EvalEnv σ A F) (ag : Agent α A F) (timeout d : Timedelta) (hd : 0 < d) (ht : Takes E ag d)
    (limit : Option ℤ) (hlimit : ∀ l, limit = some l → timeout ≤ l * d) (fuel : ℕ) (video : Bool) (seeds : List ℤ) (s : σ)
    (n : ℤ) (a : α) :
    dropCounter (evaluate (wrappedEvalEnv E limit) ag timeout fuel video seeds ((s, n), a)) =
      evaluate E ag timeout fuel video seeds (s, a) := by
  have hone : ∀ (z : ℤ) (s : σ) (n : ℤ) (a : α),
      dropCounter (evalSeed (wrappedEvalEnv E limit) ag timeout fuel z ((s, n), a)) =
        evalSeed E ag timeout fuel z (s, a) := by
    intro z s n a
    have e : (wrappedEvalEnv E limit).like.reset ((wrappedEvalEnv E limit).seed z (s, n)) =
        match E.like.reset (E.seed z s) with
        | .ok t s' => .ok t (s', 0)
        | .error e s' => .error e (s', 0) := rfl
    simp only [evalSeed, e]
    cases hr : E.like.reset (E.seed z s) with
    | error e s1 => rfl
    | ok t s1 =>
      dsimp only
      have htime := ht.env .reset _ t s1 hr
      rw [← wrapped_loop E ag timeout d hd ht limit hlimit fuel ⟨t, 0, 0, 0, 0 + E.elapsed s1⟩ s1 0 a le_rfl
        (by simp only; linarith)]
      have e2 : (wrappedEvalEnv E limit).elapsed (s1, 0) = E.elapsed s1 := rfl
      rw [e2]
      cases evalLoop (wrappedEvalEnv E limit) ag timeout fuel ⟨t, 0, 0, 0, 0 + E.elapsed s1⟩ ((s1, 0), a) with
      | error e p => rfl
      | ok v p => rfl
  have hall : ∀ (s : σ) (n : ℤ) (a : α),
      dropCounter (evalSeeds (wrappedEvalEnv E limit) ag timeout fuel video seeds ((s, n), a)) =
        evalSeeds E ag timeout fuel video seeds (s, a) := by
    induction seeds with
    | nil => intro s n a; rfl
    | cons z seeds ih =>
      intro s n a
      simp only [evalSeeds]
      rw [← hone z s n a]
      cases evalSeed (wrappedEvalEnv E limit) ag timeout fuel z ((s, n), a) with
      | error e p => rfl
      | ok r p =>
        obtain ⟨⟨s1, n1⟩, a1⟩ := p
        simp only [dropCounter]
        have e3 : (wrappedEvalEnv E limit).saveVideo z (s1, n1) = E.saveVideo z s1 := rfl
        rw [e3]
        cases (if video then E.saveVideo z s1 else .ok ()) with
        | error e => rfl
        | ok u =>
          dsimp only
          rw [← ih s1 n1 a1]
          cases evalSeeds (wrappedEvalEnv E limit) ag timeout fuel video seeds ((s1, n1), a1) with
          | error e p => rfl
          | ok rs p => rfl
  simp only [evaluate]
  have e4 : (if video = true then (wrappedEvalEnv E limit).addObserver (s, n) else (s, n)) =
      (if video = true then E.addObserver s else s, n) := by
    split_ifs <;> rfl
  rw [e4, ← hall]
  cases evalSeeds (wrappedEvalEnv E limit) ag timeout fuel video seeds
      ((if video = true then E.addObserver s else s, n), ag.setEvalMode a) with
  | error e p => rfl
  | ok rs p =>
    obtain ⟨⟨s1, n1⟩, a1⟩ := p
    simp only [dropCounter]
    split_ifs
    · have e5 : (wrappedEvalEnv E limit).removeObserver (s1, n1) = match E.removeObserver s1 with
          | .ok () s => .ok () (s, n1)
          | .error e s => .error e (s, n1) := rfl
      rw [e5]
      cases E.removeObserver s1 with
      | error e s2 => rfl
      | ok u s2 => rfl
    · rfl

section env
variable {K G O P Img : Type} [Field K] [LinearOrder K] [IsStrictOrderedRing K] [FloorRing K]

/-- The calls of a `PuttingDuneEnvironment` take at least the image duration. -/
theorem env_takes (cfg : EnvCfg K G O P Img F) (hd0 : 0 ≤ (dwellRange cfg.adapter).1)
    (hd : (dwellRange cfg.adapter).1 ≤ (dwellRange cfg.adapter).2)
    (himg : 0 ≤ cfg.sim.imageDuration) (s s' : Env K G O P Img) (c : EnvCall (List K))
    (t : TimeStep F) (h : (Env.like cfg).call c s = .ok t s') :
    cfg.sim.imageDuration ≤ s'.last.elapsedTime := by
  have hreset : Env.reset cfg s = .ok t s' → cfg.sim.imageDuration ≤ s'.last.elapsedTime :=
    fun h => (envReset_ok h).2.2.2.1.ge
  cases c with
  | reset => exact hreset h
  | step a =>
    have h : Env.step cfg a s = .ok t s' := h
    cases hq : s.requiresReset with
    | true => exact hreset (by simpa [Env.step, hq] using h)
    | false =>
      cases envStep_end cfg a s hq with
      | failed e s2 h2 => rw [h] at h2; cases h2
      | ok t2 s2 h2 cs beam hcs hsim hfeat hgoal r hr out =>
        rw [h] at h2
        simp only [EStateM.Result.ok.injEq] at h2
        obtain ⟨rfl, rfl⟩ := h2
        obtain ⟨c, rfl, _, hc1, _⟩ := C24_one_control_in_view cfg.adapter hd _ _ _ _ _ hcs
        rcases step_elapsed hsim with h | h <;> rw [h] <;>
          simp only [List.map_cons, List.map_nil, List.sum_cons, List.sum_nil] <;> omega

/-- `evaluate` on a `PuttingDuneEnvironment`, bare or with a step limit: fewer than
`timeout / image_duration` actions per episode (or none). -/
theorem C29_environment (cfg : EnvCfg K G O P Img F) (hd0 : 0 ≤ (dwellRange cfg.adapter).1)
    (hd : (dwellRange cfg.adapter).1 ≤ (dwellRange cfg.adapter).2)
    (himg : 0 ≤ cfg.sim.imageDuration) (o : O) (n : ℕ)
    (save : ℤ → Env K G O P Img → Except Err Unit) (ag : Agent α (List K) F)
    (hag : ∀ t a x a', ag.step t a = .ok x a' → 0 ≤ x.2) (limit : Option ℤ) :
    Takes (evalEnv cfg o n save) ag cfg.sim.imageDuration ∧
    Takes (wrappedEvalEnv (evalEnv cfg o n save) limit) ag cfg.sim.imageDuration := by
  refine ⟨⟨fun c s t s' h => env_takes cfg hd0 hd himg s s' c t h, hag⟩, ⟨?_, hag⟩⟩
  rintro c ⟨s, k⟩ t ⟨s', k'⟩ h
  have : ∃ c' t', (Env.like cfg).call c' s = .ok t' s' := by
    cases c with
    | reset =>
      simp only [EnvLike.call, wrappedEvalEnv, stepLimit, evalEnv] at h
      split at h
      · rename_i t1 s1 h1
        simp only [EStateM.Result.ok.injEq, Prod.mk.injEq] at h
        exact ⟨.reset, t1, by rw [← h.2.1]; exact h1⟩
      · cases h
    | step a =>
      simp only [EnvLike.call, wrappedEvalEnv, stepLimit, evalEnv] at h
      have : ∃ c', (if k = -1 then (Env.like cfg).reset s else (Env.like cfg).step a s) =
          (Env.like cfg).call c' s := by
        split_ifs
        · exact ⟨.reset, rfl⟩
        · exact ⟨.step a, rfl⟩
      obtain ⟨c', hc'⟩ := this
      rw [hc'] at h
      split at h
      · cases h
      · rename_i t1 s1 h1
        refine ⟨c', t1, ?_⟩
        rw [h1]
        split_ifs at h
        · simp only [EStateM.Result.ok.injEq, Prod.mk.injEq] at h; rw [h.2.1]
        · split at h
          · simp only [EStateM.Result.ok.injEq, Prod.mk.injEq] at h; rw [h.2.1]
          · split_ifs at h
            · simp only [EStateM.Result.ok.injEq, Prod.mk.injEq] at h; rw [h.2.1]
            · simp only [EStateM.Result.ok.injEq, Prod.mk.injEq] at h; rw [h.2.1]
  obtain ⟨c', t', h'⟩ := this
  exact env_takes cfg hd0 hd himg s s' c' t' h'

end env

/-! ### C30 observers -/

/-- Something about the environment that calls and seeding leave alone is left alone by the
episodes. -/
theorem evalSeeds_keeps {T : Type} (E : EvalEnv σ A F) (ag : Agent α A F) (f : σ → T)
    (hcall : ∀ c s t s', E.like.call c s = .ok t s' → f s' = f s)
    (hseed : ∀ z s, f (E.seed z s) = f s) (timeout : Timedelta) (fuel : ℕ) (video : Bool)
    (seeds : List ℤ) (p p' : σ × α) (rs : List (EvalResult ℝ))
    (h : evalSeeds E ag timeout fuel video seeds p = .ok rs p') : f p'.1 = f p.1 := by
  obtain ⟨es, h1, -⟩ := evalSeeds_spec E ag timeout fuel video seeds p p' rs h
  have hplay : ∀ t p rs p', Played E ag t p rs p' → f p'.1 = f p.1 := by
    intro t p rs p' hp
    induction hp with
    | nil => rfl
    | cons t s s' a a' r rs p hc hperf ht hrest ih => rw [ih]; exact hcall (.step r.action) _ _ _ hperf
  clear h
  induction h1 with
  | nil => rfl
  | cons s s1 a z e es p p' hst htime hpl hrest ih =>
    rw [ih, hplay _ _ _ _ hpl, hcall .reset _ _ _ hst, hseed]

section env
variable {K G O P Img T : Type} [Field K] [LinearOrder K] [IsStrictOrderedRing K] [FloorRing K]

/-- When `evaluate` returns, the observers attached to the simulator are the same as before, in the
same order.  `tag` stands for an observer's identity: anything about it that does not change when
it is notified. -/
theorem C30_observers_restored (cfg : EnvCfg K G O P Img F) (tag : O → T)
    (htag : Keeps cfg.sim.handle tag) (o : O) (save : ℤ → Env K G O P Img → Except Err Unit)
    (ag : Agent α (List K) F) (timeout : Timedelta) (fuel : ℕ) (video : Bool) (seeds : List ℤ)
    (s s' : Env K G O P Img) (a a' : α) (rs : List (EvalResult ℝ))
    (h : evaluate (evalEnv cfg o s.sim.ctx.obs.length save) ag timeout fuel video seeds (s, a) =
      .ok rs (s', a')) :
    s'.sim.ctx.obs.map tag = s.sim.ctx.obs.map tag := by
  have hcall : ∀ c (s s' : Env K G O P Img) t, (Env.like cfg).call c s = .ok t s' →
      s'.sim.ctx.obs.map tag = s.sim.ctx.obs.map tag := by
    intro c s s' t h
    cases c with
    | reset => have := envReset_tags htag s; rwa [show Env.reset cfg s = .ok t s' from h] at this
    | step x => have := envStep_tags htag x s; rwa [show Env.step cfg x s = .ok t s' from h] at this
  simp only [evaluate] at h
  split at h
  · cases h
  · rename_i rs' p1 hs
    have hk := evalSeeds_keeps _ ag (fun s : Env K G O P Img => s.sim.ctx.obs.map tag)
      (fun c s t s' h => hcall c s s' t h) (fun z s => rfl) timeout fuel video seeds _ _ _ hs
    cases video with
    | false =>
      simp only [Bool.false_eq_true, if_false, EStateM.Result.ok.injEq] at h hk
      rw [← hk, h.2]
    | true =>
      simp only [if_true] at h hk
      split at h
      · cases h
      · rename_i s2 hrem
        simp only [EStateM.Result.ok.injEq, Prod.mk.injEq] at h
        obtain ⟨_, rfl, _⟩ := h
        simp only [evalEnv, Sim.removeObserver] at hrem
        have hadd : p1.1.sim.ctx.obs.map tag = s.sim.ctx.obs.map tag ++ [tag o] := by
          rw [hk]; simp [evalEnv, Sim.addObserver]
        have hlen : p1.1.sim.ctx.obs.length = s.sim.ctx.obs.length + 1 := by
          have := congrArg List.length hadd
          simpa using this
        rw [if_pos (by omega)] at hrem
        simp only [EStateM.Result.ok.injEq, true_and] at hrem
        rw [← hrem]
        simp only
        rw [← List.eraseIdx_map, hadd, List.eraseIdx_append_of_length_le (by simp)]
        simp

end env

/-! ### C31 aggregation -/

section agg
variable {K : Type} [Field K] [LinearOrder K] [IsStrictOrderedRing K]

/-- The results that reached the goal. -/
def successes (rs : List (EvalResult K)) : List (EvalResult K) := rs.filter (·.reachedGoal)

theorem agg_fold (rs : List (EvalResult K)) (v : AggVars K) :
    rs.foldl aggStep v = ⟨v.reached + (successes rs).length,
      v.numActions + ((successes rs).map (·.numActions)).sum,
      (successes rs).foldl (fun x r => nanAdd x r.agentSeconds) v.agentSeconds,
      (successes rs).foldl (fun x r => nanAdd x r.envSeconds) v.envSeconds,
      v.totalReward + ((successes rs).map (·.totalReward)).sum⟩ := by
  induction rs generalizing v with
  | nil => simp [successes]
  | cons r rs ih =>
    rw [List.foldl_cons, ih]
    cases hr : r.reachedGoal with
    | false => simp [aggStep, successes, hr]
    | true =>
      have : successes (r :: rs) = r :: successes rs := by simp [successes, hr]
      rw [this]
      simp only [aggStep, hr, if_true, List.length_cons, List.map_cons, List.sum_cons,
        List.foldl_cons, Bool.toNat_true]
      congr 1
      · omega
      · omega
      · ring

theorem nan_fold (xs : List (EvalResult K)) (f : EvalResult K → Option K) (x : Option K) :
    xs.foldl (fun x r => nanAdd x (f r)) x =
      if x.isSome ∧ (xs.map f).all Option.isSome then
        some (x.getD 0 + ((xs.map f).filterMap id).sum) else none := by
  induction xs generalizing x with
  | nil => cases x <;> simp
  | cons r xs ih =>
    rw [List.foldl_cons, ih]
    cases x with
    | none => simp [nanAdd]
    | some x =>
      cases hf : f r with
      | none => simp [nanAdd, hf]
      | some y => simp [nanAdd, hf, add_assoc]

theorem mean_nat (xs : List K) : mean xs = xs.sum / ((max xs.length 1 : ℕ) : K) := by
  unfold mean
  split_ifs with h
  · simp [h]
  · have : max xs.length 1 = xs.length := by
      have := List.length_pos_of_ne_nil h
      omega
    rw [this]

/-- For a non-empty list: the fraction of successes, between 0 and 1, and the averages over exactly
the successes (0 if there are none). -/
theorem C31_averages_partial (rs : List (EvalResult K)) (h : rs ≠ []) :
    ∃ r, aggregateResults rs = .ok r ∧
      r.timesReachedGoal = ((successes rs).length : K) / rs.length ∧
      0 ≤ r.timesReachedGoal ∧ r.timesReachedGoal ≤ 1 ∧
      r.numActions = mean ((successes rs).map (fun x => (x.numActions : K))) ∧
      r.totalReward = mean ((successes rs).map (·.totalReward)) ∧
      r.agentSeconds = nanMean ((successes rs).map (·.agentSeconds)) ∧
      r.envSeconds = nanMean ((successes rs).map (·.envSeconds)) := by
  have hlen : rs.length ≠ 0 := by simpa using h
  have hle : (successes rs).length ≤ rs.length := List.length_filter_le _ _
  have hsec : ∀ f : EvalResult K → Option K,
      Option.map (fun x => x / ((max (successes rs).length 1 : ℕ) : K))
        ((successes rs).foldl (fun x r => nanAdd x (f r)) (some 0)) =
      nanMean ((successes rs).map f) := by
    intro f
    rw [nan_fold]
    unfold nanMean
    by_cases ha : ((successes rs).map f).all Option.isSome = true
    · have hl : (((successes rs).map f).filterMap id).length = (successes rs).length := by
        have : ∀ xs : List (Option K), xs.all Option.isSome = true →
            (xs.filterMap id).length = xs.length := by
          intro xs
          induction xs with
          | nil => simp
          | cons x xs ih =>
            intro hx
            simp only [List.all_cons, Bool.and_eq_true] at hx
            obtain ⟨y, rfl⟩ := Option.isSome_iff_exists.1 hx.1
            have h1 := ih hx.2
            simpa using h1
        rw [this _ ha, List.length_map]
      simp only [ha, Option.isSome_some, true_and, if_true, Option.getD_some, zero_add,
        Option.map_some, mean_nat, hl]
    · simp [ha]
  refine ⟨_, by simp only [aggregateResults, hlen, if_false]; rfl, ?_⟩
  simp only [agg_fold, zero_add]
  refine ⟨trivial, by positivity, ?_, ?_, ?_, hsec _, hsec _⟩
  · rw [div_le_one (by positivity)]
    exact_mod_cast hle
  · rw [mean_nat]
    simp [Function.comp_def]
  · rw [mean_nat]
    simp

/-- C31 fails for the empty list: `ZeroDivisionError`. -/
theorem C31_empty_raises : aggregateResults ([] : List (EvalResult K)) = .error .zeroDivision := rfl

/-- The order of the results does not matter. -/
theorem C31_order_irrelevant (rs rs' : List (EvalResult K)) (h : rs.Perm rs') :
    aggregateResults rs = aggregateResults rs' := by
  have hs : (successes rs).Perm (successes rs') := h.filter _
  have hv : ∀ f : EvalResult K → Option K,
      (successes rs).foldl (fun x r => nanAdd x (f r)) (some 0) =
      (successes rs').foldl (fun x r => nanAdd x (f r)) (some 0) := by
    intro f
    rw [nan_fold, nan_fold]
    have h1 : ((successes rs).map f).all Option.isSome = ((successes rs').map f).all Option.isSome := by
      rw [Bool.eq_iff_iff, List.all_eq_true, List.all_eq_true]
      constructor <;> intro h x hx
      · exact h x ((hs.map f).mem_iff.2 hx)
      · exact h x ((hs.map f).mem_iff.1 hx)
    rw [h1, ((hs.map f).filterMap id).sum_eq]
  simp only [aggregateResults, agg_fold, h.length_eq, hs.length_eq, hv,
    (hs.map (·.numActions)).sum_eq, (hs.map (·.totalReward)).sum_eq]

/-- One success out of two. -/
example : aggregateResults [(⟨0, true, 3, some 1, some 8, 1/2⟩ : EvalResult ℚ),
    ⟨1, false, 9, none, none, 0⟩] = .ok ⟨1/2, 3, some 1, some 8, 1/2⟩ := by decide +kernel

/-- No success. -/
example : aggregateResults [(⟨1, false, 9, none, none, 0⟩ : EvalResult ℚ)] =
    .ok ⟨0, 0, some 0, some 0, 0⟩ := by decide +kernel

end agg

namespace EvalExample
open Witness EnvExample

/-- An agent that idles twice and then shoots, thinking for a millisecond each time. -/
def agent : Agent ℕ (List ℚ) (List ℚ) where
  setEvalMode := fun _ => 0
  step := fun _ n => .ok (if n < 2 then [0, 0, 0] else [0, 0, 1], 1000) (n + 1)

/-- Ten minutes, one seed after the other, with a video. -/
example : (match evaluate (evalEnv cfg () 0 (fun _ _ => .ok ())) agent 600000000 300 true [7, 8]
      (start, 5) with
    | .ok rs p => (rs.map (fun r => (r.seed, r.numActions)), p.1.sim.ctx.obs.length)
    | .error _ _ => ([], 99)) = ([(7, 3), (8, 1)], 0) := by
  decide +kernel

/-- A timeout of 5 s: reset takes 2 s and an idle step 2.5 s, so there is time for two steps. -/
example : (match evaluate (evalEnv cfg () 0 (fun _ _ => .ok ())) agent 5000000 300 false [7]
      (start, 5) with
    | .ok rs p => rs.map (fun r => (r.seed, r.numActions))
    | .error _ _ => []) = [(7, 2)] := by
  decide +kernel

example : ∀ t a x a', agent.step t a = .ok x a' → 0 ≤ x.2 := by
  intro t a x a' h
  simp only [agent, EStateM.Result.ok.injEq] at h
  rw [← h.1]; norm_num

/-- `C29_generous_limit` with the defaults: ten minutes, pictures of two seconds, a limit of 600 steps. -/
example : (0 : ℤ) < 2000000 ∧ ∀ l : ℤ, some 600 = some l → (600000000 : ℤ) ≤ l * 2000000 := by
  refine ⟨by norm_num, fun l h => ?_⟩
  cases h
  norm_num

end EvalExample

end PD.Props
