/- C133: the discounted return of an episode is worth the time it took. -/
import Verif.Spec.Return
import Verif.Props.Eval
import Mathlib.Analysis.SpecialFunctions.Pow.Real

set_option linter.unusedSectionVars false
set_option linter.unusedSimpArgs false

namespace PD.Props
open PD PD.Spec
variable {K G O P Img F σ A α : Type}

/-- What a time step can be worth, `d` being the time the call took; an episode can also be cut short. -/
def Worth (d : Timedelta) (t : TimeStep F) : Prop :=
  (t.stepType ≠ .last → t.reward = 0 ∧ t.discount = worthAfter ((d : ℝ) / 1000000)) ∧
  (t.stepType = .last → (t.reward = worthAfter ((d : ℝ) / 1000000) ∧ t.discount = 0) ∨
    (t.reward = 0 ∧ t.discount ≠ 0))

theorem worthAfter_add (x y : ℝ) : worthAfter (x + y) = worthAfter x * worthAfter y :=
  Real.rpow_add (by norm_num) x y

theorem worthAfter_lt {x y : ℝ} : worthAfter x < worthAfter y ↔ y < x :=
  Real.rpow_lt_rpow_left_iff_of_base_lt_one (by norm_num) (by norm_num)

theorem worthAfter_pos (x : ℝ) : 0 < worthAfter x := Real.rpow_pos_of_pos (by norm_num) x

theorem sparse_worth {d : Timedelta} {t : TimeStep F} (h : Sparse d t) : Worth d t :=
  ⟨fun h' => ⟨(h.1 h').1, (h.1 h').2.1⟩, fun h' => .inl ⟨(h.2 h').1, (h.2 h').2.2.2⟩⟩

/-- The rounds were worth their time. -/
theorem played_worth {E : EvalEnv σ A F} {ag : Agent α A F}
    (hE : ∀ (c : EnvCall A) s t s', E.like.call c s = .ok t s' → Worth (E.elapsed s') t)
    {t : TimeStep F} {p p' : σ × α} {rs : List (Round A F)} (hp : Played E ag t p rs p') :
    ∀ r ∈ rs, Worth r.envTime r.result := by
  induction hp with
  | nil => simp
  | cons t s s' a a' r rs p hc hperf ht hrest ih =>
    intro q hq
    rcases List.mem_cons.1 hq with rfl | hq
    · rw [ht]; exact hE (.step q.action) s _ s' hperf
    · exact ih q hq

theorem earned_worth (rs : List (Round A F)) (hw : ∀ r ∈ rs, Worth r.envTime r.result) (h1 : OneEpisode rs) :
    (EndedAtGoal rs → earned rs = worthAfter (playSeconds rs)) ∧ (¬ EndedAtGoal rs → earned rs = 0) := by
  induction rs with
  | nil => exact ⟨fun ⟨r, h, _⟩ => by simp at h, fun _ => rfl⟩
  | cons r rs ih =>
    have hr := hw r (by simp)
    cases rs with
    | nil =>
      have he : earned [r] = r.result.reward := by simp [earned, discountedReturn]
      have hp : playSeconds [r] = (r.envTime : ℝ) / 1000000 := by simp [playSeconds]
      rw [he, hp]
      refine ⟨?_, ?_⟩
      · rintro ⟨q, hq, hl, hd⟩
        simp only [List.getLast?_singleton, Option.some.injEq] at hq
        subst hq
        rcases hr.2 hl with h | h
        · exact h.1
        · exact absurd hd h.2
      · intro hn
        by_cases hl : r.result.stepType = .last
        · rcases hr.2 hl with h | h
          · exact absurd ⟨r, rfl, hl, h.2⟩ hn
          · exact h.1
        · exact (hr.1 hl).1
    | cons q rs =>
      have hnl : r.result.stepType ≠ .last := h1 r (by simp)
      obtain ⟨e1, e2⟩ := hr.1 hnl
      obtain ⟨i1, i2⟩ := ih (fun x hx => hw x (List.mem_cons_of_mem _ hx))
        (fun x hx => h1 x (by rw [List.dropLast_cons_of_ne_nil (by simp)]; exact List.mem_cons_of_mem _ hx))
      have hiff : EndedAtGoal (r :: q :: rs) ↔ EndedAtGoal (q :: rs) := by simp [EndedAtGoal, List.getLast?_cons_cons]
      have he : earned (r :: q :: rs) = worthAfter ((r.envTime : ℝ) / 1000000) * earned (q :: rs) := by
        simp only [earned, List.map_cons] at *
        rw [discountedReturn, e1, e2, zero_add]
      have hp : playSeconds (r :: q :: rs) = (r.envTime : ℝ) / 1000000 + playSeconds (q :: rs) := by
        simp only [playSeconds, List.map_cons, List.sum_cons]
        push_cast
        ring
      rw [hiff, he, hp, worthAfter_add]
      exact ⟨fun h => by rw [i1 h], fun h => by rw [i2 h, mul_zero]⟩

theorem total_worth (rs : List (Round A F)) (hw : ∀ r ∈ rs, Worth r.envTime r.result) (h1 : OneEpisode rs) :
    (∀ r, rs.getLast? = some r → EndedAtGoal rs →
      (rs.map (·.result.reward)).sum = worthAfter ((r.envTime : ℝ) / 1000000)) := by
  intro r hr ⟨r', hr', hl, hd⟩
  rw [hr] at hr'
  simp only [Option.some.injEq] at hr'
  subst hr'
  obtain ⟨pre, rfl⟩ : ∃ pre, rs = pre ++ [r] := List.getLast?_eq_some_iff.1 hr
  have h0 : (pre.map (·.result.reward)).sum = 0 := by
    apply List.sum_eq_zero
    intro x hx
    obtain ⟨q, hq, rfl⟩ := List.mem_map.1 hx
    exact ((hw q (by simp [hq])).1 (h1 q (by simpa using hq))).1
  rw [List.map_append, List.sum_append, h0]
  rcases (hw r (by simp)).2 hl with h | h
  · simp [h.1]
  · exact absurd hd h.2

theorem nothing_worth (rs : List (Round A F)) (hw : ∀ r ∈ rs, Worth r.envTime r.result) (h1 : OneEpisode rs)
    (h : ¬ EndedAtGoal rs) : (rs.map (·.result.reward)).sum = 0 := by
  apply List.sum_eq_zero
  intro x hx
  obtain ⟨q, hq, rfl⟩ := List.mem_map.1 hx
  by_cases hl : q.result.stepType = .last
  · rcases (hw q hq).2 hl with h' | h'
    · exfalso
      rcases List.eq_nil_or_concat rs with hnil | ⟨pre, r, hr⟩
      · rw [hnil] at hq; cases hq
      · rw [List.concat_eq_append] at hr
        subst hr
        rcases List.mem_append.1 hq with hq | hq
        · exact h1 q (by simpa using hq) hl
        · simp only [List.mem_singleton] at hq
          subst hq
          exact h ⟨q, by simp, hl, h'.2⟩
    · exact h'.1
  · exact ((hw q hq).1 hl).1

section env
variable [Field K] [LinearOrder K] [IsStrictOrderedRing K] [FloorRing K]

theorem bare_sparse (cfg : EnvCfg K G O P Img F) (himg : 0 ≤ cfg.sim.imageDuration)
    (hd0 : 0 ≤ (dwellRange cfg.adapter).1) (hd : (dwellRange cfg.adapter).1 ≤ (dwellRange cfg.adapter).2) (o : O) (n : ℕ)
    (save : ℤ → Env K G O P Img → Except Err Unit) (c : EnvCall (List K)) (s : Env K G O P Img) (t : TimeStep F)
    (s' : Env K G O P Img) (h : (evalEnv cfg o n save).like.call c s = .ok t s') :
    Sparse ((evalEnv cfg o n save).elapsed s') t :=
  C20_sparse cfg himg hd0 hd s s' c t h

theorem bare_worth (cfg : EnvCfg K G O P Img F) (himg : 0 ≤ cfg.sim.imageDuration)
    (hd0 : 0 ≤ (dwellRange cfg.adapter).1) (hd : (dwellRange cfg.adapter).1 ≤ (dwellRange cfg.adapter).2) (o : O) (n : ℕ)
    (save : ℤ → Env K G O P Img → Except Err Unit) (c : EnvCall (List K)) (s : Env K G O P Img) (t : TimeStep F)
    (s' : Env K G O P Img) (h : (evalEnv cfg o n save).like.call c s = .ok t s') :
    Worth ((evalEnv cfg o n save).elapsed s') t :=
  sparse_worth (bare_sparse cfg himg hd0 hd o n save c s t s' h)

theorem wrapped_worth {E : EvalEnv σ A F} (limit : Option ℤ)
    (hE : ∀ (c : EnvCall A) s t s', E.like.call c s = .ok t s' → Sparse (E.elapsed s') t)
    (c : EnvCall A) (s : σ × ℤ) (t : TimeStep F) (s' : σ × ℤ)
    (h : (wrappedEvalEnv E limit).like.call c s = .ok t s') : Worth ((wrappedEvalEnv E limit).elapsed s') t := by
  obtain ⟨s, k⟩ := s
  obtain ⟨s', k'⟩ := s'
  cases c with
  | reset =>
    simp only [EnvLike.call, wrappedEvalEnv, stepLimit] at h
    split at h
    · rename_i t1 s1 h1
      simp only [EStateM.Result.ok.injEq, Prod.mk.injEq] at h
      obtain ⟨rfl, rfl, _⟩ := h
      exact sparse_worth (hE .reset s t1 s1 h1)
    · cases h
  | step a =>
    simp only [EnvLike.call, wrappedEvalEnv, stepLimit] at h
    have : ∃ c', (if k = -1 then E.like.reset s else E.like.step a s) = E.like.call c' s := by
      split_ifs
      · exact ⟨.reset, rfl⟩
      · exact ⟨.step a, rfl⟩
    obtain ⟨c', hc'⟩ := this
    rw [hc'] at h
    split at h
    · cases h
    · rename_i t1 s1 h1
      have hs := hE c' s t1 s1 h1
      have hcut : Worth (E.elapsed s1) (TimeStep.truncation t1.reward t1.observation t1.discount) := by
        refine ⟨fun h => absurd rfl h, fun _ => ?_⟩
        by_cases hl : t1.stepType = .last
        · exact .inl ⟨(hs.2 hl).1, (hs.2 hl).2.2.2⟩
        · exact .inr ⟨(hs.1 hl).1, (hs.1 hl).2.2.1.ne'⟩
      split_ifs at h
      · simp only [EStateM.Result.ok.injEq, Prod.mk.injEq] at h
        obtain ⟨rfl, rfl, _⟩ := h
        exact sparse_worth hs
      · split at h
        · simp only [EStateM.Result.ok.injEq, Prod.mk.injEq] at h
          obtain ⟨rfl, rfl, _⟩ := h
          exact sparse_worth hs
        · split_ifs at h
          · simp only [EStateM.Result.ok.injEq, Prod.mk.injEq] at h
            obtain ⟨rfl, rfl, _⟩ := h
            exact hcut
          · simp only [EStateM.Result.ok.injEq, Prod.mk.injEq] at h
            obtain ⟨rfl, rfl, _⟩ := h
            exact sparse_worth hs

theorem limited_worth (cfg : EnvCfg K G O P Img F) (himg : 0 ≤ cfg.sim.imageDuration)
    (hd0 : 0 ≤ (dwellRange cfg.adapter).1) (hd : (dwellRange cfg.adapter).1 ≤ (dwellRange cfg.adapter).2) (o : O) (n : ℕ)
    (save : ℤ → Env K G O P Img → Except Err Unit) (limit : Option ℤ) (c : EnvCall (List K)) (s : Env K G O P Img × ℤ)
    (t : TimeStep F) (s' : Env K G O P Img × ℤ)
    (h : (wrappedEvalEnv (evalEnv cfg o n save) limit).like.call c s = .ok t s') :
    Worth ((wrappedEvalEnv (evalEnv cfg o n save) limit).elapsed s') t :=
  wrapped_worth limit (bare_sparse cfg himg hd0 hd o n save) c s t s' h

/-- C133.  Whatever agent plays, and whatever happened before: the discounted return of an episode that ends at the
goal is `0.9967` to the power of the seconds that the environment took for it; that of an episode that is given up is
0.  The return without discounts only knows about the last step. -/
theorem C133_return (cfg : EnvCfg K G O P Img F) (himg : 0 ≤ cfg.sim.imageDuration)
    (hd0 : 0 ≤ (dwellRange cfg.adapter).1) (hd : (dwellRange cfg.adapter).1 ≤ (dwellRange cfg.adapter).2) (o : O) (n : ℕ)
    (save : ℤ → Env K G O P Img → Except Err Unit) (ag : Agent α (List K) F) (t : TimeStep F)
    (p p' : Env K G O P Img × α) (rs : List (Round (List K) F)) (hp : Played (evalEnv cfg o n save) ag t p rs p')
    (h1 : OneEpisode rs) :
    (EndedAtGoal rs → earned rs = worthAfter (playSeconds rs)) ∧ (¬ EndedAtGoal rs → earned rs = 0) ∧
    ∀ r, rs.getLast? = some r → EndedAtGoal rs →
      (rs.map (·.result.reward)).sum = worthAfter ((r.envTime : ℝ) / 1000000) := by
  have hw := played_worth (bare_worth cfg himg hd0 hd o n save) hp
  exact ⟨(earned_worth rs hw h1).1, (earned_worth rs hw h1).2, total_worth rs hw h1⟩

/-- C133: the same with a limit on the number of steps.  An episode that is cut short earns nothing, unless the last
step allowed reached the goal. -/
theorem C133_step_limit (cfg : EnvCfg K G O P Img F) (himg : 0 ≤ cfg.sim.imageDuration)
    (hd0 : 0 ≤ (dwellRange cfg.adapter).1) (hd : (dwellRange cfg.adapter).1 ≤ (dwellRange cfg.adapter).2) (o : O) (n : ℕ)
    (save : ℤ → Env K G O P Img → Except Err Unit) (limit : Option ℤ) (ag : Agent α (List K) F) (t : TimeStep F)
    (p p' : (Env K G O P Img × ℤ) × α) (rs : List (Round (List K) F))
    (hp : Played (wrappedEvalEnv (evalEnv cfg o n save) limit) ag t p rs p') (h1 : OneEpisode rs) :
    (EndedAtGoal rs → earned rs = worthAfter (playSeconds rs)) ∧ (¬ EndedAtGoal rs → earned rs = 0) ∧
    ∀ r, rs.getLast? = some r → EndedAtGoal rs →
      (rs.map (·.result.reward)).sum = worthAfter ((r.envTime : ℝ) / 1000000) := by
  have hw := played_worth (limited_worth cfg himg hd0 hd o n save limit) hp
  exact ⟨(earned_worth rs hw h1).1, (earned_worth rs hw h1).2, total_worth rs hw h1⟩

/-- The evaluated episodes one by one. -/
theorem evaluated {E : EvalEnv σ A F} {ag : Agent α A F} {p p' : σ × α} {es : List (ℤ × Episode A F)}
    (h : PlayedAll E ag p es p') : ∀ ze ∈ es, ∃ (s0 s1 : σ) (a0 : α) (p2 : σ × α),
      E.like.reset s0 = .ok ze.2.first s1 ∧ ze.2.firstTime = E.elapsed s1 ∧ Played E ag ze.2.first (s1, a0) ze.2.rounds p2 := by
  induction h with
  | nil => simp
  | cons s s1 a z e es p p' hst htime hplay hrest ih =>
    intro ze hze
    rcases List.mem_cons.1 hze with rfl | hze
    · exact ⟨_, s1, a, p, hst, htime, hplay⟩
    · exact ih ze hze

theorem reached_iff {e : Episode A F} (hf : e.first.stepType ≠ .last) : e.Reached ↔ EndedAtGoal e.rounds := by
  unfold Episode.Reached EndedAtGoal Episode.final
  rcases List.eq_nil_or_concat e.rounds with h | ⟨pre, r, h⟩
  · rw [h]; simp [hf]
  · rw [h]; simp

theorem evaluation_worth (E : EvalEnv σ A F) (ag : Agent α A F) (d : Timedelta)
    (hE : ∀ (c : EnvCall A) s t s', E.like.call c s = .ok t s' → Worth (E.elapsed s') t)
    (hR0 : ∀ s t s', E.like.reset s = .ok t s' → t.stepType = .first ∧ E.elapsed s' = d)
    (timeout : Timedelta) (fuel : ℕ) (video : Bool) (seeds : List ℤ) (s : σ) (a : α) (p' : σ × α)
    (rs : List (EvalResult ℝ)) (h : evaluate E ag timeout fuel video seeds (s, a) = .ok rs p') :
    ∃ es : List (ℤ × Episode A F),
      (∃ p1, PlayedAll E ag (if video then E.addObserver s else s, ag.setEvalMode a) es p1) ∧ es.map Prod.fst = seeds ∧
      List.Forall₂ (fun r ze =>
        (r.reachedGoal = true → ∃ secs lastRound, r.envSeconds = some secs ∧ ze.2.rounds.getLast? = some lastRound ∧
          earned ze.2.rounds = worthAfter (secs - (d : ℝ) / 1000000) ∧
          r.totalReward = worthAfter ((lastRound.envTime : ℝ) / 1000000)) ∧
        (r.reachedGoal = false → earned ze.2.rounds = 0 ∧ r.totalReward = 0)) rs es := by
  obtain ⟨es, ⟨p1, h1⟩, h2, h3, h4⟩ := C29_accounting _ ag timeout fuel video seeds s a p' rs h
  refine ⟨es, ⟨p1, h1⟩, h2, ?_⟩
  have hpl := evaluated h1
  refine (List.forall₂_iff_get.2 ⟨h3.length_eq, fun i hi hj => ?_⟩)
  have hD := h3.get hi hj
  have hmem : es.get ⟨i, hj⟩ ∈ es := List.get_mem _ _
  generalize es.get ⟨i, hj⟩ = ze at hD hmem
  generalize rs.get ⟨i, hi⟩ = r at hD
  obtain ⟨s0, s1, a0, p2, hst, htime, hplay⟩ := hpl ze hmem
  have hone : OneEpisode ze.2.rounds := (h4 ze hmem).notAfterLast
  have hfirst : ze.2.first.stepType = .first ∧ E.elapsed s1 = d := hR0 _ _ _ hst
  have hiff := reached_iff (e := ze.2) (by rw [hfirst.1]; decide)
  have hw := played_worth hE hplay
  obtain ⟨w1, w2⟩ := earned_worth _ hw hone
  have w3 := total_worth _ hw hone
  constructor
  · intro hr
    have hR := hD.reached.1 hr
    have hG := hiff.1 hR
    obtain ⟨q, hq, _⟩ := id hG
    refine ⟨_, q, (hD.seconds hR).2, hq, ?_, ?_⟩
    · rw [w1 hG]
      congr 1
      have : ze.2.firstTime = d := by rw [htime]; exact hfirst.2
      rw [this]
      unfold playSeconds
      push_cast
      ring
    · rw [hD.reward]; exact w3 q hq hG
  · intro hr
    have hN : ¬ EndedAtGoal ze.2.rounds := by
      rw [← hiff, ← hD.reached, hr]; decide
    refine ⟨w2 hN, ?_⟩
    rw [hD.reward]
    exact nothing_worth _ hw hone hN

/-- C133: what an evaluation says about a result.  If the goal was reached, the episode earned `0.9967` to the power of
the environment's seconds without the first image, while the total reward is that of the last step alone; if it was
not, both are 0. -/
theorem C133_evaluation (cfg : EnvCfg K G O P Img F) (himg : 0 ≤ cfg.sim.imageDuration)
    (hd0 : 0 ≤ (dwellRange cfg.adapter).1) (hd : (dwellRange cfg.adapter).1 ≤ (dwellRange cfg.adapter).2) (o : O) (n : ℕ)
    (save : ℤ → Env K G O P Img → Except Err Unit) (limit : Option ℤ) (ag : Agent α (List K) F) (timeout : Timedelta)
    (fuel : ℕ) (video : Bool) (seeds : List ℤ) (s : Env K G O P Img × ℤ) (a : α) (p' : (Env K G O P Img × ℤ) × α)
    (rs : List (EvalResult ℝ))
    (h : evaluate (wrappedEvalEnv (evalEnv cfg o n save) limit) ag timeout fuel video seeds (s, a) = .ok rs p') :
    ∃ es : List (ℤ × Episode (List K) F),
      (∃ p1, PlayedAll (wrappedEvalEnv (evalEnv cfg o n save) limit) ag
        (if video then (wrappedEvalEnv (evalEnv cfg o n save) limit).addObserver s else s, ag.setEvalMode a) es p1) ∧
      es.map Prod.fst = seeds ∧
      List.Forall₂ (fun r ze =>
        (r.reachedGoal = true → ∃ secs lastRound, r.envSeconds = some secs ∧ ze.2.rounds.getLast? = some lastRound ∧
          earned ze.2.rounds = worthAfter (secs - (cfg.sim.imageDuration : ℝ) / 1000000) ∧
          r.totalReward = worthAfter ((lastRound.envTime : ℝ) / 1000000)) ∧
        (r.reachedGoal = false → earned ze.2.rounds = 0 ∧ r.totalReward = 0)) rs es := by
  refine evaluation_worth _ ag cfg.sim.imageDuration (limited_worth cfg himg hd0 hd o n save limit) ?_ timeout fuel video
    seeds s a p' rs h
  rintro ⟨s0, k⟩ t ⟨s1, k1⟩ hst
  simp only [wrappedEvalEnv, stepLimit] at hst
  split at hst
  · rename_i t1 s2 h1
    simp only [EStateM.Result.ok.injEq, Prod.mk.injEq] at hst
    obtain ⟨rfl, rfl, _⟩ := hst
    have := envReset_ok (cfg := cfg) h1
    exact ⟨this.1, this.2.2.2.1⟩
  · cases hst

/-- C133: so of two episodes the one that earns more is the one that reaches the goal in less time, in environments with
the same settings or not; and every episode that reaches the goal earns more than one that does not. -/
theorem C133_sooner {K' G' O' P' Img' F' α' : Type} [Field K'] [LinearOrder K'] [IsStrictOrderedRing K'] [FloorRing K']
    (cfg : EnvCfg K G O P Img F) (himg : 0 ≤ cfg.sim.imageDuration)
    (hd0 : 0 ≤ (dwellRange cfg.adapter).1) (hd : (dwellRange cfg.adapter).1 ≤ (dwellRange cfg.adapter).2) (o : O) (n : ℕ)
    (save : ℤ → Env K G O P Img → Except Err Unit) (limit : Option ℤ) (ag : Agent α (List K) F) (t : TimeStep F)
    (p p1 : (Env K G O P Img × ℤ) × α) (rs : List (Round (List K) F))
    (hp : Played (wrappedEvalEnv (evalEnv cfg o n save) limit) ag t p rs p1) (h1 : OneEpisode rs)
    (cfg' : EnvCfg K' G' O' P' Img' F') (himg' : 0 ≤ cfg'.sim.imageDuration)
    (hd0' : 0 ≤ (dwellRange cfg'.adapter).1) (hd' : (dwellRange cfg'.adapter).1 ≤ (dwellRange cfg'.adapter).2)
    (o' : O') (n' : ℕ) (save' : ℤ → Env K' G' O' P' Img' → Except Err Unit) (limit' : Option ℤ)
    (ag' : Agent α' (List K') F') (t' : TimeStep F') (q q1 : (Env K' G' O' P' Img' × ℤ) × α')
    (rs' : List (Round (List K') F')) (hp' : Played (wrappedEvalEnv (evalEnv cfg' o' n' save') limit') ag' t' q rs' q1)
    (h1' : OneEpisode rs') :
    (EndedAtGoal rs → EndedAtGoal rs' → (earned rs' < earned rs ↔ playSeconds rs < playSeconds rs')) ∧
    (EndedAtGoal rs → ¬ EndedAtGoal rs' → earned rs' < earned rs) := by
  obtain ⟨a1, a2, _⟩ := C133_step_limit cfg himg hd0 hd o n save limit ag t p p1 rs hp h1
  obtain ⟨b1, b2, _⟩ := C133_step_limit cfg' himg' hd0' hd' o' n' save' limit' ag' t' q q1 rs' hp' h1'
  exact ⟨fun h h' => by rw [a1 h, b1 h', worthAfter_lt], fun h h' => by rw [a1 h, b2 h']; exact worthAfter_pos _⟩

end env

namespace ReturnExample
open Witness EnvExample EvalExample

/-- An evaluation with the default limits, and one that is cut short after two steps. -/
example : (match evaluate (wrappedEvalEnv (evalEnv cfg () 0 (fun _ _ => .ok ())) (some 600)) agent 600000000 300 true
      [7, 8] ((start, 0), 5) with
    | .ok rs _ => rs.map (fun r => (r.seed, r.numActions))
    | .error _ _ => []) = [(7, 3), (8, 1)] ∧
    (match evaluate (wrappedEvalEnv (evalEnv cfg () 0 (fun _ _ => .ok ())) (some 2)) agent 600000000 300 true
      [7, 8] ((start, 0), 5) with
    | .ok rs _ => rs.map (fun r => (r.seed, r.numActions))
    | .error _ _ => []) = [(7, 2), (8, 1)] := by
  decide +kernel

/-- Two idle steps of two and a half seconds each and a shot that reached the goal and took four. -/
example : earned [(⟨(), 0, ⟨.mid, 0, worthAfter 2.5, ()⟩, 2500000⟩ : Round Unit Unit),
      ⟨(), 0, ⟨.mid, 0, worthAfter 2.5, ()⟩, 2500000⟩, ⟨(), 0, ⟨.last, worthAfter 4, 0, ()⟩, 4000000⟩] = worthAfter 9 := by
  have h : worthAfter 9 = worthAfter 2.5 * (worthAfter 2.5 * worthAfter 4) := by
    rw [← worthAfter_add, ← worthAfter_add]; norm_num
  rw [h]
  simp [earned, discountedReturn]

end ReturnExample
end PD.Props
