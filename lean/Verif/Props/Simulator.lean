/- C09-C15: properties of simulator histories. -/
import Verif.Lemmas.SimHistory
import Verif.Lemmas.Erase
import Verif.Lemmas.Witness

set_option linter.unusedSectionVars false
set_option linter.unusedSimpArgs false

namespace PD.Props
open PD PD.Spec
variable {K G O P Img : Type} [Field K] [LinearOrder K] [IsStrictOrderedRing K] [FloorRing K]

/-! ### C09 -/

/-- C09: whatever calls are made on a new simulator, every observation any of them returns shows
exactly one silicon, and that one lies in the safe area. -/
theorem C09_silicon_in_safe_area (cfg : SimCfg K G O P Img) (hl : cfg.rng.Lawful)
    (hrate : SwapRates cfg.rate) (g : G) (obs0 : List O)
    (ops : List (SimOp K O)) :
    ∀ o, some (.ok o) ∈ (Sim.run cfg (Sim.fresh g obs0) ops).1 →
      ∃ p, silicons o.grid = [p] ∧ InSafeArea p := by
  have hk : KeepsDoping cfg.rate := hrate.keepsDoping
  have key : ∀ (ops : List (SimOp K O)) (s : Sim K G O P), SimInv s →
      ∀ o, some (.ok o) ∈ (Sim.run cfg s ops).1 → ∃ p, silicons o.grid = [p] ∧ InSafeArea p := by
    intro ops
    induction ops with
    | nil => intro s _ o ho; simp [Sim.run] at ho
    | cons op ops ih =>
      intro s hs o ho
      simp only [Sim.run, List.mem_cons] at ho
      rcases ho with ho | ho
      · cases op with
        | reset b =>
          simp only [Sim.exec] at ho
          cases hr : Sim.reset cfg b s with
          | error e s' => simp [hr] at ho
          | ok o' s' =>
            simp only [hr, Option.some.injEq, Except.ok.injEq] at ho
            subst ho
            exact ⟨_, reset_view hl hr, centre_safe⟩
        | step cs b =>
          simp only [Sim.exec] at ho
          cases hr : Sim.step cfg cs b s with
          | error e s' => simp [hr] at ho
          | ok o' s' =>
            simp only [hr, Option.some.injEq, Except.ok.injEq] at ho
            subst ho
            obtain ⟨p, h1, h2, _⟩ := step_view hk hs hr
            exact ⟨p, h1, h2⟩
        | addObserver o => simp [Sim.exec] at ho
        | removeObserver i =>
          simp only [Sim.exec, Sim.removeObserver] at ho
          split_ifs at ho <;> simp at ho
      · exact ih _ (hs.exec hl hk op) o ho
  exact key ops _ (SimInv.fresh g obs0)

/-- C09: after a reset the silicon is at the centre of the image. -/
theorem C09_centred_by_reset (cfg : SimCfg K G O P Img) (hl : cfg.rng.Lawful) (b : Bool)
    (s s' : Sim K G O P) (o : Observation K Img) (h : Sim.reset cfg b s = .ok o s') :
    silicons o.grid = [⟨1 / 2, 1 / 2⟩] :=
  reset_view hl h

/-- C09: whatever happened before, when a step returns an observation with another field of view
than the last observation, the silicon is at the centre of the new image. -/
theorem C09_centred_by_move (cfg : SimCfg K G O P Img) (hl : cfg.rng.Lawful)
    (hrate : SwapRates cfg.rate) (g : G) (obs0 : List O)
    (ops : List (SimOp K O)) (o0 : Observation K Img)
    (hlast : lastObs (Sim.run cfg (Sim.fresh g obs0) ops).1 = some o0)
    (cs : List (BeamControl K)) (b : Bool) (o : Observation K Img) (s' : Sim K G O P)
    (h : Sim.step cfg cs b (Sim.run cfg (Sim.fresh g obs0) ops).2 = .ok o s')
    (hmoved : o.fov ≠ o0.fov) :
    silicons o.grid = [⟨1 / 2, 1 / 2⟩] := by
  have hk : KeepsDoping cfg.rate := hrate.keepsDoping
  have hinv := (SimInv.fresh (K := K) (P := P) g obs0).run hl hk (ops := ops)
  have hf := run_fov hl hk ops (SimInv.fresh (K := K) (P := P) g obs0)
  rw [hlast] at hf
  obtain ⟨p, h1, h2, h3 | h3⟩ := step_view hk hinv h
  · rw [hf] at h3
    exact absurd (by simpa using h3.1.symm) hmoved
  · rw [h1, h3.2.1]

/-! ### C10 -/

/-- C10: after a reset that returned, and as long as no other reset returns, every observation has
a square field of view with the side it had after the reset, which is between 15 and 30 Å. -/
theorem C10_fov_size_fixed (cfg : SimCfg K G O P Img) (hl : cfg.rng.Lawful)
    (hrate : SwapRates cfg.rate) (g : G) (obs0 : List O)
    (ops0 : List (SimOp K O)) (b : Bool) (o0 : Observation K Img) (s1 : Sim K G O P)
    (hreset : Sim.reset cfg b (Sim.run cfg (Sim.fresh g obs0) ops0).2 = .ok o0 s1)
    (ops : List (SimOp K O)) (hops : NoNewEpisode ops (Sim.run cfg s1 ops).1) :
    ∃ side : K, 15 ≤ side ∧ side ≤ 30 ∧ IsSquare o0.fov side ∧
      ∀ o, some (.ok o) ∈ (Sim.run cfg s1 ops).1 → IsSquare o.fov side := by
  have hk : KeepsDoping cfg.rate := hrate.keepsDoping
  have hinv := (SimInv.fresh (K := K) (P := P) g obs0).run hl hk (ops := ops0)
  have hinv1 := hinv.reset hl b
  rw [hreset] at hinv1
  obtain ⟨sheet, si, sc, hf⟩ := reset_ok hreset
  obtain ⟨c, sc', h1, h2, h3, h4⟩ := hinv1.square _ hf.fov
  rw [show (endState (EStateM.Result.ok (ε := Err) o0 s1)).fovScale = some sc from hf.scale] at h1
  cases h1
  refine ⟨sc, h3, h4, hf.ofov ▸ centredFov_square si sc, ?_⟩
  have key : ∀ (ops : List (SimOp K O)) (s : Sim K G O P), SimInv s → s.fovScale = some sc →
      NoNewEpisode ops (Sim.run cfg s ops).1 →
      ∀ o, some (.ok o) ∈ (Sim.run cfg s ops).1 → IsSquare o.fov sc := by
    intro ops
    induction ops with
    | nil => intro s _ _ _ o ho; simp [Sim.run] at ho
    | cons op ops ih =>
      intro s hs hsc hno o ho
      have hno1 : ∀ b o, (op, (Sim.exec cfg s op).1) ≠ (SimOp.reset b, some (Except.ok o)) := by
        intro b o h
        exact hno b o (by simp [Sim.run, h])
      have hno2 : NoNewEpisode ops (Sim.run cfg (Sim.exec cfg s op).2 ops).1 := by
        intro b o h
        exact hno b o (by simp [Sim.run, h])
      have hstep : (Sim.exec cfg s op).2.fovScale = some sc ∧
          ∀ o, (Sim.exec cfg s op).1 = some (.ok o) → IsSquare o.fov sc := by
        cases op with
        | reset b =>
          simp only [Sim.exec] at hno1 ⊢
          cases hr : Sim.reset cfg b s with
          | error e s' =>
            obtain ⟨_, _, rfl⟩ := reset_error hr
            simp [hsc]
          | ok o' s' =>
            rw [hr] at hno1
            exact absurd rfl (hno1 b o')
        | step cs b =>
          simp only [Sim.exec]
          cases hr : Sim.step cfg cs b s with
          | error e s' =>
            refine ⟨?_, by simp⟩
            by_cases hreset : s.hasBeenReset = true
            swap
            · simp only [Sim.step, hreset, Bool.false_eq_true, if_false,
                EStateM.Result.error.injEq] at hr
              rw [← hr.2]; exact hsc
            cases hfov : s.fov with
            | none =>
              simp only [Sim.step, hreset, if_true, hfov, EStateM.Result.error.injEq] at hr
              rw [← hr.2]; exact hsc
            | some fov =>
              obtain ⟨_, _, ⟨sheet, h5⟩, _⟩ := hs.sheet fov hfov
              cases step_end cfg cs b s fov sheet hreset hfov h5 with
              | ok o2 s2 hs2 => rw [hr] at hs2; cases hs2
              | failed e2 s2 hs2 n evs evs' sheet' applied imaging obs matFlag grid flag scale =>
                rw [hr] at hs2; cases hs2
                rw [scale, hsc]
          | ok o' s' =>
            obtain ⟨fov, sheet, c, sc', evs, evs', sheet', h5, h6, h7, h8, h9, _, _, _, _, _, _, h10,
              h11, _, _, _, h12⟩ := step_ok hs hr
            rw [hsc] at h8; cases h8
            refine ⟨h10, ?_⟩
            intro o2 ho2
            simp only [Option.some.injEq, Except.ok.injEq] at ho2
            subst ho2
            rcases h12 with ⟨_, h12, _⟩ | ⟨si, _, _, _, _, h12, _⟩
            · rw [h12, h9]; exact centredFov_square c sc
            · rw [h12]; exact centredFov_square si sc
        | addObserver o => simp [Sim.exec, Sim.addObserver, hsc]
        | removeObserver i =>
          simp only [Sim.exec, Sim.removeObserver]
          split_ifs <;> simp [hsc]
      simp only [Sim.run, List.mem_cons] at ho
      rcases ho with ho | ho
      · exact hstep.2 o ho.symm
      · exact ih _ (hs.exec hl hk op) hstep.1 hno2 o ho
  exact key ops s1 hinv1 hf.scale hops

/-! ### C11 -/

/-- C11: a reset reports one image duration. -/
theorem C11_reset_time (cfg : SimCfg K G O P Img) (b : Bool) (s s' : Sim K G O P)
    (o : Observation K Img) (h : Sim.reset cfg b s = .ok o s') : o.elapsedTime = cfg.imageDuration := by
  obtain ⟨_, _, _, hf⟩ := reset_ok h
  exact hf.oelapsed

/-- C11: whatever happened before, a step reports the dwell times of its controls and one image
duration, and a second image duration exactly when the field of view differs from that of the last
observation. -/
theorem C11_step_time (cfg : SimCfg K G O P Img) (hl : cfg.rng.Lawful)
    (hrate : SwapRates cfg.rate) (g : G) (obs0 : List O)
    (ops : List (SimOp K O)) (o0 : Observation K Img)
    (hlast : lastObs (Sim.run cfg (Sim.fresh g obs0) ops).1 = some o0)
    (cs : List (BeamControl K)) (b : Bool) (o : Observation K Img) (s' : Sim K G O P)
    (h : Sim.step cfg cs b (Sim.run cfg (Sim.fresh g obs0) ops).2 = .ok o s') :
    (o.fov = o0.fov →
      o.elapsedTime = (cs.map (·.dwellTime)).sum + cfg.imageDuration) ∧
    (o.fov ≠ o0.fov →
      o.elapsedTime = (cs.map (·.dwellTime)).sum + cfg.imageDuration + cfg.imageDuration) := by
  have hk : KeepsDoping cfg.rate := hrate.keepsDoping
  have hinv := (SimInv.fresh (K := K) (P := P) g obs0).run hl hk (ops := ops)
  have hf := run_fov hl hk ops (SimInv.fresh (K := K) (P := P) g obs0)
  rw [hlast] at hf
  obtain ⟨p, h1, h2, h3 | h3⟩ := step_view hk hinv h
  · rw [hf] at h3
    simp only [Option.map_some, Option.some_or, Option.some.injEq] at h3
    exact ⟨fun _ => h3.2, fun hne => absurd h3.1.symm hne⟩
  · rw [hf] at h3
    simp only [Option.map_some, Option.some_or, ne_eq, Option.some.injEq] at h3
    exact ⟨fun he => absurd he.symm h3.1, fun _ => h3.2.2⟩

/-! ### Logs of an event observer: C11, C12 -/

/-- What a call adds to the log of an event observer when it is not a reset that returned. -/
theorem exec_log (cfg : SimCfg K G (List (LogEvent K Img)) P Img) (hlog : cfg.handle = eventObserver)
    {s : Sim K G (List (LogEvent K Img)) P} (hs : SimInv s) {f : Fov K} (hf : s.fov = some f)
    (op : SimOp K (List (LogEvent K Img))) (hcall : SimOp.isCall op = true)
    (hno : ∀ b o, (op, (Sim.exec cfg s op).1) ≠ (SimOp.reset b, some (Except.ok o))) :
    ∃ add : List (LogEvent K Img),
      (Sim.exec cfg s op).2.ctx.obs = s.ctx.obs.map (· ++ add) ∧
      (∀ x ∈ add, LogEvent.isReset x = false) ∧
      (((add.filterMap LogEvent.grid?).getLast?).or s.ctx.mat.grid =
        (Sim.exec cfg s op).2.ctx.mat.grid) ∧
      (∀ calls l f', (Sim.exec cfg s op).2.fov = some f' → ControlRecord f' calls l →
        ControlRecord f ((op, (Sim.exec cfg s op).1) :: calls)
          (add.filterMap LogEvent.control? ++ l)) ∧
      (∀ o, (Sim.exec cfg s op).1 = some (.ok o) → logTime add = o.elapsedTime) := by
  cases op with
  | addObserver o => cases hcall
  | removeObserver i => cases hcall
  | reset b =>
    simp only [Sim.exec] at hno ⊢
    cases hr : Sim.reset cfg b s with
    | ok o' s' => rw [hr] at hno; exact absurd rfl (hno b o')
    | error e s' =>
      obtain ⟨_, _, rfl⟩ := reset_error hr
      refine ⟨[], by simp, by simp, by simp, ?_, by simp⟩
      intro calls l f' hf' h
      simp only [hf, Option.some.injEq] at hf'
      subst hf'
      exact .resetRaised h
  | step cs b =>
    obtain ⟨h1, h2, ⟨sheet, h3⟩, p, h4⟩ := hs.sheet f hf
    simp only [Sim.exec]
    cases step_end cfg cs b s f sheet h1 hf h3 with
    | failed e s' hr n evs evs' sheet' applied imaging obs matFlag grid =>
      rw [hr]
      obtain ⟨a1, a2, a3, a4, a5⟩ := applied_log applied
      obtain ⟨i1, i2, i3⟩ := toLog_imaging imaging
      refine ⟨(evs ++ evs').filterMap toLog, ?_, ?_, ?_, ?_, by simp⟩
      · rw [obs]
        apply List.map_congr_left
        intro l _
        rw [hlog, observeAll_log]
        intro x hx
        rcases List.mem_append.1 hx with hx | hx
        · exact a1 x hx
        · exact (imaging x hx).notReset
      · intro x hx
        rw [List.filterMap_append] at hx
        rcases List.mem_append.1 hx with hx | hx
        · exact a2 x hx
        · exact i1 x hx
      · simp only [List.filterMap_append, i2, List.append_nil, h3, grid]
        rw [← a3]
        cases (List.filterMap LogEvent.grid? (List.filterMap toLog evs)).getLast? <;> simp
      · intro calls l f' hf' h
        rw [step_error_fov hs hr, hf] at hf'
        cases hf'
        rw [List.filterMap_append, List.filterMap_append, i3, List.append_nil, a4, map_aim]
        exact .stepRaised n h
    | ok o s' hr evs evs' sheet' applied obs matFlag grid flag scale params sfov ocontrols oimage atoms moved =>
      rw [hr]
      obtain ⟨a1, a2, a3, a4, a5⟩ := applied_log applied
      have hstart : ∀ e ∈ ([.takeImage cfg.imageDuration f] ++ evs' ++
          (o.image.map Event.generatedImage).toList : List (Event K Img)), Imaging e := by
        intro e he
        simp only [List.mem_append, List.mem_singleton, Option.mem_toList, Option.map_eq_some_iff] at he
        rcases he with (rfl | he) | ⟨i, _, rfl⟩
        · trivial
        · rcases moved with ⟨_, _, rfl, _⟩ | ⟨_, _, _, _, _, _, _, _, rfl, _⟩
          · simp at he
          · simp at he
            rcases he with rfl | rfl <;> trivial
        · trivial
      obtain ⟨i1, i2, i3⟩ := toLog_imaging hstart
      refine ⟨(evs ++ ([Event.takeImage cfg.imageDuration f] ++ evs' ++
          (o.image.map Event.generatedImage).toList)).filterMap toLog, ?_, ?_, ?_, ?_, ?_⟩
      · rw [obs]
        apply List.map_congr_left
        intro l _
        rw [hlog, ← observeAll_log]
        · simp
        intro x hx
        rcases List.mem_append.1 hx with hx | hx
        · exact a1 x hx
        · exact (hstart x hx).notReset
      · intro x hx
        rw [List.filterMap_append] at hx
        rcases List.mem_append.1 hx with hx | hx
        · exact a2 x hx
        · exact i1 x hx
      · rw [List.filterMap_append, List.filterMap_append, i2, List.append_nil, h3, grid, ← a3]
        cases (List.filterMap LogEvent.grid? (List.filterMap toLog evs)).getLast? <;> simp
      · intro calls l f' hf' h
        rw [sfov] at hf'
        cases hf'
        rw [List.filterMap_append, List.filterMap_append, i3, List.append_nil, a4, map_aim]
        exact .step h
      · intro o2 ho2
        simp only [Option.some.injEq, Except.ok.injEq] at ho2
        subst ho2
        have himg : logTime (List.filterMap toLog
            ((o.image.map Event.generatedImage).toList : List (Event K Img))) = 0 := by
          cases o.image <;> simp [logTime, toLog, LogEvent.time]
        rw [List.filterMap_append, List.filterMap_append, List.filterMap_append, logTime_append,
          logTime_append, logTime_append, a5, himg, List.map_map]
        rcases moved with ⟨_, _, rfl, hel⟩ | ⟨_, _, _, _, _, _, _, _, rfl, hel⟩
        · rw [hel]
          simp [logTime, toLog, LogEvent.time, Function.comp_def]
        · rw [hel]
          have h2 : List.filterMap toLog ([.fovChange o.fov, .takeImage cfg.imageDuration o.fov] :
              List (Event K Img)) = [.takeImage cfg.imageDuration o.fov] := rfl
          rw [h2]
          simp [logTime, toLog, LogEvent.time, Function.comp_def]
          ring

theorem episode_log (cfg : SimCfg K G (List (LogEvent K Img)) P Img)
    (hlog : cfg.handle = eventObserver) (hl : cfg.rng.Lawful) (hk : KeepsDoping cfg.rate)
    (ops : List (SimOp K (List (LogEvent K Img)))) : ∀ (s : Sim K G (List (LogEvent K Img)) P) (f : Fov K),
    SimInv s → s.fov = some f → (∀ op ∈ ops, SimOp.isCall op = true) →
    NoNewEpisode ops (Sim.run cfg s ops).1 →
    ∃ add : List (LogEvent K Img),
      (Sim.run cfg s ops).2.ctx.obs = s.ctx.obs.map (· ++ add) ∧
      (∀ x ∈ add, LogEvent.isReset x = false) ∧
      (((add.filterMap LogEvent.grid?).getLast?).or s.ctx.mat.grid =
        (Sim.run cfg s ops).2.ctx.mat.grid) ∧
      ControlRecord f (ops.zip (Sim.run cfg s ops).1) (add.filterMap LogEvent.control?) ∧
      ((∀ r ∈ (Sim.run cfg s ops).1, ∃ o, r = some (.ok o)) →
        logTime add = reportedTime (Sim.run cfg s ops).1) := by
  induction ops with
  | nil =>
    intro s f hs hf _ _
    exact ⟨[], by simp [Sim.run], by simp, by simp [Sim.run], .nil f, by simp [Sim.run, logTime, reportedTime]⟩
  | cons op ops ih =>
    intro s f hs hf hcalls hno
    have hno1 : ∀ b o, (op, (Sim.exec cfg s op).1) ≠ (SimOp.reset b, some (Except.ok o)) := by
      intro b o h
      exact hno b o (by simp [Sim.run, h])
    have hno2 : NoNewEpisode ops (Sim.run cfg (Sim.exec cfg s op).2 ops).1 := by
      intro b o h
      exact hno b o (by simp [Sim.run, h])
    obtain ⟨add, h1, h2, h3, h4, h5⟩ := exec_log cfg hlog hs hf op (hcalls op (by simp)) hno1
    have hf' : ∃ f', (Sim.exec cfg s op).2.fov = some f' := by
      obtain ⟨e1, e2⟩ := exec_fov (cfg := cfg) hs op
      by_cases h : ∃ o, (Sim.exec cfg s op).1 = some (.ok o)
      · obtain ⟨o, ho⟩ := h
        exact ⟨_, e1 o ho⟩
      · exact ⟨f, by rw [e2 (fun o ho => h ⟨o, ho⟩), hf]⟩
    obtain ⟨f', hf'⟩ := hf'
    obtain ⟨add', i1, i2, i3, i4, i5⟩ := ih _ f' (hs.exec hl hk op) hf'
      (fun op h => hcalls op (by simp [h])) hno2
    refine ⟨add ++ add', ?_, ?_, ?_, ?_, ?_⟩
    · show (Sim.run cfg (Sim.exec cfg s op).2 ops).2.ctx.obs = _
      rw [i1, h1, List.map_map]
      apply List.map_congr_left
      intro l _
      simp
    · intro x hx
      rcases List.mem_append.1 hx with hx | hx
      · exact h2 x hx
      · exact i2 x hx
    · show _ = (Sim.run cfg (Sim.exec cfg s op).2 ops).2.ctx.mat.grid
      rw [← i3, ← h3, List.filterMap_append, List.getLast?_append, Option.or_assoc]
    · rw [List.filterMap_append]
      exact h4 _ _ f' hf' i4
    · intro hall
      have ha : ∃ o, (Sim.exec cfg s op).1 = some (.ok o) := hall _ (by simp [Sim.run])
      obtain ⟨o, ho⟩ := ha
      rw [logTime_append, h5 o ho, i5 (fun r hr => hall r (by simp [Sim.run, hr]))]
      simp [reportedTime, Sim.run, ho]

/-- After a reset that returned, the log of every attached event observer. -/
theorem reset_log (cfg : SimCfg K G (List (LogEvent K Img)) P Img)
    (hlog : cfg.handle = eventObserver) (b : Bool) (s s1 : Sim K G (List (LogEvent K Img)) P)
    (o0 : Observation K Img) (hreset : Sim.reset cfg b s = .ok o0 s1) :
    ∃ sheet add, s1.ctx.mat.grid = some sheet ∧ s1.fov = some o0.fov ∧
      s1.ctx.obs = s.ctx.obs.map (fun _ => .reset sheet o0.fov :: add) ∧
      (∀ x ∈ add, LogEvent.isReset x = false) ∧
      add.filterMap LogEvent.grid? = [] ∧ add.filterMap LogEvent.control? = [] ∧
      logTime add = o0.elapsedTime := by
  obtain ⟨sheet, si, sc, hf⟩ := reset_ok hreset
  refine ⟨sheet, .takeImage cfg.imageDuration o0.fov ::
    (o0.image.map LogEvent.generatedImage).toList, hf.grid, by rw [hf.fov, hf.ofov], ?_, ?_, ?_, ?_, ?_⟩
  · rw [hf.obs, hlog]
    apply List.map_congr_left
    intro l _
    cases o0.image <;> simp [observeAll, eventObserver]
  · cases o0.image <;> simp [LogEvent.isReset]
  · cases o0.image <;> simp [LogEvent.grid?]
  · cases o0.image <;> simp [LogEvent.control?]
  · rw [hf.oelapsed]
    cases o0.image <;> simp [logTime, LogEvent.time]

/-- C12: take any history of calls, then a reset that returned, then any further calls none of
which is a reset that returned.  The log of every event observer attached at the reset consists of
that reset, with the sheet and field of view of that time, and events that are not resets; replaying
its grids gives the current sheet; and the controls in it are those given since the reset, in order,
each aimed through the observation before it (from a step that raised, only the first few). -/
theorem C12_log_replays (cfg : SimCfg K G (List (LogEvent K Img)) P Img)
    (hlog : cfg.handle = eventObserver) (hl : cfg.rng.Lawful)
    (hrate : SwapRates cfg.rate) (g : G)
    (obs0 : List (List (LogEvent K Img))) (ops0 : List (SimOp K (List (LogEvent K Img)))) (b : Bool)
    (o0 : Observation K Img) (s1 : Sim K G (List (LogEvent K Img)) P)
    (hreset : Sim.reset cfg b (Sim.run cfg (Sim.fresh g obs0) ops0).2 = .ok o0 s1)
    (ops : List (SimOp K (List (LogEvent K Img)))) (hcalls : ∀ op ∈ ops, SimOp.isCall op = true)
    (hops : NoNewEpisode ops (Sim.run cfg s1 ops).1) :
    (Sim.run cfg s1 ops).2.ctx.obs.length =
      (Sim.run cfg (Sim.fresh g obs0) ops0 : _ × Sim K G _ P).2.ctx.obs.length ∧
    ∀ l ∈ (Sim.run cfg s1 ops).2.ctx.obs,
      (∃ sheet0 rest, s1.ctx.mat.grid = some sheet0 ∧ l = .reset sheet0 o0.fov :: rest ∧
        ∀ x ∈ rest, LogEvent.isReset x = false) ∧
      replay l = (Sim.run cfg s1 ops).2.ctx.mat.grid ∧
      ControlRecord o0.fov (ops.zip (Sim.run cfg s1 ops).1) (l.filterMap LogEvent.control?) := by
  have hk : KeepsDoping cfg.rate := hrate.keepsDoping
  have hinv := (SimInv.fresh (K := K) (P := P) g obs0).run hl hk (ops := ops0)
  have hinv1 := hinv.reset hl b
  rw [hreset] at hinv1
  obtain ⟨sheet, add0, r1, r2, r3, r4, r5, r6, r7⟩ := reset_log cfg hlog b _ s1 o0 hreset
  obtain ⟨add, h1, h2, h3, h4, _⟩ := episode_log cfg hlog hl hk ops s1 o0.fov hinv1 r2 hcalls hops
  refine ⟨by rw [h1, r3]; simp, ?_⟩
  intro l hm
  rw [h1, r3, List.map_map] at hm
  obtain ⟨_, _, rfl⟩ := List.mem_map.1 hm
  simp only [Function.comp_def, List.cons_append]
  refine ⟨⟨sheet, add0 ++ add, r1, rfl, ?_⟩, ?_, ?_⟩
  · intro x hx
    rcases List.mem_append.1 hx with hx | hx
    · exact r4 x hx
    · exact h2 x hx
  · rw [← h3, r1]
    simp only [replay, List.filterMap_cons, LogEvent.grid?, List.filterMap_append, r5, List.nil_append,
      List.getLast?_cons]
    cases (List.filterMap LogEvent.grid? add).getLast? <;> simp
  · simp only [List.filterMap_cons, LogEvent.control?, List.filterMap_append, r6, List.nil_append]
    exact h4

/-- C11: take any history of calls, then a reset that returned, then any calls of which all
returned and none is a reset.  The times reported by the observations since the reset add up to the
dwell times and image durations in the log of every event observer attached at the reset. -/
theorem C11_clocks_agree (cfg : SimCfg K G (List (LogEvent K Img)) P Img)
    (hlog : cfg.handle = eventObserver) (hl : cfg.rng.Lawful)
    (hrate : SwapRates cfg.rate) (g : G)
    (obs0 : List (List (LogEvent K Img))) (ops0 : List (SimOp K (List (LogEvent K Img)))) (b : Bool)
    (o0 : Observation K Img) (s1 : Sim K G (List (LogEvent K Img)) P)
    (hreset : Sim.reset cfg b (Sim.run cfg (Sim.fresh g obs0) ops0).2 = .ok o0 s1)
    (ops : List (SimOp K (List (LogEvent K Img)))) (hcalls : ∀ op ∈ ops, SimOp.isCall op = true)
    (hops : NoNewEpisode ops (Sim.run cfg s1 ops).1)
    (hret : ∀ r ∈ (Sim.run cfg s1 ops).1, ∃ o, r = some (.ok o)) :
    ∀ l ∈ (Sim.run cfg s1 ops).2.ctx.obs,
      logTime l = o0.elapsedTime + reportedTime (Sim.run cfg s1 ops).1 := by
  have hk : KeepsDoping cfg.rate := hrate.keepsDoping
  have hinv := (SimInv.fresh (K := K) (P := P) g obs0).run hl hk (ops := ops0)
  have hinv1 := hinv.reset hl b
  rw [hreset] at hinv1
  obtain ⟨sheet, add0, r1, r2, r3, r4, r5, r6, r7⟩ := reset_log cfg hlog b _ s1 o0 hreset
  obtain ⟨add, h1, _, _, _, h5⟩ := episode_log cfg hlog hl hk ops s1 o0.fov hinv1 r2 hcalls hops
  intro l hm
  rw [h1, r3, List.map_map] at hm
  obtain ⟨_, _, rfl⟩ := List.mem_map.1 hm
  simp only [Function.comp_def]
  rw [logTime_append, h5 hret, ← r7]
  simp [logTime, LogEvent.time]

/-! ### C13 -/

/-- C13: whatever happened before, a step that returns has applied its controls one after the
other, at the positions they denote in the field of view of the last observation and for their
dwell times; this is what observers are told, before anything about images; and the controls are
returned as given. -/
theorem C13_controls_aimed (cfg : SimCfg K G O P Img) (hl : cfg.rng.Lawful)
    (hrate : SwapRates cfg.rate) (g : G) (obs0 : List O)
    (ops : List (SimOp K O)) (o0 : Observation K Img)
    (hlast : lastObs (Sim.run cfg (Sim.fresh g obs0) ops).1 = some o0)
    (cs : List (BeamControl K)) (b : Bool) (o : Observation K Img) (s' : Sim K G O P)
    (h : Sim.step cfg cs b (Sim.run cfg (Sim.fresh g obs0) ops).2 = .ok o s') :
    o.controls = cs ∧
    ∃ sheet sheet' evs imgEvs,
      (Sim.run cfg (Sim.fresh g obs0) ops : _ × Sim K G O P).2.ctx.mat.grid = some sheet ∧
      s'.ctx.mat.grid = some sheet' ∧ Applied cfg.rate (aim o0.fov cs) sheet evs sheet' ∧
      (∀ e ∈ imgEvs, Imaging e) ∧
      s'.ctx.obs = (Sim.run cfg (Sim.fresh g obs0) ops : _ × Sim K G O P).2.ctx.obs.map
        (observeAll cfg.handle (evs ++ imgEvs)) := by
  have hk : KeepsDoping cfg.rate := hrate.keepsDoping
  have hinv := (SimInv.fresh (K := K) (P := P) g obs0).run hl hk (ops := ops)
  have hf := run_fov hl hk ops (SimInv.fresh (K := K) (P := P) g obs0)
  rw [hlast] at hf
  simp only [Option.map_some, Option.some_or] at hf
  obtain ⟨h1, h2, ⟨sheet, h3⟩, p, h4⟩ := hinv.sheet _ hf
  cases step_end cfg cs b _ o0.fov sheet h1 hf h3 with
  | failed e s2 hs2 => rw [h] at hs2; cases hs2
  | ok o2 s2 hs2 evs evs' sheet' applied obs matFlag grid flag scale params sfov ocontrols oimage atoms moved =>
    rw [h] at hs2
    cases hs2
    rw [map_aim] at applied
    refine ⟨ocontrols, sheet, sheet', evs, [.takeImage cfg.imageDuration o0.fov] ++ evs' ++
          (o.image.map Event.generatedImage).toList, h3, grid, applied, ?_, ?_⟩
    · intro e he
      simp only [List.mem_append, List.mem_singleton, Option.mem_toList, Option.map_eq_some_iff] at he
      rcases he with (rfl | he) | ⟨i, _, rfl⟩
      · trivial
      · rcases moved with ⟨_, _, rfl, _⟩ | ⟨_, _, _, _, _, _, _, _, rfl, _⟩
        · simp at he
        · simp at he
          rcases he with rfl | rfl <;> trivial
      · trivial
    · rw [obs]; simp [List.append_assoc]

/-! ### C14 -/

/-- C14: on a simulator on which reset was never called, whatever else was, `step_and_image` raises
RuntimeError and changes nothing. -/
theorem C14_simulator_before_reset (cfg : SimCfg K G O P Img) (g : G) (obs0 : List O)
    (ops : List (SimOp K O)) (hops : ∀ b, SimOp.reset b ∉ ops) (cs : List (BeamControl K)) (b : Bool) :
    Sim.step cfg cs b (Sim.run cfg (Sim.fresh g obs0) ops).2 =
      .error .runtimeError (Sim.run cfg (Sim.fresh g obs0) ops).2 := by
  have key : ∀ (ops : List (SimOp K O)) (s : Sim K G O P), (∀ b, SimOp.reset b ∉ ops) →
      s.hasBeenReset = false → (Sim.run cfg s ops).2.hasBeenReset = false := by
    intro ops
    induction ops with
    | nil => intro s _ h; exact h
    | cons op ops ih =>
      intro s hops h
      refine ih _ (fun b hb => hops b (by simp [hb])) ?_
      cases op with
      | reset b => exact absurd (by simp) (hops b)
      | step cs b => simp [Sim.exec, Sim.step, h]
      | addObserver o => simp [Sim.exec, Sim.addObserver, h]
      | removeObserver i =>
        simp only [Sim.exec, Sim.removeObserver]
        split_ifs <;> simp [h]
  have := key ops (Sim.fresh g obs0) hops rfl
  simp [Sim.step, this]

/-- C14: once reset has been called (whether or not it raised), whatever else is called before or
afterwards, `step_and_image` never raises RuntimeError. -/
theorem C14_simulator_after_reset (cfg : SimCfg K G O P Img)
    (hrate : ∀ g p, cfg.rate g p ≠ .error .runtimeError) (g : G) (obs0 : List O)
    (ops : List (SimOp K O)) (b0 : Bool) (hops : SimOp.reset b0 ∈ ops)
    (cs : List (BeamControl K)) (b : Bool) (s' : Sim K G O P) :
    Sim.step cfg cs b (Sim.run cfg (Sim.fresh g obs0) ops).2 ≠ .error .runtimeError s' := by
  have hctl : ∀ (f : Fov K) (cs : List (BeamControl K)) (el : Timedelta) (c : MatCtx K G O),
      c.mat.hasBeenReset = true →
      (∀ s'', applyControls cfg f cs el c ≠ .error .runtimeError s'') ∧
      (endState (applyControls cfg f cs el c)).mat.hasBeenReset = true := by
    intro f cs
    induction cs with
    | nil => intro el c hc; exact ⟨by simp [applyControls], hc⟩
    | cons ctl cs ih =>
      intro el c hc
      rw [applyControls]
      simp only
      obtain ⟨trs, ht⟩ := Props.applyControl_trace cfg.rng cfg.handle cfg.rate cfg.fuel
        (BeamControl.mk' (f.toMaterial ctl.position) ctl.dwellTime)
        ⟨c.g, c.mat, notify cfg.handle
          (.applyControl (BeamControl.mk' (f.toMaterial ctl.position) ctl.dwellTime)) c.obs⟩
      have hr2 := ht.reset
      cases ha : Material.applyControl cfg.rng cfg.handle cfg.rate cfg.fuel
          (BeamControl.mk' (f.toMaterial ctl.position) ctl.dwellTime)
          ⟨c.g, c.mat, notify cfg.handle
            (.applyControl (BeamControl.mk' (f.toMaterial ctl.position) ctl.dwellTime)) c.obs⟩ with
      | error e s2 =>
        rw [ha] at hr2
        refine ⟨?_, hr2.trans hc⟩
        intro s'' h
        simp only [EStateM.Result.error.injEq] at h
        obtain ⟨rfl, rfl⟩ := h
        refine applyControl_not_runtimeError cfg.rng cfg.handle cfg.rate hrate cfg.fuel _ _ ?_ _ ha
        exact hc
      | ok u s2 =>
        rw [ha] at hr2
        exact ih _ s2 (hr2.trans hc)
  have hobserve : ∀ (f : Fov K) (s : Sim K G O P), s.ctx.mat.hasBeenReset = true →
      (∀ s'', Sim.observe cfg f s ≠ .error .runtimeError s'') ∧
      (endState (Sim.observe cfg f s)).ctx.mat.hasBeenReset = true := by
    intro f s hs
    unfold Sim.observe
    cases hg : s.ctx.mat.getAtomsInBounds f.lowerLeft f.upperRight with
    | error e =>
      refine ⟨?_, hs⟩
      intro s'' h
      simp only [EStateM.Result.error.injEq] at h
      rw [h.1] at hg
      exact getAtomsInBounds_not_runtimeError hs _ _ hg
    | ok grid => exact ⟨by simp, hs⟩
  have hrec : ∀ (f : Fov K) (grid : Grid K) (el : Timedelta) (s : Sim K G O P),
      s.ctx.mat.hasBeenReset = true →
      (∀ s'', Sim.recentre cfg f grid el s ≠ .error .runtimeError s'') ∧
      (endState (Sim.recentre cfg f grid el s)).ctx.mat.hasBeenReset = true := by
    intro f grid el s hs
    unfold Sim.recentre
    cases ho : siliconOutsideOfSafeArea grid with
    | error e =>
      refine ⟨?_, hs⟩
      intro s'' h
      simp only [EStateM.Result.error.injEq] at h
      unfold siliconOutsideOfSafeArea at ho
      rw [h.1] at ho
      split at ho <;> cases ho
    | ok b =>
      cases b with
      | false => exact ⟨by simp, hs⟩
      | true =>
        simp only
        cases hp : s.ctx.mat.getSiliconPosition with
        | error e =>
          refine ⟨?_, hs⟩
          intro s'' h
          simp only [EStateM.Result.error.injEq] at h
          rw [h.1] at hp
          exact getSiliconPosition_not_runtimeError hs hp
        | ok si =>
          simp only
          cases hsc : s.fovScale with
          | none => exact ⟨by simp, hs⟩
          | some sc =>
            simp only
            obtain ⟨h1, h2⟩ := hobserve (centredFov si sc) ⟨⟨s.ctx.g, s.ctx.mat, notify cfg.handle
              (.fovChange (centredFov si sc)) s.ctx.obs⟩, s.hasBeenReset, some sc,
              some (centredFov si sc), s.imageParams⟩ hs
            cases hob : Sim.observe cfg (centredFov si sc) ⟨⟨s.ctx.g, s.ctx.mat, notify cfg.handle
              (.fovChange (centredFov si sc)) s.ctx.obs⟩, s.hasBeenReset, some sc,
              some (centredFov si sc), s.imageParams⟩ with
            | error e s2 =>
              rw [hob] at h1 h2
              refine ⟨?_, h2⟩
              intro s'' h
              simp only [EStateM.Result.error.injEq] at h
              exact h1 s2 (by rw [h.1])
            | ok g s2 => rw [hob] at h2; exact ⟨by simp, h2⟩
  have himg : ∀ (b : Bool) (f : Fov K) (grid : Grid K) (s : Sim K G O P),
      s.ctx.mat.hasBeenReset = true →
      (∀ s'', Sim.maybeImage cfg b grid f s ≠ .error .runtimeError s'') ∧
      (endState (Sim.maybeImage cfg b grid f s)).ctx.mat.hasBeenReset = true := by
    intro b f grid s hs
    unfold Sim.maybeImage
    cases b with
    | false => exact ⟨by simp, hs⟩
    | true => cases s.imageParams <;> exact ⟨by simp, hs⟩
  have hstep : ∀ (cs : List (BeamControl K)) (b : Bool) (s : Sim K G O P),
      s.hasBeenReset = true → s.ctx.mat.hasBeenReset = true →
      (∀ s'', Sim.step cfg cs b s ≠ .error .runtimeError s'') ∧
      (endState (Sim.step cfg cs b s)).ctx.mat.hasBeenReset = true := by
    intro cs b s h1 h2
    cases hf : s.fov with
    | none => simp only [Sim.step, h1, hf, if_true]; exact ⟨by simp, h2⟩
    | some f =>
      rw [step_eq h1 hf]
      obtain ⟨c1, c2⟩ := hctl f cs 0 s.ctx h2
      cases hc : applyControls cfg f cs 0 s.ctx with
      | error e c =>
        rw [hc] at c1 c2
        exact ⟨fun s'' h => by
          simp only [EStateM.Result.error.injEq] at h
          exact c1 c (by rw [h.1]), c2⟩
      | ok el c =>
        rw [hc] at c2
        simp only
        obtain ⟨o1, o2⟩ := hobserve f { s with ctx := c } c2
        cases ho : Sim.observe cfg f { s with ctx := c } with
        | error e s1 =>
          rw [ho] at o1 o2
          exact ⟨fun s'' h => by
            simp only [EStateM.Result.error.injEq] at h
            exact o1 s1 (by rw [h.1]), o2⟩
        | ok grid s1 =>
          rw [ho] at o2
          simp only
          obtain ⟨r1, r2⟩ := hrec f grid (el + cfg.imageDuration) s1 o2
          cases hr : Sim.recentre cfg f grid (el + cfg.imageDuration) s1 with
          | error e s2 =>
            rw [hr] at r1 r2
            exact ⟨fun s'' h => by
              simp only [EStateM.Result.error.injEq] at h
              exact r1 s2 (by rw [h.1]), r2⟩
          | ok r s2 =>
            obtain ⟨grid', f', el'⟩ := r
            rw [hr] at r2
            simp only
            obtain ⟨i1, i2⟩ := himg b f' grid' s2 r2
            cases hi : Sim.maybeImage cfg b grid' f' s2 with
            | error e s3 =>
              rw [hi] at i1 i2
              exact ⟨fun s'' h => by
                simp only [EStateM.Result.error.injEq] at h
                exact i1 s3 (by rw [h.1]), i2⟩
            | ok img s3 => rw [hi] at i2; exact ⟨by simp, i2⟩
  have hflag : ∀ (cs : List (BeamControl K)) (b : Bool) (s : Sim K G O P),
      (endState (Sim.step cfg cs b s)).hasBeenReset = s.hasBeenReset := by
    intro cs b s
    by_cases h1 : s.hasBeenReset = true
    swap
    · simp [Sim.step, h1, endState]
    have ho : ∀ f (s : Sim K G O P), (endState (Sim.observe cfg f s)).hasBeenReset = s.hasBeenReset := by
      intro f s
      unfold Sim.observe
      cases s.ctx.mat.getAtomsInBounds f.lowerLeft f.upperRight <;> rfl
    have hi : ∀ (b : Bool) f grid (s : Sim K G O P),
        (endState (Sim.maybeImage cfg b grid f s)).hasBeenReset = s.hasBeenReset := by
      intro b f grid s
      unfold Sim.maybeImage
      cases b
      · rfl
      · cases s.imageParams <;> rfl
    cases hf : s.fov with
    | none => simp [Sim.step, h1, hf, endState]
    | some f =>
      rw [step_eq h1 hf]
      cases applyControls cfg f cs 0 s.ctx with
      | error e c => rfl
      | ok el c =>
        simp only
        have ho1 := ho f { s with ctx := c }
        cases ho2 : Sim.observe cfg f { s with ctx := c } with
        | error e s1 => rw [ho2] at ho1; exact ho1
        | ok grid s1 =>
          rw [ho2] at ho1
          simp only
          cases recentre_end cfg f grid (el + cfg.imageDuration) s1 with
          | failed e s2 evs hr img => simp only [hr]; exact img.flag.trans ho1
          | kept hr _ =>
            simp only [hr]
            have hi1 := hi b f grid s1
            cases hi2 : Sim.maybeImage cfg b grid f s1 <;> rw [hi2] at hi1 <;> exact hi1.trans ho1
          | moved grid' si sc s2 hr _ _ _ _ img =>
            simp only [hr]
            have hi1 := hi b (centredFov si sc) grid' s2
            cases hi2 : Sim.maybeImage cfg b grid' (centredFov si sc) s2 <;> rw [hi2] at hi1 <;>
              exact hi1.trans (img.flag.trans ho1)
  have hafter : ∀ (b : Bool) (s : Sim K G O P), (endState (Sim.reset cfg b s)).hasBeenReset = true ∧
      (endState (Sim.reset cfg b s)).ctx.mat.hasBeenReset = true := by
    intro b s
    cases hr : Sim.reset cfg b s with
    | error e s' => obtain ⟨_, _, rfl⟩ := reset_error hr; exact ⟨rfl, rfl⟩
    | ok o s' => obtain ⟨_, _, _, hf⟩ := reset_ok hr; exact ⟨hf.flag, hf.matFlag⟩
  have hexec : ∀ (op : SimOp K O) (s : Sim K G O P),
      s.hasBeenReset = true ∧ s.ctx.mat.hasBeenReset = true →
      (Sim.exec cfg s op).2.hasBeenReset = true ∧ (Sim.exec cfg s op).2.ctx.mat.hasBeenReset = true := by
    intro op s h
    cases op with
    | reset b =>
      have := hafter b s
      simp only [Sim.exec]
      cases hr : Sim.reset cfg b s <;> rw [hr] at this <;> exact this
    | step cs b =>
      have h1 := hflag cs b s
      have h2 := (hstep cs b s h.1 h.2).2
      simp only [Sim.exec]
      cases hr : Sim.step cfg cs b s <;> rw [hr] at h1 h2 <;> exact ⟨h1.trans h.1, h2⟩
    | addObserver o => exact h
    | removeObserver i =>
      simp only [Sim.exec, Sim.removeObserver]
      split_ifs <;> exact h
  have hrun1 : ∀ (ops : List (SimOp K O)) (s : Sim K G O P),
      s.hasBeenReset = true ∧ s.ctx.mat.hasBeenReset = true →
      (Sim.run cfg s ops).2.hasBeenReset = true ∧ (Sim.run cfg s ops).2.ctx.mat.hasBeenReset = true := by
    intro ops
    induction ops with
    | nil => intro s h; exact h
    | cons op ops ih => intro s h; exact ih _ (hexec op s h)
  have hrun : ∀ (ops : List (SimOp K O)) (s : Sim K G O P), SimOp.reset b0 ∈ ops →
      (Sim.run cfg s ops).2.hasBeenReset = true ∧ (Sim.run cfg s ops).2.ctx.mat.hasBeenReset = true := by
    intro ops
    induction ops with
    | nil => intro s h; simp at h
    | cons op ops ih =>
      intro s h
      rcases List.mem_cons.1 h with rfl | h
      · refine hrun1 ops (Sim.exec cfg s (.reset b0)).2 ?_
        have := hafter b0 s
        simp only [Sim.exec]
        cases hr : Sim.reset cfg b0 s <;> rw [hr] at this <;> exact this
      · exact ih _ h
  obtain ⟨h1, h2⟩ := hrun ops (Sim.fresh g obs0) hops
  exact (hstep cs b _ h1 h2).1 s'

/-! ### C15 -/

theorem exec_unobserved (cfg : SimCfg K G O P Img) (s : Sim K G O P) (op : SimOp K O) :
    match (SimOp.call? op : Option (SimOp K Unit)) with
    | some op' => Sim.exec cfg.unobserved s.unobserved op' =
        ((Sim.exec cfg s op).1, (Sim.exec cfg s op).2.unobserved)
    | none => (Sim.exec cfg s op).1 = none ∧ (Sim.exec cfg s op).2.unobserved = s.unobserved := by
  cases op with
  | reset b =>
    simp only [SimOp.call?, Sim.exec, ← reset_unobserved]
    cases Sim.reset cfg b s <;> rfl
  | step cs b =>
    simp only [SimOp.call?, Sim.exec, ← step_unobserved]
    cases Sim.step cfg cs b s <;> rfl
  | addObserver o => exact ⟨rfl, rfl⟩
  | removeObserver i =>
    simp only [SimOp.call?, Sim.exec, Sim.removeObserver]
    split_ifs <;> exact ⟨rfl, rfl⟩

theorem run_unobserved (cfg : SimCfg K G O P Img) (ops : List (SimOp K O)) : ∀ s : Sim K G O P,
    Sim.run cfg.unobserved s.unobserved (ops.filterMap SimOp.call?) =
      ((Sim.run cfg s ops).1.filter Option.isSome, (Sim.run cfg s ops).2.unobserved) := by
  induction ops with
  | nil => intro s; rfl
  | cons op ops ih =>
    intro s
    have h := exec_unobserved cfg s op
    have hsome : ∀ op' : SimOp K Unit, SimOp.call? op = some op' → (Sim.exec cfg s op).1.isSome := by
      intro op' h'
      cases op with
      | reset b => simp only [Sim.exec]; cases Sim.reset cfg b s <;> rfl
      | step cs b => simp only [Sim.exec]; cases Sim.step cfg cs b s <;> rfl
      | addObserver o => cases h'
      | removeObserver i => cases h'
    rw [List.filterMap_cons]
    cases hc : (SimOp.call? op : Option (SimOp K Unit)) with
    | none =>
      rw [hc] at h
      simp only [Sim.run, h.1, List.filter_cons, Option.isSome_none, Bool.false_eq_true, if_false]
      rw [← h.2]
      exact ih _
    | some op' =>
      rw [hc] at h
      simp only [Sim.run, h, ih, List.filter_cons, hsome op' hc, if_true]

/-- C15: let two simulators have the same collaborators except for their observers, of which there
may be any kind and number, and let the same resets and steps be called on both, with observers
added and removed at any point in between.  Then the calls return (or raise) the same, and the two
end in the same state, in the same random state, up to the observers. -/
theorem C15_observers_do_not_interfere {O' : Type} (cfg : SimCfg K G O P Img)
    (handle' : Event K Img → O' → O') (g : G) (obs : List O) (obs' : List O')
    (ops : List (SimOp K O)) (ops' : List (SimOp K O'))
    (hops : ops.filterMap SimOp.call? = (ops'.filterMap SimOp.call? : List (SimOp K Unit))) :
    let cfg' : SimCfg K G O' P Img := ⟨cfg.rng, handle', cfg.rate, cfg.generate, cfg.fuel,
      cfg.imageDuration, cfg.sampleParams, cfg.render⟩
    let r := Sim.run cfg (Sim.fresh g obs : Sim K G O P) ops
    let r' := Sim.run cfg' (Sim.fresh g obs' : Sim K G O' P) ops'
    r.1.filter Option.isSome = r'.1.filter Option.isSome ∧
    r.2.ctx.g = r'.2.ctx.g ∧ r.2.ctx.mat = r'.2.ctx.mat ∧ r.2.hasBeenReset = r'.2.hasBeenReset ∧
    r.2.fovScale = r'.2.fovScale ∧ r.2.fov = r'.2.fov ∧ r.2.imageParams = r'.2.imageParams := by
  intro cfg' r r'
  have h1 := run_unobserved cfg ops (Sim.fresh g obs)
  have h2 := run_unobserved cfg' ops' (Sim.fresh g obs')
  have hc : cfg.unobserved = cfg'.unobserved := rfl
  have hs : (Sim.fresh g obs : Sim K G O P).unobserved = (Sim.fresh g obs' : Sim K G O' P).unobserved := rfl
  rw [hc, hs, hops, h2] at h1
  have e1 := congrArg Prod.fst h1
  have e2 := congrArg Prod.snd h1
  simp only at e1 e2
  refine ⟨e1.symm, ?_⟩
  have f1 := congrArg (fun s : Sim K G Unit P => s.ctx.g) e2
  have f2 := congrArg (fun s : Sim K G Unit P => s.ctx.mat) e2
  have f3 := congrArg (fun s : Sim K G Unit P => s.hasBeenReset) e2
  have f4 := congrArg (fun s : Sim K G Unit P => s.fovScale) e2
  have f5 := congrArg (fun s : Sim K G Unit P => s.fov) e2
  have f6 := congrArg (fun s : Sim K G Unit P => s.imageParams) e2
  exact ⟨f1.symm, f2.symm, f3.symm, f4.symm, f5.symm, f6.symm⟩

/-- Detaching the `i`-th observer keeps the others in order and nothing else changes; without an `i`-th observer it
raises `ValueError` and nothing at all changes; attaching appends, so attaching and detaching again changes nothing. -/
theorem C15_detaching (s : Sim K G O P) (i : ℕ) (o : O) :
    (i < s.ctx.obs.length → ∃ obs', Sim.removeObserver i s = .ok () { s with ctx := { s.ctx with obs := obs' } } ∧
      ∀ j, obs'[j]? = if j < i then s.ctx.obs[j]? else s.ctx.obs[j + 1]?) ∧
    (s.ctx.obs.length ≤ i → Sim.removeObserver i s = .error .valueError s) ∧
    (s.addObserver o).ctx.obs = s.ctx.obs ++ [o] ∧
    Sim.removeObserver s.ctx.obs.length (s.addObserver o) = .ok () s := by
  refine ⟨fun h => ⟨s.ctx.obs.eraseIdx i, by simp [Sim.removeObserver, h], fun j => ?_⟩,
    fun h => by simp [Sim.removeObserver, h], rfl, ?_⟩
  · rw [List.getElem?_eraseIdx]
  · obtain ⟨⟨g, m, obs⟩, hb, sc, fv, ip⟩ := s
    simp [Sim.removeObserver, Sim.addObserver, List.eraseIdx_append_of_length_le]

/-! ### Examples -/

namespace SimExample
open Witness

/-- Five atoms, 10 Å apart. -/
def wide : List (V2 ℚ) := [⟨0, 0⟩, ⟨10, 0⟩, ⟨0, 10⟩, ⟨-10, 0⟩, ⟨0, -20⟩]

/-- A transition every second, images of two seconds. -/
def cfg : SimCfg ℚ Unit (List (LogEvent ℚ Unit)) Unit Unit :=
  ⟨rng 1, eventObserver, pristineRates knn canon, fun _ => (wide, ()), 5, 2000000, fun _ => ((), ()),
    fun _ _ _ _ => ((), ())⟩

/-- One control of 1.5 s at the centre of the image. -/
def shoot : SimOp ℚ (List (LogEvent ℚ Unit)) := .step [BeamControl.mk' ⟨1 / 2, 1 / 2⟩ 1500000] false

/-- No time to do anything. -/
def wait : SimOp ℚ (List (LogEvent ℚ Unit)) := .step [] true

def summary (rs : List (Option (Except Err (Observation ℚ Unit)))) :
    List (Option (ℚ × ℚ × List (V2 ℚ) × Timedelta)) :=
  rs.map (fun r => match r with
    | some (.ok o) => some (o.fov.lowerLeft.x, o.fov.width, silicons o.grid, o.elapsedTime)
    | _ => none)

/-- A new simulator with one event observer. -/
def start : Sim ℚ Unit (List (LogEvent ℚ Unit)) Unit := Sim.fresh () [[]]

/-- The generator is lawful and the rate function is the pristine one. -/
example : cfg.rng.Lawful ∧ SwapRates cfg.rate ∧ (∀ g p, cfg.rate g p ≠ .error .runtimeError) ∧
    cfg.handle = eventObserver :=
  ⟨rng_lawful (by norm_num), C39_pristine_swaps knn canon,
    pristineRates_noRuntimeError knn canon (by simp [canon]), rfl⟩

/-- A step before reset raises; after a reset the silicon jumps by 10 Å out of the safe area, the
field of view follows and a second image is taken; then nothing happens. -/
example : summary (Sim.run cfg start [shoot, .reset false, shoot, wait]).1 =
    [none, some (-45 / 4, 45 / 2, [⟨1 / 2, 1 / 2⟩], 2000000),
      some (-5 / 4, 45 / 2, [⟨1 / 2, 1 / 2⟩], 5500000),
      some (-5 / 4, 45 / 2, [⟨1 / 2, 1 / 2⟩], 2000000)] := by
  decide +kernel

/-- The log of the observer after that history: kinds and times, and controls. -/
example : (Sim.run cfg start [shoot, .reset false, shoot, wait]).2.ctx.obs.map
      (fun l => l.map (fun e => (LogEvent.isReset e, LogEvent.time e))) =
    [[(true, 0), (false, 2000000), (false, 1500000), (false, 0), (false, 2000000), (false, 2000000),
      (false, 2000000), (false, 0)]] ∧
    (Sim.run cfg start [shoot, .reset false, shoot, wait]).2.ctx.obs.map
      (fun l => l.filterMap LogEvent.control?) = [[(⟨0, 0⟩, 1500000)]] := by
  decide +kernel

/-- The hypotheses of C10, C11 and C12 hold of that history. -/
example : ∃ o0 s1, Sim.reset cfg false (Sim.run cfg start [shoot]).2 = .ok o0 s1 ∧
    (∀ op ∈ [shoot, wait], SimOp.isCall op = true) ∧
    NoNewEpisode [shoot, wait] (Sim.run cfg s1 [shoot, wait]).1 ∧
    (∀ r ∈ (Sim.run cfg s1 [shoot, wait]).1, ∃ o, r = some (.ok o)) ∧
    s1.ctx.obs.length = 1 := by
  cases h : Sim.reset cfg false (Sim.run cfg start [shoot]).2 with
  | error e s => exact absurd (reset_error h).1 (by simp [cfg, wide])
  | ok o0 s1 =>
    refine ⟨o0, s1, rfl, by simp [shoot, wait, SimOp.isCall], ?_, ?_, ?_⟩
    · intro b o hm
      have := (List.of_mem_zip hm).1
      simp [shoot, wait] at this
    · have hb : ∀ x : EStateM.Result Err (Sim ℚ Unit (List (LogEvent ℚ Unit)) Unit) (Observation ℚ Unit),
          x = Sim.reset cfg false (Sim.run cfg start [shoot]).2 →
          (match x with
            | .ok _ s1 => (Sim.run cfg s1 [shoot, wait]).1.all (fun r => match r with
              | some (.ok _) => true
              | _ => false)
            | .error _ _ => false) = true := by
        intro x hx
        subst hx
        decide +kernel
      have hb' := hb _ h.symm
      simp only [List.all_eq_true] at hb'
      intro r hr
      have := hb' r hr
      match r, this with
      | some (.ok o), _ => exact ⟨o, rfl⟩
    · obtain ⟨sheet, si, sc, hf⟩ := reset_ok h
      rw [hf.obs]
      simp [start, Sim.run, Sim.exec, shoot, Sim.step, Sim.fresh]

end SimExample

end PD.Props
