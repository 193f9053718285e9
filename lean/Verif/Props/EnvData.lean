/- Property C135: what agents do in an environment can be trained on. -/
import Verif.Spec.EnvData
import Verif.Props.Middle
import Verif.Props.StackData
import Verif.Props.EnsembleTraining

set_option linter.unusedSectionVars false
set_option linter.unusedSimpArgs false

namespace PD.Props
open PD PD.Spec
variable {G O P Img F : Type}

/-! ### What stays true of the simulator in an environment -/

theorem envReset_inv {cfg : EnvCfg ℝ G O P Img F} (hl : cfg.sim.rng.Lawful) {s : Env ℝ G O P Img} (h : SimInv s.sim) :
    SimInv (endState (Env.reset cfg s)).sim := by
  have h1 := h.reset (cfg := cfg.sim) hl cfg.requiresImage
  unfold Env.reset
  dsimp only
  cases hr : Sim.reset cfg.sim cfg.requiresImage s.sim with
  | error e sim => rw [hr] at h1; exact h1
  | ok o sim =>
    rw [hr] at h1
    simp only [endState] at h1
    have h2 : ∀ s2 : Env ℝ G O P Img, SimInv s2.sim → SimInv (Env.resetAdapter cfg s2).sim := by
      intro s2 h
      unfold Env.resetAdapter
      cases s2.adapterRng with
      | some ga => exact h
      | none => exact SimInv.reseed h _
    have h3 := h2 ⟨sim, s.adapterRng, s.beam, s.goal, o, false⟩ h1
    dsimp only
    cases GoalState.reset cfg.sim.rng (Env.resetAdapter cfg ⟨sim, s.adapterRng, s.beam, s.goal, o, false⟩).last
        (Env.resetAdapter cfg ⟨sim, s.adapterRng, s.beam, s.goal, o, false⟩).goal
        (Env.resetAdapter cfg ⟨sim, s.adapterRng, s.beam, s.goal, o, false⟩).sim.ctx.g with
    | error e => exact h3
    | ok gg =>
      dsimp only
      cases cfg.features _ _ with
      | error e => exact SimInv.reseed h3 _
      | ok f => exact SimInv.reseed h3 _

theorem envStep_inv {cfg : EnvCfg ℝ G O P Img F} (hl : cfg.sim.rng.Lawful) (hk : KeepsDoping cfg.sim.rate)
    {s : Env ℝ G O P Img} (h : SimInv s.sim) (a : List ℝ) : SimInv (endState (Env.step cfg a s)).sim := by
  unfold Env.step
  split_ifs
  · exact envReset_inv hl h
  cases cfg.adapter.getAction s.last a s.beam with
  | error e beam => exact h
  | ok cs beam =>
    have h1 := h.step (cfg := cfg.sim) hk cs cfg.requiresImage
    dsimp only
    cases hr : Sim.step cfg.sim cs cfg.requiresImage s.sim with
    | error e sim => rw [hr] at h1; exact h1
    | ok o sim =>
      rw [hr] at h1
      dsimp only
      cases cfg.features _ _ with
      | error e => exact h1
      | ok f =>
        dsimp only
        cases GoalState.calculate o s.goal with
        | error e goal => exact h1
        | ok r goal => dsimp only; split_ifs <;> exact h1

theorem envAfter_inv {cfg : EnvCfg ℝ G O P Img F} (hl : cfg.sim.rng.Lawful) (hk : KeepsDoping cfg.sim.rate)
    (ops : List (EnvOp ℝ O)) {s : Env ℝ G O P Img} (h : SimInv s.sim) : SimInv (Env.after cfg s ops).sim := by
  induction ops generalizing s with
  | nil => exact h
  | cons op ops ih =>
    refine ih ?_
    cases op with
    | reset =>
      have := envReset_inv hl h (cfg := cfg)
      simp only [Env.exec]
      cases hs : Env.reset cfg s <;> rw [hs] at this <;> exact this
    | step a =>
      have := envStep_inv hl hk h a (cfg := cfg)
      simp only [Env.exec]
      cases hs : Env.step cfg a s <;> rw [hs] at this <;> exact this
    | seed z => exact SimInv.reseed h _
    | addObserver o => exact ⟨h.doped, h.square, h.sheet⟩
    | removeObserver i =>
      simp only [Env.exec, Sim.removeObserver]
      split_ifs
      · exact ⟨h.doped, h.square, h.sheet⟩
      · exact h

/-! ### The controls of adapters -/

theorem adapter_beam {K : Type} [Field K] [LinearOrder K] [FloorRing K] {a : Adapter K} {o : Observation K Img}
    {act : List K} {beam beam' : V2 K} {cs : List (BeamControl K)} (h : a.getAction o act beam = .ok cs beam') :
    ∀ c ∈ cs, c.voltageKv = some 60 ∧ c.currentNa = some (1 / 10) := by
  have key : ∀ (p : V2 K) (d : Timedelta), ∀ c ∈ [BeamControl.mk' p d],
      c.voltageKv = some 60 ∧ c.currentNa = some (1 / 10) := by
    intro p d c hc
    simp only [List.mem_singleton] at hc
    subst hc
    exact ⟨rfl, rfl⟩
  unfold Adapter.getAction at h
  dsimp only at h
  repeat' split at h
  all_goals first
    | (cases h; done)
    | (simp only [EStateM.Result.ok.injEq] at h; obtain ⟨rfl, _⟩ := h; exact key _ _)

/-- A step within an episode leads to an observation that lists exactly one control: in view, with a dwell time
in the adapter's range, at 60 kV and 0.1 nA. -/
theorem C135_controls (cfg : EnvCfg ℝ G O P Img F) (hd : (dwellRange cfg.adapter).1 ≤ (dwellRange cfg.adapter).2)
    (s s' : Env ℝ G O P Img) (hs : s.requiresReset = false) (action : List ℝ) (t : TimeStep F)
    (h : Env.step cfg action s = .ok t s') :
    ∃ c, s'.last.controls = [c] ∧ InUnit c.position ∧
      (dwellRange cfg.adapter).1 ≤ c.dwellTime ∧ c.dwellTime ≤ (dwellRange cfg.adapter).2 ∧
      UsualBeam c.voltageKv c.currentNa := by
  cases envStep_end cfg action s hs with
  | failed e s1 h1 => rw [h] at h1; cases h1
  | ok t1 s1 h1 cs beam hcs hsim =>
    rw [h] at h1
    cases h1
    obtain ⟨c, rfl, hpos, hlo, hhi⟩ := C24_one_control_in_view cfg.adapter hd s.last action s.beam beam cs hcs
    exact ⟨c, simStep_controls hsim, hpos, hlo, hhi, adapter_beam hcs c (by simp)⟩

/-! ### From episodes to data points -/

theorem acted_recorded {cfg : EnvCfg ℝ G O P Img F} (hd : (dwellRange cfg.adapter).1 ≤ (dwellRange cfg.adapter).2)
    {s : Env ℝ G O P Img} {l : List (BeamControl ℝ × Grid ℝ × Observation ℝ Img)} (h : Acted cfg s l) :
    Recorded cfg.sim s.sim l ∧ ∀ e ∈ l, InUnit e.1.position ∧
      (dwellRange cfg.adapter).1 ≤ e.1.dwellTime ∧ e.1.dwellTime ≤ (dwellRange cfg.adapter).2 ∧
      UsualBeam e.1.voltageKv e.1.currentNa := by
  induction h with
  | done s => exact ⟨.done _, by simp⟩
  | @act s s' t c sheet rest a hs h hc hg hr ih =>
    obtain ⟨c', hc', hp⟩ := C135_controls cfg hd s s' hs a t h
    rw [hc] at hc'
    cases hc'
    refine ⟨?_, ?_⟩
    · cases envStep_end cfg a s hs with
      | failed e s1 h1 => rw [h] at h1; cases h1
      | ok t1 s1 h1 cs beam hcs hsim =>
        rw [h] at h1
        cases h1
        have := simStep_controls hsim
        rw [hc] at this
        subst this
        exact .step _ hsim hg ih.1
    · intro e he
      rcases List.mem_cons.1 he with rfl | he
      · exact hp
      · exact ih.2 e he

theorem yields_usual {Q : BeamControl ℝ → Prop} {sheet : Grid ℝ} {f : Fov ℝ}
    {l : List (BeamControl ℝ × Grid ℝ × Observation ℝ Img)} {data : List DataPoint} (h : Yields sheet f l data)
    (hq : ∀ e ∈ l, Q e.1) : ∀ d ∈ data, d.nextState ≤ 3 ∧ ∃ c, Q c ∧
      d.secondsBetween = (c.dwellTime : ℝ) / 1000000 ∧ d.current = c.currentNa ∧ d.voltage = c.voltageKv := by
  induction h with
  | nil => simp
  | @kept sheet f c sheet' o rest si si' nbrs d ds hsi hsi' hn near tells hr ih =>
    intro x hx
    rcases List.mem_cons.1 hx with rfl | hx
    · obtain ⟨h1, h2, h3, q, hqn, _, _, θ, _, hstate⟩ := tells
      refine ⟨?_, c, hq (c, sheet', o) List.mem_cons_self, h1, h2, h3⟩
      rcases hstate with ⟨_, h0⟩ | ⟨hmem, h0⟩
      · omega
      · have : (nbrs.filter (fun p => decide (θ p < θ si'))).length < nbrs.length := by
          refine List.length_filter_lt_length_iff_exists.2 ⟨si', hmem, by simp⟩
        have := hn.three
        omega
    · exact ih (fun e he => hq e (List.mem_cons_of_mem _ he)) x hx
  | left hsi hsi' hn away hr ih => exact fun x hx => ih (fun e he => hq e (List.mem_cons_of_mem _ he)) x hx

theorem datapoints_append (knn : Knn ℝ) (cutoff : ℝ) (ts us : List (Transition ℝ Img)) (data data' : List DataPoint)
    (c c' : Counters) (h : transitionsToDatapoints knn cutoff ts data c = .ok (data', c')) :
    transitionsToDatapoints knn cutoff (ts ++ us) data c = transitionsToDatapoints knn cutoff us data' c' := by
  induction ts generalizing data c with
  | nil => simp only [transitionsToDatapoints, Except.ok.injEq, Prod.mk.injEq] at h; simp [h.1, h.2]
  | cons t ts ih =>
    simp only [transitionsToDatapoints, List.cons_append] at h ⊢
    cases hd : datapointOf knn cutoff t with
    | error e => simp [hd] at h
    | ok r => cases r <;> simp only [hd] at h ⊢ <;> exact ih _ _ h

/-- The episodes of environments on generated sheets, in any number and order, however they were played, turn
into data points: nothing raises; each episode gives the points its true atoms call for; and every point tells of
60 kV, 0.1 nA and a time in the adapter's range. -/
theorem C135_data (knn : Knn ℝ) (cutoff : ℝ) (hcut : 0 ≤ cutoff) (cfg : EnvCfg ℝ G O P Img F) (n : ℕ)
    (hgen : cfg.sim.generate = generatePristineGraphene cfg.sim.rng n) (hl : cfg.sim.rng.Lawful)
    (hr : SwapRates cfg.sim.rate) (hd : (dwellRange cfg.adapter).1 ≤ (dwellRange cfg.adapter).2)
    (es : List (PlayedEpisode Img)) (hes : ∀ e ∈ es, PlayedIn cfg e)
    (hdisc : ∀ e ∈ es, AllSteps (DiscStep (71 / 100 * n - 639 / 100) (11 / 2)) e.sheet e.steps) :
    ∃ (parts : List (List DataPoint)) (k : ℕ),
      transitionsToDatapoints knn cutoff (trajectoriesToTransitions true (es.map PlayedEpisode.trajectory)) [] {} =
        .ok (parts.flatten, { noSiliconNeighbor := k }) ∧
      List.Forall₂ (fun e data => Yields e.sheet e.first.fov e.steps data) es parts ∧
      parts.flatten.length + k = (es.map (fun e => e.steps.length)).sum ∧
      ∀ d ∈ parts.flatten, d.nextState ≤ 3 ∧ UsualBeam d.voltage d.current ∧
        ((dwellRange cfg.adapter).1 : ℝ) / 1000000 ≤ d.secondsBetween ∧
        d.secondsBetween ≤ ((dwellRange cfg.adapter).2 : ℝ) / 1000000 := by
  have key : ∀ (data0 : List DataPoint) (k0 : ℕ), ∃ (parts : List (List DataPoint)) (k : ℕ),
      transitionsToDatapoints knn cutoff (trajectoriesToTransitions true (es.map PlayedEpisode.trajectory)) data0
        { noSiliconNeighbor := k0 } = .ok (data0 ++ parts.flatten, { noSiliconNeighbor := k0 + k }) ∧
      List.Forall₂ (fun e data => Yields e.sheet e.first.fov e.steps data) es parts ∧
      parts.flatten.length + k = (es.map (fun e => e.steps.length)).sum ∧
      ∀ d ∈ parts.flatten, d.nextState ≤ 3 ∧ UsualBeam d.voltage d.current ∧
        ((dwellRange cfg.adapter).1 : ℝ) / 1000000 ≤ d.secondsBetween ∧
        d.secondsBetween ≤ ((dwellRange cfg.adapter).2 : ℝ) / 1000000 := by
    induction es with
    | nil => exact fun data0 k0 => ⟨[], 0, by simp [trajectoriesToTransitions, transitionsToDatapoints], .nil, rfl, by simp⟩
    | cons e es ih =>
      intro data0 k0
      obtain ⟨g, ga, beam, goal, history, t, s, hreset, hg, hlast, hact⟩ := hes e (by simp)
      have hinv := envAfter_inv hl hr.keepsDoping history (cfg := cfg)
        (s := Env.fresh g ga beam goal) (SimInv.fresh g [])
      obtain ⟨o, sim, g', h1, h2, h3⟩ := envReset_parts hreset
      obtain ⟨hrec, hctl⟩ := acted_recorded hd hact
      obtain ⟨sheet1, hsees, hpos⟩ := sees_reset hl hinv h1
      have hsees' : Sees s.sim sheet1 o := by
        rw [h3]
        exact ⟨SimInv.reseed hsees.inv _, hsees.grid, hsees.fov, hsees.doped, hsees.wf, hsees.atoms, hsees.margin⟩
      have hsheet : sheet1 = e.sheet := by have := hsees'.grid; rw [hg] at this; cases this; rfl
      subst hsheet
      have ho : e.first = o := by rw [← hlast, h2]
      obtain ⟨offset, angle, he, hx, hy, _⟩ := C40_generated cfg.sim.rng hl n
        (Env.after cfg (Env.fresh g ga beam goal) history).sim.ctx.g
      rw [hgen, he] at hpos
      have hnd : e.sheet.positions.Nodup := by rw [hpos]; exact (C40_honeycomb n offset angle).1
      have hclean : AllSteps Clean e.sheet e.steps :=
        disc_clean hr.keepsDoping hx hy hrec hsees' hpos (hdisc e (by simp))
      obtain ⟨data, k, e1, e2, e3⟩ := recorded_data knn hcut hr.keepsDoping hrec hsees' hnd hclean data0
        { noSiliconNeighbor := k0 }
      obtain ⟨parts, k', f1, f2, f3, f4⟩ := ih (fun x hx => hes x (by simp [hx])) (fun x hx => hdisc x (by simp [hx]))
        (data0 ++ data) (k0 + k)
      refine ⟨data :: parts, k + k', ?_, .cons (by rw [ho]; exact e2) f2, ?_, ?_⟩
      · have htr : trajectoriesToTransitions true ((e :: es).map PlayedEpisode.trajectory) =
            transitionsLoop true (some (heldBy o)) (e.steps.map (fun x => x.2.2)) ++
              trajectoriesToTransitions true (es.map PlayedEpisode.trajectory) := by
          simp [trajectoriesToTransitions, PlayedEpisode.trajectory, transitionsLoop, heldBy, ho]
        rw [htr, datapoints_append knn cutoff _ _ _ _ _ _ e1, f1]
        simp [Nat.add_assoc]
      · simp only [List.flatten_cons, List.length_append, List.map_cons, List.sum_cons]
        omega
      · intro d hdm
        rw [List.flatten_cons] at hdm
        rcases List.mem_append.1 hdm with hdm | hdm
        · obtain ⟨h0, c, ⟨_, hlo, hhi, hub⟩, hs, hc, hv⟩ := yields_usual
            (Q := fun c => InUnit c.position ∧ (dwellRange cfg.adapter).1 ≤ c.dwellTime ∧
              c.dwellTime ≤ (dwellRange cfg.adapter).2 ∧ UsualBeam c.voltageKv c.currentNa) e2 hctl d hdm
          refine ⟨h0, by rw [hv, hc]; exact hub, ?_, ?_⟩
          · rw [hs]
            have : ((dwellRange cfg.adapter).1 : ℝ) ≤ (c.dwellTime : ℝ) := by exact_mod_cast hlo
            linarith
          · rw [hs]
            have : (c.dwellTime : ℝ) ≤ ((dwellRange cfg.adapter).2 : ℝ) := by exact_mod_cast hhi
            linarith
        · exact f4 d hdm
  simpa using key [] 0

/-- Such data can be stacked with any choice of contexts; the contexts are the same in every row, and an ensemble
trained on them by bootstrap comes out complete if there are enough rows for a batch. -/
theorem C135_trained {Q S H : Type} (data : List DataPoint) (hne : data ≠ [])
    (hdata : ∀ d ∈ data, d.nextState ≤ 3 ∧ UsualBeam d.voltage d.current)
    (useCurrent useVoltage : Bool) (hsome : useCurrent = true ∨ useVoltage = true)
    (c : Training Q S H) (hs : ∀ k n, (c.split k n).length = n)
    (hp : ∀ k n, (c.permutation k n).Perm (List.range n)) (hb : 0 < c.batchSize) (draw : H → ℕ → List ℕ)
    (listOfSet : List ℕ → List ℕ) (hset : ∀ l, (listOfSet l).Perm l) (n : ℕ) (hn : 0 < n) (augment : Bool)
    (fraction : ℝ) (hdraw : ∀ k, MemberDraw true data.length (draw k))
    (hrows : c.batchSize ≤ (if augment then 6 else 1) * data.length) (key : H) :
    ∃ d r rng nets, stackData useCurrent useVoltage false 3 data = .ok d ∧ d.toRateData = .ok r ∧
      r.context = some (List.replicate data.length
        ((if useCurrent then [1 / 10] else []) ++ (if useVoltage then [60] else []))) ∧
      c.train draw listOfSet n true augment fraction r key = .ok (rng, nets) ∧ nets.length = n := by
  obtain ⟨d, r, h1, h2, h3, h4, h5, h6⟩ := C86_accepted useCurrent useVoltage false data hne
    (fun p hp => (hdata p hp).1) (fun _ p hp => by rw [(hdata p hp).2.2]; rfl) (fun _ p hp => by rw [(hdata p hp).2.1]; rfl)
  have hctx : r.context.isSome := h5.2 (by rcases hsome with h | h <;> simp [h])
  obtain ⟨rng, nets, h7, h8⟩ := C112_train_completes c hs hp hb draw listOfSet hset n hn augment fraction r data.length
    h3 hctx h4 hdraw hrows key
  refine ⟨d, r, rng, nets, h1, h2, ?_, h7, h8⟩
  obtain ⟨cs, hcs⟩ := Option.isSome_iff_exists.1 hctx
  rw [hcs]
  congr 1
  have hlen : cs.length = data.length := h3.2.2.2.2 cs hcs
  refine List.eq_replicate_iff.2 ⟨hlen, fun x hx => ?_⟩
  obtain ⟨i, hi⟩ := List.getElem?_of_mem hx
  have hi' : i < data.length := by
    rw [← hlen]
    exact (List.getElem?_eq_some_iff.1 hi).1
  obtain ⟨q, hq, _, _, _, hqc⟩ := h6 i data[i] (List.getElem?_eq_getElem hi')
  have hqx : q.context = some x := by
    unfold row at hq
    split at hq
    · rw [hcs] at hq
      simp only [hi, Option.map_some, Option.some.injEq] at hq
      rw [← hq]
    · cases hq
  have h9 := hqc x hqx
  obtain ⟨hv, hcur⟩ := (hdata data[i] (List.getElem_mem hi')).2
  rw [hv, hcur] at h9
  refine List.map_injective_iff.2 (Option.some_injective ℝ) ?_
  rw [h9]
  cases useCurrent <;> cases useVoltage <;> rfl

/-- From episodes to an ensemble. -/
theorem C135_end_to_end {Q S H : Type} (knn : Knn ℝ) (cutoff : ℝ) (hcut : 0 ≤ cutoff) (cfg : EnvCfg ℝ G O P Img F)
    (m : ℕ) (hgen : cfg.sim.generate = generatePristineGraphene cfg.sim.rng m) (hl : cfg.sim.rng.Lawful)
    (hr : SwapRates cfg.sim.rate) (hd : (dwellRange cfg.adapter).1 ≤ (dwellRange cfg.adapter).2)
    (es : List (PlayedEpisode Img)) (hes : ∀ e ∈ es, PlayedIn cfg e)
    (hdisc : ∀ e ∈ es, AllSteps (DiscStep (71 / 100 * m - 639 / 100) (11 / 2)) e.sheet e.steps)
    (useCurrent useVoltage : Bool) (hsome : useCurrent = true ∨ useVoltage = true)
    (c : Training Q S H) (hs : ∀ k n, (c.split k n).length = n)
    (hp : ∀ k n, (c.permutation k n).Perm (List.range n)) (hb : 0 < c.batchSize) (draw : H → ℕ → List ℕ)
    (listOfSet : List ℕ → List ℕ) (hset : ∀ l, (listOfSet l).Perm l) (n : ℕ) (hn : 0 < n) (augment : Bool)
    (fraction : ℝ) (hdraw : ∀ k rows, 1 < rows → MemberDraw true rows (draw k)) (key : H) :
    ∃ data counters,
      transitionsToDatapoints knn cutoff (trajectoriesToTransitions true (es.map PlayedEpisode.trajectory)) [] {} =
        .ok (data, counters) ∧
      (1 < data.length → c.batchSize ≤ (if augment then 6 else 1) * data.length →
        ∃ d r rng nets, stackData useCurrent useVoltage false 3 data = .ok d ∧ d.toRateData = .ok r ∧
          c.train draw listOfSet n true augment fraction r key = .ok (rng, nets) ∧ nets.length = n) := by
  obtain ⟨parts, k, h1, _, _, h4⟩ := C135_data knn cutoff hcut cfg m hgen hl hr hd es hes hdisc
  refine ⟨parts.flatten, _, h1, fun h2 h3 => ?_⟩
  obtain ⟨d, r, rng, nets, e1, e2, _, e4, e5⟩ := C135_trained parts.flatten
    (by intro h; simp [h] at h2) (fun x hx => ⟨(h4 x hx).1, (h4 x hx).2.1⟩) useCurrent useVoltage hsome c hs hp hb
    draw listOfSet hset n hn augment fraction (fun k => hdraw k _ h2) h3 key
  exact ⟨d, r, rng, nets, e1, e2, e4, e5⟩

/-! ### The assumptions can be met -/

/-- The example environment of C99 with controls of half a second. -/
noncomputable def briefCfg : EnvCfg ℝ Unit Unit Unit Unit (List ℝ) :=
  { playCfg with adapter := .relative 500000 500000 BOND }

theorem briefCfg_ok : PlayCfg briefCfg 50 :=
  ⟨playCfg_ok.1, by norm_num, rfl, playCfg_ok.features, playCfg_ok.swaps, playCfg_ok.rates, by decide, by decide⟩

/-- An episode with one step, in which the silicon stays. -/
theorem brief_episode : ∃ e : PlayedEpisode Unit, PlayedIn briefCfg e ∧ e.steps.length = 1 ∧
    AllSteps (DiscStep (71 / 100 * (50 : ℕ) - 639 / 100) (11 / 2)) e.sheet e.steps := by
  have hgoal : GoalRangeOk (GoalState.fresh : GoalState ℝ) :=
    ⟨by norm_num [GoalState.fresh], by norm_num [GoalState.fresh], by norm_num [GoalState.fresh]⟩
  have h0 := fresh_plays (O := Unit) (P := Unit) (Img := Unit) 50 () none ⟨0, 0⟩ hgoal
  obtain ⟨t, s, hr, hp⟩ := reset_plays briefCfg_ok h0
  have hq : s.requiresReset = false := (envReset_ok hr).2.2.2.2.1
  obtain ⟨t', s', hs⟩ : ∃ t s', Env.step briefCfg [0, 0] s = .ok t s' := by
    rcases (step_plays briefCfg_ok hp [0, 0]).2 rfl with h | ⟨_, h⟩
    · exact h
    · exact absurd (h (fun _ _ => by norm_num [briefCfg, playCfg, Witness.rng])) (by simp [briefCfg, playCfg])
  obtain ⟨c, hc, _, hlo, hhi, _⟩ := C135_controls briefCfg (by decide) s s' hq [0, 0] t' hs
  obtain ⟨o, sim, g, h1, h2, h3⟩ := envReset_parts hr
  obtain ⟨sheet, hsees, _⟩ := sees_reset playCfg_ok.1 (SimInv.fresh () []) h1
  have hsees' : Sees s.sim sheet o := by
    rw [h3]
    exact ⟨SimInv.reseed hsees.inv _, hsees.grid, hsees.fov, hsees.doped, hsees.wf, hsees.atoms, hsees.margin⟩
  have hsim : Sim.step playCfg.sim [c] false s.sim = .ok s'.last s'.sim := by
    cases envStep_end briefCfg [0, 0] s hq with
    | failed e s1 h1 => rw [hs] at h1; cases h1
    | ok t1 s1 h1 cs beam hcs hsim =>
      rw [hs] at h1
      cases h1
      have := simStep_controls hsim
      rw [hc] at this
      subst this
      exact hsim
  have hsame : s'.sim.ctx.mat.grid = some sheet :=
    brief_step (lt_of_le_of_lt hhi (by decide)) hsees' hsim
  obtain ⟨o', s1, sheet', si, nbrs, e1, e2, e3, _, e5, _⟩ := C123_start playCfg.sim playCfg_ok.1 50 (by norm_num) rfl false
    (Sim.fresh () [] : Sim ℝ Unit Unit Unit)
  have he : sheet' = sheet := by
    have h1' : Sim.reset playCfg.sim false (Sim.fresh () [] : Sim ℝ Unit Unit Unit) = .ok o sim := h1
    rw [h1'] at e1
    cases e1
    have := hsees.grid
    rw [e2] at this
    cases this
    rfl
  subst he
  refine ⟨⟨sheet', s.last, [(c, sheet', s'.last)]⟩, ⟨(), none, ⟨0, 0⟩, GoalState.fresh, [], t, s, hr, hsees'.grid, rfl,
    .act [0, 0] hq hs hc hsame (.done _)⟩, rfl, ⟨?_, trivial⟩⟩
  intro a a' ha ha'
  rw [e3] at ha ha'
  cases ha
  cases ha'
  refine ⟨by norm_num at e5 ⊢; linarith, ?_⟩
  rw [dist_self']
  norm_num

/-- Two episodes give two points with the usual beam. -/
example : ∃ es : List (PlayedEpisode Unit), es.length = 2 ∧ ∃ parts k,
    transitionsToDatapoints Witness.knn 1 (trajectoriesToTransitions true (es.map PlayedEpisode.trajectory)) [] {} =
      .ok (List.flatten parts, { noSiliconNeighbor := k }) ∧ (List.flatten parts).length + k = 2 ∧
    ∀ d ∈ List.flatten parts, UsualBeam d.voltage d.current := by
  obtain ⟨e, h1, h2, h3⟩ := brief_episode
  obtain ⟨parts, k, e1, _, e3, e4⟩ := C135_data Witness.knn 1 zero_le_one briefCfg 50 rfl playCfg_ok.1 playCfg_ok.swaps
    (by decide) [e, e] (by simp [h1]) (by simp only [List.mem_cons, List.not_mem_nil, or_false, or_self]; rintro x rfl; exact h3)
  exact ⟨[e, e], rfl, parts, k, e1, by rw [e3]; simp [h2], fun d hd => (e4 d hd).2.1⟩

/-- Two points with the usual beam, a draw that leaves the second one for testing, and a batch size of one. -/
example : ∃ d r rng nets, stackData true true false 3
      [⟨0, ⟨1, 0⟩, 3 / 2, some (1 / 10), some 60⟩, ⟨2, ⟨0, 1⟩, 3 / 2, some (1 / 10), some 60⟩] = .ok d ∧
    d.toRateData = .ok r ∧ r.context = some [[1 / 10, 60], [1 / 10, 60]] ∧
    countingTraining.train (fun _ n => List.replicate n 0) id 2 true true 0 r 7 = .ok (rng, nets) ∧ nets.length = 2 :=
  C135_trained [⟨0, ⟨1, 0⟩, 3 / 2, some (1 / 10), some 60⟩, ⟨2, ⟨0, 1⟩, 3 / 2, some (1 / 10), some 60⟩] (by simp)
    (by intro d hd; simp only [List.mem_cons, List.not_mem_nil, or_false] at hd; rcases hd with rfl | rfl <;> simp [UsualBeam])
    true true (.inl rfl) countingTraining (by simp [countingTraining]) (fun _ n => by simp [countingTraining])
    (by simp [countingTraining]) _ _ (fun _ => .refl _) 2 (by simp) true 0
    (fun k => by simp only [MemberDraw, if_true]; exact ⟨rfl, by simp, 1, by simp, by simp⟩)
    (by simp [countingTraining]) 7

/-- The draws assumed in `C135_end_to_end` exist. -/
example : ∀ (k rows : ℕ), 1 < rows → MemberDraw true rows ((fun (_ n : ℕ) => List.replicate n 0) k) := by
  intro k rows h
  simp only [MemberDraw, if_true]
  exact ⟨by simp, by simp; omega, 1, h, by simp⟩

end PD.Props
