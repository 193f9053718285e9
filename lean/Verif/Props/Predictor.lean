/- The learned predictor over histories of calls (C79, C80). -/
import Verif.Spec.Predictor
import Verif.Props.Learn

set_option linter.unusedSectionVars false
set_option linter.unusedSimpArgs false

namespace PD.Props
open PD PD.Spec
variable {P S : Type}

/-! ### C79 -/

/-- What `predict` gives when a traced model is packaged. -/
theorem predict_traced (direct : Bool) (nets : P → S → List (List ℝ → List ℝ)) (a : PredictArgs)
    (s : PredSystem P S) {m : Packaged} {net : List ℝ → List ℝ} (hp : s.pred.packaged = some m)
    (ht : m.traced = some net) (hd : m.loaded = true ∨ direct = true) (hi : m.inputDim = 2) :
    (∃ r, PredSystem.predict direct nets a s = .ok r s ∧
      predictionOf [net] m.fixed s.pred.cfg a = .ok r) ∨
    (∃ e, PredSystem.predict direct nets a s = .error e s ∧
      predictionOf [net] m.fixed s.pred.cfg a = .error e) := by
  obtain ⟨⟨pa, st, cd, pk, cfg⟩, disk⟩ := s
  simp only at hp
  subst hp
  simp only [PredSystem.predict, Predictor.ensurePackaged, predictionOf, learnedPredict]
  have h1 : ¬(m.loaded = false ∧ direct = false) := by
    rcases hd with h | h <;> simp [h]
  cases predictInput cfg.useVoltage cfg.useCurrent a.grid a.beam a.current a.idx with
  | error e => exact .inr ⟨e, rfl, rfl⟩
  | ok xo =>
    obtain ⟨x, order⟩ := xo
    simp only [if_neg h1, hi, ne_eq, not_true_eq_false, if_false, Packaged.trace, ht, List.map_cons,
      List.map_nil, packagedModel]
    cases takeRows (net (m.fixed ++ [x.x, x.y])) (argsort order) with
    | error e => exact .inr ⟨e, rfl, rfl⟩
    | ok r => exact .inl ⟨r, rfl, rfl⟩

/-- A returned prediction comes from a traced model or, if none was traced, from the current networks. -/
theorem predict_returned (direct : Bool) (nets : P → S → List (List ℝ → List ℝ)) (a : PredictArgs)
    (s s' : PredSystem P S) (r : List ℝ) (h : PredSystem.predict direct nets a s = .ok r s') :
    ∃ (m m' : Packaged) (net : List ℝ → List ℝ),
      (s.pred.packaged = some m ∨ s.pred.packaged = none ∧ m.traced = none ∧ m.fixed = [] ∧ m.loaded = false ∧ m.inputDim = s.pred.contextDim) ∧
      s' = { s with pred := { s.pred with packaged := some m' } } ∧
      m' = { m with traced := some net } ∧ m.inputDim = 2 ∧
      (m.traced = some net ∨ m.traced = none ∧ nets s.pred.params s.pred.state = [net]) ∧
      (m.loaded = true ∨ direct = true) ∧
      predictionOf [net] m.fixed s.pred.cfg a = .ok r := by
  obtain ⟨⟨pa, st, cd, pk, cfg⟩, disk⟩ := s
  have key : ∀ m : Packaged, (match predictInput cfg.useVoltage cfg.useCurrent a.grid a.beam a.current a.idx with
      | .error e => (.error e ⟨⟨pa, st, cd, some m, cfg⟩, disk⟩ : EStateM.Result Err (PredSystem P S) (List ℝ))
      | .ok (x, order) =>
        if m.loaded = false ∧ direct = false then .error .typeError ⟨⟨pa, st, cd, some m, cfg⟩, disk⟩
        else if m.inputDim ≠ 2 then .error .valueError ⟨⟨pa, st, cd, some m, cfg⟩, disk⟩
        else
          match m.trace (nets pa st) with
          | .error e => .error e ⟨⟨pa, st, cd, some m, cfg⟩, disk⟩
          | .ok m' =>
            match m'.traced with
            | none => .error .attributeError ⟨⟨pa, st, cd, some m', cfg⟩, disk⟩
            | some net =>
              match takeRows (net (m'.fixed ++ [x.x, x.y])) (argsort order) with
              | .error e => .error e ⟨⟨pa, st, cd, some m', cfg⟩, disk⟩
              | .ok rates => .ok rates ⟨⟨pa, st, cd, some m', cfg⟩, disk⟩) = .ok r s' →
      ∃ (m' : Packaged) (net : List ℝ → List ℝ),
      s' = ⟨⟨pa, st, cd, some m', cfg⟩, disk⟩ ∧
      m' = { m with traced := some net } ∧ m.inputDim = 2 ∧
      (m.traced = some net ∨ m.traced = none ∧ nets pa st = [net]) ∧
      (m.loaded = true ∨ direct = true) ∧
      predictionOf [net] m.fixed cfg a = .ok r := by
    intro m hm
    simp only [predictionOf, learnedPredict]
    cases hpi : predictInput cfg.useVoltage cfg.useCurrent a.grid a.beam a.current a.idx with
    | error e => rw [hpi] at hm; cases hm
    | ok xo =>
      obtain ⟨x, order⟩ := xo
      rw [hpi] at hm
      simp only at hm
      split at hm
      · cases hm
      rename_i hl
      split at hm
      · cases hm
      rename_i hdim
      have hl' : m.loaded = true ∨ direct = true := by
        cases hml : m.loaded <;> cases hdd : direct <;> simp [hml, hdd] at hl ⊢
      have fin : ∀ (m' : Packaged) (net : List ℝ → List ℝ), m' = { m with traced := some net } →
          (match takeRows (net (m'.fixed ++ [x.x, x.y])) (argsort order) with
              | .error e => (.error e ⟨⟨pa, st, cd, some m', cfg⟩, disk⟩ : EStateM.Result Err (PredSystem P S) (List ℝ))
              | .ok rates => .ok rates ⟨⟨pa, st, cd, some m', cfg⟩, disk⟩) = .ok r s' →
          s' = ⟨⟨pa, st, cd, some m', cfg⟩, disk⟩ ∧
          takeRows (net (m.fixed ++ [x.x, x.y])) (argsort order) = .ok r := by
        intro m' net hm' h
        subst hm'
        simp only at h
        cases ht : takeRows (net (m.fixed ++ [x.x, x.y])) (argsort order) with
        | error e => rw [ht] at h; cases h
        | ok q =>
          rw [ht] at h
          simp only [EStateM.Result.ok.injEq] at h
          exact ⟨h.2.symm, by rw [h.1]⟩
      simp only [List.map_cons, List.map_nil, packagedModel]
      cases htr : m.traced with
      | some net =>
        have e : m.trace (nets pa st) = .ok m := by simp [Packaged.trace, htr]
        rw [e] at hm
        simp only [htr] at hm
        have hm' : m = { m with traced := some net } := by rw [← htr]
        obtain ⟨h1, h2⟩ := fin m net hm' hm
        exact ⟨m, net, h1, hm', not_not.1 hdim, .inl rfl, hl', h2⟩
      | none =>
        simp only [Packaged.trace, htr] at hm
        match hn : nets pa st, hm with
        | [], hm => cases hm
        | _ :: _ :: _, hm => cases hm
        | [net], hm =>
          obtain ⟨h1, h2⟩ := fin { m with traced := some net } net rfl hm
          exact ⟨_, net, h1, rfl, not_not.1 hdim, .inr ⟨rfl, rfl⟩, hl', h2⟩
  cases pk with
  | some m =>
    obtain ⟨m', net, h1, h2⟩ := key m h
    exact ⟨m, m', net, .inl rfl, h1, h2⟩
  | none =>
    simp only [PredSystem.predict, Predictor.ensurePackaged, Predictor.package, Option.getD_none, List.length_nil,
      Nat.not_lt_zero, if_false, Nat.sub_zero] at h
    obtain ⟨m', net, h1, h2⟩ := key ⟨[], cd, none, false⟩ (by
      simp only [true_and] at h ⊢
      exact h)
    exact ⟨⟨[], cd, none, false⟩, m', net, .inr ⟨rfl, rfl, rfl, rfl, rfl⟩, h1, h2⟩

/-- What a prediction, successful or not, does to the state: at most, a model is packaged and traced. -/
theorem predict_state (direct : Bool) (nets : P → S → List (List ℝ → List ℝ)) (a : PredictArgs)
    (s : PredSystem P S) :
    ∃ pk, PredSystem.run1 direct nets s (.predict a) = { s with pred := { s.pred with packaged := pk } } ∧
      (pk = s.pred.packaged ∨
       ∃ m, (s.pred.packaged = some m ∨ s.pred.packaged = none ∧ m = ⟨[], s.pred.contextDim, none, false⟩) ∧
        (pk = some m ∨ m.traced = none ∧ (m.loaded = true ∨ direct = true) ∧
          ∃ net, nets s.pred.params s.pred.state = [net] ∧ pk = some { m with traced := some net })) := by
  obtain ⟨⟨pa, st, cd, pk, cfg⟩, disk⟩ := s
  obtain ⟨m, hm, hpk⟩ : ∃ m, (pk = some m ∨ pk = none ∧ m = ⟨[], cd, none, false⟩) ∧
      Predictor.ensurePackaged (⟨pa, st, cd, pk, cfg⟩ : Predictor P S) = .ok ⟨pa, st, cd, some m, cfg⟩ := by
    cases pk with
    | some m => exact ⟨m, .inl rfl, rfl⟩
    | none => exact ⟨_, .inr ⟨rfl, rfl⟩, by simp [Predictor.ensurePackaged, Predictor.package]⟩
  simp only [PredSystem.run1, PredSystem.predict, hpk]
  cases predictInput cfg.useVoltage cfg.useCurrent a.grid a.beam a.current a.idx with
  | error e => exact ⟨some m, rfl, .inr ⟨m, hm, .inl rfl⟩⟩
  | ok xo =>
    obtain ⟨x, order⟩ := xo
    simp only
    by_cases hl : m.loaded = false ∧ direct = false
    · simp only [if_pos hl]
      exact ⟨some m, rfl, .inr ⟨m, hm, .inl rfl⟩⟩
    simp only [if_neg hl]
    by_cases hd : m.inputDim = 2
    swap
    · simp only [ne_eq, hd, not_false_eq_true, if_true]
      exact ⟨some m, rfl, .inr ⟨m, hm, .inl rfl⟩⟩
    have hl' : m.loaded = true ∨ direct = true := by
      cases hml : m.loaded <;> cases hdd : direct <;> simp [hml, hdd] at hl ⊢
    simp only [ne_eq, hd, not_true_eq_false, if_false]
    cases htr : m.traced with
    | some net =>
      have e : m.trace (nets pa st) = .ok m := by simp [Packaged.trace, htr]
      simp only [e, htr]
      cases takeRows (net (m.fixed ++ [x.x, x.y])) (argsort order) <;>
        exact ⟨some m, rfl, .inr ⟨m, hm, .inl rfl⟩⟩
    | none =>
      simp only [Packaged.trace, htr]
      match hn : nets pa st with
      | [] => exact ⟨some m, rfl, .inr ⟨m, hm, .inl rfl⟩⟩
      | _ :: _ :: _ => exact ⟨some m, rfl, .inr ⟨m, hm, .inl rfl⟩⟩
      | [net] =>
        simp only
        cases takeRows (net (m.fixed ++ [x.x, x.y])) (argsort order) <;>
          exact ⟨_, rfl, .inr ⟨m, hm, .inr ⟨htr, hl', net, rfl, rfl⟩⟩⟩

/-- What saving, successful or not, does to the state. -/
theorem save_state (direct : Bool) (nets : P → S → List (List ℝ → List ℝ)) (s : PredSystem P S)
    (dir : String) (step : ℕ) (fixed : Option (List ℝ)) :
    (∃ pk, PredSystem.run1 direct nets s (.save dir step fixed) =
        ⟨{ s.pred with packaged := pk }, s.disk.put dir { s.disk dir with
          ckpt := fun n => if n = step then some s.pred.params else (s.disk dir).ckpt n }⟩ ∧
        (pk = s.pred.packaged ∧ s.pred.contextDim < (fixed.getD []).length ∨
          (fixed.getD []).length ≤ s.pred.contextDim ∧ (∀ net, nets s.pred.params s.pred.state ≠ [net]) ∧
          pk = some ⟨fixed.getD [], s.pred.contextDim - (fixed.getD []).length, none, false⟩)) ∨
    (∃ net m, nets s.pred.params s.pred.state = [net] ∧ (fixed.getD []).length ≤ s.pred.contextDim ∧
        m = ⟨fixed.getD [], s.pred.contextDim - (fixed.getD []).length, some net, false⟩ ∧
        PredSystem.save nets dir step fixed s = .ok () (PredSystem.run1 direct nets s (.save dir step fixed)) ∧
        PredSystem.run1 direct nets s (.save dir step fixed) =
          ⟨{ s.pred with packaged := some m }, s.disk.put dir
            ⟨fun n => if n = step then some s.pred.params else (s.disk dir).ckpt n, some m,
              some s.pred.cfg⟩⟩) := by
  obtain ⟨⟨pa, st, cd, pk, cfg⟩, disk⟩ := s
  simp only [PredSystem.run1, PredSystem.save, Predictor.package]
  by_cases hc : cd < (fixed.getD []).length
  · simp only [if_pos hc]
    exact .inl ⟨pk, rfl, .inl ⟨rfl, hc⟩⟩
  simp only [if_neg hc, Packaged.trace]
  match hn : nets pa st with
  | [] => exact .inl ⟨_, rfl, .inr ⟨not_lt.1 hc, by simp, rfl⟩⟩
  | _ :: _ :: _ => exact .inl ⟨_, rfl, .inr ⟨not_lt.1 hc, by simp, rfl⟩⟩
  | [net] => exact .inr ⟨net, _, rfl, not_lt.1 hc, rfl, rfl, rfl⟩

/-- What loading, successful or not, does to the state. -/
theorem load_state (direct : Bool) (nets : P → S → List (List ℝ → List ℝ)) (s : PredSystem P S)
    (dir : String) (step : ℕ) (lp lc : Bool) :
    ∃ pa cfg pk, PredSystem.run1 direct nets s (.load dir step lp lc) =
        ⟨{ s.pred with params := pa, cfg := cfg, packaged := pk }, s.disk⟩ ∧
      (pa = s.pred.params ∨ (s.disk dir).ckpt step = some pa) ∧
      (cfg = s.pred.cfg ∨ (s.disk dir).cfg = some cfg) ∧
      (pk = s.pred.packaged ∨ ∃ m, (s.disk dir).model = some m ∧ pk = some { m with loaded := true }) := by
  obtain ⟨⟨pa, st, cd, pk, cfg⟩, disk⟩ := s
  simp only [PredSystem.run1, PredSystem.load]
  cases lp <;> cases hk : (disk dir).ckpt step <;> cases hm : (disk dir).model <;> cases lc <;>
    cases hc : (disk dir).cfg <;> simp only [if_true, if_false, Bool.false_eq_true, Option.map_none,
      Option.map_some] <;> exact ⟨_, _, _, rfl, by simp, by simp, by simp⟩

theorem run_append (direct : Bool) (nets : P → S → List (List ℝ → List ℝ)) (s : PredSystem P S)
    (xs ys : List (PredOp P S)) :
    PredSystem.run direct nets s (xs ++ ys) =
      PredSystem.run direct nets (PredSystem.run direct nets s xs) ys := by
  simp [PredSystem.run, List.foldl_append]

theorem run_snoc (direct : Bool) (nets : P → S → List (List ℝ → List ℝ)) (s : PredSystem P S)
    (xs : List (PredOp P S)) (op : PredOp P S) :
    PredSystem.run direct nets s (xs ++ [op]) =
      PredSystem.run1 direct nets (PredSystem.run direct nets s xs) op := by
  simp [PredSystem.run, List.foldl_append]

/-- A packaged model in the predictor or on disk. -/
def Occurs (s : PredSystem P S) (m : Packaged) : Prop :=
  s.pred.packaged = some m ∨ ∃ d, (s.disk d).model = some m

/-- Where the traced networks after a call come from. -/
theorem occurs_step (direct : Bool) (nets : P → S → List (List ℝ → List ℝ)) (s : PredSystem P S)
    (op : PredOp P S) {m : Packaged} {net : List ℝ → List ℝ}
    (h : Occurs (PredSystem.run1 direct nets s op) m) (ht : m.traced = some net) :
    (∃ m0, Occurs s m0 ∧ m0.traced = some net) ∨ nets s.pred.params s.pred.state = [net] := by
  cases op with
  | train p st => exact .inl ⟨m, h, ht⟩
  | predict a =>
    obtain ⟨pk, e, hpk⟩ := predict_state direct nets a s
    rw [e] at h
    rcases h with h | ⟨d, h⟩
    · simp only at h
      rcases hpk with rfl | ⟨m0, hm0, rfl | ⟨-, -, net', hn, rfl⟩⟩
      · exact .inl ⟨m, .inl h, ht⟩
      · cases h
        rcases hm0 with hm0 | ⟨-, rfl⟩
        · exact .inl ⟨m, .inl hm0, ht⟩
        · cases ht
      · cases h
        cases ht
        exact .inr hn
    · exact .inl ⟨m, .inr ⟨d, h⟩, ht⟩
  | save dir step fixed =>
    rcases save_state direct nets s dir step fixed with ⟨pk, e, hpk⟩ | ⟨net', m', hn, -, rfl, -, e⟩
    · rw [e] at h
      rcases h with h | ⟨d, h⟩
      · simp only at h
        rcases hpk with ⟨rfl, -⟩ | ⟨-, -, rfl⟩
        · exact .inl ⟨m, .inl h, ht⟩
        · cases h
          cases ht
      · simp only [Disk.put] at h
        by_cases hd : d = dir
        · rw [if_pos hd] at h
          exact .inl ⟨m, .inr ⟨dir, h⟩, ht⟩
        · rw [if_neg hd] at h
          exact .inl ⟨m, .inr ⟨d, h⟩, ht⟩
    · rw [e] at h
      rcases h with h | ⟨d, h⟩
      · cases h
        cases ht
        exact .inr hn
      · simp only [Disk.put] at h
        by_cases hd : d = dir
        · rw [if_pos hd] at h
          cases h
          cases ht
          exact .inr hn
        · rw [if_neg hd] at h
          exact .inl ⟨m, .inr ⟨d, h⟩, ht⟩
  | load dir step lp lc =>
    obtain ⟨pa, cfg, pk, e, -, -, hpk⟩ := load_state direct nets s dir step lp lc
    rw [e] at h
    rcases h with h | ⟨d, h⟩
    · simp only at h
      rcases hpk with rfl | ⟨m0, hm0, rfl⟩
      · exact .inl ⟨m, .inl h, ht⟩
      · cases h
        exact .inl ⟨m0, .inr ⟨dir, hm0⟩, ht⟩
    · exact .inl ⟨m, .inr ⟨d, h⟩, ht⟩

/-- Every traced network was the network of the predictor at an earlier moment of the history. -/
theorem occurs_held (direct : Bool) (nets : P → S → List (List ℝ → List ℝ)) (params : P) (state : S)
    (cfg : PredictorCfg) (ops : List (PredOp P S)) {m : Packaged} {net : List ℝ → List ℝ}
    (h : Occurs (PredSystem.run direct nets (freshSystem params state cfg) ops) m)
    (ht : m.traced = some net) :
    ∃ pre, pre <+: ops ∧
      nets (PredSystem.run direct nets (freshSystem params state cfg) pre).pred.params
        (PredSystem.run direct nets (freshSystem params state cfg) pre).pred.state = [net] := by
  induction ops using List.reverseRecOn generalizing m with
  | nil => rcases h with h | ⟨d, h⟩ <;> cases h
  | append_singleton ops op ih =>
    rw [run_snoc] at h
    rcases occurs_step direct nets _ op h ht with ⟨m0, h0, ht0⟩ | hn
    · obtain ⟨pre, hp, hn⟩ := ih h0 ht0
      exact ⟨pre, hp.trans (List.prefix_append _ _), hn⟩
    · exact ⟨ops, List.prefix_append _ _, hn⟩

/-- Whatever was called before, a prediction that is returned is the prediction of the network the predictor
had at some moment of its history (with the fixed context of the packaged model).  Missing for C79: that the
moment is the present. -/
theorem C79_some_moment_partial (direct : Bool) (nets : P → S → List (List ℝ → List ℝ)) (params : P)
    (state : S) (cfg : PredictorCfg) (ops : List (PredOp P S)) (a : PredictArgs) (r : List ℝ)
    (h : outcome (PredSystem.predict direct nets a
      (PredSystem.run direct nets (freshSystem params state cfg) ops)) = .ok r) :
    ∃ pre, pre <+: ops ∧ ∃ net fixed,
      nets (PredSystem.run direct nets (freshSystem params state cfg) pre).pred.params
        (PredSystem.run direct nets (freshSystem params state cfg) pre).pred.state = [net] ∧
      predictionOf [net] fixed (PredSystem.run direct nets (freshSystem params state cfg) ops).pred.cfg a =
        .ok r := by
  cases hr : PredSystem.predict direct nets a
      (PredSystem.run direct nets (freshSystem params state cfg) ops) with
  | error e s' => rw [hr] at h; cases h
  | ok r' s' =>
    rw [hr] at h
    cases h
    obtain ⟨m, m', net, hm, -, -, -, ht, -, hp⟩ := predict_returned direct nets a _ s' r hr
    rcases ht with ht | ⟨ht, hn⟩
    · rcases hm with hm | ⟨-, hc, -⟩
      · obtain ⟨pre, hpre, hn⟩ := occurs_held direct nets params state cfg ops (.inl hm) ht
        exact ⟨pre, hpre, net, m.fixed, hn, hp⟩
      · rw [hc] at ht
        cases ht
    · exact ⟨ops, List.prefix_rfl, net, m.fixed, hn, hp⟩

/-- Where modules packaged in memory cannot be called, a predictor into which nothing was loaded never
returns a prediction. -/
theorem C79_unloaded_raises (nets : P → S → List (List ℝ → List ℝ)) (params : P)
    (state : S) (cfg : PredictorCfg) (ops : List (PredOp P S)) (hno : ∀ op ∈ ops, ¬IsLoad op)
    (a : PredictArgs) (r : List ℝ) :
    outcome (PredSystem.predict false nets a
      (PredSystem.run false nets (freshSystem params state cfg) ops)) ≠ .ok r := by
  have key : ∀ m, (PredSystem.run false nets (freshSystem params state cfg) ops).pred.packaged = some m →
      m.loaded = false := by
    induction ops using List.reverseRecOn with
    | nil => intro m hm; cases hm
    | append_singleton ops op ih =>
      intro m hm
      rw [run_snoc] at hm
      have ih' := ih (fun o ho => hno o (List.mem_append_left _ ho))
      generalize PredSystem.run false nets (freshSystem params state cfg) ops = s at hm ih'
      cases op with
      | train p st => exact ih' m hm
      | load dir step lp lc =>
        exact absurd trivial (hno (.load dir step lp lc) (by simp))
      | save dir step fixed =>
        rcases save_state false nets s dir step fixed with ⟨pk, e, hpk⟩ | ⟨net', m', hn, -, rfl, -, e⟩
        · rw [e] at hm
          rcases hpk with ⟨rfl, -⟩ | ⟨-, -, rfl⟩
          · exact ih' m hm
          · cases hm
            rfl
        · rw [e] at hm
          cases hm
          rfl
      | predict a =>
        obtain ⟨pk, e, hpk⟩ := predict_state false nets a s
        rw [e] at hm
        rcases hpk with rfl | ⟨m0, hm0, rfl | ⟨-, h, net', hn, rfl⟩⟩
        · exact ih' m hm
        · cases hm
          rcases hm0 with hm0 | ⟨-, rfl⟩
          · exact ih' m hm0
          · rfl
        · cases hm
          rcases hm0 with hm0 | ⟨-, rfl⟩
          · exact ih' m0 hm0
          · rfl
  intro h
  cases hr : PredSystem.predict false nets a
      (PredSystem.run false nets (freshSystem params state cfg) ops) with
  | error e s' => rw [hr] at h; cases h
  | ok r' s' =>
    obtain ⟨m, m', net, hm, -, -, -, -, hl, -⟩ := predict_returned false nets a _ s' r' hr
    rcases hl with hl | hl
    · rcases hm with hm | ⟨-, -, -, hm, -⟩
      · rw [key m hm] at hl
        cases hl
      · rw [hm] at hl
        cases hl
    · cases hl

/-- The model saved in `dir` and the one packaged are those of one set of parameters. -/
structure InStep (net : List ℝ → List ℝ) (p : P) (st : S) (c : PredictorCfg) (dir : String) (step : ℕ)
    (s : PredSystem P S) : Prop where
  params : s.pred.params = p
  state : s.pred.state = st
  dim : s.pred.contextDim = 2
  cfg : s.pred.cfg = c
  packaged : ∃ l, s.pred.packaged = some ⟨[], 2, some net, l⟩
  ckpt : (s.disk dir).ckpt step = some p
  model : ∃ l, (s.disk dir).model = some ⟨[], 2, some net, l⟩
  saved : (s.disk dir).cfg = some c

theorem InStep.step {net : List ℝ → List ℝ} {p : P} {st : S} {cfg : PredictorCfg} {dir : String} {step : ℕ}
    {s : PredSystem P S} (h : InStep net p st cfg dir step s) (direct : Bool)
    (nets : P → S → List (List ℝ → List ℝ)) (hn : nets p st = [net]) (op : PredOp P S)
    (hop : Keeps dir step op) : InStep net p st cfg dir step (PredSystem.run1 direct nets s op) := by
  obtain ⟨l, hpk⟩ := h.packaged
  obtain ⟨l', hmod⟩ := h.model
  cases op with
  | train => exact hop.elim
  | predict a =>
    obtain ⟨pk, e, hs⟩ := predict_state direct nets a s
    have hpk' : ∃ l, pk = some ⟨[], 2, some net, l⟩ := by
      rcases hs with rfl | ⟨m, hm, hs⟩
      · exact ⟨l, hpk⟩
      · rcases hm with hm | ⟨hm, -⟩
        · rw [hpk] at hm
          cases hm
          rcases hs with rfl | ⟨ht, -⟩
          · exact ⟨l, rfl⟩
          · cases ht
        · rw [hpk] at hm
          cases hm
    rw [e]
    exact ⟨h.params, h.state, h.dim, h.cfg, hpk', h.ckpt, h.model, h.saved⟩
  | load d k lp lc =>
    obtain ⟨rfl, rfl⟩ := hop
    obtain ⟨pa, c, pk, e, hpa, hc, hs⟩ := load_state direct nets s d k lp lc
    rw [e]
    refine ⟨?_, h.state, h.dim, ?_, ?_, h.ckpt, h.model, h.saved⟩
    · rcases hpa with rfl | hpa
      · exact h.params
      · rw [h.ckpt] at hpa
        exact (Option.some.inj hpa).symm
    · rcases hc with rfl | hc
      · exact h.cfg
      · rw [h.saved] at hc
        exact (Option.some.inj hc).symm
    · rcases hs with rfl | ⟨m, hm, rfl⟩
      · exact ⟨l, hpk⟩
      · rw [hmod] at hm
        cases hm
        exact ⟨true, rfl⟩
  | save d k fixed =>
    cases hop
    rcases save_state direct nets s d k none with ⟨pk, e, hs⟩ | ⟨net', m, hn', -, rfl, -, e⟩
    · rcases hs with ⟨-, hs⟩ | ⟨-, hs, -⟩
      · simp at hs
      · rw [h.params, h.state] at hs
        exact absurd hn (hs net)
    · rw [h.params, h.state, hn] at hn'
      cases hn'
      rw [e]
      refine ⟨h.params, h.state, h.dim, h.cfg, ⟨false, by simp [h.dim]⟩, ?_, ?_, ?_⟩
      · simp only [Disk.put]
        by_cases hd : dir = d
        · subst hd
          simp only [if_true]
          by_cases hk : step = k
          · rw [if_pos hk, h.params]
          · rw [if_neg hk, h.ckpt]
        · rw [if_neg hd, h.ckpt]
      · simp only [Disk.put]
        by_cases hd : dir = d
        · exact ⟨false, by simp [hd, h.dim]⟩
        · exact ⟨l', by rw [if_neg hd, hmod]⟩
      · simp only [Disk.put]
        by_cases hd : dir = d
        · simp [hd, h.cfg]
        · rw [if_neg hd, h.saved]

theorem InStep.run {net : List ℝ → List ℝ} {p : P} {st : S} {cfg : PredictorCfg} {dir : String} {step : ℕ}
    {s : PredSystem P S} (h : InStep net p st cfg dir step s) (direct : Bool)
    (nets : P → S → List (List ℝ → List ℝ)) (hn : nets p st = [net]) (ops : List (PredOp P S))
    (hop : ∀ op ∈ ops, Keeps dir step op) : InStep net p st cfg dir step (PredSystem.run direct nets s ops) := by
  induction ops using List.reverseRecOn with
  | nil => exact h
  | append_singleton ops op ih =>
    rw [run_snoc]
    exact (ih (fun o ho => hop o (List.mem_append_left _ ho))).step direct nets hn op (hop op (by simp))

theorem inStep_save {net : List ℝ → List ℝ} (s : PredSystem P S) (direct : Bool)
    (nets : P → S → List (List ℝ → List ℝ)) (hn : nets s.pred.params s.pred.state = [net])
    (hd : s.pred.contextDim = 2) (dir : String) (step : ℕ) :
    InStep net s.pred.params s.pred.state s.pred.cfg dir step
      (PredSystem.run1 direct nets s (.save dir step none)) := by
  rcases save_state direct nets s dir step none with ⟨pk, e, hs⟩ | ⟨net', m, hn', -, rfl, -, e⟩
  · rcases hs with ⟨-, hs⟩ | ⟨-, hs, -⟩
    · simp at hs
    · exact absurd hn (hs net)
  · rw [hn] at hn'
    cases hn'
    rw [e]
    exact ⟨rfl, rfl, hd, rfl, ⟨false, by simp [hd]⟩, by simp [Disk.put], ⟨false, by simp [Disk.put, hd]⟩,
      by simp [Disk.put]⟩

/-- Once the predictor, whatever its history, is saved without fixed context, the predictions it returns are
those of the parameters it holds, as long as it is only used to predict, to save and to load that checkpoint;
where packaged modules can be called, and also right after a load, the outcome is exactly that prediction,
errors included.  Missing for C79: histories that train or load something else afterwards. -/
theorem C79_saved_partial (direct : Bool) (nets : P → S → List (List ℝ → List ℝ)) (s : PredSystem P S)
    (net : List ℝ → List ℝ) (hn : nets s.pred.params s.pred.state = [net]) (hd : s.pred.contextDim = 2)
    (dir : String) (step : ℕ) (ops : List (PredOp P S)) (hop : ∀ op ∈ ops, Keeps dir step op)
    (a : PredictArgs) :
    let s' := PredSystem.run direct nets s (.save dir step none :: ops)
    nets s'.pred.params s'.pred.state = [net] ∧
    (∀ r, outcome (PredSystem.predict direct nets a s') = .ok r →
      predictionOf (nets s'.pred.params s'.pred.state) [] s'.pred.cfg a = .ok r) ∧
    (direct = true ∨ (∃ ops' lp lc, ops = ops' ++ [.load dir step lp lc]) →
      outcome (PredSystem.predict direct nets a s') =
        predictionOf (nets s'.pred.params s'.pred.state) [] s'.pred.cfg a) := by
  intro s'
  have hi : InStep net s.pred.params s.pred.state s.pred.cfg dir step s' :=
    (inStep_save s direct nets hn hd dir step).run direct nets hn ops hop
  have hn' : nets s'.pred.params s'.pred.state = [net] := by rw [hi.params, hi.state, hn]
  obtain ⟨l, hpk⟩ := hi.packaged
  refine ⟨hn', ?_, ?_⟩
  · intro r hr
    rw [hn']
    cases hp : PredSystem.predict direct nets a s' with
    | error e t => rw [hp] at hr; cases hr
    | ok r' t =>
      rw [hp] at hr
      cases hr
      obtain ⟨m, m', net', hm, -, -, -, ht, -, h⟩ := predict_returned direct nets a s' t r hp
      rcases hm with hm | ⟨hm, -⟩
      · rw [hpk] at hm
        cases hm
        rcases ht with ht | ⟨ht, -⟩
        · cases ht
          exact h
        · cases ht
      · rw [hpk] at hm
        cases hm
  · intro h
    rw [hn']
    have hl : l = true ∨ direct = true := by
      rcases h with h | ⟨ops', lp, lc, rfl⟩
      · exact .inr h
      · left
        have hi' : InStep net s.pred.params s.pred.state s.pred.cfg dir step
            (PredSystem.run direct nets s (.save dir step none :: ops')) :=
          (inStep_save s direct nets hn hd dir step).run direct nets hn ops'
            (fun o ho => hop o (List.mem_append_left _ ho))
        have e : s' = PredSystem.run1 direct nets
            (PredSystem.run direct nets s (.save dir step none :: ops')) (.load dir step lp lc) := by
          rw [← run_snoc]
          rfl
        rw [e] at hpk
        obtain ⟨l', hmod⟩ := hi'.model
        simp only [PredSystem.run1, PredSystem.load, hi'.ckpt, hmod, hi'.saved, Option.map_some] at hpk
        cases lp <;> cases lc <;> simp at hpk <;> exact hpk
    rcases predict_traced direct nets a s' hpk rfl hl rfl with ⟨r, h1, h2⟩ | ⟨e, h1, h2⟩
    · rw [h1]
      exact h2.symm
    · rw [h1]
      exact h2.symm

/-- Training a predictor into which a model was loaded does not change its predictions. -/
theorem C79_stale (direct : Bool) (nets : P → S → List (List ℝ → List ℝ)) (s : PredSystem P S)
    (net : List ℝ → List ℝ) (hn : nets s.pred.params s.pred.state = [net]) (hd : s.pred.contextDim = 2)
    (dir : String) (step : ℕ) (lp lc : Bool) (p : P) (st : S) (a : PredictArgs) :
    let s' := PredSystem.run direct nets s
      [.save dir step none, .load dir step lp lc, .train p st]
    s'.pred.params = p ∧ s'.pred.state = st ∧
    outcome (PredSystem.predict direct nets a s') = predictionOf [net] [] s.pred.cfg a := by
  intro s'
  refine ⟨rfl, rfl, ?_⟩
  have hi := inStep_save s direct nets hn hd dir step
  obtain ⟨l, hmod⟩ := hi.model
  have hs' : s'.pred.packaged = some ⟨[], 2, some net, true⟩ ∧ s'.pred.cfg = s.pred.cfg := by
    have e : s' = PredSystem.run1 direct nets (PredSystem.run1 direct nets
        (PredSystem.run1 direct nets s (.save dir step none)) (.load dir step lp lc)) (.train p st) := rfl
    rw [e]
    have hcfg := hi.cfg
    generalize PredSystem.run1 direct nets s (.save dir step none) = t at hi hmod hcfg
    simp only [PredSystem.run1, PredSystem.load, hi.ckpt, hmod, hi.saved, Option.map_some,
      Predictor.trained]
    cases lp <;> cases lc <;> simp [hcfg]
  obtain ⟨h1, h2⟩ := hs'
  rw [← h2]
  rcases predict_traced direct nets a s' h1 rfl (.inl rfl) rfl with ⟨r, h1, h2⟩ | ⟨e, h1, h2⟩
  · rw [h1]
    exact h2.symm
  · rw [h1]
    exact h2.symm

/-- The same happens without loading, where a module packaged in memory can be called: the first prediction
settles all later ones. -/
theorem C79_first_prediction_sticks (nets : P → S → List (List ℝ → List ℝ)) (p₀ : P) (st₀ : S)
    (net : List ℝ → List ℝ) (hn : nets p₀ st₀ = [net]) (a₀ : PredictArgs) (r₀ : List ℝ) (p : P) (st : S)
    (a : PredictArgs) :
    let s := freshSystem p₀ st₀ ⟨false, false⟩
    outcome (PredSystem.predict true nets a₀ s) = .ok r₀ →
    let s' := PredSystem.run true nets s [.predict a₀, .train p st]
    s'.pred.params = p ∧ s'.pred.state = st ∧
    outcome (PredSystem.predict true nets a s') = predictionOf [net] [] ⟨false, false⟩ a := by
  intro s h s'
  cases hp : PredSystem.predict true nets a₀ s with
  | error e t => rw [hp] at h; cases h
  | ok r t =>
    obtain ⟨m, m', net', hm, rfl, rfl, hdim, ht, -, -⟩ := predict_returned true nets a₀ s t r hp
    have hnet : net' = net := by
      rcases ht with ht | ⟨-, ht⟩
      · rcases hm with hm | ⟨-, hm, -⟩
        · cases hm
        · rw [hm] at ht
          cases ht
      · have : nets p₀ st₀ = [net'] := ht
        rw [hn] at this
        cases this
        rfl
    subst hnet
    have hf : m.fixed = [] := by
      rcases hm with hm | ⟨-, -, hm, -⟩
      · cases hm
      · exact hm
    have e : s' = ⟨⟨p, st, s.pred.contextDim, some { m with traced := some net' }, s.pred.cfg⟩,
        s.disk⟩ := by
      have : s' = PredSystem.run1 true nets (PredSystem.run1 true nets s (.predict a₀)) (.train p st) := rfl
      rw [this]
      simp only [PredSystem.run1, hp, Predictor.trained]
    refine ⟨by rw [e], by rw [e], ?_⟩
    have hcfg : s'.pred.cfg = ⟨false, false⟩ := by rw [e]; rfl
    have hpk : s'.pred.packaged = some { m with traced := some net' } := by rw [e]
    rw [← hcfg, ← hf]
    rcases predict_traced true nets a s' hpk rfl (.inr rfl) hdim with ⟨r, h1, h2⟩ | ⟨e, h1, h2⟩
    · rw [h1]
      exact h2.symm
    · rw [h1]
      exact h2.symm

theorem takeRows_replicate {n : ℕ} (c : ℝ) {idx : List ℕ} (h : ∀ i ∈ idx, i < n) :
    takeRows (List.replicate n c) idx = .ok (List.replicate idx.length c) := by
  induction idx with
  | nil => rfl
  | cons i is ih =>
    have hi := h i List.mem_cons_self
    simp [takeRows, ih (fun j hj => h j (List.mem_cons_of_mem _ hj)), hi, List.replicate_succ]

/-- The prediction of a constant network. -/
theorem predictionOf_const (c : ℝ) (a : PredictArgs) (hi : ∀ i ∈ a.idx, i < a.grid.positions.length)
    (hne : a.idx ≠ []) :
    predictionOf [fun _ => List.replicate a.idx.length c] [] ⟨false, false⟩ a =
      .ok (List.replicate a.idx.length c) := by
  obtain ⟨nbrs, hn⟩ := takeRows_inRange hi
  have hl := (takeRows_ok hn).1
  have hne' : nbrs.map (fun p => p - a.current) ≠ [] := by
    intro hc
    simp only [List.map_eq_nil_iff] at hc
    rw [hc] at hl
    exact hne (List.length_eq_zero_iff.1 hl.symm)
  obtain ⟨b, rs, order, hs, hp⟩ := standardize_total
    (⟨(a.beam - a.current).x / BOND, (a.beam - a.current).y / BOND⟩ : V2 ℝ) hne'
  rw [List.length_map, hl] at hp
  simp only [predictionOf, learnedPredict, predictInput, hn, hs, packagedModel, List.map_cons, List.map_nil,
    Bool.false_eq_true, if_false]
  have hp2 : (argsort order).Perm (List.range a.idx.length) := by
    have := argsort_perm order
    rwa [show order.length = a.idx.length by simpa using hp.length_eq] at this
  have hlen : (argsort order).length = a.idx.length := by simpa using hp2.length_eq
  rw [takeRows_replicate c (fun i hi => List.mem_range.1 (hp2.mem_iff.1 hi)), hlen]

/-- A history in which the predictions are not those of the parameters: the predictor is saved, loaded and
trained, after which its network gives 1 everywhere and its predictions are 0. -/
theorem C79_stale_witness (direct : Bool) (a : PredictArgs) (hi : ∀ i ∈ a.idx, i < a.grid.positions.length)
    (hne : a.idx ≠ []) :
    let nets : ℝ → Unit → List (List ℝ → List ℝ) := fun p _ => [fun _ => List.replicate a.idx.length p]
    let s := PredSystem.run direct nets (freshSystem 0 () ⟨false, false⟩)
      [.save "model" 0 none, .load "model" 0 true true, .train 1 ()]
    predictionOf (nets s.pred.params s.pred.state) [] s.pred.cfg a = .ok (List.replicate a.idx.length 1) ∧
    outcome (PredSystem.predict direct nets a s) = .ok (List.replicate a.idx.length 0) := by
  intro nets s
  obtain ⟨h1, h2, h3⟩ := C79_stale direct nets (freshSystem 0 () ⟨false, false⟩)
    (fun _ => List.replicate a.idx.length 0) rfl rfl "model" 0 true true 1 () a
  refine ⟨?_, ?_⟩
  · have hc : s.pred.cfg = ⟨false, false⟩ := rfl
    have h1' : s.pred.params = 1 := h1
    rw [hc, h1']
    exact predictionOf_const 1 a hi hne
  · exact h3.trans (predictionOf_const 0 a hi hne)

/-- Arguments that meet the hypotheses of `C79_stale_witness`: a silicon and its three neighbours. -/
example : ∃ a : PredictArgs, (∀ i ∈ a.idx, i < a.grid.positions.length) ∧ a.idx = [1, 2, 3] :=
  ⟨⟨⟨[⟨0, 0⟩, ⟨1, 0⟩, ⟨0, 1⟩, ⟨-1, 0⟩], [14, 6, 6, 6]⟩, ⟨1, 0⟩, ⟨0, 0⟩, [1, 2, 3]⟩, by simp, rfl⟩

/-- Histories that meet the hypotheses of `C79_saved_partial`. -/
example (a : PredictArgs) : ∀ op ∈ ([.load "m" 0 true true, .predict a, .save "n" 1 none, .predict a,
    .load "m" 0 false true] : List (PredOp ℝ Unit)), Keeps "m" 0 op := by
  simp [Keeps]

/-- A history that meets the hypothesis of `C79_unloaded_raises`. -/
example (a : PredictArgs) : ∀ op ∈ ([.train 1 (), .predict a, .save "n" 1 none] : List (PredOp ℝ Unit)),
    ¬IsLoad op := by
  simp [IsLoad]

/-! ### C80 -/

/-- Calls that spare a directory leave its contents. -/
theorem spares_run (direct : Bool) (nets : P → S → List (List ℝ → List ℝ)) (s : PredSystem P S)
    (dir : String) (ops : List (PredOp P S)) (h : ∀ op ∈ ops, Spares dir op) :
    (PredSystem.run direct nets s ops).disk dir = s.disk dir := by
  induction ops using List.reverseRecOn with
  | nil => rfl
  | append_singleton ops op ih =>
    rw [run_snoc, ← ih (fun o ho => h o (List.mem_append_left _ ho))]
    generalize PredSystem.run direct nets s ops = t
    cases op with
    | train p st => rfl
    | predict a =>
      obtain ⟨pk, e, -⟩ := predict_state direct nets a t
      rw [e]
    | load d k lp lc =>
      obtain ⟨pa, c, pk, e, -⟩ := load_state direct nets t d k lp lc
      rw [e]
    | save d k fixed =>
      have hd : d ≠ dir := h (.save d k fixed) (by simp)
      rcases save_state direct nets t d k fixed with ⟨pk, e, -⟩ | ⟨_, m, -, -, -, -, e⟩ <;>
        rw [e] <;> simp only [Disk.put, if_neg hd.symm]

/-- What a predictor with one network saved is loaded by every other predictor `q`, whatever `q` was used for
before and whatever was saved in other directories since: the parameters and the configuration are those
saved (if asked for), and the predictions are those of the saved network, preceded by the fixed context.
Missing for C80: the state of the network, used by `apply_model` (`C80_state_not_restored`). -/
theorem C80_round_trip_partial (direct : Bool) (nets nets' : P → S → List (List ℝ → List ℝ))
    (s : PredSystem P S) (net : List ℝ → List ℝ) (hn : nets s.pred.params s.pred.state = [net])
    (dir : String) (step : ℕ) (fixed : Option (List ℝ))
    (hd : s.pred.contextDim = (fixed.getD []).length + 2) :
    ∃ s₁, PredSystem.save nets dir step fixed s = .ok () s₁ ∧
    ∀ (q : Predictor P S) (ops : List (PredOp P S)), (∀ op ∈ ops, Spares dir op) → ∀ lp lc : Bool,
      let t := PredSystem.run direct nets' ⟨q, s₁.disk⟩ ops
      ∃ t', PredSystem.load dir step lp lc t = .ok () t' ∧
        t'.pred.params = (if lp then s.pred.params else t.pred.params) ∧
        t'.pred.cfg = (if lc then s.pred.cfg else t.pred.cfg) ∧
        t'.disk = t.disk ∧
        ∀ a, outcome (PredSystem.predict direct nets' a t') =
          predictionOf [net] (fixed.getD []) t'.pred.cfg a := by
  rcases save_state direct nets s dir step fixed with ⟨pk, e, hs⟩ | ⟨net', m, hn', -, rfl, hok, e⟩
  · rcases hs with ⟨-, hs⟩ | ⟨-, hs, -⟩
    · omega
    · exact absurd hn (hs net)
  rw [hn] at hn'
  cases hn'
  refine ⟨_, hok, ?_⟩
  intro q ops hops lp lc t
  have hdisk : t.disk dir = ⟨fun n => if n = step then some s.pred.params else (s.disk dir).ckpt n,
      some ⟨fixed.getD [], s.pred.contextDim - (fixed.getD []).length, some net, false⟩,
      some s.pred.cfg⟩ := by
    have := spares_run direct nets' ⟨q, (PredSystem.run1 direct nets s (.save dir step fixed)).disk⟩ dir ops
      hops
    rw [show t = _ from rfl, this, e]
    simp [Disk.put]
  have hdim : s.pred.contextDim - (fixed.getD []).length = 2 := by omega
  have hload : ∃ t', PredSystem.load dir step lp lc t = .ok () t' ∧
        t'.pred.params = (if lp then s.pred.params else t.pred.params) ∧
        t'.pred.cfg = (if lc then s.pred.cfg else t.pred.cfg) ∧
        t'.disk = t.disk ∧ t'.pred.packaged = some ⟨fixed.getD [], 2, some net, true⟩ := by
    simp only [PredSystem.load, hdisk, hdim, if_true, Option.map_some]
    cases lp <;> cases lc <;>
      simp only [if_true, if_false, Bool.false_eq_true] <;> exact ⟨_, rfl, rfl, rfl, rfl, rfl⟩
  obtain ⟨t', h1, h2, h3, h4, h5⟩ := hload
  refine ⟨t', h1, h2, h3, h4, fun a => ?_⟩
  rcases predict_traced direct nets' a t' h5 rfl (.inl rfl) rfl with ⟨r, h1, h2⟩ | ⟨e, h1, h2⟩
  · rw [h1]
    exact h2.symm
  · rw [h1]
    exact h2.symm

/-- Saving, successful or not, touches no other directory and no other checkpoint, and no other call touches
the disk. -/
theorem C80_nothing_else_touched (direct : Bool) (nets : P → S → List (List ℝ → List ℝ))
    (s : PredSystem P S) (op : PredOp P S) :
    (∀ dir step fixed, op = .save dir step fixed →
      (∀ d, d ≠ dir → (PredSystem.run1 direct nets s op).disk d = s.disk d) ∧
      (∀ k, k ≠ step → ((PredSystem.run1 direct nets s op).disk dir).ckpt k = (s.disk dir).ckpt k) ∧
      ((PredSystem.run1 direct nets s op).disk dir).ckpt step = some s.pred.params) ∧
    ((∀ dir step fixed, op ≠ .save dir step fixed) → (PredSystem.run1 direct nets s op).disk = s.disk) := by
  constructor
  · rintro dir step fixed rfl
    rcases save_state direct nets s dir step fixed with ⟨pk, e, -⟩ | ⟨_, m, -, -, -, -, e⟩ <;> rw [e] <;>
      refine ⟨fun d hd => by simp [Disk.put, hd], fun k hk => by simp [Disk.put, hk], by simp [Disk.put]⟩
  · intro h
    cases op with
    | train p st => rfl
    | predict a =>
      obtain ⟨pk, e, -⟩ := predict_state direct nets a s
      rw [e]
    | load d k lp lc =>
      obtain ⟨pa, c, pk, e, -⟩ := load_state direct nets s d k lp lc
      rw [e]
    | save d k fixed => exact absurd rfl (h d k fixed)

/-- C46 for a predictor: whatever networks its parameters and state stand for, the rates it gives are positive and
their sum is the mean over all members of the ensemble. -/
theorem C46_predictor (nets : P → S → List (List ℝ → List ℝ)) (s : Predictor P S) (states : ℕ) (hs : 1 ≤ states)
    (x : List ℝ) (heads : List (List ℝ → List ℝ)) (hne : heads ≠ []) (hlen : ∀ f ∈ heads, (f x).length = states + 1)
    (hn : nets s.params s.state = heads.map (fun f y => networkOutput (f y))) :
    (s.applyModel nets states x).length = states ∧ (∀ r ∈ s.applyModel nets states x, 0 < r) ∧
    (s.applyModel nets states x).sum =
      (heads.map (fun f => ((f x).getLast?.map softplus).getD 0)).sum / heads.length := by
  have e : s.applyModel nets states x = PD.applyModel states ((heads.map (fun f => f x)).map networkOutput) := by
    unfold Predictor.applyModel
    rw [hn, List.map_map, List.map_map]
    rfl
  have := C46_split_of_total states hs (heads.map (fun f => f x)) (by simpa using hne) (by simpa using hlen)
  rw [e]
  simpa [List.map_map, Function.comp_def] using this

/-- Loading leaves the state of the network as it is. -/
theorem C80_state_kept (direct : Bool) (nets : P → S → List (List ℝ → List ℝ)) (s : PredSystem P S)
    (dir : String) (step : ℕ) (lp lc : Bool) :
    (PredSystem.run1 direct nets s (.load dir step lp lc)).pred.state = s.pred.state := by
  obtain ⟨pa, c, pk, e, -⟩ := load_state direct nets s dir step lp lc
  rw [e]

/-- So a loaded predictor does not give the rates of the one that was saved: here the network's output
depends on its state, as it does with batch normalisation. -/
theorem C80_state_not_restored (direct : Bool) :
    let nets : Unit → ℝ → List (List ℝ → List ℝ) := fun _ st => [fun _ => [0, st]]
    let saver : PredSystem Unit ℝ := freshSystem () 1 ⟨false, false⟩
    let saved := PredSystem.run1 direct nets saver (.save "model" 0 none)
    let loader := PredSystem.run1 direct nets ⟨Predictor.fresh () 0 ⟨false, false⟩, saved.disk⟩
      (.load "model" 0 true true)
    saved.pred.applyModel nets 1 [0, 0] = [1] ∧ loader.pred.applyModel nets 1 [0, 0] = [0] := by
  intro nets saver saved loader
  have h1 : saved.pred.state = 1 := rfl
  have h2 : loader.pred.state = 0 := C80_state_kept direct nets _ _ _ _ _
  have key : ∀ st : ℝ, PD.applyModel 1 ((nets () st).map (fun net => net [0, 0])) = [st] := by
    intro st
    simp [nets, PD.applyModel, columnMeans, splitRates, softmax, listMax]
  constructor
  · unfold Predictor.applyModel
    rw [h1]
    exact key 1
  · unfold Predictor.applyModel
    rw [h2]
    exact key 0

/-- Saving a second step in the same directory replaces the model of the first: loading the first step gives
its parameters and the predictions of the second. -/
theorem C80_steps_share_a_model (direct : Bool) (nets : P → S → List (List ℝ → List ℝ)) (s : PredSystem P S)
    (p : P) (st : S) (net net' : List ℝ → List ℝ) (hn : nets s.pred.params s.pred.state = [net])
    (hn' : nets p st = [net']) (hd : s.pred.contextDim = 2) (dir : String) (a : PredictArgs) :
    let s' := PredSystem.run direct nets s
      [.save dir 0 none, .train p st, .save dir 1 none, .load dir 0 true true]
    s'.pred.params = s.pred.params ∧
    outcome (PredSystem.predict direct nets a s') = predictionOf [net'] [] s.pred.cfg a := by
  intro s'
  have h1 := inStep_save s direct nets hn hd dir 0
  set s1 := PredSystem.run1 direct nets s (.save dir 0 none) with hs1
  set s2 : PredSystem P S := PredSystem.run1 direct nets s1 (.train p st) with hs2
  have h2 := inStep_save s2 direct nets (net := net') hn' h1.dim dir 1
  set s3 := PredSystem.run1 direct nets s2 (.save dir 1 none) with hs3
  have hk : (s3.disk dir).ckpt 0 = some s.pred.params := by
    rw [hs3, ((C80_nothing_else_touched direct nets s2 _).1 dir 1 none rfl).2.1 0 (by norm_num)]
    exact h1.ckpt
  obtain ⟨l, hm⟩ := h2.model
  have e : s' = PredSystem.run1 direct nets s3 (.load dir 0 true true) := rfl
  have hcfg : s2.pred.cfg = s.pred.cfg := h1.cfg
  have hs' : s'.pred.params = s.pred.params ∧ s'.pred.cfg = s.pred.cfg ∧
      s'.pred.packaged = some ⟨[], 2, some net', true⟩ := by
    rw [e]
    simp only [PredSystem.run1, PredSystem.load, hk, hm, h2.saved, Option.map_some, if_true]
    exact ⟨trivial, hcfg, trivial⟩
  obtain ⟨e1, e2, e3⟩ := hs'
  refine ⟨e1, ?_⟩
  rw [← e2]
  rcases predict_traced direct nets a s' e3 rfl (.inl rfl) rfl with ⟨r, h1, h2⟩ | ⟨e, h1, h2⟩
  · rw [h1]
    exact h2.symm
  · rw [h1]
    exact h2.symm

/-- Saving an ensemble of several models raises, but only after the checkpoint has been written; loading
from such a directory then raises too, and leaves a predictor with the checkpoint's parameters and its
earlier model. -/
theorem C80_ensemble_half_saved (nets : P → S → List (List ℝ → List ℝ)) (s : PredSystem P S)
    (hn : ∀ net, nets s.pred.params s.pred.state ≠ [net]) (dir : String) (step : ℕ)
    (hempty : (s.disk dir).model = none) :
    ∃ s₁, PredSystem.save nets dir step none s = .error .valueError s₁ ∧
      (s₁.disk dir).ckpt step = some s.pred.params ∧
      ∀ (q : Predictor P S) (lc : Bool), PredSystem.load dir step true lc ⟨q, s₁.disk⟩ =
        .error .notFound ⟨{ q with params := s.pred.params }, s₁.disk⟩ := by
  obtain ⟨⟨pa, st, cd, pk, cfg⟩, disk⟩ := s
  simp only at hn hempty
  have hsave : PredSystem.save nets dir step none ⟨⟨pa, st, cd, pk, cfg⟩, disk⟩ = .error .valueError
      ⟨⟨pa, st, cd, some ⟨[], cd, none, false⟩, cfg⟩, disk.put dir { disk dir with
        ckpt := fun n => if n = step then some pa else (disk dir).ckpt n }⟩ := by
    have ht : Packaged.trace (nets pa st) ⟨[], cd, none, false⟩ = .error .valueError := by
      match h : nets pa st with
      | [] => rfl
      | [net] => exact absurd h (hn net)
      | _ :: _ :: _ => rfl
    simp only [PredSystem.save, Predictor.package, Option.getD_none, List.length_nil, Nat.not_lt_zero,
      if_false, Nat.sub_zero, ht]
  refine ⟨_, hsave, by simp [Disk.put], ?_⟩
  intro q lc
  simp [PredSystem.load, Disk.put, hempty]

theorem contextDim_run (direct : Bool) (nets : P → S → List (List ℝ → List ℝ)) (s : PredSystem P S)
    (ops : List (PredOp P S)) : (PredSystem.run direct nets s ops).pred.contextDim = s.pred.contextDim := by
  induction ops using List.reverseRecOn with
  | nil => rfl
  | append_singleton ops op ih =>
    rw [run_snoc, ← ih]
    generalize PredSystem.run direct nets s ops = t
    cases op with
    | train p st => rfl
    | load dir step lp lc =>
      obtain ⟨pa, c, pk, e, -⟩ := load_state direct nets t dir step lp lc
      rw [e]
    | save dir step fixed =>
      rcases save_state direct nets t dir step fixed with ⟨pk, e, -⟩ | ⟨_, m, -, -, -, -, e⟩ <;> rw [e]
    | predict a =>
      obtain ⟨pk, e, -⟩ := predict_state direct nets a t
      rw [e]

/-- The number of contexts a configuration asks for besides the position of the beam. -/
def contexts (cfg : PredictorCfg) : ℕ :=
  match cfg.useVoltage, cfg.useCurrent with
  | false, false => 0
  | true, false => 1
  | false, true => 1
  | true, true => 2

/-- A predictor, whatever its history, can be saved with as many fixed contexts as it has, or two more (the
position); what is loaded from there predicts the rates of the saved network for these contexts if it was saved
with one value for each of its contexts, and never returns a prediction otherwise. -/
theorem C80_fixed_context (direct : Bool) (nets nets' : P → S → List (List ℝ → List ℝ)) (params : P) (state : S)
    (cfg : PredictorCfg) (history : List (PredOp P S)) (net : List ℝ → List ℝ) (dir : String) (step : ℕ)
    (fixed : List ℝ) :
    let s := PredSystem.run direct nets (freshSystem params state cfg) history
    nets s.pred.params s.pred.state = [net] →
    (contexts cfg + 2 < fixed.length → ∃ s₁, PredSystem.save nets dir step (some fixed) s = .error .valueError s₁) ∧
    (fixed.length ≤ contexts cfg + 2 → ∃ s₁, PredSystem.save nets dir step (some fixed) s = .ok () s₁ ∧
      ∀ (q : Predictor P S) (lp lc : Bool),
        ∃ t, PredSystem.load dir step lp lc ⟨q, s₁.disk⟩ = .ok () t ∧
          (fixed.length = contexts cfg → ∀ a, outcome (PredSystem.predict direct nets' a t) =
            predictionOf [net] fixed t.pred.cfg a) ∧
          (fixed.length ≠ contexts cfg → ∀ a r, outcome (PredSystem.predict direct nets' a t) ≠ .ok r)) := by
  intro s hn
  have hdim : s.pred.contextDim = contexts cfg + 2 := by
    rw [contextDim_run]
    obtain ⟨v, c⟩ := cfg
    cases v <;> cases c <;> rfl
  constructor
  · intro hl
    have : s.pred.contextDim < ((some fixed).getD []).length := by rw [hdim]; exact hl
    exact ⟨_, by simp only [PredSystem.save, Predictor.package, if_pos this]; rfl⟩
  · intro hl
    by_cases hf : fixed.length = contexts cfg
    · obtain ⟨s₁, h1, h2⟩ := C80_round_trip_partial direct nets nets' s net hn dir step (some fixed)
        (by rw [hdim, ← hf]; rfl)
      refine ⟨s₁, h1, fun q lp lc => ?_⟩
      obtain ⟨t, h3, -, -, -, h4⟩ := h2 q [] (by simp) lp lc
      exact ⟨t, h3, fun _ => h4, fun h => absurd hf h⟩
    · rcases save_state direct nets s dir step (some fixed) with ⟨pk, e, hs⟩ | ⟨net', m, hn', -, rfl, hok, e⟩
      · rcases hs with ⟨-, hs⟩ | ⟨-, hs, -⟩
        · rw [hdim] at hs
          simp only [Option.getD_some] at hs
          omega
        · exact absurd hn (hs net)
      refine ⟨_, hok, fun q lp lc => ?_⟩
      rw [e]
      simp only [Option.getD_some]
      have hload : ∃ t : PredSystem P S, PredSystem.load dir step lp lc ⟨q, s.disk.put dir
            ⟨fun n => if n = step then some s.pred.params else (s.disk dir).ckpt n,
              some ⟨fixed, s.pred.contextDim - fixed.length, some net', false⟩, some s.pred.cfg⟩⟩ = .ok () t ∧
          t.pred.packaged = some ⟨fixed, s.pred.contextDim - fixed.length, some net', true⟩ := by
        cases lp <;> cases lc <;> exact ⟨_, by simp [PredSystem.load, Disk.put]; rfl, rfl⟩
      obtain ⟨t, h1, h2⟩ := hload
      refine ⟨t, h1, fun h => absurd h hf, fun _ a r hr => ?_⟩
      cases hp : PredSystem.predict direct nets' a t with
      | error e t' => rw [hp] at hr; cases hr
      | ok r' t' =>
        have hne : s.pred.contextDim - fixed.length ≠ 2 := by rw [hdim]; omega
        simp only [PredSystem.predict, Predictor.ensurePackaged, h2] at hp
        split at hp
        · cases hp
        · simp [hne] at hp

/-- The hypotheses of `C80_round_trip_partial`: a predictor with a voltage, saved at 60 kV. -/
example : (Predictor.fresh (0 : ℝ) () ⟨true, false⟩).contextDim = ((some [60] : Option (List ℝ)).getD []).length + 2 ∧
    ∀ op ∈ ([.save "other" 3 none, .train 5 ()] : List (PredOp ℝ Unit)), Spares "model" op := by
  simp [Predictor.fresh, Spares]

/-- The hypotheses of `C80_fixed_context`: one network, whatever the parameters. -/
example : (fun (_ : ℝ) (_ : Unit) => [fun x : List ℝ => x])
    (PredSystem.run true (fun _ _ => [fun x => x]) (freshSystem (0 : ℝ) () ⟨true, true⟩) [.train 5 ()]).pred.params () =
      [fun x => x] ∧ [60, 100].length = contexts ⟨true, true⟩ := ⟨rfl, rfl⟩

/-- Two networks whose total rates differ: the sum of the rates is their mean. -/
example : (Predictor.applyModel (fun (_ : ℝ) (_ : Unit) => [fun y => networkOutput (y ++ [1]), fun y => networkOutput (y ++ [3])])
    (Predictor.fresh (0 : ℝ) () ⟨true, true⟩) 2 [5, 7]).sum = (softplus 1 + softplus 3) / 2 := by
  have := (C46_predictor (fun (_ : ℝ) (_ : Unit) => [fun y => networkOutput (y ++ [1]), fun y => networkOutput (y ++ [3])])
    (Predictor.fresh (0 : ℝ) () ⟨true, true⟩) 2 (by norm_num) [5, 7] [fun y => y ++ [1], fun y => y ++ [3]] (by simp)
    (by simp) rfl).2.2
  rw [this]
  simp

end PD.Props
