/- Which state is packed after training (C102). -/
import Verif.Model.BestCheckpoint
import Verif.Spec.Training
import Verif.Props.Training
import Mathlib.Tactic.Linarith
import Mathlib.Tactic.NormNum
import Mathlib.Data.Rat.Defs
import Mathlib.Algebra.Order.Field.Rat

set_option linter.unusedSectionVars false
set_option linter.unusedSimpArgs false

namespace PD.Props
open PD PD.Spec

section
variable {K W M : Type} [Field K] [LinearOrder K] [IsStrictOrderedRing K]

theorem mapM_scores {best : M → Except Err K} {score : M → K} :
    ∀ l : List (ℕ × W × Option M), (∀ x ∈ l, ∀ m, x.2.2 = some m → best m = .ok (score m)) →
    (l.filterMap (scoreOf best)).mapM id =
      (.ok (l.filterMap (fun x => x.2.2.map (fun m => (score m, x.1)))) : Except Err (List (K × ℕ))) := by
  intro l
  induction l with
  | nil => intro _; rfl
  | cons x l ih =>
    intro h
    obtain ⟨k, w, mo⟩ := x
    have ih := ih (fun y hy => h y (List.mem_cons_of_mem _ hy))
    cases mo with
    | none =>
      rw [List.filterMap_cons_none (by simp [scoreOf]), List.filterMap_cons_none (by simp)]
      exact ih
    | some m =>
      have hb := h _ List.mem_cons_self m rfl
      rw [List.filterMap_cons_some (b := Except.ok (score m, k)) (by simp [scoreOf, hb, Except.map]),
        List.filterMap_cons_some (b := (score m, k)) (by simp)]
      rw [List.mapM_cons, ih]
      rfl

/-- The best step is that of a checkpoint with metrics, and none has a greater score. -/
theorem bestStep_max (best : M → Except Err K) (score : M → K) (c : Checkpoints (W × Option M))
    (hb : ∀ k w m, (k, w, some m) ∈ c → best m = .ok (score m)) (hne : ∃ k w m, (k, w, some m) ∈ c) :
    ∃ k w m, bestStep best c = .ok (some k) ∧ (k, w, some m) ∈ c ∧
      ∀ k' w' m', (k', w', some m') ∈ c → score m' ≤ score m := by
  have h1 := mapM_scores (best := best) (score := score) c.reverse (by
    rintro ⟨k, w, mo⟩ hx m rfl
    exact hb k w m (List.mem_reverse.1 hx))
  simp only [bestStep, h1]
  set scores := c.reverse.filterMap (fun x => x.2.2.map (fun m => (score m, x.1))) with hs
  have hmem : ∀ y, y ∈ scores ↔ ∃ k w m, (k, w, some m) ∈ c ∧ y = (score m, k) := by
    intro y
    rw [hs, List.mem_filterMap]
    constructor
    · rintro ⟨⟨k, w, mo⟩, hx, hy⟩
      cases mo with
      | none => simp at hy
      | some m =>
        simp only [Option.map_some, Option.some.injEq] at hy
        exact ⟨k, w, m, List.mem_reverse.1 hx, hy.symm⟩
    · rintro ⟨k, w, m, hx, rfl⟩
      exact ⟨_, List.mem_reverse.2 hx, rfl⟩
  have hperm := List.perm_insertionSort (fun a b : K × ℕ => a.1 ≤ b.1) scores
  have : Std.Total (fun a b : K × ℕ => a.1 ≤ b.1) := ⟨fun a b => le_total _ _⟩
  have : IsTrans (K × ℕ) (fun a b => a.1 ≤ b.1) := ⟨fun a b c => le_trans⟩
  have hsort := List.pairwise_insertionSort (fun a b : K × ℕ => a.1 ≤ b.1) scores
  set sorted := scores.insertionSort (fun a b : K × ℕ => a.1 ≤ b.1) with hsorted
  have hnil : sorted ≠ [] := by
    obtain ⟨k, w, m, h⟩ := hne
    have : (score m, k) ∈ sorted := hperm.mem_iff.2 ((hmem _).2 ⟨k, w, m, h, rfl⟩)
    exact List.ne_nil_of_mem this
  have hlast := hperm.mem_iff.1 (List.getLast_mem hnil)
  obtain ⟨k, w, m, hk, he⟩ := (hmem _).1 hlast
  refine ⟨k, w, m, ?_, hk, ?_⟩
  · rw [List.getLast?_eq_getLast_of_ne_nil hnil, he]
    rfl
  · intro k' w' m' h'
    have hin : (score m', k') ∈ sorted := hperm.mem_iff.2 ((hmem _).2 ⟨k', w', m', h', rfl⟩)
    rw [← List.dropLast_append_getLast hnil] at hin hsort
    rw [he] at hin hsort
    rw [List.pairwise_append] at hsort
    rcases List.mem_append.1 hin with h | h
    · simpa using hsort.2.2 _ h _ (List.mem_singleton.2 rfl)
    · rw [List.mem_singleton] at h
      have := (Prod.mk.inj h).1
      exact this.le

/-- What is on disk: steps in decreasing order; the states are results of epochs; the metrics are those of the
epoch that led to the state. -/
structure Scored (epoch : ℕ → W → W) (eval : ℕ → W → M) (init : W) (c : Checkpoints (W × Option M)) : Prop where
  desc : (c.map Prod.fst).Pairwise (· > ·)
  states : ∀ k w mo, (k, w, mo) ∈ c → ∃ log, w = afterEpochs epoch init log
  genuine : ∀ k w m, (k, w, some m) ∈ c → m = eval k w ∧ ∃ log, w = afterEpochs epoch init (log ++ [k])

theorem latest_head {c : Checkpoints W} {k : ℕ}
    (h : c.latestStep = some k) : ∀ x ∈ c, x.1 ≤ k := by
  intro x hx
  have h1 := (List.max?_eq_some_iff (a := k) (xs := c.map Prod.fst)).1 h
  exact h1.2 _ (List.mem_map_of_mem hx)

theorem Scored.save {epoch : ℕ → W → W} {eval : ℕ → W → M} {init : W} {c : Checkpoints (W × Option M)}
    (h : Scored epoch eval init c) (k : ℕ) (w : W) (mo : Option M)
    (hw : ∃ log, w = afterEpochs epoch init log)
    (hm : ∀ m, mo = some m → m = eval k w ∧ ∃ log, w = afterEpochs epoch init (log ++ [k])) :
    Scored epoch eval init (c.save k (w, mo)) := by
  have key : (∀ x ∈ c, x.1 < k) → Scored epoch eval init ((k, (w, mo)) :: c) := by
    intro hlt
    refine ⟨?_, ?_, ?_⟩
    · rw [List.map_cons, List.pairwise_cons]
      refine ⟨?_, h.desc⟩
      intro a ha
      obtain ⟨x, hx, rfl⟩ := List.mem_map.1 ha
      exact hlt x hx
    · intro k' w' mo' h'
      rcases List.mem_cons.1 h' with h' | h'
      · cases h'
        exact hw
      · exact h.states k' w' mo' h'
    · intro k' w' m' h'
      rcases List.mem_cons.1 h' with h' | h'
      · cases h'
        exact hm m' rfl
      · exact h.genuine k' w' m' h'
  unfold Checkpoints.save
  cases hl : c.latestStep with
  | none =>
    apply key
    have : c = [] := by
      simpa [Checkpoints.latestStep, List.max?_eq_none_iff] using hl
    simp [this]
  | some j =>
    simp only
    split
    · rename_i hlt
      exact key (fun x hx => lt_of_le_of_lt (latest_head hl x hx) hlt)
    · exact h

theorem Scored.loop {epoch : ℕ → W → W} {eval : ℕ → W → M} {init : W} (es : List ℕ) :
    ∀ {c : Checkpoints (W × Option M)} {s : W × Option M}, Scored epoch eval init c →
    (∃ log, s.1 = afterEpochs epoch init log) →
    Scored epoch eval init (epochLoop (evaluated epoch eval) es (c, s)).1 ∧
    ∃ log, (epochLoop (evaluated epoch eval) es (c, s)).2.1 = afterEpochs epoch init log := by
  induction es with
  | nil => intro c s h hs; exact ⟨h, hs⟩
  | cons e es ih =>
    intro c s h hs
    obtain ⟨log, hs⟩ := hs
    have he : (evaluated epoch eval e s).1 = afterEpochs epoch init (log ++ [e]) := by
      rw [afterEpochs_append, ← hs]
      rfl
    simp only [epochLoop]
    refine ih (h.save e _ _ ⟨_, he⟩ ?_) ⟨_, he⟩
    intro m hm
    exact ⟨(Option.some.inj hm).symm, _, he⟩

theorem restore_some {c : Checkpoints W} {k : ℕ} {w : W} (h : c.restore k = some w) : (k, w) ∈ c := by
  unfold Checkpoints.restore at h
  induction c with
  | nil => simp at h
  | cons x c ih =>
    obtain ⟨j, v⟩ := x
    rw [List.lookup_cons] at h
    split at h
    · rename_i hj
      rw [beq_iff_eq] at hj
      cases h
      rw [hj]
      exact List.mem_cons_self
    · exact List.mem_cons_of_mem _ (ih h)

theorem Scored.run {epoch : ℕ → W → W} {eval : ℕ → W → M} {init : W} {c : Checkpoints (W × Option M)}
    (h : Scored epoch eval init c) (epochs : ℕ) (crash : Option ℕ) :
    Scored epoch eval init (scoredRun epoch eval init epochs crash c) := by
  unfold scoredRun
  cases hst : startState c (init, none) with
  | error e => exact h
  | ok w =>
    have hw : ∃ log, w.1 = afterEpochs epoch init log := by
      unfold startState at hst
      split at hst
      · cases hst; exact ⟨[], rfl⟩
      · cases hst; exact ⟨[], rfl⟩
      · rename_i k _
        split at hst
        · cases hst
        · rename_i w' hw'
          cases hst
          exact h.states _ w.1 w.2 (restore_some hw')
    cases crash with
    | some n => exact (h.loop _ hw).1
    | none =>
      obtain ⟨h1, h2⟩ := h.loop (List.range' (c.latestStep.getD 0) (epochs - c.latestStep.getD 0)) hw
      exact h1.save _ _ _ h2 (by simp)

theorem Scored.runs {epoch : ℕ → W → W} {eval : ℕ → W → M} {init : W} (epochs : ℕ) (rs : List (Option ℕ)) :
    ∀ {c : Checkpoints (W × Option M)}, Scored epoch eval init c →
    Scored epoch eval init (scoredRuns epoch eval init epochs rs c) := by
  induction rs with
  | nil => intro c h; exact h
  | cons r rs ih => intro c h; exact ih (h.run epochs r)

theorem Scored.empty (epoch : ℕ → W → W) (eval : ℕ → W → M) (init : W) :
    Scored epoch eval init ([] : Checkpoints (W × Option M)) := ⟨List.Pairwise.nil, by simp, by simp⟩

theorem restore_mem {c : Checkpoints W} (hd : (c.map Prod.fst).Pairwise (· > ·)) {k : ℕ} {w : W}
    (h : (k, w) ∈ c) : c.restore k = some w := by
  unfold Checkpoints.restore
  induction c with
  | nil => simp at h
  | cons x c ih =>
    obtain ⟨j, v⟩ := x
    rw [List.map_cons, List.pairwise_cons] at hd
    rcases List.mem_cons.1 h with h | h
    · cases h
      simp
    · have hlt : j > k := hd.1 _ (List.mem_map_of_mem (f := Prod.fst) h)
      rw [List.lookup_cons]
      have hne : (k == j) = false := by simp; omega
      rw [hne]
      exact ih hd.2 h

/-- Packing after any runs: the state of the best evaluation on disk. -/
theorem pack_best (epoch : ℕ → W → W) (eval : ℕ → W → M) (best : M → Except Err K) (score : M → K)
    (hb : ∀ k w, best (eval k w) = .ok (score (eval k w))) (init : W) (epochs : ℕ) (rs : List (Option ℕ))
    (hne : ∃ k w m, (k, w, some m) ∈ scoredRuns epoch eval init epochs rs []) :
    ∃ k w, bestStep best (scoredRuns epoch eval init epochs rs []) = .ok (some k) ∧
      packBest best (scoredRuns epoch eval init epochs rs []) = .ok w ∧
      (k, w, some (eval k w)) ∈ scoredRuns epoch eval init epochs rs [] ∧
      (∃ log, w = afterEpochs epoch init (log ++ [k])) ∧
      ∀ k' w' m', (k', w', some m') ∈ scoredRuns epoch eval init epochs rs [] →
        m' = eval k' w' ∧ score (eval k' w') ≤ score (eval k w) := by
  have h := (Scored.empty epoch eval init).runs epochs rs
  set c := scoredRuns epoch eval init epochs rs [] with hc
  obtain ⟨k, w, m, h1, h2, h3⟩ := bestStep_max best score c (by
    intro k w m hm
    rw [(h.genuine k w m hm).1]
    exact hb k w) hne
  obtain ⟨hm, hlog⟩ := h.genuine k w m h2
  refine ⟨k, w, h1, ?_, hm ▸ h2, hlog, ?_⟩
  · rw [packBest, h1]
    simp only
    rw [restore_mem h.desc h2]
  · intro k' w' m' h'
    have he := (h.genuine k' w' m' h').1
    refine ⟨he, ?_⟩
    rw [← he, ← hm]
    exact h3 k' w' m' h'

theorem evaluated_fst (epoch : ℕ → W → W) (eval : ℕ → W → M) (log : List ℕ) : ∀ s : W × Option M,
    (afterEpochs (evaluated epoch eval) s log).1 = afterEpochs epoch s.1 log := by
  induction log with
  | nil => intro s; rfl
  | cons k log ih => intro s; exact ih (evaluated epoch eval k s)

theorem epochLoop_entries (f : ℕ → W → W) (n : ℕ) : ∀ (s : ℕ) (c : Checkpoints W) (w : W),
    (∀ m, c.latestStep = some m → m < s) → ∀ x, x ∈ (epochLoop f (List.range' s n) (c, w)).1 ↔
      (x ∈ c ∨ ∃ j < n, x = (s + j, afterEpochs f w (List.range' s (j + 1)))) := by
  induction n with
  | zero => intro s c w _ x; simp [epochLoop]
  | succ n ih =>
    intro s c w h x
    obtain ⟨h1, h2, -⟩ := latest_save c s (f s w) h
    rw [List.range'_succ]
    simp only [epochLoop]
    rw [ih (s + 1) _ _ (by intro m hm; rw [h2] at hm; cases hm; omega), h1]
    rw [List.mem_cons]
    constructor
    · rintro ((rfl | hx) | ⟨j, hj, rfl⟩)
      · exact .inr ⟨0, by omega, rfl⟩
      · exact .inl hx
      · refine .inr ⟨j + 1, by omega, ?_⟩
        rw [List.range'_succ (n := j + 1)]
        simp only [afterEpochs, List.foldl_cons]
        congr 1
        omega
    · rintro (hx | ⟨j, hj, rfl⟩)
      · exact .inl (.inr hx)
      · cases j with
        | zero => exact .inl (.inl rfl)
        | succ j =>
          refine .inr ⟨j, by omega, ?_⟩
          rw [List.range'_succ (n := j + 1)]
          simp only [afterEpochs, List.foldl_cons]
          congr 1
          omega

/-- What an uninterrupted run saves with metrics. -/
theorem scoredRun_entries (epoch : ℕ → W → W) (eval : ℕ → W → M) (init : W) (epochs : ℕ) (k : ℕ) (w : W) (m : M) :
    (k, w, some m) ∈ scoredRun epoch eval init epochs none [] ↔
      k < epochs ∧ w = afterEpochs epoch init (List.range (k + 1)) ∧ m = eval k w := by
  have h0 : (Checkpoints.latestStep ([] : Checkpoints (W × Option M))) = none := rfl
  have he := epochLoop_entries (evaluated epoch eval) epochs 0 [] (init, none) (by simp [h0])
  have hl := (epochLoop_fresh (evaluated epoch eval) epochs 0 [] (init, none) (by simp [h0])).2
  simp only [scoredRun, startState, h0, Option.getD_none, Nat.sub_zero]
  obtain ⟨hs, -, -⟩ := latest_save (epochLoop (evaluated epoch eval) (List.range' 0 epochs) ([], (init, none))).1
    epochs ((epochLoop (evaluated epoch eval) (List.range' 0 epochs) ([], (init, none))).2.1, none) (by
      intro m hm
      rcases Nat.eq_zero_or_pos epochs with rfl | hp
      · simp only [List.range'_zero, epochLoop, h0] at hm
        cases hm
      · rw [(hl hp).1] at hm
        cases hm
        omega)
  rw [hs, List.mem_cons, he]
  have hafter : ∀ j, afterEpochs (evaluated epoch eval) (init, none) (List.range' 0 (j + 1)) =
      (afterEpochs epoch init (List.range (j + 1)), some (eval j (afterEpochs epoch init (List.range (j + 1))))) := by
    intro j
    rw [← List.range_eq_range', List.range_succ, afterEpochs_append, afterEpochs_append]
    have h1 := evaluated_fst epoch eval (List.range j) (init, none)
    generalize afterEpochs (evaluated epoch eval) (init, none) (List.range j) = s at h1 ⊢
    simp only [afterEpochs, List.foldl_cons, List.foldl_nil, evaluated] at h1 ⊢
    rw [h1]
  constructor
  · rintro (h | h | ⟨j, hj, h⟩)
    · simp at h
    · simp at h
    · rw [hafter, Nat.zero_add] at h
      simp only [Prod.mk.injEq, Option.some.injEq] at h
      obtain ⟨rfl, rfl, rfl⟩ := h
      exact ⟨hj, rfl, rfl⟩
  · rintro ⟨hk, rfl, rfl⟩
    exact .inr (.inr ⟨k, hk, by rw [hafter, Nat.zero_add]⟩)

/-- Packing after one uninterrupted run: the best of all epochs. -/
theorem pack_uninterrupted (epoch : ℕ → W → W) (eval : ℕ → W → M) (best : M → Except Err K) (score : M → K)
    (hb : ∀ k w, best (eval k w) = .ok (score (eval k w))) (init : W) (epochs : ℕ) (hpos : 0 < epochs) :
    ∃ k < epochs, bestStep best (scoredRun epoch eval init epochs none []) = .ok (some k) ∧
      packBest best (scoredRun epoch eval init epochs none []) = .ok (afterEpochs epoch init (List.range (k + 1))) ∧
      ∀ j < epochs, score (eval j (afterEpochs epoch init (List.range (j + 1)))) ≤
        score (eval k (afterEpochs epoch init (List.range (k + 1)))) := by
  have he := scoredRun_entries epoch eval init epochs
  obtain ⟨k, w, h1, h2, h3, -, h4⟩ := pack_best epoch eval best score hb init epochs [none]
    ⟨0, _, _, (he 0 _ _).2 ⟨hpos, rfl, rfl⟩⟩
  obtain ⟨hk, hw, -⟩ := (he k w _).1 h3
  rw [hw] at h2 h4
  exact ⟨k, hk, h1, h2, fun j hj => (h4 j _ _ ((he j _ _).2 ⟨hj, rfl, rfl⟩)).2⟩


theorem detector_score (s : DetectorScores K) : detectorBest s.dict = .ok s.evalAccuracy ∧
    (s.dict.lookup ("eval/", "accuracy")).getD 0 = s.evalAccuracy := by
  constructor <;> simp [detectorBest, MetricDict.get, DetectorScores.dict, epochMetrics, prefixKeys]

theorem aligner_score (t s : AlignerScores K) : alignerBest (alignerDict t s) = .ok (-s.loss - s.driftError) ∧
    -((alignerDict t s).lookup ("eval/", "loss")).getD 0 - ((alignerDict t s).lookup ("eval/", "drift_error")).getD 0 =
      -s.loss - s.driftError := by
  have e1 : (("eval/", "loss") == ("eval/", "accuracy")) = false := by decide
  have e2 : (("eval/", "drift_error") == ("eval/", "accuracy")) = false := by decide
  have e3 : (("eval/", "drift_error") == ("eval/", "loss")) = false := by decide
  have e4 : (("eval/", "drift_error") == ("eval/", "drift_loss")) = false := by decide
  constructor <;>
    simp [alignerBest, MetricDict.get, alignerDict, AlignerScores.compute, epochMetrics, prefixKeys,
      List.lookup, e1, e2, e3, e4]

theorem graph_score (t s : GraphScores K) : graphBest (graphDict t s) = .ok s.totalLoss ∧
    ((graphDict t s).lookup ("eval/", "total_loss")).getD 0 = s.totalLoss := by
  constructor <;> simp [graphBest, MetricDict.get, graphDict, GraphScores.compute, epochMetrics, prefixKeys]

/-- Training the detector without interruption and packing: the packed state is that after an epoch `k`, and no
epoch gave a state with a higher accuracy on the test images. -/
theorem C102_detector_uninterrupted_partial (epoch : ℕ → W → W) (eval : ℕ → W → DetectorScores K) (init : W)
    (epochs : ℕ) (hpos : 0 < epochs) :
    ∃ k < epochs,
      packBest detectorBest (scoredRun epoch (fun j w => (eval j w).dict) init epochs none []) =
        .ok (afterEpochs epoch init (List.range (k + 1))) ∧
      ∀ j < epochs, (eval j (afterEpochs epoch init (List.range (j + 1)))).evalAccuracy ≤
        (eval k (afterEpochs epoch init (List.range (k + 1)))).evalAccuracy := by
  obtain ⟨k, hk, -, h1, h2⟩ := pack_uninterrupted epoch (fun j w => (eval j w).dict) detectorBest
    (fun m => (m.lookup ("eval/", "accuracy")).getD 0) (by
      intro k w; rw [(detector_score _).2]; exact (detector_score _).1) init epochs hpos
  refine ⟨k, hk, h1, fun j hj => ?_⟩
  have := h2 j hj
  rwa [(detector_score _).2, (detector_score _).2] at this

/-- Training the aligner without interruption and packing: no epoch gave a state with a lower sum of loss and
drift error on the test images. -/
theorem C102_aligner_uninterrupted_partial (epoch : ℕ → W → W) (train eval : ℕ → W → AlignerScores K) (init : W)
    (epochs : ℕ) (hpos : 0 < epochs) :
    ∃ k < epochs,
      packBest alignerBest (scoredRun epoch (fun j w => alignerDict (train j w) (eval j w)) init epochs none []) =
        .ok (afterEpochs epoch init (List.range (k + 1))) ∧
      ∀ j < epochs,
        (eval k (afterEpochs epoch init (List.range (k + 1)))).loss +
          (eval k (afterEpochs epoch init (List.range (k + 1)))).driftError ≤
        (eval j (afterEpochs epoch init (List.range (j + 1)))).loss +
          (eval j (afterEpochs epoch init (List.range (j + 1)))).driftError := by
  obtain ⟨k, hk, -, h1, h2⟩ := pack_uninterrupted epoch (fun j w => alignerDict (train j w) (eval j w)) alignerBest
    (fun m => -(m.lookup ("eval/", "loss")).getD 0 - (m.lookup ("eval/", "drift_error")).getD 0) (by
      intro k w; rw [(aligner_score _ _).2]; exact (aligner_score _ _).1) init epochs hpos
  refine ⟨k, hk, h1, fun j hj => ?_⟩
  have := h2 j hj
  rw [(aligner_score _ _).2, (aligner_score _ _).2] at this
  linarith

/-- With any runs of training, interrupted or completed, the packed detector is the state after an epoch that was
saved with its accuracy, and no other epoch saved with its accuracy has a higher one.  Missing for C102: epochs that
are repeated after an interruption are not saved with theirs (`C102_repeated_epoch_lost`). -/
theorem C102_detector_partial (epoch : ℕ → W → W) (eval : ℕ → W → DetectorScores K) (init : W) (epochs : ℕ)
    (runs : List (Option ℕ))
    (hne : ∃ k w m, (k, w, some m) ∈ scoredRuns epoch (fun j w => (eval j w).dict) init epochs runs []) :
    ∃ k w, packBest detectorBest (scoredRuns epoch (fun j w => (eval j w).dict) init epochs runs []) = .ok w ∧
      (∃ log, w = afterEpochs epoch init (log ++ [k])) ∧
      (k, w, some (eval k w).dict) ∈ scoredRuns epoch (fun j w => (eval j w).dict) init epochs runs [] ∧
      ∀ k' w' m', (k', w', some m') ∈ scoredRuns epoch (fun j w => (eval j w).dict) init epochs runs [] →
        (eval k' w').evalAccuracy ≤ (eval k w).evalAccuracy := by
  obtain ⟨k, w, -, h1, h2, h3, h4⟩ := pack_best epoch (fun j w => (eval j w).dict) detectorBest
    (fun m => (m.lookup ("eval/", "accuracy")).getD 0) (by
      intro k w; rw [(detector_score _).2]; exact (detector_score _).1) init epochs runs hne
  refine ⟨k, w, h1, h3, h2, fun k' w' m' h => ?_⟩
  have := (h4 k' w' m' h).2
  rwa [(detector_score _).2, (detector_score _).2] at this

/-- The same for the aligner, with the sum of loss and drift error. -/
theorem C102_aligner_partial (epoch : ℕ → W → W) (train eval : ℕ → W → AlignerScores K) (init : W) (epochs : ℕ)
    (runs : List (Option ℕ))
    (hne : ∃ k w m, (k, w, some m) ∈
      scoredRuns epoch (fun j w => alignerDict (train j w) (eval j w)) init epochs runs []) :
    ∃ k w, packBest alignerBest
        (scoredRuns epoch (fun j w => alignerDict (train j w) (eval j w)) init epochs runs []) = .ok w ∧
      (∃ log, w = afterEpochs epoch init (log ++ [k])) ∧
      (k, w, some (alignerDict (train k w) (eval k w))) ∈
        scoredRuns epoch (fun j w => alignerDict (train j w) (eval j w)) init epochs runs [] ∧
      ∀ k' w' m', (k', w', some m') ∈
          scoredRuns epoch (fun j w => alignerDict (train j w) (eval j w)) init epochs runs [] →
        (eval k w).loss + (eval k w).driftError ≤ (eval k' w').loss + (eval k' w').driftError := by
  obtain ⟨k, w, -, h1, h2, h3, h4⟩ := pack_best epoch (fun j w => alignerDict (train j w) (eval j w)) alignerBest
    (fun m => -(m.lookup ("eval/", "loss")).getD 0 - (m.lookup ("eval/", "drift_error")).getD 0) (by
      intro k w; rw [(aligner_score _ _).2]; exact (aligner_score _ _).1) init epochs runs hne
  refine ⟨k, w, h1, h3, h2, fun k' w' m' h => ?_⟩
  have := (h4 k' w' m' h).2
  rw [(aligner_score _ _).2, (aligner_score _ _).2] at this
  linarith

/-- What the checkpoints of the graph aligner name as their best step is the worst one: the epoch with the
greatest total loss. -/
theorem C102_graph_best_is_worst (epoch : ℕ → W → W) (train eval : ℕ → W → GraphScores K) (init : W)
    (epochs : ℕ) (hpos : 0 < epochs) :
    ∃ k < epochs,
      bestStep graphBest (scoredRun epoch (fun j w => graphDict (train j w) (eval j w)) init epochs none []) =
        .ok (some k) ∧
      ∀ j < epochs, (eval j (afterEpochs epoch init (List.range (j + 1)))).totalLoss ≤
        (eval k (afterEpochs epoch init (List.range (k + 1)))).totalLoss := by
  obtain ⟨k, hk, h1, -, h2⟩ := pack_uninterrupted epoch (fun j w => graphDict (train j w) (eval j w)) graphBest
    (fun m => (m.lookup ("eval/", "total_loss")).getD 0) (by
      intro k w; rw [(graph_score _ _).2]; exact (graph_score _ _).1) init epochs hpos
  refine ⟨k, hk, h1, fun j hj => ?_⟩
  have := h2 j hj
  rwa [(graph_score _ _).2, (graph_score _ _).2] at this

/-- Without any epoch there is a checkpoint, but none to pack. -/
theorem C102_no_epochs (epoch : ℕ → W → W) (eval : ℕ → W → M) (init : W) (best : M → Except Err K) :
    (scoredRun epoch eval init 0 none []).latestStep = some 0 ∧
    packBest best (scoredRun epoch eval init 0 none []) = .error .notFound := by
  constructor
  · rfl
  · simp [scoredRun, startState, Checkpoints.latestStep, Checkpoints.save, epochLoop, packBest, bestStep, scoreOf,
      List.filterMap_cons, pure, Except.pure]

end

/-- A state that records the epochs; its accuracy grows with every epoch. -/
def growing (_ : ℕ) (w : List ℕ) : DetectorScores ℚ := ⟨0, 0, w.length⟩

/-- Training is interrupted after two of two epochs, before the final save, and started again: the last epoch is
repeated and evaluated, with a better accuracy, and the state is saved in the end, but without its accuracy, so that
the older state is packed. -/
theorem C102_repeated_epoch_lost :
    let disk := scoredRuns (fun k w => w ++ [k]) (fun k w => (growing k w).dict) [] 2 [some 2, none] []
    disk.restore 2 = some ([0, 1, 1], none) ∧
    packBest detectorBest disk = .ok [0, 1] ∧
    (growing 1 [0, 1]).evalAccuracy < (growing 1 [0, 1, 1]).evalAccuracy := by
  refine ⟨by decide +kernel, by decide +kernel, by decide +kernel⟩

/-- The hypotheses of `C102_detector_partial`: three epochs, interrupted once. -/
example : ∃ k w m, (k, w, some m) ∈
    scoredRuns (fun k w => w ++ [k]) (fun k w => (growing k w).dict) [] 3 [some 2, none] [] :=
  ⟨0, [0], (growing 0 [0]).dict, by decide +kernel⟩

/-- An accuracy that is best in the middle. -/
example : packBest detectorBest (scoredRun (fun k w => w ++ [k])
    (fun k _ => (⟨0, 0, if k = 1 then 1 else 0⟩ : DetectorScores ℚ).dict) [] 3 none []) = .ok [0, 1] := by
  decide +kernel

end PD.Props
