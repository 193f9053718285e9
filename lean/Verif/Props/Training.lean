/- Training with interruptions (C81). -/
import Verif.Spec.Training
import Mathlib.Data.List.Sort
import Mathlib.Tactic.Linarith

set_option linter.unusedSectionVars false
set_option linter.unusedSimpArgs false

namespace PD.Props
open PD PD.Spec
variable {W : Type}

theorem latest_save (c : Checkpoints W) (k : ℕ) (w : W) (h : ∀ m, c.latestStep = some m → m < k) :
    c.save k w = (k, w) :: c ∧ (c.save k w).latestStep = some k ∧ (c.save k w).restore k = some w := by
  have e : c.save k w = (k, w) :: c := by
    unfold Checkpoints.save
    cases hl : c.latestStep with
    | none => rfl
    | some m => simp [h m hl]
  rw [e]
  refine ⟨rfl, ?_, by simp [Checkpoints.restore]⟩
  unfold Checkpoints.latestStep at *
  simp only [List.map_cons, List.max?_cons]
  cases hm : (c.map Prod.fst).max? with
  | none => rfl
  | some m =>
    simp only [Option.elim_some, Option.some.injEq]
    exact max_eq_left (h m hm).le

theorem latest_skip (c : Checkpoints W) (k m : ℕ) (w : W) (h : c.latestStep = some m) (hk : k ≤ m) :
    c.save k w = c := by
  unfold Checkpoints.save
  rw [h]
  simp only
  rw [if_neg (by omega)]

/-- The loop over epochs beyond the latest step. -/
theorem epochLoop_fresh (epoch : ℕ → W → W) (n : ℕ) : ∀ (s : ℕ) (c : Checkpoints W) (w : W),
    (∀ m, c.latestStep = some m → m < s) →
    (epochLoop epoch (List.range' s n) (c, w)).2 = afterEpochs epoch w (List.range' s n) ∧
    (0 < n → (epochLoop epoch (List.range' s n) (c, w)).1.latestStep = some (s + n - 1) ∧
      (epochLoop epoch (List.range' s n) (c, w)).1.restore (s + n - 1) =
        some (afterEpochs epoch w (List.range' s n))) := by
  induction n with
  | zero => intro s c w h; exact ⟨rfl, by simp⟩
  | succ n ih =>
    intro s c w h
    obtain ⟨-, h2, h3⟩ := latest_save c s (epoch s w) h
    obtain ⟨i1, i2⟩ := ih (s + 1) (c.save s (epoch s w)) (epoch s w) (by
      intro m hm
      rw [h2] at hm
      cases hm
      omega)
    simp only [List.range'_succ, epochLoop]
    refine ⟨i1, fun _ => ?_⟩
    cases n with
    | zero => exact ⟨h2, h3⟩
    | succ n =>
      obtain ⟨j1, j2⟩ := i2 (by omega)
      rw [show s + (n + 1 + 1) - 1 = s + 1 + (n + 1) - 1 by omega]
      exact ⟨j1, j2⟩

/-- The loop when it starts at the latest step: that epoch is repeated and not saved. -/
theorem epochLoop_resumed (epoch : ℕ → W → W) (k n : ℕ) (c : Checkpoints W) (w : W)
    (h : c.latestStep = some k) :
    (epochLoop epoch (List.range' k n) (c, w)).2 = afterEpochs epoch w (List.range' k n) ∧
    (n ≤ 1 → (epochLoop epoch (List.range' k n) (c, w)).1 = c) ∧
    (1 < n → (epochLoop epoch (List.range' k n) (c, w)).1.latestStep = some (k + n - 1) ∧
      (epochLoop epoch (List.range' k n) (c, w)).1.restore (k + n - 1) =
        some (afterEpochs epoch w (List.range' k n))) := by
  cases n with
  | zero => exact ⟨rfl, fun _ => rfl, by simp⟩
  | succ n =>
    have hs := latest_skip c k k (epoch k w) h le_rfl
    simp only [List.range'_succ, epochLoop, hs]
    obtain ⟨i1, i2⟩ := epochLoop_fresh epoch n (k + 1) c (epoch k w) (by
      intro m hm
      rw [h] at hm
      cases hm
      omega)
    refine ⟨i1, ?_, ?_⟩
    · intro hn
      have : n = 0 := by omega
      subst this
      rfl
    · intro hn
      obtain ⟨j1, j2⟩ := i2 (by omega)
      rw [show k + (n + 1) - 1 = k + 1 + n - 1 by omega]
      exact ⟨j1, j2⟩

/-- A run that is not interrupted applies the epochs `0, 1, …, epochs - 1`, once each. -/
theorem C81_uninterrupted_partial (epoch : ℕ → W → W) (init : W) (epochs : ℕ) :
    ∃ c, trainRun epoch init epochs none [] =
        (c, .ok (some (afterEpochs epoch init (List.range epochs)))) ∧
      c.latestStep = some epochs ∧
      c.restore epochs = some (afterEpochs epoch init (List.range epochs)) := by
  have h0 : (Checkpoints.latestStep ([] : Checkpoints W)) = none := rfl
  obtain ⟨h1, h2⟩ := epochLoop_fresh epoch epochs 0 [] init (by simp [h0])
  rw [← List.range_eq_range'] at h1 h2
  simp only [trainRun, startState, h0, Option.getD_none, Nat.sub_zero, ← List.range_eq_range']
  refine ⟨_, by rw [h1], ?_⟩
  obtain ⟨-, h3, h4⟩ := latest_save (epochLoop epoch (List.range epochs) ([], init)).1 epochs
    (epochLoop epoch (List.range epochs) ([], init)).2 (by
      intro m hm
      rcases Nat.eq_zero_or_pos epochs with rfl | hp
      · simp only [List.range_zero, epochLoop, h0] at hm
        cases hm
      · rw [(h2 hp).1] at hm
        cases hm
        omega)
  rw [h1] at h3 h4
  exact ⟨h3, h4⟩

/-- Starting completed training again changes nothing and returns the same state. -/
theorem C81_completed_partial (epoch : ℕ → W → W) (init : W) (epochs : ℕ) (hpos : 0 < epochs)
    (c : Checkpoints W) (w : W) (hl : c.latestStep = some epochs) (hr : c.restore epochs = some w) :
    trainRun epoch init epochs none c = (c, .ok (some w)) := by
  obtain ⟨e, rfl⟩ : ∃ e, epochs = e + 1 := ⟨epochs - 1, by omega⟩
  simp only [trainRun, startState, hl, hr, Option.getD_some, Nat.sub_self, List.range'_zero, epochLoop]
  rw [latest_skip c (e + 1) (e + 1) w hl le_rfl]

/-- What the disk tells after interruptions: nothing, or the state after a list of epochs that has all
epochs up to the saved one, in order, some of them repeatedly. -/
structure Resumable (epoch : ℕ → W → W) (init : W) (epochs crashes : ℕ) (c : Checkpoints W) : Prop where
  ok : ∀ k, c.latestStep = some k → k < epochs ∧ ∃ log : List ℕ, c.restore k = some (afterEpochs epoch init log) ∧
    log.Pairwise (· ≤ ·) ∧ (∀ j, j ∈ log ↔ j ≤ k) ∧ log.length ≤ k + crashes

theorem afterEpochs_append (epoch : ℕ → W → W) (init : W) (a b : List ℕ) :
    afterEpochs epoch init (a ++ b) = afterEpochs epoch (afterEpochs epoch init a) b := by
  simp [afterEpochs, List.foldl_append]

theorem range'_sorted (s n : ℕ) : (List.range' s n).Pairwise (· ≤ ·) :=
  (List.pairwise_lt_range' (s := s) (n := n)).imp (fun h => Nat.le_of_lt h)

theorem Resumable.start {epoch : ℕ → W → W} {init : W} {epochs crashes : ℕ} {c : Checkpoints W}
    (h : Resumable epoch init epochs crashes c) :
    ∃ log : List ℕ, startState c init = .ok (afterEpochs epoch init log) ∧
      log.Pairwise (· ≤ ·) ∧ ∀ n,
      (∀ j, j ∈ log ++ List.range' (c.latestStep.getD 0) n ↔
        j ∈ log ∨ c.latestStep.getD 0 ≤ j ∧ j < c.latestStep.getD 0 + n) ∧
      (log ++ List.range' (c.latestStep.getD 0) n).Pairwise (· ≤ ·) ∧
      (∀ j, j ∈ log → j ≤ c.latestStep.getD 0) ∧ (∀ j, j < c.latestStep.getD 0 → j ∈ log) ∧
      (log = [] ∧ c.latestStep.getD 0 = 0 ∨ log.length ≤ c.latestStep.getD 0 + crashes ∧ 0 < c.latestStep.getD 0) := by
  cases hl : c.latestStep with
  | none =>
    refine ⟨[], by simp [startState, hl, afterEpochs], List.Pairwise.nil, fun n => ?_⟩
    exact ⟨by simp [List.mem_range'_1], by simpa using range'_sorted 0 n, by simp, by simp, .inl ⟨rfl, rfl⟩⟩
  | some k =>
    cases k with
    | zero =>
      refine ⟨[], by simp [startState, hl, afterEpochs], List.Pairwise.nil, fun n => ?_⟩
      exact ⟨by simp [List.mem_range'_1], by simpa using range'_sorted 0 n, by simp, by simp, .inl ⟨rfl, rfl⟩⟩
    | succ k =>
      obtain ⟨-, log, hr, hs, hm, hlen⟩ := h.ok _ hl
      refine ⟨log, by simp [startState, hl, hr], hs, fun n => ?_⟩
      refine ⟨?_, ?_, ?_, ?_, .inr ⟨by simpa using hlen, ?_⟩⟩
      · intro j
        simp only [List.mem_append, Option.getD_some, List.mem_range'_1]
      · rw [List.pairwise_append]
        refine ⟨hs, range'_sorted _ n, ?_⟩
        intro a ha b hb
        rw [hm] at ha
        simp only [Option.getD_some, List.mem_range'_1] at hb
        omega
      · intro j hj
        exact (hm j).1 hj
      · intro j hj
        exact (hm j).2 (by simp only [Option.getD_some] at hj; omega)
      · simp

theorem Resumable.crash {epoch : ℕ → W → W} {init : W} {epochs crashes : ℕ} {c : Checkpoints W}
    (h : Resumable epoch init epochs crashes c) (n : ℕ) :
    Resumable epoch init epochs (crashes + 1) (trainRun epoch init epochs (some n) c).1 := by
  obtain ⟨log, hst, hs, hrest⟩ := h.start
  set s := c.latestStep.getD 0 with hsdef
  set m := min n (epochs - s) with hmdef
  have htake : (List.range' s (epochs - s)).take n = List.range' s m := by
    rcases le_total n (epochs - s) with h | h
    · rw [List.take_range'_of_length_ge h, hmdef, min_eq_left h]
    · rw [List.take_range'_of_length_le h, hmdef, min_eq_right h]
  obtain ⟨hmem, hsorted, hle, hge, hlen⟩ := hrest m
  have hmn : m ≤ epochs - s := min_le_right _ _
  simp only [trainRun, hst, ← hsdef, htake]
  cases hl : c.latestStep with
  | none =>
    have hs0 : s = 0 := by rw [hsdef, hl]; rfl
    obtain ⟨-, h2⟩ := epochLoop_fresh epoch m s c (afterEpochs epoch init log) (by simp [hl])
    rcases Nat.eq_zero_or_pos m with hm0 | hp
    · rw [hm0]
      constructor
      intro k hk
      simp only [List.range'_zero, epochLoop, hl] at hk
      cases hk
    · obtain ⟨h3, h4⟩ := h2 hp
      constructor
      intro k hk
      rw [h3] at hk
      cases hk
      refine ⟨by omega, log ++ List.range' s m, ?_, hsorted, ?_, ?_⟩
      · rw [h4, afterEpochs_append]
      · intro j
        rw [hmem]
        constructor
        · rintro (hj | hj)
          · have := hle j hj
            omega
          · omega
        · intro hj
          by_cases hjs : j < s
          · exact .inl (hge j hjs)
          · exact .inr (by omega)
      · rw [List.length_append, List.length_range']
        rcases hlen with ⟨h, -⟩ | ⟨h, -⟩
        · simp [h]
          omega
        · omega
  | some k0 =>
    have hs0 : s = k0 := by rw [hsdef, hl]; rfl
    have hk0 : k0 < epochs := (h.ok k0 hl).1
    obtain ⟨-, h1, h2⟩ := epochLoop_resumed epoch s m c (afterEpochs epoch init log) (by rw [hs0, hl])
    by_cases hm1 : m ≤ 1
    · rw [h1 hm1]
      constructor
      intro k hk
      obtain ⟨a, log', b1, b2, b3, b4⟩ := h.ok k hk
      exact ⟨a, log', b1, b2, b3, by omega⟩
    · obtain ⟨h3, h4⟩ := h2 (by omega)
      constructor
      intro k hk
      rw [h3] at hk
      cases hk
      refine ⟨by omega, log ++ List.range' s m, ?_, hsorted, ?_, ?_⟩
      · rw [h4, afterEpochs_append]
      · intro j
        rw [hmem]
        constructor
        · rintro (hj | hj)
          · have := hle j hj
            omega
          · omega
        · intro hj
          by_cases hjs : j < s
          · exact .inl (hge j hjs)
          · exact .inr (by omega)
      · rw [List.length_append, List.length_range']
        rcases hlen with ⟨h, -⟩ | ⟨h, -⟩
        · simp [h]
          omega
        · omega

theorem Resumable.crashes {epoch : ℕ → W → W} {init : W} {epochs : ℕ} (ns : List ℕ) :
    ∀ {crashes : ℕ} {c : Checkpoints W}, Resumable epoch init epochs crashes c →
    Resumable epoch init epochs (crashes + ns.length) (crashedRuns epoch init epochs ns c) := by
  induction ns with
  | nil => intro crashes c h; exact h
  | cons n ns ih =>
    intro crashes c h
    have := ih (h.crash n)
    rw [List.length_cons, show crashes + (ns.length + 1) = crashes + 1 + ns.length by omega]
    exact this

/-- However often training is interrupted, a run that completes returns the state after a list of epochs in
which every epoch occurs, in order, with at most one repetition for each interruption.  Missing for C81: that
no epoch is repeated (`C81_epoch_repeated`), and progress (`C81_no_progress`). -/
theorem C81_nothing_skipped_partial (epoch : ℕ → W → W) (init : W) (epochs : ℕ) (crashes : List ℕ) :
    ∃ c log, trainRun epoch init epochs none (crashedRuns epoch init epochs crashes []) =
        (c, .ok (some (afterEpochs epoch init log))) ∧
      log.Pairwise (· ≤ ·) ∧ (∀ j, j ∈ log ↔ j < epochs) ∧ log.length ≤ epochs + crashes.length := by
  have h0 : Resumable epoch init epochs 0 ([] : Checkpoints W) := ⟨by intro k hk; cases hk⟩
  have h := h0.crashes crashes
  rw [Nat.zero_add] at h
  set c := crashedRuns epoch init epochs crashes [] with hc
  obtain ⟨log, hst, hs, hrest⟩ := h.start
  set s := c.latestStep.getD 0 with hsdef
  obtain ⟨hmem, hsorted, hle, hge, hlen⟩ := hrest (epochs - s)
  have hloop : (epochLoop epoch (List.range' s (epochs - s)) (c, afterEpochs epoch init log)).2 =
      afterEpochs epoch init (log ++ List.range' s (epochs - s)) := by
    rw [afterEpochs_append]
    cases hl : c.latestStep with
    | none => exact (epochLoop_fresh epoch _ s c _ (by simp [hl])).1
    | some k0 =>
      have hs0 : s = k0 := by rw [hsdef, hl]; rfl
      exact (epochLoop_resumed epoch s _ c _ (by rw [hs0, hl])).1
  have hse : s < epochs ∨ s = 0 := by
    cases hl : c.latestStep with
    | none => right; rw [hsdef, hl]; rfl
    | some k0 =>
      left
      have hs0 : s = k0 := by rw [hsdef, hl]; rfl
      rw [hs0]
      exact (h.ok k0 hl).1
  simp only [trainRun, hst, ← hsdef]
  refine ⟨_, log ++ List.range' s (epochs - s), by rw [hloop], hsorted, ?_, ?_⟩
  · intro j
    rw [hmem]
    constructor
    · rintro (hj | hj)
      · have := hle j hj
        rcases hse with h | h
        · omega
        · rcases hlen with ⟨h1, -⟩ | ⟨-, h1⟩
          · rw [h1] at hj
            simp at hj
          · omega
      · omega
    · intro hj
      by_cases hjs : j < s
      · exact .inl (hge j hjs)
      · exact .inr (by omega)
  · rw [List.length_append, List.length_range']
    rcases hlen with ⟨h1, h2⟩ | ⟨h1, h2⟩
    · rw [h1]
      simp
      omega
    · omega

/-- A run interrupted after `n ≥ 2` epochs and then completed has applied epoch `n - 1` twice. -/
theorem C81_epoch_repeated (epoch : ℕ → W → W) (init : W) (epochs n : ℕ) (h2 : 2 ≤ n) (hn : n ≤ epochs) :
    ∃ c log, trainRun epoch init epochs none (crashedRuns epoch init epochs [n] []) =
        (c, .ok (some (afterEpochs epoch init log))) ∧
      log = List.range n ++ List.range' (n - 1) (epochs - (n - 1)) ∧ log.count (n - 1) = 2 := by
  have h0 : (Checkpoints.latestStep ([] : Checkpoints W)) = none := rfl
  obtain ⟨-, h3⟩ := epochLoop_fresh epoch n 0 [] init (by simp [h0])
  obtain ⟨h4, h5⟩ := h3 (by omega)
  have hc : crashedRuns epoch init epochs [n] [] = (epochLoop epoch (List.range' 0 n) ([], init)).1 := by
    simp only [crashedRuns, trainRun, startState, h0, Option.getD_none, Nat.sub_zero]
    rw [List.take_range'_of_length_ge hn]
  rw [hc]
  set c := (epochLoop epoch (List.range' 0 n) ([], init)).1 with hcdef
  obtain ⟨m, rfl⟩ : ∃ m, n = m + 2 := ⟨n - 2, by omega⟩
  rw [show 0 + (m + 2) - 1 = m + 1 by omega] at h4 h5
  have hloop := (epochLoop_resumed epoch (m + 1) (epochs - (m + 1)) c
    (afterEpochs epoch init (List.range' 0 (m + 2))) h4).1
  simp only [trainRun, startState, h4, h5, Option.getD_some, show m + 2 - 1 = m + 1 by omega]
  refine ⟨_, _, by rw [hloop, ← afterEpochs_append], by rw [List.range_eq_range'], ?_⟩
  rw [List.count_append]
  have c1 : (List.range' 0 (m + 2)).count (m + 1) = 1 :=
    List.count_eq_one_of_mem (List.nodup_range' ) (by simp [List.mem_range'_1])
  have c2 : (List.range' (m + 1) (epochs - (m + 1))).count (m + 1) = 1 :=
    List.count_eq_one_of_mem (List.nodup_range' ) (by simp [List.mem_range'_1]; omega)
  rw [c1, c2]

/-- With a checkpoint on disk, a run that is interrupted after at most one epoch leaves no trace. -/
theorem C81_one_epoch_lost (epoch : ℕ → W → W) (init : W) (epochs n k : ℕ) (c : Checkpoints W)
    (hl : c.latestStep = some k) (hn : n ≤ 1) : (trainRun epoch init epochs (some n) c).1 = c := by
  unfold trainRun
  cases startState c init with
  | error e => rfl
  | ok w =>
    simp only [hl, Option.getD_some]
    rcases le_total n (epochs - k) with h | h
    · rw [List.take_range'_of_length_ge h]
      exact (epochLoop_resumed epoch k n c w hl).2.1 hn
    · rw [List.take_range'_of_length_le h]
      exact (epochLoop_resumed epoch k _ c w hl).2.1 (by omega)

/-- So training that is interrupted after each epoch never gets past the first one, however often it is
started. -/
theorem C81_no_progress (epoch : ℕ → W → W) (init : W) (epochs : ℕ) (hpos : 0 < epochs) (runs : ℕ) :
    (crashedRuns epoch init epochs (List.replicate (runs + 1) 1) []).latestStep = some 0 := by
  have h0 : (Checkpoints.latestStep ([] : Checkpoints W)) = none := rfl
  have h1 : (trainRun epoch init epochs (some 1) []).1.latestStep = some 0 := by
    simp only [trainRun, startState, h0, Option.getD_none, Nat.sub_zero]
    rw [List.take_range'_of_length_ge hpos]
    exact ((epochLoop_fresh epoch 1 0 [] init (by simp [h0])).2 (by omega)).1
  rw [List.replicate_succ]
  simp only [crashedRuns]
  generalize (trainRun epoch init epochs (some 1) []).1 = c at h1
  induction runs with
  | zero => exact h1
  | succ r ih =>
    rw [List.replicate_succ]
    simp only [crashedRuns]
    rw [C81_one_epoch_lost epoch init epochs 1 0 c h1 le_rfl]
    exact ih

/-- The epochs as a training state can record them: an interruption after two of three epochs. -/
example : (trainRun (fun k w => w ++ [k]) [] 3 none
    (crashedRuns (fun k w => w ++ [k]) [] 3 [2] [])).2.toOption = some (some [0, 1, 1, 2]) := by
  decide

/-- The hypotheses of `C81_completed_partial`. -/
example : Checkpoints.latestStep [(3, 'c'), (2, 'b'), (1, 'a')] = some 3 ∧
    Checkpoints.restore [(3, 'c'), (2, 'b'), (1, 'a')] 3 = some 'c' := by decide

end PD.Props
