/- C149: which examples training uses. -/
import Verif.Spec.TrainingData
import Mathlib.Data.Nat.Count
import Mathlib.Data.Fintype.Card
import Mathlib.Tactic.Ring
import Mathlib.Tactic.Linarith

set_option linter.unusedSectionVars false
set_option linter.unusedSimpArgs false

namespace PD.Props
open PD PD.Spec
variable {E W M : Type}

/-! ### Batches -/

theorem batch_examples (l : Loader E) (b j : ℕ) : l.batch b j = examplesFrom l (1 + j * b) b := rfl

theorem islice_batches (l : Loader E) (b n k : ℕ) :
    (islice (l.batch b) n (k * n)).1 =
      (List.range n).map fun j => examplesFrom l (1 + k * (n * b) + j * b) b := by
  unfold islice
  refine List.map_congr_left fun j _ => ?_
  rw [batch_examples]
  congr 1
  ring

/-- The state of a run after `k` of its epochs. -/
theorem loop_after (p : TrainProgram) (job : TrainJob) (L : Learner E W M) (train test : Loader E) (start : ℕ)
    (c : Checkpoints W) (w : W) (k : ℕ) :
    ∃ disk, (List.range' start k).foldl (dataEpoch p job L train test) ⟨c, w, 0, 0, []⟩ =
      ⟨disk, afterDataEpochs L train (p.loaderBatch job) (job.trainSteps / job.batchSize) w k,
        k * (job.trainSteps / job.batchSize), k * (job.evalSteps / job.batchSize),
        (List.range k).map fun i => (start + i,
          judgedOn L test (p.loaderBatch job)
            (1 + i * (job.evalSteps / job.batchSize * p.loaderBatch job)) (job.evalSteps / job.batchSize)
            (afterDataEpochs L train (p.loaderBatch job) (job.trainSteps / job.batchSize) w (i + 1)))⟩ := by
  induction k with
  | zero => exact ⟨c, by simp [afterDataEpochs]⟩
  | succ k ih =>
    obtain ⟨disk, h⟩ := ih
    rw [List.range'_concat, List.foldl_append, h, List.range_succ, List.map_append]
    simp only [List.foldl_cons, List.foldl_nil, List.map_cons, List.map_nil, one_mul]
    unfold dataEpoch
    refine ⟨disk.save (start + k) (afterDataEpochs L train (p.loaderBatch job) (job.trainSteps / job.batchSize) w
      (k + 1)), ?_⟩
    have e1 := islice_batches train (p.loaderBatch job) (job.trainSteps / job.batchSize) k
    have e2 := islice_batches test (p.loaderBatch job) (job.evalSteps / job.batchSize) k
    have e3 : ∀ (f : ℕ → List E) n d, (islice f n d).2 = d + n := fun _ _ _ => rfl
    simp only [e1, e2, e3]
    simp only [afterDataEpochs, learnFrom, judgedOn, Nat.succ_mul]

/-- Whatever is on disk, a run that is not stopped makes the missing epochs; each learns from the next batches, in the
order in which the data set gives them, beginning with the first, and its metrics are those of the state it ends with
on the next batches of the other data set.  All batches have the size that the data set was made with. -/
theorem C149_run (p : TrainProgram) (job : TrainJob) (L : Learner E W M) (train test : Loader E)
    (c : Checkpoints W) (w : W) (hb : 0 < job.batchSize)
    (hw : startState c (L.init (examplesFrom train 1 (p.loaderBatch job))) = .ok w) :
    ∃ s, dataRun p job L train test none c = .ok s ∧
      s.state = afterDataEpochs L train (p.loaderBatch job) (job.trainSteps / job.batchSize) w
        (job.epochs - c.latestStep.getD 0) ∧
      s.written = (List.range (job.epochs - c.latestStep.getD 0)).map fun i => (c.latestStep.getD 0 + i,
        judgedOn L test (p.loaderBatch job)
          (1 + i * (job.evalSteps / job.batchSize * p.loaderBatch job)) (job.evalSteps / job.batchSize)
          (afterDataEpochs L train (p.loaderBatch job) (job.trainSteps / job.batchSize) w (i + 1))) := by
  have h0 : train.batch (p.loaderBatch job) 0 = examplesFrom train 1 (p.loaderBatch job) := by
    rw [batch_examples]; simp
  obtain ⟨disk, h⟩ := loop_after p job L train test (c.latestStep.getD 0) c w (job.epochs - c.latestStep.getD 0)
  unfold dataRun
  rw [if_neg hb.ne', h0, hw]
  dsimp only
  rw [h]
  exact ⟨_, rfl, rfl, rfl⟩

/-! ### How many examples -/

/-- The number of examples an epoch learns from. -/
theorem examples_length (l : Loader E) (a m : ℕ) : (examplesFrom l a m).length = m := by simp [examplesFrom]

theorem examples_append (l : Loader E) (a m n : ℕ) :
    examplesFrom l a (m + n) = examplesFrom l a m ++ examplesFrom l (a + m) n := by
  unfold examplesFrom
  rw [List.range_add, List.map_append, List.map_map]
  congr 1
  refine List.map_congr_left fun i _ => ?_
  simp [add_assoc]

theorem recorder_learn (l : Loader E) (b a n : ℕ) (w : List E) :
    learnFrom (remembering E) l b a n w = w ++ examplesFrom l a (n * b) := by
  unfold learnFrom remembering
  simp only [id]
  induction n with
  | zero => simp [examplesFrom]
  | succ n ih =>
    rw [List.range_succ, List.map_append, List.foldl_append, ih, Nat.succ_mul, examples_append]
    simp

theorem recorder_epochs (l : Loader E) (b n k : ℕ) (w : List E) :
    afterDataEpochs (remembering E) l b n w k = w ++ examplesFrom l 1 (k * (n * b)) := by
  induction k with
  | zero => simp [afterDataEpochs, examplesFrom]
  | succ k ih => rw [afterDataEpochs, recorder_learn, ih, Nat.succ_mul, examples_append, List.append_assoc]

/-- From scratch, training learns from consecutive examples, as many as there are epochs times batches times examples
in a batch. -/
theorem C149_consecutive (p : TrainProgram) (job : TrainJob) (train test : Loader E) (hb : 0 < job.batchSize) :
    ∃ s, dataRun p job (remembering E) train test none [] = .ok s ∧
      s.state = examplesFrom train 1
        (job.epochs * (job.trainSteps / job.batchSize * p.loaderBatch job)) := by
  obtain ⟨s, h1, h2, -⟩ := C149_run p job (remembering E) train test [] [] hb rfl
  refine ⟨s, h1, ?_⟩
  rw [h2, recorder_epochs]
  rfl

/-- When the data set is made with the configured batch size (always, for the image aligner), an epoch uses as many
examples as configured, except those that do not fill a batch. -/
theorem C149_amount_partial (p : TrainProgram) (job : TrainJob) (hb : 0 < job.batchSize)
    (h : p = .aligner ∨ p = .detector ∧ job.batchSize = 128 ∨ p = .graph ∧ job.batchSize = 16) :
    job.trainSteps / job.batchSize * p.loaderBatch job ≤ job.trainSteps ∧
      job.trainSteps < job.trainSteps / job.batchSize * p.loaderBatch job + job.batchSize ∧
      job.evalSteps / job.batchSize * p.loaderBatch job ≤ job.evalSteps ∧
      job.evalSteps < job.evalSteps / job.batchSize * p.loaderBatch job + job.batchSize := by
  have e : p.loaderBatch job = job.batchSize := by
    rcases h with h | ⟨h, e⟩ | ⟨h, e⟩ <;> subst h
    · rfl
    · exact e.symm
    · exact e.symm
  rw [e]
  refine ⟨Nat.div_mul_le_self _ _, ?_, Nat.div_mul_le_self _ _, ?_⟩
  · rw [mul_comm]; exact Nat.lt_mul_div_succ _ hb
  · rw [mul_comm]; exact Nat.lt_mul_div_succ _ hb

/-- The other two programs read batches of their own size: with a batch size that is `q` times as large (or as
small), an epoch uses a `q`-th (or `q` times as many) of the examples it should. -/
theorem C149_other_batch (job : TrainJob) (q : ℕ) (hq : 0 < q) :
    (job.batchSize = 16 * q → q * (job.trainSteps / job.batchSize * TrainProgram.graph.loaderBatch job) ≤
      job.trainSteps) ∧
    (job.batchSize = 128 * q → q * (job.trainSteps / job.batchSize * TrainProgram.detector.loaderBatch job) ≤
      job.trainSteps) ∧
    (128 = q * job.batchSize → job.trainSteps / job.batchSize * TrainProgram.detector.loaderBatch job =
      q * (job.trainSteps / job.batchSize * job.batchSize)) := by
  refine ⟨fun h => ?_, fun h => ?_, fun h => ?_⟩
  · have := Nat.div_mul_le_self job.trainSteps job.batchSize
    have e : q * (job.trainSteps / job.batchSize * TrainProgram.graph.loaderBatch job) =
        job.trainSteps / job.batchSize * job.batchSize := by
      conv_rhs => rw [h]
      simp only [TrainProgram.loaderBatch]
      rw [h]
      ring
    omega
  · have := Nat.div_mul_le_self job.trainSteps job.batchSize
    have e : q * (job.trainSteps / job.batchSize * TrainProgram.detector.loaderBatch job) =
        job.trainSteps / job.batchSize * job.batchSize := by
      conv_rhs => rw [h]
      simp only [TrainProgram.loaderBatch]
      rw [h]
      ring
    omega
  · simp only [TrainProgram.loaderBatch]
    rw [h]
    ring

/-- By default, an epoch of graph alignment learns from 124992 of a million examples, and is judged on 12496 of a
hundred thousand. -/
theorem C149_graph_eighth (train test : Loader E) :
    ∃ s, dataRun .graph TrainProgram.graph.defaults (remembering E) train test none [] = .ok s ∧
      s.state.length = TrainProgram.graph.defaults.epochs * 124992 ∧
      TrainProgram.graph.defaults.trainSteps = 1000000 := by
  obtain ⟨s, h1, h2⟩ := C149_consecutive .graph TrainProgram.graph.defaults train test (by decide)
  refine ⟨s, h1, ?_, rfl⟩
  rw [h2, examples_length]
  rfl

/-! ### How often each -/

theorem timesUsed_count (l : Loader E) (r : Fin l.size) (a m : ℕ) :
    timesUsed l r a m = Nat.count (fun i => l.index (a + i) = r) m := by
  unfold timesUsed
  induction m with
  | zero => simp
  | succ m ih =>
    rw [List.range_succ, List.map_append, List.count_append, ih, Nat.count_succ]
    simp [List.count_singleton]

/-- One pass uses each record once. -/
theorem pass_once (l : Loader E) (r : Fin l.size) (q : ℕ) :
    Nat.count (fun i => l.index (q * l.size + i) = r) l.size = 1 := by
  rw [Nat.count_eq_card_filter_range]
  rw [Finset.card_eq_one]
  refine ⟨((l.order q).symm r).val, ?_⟩
  ext i
  simp only [Finset.mem_filter, Finset.mem_range, Finset.mem_singleton]
  have key : ∀ h : i < l.size, l.index (q * l.size + i) = l.order q ⟨i, h⟩ := by
    intro h
    unfold Loader.index
    have e1 : (q * l.size + i) / l.size = q := by
      rw [mul_comm, Nat.mul_add_div l.pos, Nat.div_eq_of_lt h, add_zero]
    have e2 : (q * l.size + i) % l.size = i := by
      rw [mul_comm, Nat.mul_add_mod, Nat.mod_eq_of_lt h]
    simp only [e1, e2]
  constructor
  · rintro ⟨h, e⟩
    rw [key h] at e
    rw [← e]
    simp
  · rintro rfl
    exact ⟨((l.order q).symm r).isLt, by rw [key ((l.order q).symm r).isLt]; simp⟩

theorem passes_count (l : Loader E) (r : Fin l.size) (q : ℕ) :
    Nat.count (fun i => l.index i = r) (q * l.size) = q := by
  induction q with
  | zero => simp
  | succ q ih => rw [Nat.succ_mul, Nat.count_add, ih, pass_once]

/-- Before index `x` a record was read once for each complete pass, and perhaps once more. -/
theorem read_before (l : Loader E) (r : Fin l.size) (x : ℕ) :
    x / l.size ≤ Nat.count (fun i => l.index i = r) x ∧
      Nat.count (fun i => l.index i = r) x ≤ x / l.size + 1 := by
  have m := Nat.count_monotone (fun i => l.index i = r)
  constructor
  · rw [← passes_count l r (x / l.size)]
    simp only [passes_count]
    have := m (Nat.div_mul_le_self x l.size)
    rw [passes_count] at this
    exact this
  · have h : x ≤ (x / l.size + 1) * l.size := by
      rw [mul_comm]; exact (Nat.lt_mul_div_succ x l.pos).le
    have := m h
    rw [passes_count] at this
    exact this

/-- No record is favoured: among consecutive examples each record occurs as often as the complete passes they make
up, give or take two. -/
theorem C149_even (l : Loader E) (r : Fin l.size) (a m : ℕ) :
    m / l.size ≤ timesUsed l r a m + 1 ∧ timesUsed l r a m ≤ m / l.size + 2 := by
  rw [timesUsed_count]
  have e := Nat.count_add (fun i => l.index i = r) a m
  obtain ⟨h1, h2⟩ := read_before l r a
  obtain ⟨h3, h4⟩ := read_before l r (a + m)
  have h5 : a / l.size + m / l.size ≤ (a + m) / l.size := by
    rw [Nat.add_div l.pos]; omega
  have h6 : (a + m) / l.size ≤ a / l.size + m / l.size + 1 := by
    rw [Nat.add_div l.pos]; split <;> omega
  omega

/-! ### Interruptions -/

theorem mem_saved {c : Checkpoints W} {k : ℕ} {w : W} {x : ℕ × W} (h : x ∈ c.save k w) : x ∈ c ∨ x.2 = w := by
  unfold Checkpoints.save at h
  split at h
  · rcases List.mem_cons.1 h with h | h
    · exact .inr (by rw [h])
    · exact .inl h
  · split at h
    · rcases List.mem_cons.1 h with h | h
      · exact .inr (by rw [h])
      · exact .inl h
    · exact .inl h

theorem loop_invariant (p : TrainProgram) (job : TrainJob) (L : Learner E W M) (train test : Loader E) (Q : W → Prop)
    (k : ℕ)
    (hstep : ∀ i < k, ∀ w, Q w → Q (learnFrom L train (p.loaderBatch job)
      (1 + i * (job.trainSteps / job.batchSize * p.loaderBatch job)) (job.trainSteps / job.batchSize) w))
    (start : ℕ) (c : Checkpoints W) (w : W) (hc : ∀ x ∈ c, Q x.2) (hw : Q w) :
    ∀ x ∈ ((List.range' start k).foldl (dataEpoch p job L train test) ⟨c, w, 0, 0, []⟩).disk, Q x.2 := by
  induction k with
  | zero => simpa using hc
  | succ k ih =>
    have ih' := ih fun i hi => hstep i (by omega)
    obtain ⟨disk, h⟩ := loop_after p job L train test start c w k
    rw [h] at ih'
    rw [List.range'_concat, List.foldl_append, h]
    simp only [List.foldl_cons, List.foldl_nil, one_mul]
    unfold dataEpoch
    intro x hx
    have hall : ∀ j ≤ k + 1, Q (afterDataEpochs L train (p.loaderBatch job) (job.trainSteps / job.batchSize) w j) := by
      intro j
      induction j with
      | zero => exact fun _ => hw
      | succ j ihj => exact fun hj => hstep j (by omega) _ (ihj (by omega))
    rcases mem_saved hx with hx | hx
    · exact ih' x hx
    · rw [hx, islice_batches]
      exact hall (k + 1) le_rfl

theorem lookup_mem {l : Checkpoints W} {k : ℕ} {w : W} (h : l.lookup k = some w) : (k, w) ∈ l := by
  induction l with
  | nil => simp at h
  | cons x xs ih =>
    obtain ⟨a, b⟩ := x
    rw [List.lookup_cons] at h
    by_cases e : k = a
    · subst e
      simp at h
      subst h
      exact List.mem_cons_self ..
    · have : (k == a) = false := by simpa using e
      rw [this] at h
      exact List.mem_cons_of_mem _ (ih h)

theorem start_invariant (c : Checkpoints W) (init w : W) (Q : W → Prop) (hc : ∀ x ∈ c, Q x.2) (hi : Q init)
    (h : startState c init = .ok w) : Q w := by
  unfold startState at h
  split at h
  · injection h with h; exact h ▸ hi
  · injection h with h; exact h ▸ hi
  · split at h
    · cases h
    · rename_i e
      injection h with h
      subst h
      exact hc _ (lookup_mem e)

/-- With a fixed seed, if no run gets further than `k` epochs, then however often training is resumed, no state on
disk has learned from anything but the first examples of the data set, `k` epochs of them. -/
theorem C149_beginning (p : TrainProgram) (job : TrainJob) (train test : Loader E) (k : ℕ) (stops : List ℕ)
    (hk : ∀ n ∈ stops, n ≤ k) :
    ∀ x ∈ stoppedRuns p job (remembering E) (stops.map fun n => (n, train, test)) [], ∀ e ∈ x.2,
      e ∈ examplesFrom train 1 (k * (job.trainSteps / job.batchSize * p.loaderBatch job)) := by
  set b := p.loaderBatch job with hb
  set n := job.trainSteps / job.batchSize with hn
  suffices H : ∀ c : Checkpoints (List E), (∀ x ∈ c, ∀ e ∈ x.2, e ∈ examplesFrom train 1 (k * (n * b))) →
      ∀ x ∈ stoppedRuns p job (remembering E) (stops.map fun n => (n, train, test)) c, ∀ e ∈ x.2,
        e ∈ examplesFrom train 1 (k * (n * b)) from H [] (by simp)
  induction stops with
  | nil => intro c hc; simpa [stoppedRuns] using hc
  | cons m ms ih =>
    intro c hc
    have ih' := ih fun n hn => hk n (List.mem_cons_of_mem _ hn)
    rw [List.map_cons, stoppedRuns]
    cases hr : dataRun p job (remembering E) train test (some m) c with
    | error e => exact ih' c hc
    | ok s =>
      refine ih' s.disk ?_
      unfold dataRun at hr
      split at hr
      · cases hr
      · split at hr
        · cases hr
        · rename_i w hw
          have hs := Except.ok.inj hr
          have hq : ∀ e ∈ w, e ∈ examplesFrom train 1 (k * (n * b)) :=
            start_invariant c _ w (fun w => ∀ e ∈ w, e ∈ examplesFrom train 1 (k * (n * b))) hc
              (by simp [remembering]) hw
          rw [← hs]
          have ht : (List.range' (c.latestStep.getD 0) (job.epochs - c.latestStep.getD 0)).take m =
              List.range' (c.latestStep.getD 0) (min m (job.epochs - c.latestStep.getD 0)) := by
            rcases le_total m (job.epochs - c.latestStep.getD 0) with h | h
            · rw [List.take_range'_of_length_ge h, min_eq_left h]
            · rw [List.take_range'_of_length_le h, min_eq_right h]
          rw [ht]
          refine loop_invariant p job (remembering E) train test
            (fun w => ∀ e ∈ w, e ∈ examplesFrom train 1 (k * (n * b))) _ ?_ _ c w hc hq
          intro i hi w hw e he
          rw [recorder_learn] at he
          rcases List.mem_append.1 he with he | he
          · exact hw e he
          · have hik : i + 1 ≤ k := by
              have := hk m (List.mem_cons_self ..)
              omega
            have : k * (n * b) = i * (n * b) + (n * b + (k - (i + 1)) * (n * b)) := by
              obtain ⟨d, rfl⟩ := Nat.exists_eq_add_of_le hik
              rw [Nat.add_sub_cancel_left]
              ring
            rw [this, examples_append, examples_append]
            exact List.mem_append_right _ (List.mem_append_left _ he)

/-- If those are fewer than there are records, some records are never learned from. -/
theorem C149_never_seen (p : TrainProgram) (job : TrainJob) (train test : Loader E) (k : ℕ)
    (hinj : Function.Injective train.records)
    (hfew : k * (job.trainSteps / job.batchSize * p.loaderBatch job) < train.size) :
    ∃ r, ∀ stops : List ℕ, (∀ n ∈ stops, n ≤ k) →
      ∀ x ∈ stoppedRuns p job (remembering E) (stops.map fun n => (n, train, test)) [], train.records r ∉ x.2 := by
  set m := k * (job.trainSteps / job.batchSize * p.loaderBatch job)
  have : ∃ r : Fin train.size, r ∉ ((List.range m).map fun i => train.index (1 + i)) := by
    by_contra hcon
    push Not at hcon
    have h1 : (Finset.univ : Finset (Fin train.size)) ⊆ ((List.range m).map fun i => train.index (1 + i)).toFinset :=
      fun r _ => List.mem_toFinset.2 (hcon r)
    have h2 := Finset.card_le_card h1
    have h3 := List.toFinset_card_le ((List.range m).map fun i => train.index (1 + i))
    rw [Finset.card_univ, Fintype.card_fin] at h2
    rw [List.length_map, List.length_range] at h3
    omega
  obtain ⟨r, hr⟩ := this
  refine ⟨r, fun stops hs x hx he => hr ?_⟩
  have := C149_beginning p job train test k stops hs x hx _ he
  obtain ⟨i, hi, e⟩ := List.mem_map.1 this
  exact List.mem_map.2 ⟨i, hi, hinj e⟩

/-! ### Examples -/

/-- Ten numbers, read in order and backwards by turns. -/
def tenNumbers : Loader ℕ :=
  ⟨10, by decide, fun i => i.val, fun pass => if pass % 2 = 0 then Equiv.refl _ else Fin.revPerm⟩

example : examplesFrom tenNumbers 1 12 = [1, 2, 3, 4, 5, 6, 7, 8, 9, 9, 8, 7] := by decide

/-- Three epochs of two batches of two. -/
example : (dataRun .aligner ⟨5, 2, 2, 3⟩ (remembering ℕ) tenNumbers tenNumbers none []).map (·.state) =
    .ok [1, 2, 3, 4, 5, 6, 7, 8, 9, 9, 8, 7] := by decide

/-- The same, stopped after two epochs, and again after two: the same examples again. -/
example : (stoppedRuns .aligner ⟨5, 2, 2, 3⟩ (remembering ℕ)
    [(2, tenNumbers, tenNumbers), (2, tenNumbers, tenNumbers)] []).map (·.2) =
    [[1, 2, 3, 4, 5, 6, 7, 8, 1, 2, 3, 4, 5, 6, 7, 8], [1, 2, 3, 4, 5, 6, 7, 8], [1, 2, 3, 4]] := by decide

example : startState ([] : Checkpoints (List ℕ)) ((remembering ℕ).init (examplesFrom tenNumbers 1
    (TrainProgram.aligner.loaderBatch ⟨5, 2, 2, 3⟩))) = .ok [] := rfl

example : Function.Injective tenNumbers.records ∧
    2 * ((5 : ℕ) / 2 * TrainProgram.aligner.loaderBatch ⟨5, 2, 2, 3⟩) < tenNumbers.size :=
  ⟨fun _ _ h => Fin.ext h, by decide⟩

example : timesUsed tenNumbers (⟨7, by decide⟩ : Fin 10) 1 12 = 2 ∧
    timesUsed tenNumbers (⟨0, by decide⟩ : Fin 10) 1 12 = 0 := by
  decide

end PD.Props
