/- Property C55: the history of the aligners; and their part of C51. -/
import Verif.Spec.Aligners
import Verif.Props.Merge
import Verif.Props.PadCrop

set_option linter.unusedSectionVars false
set_option linter.unusedSimpArgs false

namespace PD.Props
open PD PD.Spec Classical

/-! ### Lists -/

theorem lastN_append_one {α : Type} (n : ℕ) (l : List α) (x : α) (hn : 1 ≤ n) :
    lastN n (l ++ [x]) = (lastN n l ++ [x]).drop ((lastN n l).length + 1 - n) := by
  unfold lastN
  simp only [List.length_append, List.length_cons, List.length_nil, List.length_drop]
  by_cases h : l.length ≤ n
  · rw [Nat.sub_eq_zero_of_le h]
    simp
  · push Not at h
    have e1 : l.length + (0 + 1) - n = (l.length - n) + 1 := by omega
    have e2 : l.length - (l.length - n) + 1 - n = 1 := by omega
    rw [e1, e2]
    rw [List.drop_append_of_le_length (by omega)]
    rw [List.drop_append_of_le_length (by simp; omega)]
    rw [List.drop_drop]

theorem lastN_length {α : Type} (n : ℕ) (l : List α) : (lastN n l).length = min n l.length := by
  simp [lastN]; omega

section
variable {K C : Type} [Field K] [LinearOrder K] [IsStrictOrderedRing K]

/-! ### The filtering aligner -/

theorem mergeFold_length (l : List (V2 K × ℕ × Bool)) (st : List (V2 K) × List K × List (V2 K)) :
    (l.foldl mergeOne st).1.length = st.1.length := by
  induction l generalizing st with
  | nil => rfl
  | cons x l ih =>
    rw [List.foldl_cons, ih]
    obtain ⟨a, b, c⟩ := st
    obtain ⟨p, t, close⟩ := x
    simp only [mergeOne]
    split <;> simp

theorem mergeFrame_lengths {cutoff : K} {st st' : MergeState K} {m : List (V2 K)}
    (h : mergeFrame cutoff st m = .ok st') (ha : st.aliased = true → st.positions.length = st.caller.length) :
    st'.caller.length = st.caller.length ∧ st.positions.length ≤ st'.positions.length ∧
    (st'.aliased = true → st'.positions.length = st'.caller.length) := by
  unfold mergeFrame at h
  split at h
  · cases h
  · rename_i targets _
    have hl := mergeFold_length (m.zip targets) (st.positions, st.counts, [])
    generalize hr : (m.zip targets).foldl mergeOne (st.positions, st.counts, []) = r at h hl
    obtain ⟨ps, cs, new⟩ := r
    simp only at h hl
    cases hb : st.aliased <;> simp only [hb] at h ha <;> split at h <;> cases h <;>
      simp at ha ⊢ <;> omega

theorem mergeFrames_lengths {cutoff : K} (rest : List (List (V2 K))) {st st' : MergeState K}
    (h : rest.foldlM (mergeFrame cutoff) st = .ok st')
    (ha : st.aliased = true → st.positions.length = st.caller.length) :
    st'.caller.length = st.caller.length ∧ st.positions.length ≤ st'.positions.length := by
  induction rest generalizing st with
  | nil => rw [List.foldlM_nil] at h; cases h; exact ⟨rfl, le_refl _⟩
  | cons m rest ih =>
    rw [List.foldlM_cons] at h
    cases hf : mergeFrame cutoff st m with
    | error e => rw [hf] at h; cases h
    | ok st1 =>
      rw [hf] at h
      obtain ⟨h1, h2, h3⟩ := mergeFrame_lengths hf ha
      obtain ⟨h4, h5⟩ := ih h h3
      omega

/-- The first of some non-empty arrays keeps its length, and the merged positions are not empty. -/
theorem naiveMerge_lengths {cutoff : K} {first : List (V2 K)} {rest : List (List (V2 K))}
    {st : MergeState K} (hf : first ≠ []) (h : naiveMerge cutoff (first :: rest) = .ok st) :
    st.caller.length = first.length ∧ st.positions ≠ [] := by
  unfold naiveMerge at h
  rw [List.filter_cons_of_pos (by simpa using hf)] at h
  obtain ⟨h1, h2⟩ := mergeFrames_lengths _ h (fun _ => rfl)
  refine ⟨h1, ?_⟩
  intro h0
  rw [h0] at h2
  exact hf (List.length_eq_zero_iff.1 (by simpa using h2))

theorem cliqueRound_nonempty (cf : CliqueFinder) (r : K) (st : List (V2 K) × List K) (h : st.1 ≠ []) :
    (cliqueRound cf r st).1 ≠ [] := by
  have hs := cf.spec st.1.length (closePair r st.1) (closePair_symm r st.1)
  have hpos : 0 < st.1.length := List.length_pos_iff.2 h
  obtain ⟨c, hc, _⟩ := hs.all [0] (by simp) (by simpa using hpos) (by simp)
  intro h0
  simp only [cliqueRound, List.map_eq_nil_iff] at h0
  rw [h0] at hc
  cases hc

theorem cliqueLoop_nonempty (cf : CliqueFinder) (r : K) (n : ℕ) (st : List (V2 K) × List K) (h : st.1 ≠ []) :
    (cliqueLoop cf r n st).1 ≠ [] := by
  induction n generalizing st with
  | zero => exact h
  | succ n ih =>
    unfold cliqueLoop
    split
    · exact ih _ (cliqueRound_nonempty cf r st h)
    · exact h

/-- What merging the remembered arrays with a new one does. -/
theorem mergeAll_spec (cfg : FilterCfg K) (cf : CliqueFinder) (first : List (V2 K))
    (rest : List (List (V2 K))) (hf : first ≠ []) :
    ∃ joined first', mergeAll cfg cf (first :: rest) = .ok (joined, first' :: rest) ∧ joined ≠ [] ∧
      first' ≠ [] ∧ (cfg.cliqueMerging = true → first' = first) ∧ first'.length = first.length := by
  unfold mergeAll
  by_cases hc : cfg.cliqueMerging = true
  · rw [if_pos hc]
    refine ⟨_, first, rfl, ?_, hf, fun _ => rfl, rfl⟩
    apply cliqueLoop_nonempty
    simp [hf]
  · rw [if_neg hc]
    rcases C48_total cfg.mergeCutoff (first :: rest) with ⟨h, _⟩ | ⟨_, st, hst⟩
    · exact absurd (h first List.mem_cons_self) hf
    · rw [hst]
      obtain ⟨h1, h2⟩ := naiveMerge_lengths hf hst
      refine ⟨st.positions, st.caller, ?_, h2, ?_, fun h => absurd h hc, h1⟩
      · simp [replaceFirst, hf]
      · intro h0; rw [h0] at h1; exact hf (List.length_eq_zero_iff.1 h1.symm)

/-- A call on a state that remembers no frame. -/
theorem call_first (cfg : FilterCfg K) (ops : FilterOps K C) (cf : CliqueFinder) (g : Grid K)
    (s : FilterState K C) (h : s.recent = []) :
    (∃ c cl, ops.fit g.positions = .ok c ∧ classifyLattice ops g.positions (some c) = .ok cl ∧
      FilterState.call cfg ops cf g s = .ok (g, -0) ⟨[g.positions], s.classes ++ [cl], some c⟩) ∨
    (∃ e, FilterState.call cfg ops cf g s = .error e ⟨[g.positions], s.classes, s.classifier⟩) ∨
    (∃ e c, FilterState.call cfg ops cf g s = .error e ⟨[g.positions], s.classes, some c⟩) := by
  unfold FilterState.call
  rw [if_pos (by simp [h])]
  simp only [h, List.nil_append]
  cases hfit : ops.fit g.positions with
  | error e => right; left; exact ⟨e, rfl⟩
  | ok c =>
    cases hcl : classifyLattice ops g.positions (some c) with
    | error e => right; right; exact ⟨e, c, by simp [hcl]⟩
    | ok cl => left; exact ⟨c, cl, rfl, hcl, by simp [hcl]⟩

theorem call_first' {K C : Type} [Field K] [LinearOrder K] (cfg : FilterCfg K) (ops : FilterOps K C)
    (cf : CliqueFinder) (g : Grid K) :
    (∃ s', FilterState.call cfg ops cf g FilterState.fresh = .ok (g, -0) s') ∨
    (∃ e s', FilterState.call cfg ops cf g FilterState.fresh = .error e s') := by
  unfold FilterState.call
  rw [if_pos (by rfl)]
  cases hfit : ops.fit g.positions with
  | error e => right; exact ⟨e, _, rfl⟩
  | ok c =>
    cases hcl : classifyLattice ops g.positions (some c) with
    | error e => right; exact ⟨e, _, by simp only [hcl]; rfl⟩
    | ok cl => left; exact ⟨_, by simp only [hcl]; rfl⟩

theorem propagate_ok (original merged : List (V2 K)) (nums : List ℤ) (thr : K) (hm : merged ≠ [])
    (hl : original.length = nums.length) :
    ∃ z, propagateAtomicNumbers original merged nums none CARBON thr = .ok z := by
  rw [propagate_eq hm hl.symm, if_neg]
  · exact ⟨_, rfl⟩
  · simp only [Option.getD_none, List.length_map, Bool.not_eq_true, List.any_eq_false, Bool.and_eq_true,
      decide_eq_true_eq, not_and, not_le]
    intro x _ _
    exact (tgt_spec hm x.1).1

/-- A call on a state that remembers frames: it raises and changes nothing, or it adds a frame. -/
theorem call_next (cfg : FilterCfg K) (ops : FilterOps K C) (cf : CliqueFinder) (g : Grid K)
    (s : FilterState K C) (first : List (V2 K)) (rest : List (List (V2 K)))
    (hs : s.recent = first :: rest) (hf : first ≠ []) (hacc : cfg.accumulateMerged = false) (wf : g.WF) :
    (∃ e, FilterState.call cfg ops cf g s = .error e s) ∨
    (∃ cl drift joined first' z, 3 ≤ g.positions.length ∧ s.classes ≠ [] ∧ s.classifier ≠ none ∧
      (cfg.cliqueMerging = true → first' = first) ∧ first' ≠ [] ∧ first'.length = first.length ∧
      ops.align g.positions s.recent.flatten cl s.classes.flatten = .ok (some drift) ∧
      mergeAll cfg cf (s.recent ++ [(g.shift drift).positions]) =
        .ok (joined, first' :: (rest ++ [(g.shift drift).positions])) ∧
      FilterState.call cfg ops cf g s = .ok (⟨joined, z⟩, -drift)
        (FilterState.cut cfg.historyLength
          ⟨first' :: rest ++ [(g.shift drift).positions], s.classes ++ [cl], s.classifier⟩)) := by
  unfold FilterState.call
  rw [if_neg (by simp [hs])]
  cases hcl : classifyLattice ops g.positions s.classifier with
  | error e => left; exact ⟨e, rfl⟩
  | ok cl =>
    simp only
    by_cases hce : s.classes = []
    · left; exact ⟨.valueError, by simp [hce]⟩
    · rw [if_neg (by simpa using hce)]
      cases hal : ops.align g.positions s.recent.flatten cl s.classes.flatten with
      | error e => left; exact ⟨e, rfl⟩
      | ok d =>
        cases d with
        | none => left; exact ⟨_, rfl⟩
        | some drift =>
          right
          simp only
          have h3 : 3 ≤ g.positions.length ∧ s.classifier ≠ none := by
            unfold classifyLattice at hcl
            split at hcl
            · cases hcl
            · split at hcl
              · cases hcl
              · rename_i h _ _ hn; exact ⟨by omega, by rw [hn]; simp⟩
          obtain ⟨joined, first', hm, hj, hf', hcq, hlen⟩ := mergeAll_spec cfg cf first
            (rest ++ [(g.shift drift).positions]) hf
          rw [hs, List.cons_append, hm]
          simp only [hacc, Bool.false_eq_true, if_false]
          have e1 : (first' :: (rest ++ [(g.shift drift).positions])).dropLast = first' :: rest := by
            rw [← List.cons_append, List.dropLast_concat]
          have e2 : (first' :: (rest ++ [(g.shift drift).positions])).getLastD [] =
              (g.shift drift).positions := by
            rw [← List.cons_append, List.getLastD_eq_getLast?, List.getLast?_append]; rfl
          rw [e1, e2]
          obtain ⟨z, hz⟩ := propagate_ok (g.shift drift).positions joined (g.shift drift).numbers (8 / 10) hj
            (by simpa [Grid.shift, Grid.WF] using wf)
          rw [hz]
          exact ⟨cl, drift, joined, first', z, h3.1, hce, h3.2, hcq, hf', hlen, by rw [← hs]; exact hal,
            by rw [List.cons_append]; exact hm, rfl⟩

/-- What is remembered after some calls. -/
def FilterInv (cfg : FilterCfg K) (h : ℕ) (s : FilterState K C) (log : List (Grid K × Grid K × V2 K)) : Prop :=
  (log = [] ∧ s = FilterState.fresh) ∨
  (log = [] ∧ s.recent.length = 1 ∧ (s.classifier = none ∨ s.classes = [])) ∨
  (log ≠ [] ∧ (∀ a ∈ s.recent, a ≠ []) ∧ s.recent.length = min h log.length ∧
    s.classes.length = s.recent.length ∧
    s.recent.tail = (lastN h (framesOf log)).tail ∧
    s.recent.map List.length = (lastN h (framesOf log)).map List.length ∧
    (cfg.cliqueMerging = true → s.recent = lastN h (framesOf log)))

theorem shift_neg_positions (g : Grid K) (d : V2 K) :
    g.positions.map (fun p => p - -d) = (g.shift d).positions := by
  simp only [Grid.shift]
  apply List.map_congr_left
  intro p _
  ext <;> simp

theorem framesOf_append (log : List (Grid K × Grid K × V2 K)) (x : Grid K × Grid K × V2 K) :
    framesOf (log ++ [x]) = framesOf log ++ [x.1.positions.map (fun p => p - x.2.2)] := by
  simp [framesOf]

/-- Once frames are remembered without a classifier or without classes, every call raises. -/
theorem broken_raises (cfg : FilterCfg K) (ops : FilterOps K C) (cf : CliqueFinder) (g : Grid K)
    (s : FilterState K C) (hr : s.recent ≠ []) (hb : s.classifier = none ∨ s.classes = []) :
    ∃ e, FilterState.call cfg ops cf g s = .error e s := by
  unfold FilterState.call
  rw [if_neg (by simpa using hr)]
  cases hcl : classifyLattice ops g.positions s.classifier with
  | error e => exact ⟨e, rfl⟩
  | ok cl =>
    rcases hb with hb | hb
    · rw [hb] at hcl
      unfold classifyLattice at hcl
      split at hcl <;> cases hcl
    · exact ⟨.valueError, by simp [hb]⟩

theorem cut_drop (h : ℕ) (s : FilterState K C) :
    FilterState.cut h s = ⟨s.recent.drop (s.recent.length - h),
      s.classes.drop (s.recent.length - h), s.classifier⟩ := by
  unfold FilterState.cut
  split
  · rename_i hl
    have : ((s.recent.length : ℤ) - (h : ℤ)).toNat = s.recent.length - h := by omega
    simp only [this]
  · rename_i hl
    have : s.recent.length - h = 0 := by omega
    rw [this]
    rfl

theorem filterInv (cfg : FilterCfg K) (ops : FilterOps K C) (cf : CliqueFinder) (h : ℕ)
    (hh : cfg.historyLength = h) (h1 : 1 ≤ h) (hacc : cfg.accumulateMerged = false)
    (s : FilterState K C) (log : List (Grid K × Grid K × V2 K)) (hl : FilterLog cfg ops cf s log) :
    FilterInv cfg h s log := by
  induction hl with
  | start => left; exact ⟨rfl, rfl⟩
  | reset => left; exact ⟨rfl, rfl⟩
  | @returned s log g m d s' before wf call ih =>
    right; right
    refine ⟨by simp, ?_⟩
    rcases ih with ⟨rfl, rfl⟩ | ⟨rfl, hlen, hb⟩ | ⟨hne, hall, hlen, hcls, htail, hmap, hcq⟩
    · rcases call_first cfg ops cf g FilterState.fresh rfl with ⟨c, cl, hfit, hcl, hc⟩ | ⟨e, hc⟩ | ⟨e, c, hc⟩
      · rw [hc] at call
        cases call
        have hf : framesOf ([] ++ [(g, g, (-0 : V2 K))]) = [g.positions] := by
          rw [framesOf_append, shift_neg_positions]
          simp only [framesOf, List.map_nil, List.nil_append, Grid.shift]
          congr 1
          conv_rhs => rw [← List.map_id g.positions]
          apply List.map_congr_left
          intro p _
          ext <;> simp
        have hla : lastN h [g.positions] = [g.positions] := by
          unfold lastN
          rw [Nat.sub_eq_zero_of_le (by simpa using h1)]
          rfl
        rw [hf, hla]
        refine ⟨?_, by simp [h1], rfl, rfl, rfl, fun _ => rfl⟩
        intro a ha
        simp only [List.mem_singleton] at ha
        subst ha
        intro h0
        unfold classifyLattice at hcl
        rw [if_pos (by simp [h0])] at hcl
        cases hcl
      · rw [hc] at call; cases call
      · rw [hc] at call; cases call
    · obtain ⟨e, he⟩ := broken_raises cfg ops cf g s (by rw [← List.length_pos_iff]; omega) hb
      rw [he] at call; cases call
    · have hpos : 0 < log.length := List.length_pos_iff.2 hne
      have hrpos : s.recent ≠ [] := by rw [← List.length_pos_iff]; omega
      obtain ⟨first, rest, hs⟩ := List.exists_cons_of_ne_nil hrpos
      rcases call_next cfg ops cf g s first rest hs (hall _ (by rw [hs]; simp)) hacc wf with ⟨e, he⟩ |
        ⟨cl, drift, joined, first', z, h3, hce, hcn, hcq', hf', hfl, hal, hm, hc⟩
      · rw [he] at call; cases call
      · rw [hc] at call
        cases call
        rw [hh, cut_drop, framesOf_append, shift_neg_positions, lastN_append_one _ _ _ h1]
        simp only
        have hL : (lastN h (framesOf log)).length = rest.length + 1 := by
          have := congrArg List.length hmap
          rw [hs] at this
          simpa using this.symm
        obtain ⟨f0, fr, hF⟩ := List.exists_cons_of_ne_nil
          (show lastN h (framesOf log) ≠ [] by rw [← List.length_pos_iff]; omega)
        rw [hF, hs] at htail hmap hcq
        simp only [List.tail_cons] at htail
        subst htail
        rw [hF]
        have hrl : rest.length + 1 = min h log.length := by rw [← hlen, hs]; rfl
        have hlens : first'.length = f0.length := by
          rw [hfl]; simp only [List.map_cons, List.cons.injEq] at hmap; exact hmap.1
        have hk : (first' :: rest ++ [(g.shift drift).positions]).length - h =
            (f0 :: rest).length + 1 - h := by simp
        rw [hk]
        generalize hkk : (f0 :: rest).length + 1 - h = k
        simp only [List.length_cons] at hkk
        refine ⟨?_, ?_, ?_, ?_, ?_, ?_⟩
        · intro a ha
          have ha := List.mem_of_mem_drop ha
          simp only [List.cons_append, List.mem_cons, List.mem_append, List.not_mem_nil, or_false] at ha
          rcases ha with rfl | ha | rfl
          · exact hf'
          · exact hall a (by rw [hs]; exact List.mem_cons_of_mem _ ha)
          · intro h0
            simp [Grid.shift] at h0
            simp [h0] at h3
        · simp; omega
        · simp [hcls, hs]
        · cases k with
          | zero => simp
          | succ k => simp
        · rw [List.map_drop, List.map_drop]
          simp [hlens]
        · intro hc
          have h0 := hcq hc
          simp only [List.cons.injEq] at h0
          rw [hcq' hc, h0.1]
  | @raised s log g e s' before wf call ih =>
    rcases ih with ⟨rfl, rfl⟩ | ⟨rfl, hlen, hb⟩ | ⟨hne, hall, hlen, hcls, htail, hmap, hcq⟩
    · right; left
      rcases call_first cfg ops cf g FilterState.fresh rfl with ⟨c, cl, hfit, hcl, hc⟩ | ⟨e, hc⟩ | ⟨e, c, hc⟩
      · rw [hc] at call; cases call
      · rw [hc] at call; cases call; exact ⟨rfl, rfl, Or.inl rfl⟩
      · rw [hc] at call; cases call; exact ⟨rfl, rfl, Or.inr rfl⟩
    · obtain ⟨e, he⟩ := broken_raises cfg ops cf g s (by rw [← List.length_pos_iff]; omega) hb
      rw [he] at call; cases call
      right; left; exact ⟨rfl, hlen, hb⟩
    · have hpos : 0 < log.length := List.length_pos_iff.2 hne
      have hrpos : s.recent ≠ [] := by rw [← List.length_pos_iff]; omega
      obtain ⟨first, rest, hs⟩ := List.exists_cons_of_ne_nil hrpos
      rcases call_next cfg ops cf g s first rest hs (hall _ (by rw [hs]; simp)) hacc wf with ⟨e, he⟩ |
        ⟨cl, drift, joined, first', z, h3, hce, hcn, hcq', hf', hfl, hal, hm, hc⟩
      · rw [he] at call; cases call
        right; right; exact ⟨hne, hall, hlen, hcls, htail, hmap, hcq⟩
      · rw [hc] at call; cases call

/-- **C55.**  An aligner that does not accumulate merged grids, with a history length of at least one,
never remembers more frames than that, whatever calls returned or raised. -/
theorem C55_filter_bounded (cfg : FilterCfg K) (ops : FilterOps K C) (cf : CliqueFinder)
    (h1 : 1 ≤ cfg.historyLength) (hacc : cfg.accumulateMerged = false)
    (s : FilterState K C) (log : List (Grid K × Grid K × V2 K)) (hl : FilterLog cfg ops cf s log) :
    (s.recent.length : ℤ) ≤ cfg.historyLength := by
  have hh : cfg.historyLength = (cfg.historyLength.toNat : ℕ) := by omega
  rcases filterInv cfg ops cf _ hh (by omega) hacc s log hl with ⟨_, rfl⟩ | ⟨_, h, _⟩ | ⟨_, _, h, _⟩
  · simp [FilterState.fresh]; omega
  · omega
  · omega

/-- It remembers the frames of the last calls that returned since the last reset, in order, as many as the
history length: each frame moved by the drift that was found.  Naive merging may have changed positions in
the oldest remembered frame (not their number); clique merging changes none. -/
theorem C55_filter_recent (cfg : FilterCfg K) (ops : FilterOps K C) (cf : CliqueFinder) (h : ℕ)
    (hh : cfg.historyLength = h) (h1 : 1 ≤ h) (hacc : cfg.accumulateMerged = false)
    (s : FilterState K C) (log : List (Grid K × Grid K × V2 K)) (hl : FilterLog cfg ops cf s log)
    (hne : log ≠ []) :
    s.recent.tail = (lastN h (framesOf log)).tail ∧
    s.recent.map List.length = (lastN h (framesOf log)).map List.length ∧
    (cfg.cliqueMerging = true → s.recent = lastN h (framesOf log)) := by
  rcases filterInv cfg ops cf h hh h1 hacc s log hl with ⟨h0, _⟩ | ⟨h0, _⟩ | ⟨_, _, _, _, a, b, c⟩
  · exact absurd h0 hne
  · exact absurd h0 hne
  · exact ⟨a, b, c⟩

/-- If the first call after a reset raises, all later calls raise, until the next reset: `s'` is the state
after that first call. -/
theorem C55_failed_first (cfg : FilterCfg K) (ops : FilterOps K C) (cf : CliqueFinder) (g : Grid K) (e : Err)
    (s' : FilterState K C) (hc : FilterState.call cfg ops cf g FilterState.fresh = .error e s') (g' : Grid K) :
    ∃ e', FilterState.call cfg ops cf g' s' = .error e' s' := by
  rcases call_first cfg ops cf g FilterState.fresh rfl with ⟨c, cl, _, _, h⟩ | ⟨e1, h⟩ | ⟨e1, c, h⟩
  · rw [h] at hc; cases hc
  · rw [h] at hc; cases hc
    exact broken_raises cfg ops cf g' _ (by simp) (Or.inl rfl)
  · rw [h] at hc; cases hc
    exact broken_raises cfg ops cf g' _ (by simp) (Or.inr rfl)

/-- With a history length of zero or less, the first call that returns remembers more than that. -/
theorem C55_no_history (cfg : FilterCfg K) (ops : FilterOps K C) (cf : CliqueFinder) (g : Grid K)
    (r : Grid K × V2 K) (s' : FilterState K C) (h0 : cfg.historyLength ≤ 0)
    (hc : FilterState.call cfg ops cf g FilterState.fresh = .ok r s') :
    cfg.historyLength < s'.recent.length := by
  rcases call_first cfg ops cf g FilterState.fresh rfl with ⟨c, cl, _, _, h⟩ | ⟨e1, h⟩ | ⟨e1, c, h⟩
  · rw [h] at hc; cases hc; simp; omega
  · rw [h] at hc; cases hc
  · rw [h] at hc; cases hc

theorem replaceFirst_length (new : List (V2 K)) (l : List (List (V2 K))) :
    (replaceFirst new l).length = l.length := by
  induction l with
  | nil => rfl
  | cons a l ih => unfold replaceFirst; split <;> simp [ih]

theorem mergeAll_length {cfg : FilterCfg K} {cf : CliqueFinder} {arrays out : List (List (V2 K))}
    {joined : List (V2 K)} (h : mergeAll cfg cf arrays = .ok (joined, out)) :
    out.length = arrays.length ∧ (cfg.cliqueMerging = true → out = arrays) := by
  unfold mergeAll at h
  split at h
  · cases h; exact ⟨rfl, fun _ => rfl⟩
  · rename_i hc
    split at h
    · cases h
    · cases h; exact ⟨replaceFirst_length _ _, fun h => absurd h hc⟩

/-- A call of an accumulating aligner that returns adds the merged grid. -/
theorem call_accumulate (cfg : FilterCfg K) (ops : FilterOps K C) (cf : CliqueFinder) (g m : Grid K)
    (d : V2 K) (s s' : FilterState K C) (hacc : cfg.accumulateMerged = true) (hr : s.recent ≠ [])
    (hc : FilterState.call cfg ops cf g s = .ok (m, d) s') :
    ∃ (recent : List (List (V2 K))) (classes : List (List ℤ)), recent.length = s.recent.length ∧
      (cfg.cliqueMerging = true → recent = s.recent) ∧
      s' = FilterState.cut cfg.historyLength ⟨recent ++ [m.positions], classes, s.classifier⟩ := by
  unfold FilterState.call at hc
  rw [if_neg (by simpa using hr)] at hc
  split at hc
  · cases hc
  · split at hc
    · cases hc
    · split at hc
      · cases hc
      · cases hc
      · simp only at hc
        split at hc
        · cases hc
        · rename_i drift _ joined arrays hm
          try simp only [hacc, if_true] at hc
          obtain ⟨hl, hq⟩ := mergeAll_length hm
          split at hc
          · cases hc
          · rename_i s1 hadd
            split at hadd
            · cases hadd
            · cases hadd
              split at hc
              · cases hc
              · cases hc
                refine ⟨arrays.dropLast, _, by simp [hl], ?_, rfl⟩
                intro h
                rw [hq h, List.dropLast_concat]

/-- Calls of a new aligner that all return. -/
inductive FilterCalls (cfg : FilterCfg K) (ops : FilterOps K C) (cf : CliqueFinder) :
    FilterState K C → List (Grid K × Grid K × V2 K) → Prop
  | start : FilterCalls cfg ops cf FilterState.fresh []
  | next {s log g m d s'} (before : FilterCalls cfg ops cf s log)
      (call : FilterState.call cfg ops cf g s = .ok (m, d) s') :
      FilterCalls cfg ops cf s' (log ++ [(g, m, d)])

/-- An accumulating aligner, as long as no call raises, remembers at most `h` grids; with clique merging,
the last `h` grids it returned, in order. -/
theorem C55_accumulated_partial (cfg : FilterCfg K) (ops : FilterOps K C) (cf : CliqueFinder) (h : ℕ)
    (hh : cfg.historyLength = h) (h1 : 1 ≤ h) (hacc : cfg.accumulateMerged = true)
    (s : FilterState K C) (log : List (Grid K × Grid K × V2 K)) (hl : FilterCalls cfg ops cf s log) :
    s.recent.length = min h log.length ∧
    (cfg.cliqueMerging = true → s.recent = lastN h (log.map (fun c => c.2.1.positions))) := by
  induction hl with
  | start => exact ⟨by simp [FilterState.fresh], fun _ => by simp [FilterState.fresh, lastN]⟩
  | @next s log g m d s' before call ih =>
    obtain ⟨ih1, ih2⟩ := ih
    by_cases hr : s.recent = []
    · have h0 : log = [] := by
        rw [hr] at ih1
        simp only [List.length_nil] at ih1
        rw [← List.length_eq_zero_iff]; omega
      subst h0
      rcases call_first cfg ops cf g s hr with ⟨c, cl, _, _, hc⟩ | ⟨e1, hc⟩ | ⟨e1, c, hc⟩
      · rw [hc] at call; cases call
        refine ⟨by simp [h1], fun _ => ?_⟩
        simp only [List.nil_append, List.map_cons, List.map_nil, lastN, List.length_cons, List.length_nil]
        rw [Nat.sub_eq_zero_of_le (by simpa using h1)]
        rfl
      · rw [hc] at call; cases call
      · rw [hc] at call; cases call
    · obtain ⟨recent, classes, e1, e2, rfl⟩ := call_accumulate cfg ops cf g m d s s' hacc hr call
      rw [hh, cut_drop]
      refine ⟨by simp [e1, ih1]; omega, fun hc => ?_⟩
      rw [List.map_append, List.map_cons, List.map_nil, lastN_append_one _ _ _ h1, ← ih2 hc, e2 hc]
      simp

end

/-- Three atoms close together, on which an accumulating aligner exceeds its history. -/
def closeAtoms : Grid ℚ := ⟨[⟨0, 0⟩, ⟨1 / 10, 0⟩, ⟨0, 1 / 10⟩], [6, 6, 6]⟩

/-- Routines that never raise and find no drift. -/
def calmOps : FilterOps ℚ Unit where
  fit := fun _ => .ok ()
  predict := fun ps _ => .ok (ps.map (fun _ => 0))
  align := fun _ _ _ _ => .ok (some 0)

theorem complete_one (cf : CliqueFinder) (n : ℕ) (adj : ℕ → ℕ → Bool) (hs : ∀ i j, adj i j = adj j i)
    (hn : 0 < n) (hc : ∀ i, i < n → ∀ j, j < n → i ≠ j → adj i j = true) : (cf.find n adj).length = 1 := by
  have sp := cf.spec n adj hs
  have hfull : ∀ c ∈ cf.find n adj, ∀ k, k < n → k ∈ c := by
    intro c hcm k hk
    by_contra hkc
    obtain ⟨i, hi, hf⟩ := sp.maximal c hcm k hk hkc
    have := hc i (sp.inRange c hcm i hi) k hk (by rintro rfl; exact hkc hi)
    rw [hf] at this; cases this
  obtain ⟨c, hcm, _⟩ := sp.all [0] (by simp) (by simpa using hn) (by simp)
  match h : cf.find n adj with
  | [] => rw [h] at hcm; cases hcm
  | [_] => rfl
  | a :: b :: t =>
    exfalso
    have hd := sp.distinct
    rw [h] at hd hfull
    have h1 := (List.pairwise_cons.1 hd).1 b (by simp)
    apply h1
    intro i
    have ia : i ∈ a → i < n := sp.inRange a (by rw [h]; simp) i
    have ib : i ∈ b → i < n := sp.inRange b (by rw [h]; simp) i
    exact ⟨fun hi => hfull b (by simp) i (ia hi), fun hi => hfull a (by simp) i (ib hi)⟩

theorem loop_one (cf : CliqueFinder) (r : ℚ) (n : ℕ) (st : List (V2 ℚ) × List ℚ) (h : st.1.length = 1) :
    (cliqueLoop cf r n st).1.length = 1 := by
  induction n generalizing st with
  | zero => exact h
  | succ n ih =>
    unfold cliqueLoop
    split
    · apply ih
      simp only [cliqueRound, List.length_map]
      exact complete_one cf _ _ (closePair_symm r st.1) (by omega) (by intros; omega)
    · exact h

/-- An accumulating aligner can remember more than its history length, and a call raise, although no
routine it uses raises: merging leaves fewer than three atoms, which cannot be classified. -/
theorem C55_accumulate_exceeds (cf : CliqueFinder) :
    ∃ (cfg : FilterCfg ℚ) (s s' : FilterState ℚ Unit) (r : Grid ℚ × V2 ℚ) (e : Err),
      cfg.historyLength = 1 ∧
      FilterState.call cfg calmOps cf closeAtoms FilterState.fresh = .ok r s ∧
      FilterState.call cfg calmOps cf closeAtoms s = .error e s' ∧ s'.recent.length = 2 := by
  let cfg : FilterCfg ℚ :=
    { historyLength := 1, mergeCutoff := 11 / 10, accumulateMerged := true, cliqueMerging := true }
  let J := (cliqueMerge cf (11 / 10 : ℚ) 100 (closeAtoms.positions ++ closeAtoms.positions) none).1
  have hJ : J.length = 1 := by
    show (cliqueLoop cf (11 / 10 : ℚ) 100 _).1.length = 1
    unfold cliqueLoop
    rw [if_pos (by decide +kernel)]
    apply loop_one
    simp only [cliqueRound, List.length_map]
    apply complete_one cf _ _ (closePair_symm _ _) (by decide)
    decide +kernel
  have hsh : (closeAtoms.shift (0 : V2 ℚ)).positions = closeAtoms.positions := by decide +kernel
  refine ⟨cfg, ⟨[closeAtoms.positions], [[0, 0, 0]], some ()⟩,
    ⟨[closeAtoms.positions, J], [[0, 0, 0]], some ()⟩, (closeAtoms, -0), .assertionError, rfl, rfl, ?_, rfl⟩
  have hcl : classifyLattice calmOps closeAtoms.positions (some ()) = .ok [0, 0, 0] := rfl
  have hm : mergeAll cfg cf ([closeAtoms.positions] ++ [closeAtoms.positions]) =
      .ok (J, [closeAtoms.positions, closeAtoms.positions]) := rfl
  have hb : classifyLattice calmOps J (some ()) = .error .assertionError := by
    unfold classifyLattice
    rw [if_pos (by omega)]
  have hal : calmOps.align closeAtoms.positions [closeAtoms.positions].flatten [0, 0, 0] [[0, 0, 0]].flatten =
      .ok (some 0) := rfl
  unfold FilterState.call
  simp only [List.isEmpty_cons, Bool.false_eq_true, if_false, hcl, hal, hsh, hm, hb]
  rfl

/-- The settings of a filtering aligner with history length two, and the default merging. -/
def twoFrames : FilterCfg ℚ := { historyLength := 2, mergeCutoff := 11 / 10 }

/-- A second frame, two atoms of which are close to atoms of the first. -/
def secondFrame : Grid ℚ := ⟨[⟨1, 0⟩, ⟨1 / 10, 1⟩, ⟨1, 1⟩], [6, 6, 14]⟩

theorem two_calls (cf : CliqueFinder) :
    FilterState.call twoFrames calmOps cf closeAtoms FilterState.fresh =
      .ok (closeAtoms, -0) ⟨[closeAtoms.positions], [[0, 0, 0]], some ()⟩ ∧
    FilterState.call twoFrames calmOps cf secondFrame ⟨[closeAtoms.positions], [[0, 0, 0]], some ()⟩ =
      .ok (⟨[⟨0, 0⟩, ⟨11 / 20, 0⟩, ⟨1 / 20, 11 / 20⟩, ⟨1, 1⟩], [6, 6, 6, 14]⟩, -0)
        ⟨[[⟨0, 0⟩, ⟨11 / 20, 0⟩, ⟨1 / 20, 11 / 20⟩], secondFrame.positions], [[0, 0, 0], [0, 0, 0]], some ()⟩ := by
  refine ⟨rfl, ?_⟩
  have hsh : (secondFrame.shift (0 : V2 ℚ)) = secondFrame := by decide +kernel
  have hcl : classifyLattice calmOps secondFrame.positions (some ()) = .ok [0, 0, 0] := rfl
  have hal : calmOps.align secondFrame.positions [closeAtoms.positions].flatten [0, 0, 0] [[0, 0, 0]].flatten =
      .ok (some 0) := rfl
  have hn : naiveMerge (11 / 10 : ℚ) ([closeAtoms.positions] ++ [secondFrame.positions]) =
      .ok ⟨[⟨0, 0⟩, ⟨11 / 20, 0⟩, ⟨1 / 20, 11 / 20⟩, ⟨1, 1⟩], [1, 2, 2, 1],
        [⟨0, 0⟩, ⟨11 / 20, 0⟩, ⟨1 / 20, 11 / 20⟩], false⟩ := by decide +kernel
  have hm : mergeAll twoFrames cf ([closeAtoms.positions] ++ [secondFrame.positions]) =
      .ok ([⟨0, 0⟩, ⟨11 / 20, 0⟩, ⟨1 / 20, 11 / 20⟩, ⟨1, 1⟩],
        [[⟨0, 0⟩, ⟨11 / 20, 0⟩, ⟨1 / 20, 11 / 20⟩], secondFrame.positions]) := by
    unfold mergeAll
    rw [if_neg (by decide)]
    rw [show twoFrames.mergeCutoff = 11 / 10 from rfl, hn]
    rfl
  have hp : propagateAtomicNumbers secondFrame.positions
      [⟨0, 0⟩, ⟨11 / 20, 0⟩, ⟨1 / 20, 11 / 20⟩, ⟨1, 1⟩] secondFrame.numbers none CARBON (8 / 10 : ℚ) =
      .ok [6, 6, 6, 14] := by decide +kernel
  unfold FilterState.call
  simp only [List.isEmpty_cons, Bool.false_eq_true, if_false, hcl, hal, hsh, hm]
  show (match propagateAtomicNumbers secondFrame.positions
      [⟨0, 0⟩, ⟨11 / 20, 0⟩, ⟨1 / 20, 11 / 20⟩, ⟨1, 1⟩] secondFrame.numbers none CARBON (8 / 10 : ℚ) with
    | .error e => _
    | .ok numbers => _) = _
  rw [hp]
  rfl

/-- Two calls that return. -/
example (cf : CliqueFinder) : ∃ (s : FilterState ℚ Unit) (log : List (Grid ℚ × Grid ℚ × V2 ℚ)),
    FilterLog twoFrames calmOps cf s log ∧ log.length = 2 :=
  ⟨_, _, .returned (.returned .start (by decide) (two_calls cf).1) (by decide) (two_calls cf).2, rfl⟩

/-! ### C51: the filtering aligner and its argument -/

/-- The second call of an aligner with the default (naive) merging changes the array that the first call was
given (and which the first call returned as part of its grid). -/
theorem C51_filter_changes_input (cf : CliqueFinder) :
    ∃ (s s' : FilterState ℚ Unit) (r r' : Grid ℚ × V2 ℚ),
      FilterState.call twoFrames calmOps cf closeAtoms FilterState.fresh = .ok r s ∧
      r.1.positions = closeAtoms.positions ∧ s.recent[0]? = some closeAtoms.positions ∧
      FilterState.call twoFrames calmOps cf secondFrame s = .ok r' s' ∧
      ∃ a, s'.recent[0]? = some a ∧ a ≠ closeAtoms.positions :=
  ⟨_, _, _, _, (two_calls cf).1, rfl, rfl, (two_calls cf).2, _, rfl, by decide +kernel⟩

/-- An aligner with clique merging keeps the arrays of its earlier calls as they were. -/
theorem C51_filter_partial {K : Type} [Field K] [LinearOrder K] [IsStrictOrderedRing K]
    (cfg : FilterCfg K) (cf : CliqueFinder) (hc : cfg.cliqueMerging = true)
    (arrays out : List (List (V2 K))) (joined : List (V2 K))
    (h : mergeAll cfg cf arrays = .ok (joined, out)) : out = arrays :=
  (mergeAll_length h).2 hc

/-! ### The image aligner -/

section
variable {K C P Img Probs : Type} [Field K] [LinearOrder K] [FloorRing K]

theorem pushBounded_lastN {α : Type} (m : ℕ) (l : List α) (x : α) :
    pushBounded m (lastN m l) x = lastN m (l ++ [x]) := by
  rcases Nat.eq_zero_or_pos m with rfl | hm
  · simp [pushBounded, lastN]
  · rw [lastN_append_one m l x hm, pushBounded]

theorem foldl_pushBounded {α : Type} (m : ℕ) (xs l : List α) :
    xs.foldl (pushBounded m) (lastN m l) = lastN m (l ++ xs) := by
  induction xs generalizing l with
  | nil => simp
  | cons x xs ih => rw [List.foldl_cons, pushBounded_lastN, ih]; simp

theorem reset_ok {black : P} {n : ℤ} {s0 s : ImageState K C P}
    (h : ImageState.reset black n s0 = .ok () s) :
    1 ≤ n ∧ s.images = lastN (n - 1).toNat (List.replicate n.toNat (blackFrame black)) ∧
    s.fovs = lastN (n - 1).toNat (List.replicate n.toNat dummyFov) ∧ s.maxlen = (n - 1).toNat ∧
    s.needsReset = false ∧ s.post = FilterState.fresh := by
  unfold ImageState.reset at h
  split at h
  · cases h
  · cases h
    refine ⟨by omega, ?_, ?_, rfl, rfl, rfl⟩
    · simpa [lastN] using foldl_pushBounded (n - 1).toNat (List.replicate n.toNat (blackFrame black)) []
    · simpa [lastN] using foldl_pushBounded (n - 1).toNat (List.replicate n.toNat (dummyFov : Fov K)) []

theorem pyGet_spec {α : Type} {xs : List α} {i : ℤ} {x : α} (h : pyGet xs i = some x) : AtIndex xs i x := by
  unfold pyGet at h
  split_ifs at h with h0 h1
  · exact .inl ⟨h0, h⟩
  · refine .inr ⟨by omega, ?_⟩
    rw [List.getElem?_reverse (by omega), ← h]
    congr 1
    omega

theorem postCfg_eq : (postCfg : FilterCfg K) = postAligner := rfl

/-- The parts of a call of the image aligner. -/
theorem imageCall_ok {ops : ImageOps K P Img Probs} {hybrid : Option (FilterOps K C × CliqueFinder)}
    {image : Img} {fov : Fov K} {grid : Option (Grid K)} {t : ℤ} {s s' : ImageState K C P}
    {r : Grid K × V2 K × Probs} (hn : s.needsReset = false)
    (h : ImageState.call ops hybrid image fov grid t s = .ok r s') :
    ∃ img padded outputs probs drift, ops.prepare image = .ok img ∧
      (s.images.zip s.fovs).mapM (fun x => padAndCrop ops.resizer ops.black 512 512 x.1 x.2 fov) = .ok padded ∧
      ops.net (padded ++ [img]) = .ok outputs ∧ pyGet outputs t = some (probs, drift) ∧ r.2.2 = probs ∧
      s'.images = pushBounded s.maxlen s.images img ∧ s'.fovs = pushBounded s.maxlen s.fovs fov ∧
      s'.maxlen = s.maxlen ∧ s'.needsReset = false ∧
      (hybrid = none → r = (grid.getD (ops.detect probs), drift, probs) ∧ s'.post = s.post) ∧
      (∀ fops cf, hybrid = some (fops, cf) →
        ((r.1, r.2.1), s'.post) = postprocess fops cf fov (grid.getD (ops.detect probs)) drift s.post) := by
  unfold ImageState.call at h
  split at h
  · cases h
  · rename_i img hp
    simp only [hn, Bool.false_eq_true, if_false] at h
    split at h
    · cases h
    · rename_i padded hc
      split at h
      · cases h
      · rename_i outputs hnet
        split at h
        · cases h
        · rename_i probs drift hg
          refine ⟨img, padded, outputs, probs, drift, hp, hc, hnet, hg, ?_⟩
          cases hybrid with
          | none =>
            cases h
            exact ⟨rfl, rfl, rfl, rfl, rfl, fun _ => ⟨rfl, rfl⟩, fun _ _ h => nomatch h⟩
          | some x =>
            obtain ⟨fops, cf⟩ := x
            simp only at h
            cases h
            refine ⟨rfl, rfl, rfl, rfl, rfl, fun h => (nomatch h), ?_⟩
            intro _ _ h
            cases h
            rfl

theorem imageCall_error {ops : ImageOps K P Img Probs} {hybrid : Option (FilterOps K C × CliqueFinder)}
    {image : Img} {fov : Fov K} {grid : Option (Grid K)} {t : ℤ} {s s' : ImageState K C P} {e : Err}
    (hn : s.needsReset = false) (h : ImageState.call ops hybrid image fov grid t s = .error e s') :
    s' = s := by
  unfold ImageState.call at h
  split at h
  · cases h; rfl
  · simp only [hn, Bool.false_eq_true, if_false] at h
    split at h
    · cases h; rfl
    · split at h
      · cases h; rfl
      · split at h
        · cases h; rfl
        · split at h <;> cases h

theorem imageInv {ops : ImageOps K P Img Probs} {hybrid : Option (FilterOps K C × CliqueFinder)} {n : ℤ}
    {s : ImageState K C P} {log : List (List (List P) × Fov K)} (hl : ImageLog ops hybrid n s log) :
    s.images = lastN (n - 1).toNat (List.replicate n.toNat (blackFrame ops.black) ++ log.map (·.1)) ∧
    s.fovs = lastN (n - 1).toNat (List.replicate n.toNat dummyFov ++ log.map (·.2)) ∧
    s.maxlen = (n - 1).toNat ∧ s.needsReset = false ∧ 1 ≤ n := by
  induction hl with
  | reset call =>
    obtain ⟨h1, h2, h3, h4, h5, _⟩ := reset_ok call
    simp [h1, h2, h3, h4, h5]
  | returned before prepared call ih =>
    obtain ⟨h1, h2, h3, h4, h5⟩ := ih
    obtain ⟨img, padded, outputs, probs, drift, hp, _, _, _, _, e1, e2, e3, e4, _⟩ := imageCall_ok h4 call
    rw [hp] at prepared
    cases prepared
    rw [e1, e2, e3, h1, h2, h3, pushBounded_lastN, pushBounded_lastN]
    simp [e4, h5]
  | raised before call ih =>
    rw [imageCall_error ih.2.2.2.1 call]
    exact ih

/-- **C55.**  The image aligner remembers, besides the frame at hand, the frames of the last `n - 1` calls
that returned since it was reset with history length `n`, in order, preceded by black frames if there were
fewer: images and fields of view alike. -/
theorem C55_image_history (ops : ImageOps K P Img Probs) (hybrid : Option (FilterOps K C × CliqueFinder))
    (n : ℤ) (s : ImageState K C P) (log : List (List (List P) × Fov K)) (hl : ImageLog ops hybrid n s log) :
    s.images.zip s.fovs =
      lastN (n - 1).toNat (List.replicate n.toNat (blackFrame ops.black, dummyFov) ++ log) ∧
    (s.images.length : ℤ) = n - 1 ∧ (s.fovs.length : ℤ) = n - 1 := by
  obtain ⟨h1, h2, _, _, h5⟩ := imageInv hl
  refine ⟨?_, ?_, ?_⟩
  · rw [h1, h2]
    unfold lastN
    have e1 : (List.replicate n.toNat (blackFrame ops.black) ++ log.map (·.1)) =
        (List.replicate n.toNat (blackFrame ops.black, (dummyFov : Fov K)) ++ log).map (·.1) := by simp
    have e2 : (List.replicate n.toNat (dummyFov : Fov K) ++ log.map (·.2)) =
        (List.replicate n.toNat (blackFrame ops.black, (dummyFov : Fov K)) ++ log).map (·.2) := by simp
    rw [e1, e2, List.length_map, List.length_map, ← List.map_drop, ← List.map_drop]
    generalize List.drop _ _ = l
    induction l with
    | nil => rfl
    | cons a l ih => simp [ih]
  · rw [h1, lastN_length]; simp; omega
  · rw [h2, lastN_length]; simp; omega

/-- The network of a call sees exactly those frames, cut to the new field of view, and the new image. -/
theorem C55_image_stack (ops : ImageOps K P Img Probs) (hybrid : Option (FilterOps K C × CliqueFinder))
    (n : ℤ) (s s' : ImageState K C P) (log : List (List (List P) × Fov K))
    (hl : ImageLog ops hybrid n s log) (image : Img) (fov : Fov K) (grid : Option (Grid K)) (t : ℤ)
    (r : Grid K × V2 K × Probs) (h : ImageState.call ops hybrid image fov grid t s = .ok r s') :
    ∃ img padded outputs, ops.prepare image = .ok img ∧
      (lastN (n - 1).toNat (List.replicate n.toNat (blackFrame ops.black, dummyFov) ++ log)).mapM
        (fun x => padAndCrop ops.resizer ops.black 512 512 x.1 x.2 fov) = .ok padded ∧
      ops.net (padded ++ [img]) = .ok outputs ∧ ∃ drift, AtIndex outputs t (r.2.2, drift) := by
  obtain ⟨_, _, _, h4, _⟩ := imageInv hl
  obtain ⟨img, padded, outputs, probs, drift, hp, hc, hnet, hg, hr, _⟩ := imageCall_ok h4 h
  rw [(C55_image_history ops hybrid n s log hl).1] at hc
  exact ⟨img, padded, outputs, hp, hc, hnet, drift, by rw [hr]; exact pyGet_spec hg⟩

/-- A reset forgets everything: the state after it does not depend on the state before.  It raises exactly
for history lengths below one. -/
theorem C55_image_reset (black : P) (n : ℤ) (s1 s2 : ImageState K C P) :
    (n < 1 → ImageState.reset black n s1 = .error .valueError s1) ∧
    (1 ≤ n → ∃ s, ImageState.reset black n s1 = .ok () s ∧ ImageState.reset black n s2 = .ok () s) := by
  unfold ImageState.reset
  constructor
  · intro h; rw [if_pos h]
  · intro h; rw [if_neg (by omega), if_neg (by omega)]; exact ⟨_, rfl, rfl⟩

/-- The first call of a new aligner is the first call after a reset with history length 5. -/
theorem C55_image_first (ops : ImageOps K P Img Probs) (hybrid : Option (FilterOps K C × CliqueFinder))
    (s : ImageState K C P) (hs : ImageState.reset ops.black 5 ImageState.fresh = .ok () s)
    (image : Img) (fov : Fov K) (grid : Option (Grid K)) (t : ℤ) (r : Grid K × V2 K × Probs)
    (s' : ImageState K C P) :
    ImageState.call ops hybrid image fov grid t ImageState.fresh = .ok r s' ↔
    ImageState.call ops hybrid image fov grid t s = .ok r s' := by
  have hn := (reset_ok hs).2.2.2.2.1
  obtain ⟨a, b, c, d, p⟩ := s
  simp only at hn
  subst hn
  unfold ImageState.call
  cases ops.prepare image with
  | error e => simp
  | ok img =>
    simp only [ImageState.fresh, Bool.false_eq_true, if_false, if_true]
    rw [show (ImageState.reset ops.black 5 ⟨[], [], 0, true, FilterState.fresh⟩ : EStateM.Result Err _ Unit) =
      .ok () _ from hs]

/-! ### C73: hybrid alignment -/

theorem shift_scale (fov : Fov K) (d : V2 K) : (fov.shift d).scale = fov.scale := by
  ext <;> simp [Fov.scale, Fov.shift]

theorem toMaterial_toMicroscope (fov : Fov K) (hx : fov.scale.x ≠ 0) (hy : fov.scale.y ≠ 0) (p : V2 K) :
    fov.toMaterial (fov.toMicroscope p) = p := by
  ext
  · simp only [Fov.toMaterial, Fov.toMicroscope, V2.add_x, V2.mul_x, V2.div_x, V2.sub_x]
    rw [div_mul_cancel₀ _ hx, sub_add_cancel]
  · simp only [Fov.toMaterial, Fov.toMicroscope, V2.add_y, V2.mul_y, V2.div_y, V2.sub_y]
    rw [div_mul_cancel₀ _ hy, sub_add_cancel]

theorem toMicroscope_toMaterial (fov : Fov K) (hx : fov.scale.x ≠ 0) (hy : fov.scale.y ≠ 0) (p : V2 K) :
    fov.toMicroscope (fov.toMaterial p) = p := by
  ext
  · simp only [Fov.toMaterial, Fov.toMicroscope, V2.add_x, V2.mul_x, V2.div_x, V2.sub_x]
    rw [add_sub_cancel_right, mul_div_cancel_right₀ _ hx]
  · simp only [Fov.toMaterial, Fov.toMicroscope, V2.add_y, V2.mul_y, V2.div_y, V2.sub_y]
    rw [add_sub_cancel_right, mul_div_cancel_right₀ _ hy]

/-- **C73.**  When the post-processing aligner returns, the returned grid, seen through the field of view
corrected by the returned drift, is the grid that the post-processing aligner returned for the detected
grid, seen through the field of view corrected by the drift that the network reported.  The returned drift
is the sum of both drifts. -/
theorem C73_consistent (ops : ImageOps K P Img Probs) (fops : FilterOps K C) (cf : CliqueFinder)
    (image : Img) (fov : Fov K) (grid : Option (Grid K)) (t : ℤ) (s s' : ImageState K C P)
    (r : Grid K × V2 K × Probs) (hn : s.needsReset = false)
    (hx : fov.scale.x ≠ 0) (hy : fov.scale.y ≠ 0)
    (h : ImageState.call ops (some (fops, cf)) image fov grid t s = .ok r s') :
    ∃ stack outputs drift, ops.net stack = .ok outputs ∧ AtIndex outputs t (r.2.2, drift) ∧
      let found := grid.getD (ops.detect r.2.2)
      let given := (fov.shift (-drift)).gridToMaterial found
      (∀ m d post', FilterState.call postAligner fops cf given s.post = .ok (m, d) post' →
        (fov.shift (-r.2.1)).gridToMaterial r.1 = m ∧ r.2.1 = drift + d ∧ s'.post = post') ∧
      (∀ e post', FilterState.call postAligner fops cf given s.post = .error e post' →
        r.1 = found ∧ r.2.1 = drift ∧ s'.post = FilterState.fresh) := by
  obtain ⟨img, padded, outputs, probs, drift, hp, _, hnet, hg, hr, _, _, _, _, _, hpost⟩ := imageCall_ok hn h
  have hpp := hpost fops cf rfl
  rw [← postCfg_eq]
  refine ⟨padded ++ [img], outputs, drift, hnet, by rw [hr]; exact pyGet_spec hg, ?_⟩
  rw [hr]
  unfold postprocess at hpp
  constructor
  · intro m d post' hc
    simp only at hpp hc
    rw [hc] at hpp
    simp only [Prod.mk.injEq] at hpp
    obtain ⟨⟨e1, e2⟩, e3⟩ := hpp
    refine ⟨?_, e2, e3⟩
    rw [e1, e2]
    simp only [Fov.gridToMaterial, Fov.gridToMicroscope, List.map_map]
    have : (fov.shift (-(drift + d))).toMaterial ∘ (fov.shift (-(drift + d))).toMicroscope = id := by
      funext p
      exact toMaterial_toMicroscope _ (by rw [shift_scale]; exact hx) (by rw [shift_scale]; exact hy) p
    rw [this, List.map_id]
  · intro e post' hc
    simp only at hpp hc
    rw [hc] at hpp
    simp only [Prod.mk.injEq] at hpp
    exact ⟨hpp.1.1, hpp.1.2, hpp.2⟩

/-- The first frame after a reset is returned as it was detected, with the drift of the network: there is
nothing to align it with, and even a grid that cannot be classified is passed on. -/
theorem C73_first (fops : FilterOps K C) (cf : CliqueFinder) (fov : Fov K) (grid : Grid K) (drift : V2 K)
    (hx : fov.scale.x ≠ 0) (hy : fov.scale.y ≠ 0) :
    (postprocess fops cf fov grid drift FilterState.fresh).1 = (grid, drift) := by
  unfold postprocess
  simp only
  rcases call_first' postCfg fops cf ((fov.shift (-drift)).gridToMaterial grid) with ⟨s', h⟩ | ⟨e, s', h⟩
  · rw [h]
    simp only
    have hd : drift + -(0 : V2 K) = drift := by ext <;> simp
    rw [hd]
    simp only [Fov.gridToMaterial, Fov.gridToMicroscope, List.map_map]
    have : (fov.shift (-drift)).toMicroscope ∘ (fov.shift (-drift)).toMaterial = id := by
      funext p
      exact toMicroscope_toMaterial _ (by rw [shift_scale]; exact hx) (by rw [shift_scale]; exact hy) p
    rw [this, List.map_id]
  · rw [h]

end

/-- Image routines for examples: nothing but black frames and no drift. -/
def plainImageOps : ImageOps ℚ ℕ Unit Unit where
  resizer := nearestResizer ℕ
  black := 0
  prepare := fun _ => .ok (blackFrame 0)
  net := fun stack => .ok (stack.map (fun _ => ((), 0)))
  detect := fun _ => closeAtoms

/-- A call of the image aligner that remembers one black frame. -/
theorem plain_call (cf : CliqueFinder) (post : FilterState ℚ Unit) :
    ∃ r s', s'.images = [blackFrame 0] ∧ s'.fovs = [dummyFov] ∧ s'.maxlen = 1 ∧ s'.needsReset = false ∧
    ImageState.call plainImageOps (some (calmOps, cf)) () dummyFov none (-1)
      ⟨[blackFrame 0], [dummyFov], 1, false, post⟩ = .ok r s' := by
  have hi : IsImage 512 512 (blackFrame 0) := by
    refine ⟨List.length_replicate, ?_⟩
    intro row hrow
    rw [blackFrame, List.mem_replicate] at hrow
    rw [hrow.2, List.length_replicate]
  have hc := C54_unchanged (nearestResizer ℕ) 0 512 512 (blackFrame 0) (dummyFov : Fov ℚ) hi
    (by norm_num [dummyFov, Fov.width]) (by norm_num [dummyFov, Fov.height])
  have hm : (([blackFrame 0] : List (List (List ℕ))).zip [(dummyFov : Fov ℚ)]).mapM
      (fun x => padAndCrop plainImageOps.resizer plainImageOps.black 512 512 x.1 x.2 dummyFov) =
      .ok [blackFrame 0] := by
    have : ([blackFrame 0] : List (List (List ℕ))).zip [(dummyFov : Fov ℚ)] = [(blackFrame 0, dummyFov)] := rfl
    rw [this, List.mapM_cons, List.mapM_nil]
    show (padAndCrop (nearestResizer ℕ) 0 512 512 (blackFrame 0) (dummyFov : Fov ℚ) dummyFov >>= _) = _
    rw [hc]
    rfl
  let pp := postprocess calmOps cf (dummyFov : Fov ℚ) closeAtoms 0 post
  refine ⟨(pp.1.1, pp.1.2, ()), ⟨[blackFrame 0], [dummyFov], 1, false, pp.2⟩, rfl, rfl, rfl, rfl, ?_⟩
  unfold ImageState.call
  have hp : plainImageOps.prepare () = .ok (blackFrame 0) := rfl
  simp only [hp, Bool.false_eq_true, if_false, hm]
  rfl

/-- An aligner with history length two, used twice. -/
example (cf : CliqueFinder) : ∃ (s : ImageState ℚ Unit ℕ) (log : List (List (List ℕ) × Fov ℚ)),
    ImageLog plainImageOps (some (calmOps, cf)) 2 s log ∧ log.length = 2 := by
  obtain ⟨r1, ⟨i1, f1, m1, n1, p1⟩, rfl, rfl, rfl, rfl, h1⟩ := plain_call cf FilterState.fresh
  obtain ⟨r2, s2, _, _, _, _, h2⟩ := plain_call cf p1
  exact ⟨s2, _, .returned (img := blackFrame 0) (.returned (img := blackFrame 0)
    (.reset (s0 := ImageState.fresh) rfl) rfl h1) rfl h2, rfl⟩

end PD.Props
