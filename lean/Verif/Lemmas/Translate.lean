/- Merging, propagating atomic numbers and aligning commute with translations. -/
import Verif.Model.LatticeTypes
import Verif.Lemmas.Lists
import Verif.Props.Merge

set_option linter.unusedSectionVars false
set_option linter.unusedSimpArgs false

namespace PD
open PD.Props

section
variable {K : Type} [Field K] [LinearOrder K] [IsStrictOrderedRing K]

/-- Points moved by `v`. -/
def moved (v : V2 K) (ps : List (V2 K)) : List (V2 K) := ps.map (fun p => p + v)

@[simp] theorem moved_length (v : V2 K) (ps : List (V2 K)) : (moved v ps).length = ps.length := by simp [moved]

@[simp] theorem moved_nil (v : V2 K) : moved v [] = [] := rfl

@[simp] theorem moved_isEmpty (v : V2 K) (ps : List (V2 K)) : (moved v ps).isEmpty = ps.isEmpty := by
  cases ps <;> rfl

@[simp] theorem moved_append (v : V2 K) (ps qs : List (V2 K)) : moved v (ps ++ qs) = moved v ps ++ moved v qs := by
  simp [moved]

theorem sub_moved (v p q : V2 K) : (p + v) - (q + v) = p - q := by
  ext <;> simp

theorem distSq_moved (v p q : V2 K) : V2.distSq (p + v) (q + v) = V2.distSq p q := by
  rw [V2.distSq, sub_moved]; rfl

theorem distSqs_moved (v p : V2 K) (qs : List (V2 K)) :
    (moved v qs).map (fun q => V2.distSq (p + v) q) = qs.map (fun q => V2.distSq p q) := by
  simp [moved, Function.comp_def, distSq_moved]

theorem getD_moved (v : V2 K) (ps : List (V2 K)) (i : ℕ) (h : i < ps.length) :
    (moved v ps).getD i 0 = ps.getD i 0 + v := by
  simp [moved, List.getD_eq_getElem?_getD, h]

theorem mergeTarget_moved (cutoff : K) (v : V2 K) (ps : List (V2 K)) (p : V2 K) :
    mergeTarget cutoff (moved v ps) (p + v) = mergeTarget cutoff ps p := by
  unfold mergeTarget
  rw [distSqs_moved]
  cases h : argmin? (ps.map (fun q => V2.distSq p q)) with
  | none => rfl
  | some t =>
    have ht : t < ps.length := by simpa using argmin?_lt h
    simp only
    rw [getD_moved v ps t ht, sub_moved]

theorem mergeTarget_lt {cutoff : K} {ps : List (V2 K)} {p : V2 K} {x : ℕ × Bool}
    (h : mergeTarget cutoff ps p = .ok x) : x.1 < ps.length := by
  unfold mergeTarget at h
  cases h' : argmin? (ps.map (fun q => V2.distSq p q)) with
  | none => rw [h'] at h; cases h
  | some t =>
    rw [h'] at h
    cases h
    simpa using argmin?_lt h'

/-- Counts belong to positions and are positive. -/
def Counted (ps : List (V2 K)) (cs : List K) : Prop := cs.length = ps.length ∧ ∀ c ∈ cs, 0 < c

theorem counted_ones (ps : List (V2 K)) : Counted ps (ps.map (fun _ => (1 : K))) := by
  constructor
  · simp
  · intro c hc
    obtain ⟨_, -, rfl⟩ := List.mem_map.1 hc
    exact one_pos

theorem Counted.getD {ps : List (V2 K)} {cs : List K} (h : Counted ps cs) {i : ℕ} (hi : i < ps.length) :
    0 < cs.getD i 0 := by
  have hi' : i < cs.length := by rw [h.1]; exact hi
  rw [List.getD_eq_getElem?_getD, List.getElem?_eq_getElem hi', Option.getD_some]
  exact h.2 _ (List.getElem_mem hi')

theorem mergeOne_moved (v : V2 K) (ps new : List (V2 K)) (cs : List K) (h : Counted ps cs) (p : V2 K) (t : ℕ)
    (ht : t < ps.length) (b : Bool) :
    mergeOne (moved v ps, cs, moved v new) (p + v, t, b) =
      (let r := mergeOne (ps, cs, new) (p, t, b); (moved v r.1, r.2.1, moved v r.2.2)) ∧
    Counted (mergeOne (ps, cs, new) (p, t, b)).1 (mergeOne (ps, cs, new) (p, t, b)).2.1 ∧
    (mergeOne (ps, cs, new) (p, t, b)).1.length = ps.length := by
  have hc := h.getD ht
  cases b with
  | false => exact ⟨by simp [mergeOne, moved], h, rfl⟩
  | true =>
    have hne : cs.getD t 0 + 1 ≠ 0 := by positivity
    refine ⟨?_, ⟨?_, ?_⟩, ?_⟩
    · simp only [mergeOne, if_true, getD_moved v ps t ht]
      refine Prod.ext ?_ rfl
      simp only [moved, List.map_set]
      congr 1
      ext
      · simp only [V2.add_x]; field_simp; ring
      · simp only [V2.add_y]; field_simp; ring
    · simp [mergeOne, h.1]
    · intro c hmem
      simp only [mergeOne, if_true] at hmem
      rcases List.mem_or_eq_of_mem_set hmem with h' | rfl
      · exact h.2 _ h'
      · positivity
    · simp [mergeOne]

theorem mergeFold_moved (v : V2 K) (l : List (V2 K × ℕ × Bool)) (ps new : List (V2 K)) (cs : List K)
    (h : Counted ps cs) (hl : ∀ x ∈ l, x.2.1 < ps.length) :
    (l.map (fun x => (x.1 + v, x.2))).foldl mergeOne (moved v ps, cs, moved v new) =
      (let r := l.foldl mergeOne (ps, cs, new); (moved v r.1, r.2.1, moved v r.2.2)) ∧
    Counted (l.foldl mergeOne (ps, cs, new)).1 (l.foldl mergeOne (ps, cs, new)).2.1 := by
  induction l generalizing ps new cs with
  | nil => exact ⟨rfl, h⟩
  | cons x l ih =>
    obtain ⟨p, t, b⟩ := x
    obtain ⟨h1, h2, h3⟩ := mergeOne_moved v ps new cs h p t (hl (p, t, b) (by simp)) b
    simp only [List.map_cons, List.foldl_cons]
    rw [h1]
    exact ih _ _ _ h2 (fun x hx => by rw [h3]; exact hl x (by simp [hx]))

/-- A state of merging moved by `v`. -/
def MergeState.moved (v : V2 K) (st : MergeState K) : MergeState K :=
  ⟨PD.moved v st.positions, st.counts, PD.moved v st.caller, st.aliased⟩

theorem mapM_moved {β : Type} (f g : V2 K → Except Err β) (v : V2 K) (l : List (V2 K)) (h : ∀ p, f (p + v) = g p) :
    (moved v l).mapM f = l.mapM g := by
  induction l with
  | nil => rfl
  | cons a l ih =>
    simp only [moved, List.map_cons, List.mapM_cons, h] at ih ⊢
    rw [ih]

theorem mapM_mem {α β : Type} {f : α → Except Err β} {l : List α} {r : List β} (h : l.mapM f = .ok r) :
    ∀ b ∈ r, ∃ a ∈ l, f a = .ok b := by
  induction l generalizing r with
  | nil =>
    rw [List.mapM_nil] at h
    cases h
    simp
  | cons a l ih =>
    rw [List.mapM_cons] at h
    cases ha : f a with
    | error e => rw [ha] at h; cases h
    | ok b =>
      rw [ha] at h
      cases hr : l.mapM f with
      | error e => rw [hr] at h; cases h
      | ok bs =>
        rw [hr] at h
        cases h
        intro b' hb'
        rcases List.mem_cons.1 hb' with rfl | hb'
        · exact ⟨a, by simp, ha⟩
        · obtain ⟨a', h1, h2⟩ := ih hr b' hb'
          exact ⟨a', by simp [h1], h2⟩

theorem mergeFrame_moved (cutoff : K) (v : V2 K) (st : MergeState K) (m : List (V2 K))
    (h : Counted st.positions st.counts) :
    mergeFrame cutoff (st.moved v) (moved v m) = (mergeFrame cutoff st m).map (MergeState.moved v) ∧
    ∀ st', mergeFrame cutoff st m = .ok st' → Counted st'.positions st'.counts := by
  have hm : (moved v m).mapM (mergeTarget cutoff (st.moved v).positions) =
      m.mapM (mergeTarget cutoff st.positions) := mapM_moved _ _ v m (fun p => mergeTarget_moved cutoff v _ p)
  simp only [mergeFrame, hm]
  cases ht : m.mapM (mergeTarget cutoff st.positions) with
  | error e => exact ⟨rfl, fun st' h => by cases h⟩
  | ok targets =>
    have hzip : (moved v m).zip targets = (m.zip targets).map (fun x => (x.1 + v, x.2)) := by
      simp only [moved, List.zip_map_left]
      rfl
    have hl : ∀ x ∈ m.zip targets, x.2.1 < st.positions.length := by
      intro x hx
      obtain ⟨a, -, ha⟩ := mapM_mem ht x.2 (List.of_mem_zip hx).2
      exact mergeTarget_lt ha
    obtain ⟨h1, h2⟩ := mergeFold_moved v (m.zip targets) st.positions [] st.counts h hl
    simp only [moved_nil] at h1
    simp only [hzip, MergeState.moved, h1]
    cases hr : (m.zip targets).foldl mergeOne (st.positions, st.counts, []) with
    | mk ps r =>
      obtain ⟨cs, new⟩ := r
      rw [hr] at h2
      simp only [moved_isEmpty]
      constructor
      · cases new with
        | nil => cases hal : st.aliased <;> simp [Except.map, MergeState.moved, hal]
        | cons a new =>
          cases hal : st.aliased <;> simp [Except.map, MergeState.moved, moved, hal, Function.comp_def]
      · intro st' hst'
        split at hst'
        · cases hst'
          exact h2
        · cases hst'
          refine ⟨by simp [h2.1], ?_⟩
          intro c hc
          rcases List.mem_append.1 hc with hc | hc
          · exact h2.2 c hc
          · obtain ⟨_, -, rfl⟩ := List.mem_map.1 hc
            exact one_pos

theorem mergeFrames_moved (cutoff : K) (v : V2 K) (rest : List (List (V2 K))) (st : MergeState K)
    (h : Counted st.positions st.counts) :
    (rest.map (moved v)).foldlM (mergeFrame cutoff) (st.moved v) =
      (rest.foldlM (mergeFrame cutoff) st).map (MergeState.moved v) := by
  induction rest generalizing st with
  | nil => rfl
  | cons m rest ih =>
    obtain ⟨h1, h2⟩ := mergeFrame_moved cutoff v st m h
    simp only [List.map_cons, List.foldlM_cons, h1]
    cases hf : mergeFrame cutoff st m with
    | error e => rfl
    | ok st' => exact ih st' (h2 st' hf)

theorem filter_moved (v : V2 K) (frames : List (List (V2 K))) :
    (frames.map (moved v)).filter (fun c => !c.isEmpty) = (frames.filter (fun c => !c.isEmpty)).map (moved v) := by
  induction frames with
  | nil => rfl
  | cons a l ih =>
    simp only [List.map_cons, List.filter_cons, moved_isEmpty, ih]
    split <;> rfl

theorem naiveMerge_moved (cutoff : K) (v : V2 K) (frames : List (List (V2 K))) :
    naiveMerge cutoff (frames.map (moved v)) = (naiveMerge cutoff frames).map (MergeState.moved v) := by
  unfold naiveMerge
  rw [filter_moved]
  cases frames.filter (fun c => !c.isEmpty) with
  | nil => rfl
  | cons first rest =>
    simp only [List.map_cons]
    have := mergeFrames_moved cutoff v rest ⟨first, first.map (fun _ => 1), first, true⟩ (counted_ones first)
    rw [← this]
    simp [MergeState.moved, moved, Function.comp_def]

/-! ### Cliques -/

theorem closePair_moved (r : K) (v : V2 K) (ps : List (V2 K)) : closePair r (moved v ps) = closePair r ps := by
  funext i j
  unfold closePair
  by_cases hi : i < ps.length
  · by_cases hj : j < ps.length
    · simp only [moved_length, hi, hj, getD_moved v ps i hi, getD_moved v ps j hj, sub_moved]
    · simp [hj]
  · simp [hi]

theorem closePair_comm (r : K) (ps : List (V2 K)) (i j : ℕ) : closePair r ps i j = closePair r ps j i := by
  have h : V2.normSq (ps.getD i 0 - ps.getD j 0) = V2.normSq (ps.getD j 0 - ps.getD i 0) := by
    simp [V2.normSq]; ring
  simp only [closePair, normGt, h]
  rw [show decide (i ≠ j) = decide (j ≠ i) from by simp [eq_comm]]
  cases decide (j ≠ i) <;> cases decide (i < ps.length) <;> cases decide (j < ps.length) <;> rfl

theorem sumAt_pos {ps : List (V2 K)} {cs : List K} (h : Counted ps cs) {c : List ℕ} (hc : c ≠ [])
    (hr : ∀ i ∈ c, i < ps.length) : 0 < sumAt cs c := by
  unfold sumAt
  apply List.sum_pos
  · intro x hx
    obtain ⟨i, hi, rfl⟩ := List.mem_map.1 hx
    exact h.getD (hr i hi)
  · simpa using hc

theorem sum_weights (cs : List K) (w s : K) (hs : s ≠ 0) (f : ℕ → K) (c : List ℕ) :
    (c.map (fun i => (f i + w) * cs.getD i 0 / s)).sum =
      (c.map (fun i => f i * cs.getD i 0 / s)).sum + w * (c.map (fun i => cs.getD i 0)).sum / s := by
  induction c with
  | nil => simp
  | cons a c ih =>
    simp only [List.map_cons, List.sum_cons, ih]
    field_simp
    ring

theorem cliqueMean_moved (v : V2 K) (ps : List (V2 K)) (cs : List K) (h : Counted ps cs) (c : List ℕ) (hc : c ≠ [])
    (hr : ∀ i ∈ c, i < ps.length) : cliqueMean (moved v ps) cs c = cliqueMean ps cs c + v := by
  have hs := (sumAt_pos h hc hr).ne'
  have hg : ∀ i ∈ c, (moved v ps).getD i 0 = ps.getD i 0 + v := fun i hi => getD_moved v ps i (hr i hi)
  have e : ∀ w : K, w * (c.map (fun i => cs.getD i 0)).sum / sumAt cs c = w := by
    intro w
    rw [show (c.map (fun i => cs.getD i 0)).sum = sumAt cs c from rfl]
    field_simp
  ext
  · simp only [cliqueMean, V2.add_x]
    rw [List.map_congr_left (fun i hi => by rw [hg i hi, V2.add_x]),
      sum_weights cs v.x (sumAt cs c) hs (fun i => (ps.getD i 0).x) c, e]
  · simp only [cliqueMean, V2.add_y]
    rw [List.map_congr_left (fun i hi => by rw [hg i hi, V2.add_y]),
      sum_weights cs v.y (sumAt cs c) hs (fun i => (ps.getD i 0).y) c, e]

theorem cliqueRound_moved (cf : CliqueFinder) (r : K) (v : V2 K) (ps : List (V2 K)) (cs : List K)
    (h : Counted ps cs) :
    cliqueRound cf r (moved v ps, cs) = (moved v (cliqueRound cf r (ps, cs)).1, (cliqueRound cf r (ps, cs)).2) ∧
    Counted (cliqueRound cf r (ps, cs)).1 (cliqueRound cf r (ps, cs)).2 := by
  have spec := cf.spec ps.length (closePair r ps) (closePair_comm r ps)
  constructor
  · simp only [cliqueRound, moved_length, closePair_moved]
    refine Prod.ext ?_ rfl
    simp only [moved, List.map_map]
    apply List.map_congr_left
    intro c hc
    exact cliqueMean_moved v ps cs h c (spec.nonempty c hc) (spec.inRange c hc)
  · refine ⟨by simp [cliqueRound], ?_⟩
    intro x hx
    obtain ⟨c, hc, rfl⟩ := List.mem_map.1 hx
    exact sumAt_pos h (spec.nonempty c hc) (spec.inRange c hc)

theorem cliqueLoop_moved (cf : CliqueFinder) (r : K) (v : V2 K) (n : ℕ) (ps : List (V2 K)) (cs : List K)
    (h : Counted ps cs) :
    cliqueLoop cf r n (moved v ps, cs) =
      (moved v (cliqueLoop cf r n (ps, cs)).1, (cliqueLoop cf r n (ps, cs)).2) := by
  induction n generalizing ps cs with
  | zero => rfl
  | succ n ih =>
    obtain ⟨h1, h2⟩ := cliqueRound_moved cf r v ps cs h
    simp only [cliqueLoop, moved_length, closePair_moved]
    split
    · rw [h1]
      exact ih _ _ h2
    · rfl

theorem cliqueMerge_moved (cf : CliqueFinder) (r : K) (v : V2 K) (n : ℕ) (ps : List (V2 K)) :
    cliqueMerge cf r n (moved v ps) none =
      (moved v (cliqueMerge cf r n ps none).1, (cliqueMerge cf r n ps none).2) := by
  simp only [cliqueMerge, Option.getD_none]
  rw [← cliqueLoop_moved cf r v n ps _ (counted_ones ps)]
  simp [moved, Function.comp_def]

/-! ### Atomic numbers -/

theorem mapM_option_moved {β : Type} (f g : V2 K → Option β) (v : V2 K) (l : List (V2 K)) (h : ∀ p, f (p + v) = g p) :
    (moved v l).mapM f = l.mapM g := by
  induction l with
  | nil => rfl
  | cons a l ih =>
    simp only [moved, List.map_cons, List.mapM_cons, h] at ih ⊢
    rw [ih]

theorem mapM_option_mem {α β : Type} {f : α → Option β} {l : List α} {r : List β} (h : l.mapM f = some r) :
    ∀ b ∈ r, ∃ a ∈ l, f a = some b := by
  induction l generalizing r with
  | nil =>
    rw [List.mapM_nil] at h
    cases h
    simp
  | cons a l ih =>
    rw [List.mapM_cons] at h
    cases ha : f a with
    | none => rw [ha] at h; cases h
    | some b =>
      rw [ha] at h
      cases hr : l.mapM f with
      | none => rw [hr] at h; cases h
      | some bs =>
        rw [hr] at h
        cases h
        intro b' hb'
        rcases List.mem_cons.1 hb' with rfl | hb'
        · exact ⟨a, by simp, ha⟩
        · obtain ⟨a', h1, h2⟩ := ih hr b' hb'
          exact ⟨a', by simp [h1], h2⟩

theorem propagate_moved (v : V2 K) (original merged : List (V2 K)) (nums : List ℤ) (start : Option (List ℤ)) (d : ℤ)
    (thr : K) :
    propagateAtomicNumbers (moved v original) (moved v merged) nums start d thr =
      propagateAtomicNumbers original merged nums start d thr := by
  have hm : (moved v original).mapM (fun o => argmin? ((moved v merged).map (fun m => V2.distSq o m))) =
      original.mapM (fun o => argmin? (merged.map (fun m => V2.distSq o m))) :=
    mapM_option_moved _ _ v original (fun p => by rw [distSqs_moved])
  simp only [propagateAtomicNumbers, hm]
  cases hc : original.mapM (fun o => argmin? (merged.map (fun m => V2.distSq o m))) with
  | none => rfl
  | some closest =>
    have hlt : ∀ t ∈ closest, t < merged.length := by
      intro t ht
      obtain ⟨a, -, ha⟩ := mapM_option_mem hc t ht
      simpa using argmin?_lt ha
    simp only [moved_isEmpty, moved_length]
    have hstart : start.getD ((moved v merged).map (fun _ => d)) = start.getD (merged.map (fun _ => d)) := by
      simp [moved, Function.comp_def]
    rw [hstart]
    have hz : ((moved v original).zip closest).zip nums =
        ((original.zip closest).zip nums).map (fun x => ((x.1.1 + v, x.1.2), x.2)) := by
      simp only [moved, List.zip_map_left, List.map_map]
      rfl
    rw [hz]
    have hf : ∀ l : List ((V2 K × ℕ) × ℤ), (∀ x ∈ l, x.1.2 < merged.length) →
        (l.map (fun x => ((x.1.1 + v, x.1.2), x.2))).filter
          (fun x => normLt (x.1.1 - (moved v merged).getD x.1.2 0) thr) =
        (l.filter (fun x => normLt (x.1.1 - merged.getD x.1.2 0) thr)).map (fun x => ((x.1.1 + v, x.1.2), x.2)) := by
      intro l hl
      induction l with
      | nil => rfl
      | cons a l ih =>
        have ha := hl a (by simp)
        simp only [List.map_cons, List.filter_cons, getD_moved v merged _ ha, sub_moved]
        rw [ih (fun x hx => hl x (by simp [hx]))]
        split <;> rfl
    rw [hf _ (fun x hx => hlt _ (List.of_mem_zip (List.of_mem_zip hx).1).2)]
    simp only [List.any_map, List.foldl_map, Function.comp_def]

end
end PD
