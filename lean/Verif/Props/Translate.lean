/- C94: the filtering aligner does not depend on the origin of coordinates. -/
import Verif.Lemmas.Translate
import Verif.Props.Aligners
import Verif.Props.Classes

set_option linter.unusedSectionVars false
set_option linter.unusedSimpArgs false

namespace PD.Props
open PD PD.Spec

section
variable {K C : Type} [Field K] [LinearOrder K] [IsStrictOrderedRing K]

/-- The routines do not depend on the origin either. -/
structure OriginFree (ops : FilterOps K C) (v : V2 K) : Prop where
  fit : ∀ ps, ops.fit (moved v ps) = ops.fit ps
  predict : ∀ ps c, ops.predict (moved v ps) c = ops.predict ps c
  align : ∀ ps qs a b, ops.align (moved v ps) (moved v qs) a b = ops.align ps qs a b

theorem replaceFirst_moved (v : V2 K) (new : List (V2 K)) (l : List (List (V2 K))) :
    replaceFirst (moved v new) (l.map (moved v)) = (replaceFirst new l).map (moved v) := by
  induction l with
  | nil => rfl
  | cons a l ih =>
    simp only [List.map_cons, replaceFirst, moved_isEmpty, ih]
    split <;> rfl

theorem flatten_moved (v : V2 K) (l : List (List (V2 K))) : (l.map (moved v)).flatten = moved v l.flatten := by
  simp only [moved, List.map_flatten]
  rfl

theorem mergeAll_moved (cfg : FilterCfg K) (cf : CliqueFinder) (v : V2 K) (arrays : List (List (V2 K))) :
    mergeAll cfg cf (arrays.map (moved v)) =
      (mergeAll cfg cf arrays).map (fun r => (moved v r.1, r.2.map (moved v))) := by
  unfold mergeAll
  split
  · rw [flatten_moved, cliqueMerge_moved]
    rfl
  · rw [naiveMerge_moved]
    cases naiveMerge cfg.mergeCutoff arrays with
    | error e => rfl
    | ok st => simp [Except.map, MergeState.moved, replaceFirst_moved]

theorem classifyLattice_moved {ops : FilterOps K C} {v : V2 K} (ho : OriginFree ops v) (ps : List (V2 K))
    (c : Option C) : classifyLattice ops (moved v ps) c = classifyLattice ops ps c := by
  cases c with
  | none => simp [classifyLattice]
  | some c => simp [classifyLattice, ho.predict]

theorem cut_moved (h : ℤ) (v : V2 K) (s : FilterState K C) : (s.applyShift v).cut h = (s.cut h).applyShift v := by
  unfold FilterState.cut FilterState.applyShift
  simp only [List.length_map]
  split <;> simp [List.map_drop]

theorem shift_add (g : Grid K) (v d : V2 K) : (g.shift v).shift d = (g.shift d).shift v := by
  simp only [Grid.shift, List.map_map]
  congr 1
  apply List.map_congr_left
  intro p _
  ext <;> simp <;> ring

theorem dropLast_moved (v : V2 K) (l : List (List (V2 K))) :
    (l.map (moved v)).dropLast = l.dropLast.map (moved v) := by
  rw [List.map_dropLast]

theorem getLastD_moved (v : V2 K) (l : List (List (V2 K))) :
    (l.map (moved v)).getLastD [] = moved v (l.getLastD []) := by
  rcases List.eq_nil_or_concat l with rfl | ⟨l, a, rfl⟩
  · rfl
  · simp

/-- One call, moved by `v`. -/
def movedResult (v : V2 K) : EStateM.Result Err (FilterState K C) (Grid K × V2 K) →
    EStateM.Result Err (FilterState K C) (Grid K × V2 K)
  | .ok r s => .ok (r.1.shift v, r.2) (s.applyShift v)
  | .error e s => .error e (s.applyShift v)

theorem call_moved (cfg : FilterCfg K) (ops : FilterOps K C) (cf : CliqueFinder) (v : V2 K) (ho : OriginFree ops v)
    (g : Grid K) (s : FilterState K C) :
    FilterState.call cfg ops cf (g.shift v) (s.applyShift v) = movedResult v (FilterState.call cfg ops cf g s) := by
  have hg : (g.shift v).positions = moved v g.positions := rfl
  have hrec : (s.applyShift v).recent = s.recent.map (moved v) := rfl
  have hcl : (s.applyShift v).classes = s.classes := rfl
  have hcf : (s.applyShift v).classifier = s.classifier := rfl
  have hemp : (s.applyShift v).recent.isEmpty = s.recent.isEmpty := by rw [hrec]; cases s.recent <;> rfl
  simp only [FilterState.call, hemp, hg, hcl, hcf]
  by_cases h0 : s.recent.isEmpty
  · have hs : ∀ c, (⟨(s.applyShift v).recent ++ [moved v g.positions], s.classes, c⟩ : FilterState K C) = FilterState.applyShift v ⟨s.recent ++ [g.positions], s.classes, c⟩ := by
      intro c
      rw [hrec]
      simp only [FilterState.applyShift, List.map_append, List.map_cons, List.map_nil]
      rfl
    simp only [h0, if_true, ho.fit]
    cases ops.fit g.positions with
    | error e => simp only [movedResult, hs]
    | ok c =>
      simp only [classifyLattice_moved ho]
      cases classifyLattice ops g.positions (some c) with
      | error e => simp only [movedResult, hs]
      | ok classes =>
        simp only [movedResult, EStateM.Result.ok.injEq, true_and]
        rw [hrec]
        simp only [FilterState.applyShift, List.map_append, List.map_cons, List.map_nil]
        rfl
  · simp only [h0, if_false, Bool.false_eq_true, classifyLattice_moved ho]
    cases classifyLattice ops g.positions s.classifier with
    | error e => rfl
    | ok classes =>
      simp only
      by_cases hc0 : s.classes.isEmpty
      · simp only [hc0, if_true]
        rfl
      simp only [hc0, if_false, Bool.false_eq_true, hrec, flatten_moved, ho.align]
      cases ops.align g.positions s.recent.flatten classes s.classes.flatten with
      | error e => rfl
      | ok o =>
        cases o with
        | none => rfl
        | some drift =>
          simp only
          have hm : s.recent.map (moved v) ++ [((g.shift v).shift drift).positions] =
              (s.recent ++ [(g.shift drift).positions]).map (moved v) := by
            rw [shift_add]
            simp only [List.map_append, List.map_cons, List.map_nil]
            rfl
          rw [hm, mergeAll_moved]
          cases mergeAll cfg cf (s.recent ++ [(g.shift drift).positions]) with
          | error e => rfl
          | ok r =>
            obtain ⟨joined, arrays⟩ := r
            have hn : ((g.shift v).shift drift).numbers = (g.shift drift).numbers := rfl
            simp only [Except.map, dropLast_moved, getLastD_moved, hn, classifyLattice_moved ho]
            have hst : ∀ (l : List (List (V2 K))) (x : List (V2 K)) (cl : List (List ℤ)) (c : Option C),
                (⟨l.map (moved v) ++ [moved v x], cl, c⟩ : FilterState K C) =
                  FilterState.applyShift v ⟨l ++ [x], cl, c⟩ := by
              intro l x cl c
              simp only [FilterState.applyShift, List.map_append, List.map_cons, List.map_nil]
              rfl
            by_cases ha : cfg.accumulateMerged
            · simp only [ha, if_true]
              cases classifyLattice ops joined s.classifier with
              | error e => simp only [hst, movedResult]
              | ok cl =>
                simp only [hst, cut_moved, propagate_moved]
                cases propagateAtomicNumbers (arrays.getLastD []) joined (g.shift drift).numbers none CARBON (8 / 10) with
                | error e => rfl
                | ok numbers => rfl
            · simp only [ha, if_false, Bool.false_eq_true, hst, cut_moved, propagate_moved]
              cases propagateAtomicNumbers (arrays.getLastD []) joined (g.shift drift).numbers none CARBON (8 / 10) with
              | error e => rfl
              | ok numbers => rfl

end

/-! ### The routines themselves -/

theorem sum_moved (f : V2 ℝ → ℝ) (w : ℝ) (v : V2 ℝ) (hf : ∀ p, f (p + v) = f p + w) (ps : List (V2 ℝ)) :
    ((moved v ps).map f).sum = (ps.map f).sum + ps.length * w := by
  induction ps with
  | nil => simp [moved]
  | cons a ps ih =>
    simp only [moved, List.map_cons, List.sum_cons, hf, List.length_cons] at ih ⊢
    rw [ih]
    push_cast
    ring

theorem centred_moved (v : V2 ℝ) (ps : List (V2 ℝ)) : centred (moved v ps) = centred ps := by
  cases ps with
  | nil => rfl
  | cons a l =>
    have hne : ((a :: l).length : ℝ) ≠ 0 := by simp; positivity
    unfold centred
    rw [sum_moved (·.x) v.x v (fun p => rfl), sum_moved (·.y) v.y v (fun p => rfl), moved_length]
    simp only [moved, List.map_map]
    apply List.map_congr_left
    intro p _
    ext
    · simp only [Function.comp_apply, V2.sub_x, V2.add_x]; field_simp; ring
    · simp only [Function.comp_apply, V2.sub_y, V2.add_y]; field_simp; ring

theorem getOffsets_moved (v : V2 ℝ) (left right : List (V2 ℝ)) (m : Option ℝ) :
    getOffsets (moved v left) (moved v right) m = getOffsets left right m := by
  unfold getOffsets
  rw [moved_isEmpty]
  split
  · rfl
  · congr 1
    simp only [moved, List.filterMap_map]
    apply List.filterMap_congr
    intro l _
    simp only [Function.comp_apply]
    rw [show (right.map (fun p => p + v)).map (fun r => V2.distSq (l + v) r) =
      right.map (fun r => V2.distSq l r) from distSqs_moved v l right]
    cases h : argmin? (right.map (fun r => V2.distSq l r)) with
    | none => rfl
    | some k =>
      have hk : k < right.length := by simpa using argmin?_lt h
      have hg : (right.map (fun p => p + v)).getD k 0 = right.getD k 0 + v := getD_moved v right k hk
      simp only [hg, sub_moved, belowMask]
      rfl

theorem ofClass_moved (v : V2 ℝ) (xs : List (V2 ℝ)) (classes : List ℤ) (c : ℤ) :
    ofClass (moved v xs) classes c = moved v (ofClass xs classes c) := by
  unfold ofClass moved
  rw [List.zip_map_left]
  induction xs.zip classes with
  | nil => rfl
  | cons a l ih =>
    simp only [List.map_cons, List.filter_cons, Prod.map, id]
    split
    · simp only [List.map_cons, ih]
    · exact ih

theorem icpOffset_moved (v : V2 ℝ) (a : AlignArgs) (shift : V2 ℝ) :
    icpOffset { a with new := moved v a.new, ref := moved v a.ref } shift = icpOffset a shift := by
  have h : ∀ c, getOffsets ((ofClass (moved v a.new) a.newClasses c).map (· + shift))
      (ofClass (moved v a.ref) a.refClasses c) a.maskAbove =
      getOffsets ((ofClass a.new a.newClasses c).map (· + shift)) (ofClass a.ref a.refClasses c) a.maskAbove := by
    intro c
    rw [ofClass_moved, ofClass_moved, ← getOffsets_moved v ((ofClass a.new a.newClasses c).map (· + shift))]
    congr 1
    simp only [moved, List.map_map]
    apply List.map_congr_left
    intro p _
    ext <;> simp <;> ring
  simp only [icpOffset, moved_length, h]

theorem alignStep_moved (v : V2 ℝ) (a : AlignArgs) (noise : V2 ℝ) (st : AlignState) :
    alignStep { a with new := moved v a.new, ref := moved v a.ref } noise st = alignStep a noise st := by
  simp only [alignStep, icpOffset_moved]

theorem alignLatest_moved (v : V2 ℝ) (a : AlignArgs) (draw : ℕ → V2 ℝ) (init : Option (V2 ℝ)) :
    alignLatest { a with new := moved v a.new, ref := moved v a.ref } draw init = alignLatest a draw init := by
  simp only [alignLatest, alignStep_moved]
  rfl

theorem latticeOps_originFree {C : Type} (km : KMeans C) (ac : AlignCfg) (draw : ℕ → V2 ℝ) (v : V2 ℝ) :
    OriginFree (latticeOps km ac draw) v where
  fit := by
    intro ps
    have : moved v ps = [] ↔ ps = [] := by simp [moved]
    simp only [latticeOps, latticeClusterer, fitFeatures, centred_moved, this]
  predict := by
    intro ps c
    simp only [latticeOps, classifyTypes, classifyFeatures, centred_moved]
  align := by
    intro ps qs a b
    simp only [latticeOps]
    have := alignLatest_moved v ⟨ps, qs, a, b, ac.iterations, ac.noiseScale, ac.maxShift, some 2, ac.trim⟩ draw (some 0)
    simp only at this
    rw [this]

/-! ### C94 -/

/-- A use of the aligner in coordinates whose origin is elsewhere. -/
def FilterUse.translate (v : V2 ℝ) : FilterUse → FilterUse
  | .reset => .reset
  | .shift w => .shift w
  | .observe draw g => .observe draw (g.shift v)

/-- A result in coordinates whose origin is elsewhere: the same drift, every atom moved. -/
def translateResult (v : V2 ℝ) : Except Err (Grid ℝ × V2 ℝ) → Except Err (Grid ℝ × V2 ℝ)
  | .ok (g, drift) => .ok (g.shift v, drift)
  | .error e => .error e

variable {C : Type}

theorem applyShift_comm (v w : V2 ℝ) (s : FilterState ℝ C) :
    (s.applyShift v).applyShift w = (s.applyShift w).applyShift v := by
  simp only [FilterState.applyShift, List.map_map]
  congr 1
  apply List.map_congr_left
  intro l _
  simp only [Function.comp_apply, List.map_map]
  apply List.map_congr_left
  intro p _
  ext <;> simp <;> ring

theorem run_moved (cfg : FilterCfg ℝ) (km : KMeans C) (ac : AlignCfg) (cf : CliqueFinder) (v : V2 ℝ)
    (uses : List FilterUse) (s : FilterState ℝ C) :
    FilterState.run cfg km ac cf (uses.map (FilterUse.translate v)) (s.applyShift v) =
      ((FilterState.run cfg km ac cf uses s).1.map (translateResult v),
        (FilterState.run cfg km ac cf uses s).2.applyShift v) := by
  induction uses generalizing s with
  | nil => rfl
  | cons u uses ih =>
    cases u with
    | reset => exact ih FilterState.fresh
    | shift w =>
      simp only [List.map_cons, FilterUse.translate, FilterState.run]
      rw [applyShift_comm]
      exact ih (s.applyShift w)
    | observe draw g =>
      simp only [List.map_cons, FilterUse.translate, FilterState.run]
      rw [call_moved cfg _ cf v (latticeOps_originFree km ac draw v) g s]
      cases FilterState.call cfg (latticeOps km ac draw) cf g s with
      | ok r s' =>
        obtain ⟨m, d⟩ := r
        simp only [movedResult, ih s', List.map_cons, translateResult]
      | error e s' => simp only [movedResult, ih s', List.map_cons, translateResult]

/-- C94: moving the origin of the coordinates of all observations moves the origin of all merged grids, and
changes nothing else: drifts, atomic numbers and exceptions are the same. -/
theorem C94_origin (cfg : FilterCfg ℝ) (km : KMeans C) (ac : AlignCfg) (cf : CliqueFinder) (v : V2 ℝ)
    (uses : List FilterUse) :
    (FilterState.run cfg km ac cf (uses.map (FilterUse.translate v)) FilterState.fresh).1 =
      (FilterState.run cfg km ac cf uses FilterState.fresh).1.map (translateResult v) := by
  have := run_moved cfg km ac cf v uses FilterState.fresh
  rw [show (FilterState.fresh : FilterState ℝ C).applyShift v = FilterState.fresh from rfl] at this
  rw [this]

theorem run_append_filter (cfg : FilterCfg ℝ) (km : KMeans C) (ac : AlignCfg) (cf : CliqueFinder)
    (xs ys : List FilterUse) (s : FilterState ℝ C) :
    FilterState.run cfg km ac cf (xs ++ ys) s =
      ((FilterState.run cfg km ac cf xs s).1 ++
        (FilterState.run cfg km ac cf ys (FilterState.run cfg km ac cf xs s).2).1,
        (FilterState.run cfg km ac cf ys (FilterState.run cfg km ac cf xs s).2).2) := by
  induction xs generalizing s with
  | nil => rfl
  | cons u xs ih =>
    cases u with
    | reset => simp only [List.cons_append, FilterState.run]; exact ih _
    | shift w => simp only [List.cons_append, FilterState.run]; exact ih _
    | observe draw g =>
      simp only [List.cons_append, FilterState.run]
      cases FilterState.call cfg (latticeOps km ac draw) cf g s with
      | ok r s' => simp only [ih s', List.cons_append]
      | error e s' => simp only [ih s', List.cons_append]

/-- C94, the origin moves between two observations: an aligner that is told so (`apply_shift`) goes on with the
results it would have given without the move, in the new coordinates. -/
theorem C94_told (cfg : FilterCfg ℝ) (km : KMeans C) (ac : AlignCfg) (cf : CliqueFinder) (v : V2 ℝ)
    (before after : List FilterUse) :
    (FilterState.run cfg km ac cf (before ++ .shift v :: after.map (FilterUse.translate v)) FilterState.fresh).1 =
      (FilterState.run cfg km ac cf before FilterState.fresh).1 ++
      ((FilterState.run cfg km ac cf (before ++ after) FilterState.fresh).1.drop
        (FilterState.run cfg km ac cf before FilterState.fresh).1.length).map (translateResult v) := by
  rw [run_append_filter, run_append_filter cfg km ac cf before after]
  simp only [FilterState.run, run_moved, List.drop_left']

/-- A clusterer that puts all rows into one cluster. -/
def oneCluster : KMeans Unit := ⟨fun _ => .ok (), fun _ rows => .ok (rows.map (fun _ => 0))⟩

/-- Two carbon atoms and a silicon atom, two angstroms apart or more. -/
def triangle : Grid ℝ := ⟨[⟨0, 0⟩, ⟨2, 0⟩, ⟨0, 2⟩], [6, 6, 14]⟩

theorem first_accepted (cfg : FilterCfg ℝ) (ac : AlignCfg) (cf : CliqueFinder) (draw : ℕ → V2 ℝ) (g : Grid ℝ)
    (h3 : 3 ≤ g.positions.length) :
    (FilterState.run cfg oneCluster ac cf [.observe draw g] FilterState.fresh).1 = [.ok (g, -0)] := by
  obtain ⟨out, h1, -⟩ := C53_grid ((classifyFeatures g.positions).map (fun _ => (0 : ℤ))) (centred g.positions)
    (by simp [classifyFeatures])
  have hfit : (latticeOps oneCluster ac draw).fit g.positions = .ok () := by
    simp only [latticeOps, latticeClusterer, oneCluster]
    rw [if_neg]
    intro h
    rw [h] at h3
    simp at h3
  have hcl : classifyLattice (latticeOps oneCluster ac draw) g.positions (some ()) = .ok out := by
    rw [classifyLattice, if_neg (by omega)]
    exact h1
  simp only [FilterState.run, FilterState.call, FilterState.fresh, List.isEmpty_nil, if_true, hfit, hcl]

/-- Both statements speak about a grid that is accepted, at any place. -/
example (draw : ℕ → V2 ℝ) (v : V2 ℝ) :
    (FilterState.run ⟨10, 11 / 10, false, false⟩ oneCluster {} someCliques [.observe draw (triangle.shift v)]
      FilterState.fresh).1 = [.ok (triangle.shift v, -0)] ∧
    FilterUse.translate v (.observe draw triangle) = .observe draw (triangle.shift v) :=
  ⟨first_accepted _ _ _ _ _ (by simp [triangle, Grid.shift]), rfl⟩

end PD.Props
