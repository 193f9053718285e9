/- Properties C56 (aligning trajectories), C57 (drifts) and C74 (independence of alignments). -/
import Verif.Spec.AlignTrajectories
import Verif.Props.Aligners

set_option linter.unusedSectionVars false
set_option linter.unusedSimpArgs false

namespace PD.Props
open PD PD.Spec

section
variable {K C P Img Probs : Type} [Field K] [LinearOrder K] [FloorRing K]

theorem alignObservations_pass (ops : ImageOps K P (Option Img) Probs)
    (hybrid : Option (FilterOps K C × CliqueFinder)) (relabel : Bool) (step : K) (c : V2 K)
    (obs out : List (Observation K Img)) (s s' : ImageState K C P)
    (h : alignObservations ops hybrid relabel step c obs s = .ok out s') :
    List.Forall₂ (OnlyMoved relabel) obs out ∧
    ∃ (drifts : List (V2 K)) (states : ℕ → ImageState K C P),
    drifts.length = obs.length ∧ states 0 = s ∧ states obs.length = s' ∧
    ∀ (k : ℕ) (o : Observation K Img), obs[k]? = some o →
      ∃ (o' : Observation K Img) (d : V2 K) (found : Grid K) (probs : Probs),
        out[k]? = some o' ∧ drifts[k]? = some d ∧
        ImageState.call ops hybrid o.image (o.fov.shift (-(c + V2.smul step (sumOf (drifts.take k))))) none (-1)
          (states k) = .ok (found, d, probs) (states (k + 1)) ∧
        o'.fov = o.fov.shift (-(c + V2.smul step (sumOf (drifts.take (k + 1))))) ∧
        o'.grid = (if relabel then found else o.grid) := by
  induction obs generalizing c out s s' with
  | nil =>
    unfold alignObservations at h
    cases h
    exact ⟨.nil, [], fun _ => s, rfl, rfl, rfl, by simp⟩
  | cons o os ih =>
    unfold alignObservations at h
    cases hc : ImageState.call ops hybrid o.image (o.fov.shift (-c)) none (-1) s with
    | error e s1 => rw [hc] at h; cases h
    | ok r s1 =>
      obtain ⟨found, d, probs⟩ := r
      rw [hc] at h
      simp only at h
      cases hr : alignObservations ops hybrid relabel step (c + V2.smul step d) os s1 with
      | error e s2 => rw [hr] at h; cases h
      | ok rest s2 =>
        rw [hr] at h
        cases h
        obtain ⟨hm, drifts, states, e1, e2, e3, e4⟩ := ih _ _ _ _ hr
        refine ⟨.cons ⟨rfl, rfl, rfl, rfl, ⟨_, rfl⟩, ?_, ?_, ?_⟩ hm, d :: drifts,
          fun k => match k with | 0 => s | k + 1 => states k, by simp [e1], rfl, e3, ?_⟩
        · simp [Fov.width, Fov.shift]
        · simp [Fov.height, Fov.shift]
        · intro hrl; simp [hrl]
        · intro k o1 ho1
          cases k with
          | zero =>
            simp only [List.getElem?_cons_zero, Option.some.injEq] at ho1
            subst ho1
            refine ⟨_, d, found, probs, rfl, rfl, ?_, ?_, rfl⟩
            · have : c + V2.smul step (sumOf ((d :: drifts).take 0)) = c := by
                ext <;> simp [sumOf]
              rw [this]
              simpa [e2] using hc
            · have : V2.smul step (sumOf ((d :: drifts).take (0 + 1))) = V2.smul step d := by
                ext <;> simp [sumOf]
              rw [this]
          | succ k =>
            simp only [List.getElem?_cons_succ] at ho1
            obtain ⟨o', d', found', probs', f1, f2, f3, f4, f5⟩ := e4 k o1 ho1
            have hs : ∀ j, c + V2.smul step (sumOf ((d :: drifts).take (j + 1))) =
                c + V2.smul step d + V2.smul step (sumOf (drifts.take j)) := by
              intro j; ext <;> simp [sumOf] <;> ring
            refine ⟨o', d', found', probs', f1, f2, ?_, ?_, f5⟩
            · rw [hs]; exact f3
            · rw [hs]; exact f4

theorem alignObservations_aligned (ops : ImageOps K P (Option Img) Probs)
    (hybrid : Option (FilterOps K C × CliqueFinder)) (relabel : Bool) (step : K)
    (obs out : List (Observation K Img)) (s s' : ImageState K C P)
    (h : alignObservations ops hybrid relabel step 0 obs s = .ok out s') :
    AlignedPass ops hybrid relabel step obs out s s' := by
  obtain ⟨hm, drifts, states, e1, e2, e3, e4⟩ := alignObservations_pass ops hybrid relabel step 0 obs out s s' h
  refine ⟨drifts, states, e1, hm.length_eq.symm, e2, e3, ?_⟩
  have h0 : ∀ v : V2 K, 0 + v = v := fun v => by ext <;> simp
  intro k o ho
  obtain ⟨o', d, found, probs, f1, f2, f3, f4, f5⟩ := e4 k o ho
  rw [h0] at f3 f4
  exact ⟨o', d, found, probs, f1, f2, f3, f4, f5⟩

theorem onlyMoved_refl (relabel : Bool) (o : Observation K Img) : OnlyMoved relabel o o :=
  ⟨rfl, rfl, rfl, rfl, ⟨0, by ext <;> simp [Fov.shift]⟩, rfl, rfl, fun _ => rfl⟩

theorem onlyMoved_trans {relabel : Bool} {a b c : Observation K Img} (h1 : OnlyMoved relabel a b)
    (h2 : OnlyMoved relabel b c) : OnlyMoved relabel a c := by
  obtain ⟨s1, e1⟩ := h1.moved
  obtain ⟨s2, e2⟩ := h2.moved
  exact ⟨h2.controls.trans h1.controls, h2.time.trans h1.time, h2.image.trans h1.image,
    h2.labelImage.trans h1.labelImage,
    ⟨s1 + s2, by rw [e2, e1]; ext <;> simp [Fov.shift, add_assoc]⟩, h2.width.trans h1.width,
    h2.height.trans h1.height, fun h => (h2.grid h).trans (h1.grid h)⟩

theorem forall₂_trans {α : Type} {R : α → α → Prop} (ht : ∀ a b c, R a b → R b c → R a c) {xs ys zs : List α}
    (h1 : List.Forall₂ R xs ys) (h2 : List.Forall₂ R ys zs) : List.Forall₂ R xs zs := by
  induction h1 generalizing zs with
  | nil => cases h2; exact .nil
  | cons hr _ ih => cases h2 with | cons hr' h' => exact .cons (ht _ _ _ hr hr') (ih h')

theorem alignRounds_moved (ops : ImageOps K P (Option Img) Probs)
    (hybrid : Option (FilterOps K C × CliqueFinder)) (args : AlignTrajArgs K) (is : List ℤ)
    (obs out : List (Observation K Img)) (s s' : ImageState K C P)
    (h : alignRounds ops hybrid args is obs s = .ok out s') :
    List.Forall₂ (OnlyMoved args.relabel) obs out := by
  induction is generalizing obs s with
  | nil =>
    unfold alignRounds at h
    cases h
    exact List.forall₂_same.2 (fun o _ => onlyMoved_refl _ o)
  | cons i is ih =>
    unfold alignRounds at h
    split at h
    · cases h
    · split at h
      · cases h
      · rename_i obs' s2 hp
        exact forall₂_trans (R := OnlyMoved args.relabel) (fun _ _ _ h1 h2 => onlyMoved_trans h1 h2)
          (alignObservations_pass _ _ _ _ _ _ _ _ _ hp).1 (ih _ _ h)

/-- **C56.**  Aligning a trajectory keeps the number and order of the observations, their controls, times and
images, and the size of every field of view, which is only moved; without relabelling, also the grids. -/
theorem C56_only_moved (ops : ImageOps K P (Option Img) Probs)
    (hybrid : Option (FilterOps K C × CliqueFinder)) (args : AlignTrajArgs K)
    (obs out : List (Observation K Img)) (s s' : ImageState K C P)
    (h : doAlignment ops hybrid args obs s = .ok out s') :
    List.Forall₂ (OnlyMoved args.relabel) obs out :=
  alignRounds_moved _ _ _ _ _ _ _ _ h

theorem alignRounds_append (ops : ImageOps K P (Option Img) Probs)
    (hybrid : Option (FilterOps K C × CliqueFinder)) (args : AlignTrajArgs K) (is : List ℤ) (i : ℤ)
    (obs out : List (Observation K Img)) (s s' : ImageState K C P)
    (h : alignRounds ops hybrid args (is ++ [i]) obs s = .ok out s') :
    ∃ mid s1 s2, alignRounds ops hybrid args is obs s = .ok mid s1 ∧
      ImageState.reset ops.black args.historyLength s1 = .ok () s2 ∧
      alignObservations ops hybrid args.relabel (stepSize args.baseStepSize i args.alignmentIterations) 0 mid s2 =
        .ok out s' := by
  induction is generalizing obs s with
  | nil =>
    rw [List.nil_append] at h
    unfold alignRounds at h
    split at h
    · cases h
    · rename_i s2 hr
      split at h
      · cases h
      · rename_i obs' s3 hp
        unfold alignRounds at h
        cases h
        exact ⟨obs, s, s2, rfl, hr, hp⟩
  | cons j is ih =>
    rw [List.cons_append] at h
    unfold alignRounds at h
    split at h
    · cases h
    · rename_i s2 hr
      split at h
      · cases h
      · rename_i obs' s3 hp
        obtain ⟨mid, t1, t2, a, b, c⟩ := ih _ _ h
        refine ⟨mid, t1, t2, ?_, b, c⟩
        unfold alignRounds
        rw [hr]
        simp only
        rw [hp]
        exact a

/-- The last round starts from a reset aligner and uses the full drifts: the result is the pass, with step
size one, over the observations as the earlier rounds left them. -/
theorem C56_last_round [IsStrictOrderedRing K] (ops : ImageOps K P (Option Img) Probs)
    (hybrid : Option (FilterOps K C × CliqueFinder)) (args : AlignTrajArgs K)
    (obs out : List (Observation K Img)) (s s' : ImageState K C P) (hn : 1 ≤ args.alignmentIterations)
    (h : doAlignment ops hybrid args obs s = .ok out s') :
    ∃ mid s1 s2, List.Forall₂ (OnlyMoved args.relabel) obs mid ∧
      ImageState.reset ops.black args.historyLength s1 = .ok () s2 ∧
      AlignedPass ops hybrid args.relabel 1 mid out s2 s' := by
  unfold doAlignment at h
  have e : args.alignmentIterations.toNat = (args.alignmentIterations.toNat - 1) + 1 := by omega
  rw [e, List.range_succ, List.map_append, List.map_cons, List.map_nil] at h
  obtain ⟨mid, s1, s2, h1, h2, h3⟩ := alignRounds_append _ _ _ _ _ _ _ _ _ h
  have hi : ((args.alignmentIterations.toNat - 1 : ℕ) : ℤ) + 1 = args.alignmentIterations := by omega
  have hne : (args.alignmentIterations : K) ≠ 0 := by
    have : args.alignmentIterations ≠ 0 := by omega
    exact_mod_cast this
  have hst : stepSize args.baseStepSize args.alignmentIterations args.alignmentIterations = (1 : K) := by
    unfold stepSize
    rw [mul_div_assoc, div_self hne]
    ring
  rw [hi, hst] at h3
  exact ⟨mid, s1, s2, alignRounds_moved _ _ _ _ _ _ _ _ h1, h2, alignObservations_aligned _ _ _ _ _ _ _ _ h3⟩

/-- With no rounds the trajectory is returned as it is; with rounds and a history length below one, the
alignment raises. -/
theorem C56_no_rounds (ops : ImageOps K P (Option Img) Probs)
    (hybrid : Option (FilterOps K C × CliqueFinder)) (args : AlignTrajArgs K)
    (obs : List (Observation K Img)) (s : ImageState K C P) :
    (args.alignmentIterations < 1 → doAlignment ops hybrid args obs s = .ok obs s) ∧
    (1 ≤ args.alignmentIterations → args.historyLength < 1 →
      doAlignment ops hybrid args obs s = .error .valueError s) := by
  unfold doAlignment
  constructor
  · intro h
    rw [show args.alignmentIterations.toNat = 0 by omega]
    rfl
  · intro h h1
    obtain ⟨k, hk⟩ : ∃ k, args.alignmentIterations.toNat = k + 1 := ⟨_, (Nat.sub_add_cancel (by omega)).symm⟩
    rw [hk, List.range_succ_eq_map, List.map_cons]
    unfold alignRounds
    rw [(C55_image_reset ops.black args.historyLength s s).1 h1]

/-- **C74.**  Aligning a trajectory gives the same result whatever the aligner was used for before. -/
theorem C74_independent (ops : ImageOps K P (Option Img) Probs)
    (hybrid : Option (FilterOps K C × CliqueFinder)) (args : AlignTrajArgs K)
    (obs : List (Observation K Img)) (s1 s2 : ImageState K C P) :
    outcome (doAlignment ops hybrid args obs s1) = outcome (doAlignment ops hybrid args obs s2) := by
  unfold doAlignment
  cases (List.range args.alignmentIterations.toNat).map (fun k : ℕ => (k : ℤ) + 1) with
  | nil => rfl
  | cons i is =>
    unfold alignRounds
    by_cases h : args.historyLength < 1
    · rw [(C55_image_reset ops.black args.historyLength s1 s1).1 h,
        (C55_image_reset ops.black args.historyLength s2 s2).1 h]
      rfl
    · obtain ⟨s, e1, e2⟩ := (C55_image_reset ops.black args.historyLength s1 s2).2 (by omega)
      rw [e1, e2]

end

/-- An aligner that always reports a drift of one to the right. -/
def driftingOps : ImageOps ℚ ℕ (Option ℕ) Unit where
  resizer := nearestResizer ℕ
  black := 0
  prepare := fun image => match image with | none => .error .attributeError | some _ => .ok (blackFrame 0)
  net := fun stack => .ok (stack.map (fun _ => ((), ⟨1, 0⟩)))
  detect := fun _ => closeAtoms

/-- Two observations with images, and the fields of view after one round with the full step size. -/
example : ∃ (out : List (Observation ℚ ℕ)) (s' : ImageState ℚ Unit ℕ),
    doAlignment driftingOps none { historyLength := 1, baseStepSize := 1 / 2 }
      [⟨closeAtoms, ⟨⟨0, 0⟩, ⟨20, 20⟩⟩, [], 0, some 1, none⟩, ⟨closeAtoms, ⟨⟨0, 0⟩, ⟨20, 20⟩⟩, [], 5, some 2, none⟩]
      ImageState.fresh = .ok out s' ∧
    out.map (fun o => o.fov) = [⟨⟨-1, 0⟩, ⟨19, 20⟩⟩, ⟨⟨-2, 0⟩, ⟨18, 20⟩⟩] :=
  ⟨_, _, rfl, by decide +kernel⟩

/-! ### C57 -/

section
variable {K Img : Type} [Field K]

/-- **C57.**  Accumulating drifts one after the other adds them up. -/
theorem C57_accumulated (d : Drift K) (ds : List (Drift K)) :
    (ds.foldl Drift.cumulate d).drift =
      ⟨d.drift.x + (ds.map (·.drift.x)).sum, d.drift.y + (ds.map (·.drift.y)).sum⟩ ∧
    (ds.foldl Drift.cumulate d).jitter = d.jitter := by
  induction ds generalizing d with
  | nil => simp
  | cons e ds ih =>
    rw [List.foldl_cons, (ih _).1, (ih _).2]
    simp [Drift.cumulate, add_assoc]

/-- Applying a drift moves the field of view by the drift, and every atom back by its jitter, and keeps the
atomic numbers, controls, time and image.  (Missing: the label image is lost, see below.) -/
theorem C57_applied_partial (d : Drift K) (o : Observation K Img)
    (hj : d.jitter.length = o.grid.positions.length) :
    ∃ o', d.apply o = .ok o' ∧ o'.fov = o.fov.shift d.drift ∧
      o'.fov.width = o.fov.width ∧ o'.fov.height = o.fov.height ∧
      o'.grid.positions.length = o.grid.positions.length ∧
      (∀ (i : ℕ) (p j : V2 K), o.grid.positions[i]? = some p → d.jitter[i]? = some j →
        o'.grid.positions[i]? = some (p - j)) ∧
      o'.grid.numbers = o.grid.numbers ∧ o'.controls = o.controls ∧ o'.elapsedTime = o.elapsedTime ∧
      o'.image = o.image := by
  unfold Drift.apply rowsSub
  rw [if_pos hj.symm]
  refine ⟨_, rfl, rfl, by simp [Fov.width, Fov.shift], by simp [Fov.height, Fov.shift], by simp [hj], ?_,
    rfl, rfl, rfl, rfl⟩
  intro i p j hp hj
  simp [List.getElem?_zipWith, hp, hj]

/-- The label image of an observation is lost. -/
theorem C57_label_lost (d : Drift K) (o o' : Observation K Img) (h : d.apply o = .ok o') :
    o'.labelImage = none := by
  unfold Drift.apply at h
  split at h <;> cases h
  rfl

example : ∃ (d : Drift ℚ) (o o' : Observation ℚ ℕ), d.apply o = .ok o' ∧ o.labelImage = some 7 ∧
    o'.labelImage = none :=
  ⟨⟨[⟨1, 2⟩], ⟨3, 4⟩⟩, ⟨⟨[⟨5, 5⟩], [6]⟩, ⟨⟨0, 0⟩, ⟨1, 1⟩⟩, [], 0, none, some 7⟩,
    ⟨⟨[⟨5 - 1, 5 - 2⟩], [6]⟩, ⟨⟨0 + 3, 0 + 4⟩, ⟨1 + 3, 1 + 4⟩⟩, [], 0, none, none⟩, rfl, rfl, rfl⟩

/-- Jitters for another number of atoms (and more than one) raise. -/
theorem C57_wrong_number (d : Drift K) (o : Observation K Img)
    (hj : d.jitter.length ≠ o.grid.positions.length) (h1 : d.jitter.length ≠ 1)
    (h2 : o.grid.positions.length ≠ 1) : d.apply o = .error .valueError := by
  unfold Drift.apply rowsSub
  rw [if_neg (fun h => hj h.symm)]
  split
  · rename_i e h
    split at h
    · rename_i hb; rw [hb] at h1; simp at h1
    · rename_i ha _; rw [ha] at h2; simp at h2
    · cases h; rfl
  · rename_i h
    split at h
    · rename_i hb; rw [hb] at h1; simp at h1
    · rename_i ha _; rw [ha] at h2; simp at h2
    · cases h

/-- Applying one drift after another moves the field of view as the accumulated drift does; the jitters of
both are taken off, whereas the accumulated drift only has those of the first. -/
theorem C57_successive (d e : Drift K) (o o1 o2 : Observation K Img) (h1 : d.apply o = .ok o1)
    (h2 : e.apply o1 = .ok o2) : o2.fov = o.fov.shift (d.cumulate e).drift := by
  unfold Drift.apply at h1 h2
  split at h1
  · cases h1
  · split at h2
    · cases h2
    · cases h1; cases h2
      ext <;> simp [Fov.shift, Drift.cumulate, add_assoc]

end
end PD.Props
