/- Property C41: trajectories become transitions. -/
import Verif.Spec.Transitions

set_option linter.unusedSectionVars false
set_option linter.unusedSimpArgs false

namespace PD.Props
open PD PD.Spec
variable {K G O P Img : Type}

theorem transitionsLoop_length (b : Bool) (before : Option (Before K Img)) (os : List (Observation K Img)) :
    (transitionsLoop b before os).length = os.length - (if before.isSome then 0 else 1) := by
  induction os generalizing before with
  | nil => simp [transitionsLoop]
  | cons o os ih =>
    cases before <;> simp [transitionsLoop, ih]

/-- The variables that hold observation `o`. -/
def heldBy (o : Observation K Img) : Before K Img := ⟨o.grid, o.fov, o.image, o.labelImage, o.controls⟩

theorem transitionsLoop_some (f : Bool) (a : Observation K Img) (os : List (Observation K Img)) (i : ℕ)
    (t : Transition K Img) (h : (transitionsLoop f (some (heldBy a)) os)[i]? = some t) :
    ∃ x y, (a :: os)[i]? = some x ∧ (a :: os)[i + 1]? = some y ∧ Joins t x y ∧
      t.controls = if f then y.controls else x.controls := by
  induction os generalizing a i with
  | nil => simp [transitionsLoop] at h
  | cons o os ih =>
    rw [transitionsLoop] at h
    cases i with
    | zero =>
      simp only [List.cons_append, List.nil_append, List.getElem?_cons_zero, Option.some.injEq] at h
      subst h
      refine ⟨a, o, rfl, rfl, ⟨rfl, rfl, rfl, rfl, rfl, rfl, rfl, rfl⟩, ?_⟩
      cases f <;> rfl
    | succ i =>
      simp only [List.cons_append, List.nil_append, List.getElem?_cons_succ] at h
      obtain ⟨x, y, h1, h2, h3⟩ := ih o i h
      exact ⟨x, y, by simpa using h1, by simpa using h2, h3⟩

/-- A trajectory of `n` observations yields `n - 1` transitions (none for `n ≤ 1`).  Transition `i`
joins observations `i` and `i + 1`, and carries the controls stored with the earlier one, or with
the later one when the controls of an observation are those applied before it. -/
theorem C41_one_trajectory (f : Bool) (os : List (Observation K Img)) :
    (trajectoriesToTransitions f [os]).length = os.length - 1 ∧
    ∀ i t, (trajectoriesToTransitions f [os])[i]? = some t →
      ∃ x y, os[i]? = some x ∧ os[i + 1]? = some y ∧ Joins t x y ∧
        t.controls = if f then y.controls else x.controls := by
  simp only [trajectoriesToTransitions, List.flatMap_cons, List.flatMap_nil, List.append_nil]
  refine ⟨by simpa using transitionsLoop_length f none os, ?_⟩
  intro i t h
  cases os with
  | nil => simp [transitionsLoop] at h
  | cons o os =>
    simp only [transitionsLoop, List.nil_append] at h
    exact transitionsLoop_some f o os i t h

/-- No transition joins observations of different trajectories: the transitions of several
trajectories are those of each, one trajectory after the other. -/
theorem C41_trajectories_apart (f : Bool) (trs : List (List (Observation K Img))) :
    trajectoriesToTransitions f trs = (trs.map (fun os => trajectoriesToTransitions f [os])).flatten ∧
    (trajectoriesToTransitions f trs).length = (trs.map (fun os => os.length - 1)).sum := by
  have h : trajectoriesToTransitions f trs =
      (trs.map (fun os => trajectoriesToTransitions f [os])).flatten := by
    simp [trajectoriesToTransitions, List.flatMap]
  refine ⟨h, ?_⟩
  rw [h, List.length_flatten, List.map_map]
  congr 1
  exact List.map_congr_left (fun os _ => (C41_one_trajectory f os).1)

section
variable [Field K] [LinearOrder K] [FloorRing K]

theorem simStep_controls {cfg : SimCfg K G O P Img} {cs : List (BeamControl K)} {b : Bool}
    {s s' : Sim K G O P} {o : Observation K Img} (h : Sim.step cfg cs b s = .ok o s') :
    o.controls = cs := by
  unfold Sim.step at h
  repeat' split at h
  all_goals first
    | (cases h; done)
    | (simp only [EStateM.Result.ok.injEq] at h; obtain ⟨rfl, _⟩ := h; rfl)

/-- For the observations a simulator returned (with any first observation), the flag
`previous_controls_at_current_timestep` attaches to each transition exactly the controls that were
applied between its two observations. -/
theorem C41_simulator_controls (cfg : SimCfg K G O P Img) (s : Sim K G O P) (o : Observation K Img)
    (css : List (List (BeamControl K))) (os : List (Observation K Img)) (h : Simulated cfg s css os) :
    (trajectoriesToTransitions true [o :: os]).map (·.controls) = css := by
  have key : ∀ a : Observation K Img,
      (transitionsLoop true (some (heldBy a)) os).map (·.controls) = css := by
    induction h with
    | done s => intro a; rfl
    | @step s s' cs css o' os b hstep rest ih =>
      intro a
      have h1 : o'.controls = cs := simStep_controls hstep
      have h2 := ih o'
      rw [transitionsLoop, List.map_append]
      simp only [heldBy] at h2
      rw [h2, List.map_singleton]
      simp [h1]
  simp only [trajectoriesToTransitions, List.flatMap_cons, List.flatMap_nil, List.append_nil,
    transitionsLoop, List.nil_append]
  exact key o

end

/-- Three observations and one observation: two transitions. -/
example : (trajectoriesToTransitions true
    [[⟨⟨[⟨0, 0⟩], [14]⟩, ⟨⟨0, 0⟩, ⟨1, 1⟩⟩, [], 1, none, none⟩,
      ⟨⟨[⟨1, 0⟩], [14]⟩, ⟨⟨0, 0⟩, ⟨1, 1⟩⟩, [BeamControl.mk' ⟨0, 0⟩ 5], 1, some 3, none⟩,
      ⟨⟨[⟨1, 1⟩], [14]⟩, ⟨⟨0, 0⟩, ⟨1, 1⟩⟩, [BeamControl.mk' ⟨0, 0⟩ 7], 1, none, some 4⟩],
     [⟨⟨[⟨9, 9⟩], [14]⟩, ⟨⟨0, 0⟩, ⟨1, 1⟩⟩, [], 1, none, none⟩]] :
      List (Transition ℚ ℕ)).map (fun t => (t.gridBefore, t.gridAfter, t.controls)) =
    [(⟨[⟨0, 0⟩], [14]⟩, ⟨[⟨1, 0⟩], [14]⟩, [BeamControl.mk' ⟨0, 0⟩ 5]),
     (⟨[⟨1, 0⟩], [14]⟩, ⟨[⟨1, 1⟩], [14]⟩, [BeamControl.mk' ⟨0, 0⟩ 7])] := by
  decide +kernel

end PD.Props
