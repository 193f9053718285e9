/- Properties C16 and C17: goals. -/
import Verif.Lemmas.Goal
import Verif.Lemmas.Witness

set_option linter.unusedSectionVars false
set_option linter.unusedSimpArgs false

namespace PD.Props
open PD PD.Spec
variable {K G Img : Type} [Field K] [LinearOrder K] [IsStrictOrderedRing K]

/-! ### C16 goal selection -/

/-- Choosing a goal, case by case: without a visible silicon it raises `SiliconNotFound`; with one
but no visible atom in range it raises `RuntimeError`; otherwise it succeeds, the goal being the
material position of a visible atom in range of the silicon, and the counter is cleared. -/
theorem C16_goal_choice (rng : Rng K G) (hl : rng.Lawful) (o : Observation K Img)
    (hwf : o.grid.WF) (s : GoalState K) (hlo : 0 ≤ s.rangeMin) (hhi : 0 < s.rangeMax) (g : G) :
    (silicons o.grid = [] ∧ GoalState.reset rng o s g = .error .siliconNotFound) ∨
    ∃ si, CentralSilicon o.grid si ∧
      (((∀ p ∈ o.grid.positions, ¬ InRange s.rangeMin s.rangeMax (place o p) (place o si)) ∧
          GoalState.reset rng o s g = .error .runtimeError) ∨
        ∃ p ∈ o.grid.positions, InRange s.rangeMin s.rangeMax (place o p) (place o si) ∧
          ∃ g', GoalState.reset rng o s g =
            .ok ({ s with goal := place o p, consecutive := 0 }, g')) := by
  by_cases hs : silicons o.grid = []
  · left
    exact ⟨hs, by simp [GoalState.reset, getSingle_none hwf hs]⟩
  · right
    obtain ⟨si, h1, h2⟩ := getSingle_some hwf hs
    refine ⟨si, h2, ?_⟩
    have hiff : ∀ p : V2 K,
        (normLt ((⟨o.fov.width, o.fov.height⟩ : V2 K) * (p - si)) s.rangeMax &&
          normGt ((⟨o.fov.width, o.fov.height⟩ : V2 K) * (p - si)) s.rangeMin) = true ↔
        InRange s.rangeMin s.rangeMax (place o p) (place o si) := by
      intro p
      rw [place_sub, Bool.and_eq_true, normLt_iff hhi, normGt_iff hlo]
      exact and_comm
    by_cases hv : (o.grid.positions.filter (fun p =>
        normLt ((⟨o.fov.width, o.fov.height⟩ : V2 K) * (p - si)) s.rangeMax &&
          normGt ((⟨o.fov.width, o.fov.height⟩ : V2 K) * (p - si)) s.rangeMin)) = []
    · left
      refine ⟨fun p hp hc => ?_, ?_⟩
      · have := List.filter_eq_nil_iff.1 hv p hp
        exact this ((hiff p).2 hc)
      · simp only [GoalState.reset, h1, maskSelect_map_self, hv]
        simp
    · right
      have hpos := List.length_pos_iff.2 hv
      have hlt := hl.choice_lt _ g hpos
      have hmem := List.getElem_mem hlt
      obtain ⟨hm1, hm2⟩ := List.mem_filter.1 hmem
      refine ⟨_, hm1, (hiff _).1 hm2, (rng.choice (o.grid.positions.filter (fun p =>
        normLt ((⟨o.fov.width, o.fov.height⟩ : V2 K) * (p - si)) s.rangeMax &&
        normGt ((⟨o.fov.width, o.fov.height⟩ : V2 K) * (p - si)) s.rangeMin)).length g).2, ?_⟩
      simp only [GoalState.reset, h1, maskSelect_map_self]
      rw [if_neg (by omega)]
      simp only [List.getElem?_eq_getElem hlt, toMaterial_place]

/-- The defaults: a newly made goal chooses between 0.1 Å and 50 Å, and asks for one step. -/
theorem C16_default_range : (GoalState.fresh : GoalState K).rangeMin = 1 / 10 ∧
    (GoalState.fresh : GoalState K).rangeMax = 50 ∧ (GoalState.fresh : GoalState K).required = 1 :=
  ⟨rfl, rfl, rfl⟩

/-- Between resets the goal stays the same, whatever is observed and whatever raises. -/
theorem C16_goal_fixed (os : List (Observation K Img)) (s : GoalState K) :
    (GoalState.run os s).2.currentGoal = s.currentGoal := by
  obtain ⟨n, hn⟩ := goalRun_frame os s
  rw [hn]; rfl

namespace GoalExample

/-- Silicon in the middle of a 20 Å view, one atom 2 Å to the right, one 2.1 Å above, and one
atom closer than 0.1 Å. -/
def view : Observation ℚ Unit :=
  ⟨⟨[⟨1/2, 1/2⟩, ⟨6/10, 1/2⟩, ⟨1/2, 605/1000⟩, ⟨5001/10000, 1/2⟩], [14, 6, 6, 6]⟩,
    ⟨⟨-10, -10⟩, ⟨10, 10⟩⟩, [], 2000000, none, none⟩

/-- The same view without a silicon. -/
def bare : Observation ℚ Unit := { view with grid := ⟨view.grid.positions, [6, 6, 6, 6]⟩ }

/-- Only the silicon and the atom too close to it. -/
def crowded : Observation ℚ Unit := { view with grid := ⟨[⟨1/2, 1/2⟩, ⟨5001/10000, 1/2⟩], [14, 6]⟩ }

/-- All three outcomes of `C16_goal_choice` occur. -/
example : view.grid.WF ∧ (Witness.rng (1 : ℚ)).Lawful ∧
    ((GoalState.reset (Witness.rng (1 : ℚ)) view GoalState.fresh ()).map (fun r => r.1.goal)) =
      .ok ⟨2, 0⟩ ∧
    ((GoalState.reset (Witness.rng (1 : ℚ)) bare GoalState.fresh ()).map (fun r => r.1.goal)) =
      .error .siliconNotFound ∧
    ((GoalState.reset (Witness.rng (1 : ℚ)) crowded GoalState.fresh ()).map (fun r => r.1.goal)) =
      .error .runtimeError := by
  refine ⟨by decide, Witness.rng_lawful (by norm_num), ?_, ?_, ?_⟩ <;> decide +kernel

end GoalExample

/-! ### C17 success is exactly reaching the goal -/

/-- After a reset (counter 0), for every history of observations ending in one that shows a
silicon: the last result is terminal iff each of the last `required` silicon-showing observations
had its silicon within 0.71 Å of the goal; its reward is `γ ^ elapsed seconds` if terminal and 0
otherwise; it is never truncated. -/
theorem C17_terminal_iff (s : GoalState K) (h0 : s.consecutive = 0)
    (os : List (Observation K Img)) (o : Observation K Img)
    (hwf : ∀ x ∈ os ++ [o], x.grid.WF) (ho : ShowsSilicon o) :
    ∃ r, (GoalState.run (os ++ [o]) s).1.getLast? = some (.ok r) ∧
      (r.isTerminal = true ↔
        EndsAtGoal s.goal s.required ((os ++ [o]).filter (fun x => ShowsSilicon x))) ∧
      (r.isTerminal = true → r.reward = (9967 / 10000 : ℝ) ^ ((o.elapsedTime : ℝ) / 1000000)) ∧
      (r.isTerminal = false → r.reward = 0) ∧ r.isTruncated = false := by
  obtain ⟨n, hn⟩ := goalRun_frame os s
  obtain ⟨m, hc, hm1, hm2⟩ := calculate_ok o (GoalState.run os s).2 (hwf o (by simp)) ho
  have hcnt := goalRun_count (os ++ [o]) hwf s h0 s.required
  rw [goalRun_append] at hcnt ⊢
  have hreq : (GoalState.run os s).2.required = s.required := by rw [hn]
  simp only [GoalState.run, hc] at hcnt ⊢
  rw [hreq]
  refine ⟨_, List.getLast?_concat, ?_, ?_, ?_, rfl⟩
  · simpa using hcnt
  · intro h
    simp only [decide_eq_true_eq] at h
    simp [h, gammaPow, GAMMA, totalSeconds]
  · intro h
    simp only [decide_eq_false_iff_not] at h
    simp [h]

/-- With the default requirement of one step: terminal iff the silicon is within 0.71 Å of the goal
now. -/
theorem C17_default_terminal_iff (s : GoalState K) (h0 : s.consecutive = 0) (h1 : s.required = 1)
    (os : List (Observation K Img)) (o : Observation K Img)
    (hwf : ∀ x ∈ os ++ [o], x.grid.WF) (ho : ShowsSilicon o) :
    ∃ r, (GoalState.run (os ++ [o]) s).1.getLast? = some (.ok r) ∧
      (r.isTerminal = true ↔ AtGoal s.goal o) := by
  obtain ⟨r, hr, hiff, _⟩ := C17_terminal_iff s h0 os o hwf ho
  refine ⟨r, hr, hiff.trans ?_⟩
  rw [h1, List.filter_append]
  simp only [List.filter_cons, ho, decide_true, if_true, List.filter_nil]
  rw [endsAtGoal_concat]
  constructor
  · rintro (h | h)
    · omega
    · exact h.1
  · intro h
    exact Or.inr ⟨h, _, [], (List.append_nil _).symm, rfl, by simp⟩

/-- An observation without silicon raises and leaves the goal as it was. -/
theorem C17_no_silicon (s : GoalState K) (o : Observation K Img) (hwf : o.grid.WF)
    (ho : ¬ ShowsSilicon o) : GoalState.calculate o s = .error .siliconNotFound s :=
  calculate_error o s hwf ho

namespace GoalExample

/-- The goal 2 Å to the right of the silicon of `view`, two steps required. -/
def twoSteps : GoalState ℚ := { GoalState.fresh with goal := ⟨2, 0⟩, required := 2 }

/-- The view with the silicon at the goal. -/
def there : Observation ℚ Unit :=
  { view with grid := ⟨[⟨6/10, 1/2⟩, ⟨1/2, 1/2⟩], [14, 6]⟩ }

/-- At the goal, away, at the goal, (nothing visible), at the goal: terminal only at the end. -/
example : ((GoalState.run [there, view, there, bare, there] twoSteps).1.map
      (fun r => match r with | .ok x => some x.isTerminal | .error _ => none)) =
    [some false, some false, some false, none, some true] ∧ twoSteps.consecutive = 0 ∧
    (∀ x ∈ [there, view, there, bare, there], x.grid.WF) ∧ ShowsSilicon there := by
  refine ⟨by decide +kernel, rfl, by decide, by decide⟩

end GoalExample
end PD.Props
