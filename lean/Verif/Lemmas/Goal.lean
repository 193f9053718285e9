/- Lemmas about goals. -/
import Verif.Model.Goal
import Verif.Spec.Goal
import Verif.Lemmas.SimHistory

set_option linter.unusedSectionVars false
set_option linter.unusedSimpArgs false

namespace PD
open PD.Spec
variable {K G Img : Type} [Field K] [LinearOrder K] [IsStrictOrderedRing K]

theorem centralSilicon_unique {g : Grid K} {a b : V2 K} (ha : CentralSilicon g a)
    (hb : CentralSilicon g b) : a = b := by
  obtain ⟨l, r, h, hl, hr⟩ := ha
  obtain ⟨l', r', h', hl', hr'⟩ := hb
  rw [h] at h'
  rcases List.append_eq_append_iff.1 h' with ⟨m, h1, h2⟩ | ⟨m, h1, h2⟩
  · cases m with
    | nil => simp at h2; exact h2.1
    | cons x m =>
      simp only [List.cons_append, List.cons.injEq] at h2
      have hbr : b ∈ r := by rw [h2.2]; simp
      have hal : a ∈ l' := by rw [h1, h2.1]; simp
      exact absurd (hl' a hal) (not_lt.2 (hr b hbr))
  · cases m with
    | nil => simp at h2; exact h2.1.symm
    | cons x m =>
      simp only [List.cons_append, List.cons.injEq] at h2
      have hbr : a ∈ r' := by rw [h2.2]; simp
      have hal : b ∈ l := by rw [h1, h2.1]; simp
      exact absurd (hl b hal) (not_lt.2 (hr' a hbr))

theorem getSingle_none {g : Grid K} (hwf : g.WF) (h : silicons g = []) :
    getSingleSiliconPosition g = .error .siliconNotFound := by
  simp [getSingleSiliconPosition, getSiliconPositions_eq_silicons hwf, h]

theorem centralSilicon_singleton {g : Grid K} {p : V2 K} (h : silicons g = [p]) :
    CentralSilicon g p := ⟨[], [], by simp [h], by simp, by simp⟩

theorem argmin?_split {L : List (V2 K)} {f : V2 K → K} {i : ℕ} (hi : argmin? (L.map f) = some i) :
    ∃ x, L[i]? = some x ∧ ∃ l r, L = l ++ x :: r ∧ (∀ a ∈ l, f x < f a) ∧ (∀ b ∈ r, f x ≤ f b) := by
  have hlt := argmin?_lt hi
  rw [List.length_map] at hlt
  obtain ⟨v, hv, hmin, hfst⟩ := argmin?_eq_some hi
  simp only [List.getElem?_map, List.getElem?_eq_getElem hlt, Option.map_some,
    Option.some.injEq] at hv
  subst hv
  refine ⟨L[i], List.getElem?_eq_getElem hlt, L.take i, L.drop (i + 1), ?_, ?_, ?_⟩
  · rw [List.getElem_cons_drop, List.take_append_drop]
  · intro a ha
    obtain ⟨j, hj, rfl⟩ := List.getElem_of_mem ha
    have hj' : j < i := by simp at hj; omega
    refine hfst j hj' _ ?_
    rw [List.getElem?_map, List.getElem_take, List.getElem?_eq_getElem (by omega)]
    rfl
  · intro b hb
    exact hmin _ (List.mem_map_of_mem (List.mem_of_mem_drop hb))

theorem getSingle_some {g : Grid K} (hwf : g.WF) (h : silicons g ≠ []) :
    ∃ si, getSingleSiliconPosition g = .ok si ∧ CentralSilicon g si := by
  unfold getSingleSiliconPosition
  rw [getSiliconPositions_eq_silicons hwf]
  match hs : silicons g with
  | [] => exact absurd hs h
  | [p] => exact ⟨p, rfl, centralSilicon_singleton hs⟩
  | p :: q :: rest =>
    simp only
    obtain ⟨i, hi⟩ := argmin?_isSome (l := (p :: q :: rest).map
      (fun s => V2.distSq (⟨1/2, 1/2⟩ : V2 K) s)) (by simp)
    rw [hi]
    obtain ⟨x, hx, l, r, he, h1, h2⟩ := argmin?_split hi
    simp only [hx]
    exact ⟨x, rfl, l, r, by rw [hs, he], h1, h2⟩

theorem getSingle_iff {g : Grid K} (hwf : g.WF) (si : V2 K) :
    getSingleSiliconPosition g = .ok si ↔ CentralSilicon g si := by
  constructor
  · intro h
    by_cases hs : silicons g = []
    · rw [getSingle_none hwf hs] at h; simp at h
    · obtain ⟨s, h1, h2⟩ := getSingle_some hwf hs
      rw [h1] at h; cases h; exact h2
  · intro h
    by_cases hs : silicons g = []
    · obtain ⟨l, r, h1, _⟩ := h; rw [hs] at h1; simp at h1
    · obtain ⟨s, h1, h2⟩ := getSingle_some hwf hs
      rw [centralSilicon_unique h h2]; exact h1

theorem normLt_iff {v : V2 K} {r : K} (hr : 0 < r) : normLt v r = true ↔ V2.normSq v < r ^ 2 := by
  simp [normLt, hr, sq]

theorem normGt_iff {v : V2 K} {r : K} (hr : 0 ≤ r) : normGt v r = true ↔ r ^ 2 < V2.normSq v := by
  simp [normGt, not_lt.2 hr, sq]

theorem place_sub (o : Observation K Img) (p q : V2 K) :
    (⟨o.fov.width, o.fov.height⟩ : V2 K) * (p - q) = place o p - place o q := by
  ext <;> simp [place, lerp, Fov.width, Fov.height] <;> ring

theorem toMaterial_place (o : Observation K Img) (p : V2 K) : o.fov.toMaterial p = place o p := by
  ext <;> simp [place, Fov.toMaterial, Fov.scale, lerp] <;> ring

theorem gammaPow_pos (t : Timedelta) : 0 < gammaPow t :=
  Real.rpow_pos_of_pos (by norm_num [GAMMA]) _

theorem gammaPow_le_one {t : Timedelta} (h : 0 ≤ t) : gammaPow t ≤ 1 := by
  refine Real.rpow_le_one (by norm_num [GAMMA]) (by norm_num [GAMMA]) ?_
  unfold totalSeconds
  have : (0 : ℝ) ≤ (t : ℝ) := by exact_mod_cast h
  positivity

/-- What one call of `calculate_reward_and_terminal` does. -/
theorem calculate_ok (o : Observation K Img) (s : GoalState K) (hwf : o.grid.WF)
    (hs : ShowsSilicon o) :
    ∃ n, GoalState.calculate o s = .ok ⟨if s.required ≤ n then gammaPow o.elapsedTime else 0,
        decide (s.required ≤ n), false⟩ { s with consecutive := n } ∧
      (AtGoal s.goal o → n = s.consecutive + 1) ∧ (¬ AtGoal s.goal o → n = 0) := by
  obtain ⟨si, h1, h2⟩ := getSingle_some hwf hs
  have hr : (0 : K) < BOND * (1 / 2) := by norm_num [BOND]
  have hiff : normLt (o.fov.toMaterial si - s.goal) (BOND * (1 / 2)) = true ↔ AtGoal s.goal o := by
    rw [normLt_iff hr]
    constructor
    · intro h
      refine ⟨si, h2, ?_⟩
      have : (BOND * (1 / 2) : K) = 71 / 100 := by norm_num [BOND]
      rw [this, toMaterial_place] at h
      exact h
    · rintro ⟨si', h3, h4⟩
      have := centralSilicon_unique h2 h3
      subst this
      have : (BOND * (1 / 2) : K) = 71 / 100 := by norm_num [BOND]
      rw [this, toMaterial_place]
      exact h4
  by_cases hg : AtGoal s.goal o
  · refine ⟨s.consecutive + 1, ?_, fun _ => rfl, fun h => absurd hg h⟩
    simp only [GoalState.calculate, h1, hiff.2 hg]
    simp
  · refine ⟨0, ?_, fun h => absurd h hg, fun _ => rfl⟩
    have : normLt (o.fov.toMaterial si - s.goal) (BOND * (1 / 2)) = false := by
      simpa using (not_congr hiff).2 hg
    simp only [GoalState.calculate, h1, this]
    simp

theorem calculate_error (o : Observation K Img) (s : GoalState K) (hwf : o.grid.WF)
    (hs : ¬ ShowsSilicon o) : GoalState.calculate o s = .error .siliconNotFound s := by
  have : silicons o.grid = [] := by simpa [ShowsSilicon] using hs
  simp [GoalState.calculate, getSingle_none hwf this]

theorem goalRun_append (a b : List (Observation K Img)) (s : GoalState K) :
    GoalState.run (a ++ b) s = ((GoalState.run a s).1 ++ (GoalState.run b (GoalState.run a s).2).1,
      (GoalState.run b (GoalState.run a s).2).2) := by
  induction a generalizing s with
  | nil => simp [GoalState.run]
  | cons o a ih =>
    simp only [List.cons_append, GoalState.run]
    cases GoalState.calculate o s <;> simp [ih]

/-- Calculating rewards changes nothing but the counter. -/
theorem goalRun_frame (os : List (Observation K Img)) (s : GoalState K) :
    ∃ n, (GoalState.run os s).2 = { s with consecutive := n } := by
  induction os generalizing s with
  | nil => exact ⟨s.consecutive, rfl⟩
  | cons o os ih =>
    simp only [GoalState.run]
    cases hc : getSingleSiliconPosition o.grid with
    | error e => simp only [GoalState.calculate, hc]; exact ih s
    | ok si => simp only [GoalState.calculate, hc]; exact ih _

/-- The list ends with `k` observations showing the silicon at the goal. -/
theorem endsAtGoal_concat {goal : V2 K} {l : List (Observation K Img)} {o : Observation K Img}
    {k : ℕ} : EndsAtGoal goal k (l ++ [o]) ↔ k = 0 ∨ (AtGoal goal o ∧ EndsAtGoal goal (k - 1) l) := by
  constructor
  · rintro ⟨f, b, h, hk, hb⟩
    rcases List.eq_nil_or_concat b with rfl | ⟨b', x, rfl⟩
    · left; simpa using hk.symm
    · right
      rw [List.concat_eq_append, ← List.append_assoc] at h
      obtain ⟨h1, h2⟩ := List.append_inj' h rfl
      cases h2
      exact ⟨hb o (by simp), f, b', h1, by simp at hk; omega, fun x hx => hb x (by simp [hx])⟩
  · rintro (rfl | ⟨ho, f, b, h, hk, hb⟩)
    · exact ⟨l ++ [o], [], by simp, rfl, by simp⟩
    · rcases Nat.eq_zero_or_pos k with rfl | hpos
      · exact ⟨l ++ [o], [], by simp, rfl, by simp⟩
      · refine ⟨f, b ++ [o], by simp [h], by simp; omega, ?_⟩
        intro x hx
        rcases List.mem_append.1 hx with hx | hx
        · exact hb x hx
        · simp at hx; subst hx; exact ho

theorem goalRun_count (os : List (Observation K Img)) (hwf : ∀ o ∈ os, o.grid.WF)
    (s : GoalState K) (h0 : s.consecutive = 0) (k : ℕ) :
    k ≤ (GoalState.run os s).2.consecutive ↔ EndsAtGoal s.goal k (os.filter (fun o => ShowsSilicon o)) := by
  induction os using List.reverseRecOn generalizing k with
  | nil =>
    simp only [GoalState.run, h0, List.filter_nil]
    constructor
    · intro h; exact ⟨[], [], rfl, by simp; omega, by simp⟩
    · rintro ⟨f, b, h, hk, _⟩
      have : b = [] := by simpa using (List.append_eq_nil_iff.1 h.symm).2
      subst this; simp at hk; omega
  | append_singleton os o ih =>
    have ih' := ih (fun x hx => hwf x (by simp [hx]))
    obtain ⟨n, hn⟩ := goalRun_frame os s
    rw [goalRun_append]
    simp only [GoalState.run]
    by_cases hs : ShowsSilicon o
    · obtain ⟨m, hc, hm1, hm2⟩ := calculate_ok o (GoalState.run os s).2 (hwf o (by simp)) hs
      have hg : (GoalState.run os s).2.goal = s.goal := by rw [hn]
      rw [hg] at hm1 hm2
      simp only [hc, List.filter_append, List.filter_cons, hs, decide_true, if_true, List.filter_nil]
      rw [endsAtGoal_concat, ← ih' (k - 1)]
      by_cases hat : AtGoal s.goal o
      · rw [hm1 hat]; simp [hat]; omega
      · rw [hm2 hat]; simp [hat]
    · rw [calculate_error _ _ (hwf o (by simp)) hs]
      simp [List.filter_append, List.filter_cons, hs, ih']

end PD
