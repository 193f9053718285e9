/- Lemmas about the environment with floating point numbers. -/
import Verif.Props.FloatRates
import Verif.Props.FloatGoals
import Verif.Props.Start
import Verif.Props.Adapters
import Verif.Spec.FloatEnv

set_option linter.unusedSectionVars false
set_option linter.unusedSimpArgs false

namespace PD
open PD.Spec PD.Props
variable {G O P Img F : Type}

/-! ### Observations -/

theorem displaced_partner {δ : ℝ} {ps qs : List (V2 ℝ)} (h : Displaced δ ps qs) {p : V2 ℝ} (hp : p ∈ ps) :
    ∃ q ∈ qs, Spec.dist p q ≤ δ := by
  obtain ⟨i, hi⟩ := List.mem_iff_getElem?.1 hp
  obtain ⟨hi1, hi2⟩ := List.getElem?_eq_some_iff.1 hi
  have hq := (List.forall₂_iff_get.1 h).2 i hi1 (by rw [← h.length_eq]; exact hi1)
  simp only [List.get_eq_getElem, hi2] at hq
  exact ⟨_, List.getElem_mem _, hq⟩

theorem displaced_origin {δ : ℝ} {ps qs : List (V2 ℝ)} (h : Displaced δ ps qs) {q : V2 ℝ} (hq : q ∈ qs) :
    ∃ p ∈ ps, Spec.dist p q ≤ δ := by
  obtain ⟨i, hi⟩ := List.mem_iff_getElem?.1 hq
  obtain ⟨hi1, hi2⟩ := List.getElem?_eq_some_iff.1 hi
  have hp := (List.forall₂_iff_get.1 h).2 i (by rw [h.length_eq]; exact hi1) hi1
  simp only [List.get_eq_getElem, hi2] at hp
  exact ⟨_, List.getElem_mem _, hp⟩

/-- Around every atom of a sheet there are three more. -/
theorem displaced_four {n : ℕ} (hn : 5 ≤ n) {offset : V2 ℝ} {angle : ℝ} {qs : List (V2 ℝ)}
    (hD : Displaced (1 / 1000) (layOutSheet n offset angle) qs) {si : V2 ℝ} (hsi : si ∈ qs) :
    ∃ a b c, [si, a, b, c].Nodup ∧ ∀ q ∈ [si, a, b, c], q ∈ qs ∧ Spec.dist si q ≤ 285 / 100 := by
  obtain ⟨p, hp, hps⟩ := displaced_origin hD hsi
  obtain ⟨a, b, c, hnd, hall⟩ := four_near n hn offset angle p hp
  have near : ∀ q ∈ [p, a, b, c], Spec.dist p q ≤ 284 / 100 := by
    intro q hq
    have := (hall q hq).2
    have e : Spec.dist p q = Real.sqrt (V2.distSq p q) := by
      unfold Spec.dist V2.distSq V2.normSq
      congr 1
      simp only [V2.sub_x, V2.sub_y]
      ring
    rw [e, Real.sqrt_le_left (by norm_num)]
    exact this
  obtain ⟨a', ha', ea⟩ := displaced_partner hD (hall a (by simp)).1
  obtain ⟨b', hb', eb⟩ := displaced_partner hD (hall b (by simp)).1
  obtain ⟨c', hc', ec⟩ := displaced_partner hD (hall c (by simp)).1
  have apart : ∀ x ∈ [p, a, b, c], ∀ y ∈ [p, a, b, c], x ≠ y → ∀ x' y', Spec.dist x x' ≤ 1 / 1000 →
      Spec.dist y y' ≤ 1 / 1000 → x' ≠ y' := by
    intro x hx y hy hne x' y' h1 h2 he
    have h3 := C40_min_distance n offset angle x y (hall x hx).1 (hall y hy).1 hne
    have h4 := abs_le.1 (displaced_dist h1 h2)
    rw [he, dist_self'] at h4
    linarith [h4.1]
  have close : ∀ x ∈ [p, a, b, c], ∀ x', Spec.dist x x' ≤ 1 / 1000 → Spec.dist si x' ≤ 285 / 100 := by
    intro x hx x' h1
    have h2 := abs_le.1 (displaced_dist hps h1)
    linarith [h2.2, near x hx]
  simp only [List.nodup_cons, List.mem_cons, List.not_mem_nil, or_false, not_or] at hnd
  obtain ⟨⟨n1, n2, n3⟩, ⟨n4, n5⟩, n6, _⟩ := hnd
  refine ⟨a', b', c', ?_, ?_⟩
  · simp only [List.nodup_cons, List.mem_cons, List.not_mem_nil, or_false, not_or, not_false_eq_true, List.nodup_nil,
      and_true]
    exact ⟨⟨apart p (by simp) a (by simp) n1 _ _ hps ea, apart p (by simp) b (by simp) n2 _ _ hps eb,
      apart p (by simp) c (by simp) n3 _ _ hps ec⟩, ⟨apart a (by simp) b (by simp) n4 _ _ ea eb,
      apart a (by simp) c (by simp) n5 _ _ ea ec⟩, apart b (by simp) c (by simp) n6 _ _ eb ec⟩
  · intro q hq
    simp only [List.mem_cons, List.not_mem_nil, or_false] at hq
    rcases hq with rfl | rfl | rfl | rfl
    · exact ⟨hsi, by rw [dist_self']; norm_num⟩
    · exact ⟨ha', close a (by simp) _ ea⟩
    · exact ⟨hb', close b (by simp) _ eb⟩
    · exact ⟨hc', close c (by simp) _ ec⟩

theorem viewing_positions {s : Sim ℝ G O P} {sheet : Grid ℝ} {o : Observation ℝ Img} (h : Viewing s sheet o) :
    o.grid.positions = (sheet.positions.filter (fun p => decide (Inside o.fov.lowerLeft o.fov.upperRight p))).map
      o.fov.floatToMicroscope := by
  have hw : o.grid.positions.length = o.grid.numbers.length := h.wf
  have hw' : sheet.positions.length = sheet.numbers.length := h.ready.doped.wf
  have e1 : (atoms o.grid).map Prod.fst = o.grid.positions := List.map_fst_zip (by omega)
  have e2 : (atoms sheet).map Prod.fst = sheet.positions := List.map_fst_zip (by omega)
  rw [← e1, h.atoms, ← e2, List.filter_map, List.map_map, List.map_map]
  rfl

/-- Two atoms of a sheet that are shown at the same place are the same. -/
theorem shown_inj {n : ℕ} {offset : V2 ℝ} {angle : ℝ} {qs : List (V2 ℝ)}
    (hD : Displaced (1 / 1000) (layOutSheet n offset angle) qs) {f : Fov ℝ} (hf : SoundView f) {a b : V2 ℝ}
    (ha : a ∈ qs) (hb : b ∈ qs) (ia : Inside f.lowerLeft f.upperRight a) (ib : Inside f.lowerLeft f.upperRight b)
    (h : f.floatToMicroscope a = f.floatToMicroscope b) : a = b := by
  by_contra hne
  obtain ⟨i, hi⟩ := List.mem_iff_getElem?.1 ha
  obtain ⟨j, hj⟩ := List.mem_iff_getElem?.1 hb
  have hij : i ≠ j := by
    rintro rfl
    rw [hi] at hj
    exact hne (Option.some.inj hj)
  have h1 := displaced_apart n offset angle (displaced_mono (by norm_num) hD) hi hj hij
  have h2 := shown_back hf ia
  have h3 := shown_back hf ib
  rw [← h, dist_comm'] at h3
  have h4 := dist_tri a (lerp f.lowerLeft f.upperRight (f.floatToMicroscope a)) b
  have h5 := h4.trans (add_le_add h2 h3)
  have h6 := h1.trans h5
  norm_num at h6

theorem viewing_regular {n : ℕ} (hn : 5 ≤ n) {offset : V2 ℝ} {angle : ℝ} {s : Sim ℝ G O P} {sheet : Grid ℝ}
    {o : Observation ℝ Img} (h : Viewing s sheet o)
    (hD : Displaced (1 / 1000) (layOutSheet n offset angle) sheet.positions) (hnd : sheet.positions.Nodup) :
    4 ≤ o.grid.positions.length ∧ o.grid.positions.Nodup ∧
    ∀ si, silicons sheet = [si] → ∃ b ∈ sheet.positions, b ≠ si ∧ Inside o.fov.lowerLeft o.fov.upperRight b ∧
      Spec.dist si b ≤ 285 / 100 := by
  obtain ⟨si, hsi, _, hmem⟩ := doped_silicon h.ready.doped
  obtain ⟨hin, _, hsafe⟩ := h.safe si hsi
  obtain ⟨a, b, c, hnd4, hall⟩ := displaced_four hn hD hmem
  have hv := h.ready.sound
  have inside : ∀ q ∈ [si, a, b, c], Inside o.fov.lowerLeft o.fov.upperRight q := by
    intro q hq
    have hd := (hall q hq).2
    refine safe_margin hv hin hsafe q ?_ ?_
    · rw [abs_sub_comm]; exact (abs_x_le_dist si q).trans (hd.trans (by norm_num))
    · rw [abs_sub_comm]; exact (abs_y_le_dist si q).trans (hd.trans (by norm_num))
  rw [viewing_positions h]
  refine ⟨?_, ?_, ?_⟩
  · rw [List.length_map]
    have := (hnd4.subperm (l₂ := sheet.positions.filter
      (fun p => decide (Inside o.fov.lowerLeft o.fov.upperRight p))) (fun q hq =>
        List.mem_filter.2 ⟨(hall q hq).1, by simpa using inside q hq⟩)).length_le
    simpa using this
  · refine List.Nodup.map_on ?_ (hnd.filter _)
    intro x hx y hy he
    obtain ⟨x1, x2⟩ := List.mem_filter.1 hx
    obtain ⟨y1, y2⟩ := List.mem_filter.1 hy
    exact shown_inj hD hv x1 y1 (of_decide_eq_true x2) (of_decide_eq_true y2) he
  · intro si' hsi'
    rw [hsi] at hsi'
    cases hsi'
    refine ⟨a, (hall a (by simp)).1, ?_, inside a (by simp), (hall a (by simp)).2⟩
    simp only [List.nodup_cons, List.mem_cons, not_or] at hnd4
    exact fun e => hnd4.1.1 e.symm

/-! ### Goals -/

/-- The goal of a state of play: the place, as it was shown, of an atom of the sheet. -/
def GoalOn (sheet : Grid ℝ) (goal b : V2 ℝ) : Prop :=
  b ∈ sheet.positions ∧ ∃ f : Fov ℝ, SoundView f ∧ CornersWithin 60020 f ∧ Inside f.lowerLeft f.upperRight b ∧
    goal = f.floatToMaterial (f.floatToMicroscope b)

theorem corners_mono {M N : ℝ} (h : M ≤ N) {f : Fov ℝ} (hc : CornersWithin M f) : CornersWithin N f :=
  ⟨⟨hc.1.1.trans h, hc.1.2.trans h⟩, hc.2.1.trans h, hc.2.2.trans h⟩

theorem GoalOn.near {sheet : Grid ℝ} {goal b : V2 ℝ} (h : GoalOn sheet goal b) : Spec.dist goal b ≤ 1 / 10 ^ 9 := by
  obtain ⟨_, f, hf, hc, hin, rfl⟩ := h
  have h2 := C139_round_trip f hf.rect 60020 (by
    have : (2 : ℝ) ^ (-900 : ℤ) ≤ 2 ^ (0 : ℤ) := zpow_le_zpow_right₀ (by norm_num) (by norm_num)
    rw [zpow_zero] at this
    linarith) hc b hin
  have h3 := dist_le_abs (f.floatToMaterial (f.floatToMicroscope b)) b
  rw [abs_sub_comm, abs_sub_comm b.y] at h3
  obtain ⟨h4, h5⟩ := h2
  norm_num at h4 h5 ⊢
  linarith

theorem single_position {g : Grid ℝ} (hw : g.WF) {q : V2 ℝ} (h : silicons g = [q]) :
    getSingleSiliconPosition g = .ok q := by
  have := getSiliconPositions_eq_silicons hw
  rw [h] at this
  simp [getSingleSiliconPosition, this]

theorem floatGoal_reset {n : ℕ} (hn : 5 ≤ n) {offset : V2 ℝ} {angle : ℝ} {sim : Sim ℝ G O P} {sheet : Grid ℝ}
    {o : Observation ℝ Img} (h : Viewing sim sheet o)
    (hD : Displaced (1 / 1000) (layOutSheet n offset angle) sheet.positions) (hnd : sheet.positions.Nodup)
    {rng : Rng ℝ G} (hl : rng.Lawful) {s : GoalState ℝ} (hmin : s.rangeMin = f64 (1 / 10)) (hmax : s.rangeMax = f64 50)
    (g : G) {si : V2 ℝ} (hsi : silicons sheet = [si]) :
    ∃ s' g' b, GoalState.floatReset rng o s g = .ok (s', g') ∧ s'.required = s.required ∧ s'.rangeMin = s.rangeMin ∧
      s'.rangeMax = s.rangeMax ∧ s'.consecutive = 0 ∧ GoalOn sheet s'.goal b ∧ b ≠ si ∧ Spec.dist si b < 52 ∧
      Inside o.fov.lowerLeft o.fov.upperRight b ∧ s'.goal = o.fov.floatToMaterial (o.fov.floatToMicroscope b) := by
  obtain ⟨hin, hs1, _⟩ := h.safe si hsi
  have hv := h.ready.sound
  have hcor := sound_corners h.ready
  have hcor' : CornersWithin (2 ^ 40) o.fov := corners_mono (by norm_num) hcor
  have hD' := displaced_mono (show (1 : ℝ) / 1000 ≤ 1 / 4 by norm_num) hD
  obtain ⟨si2, hsi2, _, hmem⟩ := doped_silicon h.ready.doped
  rw [hsi] at hsi2
  cases hsi2
  obtain ⟨i, hi⟩ := List.mem_iff_getElem?.1 hmem
  obtain ⟨_, _, hother⟩ := viewing_regular hn h hD hnd
  obtain ⟨b0, hb0, hne0, hin0, hd0⟩ := hother si hsi
  obtain ⟨j0, hj0⟩ := List.mem_iff_getElem?.1 hb0
  unfold GoalState.floatReset
  rw [single_position h.wf hs1]
  dsimp only
  rw [hmin, hmax]
  have hmask : (o.grid.positions.map fun p =>
      decide (floatGoalRange o.fov (o.fov.floatToMicroscope si) p < f64 50) &&
        decide (f64 (1 / 10) < floatGoalRange o.fov (o.fov.floatToMicroscope si) p)) =
      o.grid.positions.map (floatValidGoal o.fov (o.fov.floatToMicroscope si)) := rfl
  rw [hmask, maskSelect_map_self, viewing_positions h]
  set valid := List.filter (floatValidGoal o.fov (o.fov.floatToMicroscope si))
    ((sheet.positions.filter (fun p => decide (Inside o.fov.lowerLeft o.fov.upperRight p))).map
      o.fov.floatToMicroscope) with hvalid
  have hpos : 0 < valid.length := by
    apply List.length_pos_of_mem (a := o.fov.floatToMicroscope b0)
    rw [hvalid, List.mem_filter]
    refine ⟨List.mem_map_of_mem (List.mem_filter.2 ⟨hb0, by simpa using hin0⟩), ?_⟩
    refine (C140_goals n offset angle hD' hi hj0 o.fov hv.rect hcor' hin hin0).2.1 ?_ (hd0.trans (by norm_num))
    rintro rfl
    rw [hi] at hj0
    exact hne0 (Option.some.inj hj0).symm
  rw [if_neg hpos.ne']
  obtain ⟨idx, g', hch⟩ : ∃ idx g', rng.choice valid.length g = (idx, g') := ⟨_, _, rfl⟩
  have hlt := hl.choice_lt valid.length g hpos
  rw [hch] at hlt
  simp only [hch]
  dsimp only at hlt
  rw [List.getElem?_eq_getElem hlt]
  obtain ⟨hm1, hm2⟩ := List.mem_filter.1 (List.getElem_mem hlt : valid[idx] ∈ valid)
  obtain ⟨b, hb, hbe⟩ := List.mem_map.1 hm1
  obtain ⟨hbm, hbi⟩ := List.mem_filter.1 hb
  have hbi : Inside o.fov.lowerLeft o.fov.upperRight b := of_decide_eq_true hbi
  obtain ⟨j, hj⟩ := List.mem_iff_getElem?.1 hbm
  obtain ⟨g1, _, g3⟩ := C140_goals n offset angle hD' hi hj o.fov hv.rect hcor' hin hbi
  have hbe' : valid[idx] = o.fov.floatToMicroscope b := hbe.symm
  rw [hbe'] at hm2
  refine ⟨_, g', b, rfl, rfl, rfl, rfl, rfl, ⟨hbm, o.fov, hv, hcor, hbi, ?_⟩, ?_, ?_, hbi, ?_⟩
  · dsimp only; rw [hbe']
  · rintro rfl
    have : i = j := by
      have hi' := (List.getElem?_eq_some_iff.1 hi)
      have hj' := (List.getElem?_eq_some_iff.1 hj)
      exact (List.Nodup.getElem_inj_iff hnd).1 (hi'.2.trans hj'.2.symm)
    rw [g1 this] at hm2
    cases hm2
  · by_contra hge
    push Not at hge
    rw [g3 hge] at hm2
    cases hm2
  · dsimp only; rw [hbe']

/-- The silicon is at the goal exactly if it is the goal's atom. -/
theorem floatGoal_at {n : ℕ} {offset : V2 ℝ} {angle : ℝ} {sim : Sim ℝ G O P} {sheet : Grid ℝ}
    {o : Observation ℝ Img} (h : Viewing sim sheet o)
    (hD : Displaced (1 / 1000) (layOutSheet n offset angle) sheet.positions) (hnd : sheet.positions.Nodup)
    {goal b si : V2 ℝ} (hg : GoalOn sheet goal b) (hsi : silicons sheet = [si]) (k : DotKind) :
    floatAtGoal k o.fov (o.fov.floatToMicroscope si) goal = true ↔ si = b := by
  obtain ⟨hin, _, _⟩ := h.safe si hsi
  obtain ⟨hbm, f, hf, hfc, hfin, rfl⟩ := hg
  obtain ⟨si2, hsi2, _, hmem⟩ := doped_silicon h.ready.doped
  rw [hsi] at hsi2
  cases hsi2
  obtain ⟨i, hi⟩ := List.mem_iff_getElem?.1 hmem
  obtain ⟨j, hj⟩ := List.mem_iff_getElem?.1 hbm
  rw [C140_ends n offset angle (displaced_mono (by norm_num) hD) hi hj f o.fov hf.rect h.ready.sound.rect
    (corners_mono (by norm_num) hfc) (corners_mono (by norm_num) (sound_corners h.ready)) hin hfin k]
  constructor
  · rintro rfl
    rw [hi] at hj
    exact Option.some.inj hj
  · rintro rfl
    have hi' := (List.getElem?_eq_some_iff.1 hi)
    have hj' := (List.getElem?_eq_some_iff.1 hj)
    exact (List.Nodup.getElem_inj_iff hnd).1 (hi'.2.trans hj'.2.symm)

end PD
