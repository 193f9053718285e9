/- Properties C27 and C28: features. -/
import Verif.Model.Features
import Verif.Lemmas.Goal
import Verif.Lemmas.Witness

set_option linter.unusedSectionVars false
set_option linter.unusedSimpArgs false

namespace PD.Props
open PD PD.Spec
variable {K G Img : Type} [Field K] [LinearOrder K] [IsStrictOrderedRing K]

/-! ### C27 features describe silicon, neighbours and goal -/

theorem exists_silicon_index {g : Grid K} {si : V2 K} (h : si ∈ silicons g) :
    ∃ i : ℕ, g.positions[i]? = some si ∧ g.numbers[i]? = some SILICON := by
  unfold silicons at h
  obtain ⟨⟨p, n⟩, hm, rfl⟩ := List.mem_map.1 h
  obtain ⟨hm, hn⟩ := List.mem_filter.1 hm
  obtain ⟨i, hi⟩ := List.getElem?_of_mem hm
  unfold atoms at hi
  rw [List.getElem?_zip_eq_some] at hi
  simp only [decide_eq_true_eq] at hn
  exact ⟨i, hi.1, by rw [hi.2, hn]⟩

/-- The positions of the three nearest atoms found around an atom of a sheet of distinct atoms. -/
theorem threeNeighbours_spec (knn : Knn K) {ps : List (V2 K)} (hnd : ps.Nodup) (h4 : 4 ≤ ps.length)
    {i : ℕ} {si : V2 K} (hi : ps[i]? = some si) :
    ∃ (a b c : ℕ) (pa pb pc : V2 K), [a, b, c].Nodup ∧
      AmongThreeNearest ps i a ∧ AmongThreeNearest ps i b ∧ AmongThreeNearest ps i c ∧
      ps[a]? = some pa ∧ ps[b]? = some pb ∧ ps[c]? = some pc ∧
      threeNeighbours knn ps si = .ok [pa, pb, pc] := by
  have hk := knn.spec ps si 4 h4
  have hmem := fun j hj => hk.amongThreeNearest hnd hi (j := j) hj
  have hdl : ((knn.query ps si 4).drop 1).length = 3 := by simp [hk.length]
  have hlt : ∀ j ∈ (knn.query ps si 4).drop 1, j < ps.length := fun j hj =>
    hk.lt j (List.mem_of_mem_drop hj)
  have hdn : ((knn.query ps si 4).drop 1).Nodup := hk.nodup.sublist (List.drop_sublist _ _)
  have htn : threeNeighbours knn ps si =
      .ok (((knn.query ps si 4).drop 1).filterMap (fun i => ps[i]?)) := by
    simp [threeNeighbours, Knn.kneighbors, h4]
  rw [htn]
  generalize (knn.query ps si 4).drop 1 = r at hmem hdl hlt hdn
  match r, hdl with
  | [a, b, c], _ =>
    have ha := List.getElem?_eq_getElem (hlt a (by simp))
    have hb := List.getElem?_eq_getElem (hlt b (by simp))
    have hc := List.getElem?_eq_getElem (hlt c (by simp))
    refine ⟨a, b, c, _, _, _, hdn, hmem a (by simp), hmem b (by simp), hmem c (by simp),
      ha, hb, hc, ?_⟩
    simp [List.filterMap_cons, ha, hb, hc]

theorem siliconGoalDelta_eq {o : Observation K Img} (hwf : o.grid.WF) {si : V2 K}
    (hsi : silicons o.grid = [si]) (goal : GoalState K) :
    siliconGoalDelta o.grid o.fov goal = .ok (goal.goal - place o si) := by
  simp [siliconGoalDelta, getSiliconPositions_eq_silicons hwf, hsi, toMaterial_place]

/-- Unit vector from `p` to `q`. -/
def UnitTowards (p q u : V2 ℝ) : Prop :=
  V2.normSq u = 1 ∧ ∃ t : ℝ, 0 < t ∧ q - p = V2.smul t u

theorem unitTowards_div {p q : V2 ℝ} (h : p ≠ q) :
    UnitTowards p q ⟨(q - p).x / Real.sqrt (V2.distSq p q), (q - p).y / Real.sqrt (V2.distSq p q)⟩ := by
  have hpos : 0 < V2.distSq p q := lt_of_le_of_ne (V2.distSq_nonneg _ _)
    (fun h' => h (V2.distSq_eq_zero.1 h'.symm))
  have hs := Real.sqrt_pos.2 hpos
  have hsq := Real.mul_self_sqrt hpos.le
  refine ⟨?_, Real.sqrt (V2.distSq p q), hs, ?_⟩
  · have hd : V2.distSq p q = (q - p).x * (q - p).x + (q - p).y * (q - p).y := by
      simp [V2.distSq, V2.normSq]; ring
    unfold V2.normSq
    simp only
    rw [div_mul_div_comm, div_mul_div_comm, hsq, ← add_div, ← hd, div_self hpos.ne']
  · ext <;> simp <;> field_simp

/-- The microscope-frame features: silicon position, unit vectors towards the three nearest atoms,
goal minus silicon in the material. -/
theorem C27_pristine_features (knn : Knn ℝ) (o : Observation ℝ Img) (hwf : o.grid.WF)
    (si : V2 ℝ) (hsi : silicons o.grid = [si]) (h4 : 4 ≤ o.grid.positions.length)
    (hnd : o.grid.positions.Nodup) (goal : GoalState ℝ) :
    ∃ (i a b c : ℕ) (pa pb pc ua ub uc : V2 ℝ),
      o.grid.positions[i]? = some si ∧ o.grid.numbers[i]? = some SILICON ∧ [a, b, c].Nodup ∧
      AmongThreeNearest o.grid.positions i a ∧ AmongThreeNearest o.grid.positions i b ∧
      AmongThreeNearest o.grid.positions i c ∧
      o.grid.positions[a]? = some pa ∧ o.grid.positions[b]? = some pb ∧
      o.grid.positions[c]? = some pc ∧
      UnitTowards si pa ua ∧ UnitTowards si pb ub ∧ UnitTowards si pc uc ∧
      pristineFeatures knn o (.singleSilicon goal) =
        .ok [si.x, si.y, ua.x, ua.y, ub.x, ub.y, uc.x, uc.y,
          goal.currentGoal.x - (place o si).x, goal.currentGoal.y - (place o si).y] := by
  obtain ⟨i, hi, hn⟩ := exists_silicon_index (g := o.grid) (si := si) (by simp [hsi])
  obtain ⟨a, b, c, pa, pb, pc, habc, ta, tb, tc, ha, hb, hc, h3⟩ :=
    threeNeighbours_spec knn hnd h4 hi
  have hne : ∀ j pj, AmongThreeNearest o.grid.positions i j → o.grid.positions[j]? = some pj →
      si ≠ pj := by
    rintro j pj ⟨hij, _⟩ hj rfl
    exact hij ((List.getElem?_inj (List.getElem?_eq_some_iff.1 hi).1 hnd).1 (by rw [hi, hj]))
  have hs1 := (getSingle_iff hwf si).2 (centralSilicon_singleton hsi)
  refine ⟨i, a, b, c, pa, pb, pc, _, _, _, hi, hn, habc, ta, tb, tc, ha, hb, hc,
    unitTowards_div (hne a pa ta ha), unitTowards_div (hne b pb tb hb),
    unitTowards_div (hne c pc tc hc), ?_⟩
  simp [pristineFeatures, hs1, h3, siliconGoalDelta_eq hwf hsi, flatten2, GoalState.currentGoal]

theorem silicons_place (o : Observation K Img) :
    silicons (o.fov.gridToMaterial o.grid) = (silicons o.grid).map (place o) := by
  rw [silicons_gridToMaterial]
  congr 1
  funext p
  exact toMaterial_place o p

theorem nodup_material {o : Observation K Img} (hw : o.fov.width ≠ 0) (hh : o.fov.height ≠ 0)
    (hnd : o.grid.positions.Nodup) : (o.fov.gridToMaterial o.grid).positions.Nodup := by
  refine List.Nodup.map ?_ hnd
  intro a b hab
  have := congrArg o.fov.toMicroscope hab
  rwa [toMicroscope_toMaterial hw hh, toMicroscope_toMaterial hw hh] at this

/-- The material-frame features: everything in Å in the material: silicon position, offsets of the
three atoms nearest to it, goal minus silicon. -/
theorem C27_material_features (knn : Knn K) (o : Observation K Img) (hwf : o.grid.WF)
    (hw : o.fov.width ≠ 0) (hh : o.fov.height ≠ 0)
    (si : V2 K) (hsi : silicons o.grid = [si]) (h4 : 4 ≤ o.grid.positions.length)
    (hnd : o.grid.positions.Nodup) (goal : GoalState K) :
    ∃ (i a b c : ℕ) (pa pb pc : V2 K),
      o.grid.positions[i]? = some si ∧ o.grid.numbers[i]? = some SILICON ∧ [a, b, c].Nodup ∧
      AmongThreeNearest (o.grid.positions.map (place o)) i a ∧
      AmongThreeNearest (o.grid.positions.map (place o)) i b ∧
      AmongThreeNearest (o.grid.positions.map (place o)) i c ∧
      (o.grid.positions.map (place o))[a]? = some pa ∧
      (o.grid.positions.map (place o))[b]? = some pb ∧
      (o.grid.positions.map (place o))[c]? = some pc ∧
      materialFeatures knn o (.singleSilicon goal) =
        .ok [(place o si).x, (place o si).y,
          pa.x - (place o si).x, pa.y - (place o si).y, pb.x - (place o si).x,
          pb.y - (place o si).y, pc.x - (place o si).x, pc.y - (place o si).y,
          goal.currentGoal.x - (place o si).x, goal.currentGoal.y - (place o si).y] := by
  have hpos : (o.fov.gridToMaterial o.grid).positions = o.grid.positions.map (place o) := by
    simp only [Fov.gridToMaterial]
    exact List.map_congr_left (fun p _ => toMaterial_place o p)
  have hwf' : (o.fov.gridToMaterial o.grid).WF := by
    simpa [Grid.WF, Fov.gridToMaterial] using hwf
  have hsi' : silicons (o.fov.gridToMaterial o.grid) = [place o si] := by
    rw [silicons_place, hsi]; rfl
  obtain ⟨i, hi, hn⟩ := exists_silicon_index (g := o.grid) (si := si) (by simp [hsi])
  have hi' : (o.fov.gridToMaterial o.grid).positions[i]? = some (place o si) := by
    rw [hpos, List.getElem?_map, hi]; rfl
  obtain ⟨a, b, c, pa, pb, pc, habc, ta, tb, tc, ha, hb, hc, h3⟩ :=
    threeNeighbours_spec knn (nodup_material hw hh hnd)
      (by rw [hpos, List.length_map]; exact h4) hi'
  have hs1 := (getSingle_iff hwf' (place o si)).2 (centralSilicon_singleton hsi')
  rw [hpos] at ta tb tc ha hb hc
  refine ⟨i, a, b, c, pa, pb, pc, hi, hn, habc, ta, tb, tc, ha, hb, hc, ?_⟩
  simp [materialFeatures, hs1, h3, siliconGoalDelta_eq hwf hsi, flatten2, GoalState.currentGoal]

/-- The goal part of the features is the vector whose length the goal compares with its radius:
the observation counts as being at the goal iff that vector is shorter than 0.71 Å. -/
theorem C27_goal_part_matches_reward (o : Observation K Img) (hwf : o.grid.WF)
    (si : V2 K) (hsi : silicons o.grid = [si]) (goal : GoalState K) :
    ∃ d, siliconGoalDelta o.grid o.fov goal = .ok d ∧ d = goal.currentGoal - place o si ∧
      ∀ r s', GoalState.calculate o goal = .ok r s' →
        (s'.consecutive ≠ 0 ↔ V2.normSq d < (71 / 100 : K) ^ 2) := by
  refine ⟨_, siliconGoalDelta_eq hwf hsi goal, rfl, ?_⟩
  intro r s' h
  obtain ⟨n, hc, h1, h2⟩ := calculate_ok o goal hwf (by simp [ShowsSilicon, hsi])
  rw [hc] at h
  simp only [EStateM.Result.ok.injEq] at h
  obtain ⟨_, rfl⟩ := h
  have hat : AtGoal goal.goal o ↔ V2.normSq (goal.goal - place o si) < (71 / 100 : K) ^ 2 := by
    have hcomm : V2.distSq (place o si) goal.goal = V2.normSq (goal.goal - place o si) := by
      rw [V2.distSq_comm]; rfl
    constructor
    · rintro ⟨s, hs, hd⟩
      rw [centralSilicon_unique hs (centralSilicon_singleton hsi)] at hd
      rwa [hcomm] at hd
    · intro hd
      exact ⟨si, centralSilicon_singleton hsi, by rwa [hcomm]⟩
  rw [← hat]
  constructor
  · intro hn
    by_contra hc
    exact hn (h2 hc)
  · intro hg
    simp [h1 hg]

/-- The image constructor: the resized image and the same goal vector; it needs an image. -/
theorem C27_image_features (resize : Img → Img) (o : Observation K Img) (hwf : o.grid.WF)
    (si : V2 K) (hsi : silicons o.grid = [si]) (goal : GoalState K) :
    (∀ img, o.image = some img → imageFeatures resize o (.singleSilicon goal) =
      .ok (resize img, goal.currentGoal - place o si)) ∧
    (o.image = none → imageFeatures resize o (.singleSilicon goal) = .error .runtimeError) := by
  constructor
  · intro img h
    simp [imageFeatures, h, siliconGoalDelta_eq hwf hsi, GoalState.currentGoal]
  · intro h
    simp [imageFeatures, h]

namespace FeatureExample

/-- Silicon in the middle of a 20 Å view with four atoms around it. -/
def view : Observation ℚ Unit :=
  ⟨⟨[⟨1/2, 1/2⟩, ⟨6/10, 1/2⟩, ⟨1/2, 6/10⟩, ⟨4/10, 1/2⟩, ⟨1/2, 3/10⟩], [14, 6, 6, 6, 6]⟩,
    ⟨⟨-10, -10⟩, ⟨10, 10⟩⟩, [], 2000000, none, none⟩

example : view.grid.WF ∧ silicons view.grid = [⟨1/2, 1/2⟩] ∧ 4 ≤ view.grid.positions.length ∧
    view.grid.positions.Nodup ∧ view.fov.width ≠ 0 ∧ view.fov.height ≠ 0 ∧
    materialFeatures Witness.knn view (.singleSilicon { GoalState.fresh with goal := ⟨3, 1⟩ }) =
      .ok [0, 0, 2, 0, 0, 2, -2, 0, 3, 1] := by
  refine ⟨by decide, by decide +kernel, by decide, by decide +kernel, by decide +kernel, by decide +kernel,
    by decide +kernel⟩

/-- The same over the reals, for the microscope-frame features. -/
example : ∃ o : Observation ℝ Unit, o.grid.WF ∧ silicons o.grid = [⟨1/2, 1/2⟩] ∧
    4 ≤ o.grid.positions.length ∧ o.grid.positions.Nodup := by
  refine ⟨⟨⟨[⟨1/2, 1/2⟩, ⟨6/10, 1/2⟩, ⟨1/2, 6/10⟩, ⟨4/10, 1/2⟩], [14, 6, 6, 6]⟩,
    ⟨⟨-10, -10⟩, ⟨10, 10⟩⟩, [], 2000000, none, none⟩, by simp [Grid.WF], ?_, by simp, ?_⟩
  · simp [silicons, atoms, SILICON]
  · norm_num

end FeatureExample

/-! ### C28 several silicons -/

/-- C28 fails: with two or more silicons in view every feature constructor raises `ValueError`
(they all compute the goal vector with `reshape(2)`). -/
theorem C28_features_fail (o : Observation K Img) (hwf : o.grid.WF)
    (h2 : 2 ≤ (silicons o.grid).length) (goal : GoalState K) :
    (∀ knn, materialFeatures knn o (.singleSilicon goal) = .error .valueError) ∧
    (∀ (resize : Img → Img) img, o.image = some img →
      imageFeatures resize o (.singleSilicon goal) = .error .valueError) := by
  have hd : siliconGoalDelta o.grid o.fov goal = .error .valueError := by
    unfold siliconGoalDelta
    rw [getSiliconPositions_eq_silicons hwf]
    match silicons o.grid, h2 with
    | _ :: _ :: _, _ => rfl
  constructor
  · intro knn
    have hwf' : (o.fov.gridToMaterial o.grid).WF := by
      simpa [Grid.WF, Fov.gridToMaterial] using hwf
    have hs : silicons (o.fov.gridToMaterial o.grid) ≠ [] := by
      rw [silicons_place]; intro h
      have := List.map_eq_nil_iff.1 h
      simp [this] at h2
    obtain ⟨si, h1, _⟩ := getSingle_some hwf' hs
    simp only [materialFeatures, h1, threeNeighbours, Knn.kneighbors]
    split_ifs with h4
    · simp [hd]
    · rfl
  · intro resize img hi
    simp [imageFeatures, hi, hd]

/-- The same for the microscope-frame constructor. -/
theorem C28_pristine_features_fail (knn : Knn ℝ) (o : Observation ℝ Img) (hwf : o.grid.WF)
    (h2 : 2 ≤ (silicons o.grid).length) (goal : GoalState ℝ) :
    pristineFeatures knn o (.singleSilicon goal) = .error .valueError := by
  have hd : siliconGoalDelta o.grid o.fov goal = .error .valueError := by
    unfold siliconGoalDelta
    rw [getSiliconPositions_eq_silicons hwf]
    match silicons o.grid, h2 with
    | _ :: _ :: _, _ => rfl
  obtain ⟨si, h1, _⟩ := getSingle_some hwf (by intro h; simp [h] at h2 : silicons o.grid ≠ [])
  simp only [pristineFeatures, h1, threeNeighbours, Knn.kneighbors]
  split_ifs with h4
  · simp [hd]
  · rfl

/-- What holds of C28: the reward never fails and uses the silicon nearest the image centre. -/
theorem C28_reward_uses_central_silicon_partial (o : Observation K Img) (hwf : o.grid.WF)
    (h2 : 2 ≤ (silicons o.grid).length) (goal : GoalState K) :
    ∃ si r s', CentralSilicon o.grid si ∧ GoalState.calculate o goal = .ok r s' ∧
      (s'.consecutive ≠ 0 ↔ V2.distSq (place o si) goal.currentGoal < (71 / 100 : K) ^ 2) := by
  have hs : silicons o.grid ≠ [] := by intro h; simp [h] at h2
  obtain ⟨si, _, hc⟩ := getSingle_some hwf hs
  obtain ⟨n, hcalc, h1, h0⟩ := calculate_ok o goal hwf hs
  refine ⟨si, _, _, hc, hcalc, ?_⟩
  have hat : AtGoal goal.goal o ↔ V2.distSq (place o si) goal.goal < (71 / 100 : K) ^ 2 := by
    constructor
    · rintro ⟨s, hs, hd⟩
      rwa [centralSilicon_unique hs hc] at hd
    · intro hd; exact ⟨si, hc, hd⟩
  show n ≠ 0 ↔ V2.distSq (place o si) goal.goal < _
  rw [← hat]
  constructor
  · intro hn; by_contra h; exact hn (h0 h)
  · intro h; simp [h1 h]

namespace FeatureExample

/-- Two silicons, one in the middle of the image, the other at material position (0.5, 0.5) Å,
which the material-frame constructor takes for the central one. -/
def twoSilicons : Observation ℚ Unit :=
  ⟨⟨[⟨1/2, 1/2⟩, ⟨1/20, 1/20⟩, ⟨1/2, 6/10⟩, ⟨4/10, 1/2⟩, ⟨1/2, 3/10⟩], [14, 14, 6, 6, 6]⟩,
    ⟨⟨0, 0⟩, ⟨10, 10⟩⟩, [], 2000000, none, none⟩

example : twoSilicons.grid.WF ∧ 2 ≤ (silicons twoSilicons.grid).length := by
  refine ⟨by decide, by decide +kernel⟩

end FeatureExample

/-- The two constructors do not even select the same silicon: the material-frame one looks for the
silicon nearest (0.5, 0.5) in the material, not nearest the image centre. -/
theorem C28_selection_differs : ∃ (o : Observation ℚ Unit) (si si' : V2 ℚ), o.grid.WF ∧
    getSingleSiliconPosition o.grid = .ok si ∧
    getSingleSiliconPosition (o.fov.gridToMaterial o.grid) = .ok si' ∧ si' ≠ place o si := by
  refine ⟨FeatureExample.twoSilicons, ⟨1/2, 1/2⟩, ⟨1/2, 1/2⟩, by decide, by decide +kernel,
    by decide +kernel, ?_⟩
  have : place FeatureExample.twoSilicons ⟨1/2, 1/2⟩ = ⟨5, 5⟩ := by decide +kernel
  rw [this]
  decide +kernel

end PD.Props
