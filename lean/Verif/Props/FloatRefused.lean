/- Property C150: what the features in floating point refuse. -/
import Verif.Lemmas.FloatGreedy

set_option linter.unusedSectionVars false
set_option linter.unusedSimpArgs false

namespace PD.Props
open PD PD.Spec
variable {Img G : Type}

/-- C150.  The features in the material frame refuse another kind of goal, and an image without silicon; and they are made
only of images with exactly one silicon. -/
theorem C150_refused (knn : FloatKnn) (o : Observation ℝ Img) (hw : o.grid.WF) :
    floatMaterialFeatures knn o .other = .error .valueError ∧
    ∀ goal : GoalState ℝ,
      (silicons o.grid = [] → floatMaterialFeatures knn o (.singleSilicon goal) = .error .siliconNotFound) ∧
      ∀ obs, floatMaterialFeatures knn o (.singleSilicon goal) = .ok obs → ∃ x, silicons o.grid = [x] := by
  have hsil := getSiliconPositions_eq_silicons hw
  refine ⟨rfl, fun goal => ⟨fun h => ?_, fun obs h => ?_⟩⟩
  · have hmap : getSiliconPositions (o.fov.floatGridToMaterial o.grid) = (getSiliconPositions o.grid).map o.fov.floatToMaterial := by
      have hw' : (o.fov.floatGridToMaterial o.grid).WF := by
        unfold Grid.WF Fov.floatGridToMaterial at *
        simpa using hw
      rw [getSiliconPositions_eq_silicons hw', hsil]
      unfold silicons atoms Fov.floatGridToMaterial
      simp only [List.zip_map_left, List.filter_map, List.map_map]
      rfl
    rw [hsil, h, List.map_nil] at hmap
    simp [floatMaterialFeatures, getSingleSiliconPosition, hmap]
  · simp only [floatMaterialFeatures] at h
    split at h
    · cases h
    · split at h
      · cases h
      · split at h
        · cases h
        · split at h
          · cases h
          · rename_i d hd
            unfold floatGoalDelta at hd
            rw [hsil] at hd
            split at hd
            · exact ⟨_, by assumption⟩
            · cases hd

/-- C150.  The features are float32 numbers. -/
theorem C150_single (knn : FloatKnn) (o : Observation ℝ Img) (goal : AnyGoal ℝ) (obs : List ℝ)
    (h : floatMaterialFeatures knn o goal = .ok obs) : ∀ x ∈ obs, f32 x = x := by
  cases goal with
  | other => cases h
  | singleSilicon goal =>
    simp only [floatMaterialFeatures] at h
    split at h
    · cases h
    · split at h
      · cases h
      · split at h
        · cases h
        · split at h
          · cases h
          · cases h
            intro x hx
            obtain ⟨y, _, rfl⟩ := List.mem_map.1 hx
            exact f32_idem y

/-- C150.  The agent refuses observations that do not have ten numbers, before anything is drawn. -/
theorem C150_length (T : SingleLib) (k : DotKind) (normal : ℝ → G → V2 ℝ × G) (a : Greedy) (obs : List ℝ) (g : G)
    (h : obs.length ≠ 10) : a.floatStep T k normal obs g = .error .assertionError g := by
  simp [Greedy.floatStep, h]

/-- An observation of the wrong length. -/
example (T : SingleLib) : (⟨⟨142 / 100, 0⟩, ⟨0, 0⟩, 0⟩ : Greedy).floatStep T .plain (fun _ g => (⟨0, 0⟩, g))
    [0, 0, 1, 0, 0, 1, -1, 0, 5, 5, 7] () = .error .assertionError () :=
  C150_length T _ _ _ _ _ (by simp)

/-- An image without silicon, and one with two, of which no features are made. -/
example (knn : FloatKnn) (goal : GoalState ℝ) :
    floatMaterialFeatures (Img := Unit) knn ⟨⟨[⟨0, 0⟩], [6]⟩, ⟨⟨0, 0⟩, ⟨20, 20⟩⟩, [], 0, none, none⟩ (.singleSilicon goal) =
      .error .siliconNotFound ∧
    ∀ obs, floatMaterialFeatures (Img := Unit) knn ⟨⟨[⟨0, 0⟩, ⟨1, 1⟩], [14, 14]⟩, ⟨⟨0, 0⟩, ⟨20, 20⟩⟩, [], 0, none, none⟩
      (.singleSilicon goal) ≠ .ok obs := by
  constructor
  · exact ((C150_refused knn _ (by simp [Grid.WF])).2 goal).1 (by simp [silicons, atoms, SILICON])
  · intro obs h
    obtain ⟨x, hx⟩ := ((C150_refused knn _ (by simp [Grid.WF])).2 goal).2 obs h
    simp [silicons, atoms, SILICON] at hx

end PD.Props
