/- C82 and C83: labels and reported accuracy of the segmentation networks. -/
import Verif.Model.Labels
import Verif.Props.Imaging
import Verif.Lemmas.Argmin

set_option linter.unusedSectionVars false
set_option linter.unusedSimpArgs false

namespace PD.Props
open PD PD.Spec
variable {K : Type} [Field K] [LinearOrder K] [IsStrictOrderedRing K]

theorem argmaxIndex_eq_of {l : List K} {i : ℕ} {v : K} (hv : l[i]? = some v) (hmax : ∀ w ∈ l, w ≤ v)
    (hfirst : ∀ j, j < i → ∀ w, l[j]? = some w → w < v) : argmaxIndex l = i := by
  have : argmin? (l.map (fun x => -x)) = some i := by
    apply argmin?_eq_of (v := -v)
    · rw [List.getElem?_map, hv]
      rfl
    · intro w hw
      obtain ⟨x, hx, rfl⟩ := List.mem_map.1 hw
      exact neg_le_neg (hmax x hx)
    · intro j hj w hw
      rw [List.getElem?_map, Option.map_eq_some_iff] at hw
      obtain ⟨x, hx, rfl⟩ := hw
      exact neg_lt_neg (hfirst j hj x hx)
  simp [argmaxIndex, this]

theorem oneHot_getElem? (n : ℕ) (k : ℤ) (j : ℕ) (hj : j < n) :
    (oneHot n k : List K)[j]? = some (if (j : ℤ) = k then 1 else 0) := by
  simp [oneHot, hj]

theorem oneHot_le (n : ℕ) (k : ℤ) (w : K) (h : w ∈ (oneHot n k : List K)) : w ≤ 1 := by
  obtain ⟨j, -, rfl⟩ := List.mem_map.1 h
  split
  · exact le_rfl
  · exact zero_le_one

/-- The first greatest entry of labels in a row is in the first of them. -/
theorem argmax_labels (n k : ℕ) (hk : k < n) (rest : List K) (hrest : ∀ w ∈ rest, w ≤ 1) :
    argmaxIndex ((oneHot n k : List K) ++ rest) = k := by
  have hlen : (oneHot n k : List K).length = n := by simp [oneHot]
  apply argmaxIndex_eq_of (v := 1)
  · rw [List.getElem?_append_left (by omega), oneHot_getElem? n k k hk]
    simp
  · intro w hw
    rcases List.mem_append.1 hw with h | h
    · exact oneHot_le n k w h
    · exact hrest w h
  · intro j hj w hw
    rw [List.getElem?_append_left (by omega), oneHot_getElem? n k j (by omega), Option.some.injEq] at hw
    rw [← hw, if_neg (by omega)]
    exact zero_lt_one

theorem argmax_oneHot (n k : ℕ) (hk : k < n) : argmaxIndex (oneHot n k : List K) = k := by
  have := argmax_labels (K := K) n k hk [] (by simp)
  rwa [List.append_nil] at this

/-! ### C82 -/

theorem meanTrue_eq_one {bs : List Bool} (h : bs ≠ []) : (meanTrue bs : K) = 1 ↔ ∀ b ∈ bs, b = true := by
  have hl : (0 : K) < bs.length := by exact_mod_cast List.length_pos_iff.2 h
  rw [meanTrue, div_eq_one_iff_eq hl.ne', Nat.cast_inj, List.count_eq_length]
  constructor
  · intro h b hb
    exact (h b hb).symm
  · intro h b hb
    exact (h b hb).symm

/-- The atom detector's accuracy is the fraction of pixels whose most likely class is the labelled one, and
it is 1 exactly when that is so for all of them. -/
theorem C82_detection (n : ℕ) (logits : List (List K)) (classes : List ℕ) (hc : ∀ c ∈ classes, c < n)
    (hlen : logits.length = classes.length) (hne : classes ≠ []) :
    let reported : K := detectionAccuracy logits (classes.map (fun (c : ℕ) => oneHot n c))
    reported = ((((logits.map argmaxIndex).zip classes).filter (fun p => decide (p.1 = p.2))).length : K) /
      classes.length ∧
    (reported = 1 ↔ logits.map argmaxIndex = classes) := by
  have key : ∀ (logits : List (List K)) (classes : List ℕ), (∀ c ∈ classes, c < n) →
      List.zipWith (fun l m => decide (argmaxIndex l = argmaxIndex m)) logits
        (classes.map (fun (c : ℕ) => (oneHot n c : List K))) =
      ((logits.map argmaxIndex).zip classes).map (fun p => decide (p.1 = p.2)) := by
    intro logits
    induction logits with
    | nil => intro classes _; simp
    | cons l ls ih =>
      intro classes h
      cases classes with
      | nil => simp
      | cons c cs =>
        simp only [List.map_cons, List.zipWith_cons_cons, List.zip_cons_cons,
          argmax_oneHot n c (h c List.mem_cons_self), ih cs (fun d hd => h d (List.mem_cons_of_mem _ hd))]
  have hzl : ((logits.map argmaxIndex).zip classes).length = classes.length := by simp [hlen]
  intro reported
  have e : reported = meanTrue (((logits.map argmaxIndex).zip classes).map (fun p => decide (p.1 = p.2))) := by
    show detectionAccuracy _ _ = _
    unfold detectionAccuracy
    rw [key logits classes hc]
  constructor
  · rw [e, meanTrue, List.length_map, hzl]
    congr 2
    rw [List.count, List.countP_map, List.countP_eq_length_filter]
    congr 1
    apply List.filter_congr
    intro p _
    simp
  · rw [e, meanTrue_eq_one]
    · have : ∀ (a : List ℕ) (b : List ℕ), a.length = b.length →
          ((∀ x ∈ (a.zip b).map (fun p => decide (p.1 = p.2)), x = true) ↔ a = b) := by
        intro a
        induction a with
        | nil => intro b h; cases b <;> simp at h ⊢
        | cons x xs ih =>
          intro b h
          cases b with
          | nil => simp at h
          | cons y ys =>
            have := ih ys (by simpa using h)
            simp only [List.zip_cons_cons, List.map_cons, List.mem_cons, forall_eq_or_imp,
              decide_eq_true_eq, this, List.cons.injEq]
      exact this _ _ (by simpa using hlen)
    · intro h
      have := congrArg List.length h
      simp only [List.length_map, hzl, List.length_nil] at this
      exact hne (List.length_eq_zero_iff.1 this)

/-- The aligner's accuracy is instead the fraction of pixels whose most likely class is the label of the very
first pixel of the batch. -/
theorem C82_alignment_first_pixel (n : ℕ) (logits : List (List K)) (c : ℕ) (cs : List ℕ) (hc : c < n) :
    (alignmentAccuracy logits ((c :: cs).map (fun (c : ℕ) => oneHot n c)) : K) =
      ((logits.filter (fun l => decide (argmaxIndex l = c))).length : K) / logits.length := by
  have hflat : argmaxIndex (((c :: cs).map (fun (c : ℕ) => (oneHot n c : List K))).flatten) = c := by
    rw [List.map_cons, List.flatten_cons]
    apply argmax_labels n c hc
    intro w hw
    obtain ⟨l, hl, hw⟩ := List.mem_flatten.1 hw
    obtain ⟨d, -, rfl⟩ := List.mem_map.1 hl
    exact oneHot_le n d w hw
  unfold alignmentAccuracy
  rw [hflat, meanTrue, List.length_map]
  congr 2
  rw [List.count, List.countP_map, List.countP_eq_length_filter]
  congr 1
  apply List.filter_congr
  intro p _
  simp

/-- So a network that classifies every pixel correctly gets 1 only when all pixels have the same label, and
one that says the first pixel's label everywhere always gets 1. -/
theorem C82_alignment_wrong (n : ℕ) (logits : List (List K)) (c : ℕ) (cs : List ℕ) (hc : c < n)
    (hlen : logits.length = (c :: cs).length) :
    let reported : K := alignmentAccuracy logits ((c :: cs).map (fun (c : ℕ) => oneHot n c))
    (logits.map argmaxIndex = c :: cs → (reported = 1 ↔ ∀ d ∈ cs, d = c)) ∧
    ((∀ l ∈ logits, argmaxIndex l = c) → reported = 1) := by
  intro reported
  have e : reported = ((logits.filter (fun l => decide (argmaxIndex l = c))).length : K) / logits.length :=
    C82_alignment_first_pixel n logits c cs hc
  have hl : (0 : K) < logits.length := by
    have : 0 < logits.length := by rw [hlen]; simp
    exact_mod_cast this
  have h1 : reported = 1 ↔ ∀ l ∈ logits, argmaxIndex l = c := by
    rw [e, div_eq_one_iff_eq hl.ne', Nat.cast_inj, List.length_filter_eq_length_iff]
    simp
  refine ⟨?_, h1.2⟩
  intro hm
  rw [h1]
  constructor
  · intro h d hd
    have : d ∈ logits.map argmaxIndex := by rw [hm]; exact List.mem_cons_of_mem _ hd
    obtain ⟨l, hl, rfl⟩ := List.mem_map.1 this
    exact h l hl
  · intro h l hl
    have : argmaxIndex l ∈ c :: cs := by rw [← hm]; exact List.mem_map_of_mem hl
    rcases List.mem_cons.1 this with h' | h'
    · exact h'
    · exact h _ h'

/-- For batches with one label only, the aligner's accuracy is the fraction of pixels classified correctly.
Missing for C82: batches with several classes (`C82_alignment_wrong`). -/
theorem C82_alignment_partial (n : ℕ) (logits : List (List K)) (c : ℕ) (k : ℕ) (hc : c < n)
    (hlen : logits.length = k + 1) :
    (alignmentAccuracy logits ((List.replicate (k + 1) c).map (fun (c : ℕ) => oneHot n c)) : K) =
      detectionAccuracy logits ((List.replicate (k + 1) c).map (fun (c : ℕ) => oneHot n c)) := by
  have h1 := C82_alignment_first_pixel n logits c (List.replicate k c) hc
  rw [← List.replicate_succ] at h1
  have h2 := (C82_detection n logits (List.replicate (k + 1) c) (fun d hd => by
    rw [List.eq_of_mem_replicate hd]; exact hc) (by simpa using hlen) (by simp)).1
  rw [h1, h2, List.length_replicate, hlen]
  congr 2
  have : ∀ (ls : List (List K)) (m : ℕ), ls.length = m →
      (ls.filter (fun l => decide (argmaxIndex l = c))).length =
      (((ls.map argmaxIndex).zip (List.replicate m c)).filter (fun p => decide (p.1 = p.2))).length := by
    intro ls
    induction ls with
    | nil => intro m h; simp
    | cons l ls ih =>
      intro m h
      cases m with
      | zero => simp at h
      | succ m =>
        have := ih m (by simpa using h)
        simp only [List.map_cons, List.replicate_succ, List.zip_cons_cons, List.filter_cons]
        by_cases hlc : argmaxIndex l = c
        · simp [hlc, this]
        · simp [hlc, this]
  exact this logits (k + 1) hlen

/-- A batch of background, carbon and background, classified correctly: reported as 1 and as 2/3. -/
example : (detectionAccuracy [[1, 0, 0], [0, 1, 0], [1, 0, 0]] ([0, 1, 0].map (fun (c : ℕ) => oneHot 3 (c : ℤ))) : ℚ) = 1 ∧
    (alignmentAccuracy [[1, 0, 0], [0, 1, 0], [1, 0, 0]] ([0, 1, 0].map (fun (c : ℕ) => oneHot 3 (c : ℤ))) : ℚ) = 2 / 3 := by
  decide +kernel

/-! ### C83 -/

theorem label_of (Z : ℤ) :
    (Z = 0 → (oneHot 3 (remapClass Z) : List K) = [1, 0, 0]) ∧
    (Z = 6 → (oneHot 3 (remapClass Z) : List K) = [0, 1, 0]) ∧
    (Z = 14 → (oneHot 3 (remapClass Z) : List K) = [0, 0, 1]) := by
  refine ⟨?_, ?_, ?_⟩ <;> rintro rfl <;> simp [remapClass, oneHot, List.range_succ]

theorem pixel_labels (mask : List (List ℤ)) (r c : ℕ) :
    pixel (segmentationLabels mask : List (List (List K))) r c =
      (pixel mask r c).map (fun m => oneHot 3 (remapClass m)) := by
  simp only [pixel, segmentationLabels, List.getElem?_map]
  cases mask[r]? with
  | none => rfl
  | some row => simp

/-- The labels of the mask of carbons and silicons: background where nothing was painted, otherwise the kind
of the atom painted last; and a detector that is given the labels themselves reads these classes. -/
theorem C83_labels (power : K → K) (grid : Grid K) (fov : Fov K) (n : ℕ)
    (hZ : ∀ Z ∈ grid.numbers, Z = 6 ∨ Z = 14) :
    ∃ mask, generateGridMask power grid fov n n = .ok mask ∧
      ∀ r c, r < n → c < n →
        ((∀ a ∈ grid.positions.zip grid.numbers,
            ¬ DiscContains power fov a (fov.toMaterial (pixelCentre n n r c))) →
          pixel (segmentationLabels mask : List (List (List K))) r c = some [1, 0, 0] ∧
          (pixel (segmentationLabels mask : List (List (List K))) r c).map argmaxIndex = some 0) ∧
        (∀ pre a post, grid.positions.zip grid.numbers = pre ++ a :: post →
          DiscContains power fov a (fov.toMaterial (pixelCentre n n r c)) →
          (∀ b ∈ post, ¬ DiscContains power fov b (fov.toMaterial (pixelCentre n n r c))) →
          (a.2 = 6 → pixel (segmentationLabels mask : List (List (List K))) r c = some [0, 1, 0] ∧
            (pixel (segmentationLabels mask : List (List (List K))) r c).map argmaxIndex = some 1) ∧
          (a.2 = 14 → pixel (segmentationLabels mask : List (List (List K))) r c = some [0, 0, 1] ∧
            (pixel (segmentationLabels mask : List (List (List K))) r c).map argmaxIndex = some 2)) := by
  obtain ⟨mask, hm, -, hpix⟩ := C63_mask_partial power grid fov n (fun Z h => by
    rcases hZ Z h with rfl | rfl <;> norm_num)
  have a0 : argmaxIndex ([1, 0, 0] : List K) = 0 := by
    have := argmax_oneHot (K := K) 3 0 (by norm_num)
    simpa [oneHot, List.range_succ] using this
  have a1 : argmaxIndex ([0, 1, 0] : List K) = 1 := by
    have := argmax_oneHot (K := K) 3 1 (by norm_num)
    simpa [oneHot, List.range_succ] using this
  have a2 : argmaxIndex ([0, 0, 1] : List K) = 2 := by
    have := argmax_oneHot (K := K) 3 2 (by norm_num)
    simpa [oneHot, List.range_succ] using this
  refine ⟨mask, hm, fun r c hr hc => ⟨?_, ?_⟩⟩
  · intro h
    rw [pixel_labels, (hpix r c hr hc).1 h, Option.map_some, (label_of 0).1 rfl, Option.map_some, a0]
    exact ⟨rfl, rfl⟩
  · intro pre a post hs hin hpost
    rw [pixel_labels, (hpix r c hr hc).2 pre a post hs hin hpost, Option.map_some]
    constructor
    · intro h
      rw [(label_of a.2).2.1 h, Option.map_some, a1]
      exact ⟨rfl, rfl⟩
    · intro h
      rw [(label_of a.2).2.2 h, Option.map_some, a2]
      exact ⟨rfl, rfl⟩

/-- Every label of such a mask is one-hot. -/
theorem C83_one_hot (mask : List (List ℤ)) (hm : ∀ row ∈ mask, ∀ m ∈ row, m = 0 ∨ m = 6 ∨ m = 14)
    (r c : ℕ) (l : List K) (h : pixel (segmentationLabels mask) r c = some l) :
    l.length = 3 ∧ l.count 1 = 1 ∧ l.count 0 = 2 := by
  rw [pixel_labels, Option.map_eq_some_iff] at h
  obtain ⟨m, hp, rfl⟩ := h
  have : m = 0 ∨ m = 6 ∨ m = 14 := by
    unfold pixel at hp
    cases hr : mask[r]? with
    | none => rw [hr] at hp; simp at hp
    | some row =>
      rw [hr] at hp
      exact hm row (List.mem_of_getElem? hr) m (List.mem_of_getElem? hp)
  have h01 : (0 : K) ≠ 1 := zero_ne_one
  rcases this with h | h | h
  · rw [(label_of m).1 h]
    simp [List.count_cons, h01, h01.symm]
  · rw [(label_of m).2.1 h]
    simp [List.count_cons, h01, h01.symm]
  · rw [(label_of m).2.2 h]
    simp [List.count_cons, h01, h01.symm]

/-- Other elements: hydrogen and helium are labelled as carbon and silicon, and everything else has a label
without any class. -/
theorem C83_other_elements (Z : ℤ) (h6 : Z ≠ 6) (h14 : Z ≠ 14) :
    (Z = 1 → (oneHot 3 (remapClass Z) : List K) = [0, 1, 0]) ∧
    (Z = 2 → (oneHot 3 (remapClass Z) : List K) = [0, 0, 1]) ∧
    (3 ≤ Z → (oneHot 3 (remapClass Z) : List K) = [0, 0, 0]) := by
  refine ⟨?_, ?_, ?_⟩
  · rintro rfl
    simp [remapClass, oneHot, List.range_succ]
  · rintro rfl
    simp [remapClass, oneHot, List.range_succ]
  · intro h
    have e : remapClass Z = Z := by simp [remapClass, h6, h14]
    rw [e]
    simp [oneHot, List.range_succ]
    refine ⟨by omega, by omega, by omega⟩

/-- The hypothesis of `C83_labels`. -/
example : ∀ Z ∈ (⟨[⟨1 / 2, 1 / 2⟩, ⟨1 / 4, 1 / 4⟩], [14, 6]⟩ : Grid ℚ).numbers, Z = 6 ∨ Z = 14 := by decide

end PD.Props
