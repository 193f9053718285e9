/- C115: the picture of learned rates shows the predictor's rates. -/
import Verif.Model.RatePicture
import Verif.Props.RatePlots
import Verif.Props.GreedyAgent
import Verif.Props.Learners

set_option linter.unusedSectionVars false
set_option linter.unusedSimpArgs false

namespace PD.Spec
open PD
variable {K : Type} [Field K] [LinearOrder K]

/-- The predicted rate towards neighbour `i` with the beam at `p`, in the given context. -/
def rateAt (f : List K → List K) (fixed : Option (List K)) (i : ℕ) (p : V2 K) : K :=
  (f (fixed.getD [] ++ [p.x, p.y])).getD i 0

/-- Point `j` of row `k` of a grid with `m` points a side, from `-range` to `range` both ways. -/
def gridPoint (range : K) (m j k : ℕ) : V2 K :=
  ⟨-range + j * (2 * range / ((m : K) - 1)), -range + k * (2 * range / ((m : K) - 1))⟩

end PD.Spec

namespace PD.Props
open PD PD.Spec
variable {K : Type} [Field K] [LinearOrder K] [IsStrictOrderedRing K]

theorem pictureGrid_length (range : K) (m : ℕ) : (pictureGrid range m).length = m * m := by
  simp [pictureGrid, List.length_flatMap, linspace, Function.comp_def]

theorem flatMap_get {α β : Type} (f : α → List β) (m : ℕ) (l : List α) (h : ∀ a ∈ l, (f a).length = m)
    {k j : ℕ} {a : α} (hk : l[k]? = some a) (hj : j < m) : (l.flatMap f)[k * m + j]? = (f a)[j]? := by
  induction l generalizing k with
  | nil => cases hk
  | cons b l ih =>
    rw [List.flatMap_cons]
    have hb := h b (by simp)
    cases k with
    | zero =>
      cases hk
      rw [Nat.zero_mul, Nat.zero_add, List.getElem?_append_left (by omega)]
    | succ k =>
      rw [List.getElem?_append_right (by rw [hb, Nat.succ_mul]; omega), hb, Nat.succ_mul,
        show k * m + m + j - m = k * m + j by omega]
      exact ih (fun a ha => h a (List.mem_cons_of_mem _ ha)) hk

theorem pictureGrid_get (range : K) {m j k : ℕ} (hm : 2 ≤ m) (hj : j < m) (hk : k < m) :
    (pictureGrid range m)[k * m + j]? = some (gridPoint range m j k) := by
  have hl : ∀ i < m, (linspace (-range) range m)[i]? = some (-range + i * (2 * range / ((m : K) - 1))) := by
    intro i hi
    have h1 : m ≠ 1 := by omega
    simp only [linspace, List.getElem?_map, List.getElem?_range hi, Option.map_some, if_neg h1]
    congr 2
    ring
  rw [pictureGrid, flatMap_get _ m _ (fun a _ => by simp [linspace]) (hl k hk) hj, List.getElem?_map, hl j hj]
  rfl

/-- Three entries for each of the points. -/
theorem flatten_three {α : Type} {rows : List (List α)} (h : ∀ r ∈ rows, r.length = 3) :
    rows.flatten.length = 3 * rows.length ∧
    ∀ (k i : ℕ) (r : List α), rows[k]? = some r → i < 3 → rows.flatten[3 * k + i]? = r[i]? := by
  constructor
  · induction rows with
    | nil => rfl
    | cons r rows ih =>
      rw [List.flatten_cons, List.length_append, h r (by simp), ih (fun s hs => h s (List.mem_cons_of_mem _ hs)),
        List.length_cons]
      ring
  · intro k i r hk hi
    have := flatMap_get (fun r : List α => r) 3 rows h hk hi
    rw [List.flatMap_id', Nat.mul_comm k 3] at this
    exact this

theorem mapM_rates (f : List K → List K) (rows : List (List K)) :
    rows.mapM (fun r => (Except.ok (f r) : Except Err (List K))) = .ok (rows.map f) := by
  induction rows with
  | nil => rfl
  | cons r rows ih => rw [List.mapM_cons, ih]; rfl

theorem neighborPicture_ok (points : List (V2 K)) (rates : List K) (i : ℕ) (hne : points ≠ []) :
    ∃ pic, neighborPicture points rates i = .ok pic ∧
      pic.contour = points.zip ((List.range points.length).map (fun k => rates.getD (3 * k + i) 0)) ∧
      (pic.marked, pic.maxRate) ∈ pic.contour ∧ (∀ q ∈ pic.contour, q.2 ≤ pic.maxRate) ∧
      pic.cmap = pictureCmaps.getD i "" ∧ pic.colour = pictureColours.getD i "" ∧
      pic.neighbor = pictureNeighbors.getD i 0 := by
  set f := (List.range points.length).map (fun k => rates.getD (3 * k + i) 0) with hf
  have hlen : f.length = points.length := by simp [hf]
  have hfne : f ≠ [] := by
    intro hc
    rw [hc] at hlen
    exact hne (List.length_eq_zero_iff.1 hlen.symm)
  obtain ⟨top, ht, htm, htop⟩ := maxOf_ok hfne
  cases ha : argmax? f with
  | none => exact absurd (argmax?_none ha) hfne
  | some a =>
    obtain ⟨v, hv, hmax⟩ := argmax?_eq_some ha
    have hvt : v = top := le_antisymm (htop v (List.mem_of_getElem? hv)) (hmax top htm)
    subst hvt
    have hal : a < points.length := by rw [← hlen]; exact (List.getElem?_eq_some_iff.1 hv).1
    refine ⟨⟨points.zip f, _, _, _, _, v⟩, by simp only [neighborPicture, ← hf, ha, ht]; rfl, rfl, ?_, ?_, rfl, rfl, rfl⟩
    · refine List.mem_of_getElem? (i := a) ?_
      rw [List.getElem?_zip_eq_some]
      exact ⟨by simp [List.getD_eq_getElem?_getD, hal], hv⟩
    · intro q hq
      exact hmax _ (List.of_mem_zip (a := q.1) (b := q.2) hq).2

theorem sqrt_eq {n m : ℕ} (h1 : m * m ≤ n) (h2 : n < (m + 1) * (m + 1)) : Nat.sqrt n = m :=
  (Nat.eq_sqrt.2 ⟨h1, h2⟩).symm

/-- For a predictor of three rates, with at least four points, and as many as a square when there are fixed
contexts: the picture of neighbour `i` shows at every point of a square grid about the silicon the predicted
rate towards `i` with the beam there, and nothing else; the marked point is one where the rate is largest, and
the largest rate is returned. -/
theorem C115_picture_partial (f : List K → List K) (h3 : ∀ x, (f x).length = 3) (range : K) (numPoints m : ℕ)
    (fixed : Option (List K)) (hm : 2 ≤ m) (hlo : m * m ≤ numPoints) (hhi : numPoints < (m + 1) * (m + 1))
    (hsq : fixed ≠ none → numPoints = m * m) :
    ∃ pics, visualizeRates (fun rows => rows.mapM (fun x => .ok (f x))) range numPoints fixed = .ok pics ∧
      pics.length = 3 ∧ ∀ (i : ℕ) (pic : NeighborPicture K), pics[i]? = some pic →
        pic.contour.length = m * m ∧
        (∀ j < m, ∀ k < m, pic.contour[k * m + j]? =
          some (gridPoint range m j k, rateAt f fixed i (gridPoint range m j k))) ∧
        (∃ j < m, ∃ k < m, pic.marked = gridPoint range m j k) ∧
        pic.maxRate = rateAt f fixed i pic.marked ∧
        (∀ j < m, ∀ k < m, rateAt f fixed i (gridPoint range m j k) ≤ pic.maxRate) := by
  have hs := sqrt_eq hlo hhi
  set points := pictureGrid range m with hp
  have hpl : points.length = m * m := pictureGrid_length range m
  have hpne : points ≠ [] := by
    intro hc
    rw [hc] at hpl
    have : 0 < m * m := Nat.mul_pos (by omega) (by omega)
    simp at hpl
    omega
  set rows := points.map (fun p => f (fixed.getD [] ++ [p.x, p.y])) with hr
  have hrows : ∀ r ∈ rows, r.length = 3 := by
    intro r hr'
    rw [hr, List.mem_map] at hr'
    obtain ⟨p, -, rfl⟩ := hr'
    exact h3 _
  obtain ⟨hfl, hget⟩ := flatten_three hrows
  have hrl : rows.length = points.length := by simp [hr]
  have hctx : visualizeRates (fun rows => rows.mapM (fun x => .ok (f x))) range numPoints fixed =
      (List.range 3).mapM (neighborPicture points rows.flatten) := by
    have hlt : ¬ m < 2 := by omega
    unfold visualizeRates
    simp only [hs, ← hp]
    cases fixed with
    | none =>
      simp only [mapM_rates, List.map_map]
      have e : (points.map (f ∘ fun p => [p.x, p.y])) = rows := by simp [hr, Function.comp_def]
      rw [e, if_neg (by rw [hfl, hrl]; simp), if_neg hlt]
    | some c =>
      have hn : numPoints = (points.map (fun p => [p.x, p.y])).length := by
        rw [List.length_map, hpl]; exact hsq (by simp)
      simp only [if_pos hn, mapM_rates, List.map_map]
      have e : (points.map (f ∘ (fun p => c ++ p) ∘ fun p => [p.x, p.y])) = rows := by
        simp [hr, Function.comp_def]
      rw [e, if_neg (by rw [hfl, hrl]; simp), if_neg hlt]
  choose pic hpic using fun i => neighborPicture_ok points rows.flatten i hpne
  have hrange : (List.range 3).mapM (neighborPicture points rows.flatten) = .ok [pic 0, pic 1, pic 2] := by
    simp only [List.range_succ, List.range_zero, List.nil_append, List.cons_append, List.mapM_cons, List.mapM_nil,
      (hpic _).1]
    rfl
  refine ⟨_, hctx.trans hrange, rfl, ?_⟩
  have hi3 : ∀ i p, [pic 0, pic 1, pic 2][i]? = some p → i < 3 ∧ p = pic i := by
    intro i p h
    match i with
    | 0 => exact ⟨by omega, by cases h; rfl⟩
    | 1 => exact ⟨by omega, by cases h; rfl⟩
    | 2 => exact ⟨by omega, by cases h; rfl⟩
    | _ + 3 => simp at h
  intro i p h
  obtain ⟨hi, rfl⟩ := hi3 i p h
  obtain ⟨-, hcont, hmark, hmax, -⟩ := hpic i
  -- the heights
  have hval : ∀ k q, points[k]? = some q → rows.flatten.getD (3 * k + i) 0 = rateAt f fixed i q := by
    intro k q hq
    have : rows[k]? = some (f (fixed.getD [] ++ [q.x, q.y])) := by simp [hr, hq]
    rw [List.getD_eq_getElem?_getD, hget k i _ this hi, rateAt, List.getD_eq_getElem?_getD]
  have hc : (pic i).contour = points.map (fun q => (q, rateAt f fixed i q)) := by
    rw [hcont]
    apply List.ext_getElem?
    intro k
    by_cases hk : k < points.length
    · have hq : points[k]? = some points[k] := List.getElem?_eq_getElem hk
      have h1 : (points.zip ((List.range points.length).map (fun k => rows.flatten.getD (3 * k + i) 0)))[k]? =
          some (points[k], rateAt f fixed i points[k]) := by
        rw [List.getElem?_zip_eq_some]
        refine ⟨hq, ?_⟩
        rw [List.getElem?_map, List.getElem?_range hk, Option.map_some, hval k _ hq]
      rw [h1, List.getElem?_map, hq]
      rfl
    · rw [List.getElem?_eq_none (by simp; omega), List.getElem?_eq_none (by simp; omega)]
  have hpt : ∀ j < m, ∀ k < m, (pic i).contour[k * m + j]? =
      some (gridPoint range m j k, rateAt f fixed i (gridPoint range m j k)) := by
    intro j hj k hk
    rw [hc, List.getElem?_map, hp, pictureGrid_get range hm hj hk]
    rfl
  have hback : ∀ q ∈ points, ∃ j < m, ∃ k < m, q = gridPoint range m j k := by
    intro q hq
    obtain ⟨n, hn, rfl⟩ := List.getElem_of_mem hq
    have hmm : n < m * m := by rw [← hpl]; exact hn
    have hmp : 0 < m := by omega
    refine ⟨n % m, Nat.mod_lt _ hmp, n / m, Nat.div_lt_of_lt_mul hmm, ?_⟩
    have := pictureGrid_get range hm (Nat.mod_lt n hmp) (Nat.div_lt_of_lt_mul hmm)
    rw [Nat.mul_comm, Nat.div_add_mod, ← hp, List.getElem?_eq_getElem hn] at this
    exact Option.some.inj this
  rw [hc] at hmark
  obtain ⟨q, hq, e⟩ := List.mem_map.1 hmark
  rw [Prod.mk.injEq] at e
  refine ⟨by rw [hc, List.length_map, hpl], hpt, ?_, ?_, ?_⟩
  · rw [← e.1]
    exact hback q hq
  · rw [← e.1, e.2]
  · intro j hj k hk
    exact hmax _ (List.mem_of_getElem? (hpt j hj k hk))

/-- The contours, the marked maximum and the neighbour of the same number share a colour, the three colours
differ, and the three neighbours are drawn counterclockwise about the silicon, more than 1.6 Å from it by less
than a thousandth. -/
theorem C115_marks (predict : List (List K) → Except Err (List (List K))) (range : K) (numPoints : ℕ)
    (fixed : Option (List K)) (pics : List (NeighborPicture K))
    (h : visualizeRates predict range numPoints fixed = .ok pics) :
    pics.map (fun p => (p.cmap, p.colour)) = [("Blues", "blue"), ("Reds", "red"), ("Greens", "green")] ∧
    ∃ a b c : V2 K, pics.map NeighborPicture.neighbor = [a, b, c] ∧
      0 < a.x * b.y - a.y * b.x ∧ 0 < b.x * c.y - b.y * c.x ∧ 0 < c.x * a.y - c.y * a.x ∧
      ∀ p ∈ [a, b, c], (16 / 10) ^ 2 ≤ p.x ^ 2 + p.y ^ 2 ∧ p.x ^ 2 + p.y ^ 2 < (1601 / 1000) ^ 2 := by
  have hpt : ∀ {points : List (V2 K)} {rates : List K} {i : ℕ} {pic : NeighborPicture K},
      neighborPicture points rates i = .ok pic → pic.cmap = pictureCmaps.getD i "" ∧
        pic.colour = pictureColours.getD i "" ∧ pic.neighbor = pictureNeighbors.getD i 0 := by
    intro points rates i pic h
    unfold neighborPicture at h
    dsimp only at h
    split at h
    · cases h
    · split at h
      · cases h
      · cases h
        exact ⟨rfl, rfl, rfl⟩
  unfold visualizeRates at h
  dsimp only at h
  split at h
  · cases h
  · split at h
    · cases h
    · split at h
      · cases h
      · split at h
        · cases h
        · rename_i rates _ _ _
          simp only [List.range_succ, List.range_zero, List.nil_append, List.cons_append, List.mapM_cons,
            List.mapM_nil] at h
          cases h0 : neighborPicture (pictureGrid range (Nat.sqrt numPoints)) rates.flatten 0 with
          | error e => rw [h0] at h; cases h
          | ok p0 =>
            cases h1 : neighborPicture (pictureGrid range (Nat.sqrt numPoints)) rates.flatten 1 with
            | error e => rw [h0, h1] at h; cases h
            | ok p1 =>
              cases h2 : neighborPicture (pictureGrid range (Nat.sqrt numPoints)) rates.flatten 2 with
              | error e => rw [h0, h1, h2] at h; cases h
              | ok p2 =>
                rw [h0, h1, h2] at h
                cases h
                obtain ⟨a1, a2, a3⟩ := hpt h0
                obtain ⟨b1, b2, b3⟩ := hpt h1
                obtain ⟨c1, c2, c3⟩ := hpt h2
                refine ⟨?_, ⟨142 / 100 * (160 / 142), 0 * (160 / 142)⟩,
                  ⟨-71 / 100 * (160 / 142), 123 / 100 * (160 / 142)⟩,
                  ⟨-71 / 100 * (160 / 142), -123 / 100 * (160 / 142)⟩, ?_, ?_, ?_, ?_, ?_⟩
                · simp [a1, a2, b1, b2, c1, c2, pictureCmaps, pictureColours]
                · simp only [List.map_cons, List.map_nil, a3, b3, c3]
                  rfl
                · norm_num
                · norm_num
                · norm_num
                · intro p hp
                  simp only [List.mem_cons, List.not_mem_nil, or_false] at hp
                  rcases hp with rfl | rfl | rfl <;> norm_num

/-- With fixed contexts, a number of points that is no square raises, whatever the predictor. -/
theorem C115_not_square (predict : List (List K) → Except Err (List (List K))) (range : K) (numPoints : ℕ)
    (fixed : List K) (h : ∀ m, numPoints ≠ m * m) :
    visualizeRates predict range numPoints (some fixed) = .error .valueError := by
  unfold visualizeRates
  simp only [List.length_map, pictureGrid_length, if_neg (h _)]

/-- Fewer than four points raise, whatever the predictor. -/
theorem C115_few_points (predict : List (List K) → Except Err (List (List K))) (range : K) (numPoints : ℕ)
    (fixed : Option (List K)) (h : numPoints < 4) (pics : List (NeighborPicture K)) :
    visualizeRates predict range numPoints fixed ≠ .ok pics := by
  have hm : Nat.sqrt numPoints < 2 := Nat.sqrt_lt.2 (by omega)
  unfold visualizeRates
  dsimp only
  split
  · simp
  · split
    · simp
    · split
      · simp
      · simp

/-- The rates of a vote one of whose members never saw one of the states cannot be pictured (`C114_unseen_state`):
the script raises after training. -/
theorem C115_unseen_state (sk : Sklearn) (learner : String) (data : List (LabelledRows × LabelledRows))
    (hs : ∀ d ∈ data, ∀ c ∈ d.1.labels, c ≤ 3) (d : LabelledRows × LabelledRows) (hd : d ∈ data)
    (c : ℕ) (hc : c ≤ 3) (hun : c ∉ d.1.labels) (rs : List (SkModel × ℝ × ℝ))
    (ht : trainMembers sk learner data = .ok rs) (range : ℝ) (numPoints : ℕ) (fixed : Option (List ℝ))
    (pics : List (NeighborPicture ℝ)) :
    visualizeRates (fun rows => rows.mapM (votedRates (rs.map Prod.fst))) range numPoints fixed ≠ .ok pics := by
  intro h
  by_cases hn : numPoints < 4
  · exact C115_few_points _ _ _ _ hn _ h
  have hm : 2 ≤ Nat.sqrt numPoints := Nat.le_sqrt.2 (by omega)
  have hshort : ∀ (rows out : List (List ℝ)), rows ≠ [] →
      rows.mapM (votedRates (rs.map Prod.fst)) = .ok out → out.flatten.length < 3 * rows.length := by
    intro rows
    induction rows with
    | nil => intro out h; exact absurd rfl h
    | cons x rows ih =>
      intro out _ ho
      rw [List.mapM_cons] at ho
      cases h1 : votedRates (rs.map Prod.fst) x with
      | error e => rw [h1] at ho; cases ho
      | ok r =>
        cases h2 : rows.mapM (votedRates (rs.map Prod.fst)) with
        | error e => rw [h1, h2] at ho; cases ho
        | ok out' =>
          rw [h1, h2] at ho
          cases ho
          have h3 := C114_unseen_state sk learner data hs d hd c hc hun rs ht x r h1
          rw [List.flatten_cons, List.length_append, List.length_cons]
          by_cases hr : rows = []
          · subst hr
            cases h2
            simp
            omega
          · have := ih out' hr h2
            omega
  unfold visualizeRates at h
  dsimp only at h
  have hpl := pictureGrid_length range (Nat.sqrt numPoints)
  have hpos : 0 < Nat.sqrt numPoints * Nat.sqrt numPoints := Nat.mul_pos (by omega) (by omega)
  split at h
  · cases h
  · rename_i ctx hctx
    have hcl : ctx.length = (pictureGrid range (Nat.sqrt numPoints)).length := by
      cases fixed with
      | none => cases hctx; simp
      | some c =>
        simp only at hctx
        split at hctx
        · cases hctx; simp
        · cases hctx
    have hne : ctx ≠ [] := by
      intro hc
      rw [hc] at hcl
      simp at hcl
      omega
    split at h
    · cases h
    · rename_i rates hrates
      have := hshort ctx rates hne hrates
      rw [if_pos (by omega)] at h
      cases h

/-- The hypotheses of `C115_picture_partial`: the script's pictures, and one of an odd number of points. -/
example : 2 ≤ 300 ∧ 300 * 300 ≤ 300 ^ 2 ∧ 300 ^ 2 < (300 + 1) * (300 + 1) ∧ 300 ^ 2 = 300 * 300 ∧
    2 * 2 ≤ 7 ∧ 7 < (2 + 1) * (2 + 1) := by norm_num

/-- A picture is drawn, so the hypothesis of `C115_marks` is met. -/
example : ∃ pics, visualizeRates (K := ℚ) (fun rows => rows.mapM (fun x => .ok [x.sum, 1, 2])) 10 9 (some [60]) = .ok pics := by
  obtain ⟨pics, h, -⟩ := C115_picture_partial (K := ℚ) (fun x => [x.sum, 1, 2]) (fun _ => rfl) 10 9 3 (some [60])
    (by norm_num) (by norm_num) (by norm_num) (by norm_num)
  exact ⟨pics, h⟩

/-- The hypotheses of `C115_not_square` and `C115_few_points`. -/
example : (∀ m, 7 ≠ m * m) ∧ 3 < 4 := by
  refine ⟨fun m hm => ?_, by norm_num⟩
  have : m < 3 := by nlinarith
  interval_cases m <;> omega

/-- The hypotheses of `C115_unseen_state`. -/
example : ∃ rs, trainMembers lastClassSk "random_forest" mixedData = .ok rs ∧
    (∀ d ∈ mixedData, ∀ c ∈ d.1.labels, c ≤ 3) ∧ ∃ d ∈ mixedData, 3 ∉ d.1.labels := by
  obtain ⟨rs, h, -⟩ := C114_mixed
  exact ⟨rs, h, by simp [mixedData], by simp [mixedData]⟩

end PD.Props
