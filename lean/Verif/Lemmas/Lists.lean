/- Lemmas on masks, argmin, clip and rounding. -/
import Verif.Model.Basic
import Mathlib.Tactic.Push

namespace PD

theorem maskSelect_map_self {α : Type} (p : α → Bool) (xs : List α) :
    maskSelect (xs.map p) xs = xs.filter p := by
  induction xs with
  | nil => rfl
  | cons x xs ih => simp [maskSelect, List.filter_cons, ih]

theorem maskSelect_length_eq {α β : Type} (m : List Bool) (xs : List α) (ys : List β)
    (h : xs.length = ys.length) : (maskSelect m xs).length = (maskSelect m ys).length := by
  induction m generalizing xs ys with
  | nil => simp [maskSelect]
  | cons b m ih =>
    cases xs with
    | nil => cases ys with
      | nil => rfl
      | cons => simp at h
    | cons x xs => cases ys with
      | nil => simp at h
      | cons y ys =>
        have := ih xs ys (by simpa using h)
        cases b <;> simp [maskSelect, this]

theorem maskSelect_zip {α β : Type} (m : List Bool) (xs : List α) (ys : List β)
    (h : xs.length = ys.length) :
    (maskSelect m xs).zip (maskSelect m ys) = maskSelect m (xs.zip ys) := by
  induction m generalizing xs ys with
  | nil => simp [maskSelect]
  | cons b m ih =>
    cases xs with
    | nil => simp [maskSelect]
    | cons x xs => cases ys with
      | nil => simp at h
      | cons y ys =>
        have := ih xs ys (by simpa using h)
        cases b <;> simp [maskSelect, this]

theorem maskSelect_zip_left {α β : Type} (p : α → Bool) (xs : List α) (ys : List β)
    (h : xs.length = ys.length) :
    maskSelect (xs.map p) (xs.zip ys) = (xs.zip ys).filter (fun a => p a.1) := by
  induction xs generalizing ys with
  | nil => rfl
  | cons x xs ih => cases ys with
    | nil => simp at h
    | cons y ys => simp [maskSelect, List.filter_cons, ih ys (by simpa using h)]

theorem maskSelect_zip_right {α β : Type} (p : β → Bool) (xs : List α) (ys : List β)
    (h : xs.length = ys.length) :
    maskSelect (ys.map p) xs = ((xs.zip ys).filter (fun a => p a.2)).map Prod.fst := by
  induction xs generalizing ys with
  | nil => cases ys <;> simp_all [maskSelect]
  | cons x xs ih => cases ys with
    | nil => simp at h
    | cons y ys =>
      have := ih ys (by simpa using h)
      cases hp : p y <;> simp [maskSelect, hp, this]

theorem maskSelect_sublist {α : Type} (m : List Bool) (xs : List α) :
    (maskSelect m xs).Sublist xs := by
  induction m generalizing xs with
  | nil => simp [maskSelect]
  | cons b m ih => cases xs with
    | nil => simp [maskSelect]
    | cons x xs =>
      cases b
      · simpa [maskSelect] using (ih xs).cons x
      · simpa [maskSelect] using (ih xs).cons_cons x

section argmin
variable {K : Type} [LinearOrder K]

theorem argmin?_spec (l : List K) :
    match argmin? l with
    | none => l = []
    | some i => ∃ v, l[i]? = some v ∧ (∀ w ∈ l, v ≤ w) ∧
        ∀ j, j < i → ∀ w, l[j]? = some w → v < w := by
  induction l with
  | nil => simp [argmin?]
  | cons x xs ih =>
    unfold argmin?
    cases h : argmin? xs with
    | none =>
      rw [h] at ih
      simp only at ih
      subst ih
      simp
    | some i =>
      rw [h] at ih
      obtain ⟨v, hv, hmin, hfirst⟩ := ih
      simp only [hv]
      split_ifs with hx
      · refine ⟨x, by simp, ?_, by simp⟩
        intro w hw
        rcases List.mem_cons.1 hw with rfl | hw
        · exact le_refl _
        · exact hx.trans (hmin w hw)
      · rw [not_le] at hx
        refine ⟨v, by simpa using hv, ?_, ?_⟩
        · intro w hw
          rcases List.mem_cons.1 hw with rfl | hw
          · exact hx.le
          · exact hmin w hw
        · intro j hj w hw
          cases j with
          | zero => simp at hw; subst hw; exact hx
          | succ j => exact hfirst j (by omega) w (by simpa using hw)

theorem argmin?_eq_none {l : List K} (h : argmin? l = none) : l = [] := by
  have := argmin?_spec l; rw [h] at this; exact this

theorem argmin?_eq_some {l : List K} {i : ℕ} (h : argmin? l = some i) :
    ∃ v, l[i]? = some v ∧ (∀ w ∈ l, v ≤ w) ∧ ∀ j, j < i → ∀ w, l[j]? = some w → v < w := by
  have := argmin?_spec l; rw [h] at this; exact this

theorem argmin?_lt {l : List K} {i : ℕ} (h : argmin? l = some i) : i < l.length := by
  obtain ⟨v, hv, _⟩ := argmin?_eq_some h
  exact (List.getElem?_eq_some_iff.1 hv).1

theorem argmin?_isSome {l : List K} (h : l ≠ []) : ∃ i, argmin? l = some i := by
  cases h' : argmin? l with
  | none => exact absurd (argmin?_eq_none h') h
  | some i => exact ⟨i, rfl⟩

theorem clip_mem (x : K) {lo hi : K} (h : lo ≤ hi) : lo ≤ clip x lo hi ∧ clip x lo hi ≤ hi := by
  unfold clip
  exact ⟨le_min h (le_max_right _ _), min_le_left _ _⟩

theorem clip_of_mem {x lo hi : K} (h : lo ≤ x) (h' : x ≤ hi) : clip x lo hi = x := by
  unfold clip
  rw [max_eq_left h, min_eq_right h']

end argmin

section rounding
variable {K : Type} [Field K] [LinearOrder K] [FloorRing K] [IsStrictOrderedRing K]

theorem roundHalfEven_intCast (n : ℤ) : roundHalfEven (n : K) = n := by
  simp [roundHalfEven]

theorem abs_roundHalfEven_sub_le (x : K) : |(roundHalfEven x : K) - x| ≤ 1 / 2 := by
  have h1 := Int.floor_le x
  have h2 := Int.lt_floor_add_one x
  unfold roundHalfEven
  simp only
  split_ifs with a b c
  · rw [abs_le]; constructor <;> linarith
  · rw [abs_le]; push_cast; constructor <;> linarith
  · rw [abs_le]; constructor <;> linarith
  · rw [abs_le]; push_cast; constructor <;> linarith

/-- An integer strictly nearer than 1/2 is what rounding returns. -/
theorem roundHalfEven_eq_of_abs_lt {x : K} {n : ℤ} (h : |x - n| < 1 / 2) : roundHalfEven x = n := by
  have h1 := abs_roundHalfEven_sub_le x
  rw [abs_le] at h1
  rw [abs_lt] at h
  have h3 : ((roundHalfEven x - n : ℤ) : K) < 1 := by push_cast; linarith [h1.1, h1.2, h.1, h.2]
  have h4 : (-1 : K) < ((roundHalfEven x - n : ℤ) : K) := by
    push_cast; linarith [h1.1, h1.2, h.1, h.2]
  have h5 : roundHalfEven x - n < 1 := by exact_mod_cast h3
  have h6 : -1 < roundHalfEven x - n := by exact_mod_cast h4
  omega

theorem roundHalfEven_mono {x y : K} (h : x ≤ y) : roundHalfEven x ≤ roundHalfEven y := by
  by_contra hc
  push Not at hc
  have hx := abs_roundHalfEven_sub_le x
  have hy := abs_roundHalfEven_sub_le y
  rw [abs_le] at hx hy
  have h1 : ((roundHalfEven y : ℤ) : K) + 1 ≤ ((roundHalfEven x : ℤ) : K) := by exact_mod_cast hc
  -- then x = y, contradiction
  have hxy : x = y := by linarith [hx.1, hx.2, hy.1, hy.2]
  rw [hxy] at hc
  exact lt_irrefl _ hc

theorem roundHalfEven_nonneg {x : K} (h : 0 ≤ x) : 0 ≤ roundHalfEven x := by
  have := roundHalfEven_mono h
  have h0 : roundHalfEven (0 : K) = 0 := by simpa using roundHalfEven_intCast (K := K) 0
  rwa [h0] at this

theorem ofSeconds_nonneg {x : K} (h : 0 ≤ x) : 0 ≤ ofSeconds x :=
  roundHalfEven_nonneg (by positivity)

theorem ofSeconds_mono {x y : K} (h : x ≤ y) : ofSeconds x ≤ ofSeconds y :=
  roundHalfEven_mono (by linarith)

/-- `timedelta(seconds=t.total_seconds()) == t`. -/
theorem ofSeconds_totalSeconds (t : Timedelta) : ofSeconds (totalSeconds t : K) = t := by
  unfold ofSeconds totalSeconds
  have : (t : K) / 1000000 * 1000000 = (t : K) := by field_simp
  rw [this, roundHalfEven_intCast]

end rounding
end PD
