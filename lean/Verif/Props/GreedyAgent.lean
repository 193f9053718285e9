/- Property C32: the greedy agent. -/
import Verif.Model.GreedyAgent
import Verif.Props.Geometry
import Verif.Props.Rates
import Verif.Props.Features

set_option linter.unusedSectionVars false
set_option linter.unusedSimpArgs false

namespace PD.Props
open PD PD.Spec
variable {K G Img : Type}

theorem argmax?_eq_some [LinearOrder K] {l : List K} {i : ℕ} (h : argmax? l = some i) :
    ∃ v, l[i]? = some v ∧ ∀ a ∈ l, a ≤ v := by
  induction l generalizing i with
  | nil => simp [argmax?] at h
  | cons x xs ih =>
    simp only [argmax?] at h
    cases hx : argmax? xs with
    | none =>
      rw [hx] at h
      cases h
      have : xs = [] := by
        cases xs with
        | nil => rfl
        | cons y ys =>
          simp only [argmax?] at hx
          split at hx
          · cases hx
          · split at hx
            · cases hx
            · split at hx <;> cases hx
      subst this
      exact ⟨x, rfl, by simp⟩
    | some j =>
      rw [hx] at h
      obtain ⟨v, hv, hm⟩ := ih hx
      simp only [hv] at h
      split_ifs at h with hle <;> cases h
      · refine ⟨x, rfl, fun a ha => ?_⟩
        rcases List.mem_cons.1 ha with rfl | ha
        · exact le_rfl
        · exact (hm a ha).trans hle
      · refine ⟨v, by simpa using hv, fun a ha => ?_⟩
        rcases List.mem_cons.1 ha with rfl | ha
        · exact (not_le.1 hle).le
        · exact hm a ha

theorem argmax?_none [LinearOrder K] {l : List K} (h : argmax? l = none) : l = [] := by
  cases l with
  | nil => rfl
  | cons y ys =>
    simp only [argmax?] at h
    split at h
    · cases h
    · split at h
      · cases h
      · split at h <;> cases h

theorem greedy_list (L : List (V2 ℝ)) (hL : L ≠ []) (goal : V2 ℝ) :
    ∃ i n, argmin? (L.map (fun d => norm2 (d - goal))) = some i ∧ n ∈ L ∧
      (getAngles L)[i]? = some (getAngle n) ∧ ∀ m ∈ L, Spec.dist n goal ≤ Spec.dist m goal := by
  obtain ⟨i, hi⟩ := argmin?_isSome (l := L.map (fun d => norm2 (d - goal))) (by simpa using hL)
  obtain ⟨n, hn, l, r, hlr, h1, h2⟩ := argmin?_split hi
  refine ⟨i, n, hi, List.mem_of_getElem? hn, by rw [getAngles, List.getElem?_map, hn]; rfl, ?_⟩
  intro m hm
  rw [hlr] at hm
  have key : norm2 (n - goal) ≤ norm2 (m - goal) := by
    rcases List.mem_append.1 hm with h | h
    · exact (h1 m h).le
    · rcases List.mem_cons.1 h with rfl | h
      · exact le_rfl
      · exact h2 m h
  rw [norm2_eq_len, norm2_eq_len] at key
  exact key

/-! ### C32 -/

/-- Given the three neighbour offsets and the goal offset, the agent picks a neighbour no other one
of which is nearer to the goal offset, and turns the vector argmax + offset + noise
counter-clockwise by the angle of that neighbour.  Observations of another shape are rejected. -/
theorem C32_step (normal : ℝ → G → V2 ℝ × G) (a : Greedy) (s n1 n2 n3 goal : V2 ℝ) (g : G) :
    (∃ n ∈ [n1, n2, n3], (∀ m ∈ [n1, n2, n3], Spec.dist n goal ≤ Spec.dist m goal) ∧
      Greedy.step normal a [s.x, s.y, n1.x, n1.y, n2.x, n2.y, n3.x, n3.y, goal.x, goal.y] g =
        .ok (rotate (a.argmax + a.fixedOffset + (normal a.sigma g).1) (getAngle n))
          (normal a.sigma g).2) ∧
    ∀ obs : List ℝ, obs.length ≠ 10 → Greedy.step normal a obs g = .error .assertionError g := by
  constructor
  · obtain ⟨i, n, hi, hn, hang, hmin⟩ := greedy_list [n1, n2, n3] (by simp) goal
    refine ⟨n, hn, hmin, ?_⟩
    have e1 : reshape2 (([s.x, s.y, n1.x, n1.y, n2.x, n2.y, n3.x, n3.y, goal.x, goal.y].drop 2).take 6)
        = [n1, n2, n3] := rfl
    have e2 : reshape2 ([s.x, s.y, n1.x, n1.y, n2.x, n2.y, n3.x, n3.y, goal.x, goal.y].drop 8)
        = [goal] := rfl
    have e3 : ¬ [s.x, s.y, n1.x, n1.y, n2.x, n2.y, n3.x, n3.y, goal.x, goal.y].length ≠ 10 := by simp
    simp only [Greedy.step, e1, e2, e3, if_false, hi, hang]
  · intro obs hobs
    simp [Greedy.step, hobs]

/-- Without noise the action is as long as argmax plus offset; and when that vector is `(r, 0)` with
`r ≥ 0`, the action is the vector of length `r` along a neighbour nearest to the goal. -/
theorem C32_along_neighbour (normal : ℝ → G → V2 ℝ × G) (hnormal : ∀ g, (normal 0 g).1 = 0)
    (a : Greedy) (ha : a.sigma = 0) (s n1 n2 n3 goal : V2 ℝ) (g : G) :
    ∃ action g', Greedy.step normal a
        [s.x, s.y, n1.x, n1.y, n2.x, n2.y, n3.x, n3.y, goal.x, goal.y] g = .ok action g' ∧
      len action = len (a.argmax + a.fixedOffset) ∧
      ∃ n ∈ [n1, n2, n3], (∀ m ∈ [n1, n2, n3], Spec.dist n goal ≤ Spec.dist m goal) ∧
        ∀ r, 0 ≤ r → a.argmax + a.fixedOffset = ⟨r, 0⟩ → n ≠ 0 → action = towards 0 n r := by
  obtain ⟨n, hn, hmin, hstep⟩ := (C32_step normal a s n1 n2 n3 goal g).1
  have h0 : a.argmax + a.fixedOffset + (normal a.sigma g).1 = a.argmax + a.fixedOffset := by
    rw [ha, hnormal]; ext <;> simp
  rw [h0] at hstep
  refine ⟨_, _, hstep, (C35_angle_between _ 0 _).1, n, hn, hmin, ?_⟩
  intro r _ hr hn0
  rw [hr]
  have hx := len_cos_angle n
  have hy := len_sin_angle n
  have hl : len n ≠ 0 := by
    intro h
    apply hn0
    have : Spec.dist n 0 = 0 := by
      rw [dist_eq_len, ← h]; congr 1; ext <;> simp
    exact dist_eq_zero.1 this
  have hd : Spec.dist 0 n = len n := by
    simp [Spec.dist, len]
  have hc : Real.cos (getAngle n) = n.x / len n := by rw [eq_div_iff hl, mul_comm]; exact hx
  have hs : Real.sin (getAngle n) = n.y / len n := by rw [eq_div_iff hl, mul_comm]; exact hy
  ext <;> simp [rotate, towards, hd, hc, hs] <;> ring

/-- The constructor needs a transition function or an argmax. -/
theorem C32_constructor (f : Option (V2 ℝ → ℝ)) (p : Option (V2 ℝ)) (res sigma : ℝ) (off : V2 ℝ)
    (low high : ℝ) :
    (f = none → p = none → Greedy.init f p res sigma off low high = .error .valueError) ∧
    (∀ q, f = none → p = some q →
      Greedy.init f p res sigma off low high = .ok ⟨q, off, sigma⟩) ∧
    (∀ h q, f = some h → findArgmax low high h res = .ok q →
      Greedy.init f p res sigma off low high = .ok ⟨q, off, sigma⟩) := by
  refine ⟨?_, ?_, ?_⟩
  · rintro rfl rfl; rfl
  · rintro q rfl rfl; rfl
  · rintro h q rfl hq; simp [Greedy.init, hq]

/-- The grid search: when there is room for at least two points per axis, the result is a point of
the regular grid spanning `[low, high]²` with `n` points per axis, and no point of that grid has a
larger value. -/
theorem C32_find_argmax [Field K] [LinearOrder K] [IsStrictOrderedRing K] [FloorRing K]
    (low high res : K) (f : V2 K → K) (n : ℕ) (hn : 2 ≤ n)
    (hfit : n * res ≤ high - low) (hfit' : high - low < (n + 1) * res) :
    ∃ p, findArgmax low high f res = .ok p ∧
      (∃ i j : ℕ, i < n ∧ j < n ∧ p = ⟨low + i * ((high - low) / (n - 1)), low + j * ((high - low) / (n - 1))⟩) ∧
      (low ≤ p.x ∧ p.x ≤ high) ∧ (low ≤ p.y ∧ p.y ≤ high) ∧
      ∀ i j : ℕ, i < n → j < n →
        f ⟨low + i * ((high - low) / (n - 1)), low + j * ((high - low) / (n - 1))⟩ ≤ f p := by
  have hres : 0 < res := by
    have : (n : K) * res < (n + 1) * res := lt_of_le_of_lt hfit hfit'
    nlinarith
  have hfl : ⌊(high - low) / res⌋ = (n : ℤ) := by
    rw [Int.floor_eq_iff]
    constructor
    · rw [le_div_iff₀ hres]; exact_mod_cast hfit
    · rw [div_lt_iff₀ hres]; exact_mod_cast hfit'
  set P := (linspace low high n).flatMap (fun y => (linspace low high n).map (fun x => (⟨x, y⟩ : V2 K)))
    with hP
  have hmemP : ∀ p, p ∈ P ↔ ∃ i j : ℕ, i < n ∧ j < n ∧
      p = ⟨low + i * ((high - low) / (n - 1)), low + j * ((high - low) / (n - 1))⟩ := by
    intro p
    have hn1 : n ≠ 1 := by omega
    simp only [hP, linspace, hn1, if_false, List.mem_flatMap, List.mem_map, List.mem_range]
    constructor
    · rintro ⟨y, ⟨j, hj, rfl⟩, x, ⟨i, hi, rfl⟩, rfl⟩
      exact ⟨i, j, hi, hj, rfl⟩
    · rintro ⟨i, j, hi, hj, rfl⟩
      exact ⟨_, ⟨j, hj, rfl⟩, _, ⟨i, hi, rfl⟩, rfl⟩
  have hne : P ≠ [] := by
    intro h
    have : (⟨low + (0 : ℕ) * ((high - low) / (n - 1)), low + (0 : ℕ) * ((high - low) / (n - 1))⟩ : V2 K) ∈ P :=
      (hmemP _).2 ⟨0, 0, by omega, by omega, rfl⟩
    rw [h] at this
    simp at this
  have hsome : ∃ i, argmax? (P.map f) = some i := by
    cases h : argmax? (P.map f) with
    | none => exact absurd (by simpa using argmax?_none h) hne
    | some i => exact ⟨i, rfl⟩
  obtain ⟨i, hi⟩ := hsome
  obtain ⟨v, hv, hmax⟩ := argmax?_eq_some hi
  rw [List.getElem?_map] at hv
  obtain ⟨p, hp, rfl⟩ := Option.map_eq_some_iff.1 hv
  have hpP : p ∈ P := List.mem_of_getElem? hp
  have hhl : 0 ≤ high - low := le_trans (by positivity) hfit
  have hn1 : (0 : K) < n - 1 := by
    have : (2 : K) ≤ n := by exact_mod_cast hn
    linarith
  have hrange : ∀ i : ℕ, i < n → low ≤ low + i * ((high - low) / ((n : K) - 1)) ∧
      low + i * ((high - low) / ((n : K) - 1)) ≤ high := by
    intro i hi
    have h1 : 0 ≤ (i : K) * ((high - low) / ((n : K) - 1)) := by positivity
    have h2 : (i : K) * ((high - low) / ((n : K) - 1)) ≤ ((n : K) - 1) * ((high - low) / ((n : K) - 1)) := by
      have : (i : K) ≤ (n : K) - 1 := by
        have : (i : K) + 1 ≤ n := by exact_mod_cast hi
        linarith
      gcongr
    rw [mul_div_cancel₀ _ hn1.ne'] at h2
    exact ⟨by linarith, by linarith⟩
  obtain ⟨a, b, ha, hb, hpe⟩ := (hmemP p).1 hpP
  have hnp : ¬ ((n : ℤ) ≤ 0) := by omega
  refine ⟨p, ?_, ⟨a, b, ha, hb, hpe⟩, ?_, ?_, ?_⟩
  · simp only [findArgmax, hres.ne', if_false, hfl, hnp, Int.toNat_natCast, ← hP, hi, hp]
  · rw [hpe]; exact hrange a ha
  · rw [hpe]; exact hrange b hb
  · intro i j hi hj
    exact hmax _ (List.mem_map_of_mem ((hmemP _).2 ⟨i, j, hi, hj, rfl⟩))

/-- Four points per axis on `[0, 1]²` with resolution 1/4; the maximum of `y - x` is in the corner. -/
example : findArgmax (0 : ℚ) 1 (fun p => p.y - p.x) (1/4) = .ok ⟨0, 1⟩ ∧
    (2 : ℕ) ≤ 4 ∧ ((4 : ℕ) : ℚ) * (1/4) ≤ 1 - 0 ∧ (1 : ℚ) - 0 < ((4 : ℕ) + 1) * (1/4) := by
  refine ⟨by decide +kernel, by norm_num, by norm_num, by norm_num⟩

/-- The default agent, three neighbours, goal up: the neighbour above is chosen and the beam goes
1.42 Å up. -/
example : ∃ g', Greedy.step (fun _ (g : Unit) => (0, g)) ⟨⟨142/100, 0⟩, 0, 0⟩
    [0, 0, 0, 1, 1, 0, -1, 0, 0, 5] () = .ok ⟨0, 142/100⟩ g' := by
  obtain ⟨action, g', h1, _, n, hn, hmin, h3⟩ := C32_along_neighbour (fun _ (g : Unit) => (0, g))
    (fun _ => rfl) ⟨⟨142/100, 0⟩, 0, 0⟩ rfl ⟨0, 0⟩ ⟨0, 1⟩ ⟨1, 0⟩ ⟨-1, 0⟩ ⟨0, 5⟩ ()
  have hn0 : n = ⟨0, 1⟩ := by
    have h := hmin ⟨0, 1⟩ (by simp)
    simp only [Spec.dist] at h
    rw [Real.sqrt_le_sqrt_iff (by norm_num)] at h
    simp only [List.mem_cons, List.not_mem_nil, or_false] at hn
    rcases hn with rfl | rfl | rfl
    · rfl
    · norm_num at h
    · norm_num at h
  subst hn0
  refine ⟨g', ?_⟩
  rw [h1, h3 (142/100) (by norm_num) (by ext <;> simp) (by
    intro h; have := congrArg V2.y h; simp at this)]
  congr 1
  have : Spec.dist (0 : V2 ℝ) ⟨0, 1⟩ = 1 := by simp [Spec.dist]
  ext <;> simp [towards, this]

end PD.Props
