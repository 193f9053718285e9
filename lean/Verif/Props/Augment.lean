/- Property C43: symmetry augmentation. -/
import Verif.Spec.Augment
import Verif.Props.Geometry
import Mathlib.Tactic.IntervalCases

set_option linter.unusedSectionVars false
set_option linter.unusedSimpArgs false

namespace PD.Props
open PD PD.Spec

theorem flatMap_const_getElem? {α β : Type} (f : α → List β) (m : ℕ) (hf : ∀ x, (f x).length = m)
    (l : List α) (i k : ℕ) (hk : k < m) :
    (l.flatMap f)[m * i + k]? = (l[i]?).bind (fun x => (f x)[k]?) := by
  induction l generalizing i with
  | nil => simp
  | cons x xs ih =>
    rw [List.flatMap_cons]
    cases i with
    | zero =>
      rw [List.getElem?_append_left (by rw [hf]; omega)]
      simp
    | succ i =>
      rw [List.getElem?_append_right (by rw [hf]; nlinarith), hf]
      have : m * (i + 1) + k - m = m * i + k := by
        rw [Nat.mul_add]; omega
      rw [this, ih]
      simp

theorem flatMap_const_length {α β : Type} (f : α → List β) (m : ℕ) (hf : ∀ x, (f x).length = m)
    (l : List α) : (l.flatMap f).length = m * l.length := by
  induction l with
  | nil => simp
  | cons x xs ih => rw [List.flatMap_cons, List.length_append, hf, ih, List.length_cons]; ring

theorem roll_getElem? {α : Type} (xs : List α) (n j : ℕ) (hj : j < xs.length) :
    (roll xs n)[(j + n) % xs.length]? = xs[j]? := by
  unfold roll
  have hm : 0 < xs.length := by omega
  rw [List.getElem?_rotate (Nat.mod_lt _ hm)]
  congr 1
  have hr := Nat.mod_lt n hm
  rw [← Nat.add_mod_mod j n]
  generalize n % xs.length = r at *
  rcases Nat.lt_or_ge (j + r) xs.length with h | h
  · rw [Nat.mod_eq_of_lt h]
    have : j + r + (xs.length - r) = j + xs.length := by omega
    rw [this, Nat.add_mod_right, Nat.mod_eq_of_lt hj]
  · have h2 : (j + r) % xs.length = j + r - xs.length := by
      rw [Nat.mod_eq_sub_mod h, Nat.mod_eq_of_lt (by omega)]
    rw [h2]
    have : j + r - xs.length + (xs.length - r) = j := by omega
    rw [this, Nat.mod_eq_of_lt hj]

theorem roll_length {α : Type} (xs : List α) (n : ℕ) : (roll xs n).length = xs.length := by
  simp [roll]

theorem roll_roll {α : Type} (xs : List α) (k l : ℕ) :
    roll (roll xs l) k = roll xs ((k + l) % xs.length) := by
  rcases Nat.eq_zero_or_pos xs.length with h0 | hm
  · have : xs = [] := List.length_eq_zero_iff.1 h0
    subst this; simp [roll]
  unfold roll
  rw [List.length_rotate, List.rotate_rotate, Nat.mod_mod, Nat.add_mod]
  have h1 := Nat.mod_lt k hm
  have h2 := Nat.mod_lt l hm
  generalize k % xs.length = a at *
  generalize l % xs.length = b at *
  rw [← List.rotate_mod, ← List.rotate_mod (n := xs.length - _)]
  congr 1
  rcases Nat.lt_or_ge (a + b) xs.length with h | h
  · rw [Nat.mod_eq_of_lt h]
    have : xs.length - b + (xs.length - a) = (xs.length - (a + b)) + xs.length := by omega
    rw [this, Nat.add_mod_right]
  · have h3 : (a + b) % xs.length = a + b - xs.length := by
      rw [Nat.mod_eq_sub_mod h, Nat.mod_eq_of_lt (by omega)]
    rw [h3]
    congr 1
    omega

/-! ### One row -/

/-- Row `k` of the rotations of an example. -/
noncomputable def turnRow (m k : ℕ) (p : RatePoint) : RatePoint where
  state := (rotateIndex (p.state - 1) k m + 1) * isign p.state
  dt := p.dt
  rates := roll p.rates k
  position := rotate p.position (2 * k * Real.pi / m)
  context := p.context

theorem row_rotateDataset {m : ℕ} {d d' : RateData} (h : rotateDataset m d = .ok d') (i k : ℕ)
    (hk : k < m) : row d' (m * i + k) = (row d i).map (turnRow m k) := by
  unfold rotateDataset at h
  split at h
  · cases h
  split at h
  · cases h
  rw [Except.ok.injEq] at h
  subst h
  unfold row
  simp only
  rw [flatMap_const_getElem? _ m (by simp [stateRotations, indexRotations]) _ _ _ hk,
    flatMap_const_getElem? _ m (by simp) _ _ _ hk,
    flatMap_const_getElem? _ m (by simp [rateRotations]) _ _ _ hk,
    flatMap_const_getElem? _ m (by simp [positionRotations]) _ _ _ hk]
  cases d.states[i]? <;> cases d.dt[i]? <;> cases d.rates[i]? <;> cases d.position[i]? <;>
    simp [hk, stateRotations, indexRotations, rateRotations, positionRotations]
  cases d.context with
  | none => simp [turnRow]
  | some cs =>
    simp only [Option.map_some]
    rw [flatMap_const_getElem? _ m (by simp) _ _ _ hk]
    cases cs[i]? <;> simp [hk, turnRow]

theorem isign_pos {s : ℤ} (h : 0 < s) : isign s = 1 := by simp [isign, h]

theorem rotate_site (m : ℕ) (hm : 0 < m) (b : ℝ) (j k : ℕ) :
    site m b ((j + k) % m) = rotate (site m b j) (2 * k * Real.pi / m) := by
  have hm' : (m : ℝ) ≠ 0 := by exact_mod_cast hm.ne'
  have hcast : ((j + k : ℕ) : ℝ) = m * ((j + k) / m : ℕ) + ((j + k) % m : ℕ) := by
    exact_mod_cast (Nat.div_add_mod (j + k) m).symm
  have hang : 2 * Real.pi * j / m + 2 * k * Real.pi / m =
      2 * Real.pi * ((j + k) % m : ℕ) / m + ((j + k) / m : ℕ) * (2 * Real.pi) := by
    field_simp
    push_cast at hcast
    linear_combination hcast
  have hc := congrArg Real.cos hang
  have hs := congrArg Real.sin hang
  rw [Real.cos_add_nat_mul_two_pi, Real.cos_add] at hc
  rw [Real.sin_add_nat_mul_two_pi, Real.sin_add] at hs
  ext
  · simp only [site, rotate]; rw [← hc]; ring
  · simp only [site, rotate]; rw [← hs]; ring

theorem bijOn_add_mod (m k : ℕ) (hm : 0 < m) :
    Set.BijOn (fun j => (j + k) % m) (Set.Iio m) (Set.Iio m) := by
  refine ⟨fun j _ => Nat.mod_lt _ hm, ?_, ?_⟩
  · intro a ha b hb hab
    simp only [Set.mem_Iio] at ha hb
    have : a ≡ b [MOD m] := Nat.ModEq.add_right_cancel' k hab
    rwa [Nat.ModEq, Nat.mod_eq_of_lt ha, Nat.mod_eq_of_lt hb] at this
  · intro b hb
    simp only [Set.mem_Iio] at hb
    refine ⟨(b + (m - k % m)) % m, Nat.mod_lt _ hm, ?_⟩
    simp only
    rw [Nat.mod_add_mod, ← Nat.add_mod_mod _ k]
    have := Nat.mod_lt k hm
    have h2 : b + (m - k % m) + k % m = b + m := by omega
    rw [h2, Nat.add_mod_right, Nat.mod_eq_of_lt hb]

theorem turnRow_same {m k : ℕ} {p : RatePoint} (hm : 0 < m) (hv : Valid m p) :
    SamePhysics m (fun j => (j + k) % m) p (turnRow m k p) where
  bij := bijOn_add_mod m k hm
  dt := rfl
  context := rfl
  silicon := (C35_angle_between p.position 0 _).1
  distance b j _ := by
    simp only [turnRow]
    rw [rotate_site m hm b j k, C35_distance]
  rate j hj := by
    simp only [turnRow]
    have := roll_getElem? p.rates k j (by rw [hv.1]; exact hj)
    rwa [hv.1] at this
  stayed h := by simp [turnRow, h, isign]
  moved j hj h := by
    simp only [turnRow, h, rotateIndex]
    rw [isign_pos (by omega)]
    push_cast
    ring_nf

theorem turnRow_valid {m k : ℕ} {p : RatePoint} (hm : 0 < m) (hv : Valid m p) :
    Valid m (turnRow m k p) := by
  obtain ⟨h1, h2, h3⟩ := hv
  refine ⟨by simp [turnRow, roll_length, h1], ?_⟩
  simp only [turnRow, rotateIndex]
  have hm' : (0 : ℤ) < m := by exact_mod_cast hm
  have ha := Int.emod_nonneg (p.state - 1 + k) hm'.ne'
  have hb := Int.emod_lt_of_pos (p.state - 1 + k) hm'
  rcases eq_or_lt_of_le h2 with h | h
  · simp [← h, isign]
  · rw [isign_pos h]; constructor <;> omega

theorem turnRow_turnRow {m k l : ℕ} {p : RatePoint} (hm : 0 < m) (hv : Valid m p) :
    turnRow m k (turnRow m l p) = turnRow m ((k + l) % m) p := by
  obtain ⟨h1, h2, h3⟩ := hv
  have hm' : (0 : ℤ) < m := by exact_mod_cast hm
  have hstate : (turnRow m k (turnRow m l p)).state = (turnRow m ((k + l) % m) p).state := by
    simp only [turnRow, rotateIndex]
    rcases eq_or_lt_of_le h2 with h | h
    · simp [← h, isign]
    · have ha := Int.emod_nonneg (p.state - 1 + l) hm'.ne'
      rw [isign_pos h, mul_one, mul_one, isign_pos (by omega), mul_one, add_sub_cancel_right]
      push_cast
      rw [Int.emod_add_emod, Int.add_emod_emod]
      congr 2; ring
  have hpos : (turnRow m k (turnRow m l p)).position = (turnRow m ((k + l) % m) p).position := by
    simp only [turnRow]
    rw [(C35_composition p.position _ _).1]
    have hmr : (m : ℝ) ≠ 0 := by exact_mod_cast hm.ne'
    have hcast : ((k + l : ℕ) : ℝ) = m * ((k + l) / m : ℕ) + ((k + l) % m : ℕ) := by
      exact_mod_cast (Nat.div_add_mod (k + l) m).symm
    have hang : 2 * l * Real.pi / m + 2 * k * Real.pi / m =
        2 * ((k + l) % m : ℕ) * Real.pi / m + ((k + l) / m : ℕ) * (2 * Real.pi) := by
      field_simp
      push_cast at hcast
      linear_combination hcast
    rw [hang]
    ext <;> simp only [rotate, Real.cos_add_nat_mul_two_pi, Real.sin_add_nat_mul_two_pi]
  have hrates : (turnRow m k (turnRow m l p)).rates = (turnRow m ((k + l) % m) p).rates := by
    simp only [turnRow]
    rw [roll_roll, h1]
  have : ∀ a b : RatePoint, a.state = b.state → a.dt = b.dt → a.rates = b.rates →
      a.position = b.position → a.context = b.context → a = b := by
    rintro ⟨⟩ ⟨⟩ h1 h2 h3 h4 h5; simp_all
  exact this _ _ hstate rfl hrates hpos rfl


/-! ### Reflection -/

/-- The reflection of an example. -/
def flipRow (p : RatePoint) : RatePoint where
  state := reflectState p.state
  dt := p.dt
  rates := match p.rates with
    | [a, b, c] => [a, c, b]
    | r => r
  position := reflectPosition p.position
  context := p.context

theorem mapM_reflectRates {rs rs' : List (List ℝ)} (h : rs.mapM reflectRates = .ok rs') :
    rs' = rs.map (fun r => (flipRow ⟨0, 0, r, 0, none⟩).rates) ∧ ∀ r ∈ rs, r.length = 3 := by
  induction rs generalizing rs' with
  | nil => cases h; simp
  | cons r rs ih =>
    rw [List.mapM_cons] at h
    cases hr : reflectRates r with
    | error e => rw [hr] at h; cases h
    | ok r' =>
      rw [hr] at h
      cases hrs : rs.mapM reflectRates with
      | error e => simp only [hrs] at h; cases h
      | ok rs'' =>
        simp only [hrs] at h
        cases h
        obtain ⟨h1, h2⟩ := ih hrs
        unfold reflectRates at hr
        split at hr
        · rw [Except.ok.injEq] at hr
          subst hr
          refine ⟨by rw [h1]; rfl, ?_⟩
          intro r hr
          rcases List.mem_cons.1 hr with rfl | hr
          · rfl
          · exact h2 r hr
        · cases hr

theorem row_reflectDataset {d d' : RateData} (h : reflectDataset d = .ok d') (i : ℕ) :
    row d' i = (row d i).map flipRow := by
  unfold reflectDataset at h
  split at h
  · cases h
  split at h
  · cases h
  rename_i rates hr
  obtain ⟨rfl, -⟩ := mapM_reflectRates hr
  rw [Except.ok.injEq] at h
  subst h
  unfold row
  simp only [List.getElem?_map]
  cases d.states[i]? <;> cases d.dt[i]? <;> cases d.rates[i]? <;> cases d.position[i]? <;> simp
  cases d.context with
  | none => simp [flipRow]
  | some cs => simp [flipRow, Function.comp_def]

/-- Neighbours 0, 1, 2 become 0, 2, 1. -/
def flip3 (j : ℕ) : ℕ := (3 - j) % 3

theorem site3_flip (b : ℝ) (j : ℕ) (hj : j < 3) : site 3 b (flip3 j) = reflectPosition (site 3 b j) := by
  have h : ∀ x : ℝ, Real.cos (2 * Real.pi - x) = Real.cos x ∧ Real.sin (2 * Real.pi - x) = -Real.sin x := by
    intro x; exact ⟨Real.cos_two_pi_sub x, Real.sin_two_pi_sub x⟩
  have e1 : 2 * Real.pi * 2 / 3 = 2 * Real.pi - 2 * Real.pi * 1 / 3 := by ring
  interval_cases j
  · ext <;> simp [site, flip3, reflectPosition]
  · ext
    · simp only [site, flip3, reflectPosition]; norm_num only [Nat.reduceSub, Nat.reduceMod]; rw [e1, (h _).1]
    · simp only [site, flip3, reflectPosition]; norm_num only [Nat.reduceSub, Nat.reduceMod]; rw [e1, (h _).2]; ring
  · ext
    · simp only [site, flip3, reflectPosition]; norm_num only [Nat.reduceSub, Nat.reduceMod]; rw [e1, (h _).1]
    · simp only [site, flip3, reflectPosition]; norm_num only [Nat.reduceSub, Nat.reduceMod]; rw [e1, (h _).2]; ring

theorem rates3 {r : List ℝ} (h : r.length = 3) : ∃ a b c, r = [a, b, c] := by
  match r, h with
  | [a, b, c], _ => exact ⟨a, b, c, rfl⟩

theorem flipRow_same {p : RatePoint} (hv : Valid 3 p) : SamePhysics 3 flip3 p (flipRow p) where
  bij := by
    refine ⟨?_, ?_, ?_⟩
    · intro j _; exact Nat.mod_lt _ (by norm_num)
    · intro a ha b hb hab
      simp only [Set.mem_Iio] at ha hb
      simp only [flip3] at hab
      omega
    · intro b hb
      simp only [Set.mem_Iio] at hb
      exact ⟨flip3 b, Nat.mod_lt _ (by norm_num), by simp only [flip3]; omega⟩
  dt := rfl
  context := rfl
  silicon := by simp [flipRow, len, reflectPosition]
  distance b j hj := by
    rw [site3_flip b j hj]
    simp only [flipRow, Spec.dist, reflectPosition]
    congr 1; ring
  rate j hj := by
    obtain ⟨a, b, c, h⟩ := rates3 hv.1
    simp only [flipRow, h]
    interval_cases j <;> rfl
  stayed h := by simp [flipRow, reflectState, h, isign]
  moved j hj h := by
    simp only [flipRow, h]
    interval_cases j <;> decide

theorem flipRow_valid {p : RatePoint} (hv : Valid 3 p) : Valid 3 (flipRow p) := by
  obtain ⟨a, b, c, h⟩ := rates3 hv.1
  refine ⟨by simp [flipRow, h], ?_⟩
  obtain ⟨_, h2, h3⟩ := hv
  simp only [flipRow]
  have : p.state = 0 ∨ p.state = 1 ∨ p.state = 2 ∨ p.state = 3 := by push_cast at h3; omega
  rcases this with h | h | h | h <;> rw [h] <;> decide

theorem flipRow_flipRow {p : RatePoint} (hv : Valid 3 p) : flipRow (flipRow p) = p := by
  obtain ⟨s, t, r, q, c⟩ := p
  obtain ⟨a, b, c, h⟩ := rates3 hv.1
  simp only at h
  subst h
  obtain ⟨_, h2, h3⟩ := hv
  simp only at h2 h3
  have : s = 0 ∨ s = 1 ∨ s = 2 ∨ s = 3 := by push_cast at h3; omega
  have hs : reflectState (reflectState s) = s := by
    rcases this with h | h | h | h <;> rw [h] <;> decide
  simp [flipRow, hs, reflectPosition]

/-! ### Sizes -/

theorem aligned_hasSize {d : RateData} (h : d.aligned = true) : HasSize d d.states.length := by
  simp only [RateData.aligned, Bool.and_eq_true, beq_iff_eq] at h
  obtain ⟨⟨⟨h1, h2⟩, h3⟩, h4⟩ := h
  refine ⟨rfl, h1, h2, h3, ?_⟩
  intro cs hc
  rw [hc] at h4
  simpa using h4

theorem hasSize_aligned {d : RateData} {n : ℕ} (h : HasSize d n) : d.aligned = true := by
  obtain ⟨h1, h2, h3, h4, h5⟩ := h
  simp only [RateData.aligned, Bool.and_eq_true, beq_iff_eq]
  refine ⟨⟨⟨by omega, by omega⟩, by omega⟩, ?_⟩
  cases hc : d.context with
  | none => rfl
  | some cs => simp [h5 cs hc, h1]

theorem hasSize_row {d : RateData} {n : ℕ} (h : HasSize d n) (i : ℕ) : (row d i).isSome ↔ i < n := by
  obtain ⟨h1, h2, h3, h4, h5⟩ := h
  unfold row
  by_cases hi : i < n
  · rw [List.getElem?_eq_getElem (by omega), List.getElem?_eq_getElem (by omega),
      List.getElem?_eq_getElem (by omega), List.getElem?_eq_getElem (by omega)]
    cases hc : d.context with
    | none => simp [hi]
    | some cs => simp [hi, h5 cs hc]
  · rw [List.getElem?_eq_none (by omega)]
    simp [hi]

/-! ### C43 -/

/-- Rotating a data set of `n` examples over `m` neighbours gives `m * n` examples; copy `k` of example
`i` is row `m * i + k` of every array and describes the same experiment, every neighbour renamed to the
one `k` steps farther around; copy 0 is the example itself. -/
theorem C43_rotations (m n : ℕ) (hm : 0 < m) (d : RateData) (hn : HasSize d n)
    (hv : ∀ i p, row d i = some p → Valid m p) :
    ∃ d', rotateDataset m d = .ok d' ∧ HasSize d' (m * n) ∧
      ∀ i p, row d i = some p →
        row d' (m * i) = some p ∧
        ∀ k, k < m → ∃ p', row d' (m * i + k) = some p' ∧ Valid m p' ∧
          SamePhysics m (fun j => (j + k) % m) p p' := by
  have hal := hasSize_aligned hn
  obtain ⟨d', hd⟩ : ∃ d', rotateDataset m d = .ok d' := by
    unfold rotateDataset
    rw [if_neg (by simp [hal]), if_neg (by omega)]
    exact ⟨_, rfl⟩
  refine ⟨d', hd, ?_, ?_⟩
  · unfold rotateDataset at hd
    rw [if_neg (by simp [hal]), if_neg (by omega), Except.ok.injEq] at hd
    subst hd
    obtain ⟨h1, h2, h3, h4, h5⟩ := hn
    refine ⟨?_, ?_, ?_, ?_, ?_⟩
    · rw [flatMap_const_length _ m (by simp [stateRotations, indexRotations]), h1]
    · rw [flatMap_const_length _ m (by simp), h2]
    · rw [flatMap_const_length _ m (by simp [rateRotations]), h3]
    · rw [flatMap_const_length _ m (by simp [positionRotations]), h4]
    · intro cs hc
      simp only [Option.map_eq_some_iff] at hc
      obtain ⟨cs', hc', rfl⟩ := hc
      rw [flatMap_const_length _ m (by simp), h5 _ hc']
  · intro i p hp
    have hvp := hv i p hp
    refine ⟨?_, fun k hk => ⟨turnRow m k p, by rw [row_rotateDataset hd i k hk, hp]; rfl,
      turnRow_valid hm hvp, turnRow_same hm hvp⟩⟩
    have := row_rotateDataset hd i 0 hm
    rw [Nat.add_zero] at this
    rw [this, hp]
    obtain ⟨s, t, r, q, c⟩ := p
    obtain ⟨h1, h2, h3⟩ := hvp
    simp only at h1 h2 h3
    have hs : (rotateIndex (s - 1) 0 m + 1) * isign s = s := by
      rcases eq_or_lt_of_le h2 with h | h
      · simp [← h, isign]
      · rw [isign_pos h, rotateIndex, Nat.cast_zero, add_zero, Int.emod_eq_of_lt (by omega) (by omega)]
        ring
    have hr : roll r 0 = r := by simp [roll]
    have hq : rotate q (2 * (0 : ℕ) * Real.pi / m) = q := by
      simpa using (C35_composition q 0 0).2.1
    simp only [Option.map_some, turnRow, hs, hr, hq]

/-- Turning by `l` steps and then by `k` steps is turning by `k + l` steps, around the circle: in
particular the 120° turn has order three. -/
theorem C43_order (m : ℕ) (hm : 0 < m) (d d' d'' : RateData) (h : rotateDataset m d = .ok d')
    (h' : rotateDataset m d' = .ok d'') (i k l : ℕ) (hk : k < m) (hl : l < m)
    (hv : ∀ p, row d i = some p → Valid m p) :
    row d'' (m * (m * i + l) + k) = row d' (m * i + (k + l) % m) := by
  rw [row_rotateDataset h' _ _ hk, row_rotateDataset h _ _ hl,
    row_rotateDataset h _ _ (Nat.mod_lt _ hm)]
  cases hp : row d i with
  | none => rfl
  | some p =>
    simp only [Option.map_some]
    rw [turnRow_turnRow hm (hv p hp)]

/-- Reflecting a data set over three neighbours gives as many examples; each describes the same
experiment with the second and third neighbour exchanged; reflecting again gives the original back. -/
theorem C43_reflection (n : ℕ) (d : RateData) (hn : HasSize d n)
    (hv : ∀ i p, row d i = some p → Valid 3 p) :
    ∃ d', reflectDataset d = .ok d' ∧ HasSize d' n ∧
      (∀ i p, row d i = some p → ∃ p', row d' i = some p' ∧ Valid 3 p' ∧ SamePhysics 3 flip3 p p') ∧
      ∃ d'', reflectDataset d' = .ok d'' ∧ ∀ i, row d'' i = row d i := by
  have key : ∀ d : RateData, HasSize d n → (∀ i p, row d i = some p → Valid 3 p) →
      ∃ d', reflectDataset d = .ok d' ∧ HasSize d' n := by
    intro d hn hv
    have hal := hasSize_aligned hn
    have hr : ∀ r ∈ d.rates, r.length = 3 := by
      intro r hr
      obtain ⟨i, hi⟩ := List.getElem?_of_mem hr
      have hin : i < n := by rw [← hn.2.2.1]; exact (List.getElem?_eq_some_iff.1 hi).1
      obtain ⟨p, hp⟩ := Option.isSome_iff_exists.1 ((hasSize_row hn i).2 hin)
      have h1 := (hv i p hp).1
      have h2 : p.rates = r := by
        unfold row at hp
        rw [hi] at hp
        split at hp
        · rename_i _ hr' _
          simp only [Option.some.injEq] at hr'
          split at hp
          · simp only [Option.some.injEq] at hp; rw [← hp, hr']
          · rw [Option.map_eq_some_iff] at hp
            obtain ⟨c, _, hc⟩ := hp
            rw [← hc, hr']
        · cases hp
      rw [← h2, h1]
    have hmap : ∃ rs, d.rates.mapM reflectRates = .ok rs := by
      generalize d.rates = l at hr
      induction l with
      | nil => exact ⟨[], rfl⟩
      | cons r rs ih =>
        obtain ⟨rs', h1⟩ := ih (fun r hr' => hr r (List.mem_cons_of_mem _ hr'))
        obtain ⟨a, b, c, rfl⟩ := rates3 (hr r (by simp))
        rw [List.mapM_cons, h1]
        exact ⟨_, rfl⟩
    obtain ⟨rs, hrs⟩ := hmap
    unfold reflectDataset
    rw [if_neg (by simp [hal]), hrs]
    refine ⟨_, rfl, ?_⟩
    obtain ⟨h1, h2, h3, h4, h5⟩ := hn
    refine ⟨by simp [h1], h2, ?_, by simp [h4], h5⟩
    rw [(mapM_reflectRates hrs).1]; simp [h3]
  obtain ⟨d', hd, hn'⟩ := key d hn hv
  have hv' : ∀ i p, row d' i = some p → Valid 3 p := by
    intro i p hp
    rw [row_reflectDataset hd i, Option.map_eq_some_iff] at hp
    obtain ⟨q, hq, rfl⟩ := hp
    exact flipRow_valid (hv i q hq)
  obtain ⟨d'', hd', hn''⟩ := key d' hn' hv'
  refine ⟨d', hd, hn', ?_, d'', hd', ?_⟩
  · intro i p hp
    exact ⟨flipRow p, by rw [row_reflectDataset hd i, hp]; rfl, flipRow_valid (hv i p hp),
      flipRow_same (hv i p hp)⟩
  · intro i
    rw [row_reflectDataset hd' i, row_reflectDataset hd i]
    cases hp : row d i with
    | none => rfl
    | some p => simp only [Option.map_some]; rw [flipRow_flipRow (hv i p hp)]

theorem row_append {a b : RateData} {n : ℕ} (ha : HasSize a n)
    (hc : a.context.isSome = b.context.isSome) (i : ℕ) :
    row (a.append b) i = if i < n then row a i else row b (i - n) := by
  obtain ⟨h1, h2, h3, h4, h5⟩ := ha
  have hap : ∀ {α : Type} (x y : List α), x.length = n →
      (x ++ y)[i]? = if i < n then x[i]? else y[i - n]? := by
    intro α x y hx
    split
    · rw [List.getElem?_append_left (by omega)]
    · rw [List.getElem?_append_right (by omega), hx]
  unfold row RateData.append
  simp only [hap _ _ h1, hap _ _ h2, hap _ _ h3, hap _ _ h4]
  cases hac : a.context with
  | none =>
    have : b.context = none := by
      cases hbc : b.context with
      | none => rfl
      | some y => simp [hac, hbc] at hc
    simp only [this]
    by_cases hin : i < n <;> simp [hin]
  | some x =>
    obtain ⟨y, hy⟩ : ∃ y, b.context = some y := by
      cases hbc : b.context with
      | none => simp [hac, hbc] at hc
      | some y => exact ⟨y, rfl⟩
    simp only [hy, hap _ _ (h5 x hac)]
    by_cases hin : i < n <;> simp [hin]

/-- Full augmentation of `n` examples over three neighbours gives `6 * n` examples, 3 rotations of each
example and of its mirror image, all arrays aligned, and each describes the same experiment as its
original under some renaming of the neighbours. -/
theorem C43_augment (n : ℕ) (d : RateData) (hn : HasSize d n)
    (hv : ∀ i p, row d i = some p → Valid 3 p) :
    ∃ d', augmentData true 3 d = .ok d' ∧ HasSize d' (6 * n) ∧
      ∀ i p, row d i = some p → ∀ k, k < 3 →
        (∃ p', row d' (3 * i + k) = some p' ∧ Valid 3 p' ∧ SamePhysics 3 (fun j => (j + k) % 3) p p') ∧
        (∃ p', row d' (3 * (n + i) + k) = some p' ∧ Valid 3 p' ∧
          SamePhysics 3 (fun j => (flip3 j + k) % 3) p p') := by
  obtain ⟨r, hr, hrn, hrow, -⟩ := C43_reflection n d hn hv
  have hctx : r.context = d.context := by
    unfold reflectDataset at hr
    split at hr
    · cases hr
    split at hr
    · cases hr
    rw [Except.ok.injEq] at hr
    rw [← hr]
  have hra := row_append (b := r) hn (by rw [hctx])
  have han : HasSize (d.append r) (2 * n) := by
    obtain ⟨h1, h2, h3, h4, h5⟩ := hn
    obtain ⟨g1, g2, g3, g4, g5⟩ := hrn
    refine ⟨?_, ?_, ?_, ?_, ?_⟩
    · simp [RateData.append, h1, g1]; omega
    · simp [RateData.append, h2, g2]; omega
    · simp [RateData.append, h3, g3]; omega
    · simp [RateData.append, h4, g4]; omega
    · intro cs hc
      simp only [RateData.append] at hc
      split at hc
      · rename_i x y hx hy
        simp only [Option.some.injEq] at hc
        rw [← hc, List.length_append, h5 x hx, g5 y hy]; omega
      · cases hc
  have hav : ∀ i p, row (d.append r) i = some p → Valid 3 p := by
    intro i p hp
    rw [hra i] at hp
    split at hp
    · exact hv i p hp
    · rw [row_reflectDataset hr, Option.map_eq_some_iff] at hp
      obtain ⟨q, hq, rfl⟩ := hp
      exact flipRow_valid (hv _ q hq)
  obtain ⟨d', hd, hdn, hdr⟩ := C43_rotations 3 (2 * n) (by norm_num) (d.append r) han hav
  refine ⟨d', by unfold augmentData; rw [if_pos rfl, hr]; exact hd, ?_, ?_⟩
  · have : 3 * (2 * n) = 6 * n := by ring
    rwa [this] at hdn
  · intro i p hp k hk
    have hin : i < n := (hasSize_row hn i).1 (by rw [hp]; rfl)
    refine ⟨(hdr i p (by rw [hra i, if_pos hin, hp])).2 k hk, ?_⟩
    obtain ⟨q, hq, hqv, hqs⟩ := hrow i p hp
    obtain ⟨p', h1, h2, h3⟩ := (hdr (n + i) q (by
      rw [hra, if_neg (by omega), Nat.add_sub_cancel_left, hq])).2 k hk
    refine ⟨p', h1, h2, ?_⟩
    refine ⟨h3.bij.comp hqs.bij, h3.dt.trans hqs.dt, h3.context.trans hqs.context,
      h3.silicon.trans hqs.silicon, ?_, ?_, fun h => h3.stayed (hqs.stayed h), ?_⟩
    · intro b j hj
      rw [← hqs.distance b j hj]
      exact h3.distance b (flip3 j) (hqs.bij.mapsTo hj)
    · intro j hj
      rw [← hqs.rate j hj]
      exact h3.rate (flip3 j) (hqs.bij.mapsTo hj)
    · intro j hj h
      exact h3.moved (flip3 j) (hqs.bij.mapsTo hj) (hqs.moved j hj h)

/-- Augmentation raises when the arrays have different lengths or there are no neighbours, and when
reflecting rates other than three. -/
theorem C43_rejects (d : RateData) :
    (d.aligned = false → ∀ refl m, augmentData refl m d = .error .valueError) ∧
    rotateDataset 0 d = .error .valueError ∧
    (d.aligned = true → (∃ r ∈ d.rates, r.length ≠ 3) → ∀ m, ∃ e, augmentData true m d = .error e) := by
  refine ⟨?_, ?_, ?_⟩
  · intro h refl m
    cases refl <;> simp [augmentData, reflectDataset, rotateDataset, h]
  · unfold rotateDataset; split <;> rfl
  · rintro h ⟨r, hr, hne⟩ m
    have : ∃ e, d.rates.mapM reflectRates = .error e := by
      cases hm : d.rates.mapM reflectRates with
      | error e => exact ⟨e, rfl⟩
      | ok rs => exact absurd ((mapM_reflectRates hm).2 r hr) hne
    obtain ⟨e, he⟩ := this
    exact ⟨e, by simp [augmentData, reflectDataset, h, he]⟩

/-- Two examples, one in which the silicon stayed and one in which it went to the second neighbour. -/
def augmentExample : RateData where
  states := [0, 2]
  dt := [1, 2]
  rates := [[1, 2, 3], [4, 5, 6]]
  position := [⟨1, 0⟩, ⟨0, 1⟩]
  context := none

example : HasSize augmentExample 2 ∧ (∀ i p, row augmentExample i = some p → Valid 3 p) ∧
    (row augmentExample 1).isSome := by
  refine ⟨⟨rfl, rfl, rfl, rfl, by simp [augmentExample]⟩, ?_, by simp [row, augmentExample]⟩
  intro i p hp
  match i with
  | 0 => simp only [row, augmentExample, List.getElem?_cons_zero, Option.some.injEq] at hp
         subst hp; exact ⟨rfl, by norm_num, by norm_num⟩
  | 1 => simp only [row, augmentExample, List.getElem?_cons_succ, List.getElem?_cons_zero,
           Option.some.injEq] at hp
         subst hp; exact ⟨rfl, by norm_num, by norm_num⟩
  | i + 2 => simp [row, augmentExample] at hp

end PD.Props
