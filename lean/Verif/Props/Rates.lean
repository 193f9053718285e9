/- Properties C36–C38: the rate functions. -/
import Verif.Model.Rates
import Verif.Spec.Mixture
import Verif.Props.Geometry
import Verif.Props.Material

set_option linter.unusedSectionVars false
set_option linter.unusedSimpArgs false

namespace PD.Props
open PD PD.Spec

theorem dist_nonneg (p q : V2 ℝ) : 0 ≤ Spec.dist p q := Real.sqrt_nonneg _

theorem dist_eq_zero {p q : V2 ℝ} : Spec.dist p q = 0 ↔ p = q := by
  unfold Spec.dist
  rw [Real.sqrt_eq_zero (by positivity)]
  constructor
  · intro h
    have h1 : (p.x - q.x) ^ 2 = 0 := by nlinarith [sq_nonneg (p.x - q.x), sq_nonneg (p.y - q.y)]
    have h2 : (p.y - q.y) ^ 2 = 0 := by nlinarith [sq_nonneg (p.x - q.x), sq_nonneg (p.y - q.y)]
    have h1 := pow_eq_zero_iff (two_ne_zero) |>.1 h1
    have h2 := pow_eq_zero_iff (two_ne_zero) |>.1 h2
    ext <;> linarith
  · rintro rfl; ring

theorem simpleRate_eq (beam si n : V2 ℝ) :
    simpleRate beam si n = 1 / ((Spec.dist beam n * (4 / BOND)) ^ 2 + 1) := by
  simp only [simpleRate, norm2_eq_len]
  have : (beam - si - (n - si)) = beam - n := by ext <;> simp
  rw [this, ← dist_eq_len]
  congr 3
  ring

theorem takeRows_ok {α : Type} {rows : List α} {idx : List ℕ} {rs : List α}
    (h : takeRows rows idx = .ok rs) : rs.length = idx.length ∧
      ∀ k : ℕ, rs[k]? = (idx[k]?).bind (fun i => rows[i]?) := by
  induction idx generalizing rs with
  | nil => simp only [takeRows, Except.ok.injEq] at h; subst h; simp
  | cons i is ih =>
    simp only [takeRows] at h
    split at h
    · cases h
    · rename_i r hr
      split at h
      · cases h
      · rename_i rs' hrs
        cases h
        obtain ⟨h1, h2⟩ := ih hrs
        refine ⟨by simp [h1], fun k => ?_⟩
        cases k with
        | zero => simp [hr]
        | succ k => simpa using h2 k

theorem takeRows_zip {α β : Type} {rows : List α} {idx : List ℕ} {rs : List α} (f : α → β) (d : β)
    (h : takeRows rows idx = .ok rs) :
    idx.zip (rs.map f) = idx.map (fun i => (i, ((rows[i]?).map f).getD d)) := by
  induction idx generalizing rs with
  | nil => rfl
  | cons i is ih =>
    simp only [takeRows] at h
    split at h
    · cases h
    · rename_i r hr
      split at h
      · cases h
      · rename_i rs' hrs
        cases h
        simp [hr, ih hrs]

theorem takeRows_inRange {α : Type} {rows : List α} {idx : List ℕ}
    (h : ∀ i ∈ idx, i < rows.length) : ∃ rs, takeRows rows idx = .ok rs := by
  induction idx with
  | nil => exact ⟨[], rfl⟩
  | cons i is ih =>
    obtain ⟨rs, hrs⟩ := ih (fun j hj => h j (List.mem_cons_of_mem _ hj))
    have hi := h i List.mem_cons_self
    refine ⟨rows[i] :: rs, ?_⟩
    simp [takeRows, hrs, hi]

theorem takeRows_error {α : Type} {rows : List α} {idx : List ℕ}
    (h : ∃ i ∈ idx, rows.length ≤ i) : takeRows rows idx = .error .indexError := by
  induction idx with
  | nil => simp at h
  | cons i is ih =>
    simp only [takeRows]
    cases hr : rows[i]? with
    | none => rfl
    | some r =>
      simp only
      obtain ⟨j, hj, hjl⟩ := h
      rcases List.mem_cons.1 hj with rfl | hj
      · rw [List.getElem?_eq_none hjl] at hr; cases hr
      · rw [ih ⟨j, hj, hjl⟩]

/-! ### C36 the simple rate function -/

/-- For valid neighbour indices the function returns one rate per neighbour, in the order of the
neighbours; an index beyond the grid raises. -/
theorem C36_one_rate_per_neighbour (grid : Grid ℝ) (beam si : V2 ℝ) (idx : List ℕ) :
    ((∃ i ∈ idx, grid.positions.length ≤ i) →
      simpleCanonicalRates grid beam si idx = .error .indexError) ∧
    ((∀ i ∈ idx, i < grid.positions.length) → ∃ rates,
      simpleCanonicalRates grid beam si idx = .ok rates ∧ rates.length = idx.length ∧
      ∀ (k i : ℕ) (n : V2 ℝ), idx[k]? = some i → grid.positions[i]? = some n →
        rates[k]? = some (simpleRate beam si n)) := by
  constructor
  · intro h
    simp [simpleCanonicalRates, takeRows_error h]
  · intro h
    obtain ⟨rs, hrs⟩ := takeRows_inRange h
    obtain ⟨h1, h2⟩ := takeRows_ok hrs
    refine ⟨rs.map (simpleRate beam si), by simp [simpleCanonicalRates, hrs], by simp [h1], ?_⟩
    intro k i n hk hn
    rw [List.getElem?_map, h2 k, hk]
    simp [hn]

/-- Every rate lies in (0, 1]; it is 1 exactly when the beam is on the neighbour; a neighbour
farther from the beam gets a strictly smaller rate. -/
theorem C36_range_and_order (beam si n m : V2 ℝ) :
    0 < simpleRate beam si n ∧ simpleRate beam si n ≤ 1 ∧
    (simpleRate beam si n = 1 ↔ beam = n) ∧
    (simpleRate beam si n < simpleRate beam si m ↔ Spec.dist beam m < Spec.dist beam n) := by
  simp only [simpleRate_eq]
  have hB : (0 : ℝ) < 4 / BOND := by norm_num [BOND]
  have hd := dist_nonneg beam n
  have hd' := dist_nonneg beam m
  have hpos : ∀ p, 0 < (Spec.dist beam p * (4 / BOND)) ^ 2 + 1 := fun p => by positivity
  refine ⟨by positivity, ?_, ?_, ?_⟩
  · rw [div_le_one (hpos n)]; nlinarith [sq_nonneg (Spec.dist beam n * (4 / BOND))]
  · rw [div_eq_one_iff_eq (hpos n).ne']
    rw [← dist_eq_zero]
    constructor
    · intro h
      have h2 : (Spec.dist beam n * (4 / BOND)) ^ 2 = 0 := by linarith
      have h3 := pow_eq_zero_iff (two_ne_zero) |>.1 h2
      rcases mul_eq_zero.1 h3 with h | h
      · exact h
      · exact absurd h hB.ne'
    · intro h; rw [h]; ring
  · rw [one_div_lt_one_div (hpos n) (hpos m), add_lt_add_iff_right,
      sq_lt_sq₀ (by positivity) (by positivity), mul_lt_mul_iff_left₀ hB]

/-- The rate does not change when beam, silicon and neighbour are all moved by the same shift and
turned by the same angle; nor does it depend on where the silicon is. -/
theorem C36_rigid_motion (beam si n s : V2 ℝ) (θ : ℝ) :
    simpleRate (beam + s) (si + s) (n + s) = simpleRate beam si n ∧
    simpleRate (rotate beam θ) (rotate si θ) (rotate n θ) = simpleRate beam si n ∧
    ∀ si', simpleRate beam si' n = simpleRate beam si n := by
  simp only [simpleRate_eq, C35_distance]
  refine ⟨?_, trivial, fun _ => trivial⟩
  have : Spec.dist (beam + s) (n + s) = Spec.dist beam n := by
    simp [Spec.dist]
  rw [this]

/-- Passing the neighbours in another order permutes the rates accordingly. -/
theorem C36_permutation (grid : Grid ℝ) (beam si : V2 ℝ) (idx idx' : List ℕ)
    (hp : idx.Perm idx') (rates rates' : List ℝ)
    (h : simpleCanonicalRates grid beam si idx = .ok rates)
    (h' : simpleCanonicalRates grid beam si idx' = .ok rates') :
    (idx.zip rates).Perm (idx'.zip rates') := by
  have key : ∀ (idx : List ℕ) (rates : List ℝ), simpleCanonicalRates grid beam si idx = .ok rates →
      idx.zip rates = idx.map (fun i => (i, ((grid.positions[i]?).map (simpleRate beam si)).getD 0)) := by
    intro idx rates h
    simp only [simpleCanonicalRates] at h
    split at h
    · cases h
    · rename_i nbrs hn
      cases h
      exact takeRows_zip _ 0 hn
  rw [key _ _ h, key _ _ h']
  exact hp.map _

/-- Beam on the first neighbour, second neighbour one bond away: rates 1 and 1/17. -/
example : simpleCanonicalRates ⟨[⟨0, 0⟩, ⟨142/100, 0⟩, ⟨284/100, 0⟩], [14, 6, 6]⟩ ⟨142/100, 0⟩ ⟨0, 0⟩
    [1, 2] = .ok [1, 1/17] := by
  have h0 : Real.sqrt (((284 : ℝ) / 100 - 142 / 100) ^ 2) = 142 / 100 := by
    rw [Real.sqrt_sq (by norm_num)]; norm_num
  have h1 : Spec.dist (⟨142/100, 0⟩ : V2 ℝ) ⟨284/100, 0⟩ = 142 / 100 := by
    simp only [Spec.dist]
    rw [show ((142 : ℝ) / 100 - 284 / 100) ^ 2 + (0 - 0) ^ 2 = (284 / 100 - 142 / 100) ^ 2 by norm_num,
      h0]
  have h2 : Spec.dist (⟨142/100, 0⟩ : V2 ℝ) ⟨142/100, 0⟩ = 0 := dist_eq_zero.2 rfl
  simp [simpleCanonicalRates, takeRows, simpleRate_eq, h1, h2, BOND]
  norm_num

/-! ### Gaussian densities -/

theorem quad_nonneg {m : Mat2} (hm : m.PosDef) (x y : ℝ) :
    0 ≤ m.a22 * x ^ 2 - 2 * m.a12 * x * y + m.a11 * y ^ 2 := by
  obtain ⟨hs, h1, hd⟩ := hm
  simp only [Mat2.det, ← hs] at hd
  have : m.a11 * (m.a22 * x ^ 2 - 2 * m.a12 * x * y + m.a11 * y ^ 2) =
      (m.a11 * m.a22 - m.a12 * m.a12) * x ^ 2 + (m.a11 * y - m.a12 * x) ^ 2 := by ring
  have h2 : 0 ≤ m.a11 * (m.a22 * x ^ 2 - 2 * m.a12 * x * y + m.a11 * y ^ 2) := by
    rw [this]; positivity
  exact nonneg_of_mul_nonneg_right h2 h1

theorem quad_eq_zero {m : Mat2} (hm : m.PosDef) (x y : ℝ) :
    m.a22 * x ^ 2 - 2 * m.a12 * x * y + m.a11 * y ^ 2 = 0 ↔ x = 0 ∧ y = 0 := by
  constructor
  · intro h
    obtain ⟨hs, h1, hd⟩ := hm
    simp only [Mat2.det, ← hs] at hd
    have : (m.a11 * m.a22 - m.a12 * m.a12) * x ^ 2 + (m.a11 * y - m.a12 * x) ^ 2 = 0 := by
      linear_combination m.a11 * h
    have hx : (m.a11 * m.a22 - m.a12 * m.a12) * x ^ 2 = 0 := by
      nlinarith [mul_nonneg hd.le (sq_nonneg x), sq_nonneg (m.a11 * y - m.a12 * x)]
    have hx0 : x = 0 := by
      rcases mul_eq_zero.1 hx with h | h
      · exact absurd h hd.ne'
      · exact pow_eq_zero_iff two_ne_zero |>.1 h
    subst hx0
    refine ⟨rfl, ?_⟩
    have : m.a11 * y ^ 2 = 0 := by linarith
    rcases mul_eq_zero.1 this with h | h
    · exact absurd h h1.ne'
    · exact pow_eq_zero_iff two_ne_zero |>.1 h
  · rintro ⟨rfl, rfl⟩; ring

theorem mvnPdf_self {m : Mat2} (hm : m.PosDef) (p : V2 ℝ) :
    mvnPdf p p m = .ok (1 / (2 * Real.pi * Real.sqrt m.det)) := by
  simp [mvnPdf, hm]

/-- The density is positive, at most its value at the mean, and equal to it only there. -/
theorem mvnPdf_le {m : Mat2} (hm : m.PosDef) (p mean : V2 ℝ) : ∃ d,
    mvnPdf p mean m = .ok d ∧ 0 < d ∧ d ≤ 1 / (2 * Real.pi * Real.sqrt m.det) ∧
    (d = 1 / (2 * Real.pi * Real.sqrt m.det) ↔ p = mean) := by
  have hd : 0 < m.det := hm.2.2
  have hpi := Real.pi_pos
  have hs : 0 < Real.sqrt m.det := Real.sqrt_pos.2 hd
  refine ⟨Real.exp (-((m.a22 * (p - mean).x ^ 2 - 2 * m.a12 * (p - mean).x * (p - mean).y +
      m.a11 * (p - mean).y ^ 2) / m.det / 2)) / (2 * Real.pi * Real.sqrt m.det),
    by simp only [mvnPdf, hm, if_true], by positivity, ?_, ?_⟩
  · apply div_le_div_of_nonneg_right _ (by positivity)
    rw [Real.exp_le_one_iff]
    have := quad_nonneg hm (p - mean).x (p - mean).y
    have : 0 ≤ (m.a22 * (p - mean).x ^ 2 - 2 * m.a12 * (p - mean).x * (p - mean).y +
      m.a11 * (p - mean).y ^ 2) / m.det := div_nonneg this hd.le
    linarith
  · rw [div_left_inj' (by positivity), Real.exp_eq_one_iff, neg_eq_zero, div_eq_zero_iff,
      div_eq_zero_iff]
    simp only [hd.ne', or_false, OfNat.ofNat_ne_zero, quad_eq_zero hm]
    simp only [V2.sub_x, V2.sub_y, sub_eq_zero]
    constructor
    · rintro ⟨h1, h2⟩; ext <;> assumption
    · rintro rfl; exact ⟨rfl, rfl⟩

theorem singleSiliconPriorRates_le {m : Mat2} (hm : m.PosDef) (p mean : V2 ℝ) {maxRate : ℝ}
    (hmax : 0 < maxRate) : ∃ r, singleSiliconPriorRates p mean m maxRate = .ok r ∧ 0 < r ∧
      r ≤ maxRate ∧ (r = maxRate ↔ p = mean) := by
  obtain ⟨d, h1, h2, h3, h4⟩ := mvnPdf_le hm p mean
  have hd : 0 < m.det := hm.2.2
  have hpi := Real.pi_pos
  have hs : 0 < Real.sqrt m.det := Real.sqrt_pos.2 hd
  set P := 1 / (2 * Real.pi * Real.sqrt m.det) with hP
  have hPpos : 0 < P := by positivity
  refine ⟨d * (maxRate / P), ?_, by positivity, ?_, ?_⟩
  · simp only [singleSiliconPriorRates, mvnPdf_self hm, h1, ← hP]
  · calc d * (maxRate / P) ≤ P * (maxRate / P) := by gcongr
      _ = maxRate := by field_simp
  · rw [← h4]
    constructor
    · intro h
      have : d * maxRate = P * maxRate := by
        field_simp at h ⊢
        linarith
      exact mul_right_cancel₀ hmax.ne' this
    · rintro h; rw [h]; field_simp

theorem mapM_ok {α β : Type} {f : α → Except Err β} {P : α → β → Prop} {l : List α}
    (h : ∀ a ∈ l, ∃ b, f a = .ok b ∧ P a b) :
    ∃ bs, l.mapM f = .ok bs ∧ bs.length = l.length ∧
      ∀ (k : ℕ) (a : α), l[k]? = some a → ∃ b, bs[k]? = some b ∧ f a = .ok b ∧ P a b := by
  induction l with
  | nil => exact ⟨[], rfl, rfl, by simp⟩
  | cons a l ih =>
    obtain ⟨b, hb, hp⟩ := h a List.mem_cons_self
    obtain ⟨bs, h1, h2, h3⟩ := ih (fun x hx => h x (List.mem_cons_of_mem _ hx))
    refine ⟨b :: bs, ?_, by simp [h2], ?_⟩
    · simp [List.mapM_cons, hb, h1, bind, Except.bind, pure, Except.pure]
    · intro k a' hk
      cases k with
      | zero => simp at hk; subst hk; exact ⟨b, rfl, hb, hp⟩
      | succ k => exact h3 k a' (by simpa using hk)

/-! ### C37 the human prior -/

theorem default_posDef : HumanPrior.default.cov.PosDef := by
  simp only [HumanPrior.default, Mat2.PosDef, Mat2.det]; norm_num

/-- The direction `(cos, sin)` of the angle of a vector, scaled: the mirrored peak in beam
coordinates. -/
theorem peak_eq (si n beam : V2 ℝ) (hn : n ≠ si) (m : ℝ) :
    V2.smul (1 / BOND) (beam - si) = rotate ⟨m, 0⟩ (-getAngle (n - si)) ↔
      beam = towards si (mirror si n) (m * BOND) := by
  have hl : len (n - si) ≠ 0 := by
    intro h
    exact hn (dist_eq_zero.1 (by rw [dist_eq_len]; exact h))
  have hB : (BOND : ℝ) ≠ 0 := by norm_num [BOND]
  have hx := len_cos_angle (n - si)
  have hy := len_sin_angle (n - si)
  have hd : Spec.dist si (mirror si n) = len (n - si) := by
    simp only [Spec.dist, mirror, len, V2.sub_x, V2.sub_y]
    congr 1; ring
  have hc : Real.cos (getAngle (n - si)) = (n.x - si.x) / len (n - si) := by
    rw [eq_div_iff hl, mul_comm]; exact hx
  have hs : Real.sin (getAngle (n - si)) = (n.y - si.y) / len (n - si) := by
    rw [eq_div_iff hl, mul_comm]; exact hy
  rw [towards, hd]
  simp only [V2.ext_iff, rotate, V2.smul_x, V2.smul_y, V2.add_x, V2.add_y, V2.sub_x, V2.sub_y,
    Real.cos_neg, Real.sin_neg, hc, hs, mirror]
  constructor
  · rintro ⟨h1, h2⟩
    constructor
    · field_simp at h1 ⊢; linarith
    · field_simp at h2 ⊢; linarith
  · rintro ⟨h1, h2⟩
    constructor
    · rw [h1]; field_simp; ring
    · rw [h2]; field_simp; ring

/-- What the default human prior computes: for every neighbour a positive rate of at most ln 2/3,
reached exactly when the beam is displaced 0.85 bond lengths from the silicon towards the mirror
image of the neighbour in the horizontal line through the silicon. -/
theorem C37_peak_at_mirror_image (grid : Grid ℝ) (beam si : V2 ℝ) (idx : List ℕ)
    (hidx : ∀ i ∈ idx, i < grid.positions.length) :
    ∃ rates, HumanPrior.default.predict grid beam si idx = .ok rates ∧ rates.length = idx.length ∧
      ∀ (k i : ℕ) (n : V2 ℝ), idx[k]? = some i → grid.positions[i]? = some n → n ≠ si →
        ∃ r, rates[k]? = some r ∧ 0 < r ∧ r ≤ Real.log 2 / 3 ∧
          (r = Real.log 2 / 3 ↔ beam = towards si (mirror si n) (85 / 100 * BOND)) := by
  obtain ⟨nbrs, hn⟩ := takeRows_inRange hidx
  obtain ⟨h1, h2⟩ := takeRows_ok hn
  have hlog : 0 < Real.log 2 / 3 := by have := Real.log_pos one_lt_two; positivity
  obtain ⟨rates, h3, h4, h5⟩ := mapM_ok (f := HumanPrior.default.rateAt (V2.smul (1 / BOND) (beam - si)))
    (l := getAngles (nbrs.map (fun n => n - si)))
    (P := fun a r => 0 < r ∧ r ≤ Real.log 2 / 3 ∧ (r = Real.log 2 / 3 ↔
      V2.smul (1 / BOND) (beam - si) = rotate ⟨85 / 100, 0⟩ (-a))) (by
      intro a _
      exact singleSiliconPriorRates_le default_posDef _ _ hlog)
  refine ⟨rates, by simp only [HumanPrior.predict, hn, h3], by simp [h4, getAngles, h1], ?_⟩
  intro k i n hk hi hns
  have : (getAngles (nbrs.map (fun n => n - si)))[k]? = some (getAngle (n - si)) := by
    simp [getAngles, h2 k, hk, hi]
  obtain ⟨r, hr, _, hp, hle, hiff⟩ := h5 k _ this
  exact ⟨r, hr, hp, hle, by rw [hiff, peak_eq si n beam hns]⟩

theorem mirror_eq {p q : V2 ℝ} (h : q.y = p.y) : mirror p q = q := by
  ext <;> simp [mirror, h]

/-- C37 for neighbours level with the silicon: the rate peaks, at ln 2/3, exactly when the beam is
displaced 0.85 bond lengths towards the neighbour.  Missing: neighbours in other directions, for
which it is false (`C37_peak_not_towards_neighbour`). -/
theorem C37_peak_partial (grid : Grid ℝ) (beam si : V2 ℝ) (idx : List ℕ)
    (hidx : ∀ i ∈ idx, i < grid.positions.length) :
    ∃ rates, HumanPrior.default.predict grid beam si idx = .ok rates ∧ rates.length = idx.length ∧
      ∀ (k i : ℕ) (n : V2 ℝ), idx[k]? = some i → grid.positions[i]? = some n → n ≠ si →
        n.y = si.y →
        ∃ r, rates[k]? = some r ∧ 0 < r ∧ r ≤ Real.log 2 / 3 ∧
          (r = Real.log 2 / 3 ↔ beam = towards si n (85 / 100 * BOND)) := by
  obtain ⟨rates, h1, h2, h3⟩ := C37_peak_at_mirror_image grid beam si idx hidx
  refine ⟨rates, h1, h2, fun k i n hk hi hn hy => ?_⟩
  obtain ⟨r, h4⟩ := h3 k i n hk hi hn
  rw [mirror_eq hy] at h4
  exact ⟨r, h4⟩

/-- The claimed peak is not the peak: for every neighbour that is not level with the silicon, the
rate with the beam displaced 0.85 bond lengths towards it is smaller than the rate with the beam
displaced towards its mirror image. -/
theorem C37_peak_not_towards_neighbour (grid : Grid ℝ) (si : V2 ℝ) (idx : List ℕ)
    (hidx : ∀ i ∈ idx, i < grid.positions.length) (k i : ℕ) (n : V2 ℝ) (hk : idx[k]? = some i)
    (hi : grid.positions[i]? = some n) (hy : n.y ≠ si.y) :
    ∃ rates rates' r r',
      HumanPrior.default.predict grid (towards si n (85 / 100 * BOND)) si idx = .ok rates ∧
      HumanPrior.default.predict grid (towards si (mirror si n) (85 / 100 * BOND)) si idx
        = .ok rates' ∧
      rates[k]? = some r ∧ rates'[k]? = some r' ∧ r < r' ∧ r' = Real.log 2 / 3 := by
  have hn : n ≠ si := by rintro rfl; exact hy rfl
  obtain ⟨rates, h1, _, h3⟩ := C37_peak_at_mirror_image grid (towards si n (85 / 100 * BOND)) si idx hidx
  obtain ⟨rates', h1', _, h3'⟩ := C37_peak_at_mirror_image grid
    (towards si (mirror si n) (85 / 100 * BOND)) si idx hidx
  obtain ⟨r, hr, _, hle, hiff⟩ := h3 k i n hk hi hn
  obtain ⟨r', hr', _, _, hiff'⟩ := h3' k i n hk hi hn
  have e := hiff'.2 rfl
  refine ⟨rates, rates', r, r', h1, h1', hr, hr', ?_, e⟩
  rw [e]
  apply lt_of_le_of_ne hle
  intro h
  have := congrArg V2.y (hiff.1 h)
  have hd : Spec.dist si (mirror si n) = Spec.dist si n := by
    simp only [Spec.dist, mirror]; congr 1; ring
  simp only [mirror] at hd
  have hd0 : Spec.dist si n ≠ 0 := fun h0 => hn (dist_eq_zero.1 h0).symm
  simp only [towards, mirror, hd, V2.add_y, V2.smul_y, V2.sub_y, add_right_inj] at this
  have hB : (BOND : ℝ) ≠ 0 := by norm_num [BOND]
  have : n.y - si.y = si.y - (n.y - si.y) - si.y := by
    refine mul_left_cancel₀ ?_ this
    exact div_ne_zero (mul_ne_zero (by norm_num) hB) hd0
  exact hy (by linarith)

/-- A silicon with a neighbour above it, and a neighbour to its right. -/
example : ∀ i ∈ [1, 2], i < (⟨[⟨0, 0⟩, ⟨0, 142/100⟩, ⟨142/100, 0⟩], [14, 6, 6]⟩ : Grid ℝ).positions.length :=
  by simp
example : (⟨0, 142/100⟩ : V2 ℝ).y ≠ (⟨0, 0⟩ : V2 ℝ).y ∧ (⟨142/100, 0⟩ : V2 ℝ).y = (⟨0, 0⟩ : V2 ℝ).y := by
  norm_num
/-- In that sheet the peak for the neighbour above lies below the silicon. -/
example : towards ⟨0, 0⟩ (mirror ⟨0, 0⟩ ⟨0, 142/100⟩) (85 / 100 * BOND) = ⟨0, -(1207 / 1000)⟩ := by
  have : Spec.dist (⟨0, 0⟩ : V2 ℝ) ⟨0, 0 - (142 / 100 - 0)⟩ = 142 / 100 := by
    simp only [Spec.dist]
    rw [show ((0 : ℝ) - 0) ^ 2 + (0 - (0 - (142 / 100 - 0))) ^ 2 = (142 / 100) ^ 2 by norm_num,
      Real.sqrt_sq (by norm_num)]
  ext <;> simp only [towards, mirror, this, V2.add_x, V2.add_y, V2.smul_x, V2.smul_y, V2.sub_x,
    V2.sub_y, BOND] <;> norm_num

/-! ### C38 the Gaussian mixture -/

theorem norm2_orthog (d : V2 ℝ) : norm2 (⟨-d.y, d.x⟩ : V2 ℝ) = norm2 d := by
  simp only [norm2]; congr 1; ring

/-- The covariance matrix built for a neighbour is positive definite with determinant the product
of the variances. -/
theorem covariance_posDef {delta : V2 ℝ} (hd : delta ≠ 0) {v : V2 ℝ} (hx : 0 < v.x) (hy : 0 < v.y) :
    ∃ einv, (eigenvectors delta).inv = some einv ∧
      (((eigenvectors delta).mul (Mat2.diag v)).mul einv).PosDef ∧
      (((eigenvectors delta).mul (Mat2.diag v)).mul einv).det = v.x * v.y := by
  have hl : norm2 delta ≠ 0 := by
    rw [norm2_eq_len]
    intro h
    apply hd
    have : Spec.dist delta 0 = 0 := by
      rw [dist_eq_len, ← h]; congr 1; ext <;> simp
    exact dist_eq_zero.1 this
  have hsq : norm2 delta ^ 2 = delta.x * delta.x + delta.y * delta.y := by
    rw [norm2, Real.sq_sqrt (by nlinarith [mul_self_nonneg delta.x, mul_self_nonneg delta.y])]
  set L := norm2 delta with hL
  set u := 1 / L * delta.x with hu
  set w := 1 / L * delta.y with hw
  have huw : u ^ 2 + w ^ 2 = 1 := by
    rw [hu, hw]; field_simp; rw [hsq]; ring
  have he : eigenvectors delta = ⟨u, -w, w, u⟩ := by
    simp only [eigenvectors, norm2_orthog, V2.smul, ← hL, hu, hw]
    congr 1
    ring
  have hdet : (⟨u, -w, w, u⟩ : Mat2).det = 1 := by simp only [Mat2.det]; linear_combination huw
  refine ⟨⟨u, w, -w, u⟩, by rw [he]; simp [Mat2.inv, hdet], ?_, ?_⟩
  · rw [he]
    refine ⟨by simp only [Mat2.mul, Mat2.diag]; ring, ?_, ?_⟩
    · have : ((Mat2.mul ⟨u, -w, w, u⟩ (Mat2.diag v)).mul ⟨u, w, -w, u⟩).a11 = v.x * u ^ 2 + v.y * w ^ 2 := by
        simp only [Mat2.mul, Mat2.diag]; ring
      rw [this]
      rcases eq_or_ne u 0 with h0 | h0
      · have : w ^ 2 = 1 := by rw [h0] at huw; linarith
        rw [h0, this]; linarith
      · positivity
    · have : ((Mat2.mul ⟨u, -w, w, u⟩ (Mat2.diag v)).mul ⟨u, w, -w, u⟩).det = v.x * v.y := by
        simp only [Mat2.mul, Mat2.diag, Mat2.det]
        linear_combination (v.x * v.y * (u ^ 2 + w ^ 2 + 1)) * huw
      rw [this]; positivity
  · rw [he]
    simp only [Mat2.mul, Mat2.diag, Mat2.det]
    linear_combination (v.x * v.y * (u ^ 2 + w ^ 2 + 1)) * huw

/-- The peak density of a component. -/
noncomputable def modeProb (c : Component) : ℝ :=
  1 / (2 * Real.pi * Real.sqrt (c.variance.x * c.variance.y))

theorem modeProb_pos {c : Component} (hx : 0 < c.variance.x) (hy : 0 < c.variance.y) :
    0 < modeProb c := by
  have := Real.sqrt_pos.2 (mul_pos hx hy)
  have := Real.pi_pos
  unfold modeProb; positivity

theorem maxModeProb_ok (cs : List Component) (m : ℝ)
    (hv : ∀ c ∈ cs, 0 < c.variance.x ∧ 0 < c.variance.y) :
    ∃ M, Gmm.maxModeProb cs m = .ok M ∧ m ≤ M ∧ (∀ c ∈ cs, modeProb c * c.weight ≤ M) ∧
      (M = m ∨ ∃ c ∈ cs, M = modeProb c * c.weight) := by
  induction cs generalizing m with
  | nil => exact ⟨m, rfl, le_rfl, by simp, Or.inl rfl⟩
  | cons c cs ih =>
    obtain ⟨hx, hy⟩ := hv c List.mem_cons_self
    have hpd : (Mat2.diag c.variance).PosDef :=
      ⟨rfl, hx, by simp only [Mat2.det, Mat2.diag]; nlinarith [mul_pos hx hy]⟩
    have hpdf : mvnPdf 0 0 (Mat2.diag c.variance) = .ok (modeProb c) := by
      rw [mvnPdf_self hpd]
      simp [modeProb, Mat2.det, Mat2.diag]
    obtain ⟨M, h1, h2, h3, h4⟩ := ih (max m (modeProb c * c.weight))
      (fun c' hc' => hv c' (List.mem_cons_of_mem _ hc'))
    refine ⟨M, by simp only [Gmm.maxModeProb, hpdf, h1], (le_max_left _ _).trans h2, ?_, ?_⟩
    · intro c' hc'
      rcases List.mem_cons.1 hc' with rfl | hc'
      · exact (le_max_right _ _).trans h2
      · exact h3 c' hc'
    · rcases h4 with h4 | ⟨c', hc', h4⟩
      · rcases max_choice m (modeProb c * c.weight) with h | h
        · left; rw [h4, h]
        · right; exact ⟨c, List.mem_cons_self, by rw [h4, h]⟩
      · right; exact ⟨c', List.mem_cons_of_mem _ hc', h4⟩

/-- Contribution of one component: between 0 and its peak, which it reaches exactly with the beam
on the component's centre. -/
theorem mixtureRate_ok {norm : ℝ} (hn : 0 ≤ norm) (si beam : V2 ℝ) {delta : V2 ℝ} (hd : delta ≠ 0)
    {c : Component} (hw : 0 ≤ c.weight) (hx : 0 < c.variance.x) (hy : 0 < c.variance.y) :
    ∃ r, mixtureRate norm si beam delta c = .ok r ∧ 0 ≤ r ∧ r ≤ modeProb c * norm * c.weight ∧
      (beam = si + V2.smul c.locDistance delta → r = modeProb c * norm * c.weight) := by
  obtain ⟨einv, h1, h2, h3⟩ := covariance_posDef hd hx hy
  obtain ⟨d, h4, h5, h6, h7⟩ := mvnPdf_le h2 beam (si + V2.smul c.locDistance delta)
  rw [h3] at h6 h7
  refine ⟨d * norm * c.weight, by simp only [mixtureRate, h1, h4], by positivity, ?_, ?_⟩
  · have : d ≤ modeProb c := h6
    gcongr
  · intro hb
    have : d = modeProb c := h7.2 hb
    rw [this]

theorem neighborRate_ok {norm maxRate : ℝ} (hn : 0 ≤ norm) (si beam : V2 ℝ) {delta : V2 ℝ}
    (hd : delta ≠ 0) (cs : List Component) (r0 : ℝ)
    (hv : ∀ c ∈ cs, 0 ≤ c.weight ∧ 0 < c.variance.x ∧ 0 < c.variance.y)
    (hb : ∀ c ∈ cs, modeProb c * norm * c.weight ≤ maxRate) :
    ∃ r, Gmm.neighborRate norm si beam delta cs r0 = .ok r ∧ r0 ≤ r ∧
      r ≤ r0 + cs.length * maxRate := by
  induction cs generalizing r0 with
  | nil => exact ⟨r0, rfl, le_rfl, by simp⟩
  | cons c cs ih =>
    obtain ⟨hw, hx, hy⟩ := hv c List.mem_cons_self
    obtain ⟨r, h1, h2, h3, _⟩ := mixtureRate_ok hn si beam hd hw hx hy
    obtain ⟨R, h4, h5, h6⟩ := ih (r0 + r) (fun c' hc' => hv c' (List.mem_cons_of_mem _ hc'))
      (fun c' hc' => hb c' (List.mem_cons_of_mem _ hc'))
    refine ⟨R, by simp only [Gmm.neighborRate, h1, h4], by linarith, ?_⟩
    have := hb c List.mem_cons_self
    push_cast [List.length_cons]
    linarith

theorem normalizingFactor_ok {g : Gmm} (hg : ValidMixture g) : ∃ norm,
    g.normalizingFactor = .ok norm ∧ 0 < norm ∧
    (∀ c ∈ g.components, modeProb c * norm * c.weight ≤ g.maxRate) ∧
    ∃ c ∈ g.components, modeProb c * norm * c.weight = g.maxRate := by
  obtain ⟨M, h1, h2, h3, h4⟩ := maxModeProb_ok g.components 0 hg.variances
  obtain ⟨c, hc, hw⟩ := hg.weighted
  have hM : 0 < M := lt_of_lt_of_le
    (mul_pos (modeProb_pos (hg.variances c hc).1 (hg.variances c hc).2) hw) (h3 c hc)
  have hmax := hg.maxRate
  refine ⟨g.maxRate / M, by simp only [Gmm.normalizingFactor, h1, hM.ne', if_false],
    by positivity, ?_, ?_⟩
  · intro c hc
    calc modeProb c * (g.maxRate / M) * c.weight = (modeProb c * c.weight) * (g.maxRate / M) := by ring
      _ ≤ M * (g.maxRate / M) := by gcongr; exact h3 c hc
      _ = g.maxRate := by field_simp
  · rcases h4 with h4 | ⟨c, hc, h4⟩
    · exact absurd h4 hM.ne'
    · refine ⟨c, hc, ?_⟩
      calc modeProb c * (g.maxRate / M) * c.weight = (modeProb c * c.weight) * (g.maxRate / M) := by ring
        _ = M * (g.maxRate / M) := by rw [← h4]
        _ = g.maxRate := by field_simp

theorem successors_ok {g : Gmm} (hg : ValidMixture g) {norm : ℝ} (hn : 0 < norm)
    (hb : ∀ c ∈ g.components, modeProb c * norm * c.weight ≤ g.maxRate) (grid : Grid ℝ)
    (si beam : V2 ℝ) (l : List (ℕ × V2 ℝ)) (hl : ∀ x ∈ l, x.2 ≠ si) :
    ∃ ss, g.successors norm grid si beam l = .ok ss ∧ ss.length = l.length ∧
      ∀ (k i : ℕ) (p : V2 ℝ), l[k]? = some (i, p) → ∃ x : Successor ℝ, ss[k]? = some x ∧
        x.grid = successorGrid grid i ∧
        Gmm.neighborRate norm si beam (p - si) g.components 0 = .ok x.rate ∧
        0 ≤ x.rate ∧ x.rate ≤ g.components.length * g.maxRate := by
  induction l with
  | nil => exact ⟨[], rfl, rfl, by simp⟩
  | cons a l ih =>
    obtain ⟨i, p⟩ := a
    have hd : p - si ≠ 0 := by
      intro h
      apply hl (i, p) List.mem_cons_self
      have h1 := congrArg V2.x h; have h2 := congrArg V2.y h
      simp at h1 h2
      ext <;> simp <;> linarith
    obtain ⟨r, h1, h2, h3⟩ := neighborRate_ok hn.le si beam hd g.components 0
      (fun c hc => ⟨hg.weights c hc, hg.variances c hc⟩) hb
    obtain ⟨ss, h4, h5, h6⟩ := ih (fun x hx => hl x (List.mem_cons_of_mem _ hx))
    refine ⟨⟨successorGrid grid i, r⟩ :: ss, by simp only [Gmm.successors, h1, h4], by simp [h5], ?_⟩
    intro k i' p' hk
    cases k with
    | zero =>
      simp at hk
      obtain ⟨rfl, rfl⟩ := hk
      exact ⟨_, rfl, rfl, h1, h2, by simpa using h3⟩
    | succ k => exact h6 k i' p' (by simpa using hk)

theorem mixtureRate_nonneg {norm : ℝ} (hn : 0 ≤ norm) {si beam delta : V2 ℝ} {c : Component}
    (hw : 0 ≤ c.weight) {r : ℝ} (h : mixtureRate norm si beam delta c = .ok r) : 0 ≤ r := by
  simp only [mixtureRate] at h
  split at h
  · cases h
  · split at h
    · cases h
    · rename_i einv _ _ d hd
      cases h
      simp only [mvnPdf] at hd
      split at hd
      · rename_i hpd
        cases hd
        have := Real.pi_pos
        positivity
      · cases hd

theorem neighborRate_nonneg {norm : ℝ} (hn : 0 ≤ norm) {si beam delta : V2 ℝ} {cs : List Component}
    (hw : ∀ c ∈ cs, 0 ≤ c.weight) {r0 r : ℝ} (h0 : 0 ≤ r0)
    (h : Gmm.neighborRate norm si beam delta cs r0 = .ok r) : 0 ≤ r := by
  induction cs generalizing r0 with
  | nil => simp only [Gmm.neighborRate, Except.ok.injEq] at h; rw [← h]; exact h0
  | cons c cs ih =>
    simp only [Gmm.neighborRate] at h
    split at h
    · cases h
    · rename_i r1 h1
      have := mixtureRate_nonneg hn (hw c List.mem_cons_self) h1
      exact ih (fun c' hc' => hw c' (List.mem_cons_of_mem _ hc')) (by linarith) h

theorem successors_mem {g : Gmm} {norm : ℝ} {grid : Grid ℝ} {si beam : V2 ℝ} {l : List (ℕ × V2 ℝ)}
    {ss : List (Successor ℝ)} (h : g.successors norm grid si beam l = .ok ss) :
    ∀ x ∈ ss, ∃ ip ∈ l, x.grid = successorGrid grid ip.1 ∧
      Gmm.neighborRate norm si beam (ip.2 - si) g.components 0 = .ok x.rate := by
  induction l generalizing ss with
  | nil => simp only [Gmm.successors, Except.ok.injEq] at h; subst h; simp
  | cons a l ih =>
    obtain ⟨i, p⟩ := a
    simp only [Gmm.successors] at h
    split at h
    · cases h
    · rename_i r hr
      split at h
      · cases h
      · rename_i ss' hss
        cases h
        intro x hx
        rcases List.mem_cons.1 hx with rfl | hx
        · exact ⟨(i, p), List.mem_cons_self, rfl, hr⟩
        · obtain ⟨ip, hip, h2⟩ := ih hss x hx
          exact ⟨ip, List.mem_cons_of_mem _ hip, h2⟩

theorem gmm_succ {knn : Knn ℝ} {g : Gmm} (hg : ValidMixture g) {grid : Grid ℝ} {beam : V2 ℝ}
    {ss : List (Successor ℝ)} (h : g.call knn grid beam = .ok ss) :
    ∀ x ∈ ss, 0 ≤ x.rate ∧ ∃ si r j, getSingleSiliconPosition grid = .ok si ∧
      4 ≤ grid.positions.length ∧ IsKnn grid.positions si 4 r ∧ j ∈ r.drop 1 ∧
      x.grid = successorGrid grid j := by
  simp only [Gmm.call] at h
  split at h
  · cases h
  rename_i si hsi
  split at h
  · cases h
  rename_i idx hidx
  split at h
  · cases h
  rename_i nbrs hnbrs
  split at h
  · cases h
  rename_i norm hnorm
  intro x hx
  obtain ⟨norm', h1, h2, -⟩ := normalizingFactor_ok hg
  rw [hnorm] at h1; cases h1
  obtain ⟨ip, hip, h3, h4⟩ := successors_mem h x hx
  refine ⟨neighborRate_nonneg h2.le hg.weights le_rfl h4, ?_⟩
  obtain ⟨h5, r, hk, rfl⟩ := nearestNeighbors3_ok hidx
  exact ⟨si, r, ip.1, hsi, h5, hk, (List.of_mem_zip (a := ip.1) (b := ip.2) hip).1, h3⟩

/-- C39 for the Gaussian mixture: it too proposes neighbour swaps only. -/
theorem C39_mixture_swaps (knn : Knn ℝ) (g : Gmm) (hg : ValidMixture g) :
    SwapRates (g.call knn) where
  nonneg := fun grid p ss h x hx => (gmm_succ hg h x hx).1
  doped := by
    intro grid p ss h hd x hx
    obtain ⟨_, si, r, j, _, _, hk, hj, he⟩ := gmm_succ hg h x hx
    rw [he]
    exact ⟨singleDoped_successor hd.wf (hk.lt j (List.mem_of_mem_drop hj)), rfl⟩
  swap := by
    intro grid p ss h hd hnd x hx
    obtain ⟨_, si, r, j, hsi, _, hk, hj, he⟩ := gmm_succ hg h x hx
    rw [he]
    exact successorGrid_swap hd hnd hsi hk hj

/-- What a call on a regular sheet computes. -/
theorem gmm_call (knn : Knn ℝ) (g : Gmm) (hg : ValidMixture g) (grid : Grid ℝ) (beam : V2 ℝ)
    (hd : SingleDoped grid) (h4 : 4 ≤ grid.positions.length) (hnd : grid.positions.Nodup) :
    ∃ (i : ℕ) (si : V2 ℝ) (nbrs : List ℕ) (ss : List (Successor ℝ)) (norm : ℝ),
      grid.numbers[i]? = some SILICON ∧ grid.positions[i]? = some si ∧
      g.normalizingFactor = .ok norm ∧ 0 < norm ∧
      g.call knn grid beam = .ok ss ∧ ss.length = 3 ∧
      nbrs = (knn.query grid.positions si 4).drop 1 ∧
      nbrs.length = 3 ∧ nbrs.Nodup ∧ (∀ j ∈ nbrs, AmongThreeNearest grid.positions i j) ∧
      ∀ n j : ℕ, nbrs[n]? = some j → ∃ (x : Successor ℝ) (p : V2 ℝ), ss[n]? = some x ∧
        grid.positions[j]? = some p ∧ p ≠ si ∧ x.grid = successorGrid grid j ∧
        Gmm.neighborRate norm si beam (p - si) g.components 0 = .ok x.rate ∧
        0 ≤ x.rate ∧ x.rate ≤ g.components.length * g.maxRate := by
  obtain ⟨i, si, hi, hn, hsi⟩ := hd.exists_index
  have hil : i < grid.positions.length := (List.getElem?_eq_some_iff.1 hi).1
  have hknn := knn.spec grid.positions si 4 h4
  have hnb := nearestNeighbors3_eq knn (ps := grid.positions) si h4
  set nbrs := (knn.query grid.positions si 4).drop 1 with hnbrs
  have hn3 : nbrs.length = 3 := by rw [hnbrs, List.length_drop, hknn.length]
  have hlt : ∀ j ∈ nbrs, j < grid.positions.length := fun j hj =>
    hknn.lt j (List.mem_of_mem_drop hj)
  obtain ⟨rs, hrs⟩ := takeRows_inRange hlt
  obtain ⟨hl, hget⟩ := takeRows_ok hrs
  obtain ⟨norm, hno, hnp, hb, -⟩ := normalizingFactor_ok hg
  have hne : ∀ (n j : ℕ) (p : V2 ℝ), nbrs[n]? = some j → grid.positions[j]? = some p → p ≠ si := by
    rintro n j p hj hp rfl
    have h1 := (hknn.amongThreeNearest hnd hi (List.mem_of_getElem? hj)).1
    have hjl := (List.getElem?_eq_some_iff.1 hp).1
    apply h1
    have e1 := (List.getElem?_eq_some_iff.1 hi).2
    have e2 := (List.getElem?_eq_some_iff.1 hp).2
    exact (List.Nodup.getElem_inj_iff hnd).1 (e1.trans e2.symm)
  have hzip : ∀ x ∈ nbrs.zip rs, x.2 ≠ si := by
    intro x hx
    obtain ⟨n, hn⟩ := List.getElem?_of_mem hx
    have h1 := List.getElem?_zip_eq_some.1 hn
    have h2 := hget n
    rw [h1.1, h1.2] at h2
    exact hne n x.1 x.2 h1.1 h2.symm
  obtain ⟨ss, hss, hsl, hsg⟩ := successors_ok hg hnp hb grid si beam (nbrs.zip rs) hzip
  refine ⟨i, si, nbrs, ss, norm, ?_, hi, hno, hnp, ?_, ?_, rfl, hn3,
    hknn.nodup.sublist (List.drop_sublist _ _), ?_, ?_⟩
  · rw [hn, doped_get _ _ _ hil]; simp
  · simp only [Gmm.call, getSingleSiliconPosition_of_singleton hsi, hnb, hrs, hno, hss]
  · simp [hsl, hl, hn3]
  · intro j hj; exact hknn.amongThreeNearest hnd hi hj
  · intro n j hj
    have hjl := hlt j (List.mem_of_getElem? hj)
    have hp : grid.positions[j]? = some grid.positions[j] := by simp
    have hr : rs[n]? = some grid.positions[j] := by rw [hget n, hj]; simpa using hp
    obtain ⟨x, h1, h2, h3, h5, h6⟩ := hsg n j grid.positions[j] (List.getElem?_zip_eq_some.2 ⟨hj, hr⟩)
    exact ⟨x, _, h1, hp, hne n j _ hj hp, h2, h3, h5, h6⟩

/-- C39 for the mixture, including that it returns: on a sheet with one silicon, at least four atoms
and distinct positions it proposes three successors, for three distinct atoms, each among the three
nearest to the silicon, which is moved there. -/
theorem C39_mixture_three_swaps (knn : Knn ℝ) (g : Gmm) (hg : ValidMixture g) (grid : Grid ℝ)
    (beam : V2 ℝ) (hd : SingleDoped grid) (h4 : 4 ≤ grid.positions.length)
    (hnd : grid.positions.Nodup) :
    ∃ (i : ℕ) (nbrs : List ℕ) (ss : List (Successor ℝ)), grid.numbers[i]? = some SILICON ∧
      g.call knn grid beam = .ok ss ∧ ss.length = 3 ∧ nbrs.length = 3 ∧ nbrs.Nodup ∧
      (∀ j ∈ nbrs, AmongThreeNearest grid.positions i j) ∧
      ∀ n j : ℕ, nbrs[n]? = some j → ∃ x : Successor ℝ, ss[n]? = some x ∧
        x.grid.positions = grid.positions ∧ SingleDoped x.grid ∧
        x.grid.numbers[j]? = some SILICON := by
  obtain ⟨i, si, nbrs, ss, norm, h1, h2, -, -, h3, h5, h6, h7, h8, h9, h10⟩ :=
    gmm_call knn g hg grid beam hd h4 hnd
  refine ⟨i, nbrs, ss, h1, h3, h5, h7, h8, h9, fun n j hj => ?_⟩
  obtain ⟨x, p, hx, hp, _, he, _⟩ := h10 n j hj
  have hjl := (List.getElem?_eq_some_iff.1 hp).1
  refine ⟨x, hx, by rw [he]; rfl, ?_, ?_⟩
  · rw [he]; exact singleDoped_successor hd.wf hjl
  · rw [he, successorGrid_numbers grid hd.wf, doped_get _ _ _ hjl]; simp

/-- C38 for what holds: every rate lies between 0 and the number of components times the maximal
rate; so with a single component it does not exceed the maximal rate.  Missing: the bound by the
maximal rate itself for several components, which is false (`C38_exceeds_max_rate`). -/
theorem C38_bounds_partial (knn : Knn ℝ) (g : Gmm) (hg : ValidMixture g) (grid : Grid ℝ)
    (beam : V2 ℝ) (hd : SingleDoped grid) (h4 : 4 ≤ grid.positions.length)
    (hnd : grid.positions.Nodup) :
    ∃ ss, g.call knn grid beam = .ok ss ∧ ss.length = 3 ∧
      ∀ x ∈ ss, 0 ≤ x.rate ∧ x.rate ≤ g.components.length * g.maxRate ∧
        (g.components.length = 1 → x.rate ≤ g.maxRate) := by
  obtain ⟨i, si, nbrs, ss, norm, -, -, -, -, h3, h5, -, h7, -, -, h10⟩ :=
    gmm_call knn g hg grid beam hd h4 hnd
  refine ⟨ss, h3, h5, fun x hx => ?_⟩
  obtain ⟨n, hn⟩ := List.getElem?_of_mem hx
  have hnl : n < nbrs.length := by
    have := (List.getElem?_eq_some_iff.1 hn).1
    omega
  obtain ⟨y, p, hy, -, -, -, -, h11, h12⟩ := h10 n nbrs[n] (by simp [hnl])
  rw [hn] at hy
  cases hy
  refine ⟨h11, h12, fun h => ?_⟩
  rw [h] at h12
  simpa using h12

/-- C38 is false for several components: on every regular sheet, for every mixture of `k + 1` equal
components there is a beam position at which the first neighbour's rate is `k + 1` times the
maximal rate. -/
theorem C38_exceeds_max_rate (knn : Knn ℝ) (c : Component) (k : ℕ) (maxRate : ℝ)
    (hm : 0 < maxRate) (hw : 0 < c.weight) (hv : 0 < c.variance.x ∧ 0 < c.variance.y)
    (grid : Grid ℝ) (hd : SingleDoped grid) (h4 : 4 ≤ grid.positions.length)
    (hnd : grid.positions.Nodup) :
    ∃ beam ss, (Gmm.mk maxRate (List.replicate (k + 1) c)).call knn grid beam = .ok ss ∧
      ∃ x ∈ ss, x.rate = (k + 1) * maxRate := by
  set g : Gmm := ⟨maxRate, List.replicate (k + 1) c⟩ with hgdef
  have hg : ValidMixture g := ⟨hm, fun c' hc' => by rw [List.eq_of_mem_replicate hc']; exact hw.le,
    ⟨c, by simp [hgdef], hw⟩, fun c' hc' => by rw [List.eq_of_mem_replicate hc']; exact hv⟩
  obtain ⟨i, si, hi, hn, hsi⟩ := hd.exists_index
  have hknn := knn.spec grid.positions si 4 h4
  have hn0 : 0 < ((knn.query grid.positions si 4).drop 1).length := by
    rw [List.length_drop, hknn.length]; omega
  set j := ((knn.query grid.positions si 4).drop 1)[0] with hj
  have hjl : j < grid.positions.length :=
    hknn.lt j (List.mem_of_mem_drop (List.getElem_mem hn0))
  set p := grid.positions[j] with hp
  obtain ⟨i', si', nbrs, ss, norm, ha, hb, hno, hnp, h3, h5, h6, h7, -, -, h10⟩ :=
    gmm_call knn g hg grid (si + V2.smul c.locDistance (p - si)) hd h4 hnd
  have hii : i' = i := by
    by_contra hne
    have hil' : i' < grid.positions.length := (List.getElem?_eq_some_iff.1 hb).1
    rw [hn, doped_get _ _ _ hil'] at ha
    simp [hne, SILICON, CARBON] at ha
  subst hii
  have hss : si' = si := by rw [hi] at hb; cases hb; rfl
  subst hss
  obtain ⟨x, p', hx, hp', hne, -, hr, -⟩ := h10 0 j (by
    subst h6
    rw [List.getElem?_eq_getElem hn0])
  have hpp : p' = p := by
    rw [List.getElem?_eq_getElem hjl] at hp'; cases hp'; rfl
  subst hpp
  refine ⟨_, ss, h3, x, List.mem_of_getElem? hx, ?_⟩
  obtain ⟨norm', hno', hnp', -, c', hc', heq⟩ := normalizingFactor_ok hg
  rw [hno] at hno'; cases hno'
  rw [List.eq_of_mem_replicate hc'] at heq
  have hdelta : p - si' ≠ 0 := by
    intro h
    apply hne
    have h1 := congrArg V2.x h; have h2 := congrArg V2.y h
    simp at h1 h2
    ext <;> linarith
  obtain ⟨r, hmr, -, -, hmeq⟩ := mixtureRate_ok hnp.le si' (si' + V2.smul c.locDistance (p - si'))
    hdelta hw.le hv.1 hv.2
  have hr1 := hmeq rfl
  have hgm : g.maxRate = maxRate := rfl
  rw [heq, hgm] at hr1
  rw [hr1] at hmr
  have key : ∀ (n : ℕ) (r0 : ℝ), Gmm.neighborRate norm si' (si' + V2.smul c.locDistance (p - si'))
      (p - si') (List.replicate n c) r0 = .ok (r0 + n * maxRate) := by
    intro n
    induction n with
    | zero => intro r0; simp [Gmm.neighborRate]
    | succ n ih =>
      intro r0
      rw [List.replicate_succ, Gmm.neighborRate, hmr]
      simp only [ih]
      congr 1
      push_cast
      ring
  have := key (k + 1) 0
  rw [this, Except.ok.injEq] at hr
  rw [← hr]
  push_cast
  ring

/-- Four atoms in the plane, one of them silicon, and a mixture with two components. -/
example : SingleDoped (⟨[⟨0, 0⟩, ⟨1, 0⟩, ⟨0, 1⟩, ⟨-1, 0⟩], [14, 6, 6, 6]⟩ : Grid ℝ) ∧
    (⟨[⟨0, 0⟩, ⟨1, 0⟩, ⟨0, 1⟩, ⟨-1, 0⟩], [14, 6, 6, 6]⟩ : Grid ℝ).positions.Nodup ∧
    ValidMixture ⟨1, [⟨1/2, 1, ⟨1, 2⟩⟩, ⟨1/2, 1, ⟨1, 2⟩⟩]⟩ := by
  refine ⟨?_, ?_, ⟨by norm_num, ?_, ?_, ?_⟩⟩
  · exact (singleDoped_iff _).2 ⟨0, by simp, rfl⟩
  · norm_num [List.Nodup]
  · intro c hc; simp at hc; subst hc; norm_num
  · exact ⟨_, List.mem_cons_self, by norm_num⟩
  · intro c hc; simp at hc; subst hc; norm_num

end PD.Props
