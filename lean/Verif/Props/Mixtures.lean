/- Properties C100 and C101: random mixtures, saving and loading them, and comparing them. -/
import Verif.Model.Mixtures
import Verif.Props.Play

set_option linter.unusedSectionVars false
set_option linter.unusedSimpArgs false

namespace PD.Props
open PD PD.Spec

section
variable {G O P Img F Bytes : Type}

theorem uniforms_spec {rng : Rng ℝ G} (hl : rng.Lawful) {lo hi : ℝ} (h : lo ≤ hi) (n : ℕ) (g : G) :
    (uniforms rng lo hi n g).1.length = n ∧ ∀ x ∈ (uniforms rng lo hi n g).1, lo ≤ x ∧ x ≤ hi := by
  induction n generalizing g with
  | zero => simp [uniforms]
  | succ n ih =>
    obtain ⟨h1, h2⟩ := ih (rng.uniform lo hi g).2
    refine ⟨by simp [uniforms, h1], fun x hx => ?_⟩
    simp only [uniforms, List.mem_cons] at hx
    rcases hx with rfl | hx
    · exact hl.uniform_mem _ _ _ h
    · exact h2 x hx

theorem uniformRows_spec {rng : Rng ℝ G} (hl : rng.Lawful) {lo hi : ℝ} (h : lo ≤ hi) (n : ℕ) (g : G) :
    (uniformRows rng lo hi n g).1.length = n ∧
    ∀ v ∈ (uniformRows rng lo hi n g).1, (lo ≤ v.x ∧ v.x ≤ hi) ∧ lo ≤ v.y ∧ v.y ≤ hi := by
  induction n generalizing g with
  | zero => simp [uniformRows]
  | succ n ih =>
    obtain ⟨h1, h2⟩ := ih (rng.uniform lo hi (rng.uniform lo hi g).2).2
    refine ⟨by simp [uniformRows, h1], fun v hv => ?_⟩
    simp only [uniformRows, List.mem_cons] at hv
    rcases hv with rfl | hv
    · exact ⟨hl.uniform_mem _ _ _ h, hl.uniform_mem _ _ _ h⟩
    · exact h2 v hv

theorem sum_div (l : List ℝ) (c : ℝ) : (l.map (fun w => w / c)).sum = l.sum / c := by
  induction l with
  | nil => simp
  | cons a l ih => simp [ih, add_div]

theorem sum_nonpos_list (l : List ℝ) (h : ∀ x ∈ l, x ≤ 0) : l.sum ≤ 0 := by
  induction l with
  | nil => simp
  | cons a l ih =>
    rw [List.sum_cons]
    linarith [h a List.mem_cons_self, ih (fun x hx => h x (List.mem_cons_of_mem _ hx))]

/-- What is promised of a random mixture with `n` components. -/
structure Sampled (n : ℕ) (p : GmmParams) : Prop where
  weightsLength : p.weights.length = n
  locsLength : p.locDistances.length = n
  variancesLength : p.variances.length = n
  maxRate : 1 / 100 ≤ p.maxRate ∧ p.maxRate ≤ 1
  weights : ∀ w ∈ p.weights, 0 ≤ w
  weightsSum : p.weights.sum = 1
  locs : ∀ l ∈ p.locDistances, -2 ≤ l ∧ l ≤ 3
  variances : ∀ v ∈ p.variances, (1 / 10 ≤ v.x ∧ v.x ≤ 5) ∧ 1 / 10 ≤ v.y ∧ v.y ≤ 5

/-! ### C100 random mixtures are proper rate functions -/

/-- A random mixture has one component more than the number drawn, weights that sum to one, and parameters in the
documented ranges; or all weights were drawn as zero. -/
theorem C100_sampled (rng : Rng ℝ G) (hl : rng.Lawful) (poisson : ℝ → G → ℕ × G) (g : G) :
    (∃ p, (sampleNew rng poisson g).1 = some p ∧ Sampled ((poisson 2 g).1 + 1) p) ∨
    ((sampleNew rng poisson g).1 = none ∧
      ∀ w ∈ (uniforms rng 0 10 ((poisson 2 g).1 + 1) (rng.uniform (1 / 100) 1 (poisson 2 g).2).2).1, w = 0) := by
  set n := (poisson 2 g).1 + 1 with hn
  set g2 := (rng.uniform (1 / 100) 1 (poisson 2 g).2).2 with hg2
  obtain ⟨r1, r2⟩ := uniforms_spec hl (show (0 : ℝ) ≤ 10 by norm_num) n g2
  set raw := (uniforms rng 0 10 n g2).1 with hraw
  by_cases h0 : raw.sum = 0
  · refine .inr ⟨by simp only [sampleNew, ← hn, ← hg2, ← hraw, h0, if_true], fun w hw => ?_⟩
    have h1 := List.single_le_sum (fun x hx => (r2 x hx).1) w hw
    rw [h0] at h1
    exact le_antisymm h1 (r2 w hw).1
  · obtain ⟨l1, l2⟩ := uniforms_spec hl (show (-2 : ℝ) ≤ 3 by norm_num) n (uniforms rng 0 10 n g2).2
    obtain ⟨v1, v2⟩ := uniformRows_spec hl (show (1 / 10 : ℝ) ≤ 5 by norm_num) n
      (uniforms rng (-2) 3 n (uniforms rng 0 10 n g2).2).2
    have hpos : 0 ≤ raw.sum := List.sum_nonneg (fun x hx => (r2 x hx).1)
    refine .inl ⟨⟨(rng.uniform (1 / 100) 1 (poisson 2 g).2).1, raw.map (fun w => w / raw.sum),
      (uniforms rng (-2) 3 n (uniforms rng 0 10 n g2).2).1,
      (uniformRows rng (1 / 10) 5 n (uniforms rng (-2) 3 n (uniforms rng 0 10 n g2).2).2).1⟩, by
        simp only [sampleNew, ← hn, ← hg2, ← hraw, h0, if_false], ?_⟩
    refine ⟨by simp [r1], l1, v1, hl.uniform_mem _ _ _ (by norm_num), ?_, ?_, l2, v2⟩
    · intro w hw
      obtain ⟨x, hx, rfl⟩ := List.mem_map.1 hw
      exact div_nonneg (r2 x hx).1 hpos
    · rw [sum_div, div_self h0]

theorem components_get {p : GmmParams} {c : Component} (h : c ∈ p.toGmm.components) :
    c.weight ∈ p.weights ∧ c.locDistance ∈ p.locDistances ∧ c.variance ∈ p.variances := by
  obtain ⟨⟨⟨w, l⟩, v⟩, hr, rfl⟩ := List.mem_map.1 h
  obtain ⟨h1, h2⟩ := List.of_mem_zip hr
  obtain ⟨h3, h4⟩ := List.of_mem_zip h1
  exact ⟨h3, h4, h2⟩

/-- Such a mixture is a proper rate function. -/
theorem sampled_valid {n : ℕ} {p : GmmParams} (h : Sampled n p) :
    ValidMixture p.toGmm ∧ p.toGmm.components.length = n := by
  have hw : p.toGmm.components.map (·.weight) = p.weights := by
    simp only [GmmParams.toGmm, List.map_map]
    have : ((fun c : Component => c.weight) ∘ fun r : (ℝ × ℝ) × V2 ℝ => ⟨r.1.1, r.1.2, r.2⟩) =
        Prod.fst ∘ Prod.fst := rfl
    rw [this, ← List.map_map, List.map_fst_zip, List.map_fst_zip]
    · rw [h.weightsLength, h.locsLength]
    · simp [h.weightsLength, h.locsLength, h.variancesLength]
  refine ⟨⟨by have := h.maxRate.1; simp only [GmmParams.toGmm]; linarith, fun c hc => h.weights _ (components_get hc).1,
    ?_, fun c hc => ?_⟩, by rw [← List.length_map (f := (·.weight)), hw, h.weightsLength]⟩
  · by_contra hno
    push Not at hno
    have : p.weights.sum ≤ 0 := by
      rw [← hw]
      refine sum_nonpos_list _ ?_
      intro x hx
      obtain ⟨c, hc, rfl⟩ := List.mem_map.1 hx
      exact hno c hc
    rw [h.weightsSum] at this
    norm_num at this
  · obtain ⟨h1, h2⟩ := h.variances _ (components_get hc).2.2
    exact ⟨by linarith [h1.1], by linarith [h2.1]⟩

/-- So on every regular sheet a random mixture proposes three moves, to the silicon's nearest atoms, with rates
between zero and the number of components times the maximal rate. -/
theorem C100_rates (knn : Knn ℝ) (n : ℕ) (p : GmmParams) (h : Sampled n p) :
    SwapRates (p.toGmm.call knn) ∧ RatesDefined (p.toGmm.call knn) ∧
    ∀ grid beam, SingleDoped grid → 4 ≤ grid.positions.length → grid.positions.Nodup →
      ∃ ss, p.toGmm.call knn grid beam = .ok ss ∧ ss.length = 3 ∧
        ∀ x ∈ ss, 0 ≤ x.rate ∧ x.rate ≤ n * p.maxRate := by
  obtain ⟨hv, hlen⟩ := sampled_valid h
  refine ⟨C39_mixture_swaps knn _ hv, (C99_rates_defined knn).2.2 _ hv, fun grid beam hd h4 hnd => ?_⟩
  obtain ⟨ss, h1, h2, h3⟩ := C38_bounds_partial knn _ hv grid beam hd h4 hnd
  refine ⟨ss, h1, h2, fun x hx => ⟨(h3 x hx).1, ?_⟩⟩
  have := (h3 x hx).2.1
  rw [hlen] at this
  exact this

/-- A saved mixture is loaded as it was, whatever was in the directory before and whatever is saved to other
directories afterwards; and loading from a directory without one raises. -/
theorem C100_saved (m : MsgPack Bytes) (p : GmmParams) (dir : String) (fs : ParamFiles Bytes) :
    (∀ later : List (GmmParams × String), (∀ s ∈ later, s.2 ≠ dir) →
      deserialize m dir (later.foldl (fun fs s => s.1.serialize m s.2 fs) (p.serialize m dir fs)) = .ok p) ∧
    (∀ dir' f, (dir', f) ≠ (dir, "gmm_parameters.mpk") → p.serialize m dir fs dir' f = fs dir' f) ∧
    (fs dir "gmm_parameters.mpk" = none → deserialize m dir fs = .error .notFound) := by
  refine ⟨fun later hlater => ?_, fun dir' f hne => ?_, fun h => by simp [deserialize, h]⟩
  · have key : ∀ (later : List (GmmParams × String)) (fs : ParamFiles Bytes), (∀ s ∈ later, s.2 ≠ dir) →
        (later.foldl (fun fs s => s.1.serialize m s.2 fs) fs) dir "gmm_parameters.mpk" =
          fs dir "gmm_parameters.mpk" := by
      intro later
      induction later with
      | nil => intro fs _; rfl
      | cons s later ih =>
        intro fs hs
        rw [List.foldl_cons, ih _ (fun x hx => hs x (List.mem_cons_of_mem _ hx))]
        have := hs s List.mem_cons_self
        simp [GmmParams.serialize, Ne.symm this]
    rw [deserialize, key later _ hlater]
    simp [GmmParams.serialize, m.round, Bundle.get, List.lookup]
  · have : ¬ (dir' = dir ∧ f = "gmm_parameters.mpk") := by
      rintro ⟨rfl, rfl⟩; exact hne rfl
    simp only [GmmParams.serialize, if_neg this]

end

/-! ### C101 equality of rate functions -/

theorem allClose_iff (a b : List ℝ) : allClose a b = true ↔
    ∀ (i : ℕ) (x y : ℝ), a[i]? = some x → b[i]? = some y → |x - y| ≤ 1 / 1000 := by
  induction a generalizing b with
  | nil => simp [allClose]
  | cons a as ih =>
    cases b with
    | nil => simp [allClose]
    | cons b bs =>
      have h1 : allClose (a :: as) (b :: bs) = true ↔ |a - b| ≤ 1 / 1000 ∧ allClose as bs = true := by
        simp [allClose]
      rw [h1, ih]
      constructor
      · rintro ⟨h2, h3⟩ i x y hx hy
        cases i with
        | zero => simp at hx hy; subst hx hy; exact h2
        | succ i => exact h3 i x y (by simpa using hx) (by simpa using hy)
      · intro h
        exact ⟨h 0 a b rfl rfl, fun i x y hx hy => h (i + 1) x y (by simpa using hx) (by simpa using hy)⟩

/-- Entry by entry, the parameters differ by at most a thousandth. -/
structure Near (a b : GmmParams) : Prop where
  weightsLength : a.weights.length = b.weights.length
  locsLength : a.locDistances.length = b.locDistances.length
  variancesLength : a.variances.length = b.variances.length
  maxRate : |a.maxRate - b.maxRate| ≤ 1 / 1000
  weights : ∀ (i : ℕ) (x y : ℝ), a.weights[i]? = some x → b.weights[i]? = some y → |x - y| ≤ 1 / 1000
  locs : ∀ (i : ℕ) (x y : ℝ), a.locDistances[i]? = some x → b.locDistances[i]? = some y → |x - y| ≤ 1 / 1000
  variances : ∀ (i : ℕ) (x y : V2 ℝ), a.variances[i]? = some x → b.variances[i]? = some y →
    |x.x - y.x| ≤ 1 / 1000 ∧ |x.y - y.y| ≤ 1 / 1000

theorem eq_iff (a b : GmmParams) : a.eq b = true ↔ Near a b := by
  have hv : ∀ f : V2 ℝ → ℝ, allClose (a.variances.map f) (b.variances.map f) = true ↔
      ∀ (i : ℕ) (x y : V2 ℝ), a.variances[i]? = some x → b.variances[i]? = some y → |f x - f y| ≤ 1 / 1000 := by
    intro f
    rw [allClose_iff]
    constructor
    · intro h i x y hx hy
      exact h i _ _ (by simp [hx]) (by simp [hy])
    · intro h i x y hx hy
      simp only [List.getElem?_map, Option.map_eq_some_iff] at hx hy
      obtain ⟨u, hu, rfl⟩ := hx
      obtain ⟨v, hv, rfl⟩ := hy
      exact h i u v hu hv
  unfold GmmParams.eq
  split_ifs with h
  · simp only [Bool.false_eq_true, false_iff]
    intro hn
    rcases h with h | h | h | h | h | h | h | h
    · exact h hn.weightsLength
    · exact h hn.locsLength
    · exact h hn.variancesLength
    · exact absurd hn.maxRate (not_le.2 h)
    · rw [(allClose_iff _ _).2 hn.weights] at h; cases h
    · rw [(allClose_iff _ _).2 hn.locs] at h; cases h
    · rw [(hv (·.x)).2 (fun i x y hx hy => (hn.variances i x y hx hy).1)] at h; cases h
    · rw [(hv (·.y)).2 (fun i x y hx hy => (hn.variances i x y hx hy).2)] at h; cases h
  · simp only [true_iff]
    push Not at h
    obtain ⟨h1, h2, h3, h4, h5, h6, h7, h8⟩ := h
    simp only [ne_eq, Bool.not_eq_false] at h5 h6 h7 h8
    exact ⟨h1, h2, h3, h4, (allClose_iff _ _).1 h5, (allClose_iff _ _).1 h6, fun i x y hx hy =>
      ⟨(hv (·.x)).1 h7 i x y hx hy, (hv (·.y)).1 h8 i x y hx hy⟩⟩

/-- What holds of the equality: rate functions are equal iff they have equally many parameters and these differ by at
most a thousandth; so every one equals itself, and the order does not matter.  Missing: transitivity and equal rates,
which are false (`C101_not_transitive`, `C101_equal_rates_differ`). -/
theorem C101_tolerance_partial (a b : GmmParams) :
    (a.eq b = true ↔ Near a b) ∧ a.eq a = true ∧ a.eq b = b.eq a := by
  have symm : ∀ a b : GmmParams, Near a b → Near b a := by
    intro a b h
    refine ⟨h.weightsLength.symm, h.locsLength.symm, h.variancesLength.symm, by rw [abs_sub_comm]; exact h.maxRate,
      fun i x y hx hy => by rw [abs_sub_comm]; exact h.weights i y x hy hx,
      fun i x y hx hy => by rw [abs_sub_comm]; exact h.locs i y x hy hx, fun i x y hx hy => ?_⟩
    obtain ⟨h1, h2⟩ := h.variances i y x hy hx
    exact ⟨by rw [abs_sub_comm]; exact h1, by rw [abs_sub_comm]; exact h2⟩
  refine ⟨eq_iff a b, (eq_iff a a).2 ⟨rfl, rfl, rfl, by norm_num, ?_, ?_, ?_⟩, ?_⟩
  · intro i x y hx hy; rw [hx] at hy; cases hy; norm_num
  · intro i x y hx hy; rw [hx] at hy; cases hy; norm_num
  · intro i x y hx hy; rw [hx] at hy; cases hy; norm_num
  · rw [Bool.eq_iff_iff, eq_iff, eq_iff]
    exact ⟨symm a b, symm b a⟩

/-- Changing only the maximal rate, by at most a thousandth, gives an equal rate function. -/
theorem eq_of_maxRate (p : GmmParams) (r : ℝ) (h : |p.maxRate - r| ≤ 1 / 1000) :
    p.eq { p with maxRate := r } = true := by
  have := (eq_iff p p).1 (C101_tolerance_partial p p).2.1
  exact (eq_iff _ _).2 ⟨rfl, rfl, rfl, h, this.weights, this.locs, this.variances⟩

/-- Equality is not transitive: from any rate function, through equal ones, one comes to different ones. -/
theorem C101_not_transitive (p : GmmParams) :
    ∃ q r : GmmParams, p.eq q = true ∧ q.eq r = true ∧ p.eq r = false := by
  refine ⟨{ p with maxRate := p.maxRate + 1 / 1000 }, { p with maxRate := p.maxRate + 2 / 1000 },
    eq_of_maxRate p _ (by rw [show p.maxRate - (p.maxRate + 1 / 1000) = -(1 / 1000) by ring, abs_neg]; norm_num [abs_of_pos]),
    eq_of_maxRate { p with maxRate := p.maxRate + 1 / 1000 } _ ?_, ?_⟩
  · rw [show p.maxRate + 1 / 1000 - (p.maxRate + 2 / 1000) = -(1 / 1000) by ring, abs_neg]; norm_num [abs_of_pos]
  · rw [Bool.eq_false_iff, ne_eq, eq_iff]
    intro h
    have := h.maxRate
    rw [show p.maxRate - (p.maxRate + 2 / 1000) = -(2 / 1000) by ring, abs_neg, abs_of_pos (by norm_num)] at this
    norm_num at this

theorem neighborRate_scale (k norm : ℝ) (si beam delta : V2 ℝ) (cs : List Component) (r : ℝ) :
    Gmm.neighborRate (k * norm) si beam delta cs (k * r) =
      (Gmm.neighborRate norm si beam delta cs r).map (k * ·) := by
  induction cs generalizing r with
  | nil => rfl
  | cons c cs ih =>
    have hm : mixtureRate (k * norm) si beam delta c = (mixtureRate norm si beam delta c).map (k * ·) := by
      unfold mixtureRate
      dsimp only
      split
      · rfl
      · split
        · rfl
        · simp only [Except.map]; congr 1; ring
    simp only [Gmm.neighborRate, hm]
    cases mixtureRate norm si beam delta c with
    | error e => rfl
    | ok x =>
      simp only [Except.map]
      rw [← mul_add]
      exact ih _

/-- Multiplying the maximal rate multiplies all rates. -/
theorem call_scale (knn : Knn ℝ) (g : Gmm) (k : ℝ) (grid : Grid ℝ) (beam : V2 ℝ) :
    Gmm.call knn ⟨k * g.maxRate, g.components⟩ grid beam =
      (g.call knn grid beam).map (List.map (fun x => ⟨x.grid, k * x.rate⟩)) := by
  have hs : ∀ (norm : ℝ) (si : V2 ℝ) (l : List (ℕ × V2 ℝ)),
      Gmm.successors ⟨k * g.maxRate, g.components⟩ (k * norm) grid si beam l =
        (g.successors norm grid si beam l).map (List.map (fun x => ⟨x.grid, k * x.rate⟩)) := by
    intro norm si l
    induction l with
    | nil => rfl
    | cons ip l ih =>
      obtain ⟨i, p⟩ := ip
      have hk := neighborRate_scale k norm si beam (p - si) g.components 0
      rw [mul_zero] at hk
      simp only [Gmm.successors, hk, ih]
      cases Gmm.neighborRate norm si beam (p - si) g.components 0 with
      | error e => rfl
      | ok r =>
        simp only [Except.map]
        cases g.successors norm grid si beam l <;> rfl
  unfold Gmm.call
  cases getSingleSiliconPosition grid with
  | error e => rfl
  | ok si =>
    dsimp only
    cases nearestNeighbors3 knn grid.positions si with
    | error e => rfl
    | ok idx =>
      dsimp only
      cases takeRows grid.positions idx with
      | error e => rfl
      | ok nbrs =>
        dsimp only
        unfold Gmm.normalizingFactor
        dsimp only
        cases Gmm.maxModeProb g.components 0 with
        | error e => rfl
        | ok m =>
          dsimp only
          split_ifs
          · rfl
          · dsimp only
            rw [mul_div_assoc]
            exact hs _ _ _

/-- Rate functions that are equal can differ by any factor: for every `k ≥ 1` there are two that compare equal, one of
which gives `k` times the rates of the other, on every regular sheet with the beam somewhere at a positive rate. -/
theorem C101_equal_rates_differ (knn : Knn ℝ) (k : ℝ) (hk : 1 ≤ k) :
    ∃ p q : GmmParams, p.eq q = true ∧ ValidMixture p.toGmm ∧ ValidMixture q.toGmm ∧
      ∀ grid, SingleDoped grid → 4 ≤ grid.positions.length → grid.positions.Nodup →
        ∃ beam ss ss', p.toGmm.call knn grid beam = .ok ss ∧ q.toGmm.call knn grid beam = .ok ss' ∧
          ss'.map (·.rate) = ss.map (fun x => k * x.rate) ∧ ∃ x ∈ ss, 0 < x.rate := by
  have hk0 : 0 < k := by linarith
  set c : Component := ⟨1, 1, ⟨1, 1⟩⟩ with hc
  set p : GmmParams := ⟨1 / (1000 * k), [1], [1], [⟨1, 1⟩]⟩ with hp
  have hpg : p.toGmm = ⟨1 / (1000 * k), List.replicate (0 + 1) c⟩ := rfl
  have hq : k * (1 / (1000 * k)) = 1 / 1000 := by field_simp
  have hqg : ({ p with maxRate := 1 / 1000 } : GmmParams).toGmm = ⟨k * p.toGmm.maxRate, p.toGmm.components⟩ := by
    rw [hpg]; simp only [hq]; rfl
  have hpos : 0 < 1 / (1000 * k) := by positivity
  have hle : 1 / (1000 * k) ≤ 1 / 1000 := one_div_le_one_div_of_le (by norm_num) (by linarith)
  have hval : ∀ r : ℝ, 0 < r → ValidMixture ⟨r, [c]⟩ := fun r hr =>
    ⟨hr, by simp [hc], ⟨c, by simp, by simp [hc]⟩, by simp [hc]⟩
  refine ⟨p, { p with maxRate := 1 / 1000 }, eq_of_maxRate p _ ?_, hval _ hpos, hval _ (by norm_num), ?_⟩
  · rw [abs_sub_comm, abs_of_nonneg (by simp only [hp]; linarith)]
    simp only [hp]; linarith
  · intro grid hd h4 hnd
    obtain ⟨beam, ss, hss, x, hx, hxr⟩ := C38_exceeds_max_rate knn c 0 (1 / (1000 * k)) hpos (by simp [hc])
      (by simp [hc]) grid hd h4 hnd
    rw [← hpg] at hss
    refine ⟨beam, ss, _, hss, by rw [hqg, call_scale, hss]; rfl, by simp, x, hx, ?_⟩
    rw [hxr]
    push_cast
    linarith

/-! ### Every proper mixture can be drawn -/

/-- A generator that plays back a list of numbers, as far as they are in the range asked for. -/
noncomputable def tapeRng : Rng ℝ (List ℝ) where
  uniform lo hi g := (max lo (min hi (g.headD lo)), g.tail)
  exponential s g := (((Witness.rng (1 : ℝ)).exponential s ()).1, g)
  choiceP p g := (((Witness.rng (1 : ℝ)).choiceP p ()).1, g)
  choice n g := (((Witness.rng (1 : ℝ)).choice n ()).1, g)

theorem tapeRng_lawful : tapeRng.Lawful where
  uniform_mem lo hi g h := ⟨le_max_left _ _, max_le h (min_le_left _ _)⟩
  exponential_nonneg s _ h := (Witness.rng_lawful (K := ℝ) zero_le_one).exponential_nonneg s () h
  choiceP_lt p _ h1 h2 := (Witness.rng_lawful (K := ℝ) zero_le_one).choiceP_lt p () h1 h2
  choice_lt n _ h := (Witness.rng_lawful (K := ℝ) zero_le_one).choice_lt n () h

theorem tape_cons {lo hi x : ℝ} (h1 : lo ≤ x) (h2 : x ≤ hi) (rest : List ℝ) :
    tapeRng.uniform lo hi (x :: rest) = (x, rest) := by
  simp [tapeRng, h1, h2]

theorem tape_uniforms {lo hi : ℝ} (xs rest : List ℝ) (h : ∀ x ∈ xs, lo ≤ x ∧ x ≤ hi) :
    uniforms tapeRng lo hi xs.length (xs ++ rest) = (xs, rest) := by
  induction xs with
  | nil => rfl
  | cons x xs ih =>
    obtain ⟨h1, h2⟩ := h x List.mem_cons_self
    simp only [List.length_cons, uniforms, List.cons_append, tape_cons h1 h2,
      ih (fun y hy => h y (List.mem_cons_of_mem _ hy))]

theorem tape_rows {lo hi : ℝ} (vs : List (V2 ℝ)) (rest : List ℝ)
    (h : ∀ v ∈ vs, (lo ≤ v.x ∧ v.x ≤ hi) ∧ lo ≤ v.y ∧ v.y ≤ hi) :
    uniformRows tapeRng lo hi vs.length (vs.flatMap (fun v => [v.x, v.y]) ++ rest) = (vs, rest) := by
  induction vs with
  | nil => rfl
  | cons v vs ih =>
    obtain ⟨⟨h1, h2⟩, h3, h4⟩ := h v List.mem_cons_self
    simp only [List.length_cons, uniformRows, List.flatMap_cons, List.cons_append, List.nil_append, tape_cons h1 h2,
      tape_cons h3 h4, ih (fun y hy => h y (List.mem_cons_of_mem _ hy))]

/-- C100.  And every such mixture, with any number of components, is drawn by some lawful generator: the parameters
are drawn apart from each other, none is derived from another. -/
theorem C100_every_mixture (n : ℕ) (p : GmmParams) (h : Sampled (n + 1) p) :
    ∃ rng : Rng ℝ (List ℝ), rng.Lawful ∧ ∃ (poisson : ℝ → List ℝ → ℕ × List ℝ) (g : List ℝ),
      (poisson 2 g).1 = n ∧ (sampleNew rng poisson g).1 = some p := by
  refine ⟨tapeRng, tapeRng_lawful, fun _ g => (n, g),
    p.maxRate :: (p.weights ++ (p.locDistances ++ (p.variances.flatMap (fun v => [v.x, v.y]) ++ []))), rfl, ?_⟩
  have h1 : ∀ w ∈ p.weights, (0 : ℝ) ≤ w ∧ w ≤ 10 := fun w hw => ⟨h.weights w hw, by
    have := List.single_le_sum h.weights w hw
    rw [h.weightsSum] at this
    linarith⟩
  have e1 := tape_uniforms p.weights (p.locDistances ++ (p.variances.flatMap (fun v => [v.x, v.y]) ++ [])) h1
  have e2 := tape_uniforms p.locDistances (p.variances.flatMap (fun v => [v.x, v.y]) ++ []) h.locs
  have e3 := tape_rows p.variances [] h.variances
  rw [h.weightsLength] at e1
  rw [h.locsLength] at e2
  rw [h.variancesLength] at e3
  simp only [sampleNew, tape_cons h.maxRate.1 h.maxRate.2, e1, e2, e3, h.weightsSum, one_ne_zero, if_false, div_one,
    List.map_id']

/-! ### The hypotheses can be met -/

/-- A random mixture of three components. -/
example : ∃ p, (sampleNew (Witness.rng (1 : ℝ)) (fun _ g => (2, g)) ()).1 = some p ∧ Sampled 3 p := by
  rcases C100_sampled (Witness.rng (1 : ℝ)) (Witness.rng_lawful zero_le_one) (fun _ g => (2, g)) () with h | ⟨_, h⟩
  · exact h
  · have := h 5 (by simp [uniforms, Witness.rng]; norm_num)
    norm_num at this

/-- Two components that differ in everything. -/
example : ∃ rng : Rng ℝ (List ℝ), rng.Lawful ∧ ∃ (poisson : ℝ → List ℝ → ℕ × List ℝ) (g : List ℝ),
    (poisson 2 g).1 = 1 ∧ (sampleNew rng poisson g).1 = some ⟨1 / 2, [1 / 4, 3 / 4], [-1, 2], [⟨1, 2⟩, ⟨3, 4⟩]⟩ :=
  C100_every_mixture 1 _ ⟨rfl, rfl, rfl, by norm_num, by norm_num, by norm_num, by norm_num, by norm_num⟩

/-- A codec: the bundle itself. -/
def plainPack : MsgPack Bundle := ⟨id, .ok, fun _ => rfl⟩

example (p q r : GmmParams) : deserialize plainPack "a"
    (r.serialize plainPack "b" (p.serialize plainPack "a" (q.serialize plainPack "a" (fun _ _ => none)))) = .ok p :=
  (C100_saved plainPack p "a" _).1 [(r, "b")] (by simp)

end PD.Props
