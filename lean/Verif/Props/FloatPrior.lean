/- Property C148: the human prior with floating point numbers. -/
import Verif.Lemmas.FloatPrior
import Verif.Props.FloatEnv

set_option linter.unusedSectionVars false
set_option linter.unusedSimpArgs false

namespace PD.Props
open PD PD.Spec
variable {G O P Img F : Type}

theorem floatPriorRates_rows (L : FloatLib) (D : FloatDensity) :
    floatPriorRates L D = rowByRow (fun beam si n => f32 (floatPriorRate L D beam si n)) := rfl

theorem floatPrior_doped (knn : FloatKnn) (L : FloatLib) (D : FloatDensity) :
    DopedRates (floatPristineRates knn (floatPriorRates L D)) := pristine_doped knn _

/-- In exact arithmetic the human prior has the rate of the specification. -/
theorem C148_exact (beam si p : V2 ℝ) (hp : p ≠ si) :
    HumanPrior.default.rateAt (V2.smul (1 / BOND) (beam - si)) (getAngle (p - si)) = .ok (priorRateAt beam si p) := by
  have hl : len (p - si) = Spec.dist p si := rfl
  have hu : 0 < len (p - si) := by
    rw [hl]
    rcases (PD.dist_nonneg' p si).lt_or_eq with h | h
    · exact h
    · exact absurd (dist_eq_zero.1 h.symm) hp
  have hdet : (⟨1 / 10, 0, 0, 1 / 10⟩ : Mat2).det = (1 / 10) ^ 2 := by simp only [Mat2.det]; norm_num
  have hpos : (⟨1 / 10, 0, 0, 1 / 10⟩ : Mat2).PosDef := by
    simp only [Mat2.PosDef, Mat2.det]; norm_num
  have hden : ∀ x m : V2 ℝ, mvnPdf x m ⟨1 / 10, 0, 0, 1 / 10⟩ = .ok (normalDensity x m) := by
    intro x m
    unfold mvnPdf
    rw [if_pos hpos]
    simp only [hdet, Real.sqrt_sq (by norm_num : (0 : ℝ) ≤ 1 / 10)]
    unfold normalDensity
    congr 1
    rw [div_eq_mul_inv, mul_comm]
    congr 1
    · field_simp
    · congr 1
      simp only [V2.distSq, V2.normSq]
      ring
  unfold HumanPrior.rateAt singleSiliconPriorRates HumanPrior.default
  simp only [hden]
  rw [rotate_mean _ hu]
  have hm : (⟨85 / 100 * ((p - si).x / len (p - si)), -(85 / 100 * ((p - si).y / len (p - si)))⟩ : V2 ℝ) = mirrored (p - si) := rfl
  have hc : V2.smul (1 / BOND) (beam - si) = ⟨(beam.x - si.x) / (142 / 100), (beam.y - si.y) / (142 / 100)⟩ := by
    apply V2.ext <;> simp [V2.smul, BOND] <;> ring
  rw [hm, hc, priorRateAt_eq, ← offPeak_eq]
  unfold normalDensity
  rw [distSq_of_dist, distSq_of_dist, dist_self']
  congr 1
  have := Real.pi_pos
  simp only [ne_eq, OfNat.ofNat_ne_zero, not_false_eq_true, zero_pow, mul_zero, neg_zero, Real.exp_zero, mul_one]
  field_simp

/-- If the silicon has three bonds, the predictor returns three successors, one for each of the atoms it is bonded to:
the sheet with the silicon there, at the rate of the human prior. -/
theorem C148_rates (knn : FloatKnn) (L : FloatLib) (D : FloatDensity) (g : Grid ℝ) (beam : V2 ℝ) (hd : SingleDoped g)
    (si : V2 ℝ) (hsi : silicons g = [si]) (nbrs : List (V2 ℝ)) (hbond : BondedTo g.positions si nbrs)
    (hbox : ∀ p ∈ g.positions, Near16 p) (hbeam : Near16 beam) :
    ∃ ss places, floatPristineRates knn (floatPriorRates L D) g beam = .ok ss ∧ places.Perm nbrs ∧
      List.Forall₂ (PriorMovesTo g beam si) ss places := by
  obtain ⟨idx, R, hk, hR, hperm⟩ := pristine_bonded knn hbond hbox
  obtain ⟨ss, h1, h2⟩ := pristine_ok knn (fun beam si n => f32 (floatPriorRate L D beam si n)) (beam := beam) hd hsi hk hR
    (fun p _ => f32_nonneg (floatPriorRate_nonneg _ _ _ _ _))
  refine ⟨ss, R, h1, hperm, List.forall₂_iff_get.2 ⟨h2.length_eq, fun i hi hi' => ?_⟩⟩
  obtain ⟨e1, e2, e3, e4⟩ := (List.forall₂_iff_get.1 h2).2 i hi hi'
  have hm : R.get ⟨i, hi'⟩ ∈ nbrs := hperm.mem_iff.1 (List.get_mem R ⟨i, hi'⟩)
  refine ⟨e1, e2, e3, by rw [e4]; exact f32_idem _, by rw [e4]; exact f32_nonneg (floatPriorRate_nonneg _ _ _ _ _), ?_⟩
  rw [e4]
  exact castPrior_err L D hbeam (hbox _ hbond.mem) (hbond.bonds _ hm).2

theorem farPeak {beam si p : V2 ℝ} (hp : |Spec.dist si p - 142 / 100| ≤ 2 / 1000) (hfar : 8 ≤ Spec.dist beam si) :
    22 ≤ (Spec.dist beam (priorPeak si p) / (142 / 100)) ^ 2 := by
  have hl : len (p - si) = Spec.dist si p := by rw [dist_comm' si p]; rfl
  have hmir := mirrored_len (u := p - si) (by rw [hl]; rw [abs_le] at hp; linarith [hp.1])
  have h := len_close' ⟨(beam.x - si.x) / (142 / 100), (beam.y - si.y) / (142 / 100)⟩ (mirrored (p - si))
  rw [← dist_eq_len, offPeak_eq, hmir] at h
  have hc : len ⟨(beam.x - si.x) / (142 / 100), (beam.y - si.y) / (142 / 100)⟩ = Spec.dist beam si / (142 / 100) := by
    unfold len Spec.dist
    rw [eq_comm, div_eq_iff (by norm_num), ← Real.sqrt_sq (by norm_num : (0 : ℝ) ≤ 142 / 100), ← Real.sqrt_mul (by positivity)]
    congr 1
    rw [Real.sqrt_sq (by norm_num)]
    ring
  rw [hc, abs_le] at h
  generalize Spec.dist beam (priorPeak si p) / (142 / 100) = d at h
  have : 478 / 100 ≤ d := by linarith [h.2]
  nlinarith

/-- With the beam at least 8 Å away from a silicon that has three bonds, the three rates are zero, not only small. -/
theorem far_rates (knn : FloatKnn) (L : FloatLib) (D : FloatDensity) {g : Grid ℝ} {beam : V2 ℝ} (hd : SingleDoped g)
    {si : V2 ℝ} (hsi : silicons g = [si]) {nbrs : List (V2 ℝ)} (hbond : BondedTo g.positions si nbrs)
    (hbox : ∀ p ∈ g.positions, Near16 p) (hbeam : Near16 beam) (hfar : 8 ≤ Spec.dist beam si) :
    ∃ a b c, floatPristineRates knn (floatPriorRates L D) g beam = .ok [a, b, c] ∧ a.rate = 0 ∧ b.rate = 0 ∧ c.rate = 0 := by
  obtain ⟨idx, R, hk, hR, hperm⟩ := pristine_bonded knn hbond hbox
  obtain ⟨ss, h1, h2⟩ := pristine_ok knn (fun beam si n => f32 (floatPriorRate L D beam si n)) (beam := beam) hd hsi hk hR
    (fun p _ => f32_nonneg (floatPriorRate_nonneg _ _ _ _ _))
  have hz : ∀ p ∈ R, f32 (floatPriorRate L D beam si p) = 0 := by
    intro p hp
    have hb := (hbond.bonds p (hperm.mem_iff.1 hp)).2
    exact castPrior_zero L D hbeam (hbox _ hbond.mem) hb (farPeak hb hfar)
  obtain ⟨x, y, z, rfl⟩ : ∃ a b c, R = [a, b, c] := List.length_eq_three.1 (hperm.length_eq.trans hbond.three)
  obtain ⟨a, b, c, rfl⟩ : ∃ a b c, ss = [a, b, c] := List.length_eq_three.1 h2.length_eq
  simp only [List.forall₂_cons, List.forall₂_nil_left_iff, and_true] at h2
  obtain ⟨⟨_, _, _, ea⟩, ⟨_, _, _, eb⟩, _, _, _, ec⟩ := h2
  exact ⟨a, b, c, h1, by rw [ea]; exact hz _ (by simp), by rw [eb]; exact hz _ (by simp), by rw [ec]; exact hz _ (by simp)⟩

/-- The reach of the beam.  A control with the beam at least 8 Å away from a silicon that has three bonds does nothing to
the sheet, and tells observers nothing, whatever the random numbers; but if it is to last an hour or longer, it raises
ValueError. -/
theorem C148_far (v : NumpyVersion) (knn : FloatKnn) (L : FloatLib) (D : FloatDensity) (rng : Rng ℝ G)
    (handle : Event ℝ Img → O → O) (c : BeamControl ℝ) (fuel : ℕ) (s : MatCtx ℝ G O) (hr : s.mat.hasBeenReset = true)
    (g : Grid ℝ) (hs : s.mat.grid = some g) (hd : SingleDoped g) (si : V2 ℝ) (hsi : silicons g = [si])
    (nbrs : List (V2 ℝ)) (hbond : BondedTo g.positions si nbrs) (hbox : ∀ p ∈ g.positions, Near16 p)
    (hbeam : Near16 c.position) (hfar : 8 ≤ Spec.dist c.position si) :
    (c.dwellTime < 3600000000 → ∃ gen, Material.floatApplyControl v .single rng handle
      (floatPristineRates knn (floatPriorRates L D)) (fuel + 1) c s = .ok () { s with g := gen }) ∧
    (3600000000 ≤ c.dwellTime → ∃ gen, Material.floatApplyControl v .single rng handle
      (floatPristineRates knn (floatPriorRates L D)) (fuel + 1) c s = .error .valueError { s with g := gen }) := by
  obtain ⟨x, y, z, h1, ex, ey, ez⟩ := far_rates knn L D hd hsi hbond hbox hbeam hfar
  have hread : s.mat.read = .ok g := by simp [Material.read, hr, hs]
  have htot : floatTotalRate v .single ([x, y, z].map (·.rate)) = 0 := by
    simp only [List.map_cons, List.map_nil]
    exact floatTotal_zero v .single ex.ge ey.ge ez.ge (by rw [ex, ey, ez]; norm_num)
  have hdraw := (C145_wait v .single rng x y z ex.ge ey.ge ez.ge s.g).1 (by rw [ex, ey, ez]; norm_num)
  constructor
  · intro hdw
    unfold Material.floatApplyControl
    rw [if_pos hr, floatApplyLoop]
    dsimp only
    by_cases h0 : 0 < c.dwellTime
    · refine ⟨(rng.exponential 0 s.g).2, ?_⟩
      rw [if_pos h0]
      simp only [hread, h1, hdraw, zero_add]
      rw [if_neg (by omega), floatApplyLoop]
      dsimp only
      rw [if_neg (by omega)]
    · exact ⟨s.g, by rw [if_neg h0]⟩
  · intro hdw
    unfold Material.floatApplyControl
    rw [if_pos hr, floatApplyLoop]
    dsimp only
    rw [if_pos (by omega)]
    refine ⟨(rng.exponential 0 s.g).2, ?_⟩
    simp only [hread, h1, hdraw, zero_add]
    rw [if_pos (by omega)]
    unfold floatPerform
    rw [if_pos htot]

/-- Wherever the silicon is, there are three successors with rates that are float32 numbers. -/
theorem floatPrior_at (knn : FloatKnn) (L : FloatLib) (D : FloatDensity) {ps : List (V2 ℝ)} (h4 : 4 ≤ ps.length)
    (hbox : ∀ p ∈ ps, Near16 p) (q : V2 ℝ) : RatesAt (floatPristineRates knn (floatPriorRates L D)) ps q := by
  intro g hd hps
  subst hps
  obtain ⟨si, hsi, _, hmem⟩ := doped_silicon hd
  obtain ⟨idx, R, hk, hR, hlen, _⟩ := pristine_rows knn h4 hbox hmem
  obtain ⟨ss, h1, h2⟩ := pristine_ok knn (fun beam si n => f32 (floatPriorRate L D beam si n)) (beam := q) hd hsi hk hR
    (fun p _ => f32_nonneg (floatPriorRate_nonneg _ _ _ _ _))
  obtain ⟨x, y, z, rfl⟩ : ∃ a b c, R = [a, b, c] := List.length_eq_three.1 hlen
  obtain ⟨a, b, c, rfl⟩ : ∃ a b c, ss = [a, b, c] := List.length_eq_three.1 h2.length_eq
  simp only [List.forall₂_cons, List.forall₂_nil_left_iff, and_true] at h2
  obtain ⟨⟨_, _, _, ea⟩, ⟨_, _, _, eb⟩, _, _, _, ec⟩ := h2
  exact ⟨a, b, c, h1, .inr (.inr ⟨by rw [ea]; exact f32_idem _, by rw [eb]; exact f32_idem _, by rw [ec]; exact f32_idem _⟩)⟩

/-- With the human prior, on a sheet of at least 12 columns, a step of controls from 0 to 1 for less than an hour
returns, after any calls the last of which to return an observation returned `o0`, in every version of numpy.  The one
exception is a control that takes more rounds than the model allows; this does not happen if the model allows 3.6
billion and every waiting time is at least a microsecond. -/
theorem C148_returns (T : FloatTrig) (S : Summation) (k : DotKind) (knn : FloatKnn) (L : FloatLib) (D : FloatDensity)
    (cfg : FloatSimCfg G O P Img) (n : ℕ)
    (hn : 12 ≤ n) (hn' : n ≤ 4096) (hgen : cfg.generate = floatGenerate T S k cfg.rng n) (hl : cfg.rng.Lawful)
    (hch : Chooses cfg.rng) (hrate : cfg.rate = floatPristineRates knn (floatPriorRates L D)) (hp : cfg.rates = .single)
    (g : G) (obs : List O) (ops : List (SimOp ℝ O)) (o0 : Observation ℝ Img) (s : Sim ℝ G O P)
    (hs : (Sim.floatRun cfg (Sim.fresh g obs) ops).2 = s)
    (hlast : lastObs (Sim.floatRun cfg (Sim.fresh g obs : Sim ℝ G O P) ops).1 = some o0)
    (cs : List (BeamControl ℝ)) (b : Bool) (hcs : ∀ c ∈ cs, InUnit c.position ∧ c.dwellTime < 3600000000) :
    (∃ o s', Sim.floatStep cfg cs b s = .ok o s') ∨
    ((∃ s', Sim.floatStep cfg cs b s = .error .diverges s') ∧
      ((∀ scale g, 1 / 1000000 ≤ (cfg.rng.exponential scale g).1) → cfg.fuel < 3600000000)) := by
  refine float_steps_return T S k cfg n hn hn' hgen hl hch (by rw [hrate]; exact floatPrior_doped knn L D) ?_ hp g obs ops
    o0 s hs hlast cs b hcs
  intro ps q h4 hbox _
  rw [hrate]
  exact floatPrior_at knn L D h4 hbox q

theorem portion_err {α A S' S : ℝ} (hA : 0 ≤ A) (hAS : A ≤ S) (hS : 0 < S) (ha : |α - A| ≤ S * (31 / 10 ^ 8))
    (hs : |S' - S| ≤ S * (31 / 10 ^ 8)) : |α / S' - A / S| ≤ 7 / 10 ^ 7 := by
  have hS' : S * (999 / 1000) ≤ S' := by
    rw [abs_le] at hs
    norm_num at hs ⊢
    linarith [hs.1]
  have hp : 0 < S' := by linarith
  have e : α / S' - A / S = ((α - A) - A / S * (S' - S)) / S' := by field_simp; ring
  have h1 : |A / S| ≤ 1 := by rw [abs_of_nonneg (by positivity), div_le_one hS]; exact hAS
  rw [e, abs_div, abs_of_pos hp, div_le_iff₀ hp]
  have h2 : |A / S * (S' - S)| ≤ S * (31 / 10 ^ 8) := by
    rw [abs_mul]
    exact (mul_le_of_le_one_left (abs_nonneg _) h1).trans hs
  refine (abs_sub _ _).trans ?_
  generalize |A / S * (S' - S)| = q at h2
  generalize |α - A| = r at ha
  norm_num at *
  linarith

theorem priorRateAt_bounds (beam si p : V2 ℝ) : 0 ≤ priorRateAt beam si p ∧ priorRateAt beam si p ≤ 1 := by
  have l2 := Real.log_two_lt_d9
  have l1 := Real.log_two_gt_d9
  rw [priorRateAt_eq]
  have h0 := (Real.exp_pos (-(5 * (Spec.dist beam (priorPeak si p) / (142 / 100)) ^ 2))).le
  have h1 : Real.exp (-(5 * (Spec.dist beam (priorPeak si p) / (142 / 100)) ^ 2)) ≤ 1 :=
    Real.exp_le_one_iff.2 (by nlinarith [sq_nonneg (Spec.dist beam (priorPeak si p) / (142 / 100))])
  constructor
  · exact mul_nonneg (by norm_num at l1; linarith) h0
  · exact mul_le_one₀ (by norm_num at l2 ⊢; linarith) h0 h1

/-- The rates are float32 numbers, and numpy then accepts the probabilities computed from them.  With the silicon bonded
to three atoms, and unless the beam is so far away that the total rate is below `2^-100` per second, each of the three
probabilities is within 1/300000 of the share of its rate in the total, and the waiting time is drawn with the mean the
total prescribes, up to a part in 300000. -/
theorem C148_odds (v : NumpyVersion) (knn : FloatKnn) (L : FloatLib) (D : FloatDensity) (rng : Rng ℝ G) (g : Grid ℝ)
    (beam : V2 ℝ) (hd : SingleDoped g)
    (si : V2 ℝ) (hsi : silicons g = [si]) (nbrs : List (V2 ℝ)) (hbond : BondedTo g.positions si nbrs)
    (hbox : ∀ p ∈ g.positions, Near16 p) (hbeam : Near16 beam)
    (total : ℝ) (htotal : total = (nbrs.map (priorRateAt beam si)).sum) (hlow : 2 ^ (-100 : ℤ) ≤ total) (gen : G) :
    ∃ a b c pa pb pc, floatPristineRates knn (floatPriorRates L D) g beam = .ok [a, b, c] ∧ [pa, pb, pc].Perm nbrs ∧
      PriorMovesTo g beam si a pa ∧ PriorMovesTo g beam si b pb ∧ PriorMovesTo g beam si c pc ∧
      (∃ x y z, transitionProbs v .single [a.rate, b.rate, c.rate] = .ok [x, y, z] ∧
        |x - priorRateAt beam si pa / total| ≤ 1 / 300000 ∧ |y - priorRateAt beam si pb / total| ≤ 1 / 300000 ∧
        |z - priorRateAt beam si pc / total| ≤ 1 / 300000) ∧
      ∃ mean t, |mean - 1 / total| ≤ 1 / 300000 * (1 / total) ∧
        floatDrawTime v .single rng [a, b, c] gen = .ok (t, (rng.exponential mean gen).2) ∧
        |(t : ℝ) - 1000000 * min (rng.exponential mean gen).1 3600| ≤ 501 / 1000 := by
  obtain ⟨ss, places, h1, h2, h3⟩ := C148_rates knn L D g beam hd si hsi nbrs hbond hbox hbeam
  obtain ⟨pa, pb, pc, rfl⟩ : ∃ a b c, places = [a, b, c] :=
    List.length_eq_three.1 (h2.length_eq.trans hbond.three)
  obtain ⟨a, b, c, rfl⟩ : ∃ a b c, ss = [a, b, c] := List.length_eq_three.1 h3.length_eq
  simp only [List.forall₂_cons, List.forall₂_nil_left_iff, and_true] at h3
  obtain ⟨ma, mb, mc⟩ := h3
  refine ⟨a, b, c, pa, pb, pc, h1, h2, ma, mb, mc, ?_⟩
  have hsum : total = priorRateAt beam si pa + priorRateAt beam si pb + priorRateAt beam si pc := by
    rw [htotal, ← (h2.map (priorRateAt beam si)).sum_eq]
    simp
    ring
  obtain ⟨a1, a2⟩ := priorRateAt_bounds beam si pa
  obtain ⟨b1, b2⟩ := priorRateAt_bounds beam si pb
  obtain ⟨c1, c2⟩ := priorRateAt_bounds beam si pc
  obtain ⟨_, _, _, fa, na, ea⟩ := ma
  obtain ⟨_, _, _, fb, nb, eb⟩ := mb
  obtain ⟨_, _, _, fc, nc, ec⟩ := mc
  clear h1 h2 htotal hbond hbox hsi
  generalize priorRateAt beam si pa = A at *
  generalize priorRateAt beam si pb = B at *
  generalize priorRateAt beam si pc = C at *
  have htiny : (2 : ℝ) ^ (-149 : ℤ) ≤ 2 ^ (-100 : ℤ) * (1 / 10 ^ 12) := by norm_num
  have hpos : (0 : ℝ) < 2 ^ (-100 : ℤ) := by positivity
  have htop : (6 : ℝ) ≤ 2 ^ (100 : ℤ) := by norm_num
  have hT : 0 < total := lt_of_lt_of_le hpos hlow
  have rel : ∀ {r R : ℝ}, 0 ≤ R → |r - R| ≤ R * (3 / 10 ^ 7) + 2 ^ (-149 : ℤ) →
      |r - R| ≤ R * (3 / 10 ^ 7) + total * (1 / 10 ^ 12) := by
    intro r R h0 h
    refine h.trans (add_le_add le_rfl (htiny.trans ?_))
    exact mul_le_mul_of_nonneg_right hlow (by norm_num)
  have ka := rel a1 ea
  have kb := rel b1 eb
  have kc := rel c1 ec
  obtain ⟨α, hα⟩ : ∃ α, α = a.rate := ⟨_, rfl⟩
  obtain ⟨β, hβ⟩ : ∃ β, β = b.rate := ⟨_, rfl⟩
  obtain ⟨γ, hγ⟩ : ∃ γ, γ = c.rate := ⟨_, rfl⟩
  rw [← hα] at ka
  rw [← hβ] at kb
  rw [← hγ] at kc
  clear ea eb ec rel
  have hs : |(α + β + γ) - total| ≤ total * (31 / 10 ^ 8) := by
    rw [abs_le] at ka kb kc ⊢
    norm_num at ka kb kc ⊢
    constructor <;> linarith [ka.1, ka.2, kb.1, kb.2, kc.1, kc.2]
  have weak : ∀ {r R : ℝ}, R ≤ total → |r - R| ≤ R * (3 / 10 ^ 7) + total * (1 / 10 ^ 12) → |r - R| ≤ total * (31 / 10 ^ 8) := by
    intro r R h0 h
    refine h.trans ?_
    norm_num
    linarith
  have wa := weak (by linarith) ka
  have wb := weak (by linarith) kb
  have wc := weak (by linarith) kc
  have hS' : total * (9 / 10) ≤ α + β + γ := by
    rw [abs_le] at hs
    norm_num at hs ⊢
    linarith [hs.1]
  have hSpos : 0 < a.rate + b.rate + c.rate := by rw [← hα, ← hβ, ← hγ]; linarith
  have hhi : a.rate + b.rate + c.rate ≤ (2 : ℝ) ^ (100 : ℤ) := by
    rw [← hα, ← hβ, ← hγ]
    rw [abs_le] at hs
    refine le_trans ?_ htop
    norm_num at hs ⊢
    linarith [hs.2]
  constructor
  · obtain ⟨x, y, z, e, e1, e2, e3, _⟩ := C136_accepted_partial v .single (.inr rfl) (a := a.rate) (b := b.rate)
      (c := c.rate) na nb nc (.inr ⟨hSpos, fa, fb, fc⟩)
    rw [← hα, ← hβ, ← hγ] at e1 e2 e3
    have k1 := portion_err a1 (by linarith) hT wa hs
    have k2 := portion_err b1 (by linarith) hT wb hs
    have k3 := portion_err c1 (by linarith) hT wc hs
    have t := fun (u v w : ℝ) => abs_sub_le u v w
    refine ⟨x, y, z, e, ?_, ?_, ?_⟩
    · refine (t x (α / (α + β + γ)) _).trans ((add_le_add e1 k1).trans (by norm_num))
    · refine (t y (β / (α + β + γ)) _).trans ((add_le_add e2 k2).trans (by norm_num))
    · refine (t z (γ / (α + β + γ)) _).trans ((add_le_add e3 k3).trans (by norm_num))
  · obtain ⟨mean, tt, m1, m2, m3⟩ := (C145_wait v .single rng a b c na nb nc gen).2 (.inr ⟨hSpos, fa, fb, fc⟩) hhi
    refine ⟨mean, tt, ?_, m2, m3⟩
    rw [← hα, ← hβ, ← hγ] at m1
    generalize α + β + γ = W at hs hS' m1
    clear hsum weak hlow
    have hW : 0 < W := by linarith
    have k1 : |1 / W - 1 / total| ≤ 1 / total * (4 / 10 ^ 7) := by
      have : 1 / W - 1 / total = (total - W) / W * (1 / total) := by field_simp
      rw [this, abs_mul, abs_of_pos (by positivity : 0 < 1 / total), mul_comm]
      refine mul_le_mul_of_nonneg_left ?_ (by positivity)
      rw [abs_div, abs_of_pos hW, div_le_iff₀ hW, abs_sub_comm]
      norm_num at hs ⊢
      linarith
    have hI : 0 < 1 / total := by positivity
    generalize 1 / total = I at k1 hI ⊢
    generalize 1 / W = J at k1 m1
    rw [abs_le] at k1 m1 ⊢
    norm_num at k1 m1 ⊢
    constructor <;> linarith [k1.1, k1.2, m1.1, m1.2]

/-- With the human prior the environment can be played: after any calls, `reset` returns, and so does `step` with an action
of the right length, if dwell times are less than an hour and timedeltas can be made of them.  The one exception is a
control that takes more rounds than the model allows. -/
theorem C148_plays (T : FloatTrig) (S : Summation) (k : DotKind) (n : ℕ) (knn : FloatKnn) (L : FloatLib)
    (D : FloatDensity) (cfg : FloatEnvCfg G O P Img F) (hn : 12 ≤ n) (hn' : n ≤ 4096)
    (hgen : cfg.sim.generate = floatGenerate T S k cfg.sim.rng n) (hl : cfg.sim.rng.Lawful) (hch : Chooses cfg.sim.rng)
    (hrate : cfg.sim.rate = floatPristineRates knn (floatPriorRates L D)) (hp : cfg.sim.rates = .single)
    (hd : 0 ≤ (dwellRange cfg.adapter).1 ∧ (dwellRange cfg.adapter).1 ≤ (dwellRange cfg.adapter).2 ∧
      (dwellRange cfg.adapter).2 < 3600000000)
    (hsec : cfg.sim.numpy = .one ∨ cfg.actions = .double ∨ (dwellRange cfg.adapter).1 = (dwellRange cfg.adapter).2)
    (hfeat : FeaturesDefined cfg.features cfg.requiresImage)
    (g : G) (ga : Option G) (beam : V2 ℝ) (ops : List (EnvOp ℝ O))
    (s : Env ℝ G O P Img) (hs : s = Env.floatAfter cfg (Env.fresh g ga beam GoalState.floatFresh) ops) :
    (∃ t s', Env.floatReset cfg s = .ok t s') ∧
    ∀ a : List ℝ, a.length = actionSize cfg.adapter →
      (∃ t s', Env.floatStep cfg a s = .ok t s') ∨
      ((∃ s', Env.floatStep cfg a s = .error .diverges s') ∧
        ((∀ scale g, 1 / 1000000 ≤ (cfg.sim.rng.exponential scale g).1) → cfg.sim.fuel < 3600000000)) :=
  C147_plays_partial T S k n cfg ⟨hn, hn', hgen, hl, by rw [hrate]; exact floatPrior_doped knn L D⟩
    ⟨hch, fun ps q h4 _ hbox _ => by rw [hrate]; exact floatPrior_at knn L D h4 hbox q, .inr hp, hd.1, hd.2.1, hd.2.2, hsec⟩
    hfeat g ga beam ops s hs

/-! ### The hypotheses can be met -/

theorem normalDensity_nonneg (x m : V2 ℝ) : 0 ≤ normalDensity x m := by
  have := kappa_bounds.1
  exact mul_nonneg (by linarith) (Real.exp_pos _).le

/-- The density, rounded. -/
noncomputable def roundedDensity : FloatDensity where
  pdf := fun x m => f64 (normalDensity x m)
  nonneg := fun x m => f64_nonneg (normalDensity_nonneg x m)
  err := by
    intro x m _ _ _ _
    refine (f64_tight _).trans ?_
    have h := normalDensity_nonneg x m
    rw [abs_of_nonneg h]
    generalize normalDensity x m = d at *
    norm_num
    linarith

/-- With the beam on the silicon all neighbours are equally likely. -/
theorem priorRateAt_at_silicon {si p : V2 ℝ} (hp : |Spec.dist si p - 142 / 100| ≤ 2 / 1000) :
    priorRateAt si si p = Real.log 2 / 3 * Real.exp (-(5 * (85 / 100) ^ 2)) := by
  have hl : len (p - si) = Spec.dist si p := by rw [dist_comm' si p]; rfl
  have hmir := mirrored_len (u := p - si) (by rw [hl]; rw [abs_le] at hp; linarith [hp.1])
  rw [priorRateAt_eq, ← offPeak_eq, ← hmir, dist_comm']
  congr 5
  rw [dist_eq_len]
  congr 1
  apply V2.ext <;> simp

/-- A simulator with the human prior. -/
noncomputable def priorPlay : FloatSimCfg Unit Unit Unit Unit :=
  { floatPlay with rate := floatPristineRates roundedLib.knn (floatPriorRates roundedLib roundedDensity) }

/-- After a reset the silicon has three bonds; there are three successors with the prescribed rates for a beam on the
silicon, with a total that is not small; and a step of two and a half seconds returns.  With the beam 100 Å away from the
origin, at least 8 Å away from the silicon, a control for ten seconds does nothing. -/
example : ∃ o0 s o s' sheet si nbrs ss places,
    Sim.floatRun priorPlay (Sim.fresh () [()] : Sim ℝ Unit Unit Unit) [.reset true] = ([some (.ok o0)], s) ∧
    s.ctx.mat.grid = some sheet ∧ silicons sheet = [si] ∧ BondedTo sheet.positions si nbrs ∧
    priorPlay.rate sheet si = .ok ss ∧ places.Perm nbrs ∧ List.Forall₂ (PriorMovesTo sheet si si) ss places ∧
    2 ^ (-100 : ℤ) ≤ (nbrs.map (priorRateAt si si)).sum ∧
    Sim.floatStep priorPlay [BeamControl.mk' ⟨1 / 2, 1 / 2⟩ 2500000] false s = .ok o s' ∧
    8 ≤ Spec.dist ⟨100, 0⟩ si ∧
    ∃ gen, Material.floatApplyControl .one .single priorPlay.rng priorPlay.handle priorPlay.rate 1
      (BeamControl.mk' ⟨100, 0⟩ 10000000) s.ctx = .ok () { s.ctx with g := gen } := by
  have hl : priorPlay.rng.Lawful := Witness.rng_lawful zero_le_one
  have hch : Chooses priorPlay.rng := chooses_witness 1
  have hr : DopedRates priorPlay.rate := floatPrior_doped _ _ _
  obtain ⟨o0, s, sheet, offset, angle, h1, h2, h3, hx, hy, h4, _, _, _, h5⟩ := C144_reset roundedTrig inOrder .fusedFirst
    priorPlay 50 (by norm_num) (by norm_num) rfl hl true (Sim.fresh () [()] : Sim ℝ Unit Unit Unit)
  have hrun : Sim.floatRun priorPlay (Sim.fresh () [()] : Sim ℝ Unit Unit Unit) [.reset true] = ([some (.ok o0)], s) := by
    simp only [Sim.floatRun, Sim.floatExec, h1]
  have hD : Displaced (1 / 1000) (layOutSheet 50 offset angle) sheet.positions := by
    rw [h4]
    exact C141_sheet _ _ _ (by norm_num) offset (hx.trans (by norm_num)) (hy.trans (by norm_num)) angle
  have hlast : lastObs (Sim.floatRun priorPlay (Sim.fresh () [()] : Sim ℝ Unit Unit Unit) [.reset true]).1 = some o0 := by
    rw [hrun]
    simp [lastObs]
  have hm := floatGenerate_moderate roundedTrig inOrder .fusedFirst (cfg := priorPlay) (n := 50) (by norm_num) hl rfl
  have hready : FloatReady s sheet o0.fov := by
    have hinv := (FloatInv.fresh () [()] : FloatInv (Sim.fresh () [()] : Sim ℝ Unit Unit Unit)).run hl hm hr.keepsDoping
      [.reset true]
    have hf := floatRun_fov hl hm hr.keepsDoping [.reset true]
      (FloatInv.fresh () [()] : FloatInv (Sim.fresh () [()] : Sim ℝ Unit Unit Unit))
    rw [hlast] at hf
    obtain ⟨sh, hready⟩ := hinv _ hf
    rw [hrun] at hready
    have := hready.grid
    rw [h2] at this
    cases this
    exact hready
  have hbox : ∀ p ∈ sheet.positions, Near16 p := by
    intro p hp
    obtain ⟨m1, m2⟩ := hready.within p hp
    exact ⟨m1.trans (by norm_num), m2.trans (by norm_num)⟩
  obtain ⟨si, hsi, _, hmem⟩ := doped_silicon h3
  obtain ⟨p, hpm, hpd⟩ := atom_near_origin 50 (by norm_num) offset angle hx hy
  have hmid := h5 si hsi p hpm
  obtain ⟨nbrs, hb⟩ := C146_bonds 50 offset angle hx hy sheet.positions hD si hmem (by norm_num at hmid hpd ⊢; linarith)
  obtain ⟨ss, places, e1, e2, e3⟩ := C148_rates roundedLib.knn roundedLib roundedDensity sheet si h3 si hsi nbrs hb hbox
    (hbox _ hmem)
  have hfar : 8 ≤ Spec.dist ⟨100, 0⟩ si := by
    have t1 := dist_tri ⟨100, 0⟩ si ⟨0, 0⟩
    rw [dist_comm' si ⟨0, 0⟩] at t1
    have t2 : Spec.dist (⟨100, 0⟩ : V2 ℝ) ⟨0, 0⟩ = 100 := by
      unfold Spec.dist
      rw [show ((100 : ℝ) - 0) ^ 2 + (0 - 0) ^ 2 = 100 ^ 2 by norm_num, Real.sqrt_sq (by norm_num)]
    norm_num at hmid hpd
    linarith
  have htot : (2 : ℝ) ^ (-100 : ℤ) ≤ (nbrs.map (priorRateAt si si)).sum := by
    obtain ⟨q, hq⟩ : ∃ q, q ∈ nbrs := List.exists_mem_of_length_pos (by rw [hb.three]; norm_num)
    have hnn : ∀ r ∈ nbrs.map (priorRateAt si si), 0 ≤ r := by
      intro r hr
      obtain ⟨w, _, rfl⟩ := List.mem_map.1 hr
      exact (priorRateAt_bounds si si w).1
    refine le_trans ?_ (List.single_le_sum hnn _ (List.mem_map_of_mem hq))
    rw [priorRateAt_at_silicon (hb.bonds q hq).2]
    have l1 := Real.log_two_gt_d9
    have he : (1 : ℝ) / 100 ≤ Real.exp (-(5 * (85 / 100) ^ 2)) := by
      have h2 := Real.exp_one_lt_d9
      have h3 : Real.exp (-(5 * (85 / 100) ^ 2)) ≥ Real.exp (-4) := Real.exp_le_exp.2 (by norm_num)
      have h4 : Real.exp (-4) = (Real.exp 1 ^ 4)⁻¹ := by rw [← Real.exp_nat_mul, ← Real.exp_neg]; norm_num
      have h5 : Real.exp 1 ^ 4 ≤ 3 ^ 4 := pow_le_pow_left₀ (Real.exp_pos 1).le (by norm_num at h2 ⊢; linarith) 4
      rw [h4] at h3
      refine le_trans ?_ h3
      exact le_trans (by norm_num) (inv_anti₀ (by positivity) h5)
    have hR : (2 : ℝ) / 10 ≤ Real.log 2 / 3 := by norm_num at l1 ⊢; linarith
    refine le_trans ?_ (mul_le_mul hR he (by norm_num) (by linarith))
    norm_num
  obtain ⟨hz, _⟩ := C148_far .one roundedLib.knn roundedLib roundedDensity priorPlay.rng priorPlay.handle
    (BeamControl.mk' ⟨100, 0⟩ 10000000) 0 s.ctx hready.matFlag sheet h2 h3 si hsi nbrs hb hbox
    ⟨by norm_num [BeamControl.mk'], by norm_num [BeamControl.mk']⟩ hfar
  rcases C148_returns roundedTrig inOrder .fusedFirst roundedLib.knn roundedLib roundedDensity priorPlay 50 (by norm_num)
    (by norm_num) rfl hl hch
    rfl rfl () [()] [.reset true] o0 s (by rw [hrun]) hlast [BeamControl.mk' ⟨1 / 2, 1 / 2⟩ 2500000] false (by
      intro c hc
      rw [List.mem_singleton] at hc
      subst hc
      refine ⟨?_, by norm_num [BeamControl.mk']⟩
      constructor <;> norm_num [BeamControl.mk']) with ⟨o, s', h⟩ | ⟨_, h⟩
  · exact ⟨o0, s, o, s', sheet, si, nbrs, ss, places, hrun, h2, hsi, hb, e1, e2, e3, htot, h, hfar,
      hz (by norm_num [BeamControl.mk'])⟩
  · have := h (by
      intro scale g
      show (1 : ℝ) / 1000000 ≤ 1
      norm_num)
    exact absurd this (by show ¬ (3600000000 < 3600000000); norm_num)

/-- An environment with the human prior: after a reset a step with the beam half a bond from the silicon returns. -/
example : ∃ cfg : FloatEnvCfg Unit Unit Unit Unit (List ℝ), cfg.sim = priorPlay ∧ ∃ t s t' s',
    Env.floatReset cfg (Env.fresh () none ⟨0, 0⟩ GoalState.floatFresh) = .ok t s ∧
    Env.floatStep cfg [1 / 2, 0, 0] s = .ok t' s' := by
  let cfg : FloatEnvCfg Unit Unit Unit Unit (List ℝ) := { floatEnvPlay with sim := priorPlay }
  have hfeat : FeaturesDefined cfg.features cfg.requiresImage :=
    (C69_features_defined (Img := Unit) Witness.knn (fun i => i)).1 false
  have plays := C148_plays roundedTrig inOrder .fusedFirst 50 roundedLib.knn roundedLib roundedDensity cfg (by norm_num)
    (by norm_num) rfl (Witness.rng_lawful zero_le_one) (chooses_witness 1) rfl rfl
    (by norm_num [cfg, floatEnvPlay, dwellRange]) (.inr (.inl rfl)) hfeat () none ⟨0, 0⟩
  obtain ⟨⟨t, s, h1⟩, _⟩ := plays [] _ rfl
  have h1' : Env.floatReset cfg (Env.fresh () none ⟨0, 0⟩ GoalState.floatFresh) = .ok t s := h1
  have hs : s = Env.floatAfter cfg (Env.fresh () none ⟨0, 0⟩ GoalState.floatFresh) [.reset] := by
    simp only [Env.floatAfter, List.foldl, Env.floatExec, h1']
  refine ⟨cfg, rfl, t, s, ?_⟩
  rcases (plays [.reset] s hs).2 [1 / 2, 0, 0] (by simp [cfg, floatEnvPlay, actionSize]) with ⟨t', s', h2⟩ | ⟨_, h2⟩
  · exact ⟨t', s', h1', h2⟩
  · have := h2 (by
      intro scale g
      show (1 : ℝ) / 1000000 ≤ 1
      norm_num)
    exact absurd this (by show ¬ (3600000000 < 3600000000); norm_num)

end PD.Props
