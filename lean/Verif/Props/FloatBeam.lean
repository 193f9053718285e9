/- Property C145: the beam with floating point numbers. -/
import Verif.Lemmas.FloatBeam
import Verif.Props.FloatSim

set_option linter.unusedSectionVars false
set_option linter.unusedSimpArgs false

namespace PD.Props
open PD PD.Spec
variable {G O P Img : Type}

/-- With rates, probabilities and waiting times that are floating point numbers of any type: whether a control returns or
raises, its effect on the sheet is what observers are told, and this is as `Exposed` says: transitions to sheets offered
at positive rates, at times in order and within the dwell time. -/
theorem C145_exposure (v : NumpyVersion) (p : Precision) (rng : Rng ℝ G) (hl : rng.Lawful) (hch : Chooses rng)
    (handle : Event ℝ Img → O → O) (rate : RateFunction ℝ) (hn : NonnegRates rate) (c : BeamControl ℝ) (fuel : ℕ)
    (s : MatCtx ℝ G O) (sheet : Grid ℝ) (hs : s.mat.grid = some sheet) :
    ∃ trs sheet', Exposed rate c.position c.dwellTime sheet trs sheet' ∧
      (endState (Material.floatApplyControl v p rng handle rate fuel c s)).mat.grid = some sheet' ∧
      (endState (Material.floatApplyControl v p rng handle rate fuel c s)).obs =
        s.obs.map (observeAll handle (trs.map fun e => Event.transition e.1 e.2)) := by
  obtain ⟨trs, sheet', h1, h2, _, h3⟩ := floatApplyControl_trace v p hl hch handle hn c fuel hs
  exact ⟨trs, sheet', h1, h2, h3⟩

/-- Before a reset a control raises RuntimeError and changes nothing; after one, a control without positive dwell time
returns and changes nothing. -/
theorem C145_nothing (v : NumpyVersion) (p : Precision) (rng : Rng ℝ G) (handle : Event ℝ Img → O → O)
    (rate : RateFunction ℝ) (c : BeamControl ℝ) (fuel : ℕ) (s : MatCtx ℝ G O) :
    (s.mat.hasBeenReset = false → Material.floatApplyControl v p rng handle rate fuel c s = .error .runtimeError s) ∧
    (s.mat.hasBeenReset = true → c.dwellTime ≤ 0 →
      Material.floatApplyControl v p rng handle rate fuel c s = .ok () s) := by
  refine ⟨fun h => by simp [Material.floatApplyControl, h], fun h hc => ?_⟩
  have : ¬ (0 : ℤ) < c.dwellTime := by omega
  unfold Material.floatApplyControl
  rw [floatApplyLoop]
  simp [h, this]

/-- The waiting time until the next of three transitions.  Without any rate it is an hour.  With a total rate from
`2^-100` to `2^100`, or a smaller one of rates that are float32 numbers, it is drawn, once, from the exponential
distribution with the mean that total prescribes, up to a part in half a million; it is at most an hour, and rounded to
whole microseconds. -/
theorem C145_wait (v : NumpyVersion) (p : Precision) (rng : Rng ℝ G) (a b c : Successor ℝ) (ha : 0 ≤ a.rate)
    (hb : 0 ≤ b.rate) (hc : 0 ≤ c.rate) (g : G) :
    (a.rate + b.rate + c.rate = 0 →
      floatDrawTime v p rng [a, b, c] g = .ok (3600000000, (rng.exponential 0 g).2)) ∧
    (2 ^ (-100 : ℤ) ≤ a.rate + b.rate + c.rate ∨ (0 < a.rate + b.rate + c.rate ∧ f32 a.rate = a.rate ∧ f32 b.rate = b.rate ∧
        f32 c.rate = c.rate) → a.rate + b.rate + c.rate ≤ 2 ^ (100 : ℤ) →
      ∃ mean t, |mean - 1 / (a.rate + b.rate + c.rate)| ≤ 1 / 500000 * (1 / (a.rate + b.rate + c.rate)) ∧
        floatDrawTime v p rng [a, b, c] g = .ok (t, (rng.exponential mean g).2) ∧
        |(t : ℝ) - 1000000 * min (rng.exponential mean g).1 3600| ≤ 501 / 1000) := by
  constructor
  · intro h
    unfold floatDrawTime
    simp only [List.map_cons, List.map_nil, floatTotal_zero v p ha hb hc h, if_true]
    simp
  · intro h1 h2
    have hne := (floatTotal_pos v p ha hb hc h1).ne'
    have herr := floatTotal_err v p ha hb hc h1
    have hT0 := floatTotal_pos v p ha hb hc h1
    have hS0 : 0 < a.rate + b.rate + c.rate := h1.elim (lt_of_lt_of_le (by positivity)) And.left
    clear h1
    generalize hT : floatTotalRate v p [a.rate, b.rate, c.rate] = T at hne herr hT0
    generalize hS : a.rate + b.rate + c.rate = S at h2 herr hS0
    obtain ⟨d, e1, e2⟩ := timedeltaOf_err (min (rng.exponential ((withPythonNumber v p).round (1 / T)) g).1 3600)
    refine ⟨(withPythonNumber v p).round (1 / T), d, ?_, ?_, ?_⟩
    · have hr := (withPythonNumber v p).round_err (1 / T)
      have hq : |1 / T - 1 / S| ≤ 1 / 1000000 * (1 / S) := by
        have : 1 / T - 1 / S = (S - T) / T * (1 / S) := by field_simp
        rw [this, abs_mul, abs_of_pos (by positivity : 0 < 1 / S)]
        refine mul_le_mul_of_nonneg_right ?_ (by positivity)
        rw [abs_div, abs_of_pos hT0, div_le_iff₀ hT0, abs_sub_comm]
        have h4 := herr
        rw [abs_le] at herr
        norm_num at h4 herr
        linarith [herr.1]
      have h5 : (2 : ℝ) ^ (-150 : ℤ) ≤ 2 ^ (-50 : ℤ) * (1 / S) := by
        have : (2 : ℝ) ^ (-100 : ℤ) ≤ 1 / S := by
          rw [le_div_iff₀ hS0]
          have := mul_le_mul_of_nonneg_left h2 (by positivity : (0 : ℝ) ≤ 2 ^ (-100 : ℤ))
          rwa [← zpow_add₀ (by norm_num), show (-100 : ℤ) + 100 = 0 by norm_num, zpow_zero] at this
        have h6 := mul_le_mul_of_nonneg_left this (by positivity : (0 : ℝ) ≤ 2 ^ (-50 : ℤ))
        rwa [← zpow_add₀ (by norm_num), show (-50 : ℤ) + -100 = -150 by norm_num] at h6
      generalize hI : 1 / S = I at hq h5 ⊢
      have hI0 : 0 < I := by rw [← hI]; positivity
      generalize hJ : 1 / T = J at hq hr ⊢
      have hJ0 : |J| ≤ 2 * I := by
        have := abs_sub_abs_le_abs_sub J I
        rw [abs_of_pos hI0] at this
        linarith
      have h7 := mul_le_mul_of_nonneg_right hJ0 (by positivity : (0 : ℝ) ≤ 2 ^ (-24 : ℤ))
      have h8 := abs_add_le ((withPythonNumber v p).round J - J) (J - I)
      rw [sub_add_sub_cancel] at h8
      norm_num at hr h5 h7 ⊢
      linarith
    · unfold floatDrawTime
      simp only [List.map_cons, List.map_nil, hT, hne, if_false, e1]
    · rw [mul_comm]
      refine e2.trans (by norm_num)

theorem sound_corners {s : Sim ℝ G O P} {sheet : Grid ℝ} {f : Fov ℝ} (h : FloatReady s sheet f) :
    CornersWithin 60020 f := by
  obtain ⟨c, sc, _, h15, h30, hc, rfl⟩ := h.shape
  obtain ⟨⟨a1, a2⟩, a3, a4⟩ := floatCentredFov_err hc h15 h30
  obtain ⟨c1, c2⟩ := hc
  rw [abs_le] at a1 a2 a3 a4 c1 c2
  norm_num at a1 a2 a3 a4
  refine ⟨⟨?_, ?_⟩, ?_, ?_⟩ <;> rw [abs_le] <;> constructor <;>
    linarith [a1.1, a1.2, a2.1, a2.2, a3.1, a3.2, a4.1, a4.2, c1.1, c1.2, c2.1, c2.2]

/-- A step of the simulator that returns, after any calls, applies its controls to the sheet one after the other, at the
places that the latest observation showed at the given positions, up to a billionth of an Å.  Observers are told of
every control and of every transition, as they happen, and then of the images. -/
theorem C145_step (T : FloatTrig) (S : Summation) (k : DotKind) (cfg : FloatSimCfg G O P Img) (n : ℕ) (hn : n ≤ 4096)
    (hgen : cfg.generate = floatGenerate T S k cfg.rng n) (hl : cfg.rng.Lawful) (hch : Chooses cfg.rng)
    (hr : DopedRates cfg.rate) (g : G) (obs : List O) (ops : List (SimOp ℝ O)) (o0 : Observation ℝ Img)
    (s : Sim ℝ G O P) (hs : (Sim.floatRun cfg (Sim.fresh g obs) ops).2 = s)
    (hlast : lastObs (Sim.floatRun cfg (Sim.fresh g obs : Sim ℝ G O P) ops).1 = some o0)
    (cs : List (BeamControl ℝ)) (b : Bool) (o : Observation ℝ Img) (s' : Sim ℝ G O P)
    (h : Sim.floatStep cfg cs b s = .ok o s') :
    (∃ sheet sheet' evs evs', s.ctx.mat.grid = some sheet ∧ s'.ctx.mat.grid = some sheet' ∧
      ExposedAll cfg.rate (floatAim o0.fov cs) sheet evs sheet' ∧
      s'.ctx.obs = s.ctx.obs.map (observeAll cfg.handle (evs ++ .takeImage cfg.imageDuration o0.fov ::
        (evs' ++ (o.image.map Event.generatedImage).toList))) ∧
      ((evs' = [] ∧ o.fov = o0.fov) ∨ evs' = [.fovChange o.fov, .takeImage cfg.imageDuration o.fov])) ∧
    o.image.isSome = b ∧
    ∀ c ∈ cs, InUnit c.position → Spec.dist (lerp o0.fov.lowerLeft o0.fov.upperRight c.position)
      (o0.fov.floatToMaterial c.position) ≤ 1 / 10 ^ 9 := by
  subst hs
  have hm := floatGenerate_moderate T S k hn hl hgen
  have h0 : FloatInv (Sim.fresh g obs : Sim ℝ G O P) := FloatInv.fresh g obs
  have hinv := h0.run hl hm hr.keepsDoping ops
  have hf := floatRun_fov hl hm hr.keepsDoping ops h0
  rw [hlast] at hf
  simp only [Option.map_some, Option.some_or] at hf
  obtain ⟨sheet, hready⟩ := hinv _ hf
  obtain ⟨el, c, evs', hc, ho, hb, hcase⟩ := floatStep_told cfg hf h
  obtain ⟨m, evs, sheet', _, happ, hg', hobs, hall⟩ := floatApplyControls_trace cfg hl hch hr.nonneg o0.fov cs 0 _ sheet
    hready.grid
  have := hall el c hc
  subst this
  rw [List.take_length] at happ
  rw [hc] at hg' hobs
  refine ⟨⟨sheet, sheet', evs, evs', hready.grid, ?_, happ, ?_, ?_⟩, hb, ?_⟩
  · rcases floatStep_cases cfg hr.keepsDoping cs b hready with ⟨e, s2, _, _, k1, _⟩ | ⟨o2, s2, _, k1, _, _, _, _, el2, c2, k2, k3⟩
    · rw [h] at k1; cases k1
    · rw [h] at k1
      cases k1
      rw [hc] at k2
      cases k2
      rw [k3]
      exact hg'
  · simp only [endState] at hobs
    rw [ho, hobs]
    simp [observeAll, Function.comp_def]
  · rcases hcase with ⟨k1, k2, _⟩ | ⟨k1, _⟩
    · exact .inl ⟨k1, k2⟩
    · exact .inr k1
  · intro c _ hu
    obtain ⟨e1, e2⟩ := C139_beam o0.fov hready.sound.rect 60020 (by
      have : (2 : ℝ) ^ (-900 : ℤ) ≤ 2 ^ (0 : ℤ) := zpow_le_zpow_right₀ (by norm_num) (by norm_num)
      rw [zpow_zero] at this
      linarith) (sound_corners hready) c.position hu
    rw [abs_sub_comm] at e1 e2
    have e3 := dist_le_abs (lerp o0.fov.lowerLeft o0.fov.upperRight c.position) (o0.fov.floatToMaterial c.position)
    rw [abs_sub_comm, abs_sub_comm (o0.fov.floatToMaterial c.position).y] at e3
    norm_num at e1 e2 e3 ⊢
    linarith

/-- A step, after any calls the last of which to return an observation returned `o0`, returns, if numpy is version 1 or
the rates are float32, the dwell times are less than an hour, and for every control there are three successors, with a
total rate of zero or at least `2^-100`, or rates that are float32 numbers.  The one exception is a control that takes
more rounds than the model allows; this does not happen if the model allows 3.6 billion and every waiting time is at
least a microsecond. -/
theorem C145_returns_partial (T : FloatTrig) (S : Summation) (k : DotKind) (cfg : FloatSimCfg G O P Img) (n : ℕ)
    (hn : n ≤ 4096) (hgen : cfg.generate = floatGenerate T S k cfg.rng n) (hl : cfg.rng.Lawful) (hch : Chooses cfg.rng)
    (hr : DopedRates cfg.rate) (hvp : cfg.numpy = .one ∨ cfg.rates = .single) (g : G) (obs : List O)
    (ops : List (SimOp ℝ O)) (o0 : Observation ℝ Img) (s : Sim ℝ G O P)
    (hs : (Sim.floatRun cfg (Sim.fresh g obs) ops).2 = s)
    (hlast : lastObs (Sim.floatRun cfg (Sim.fresh g obs : Sim ℝ G O P) ops).1 = some o0) (sheet : Grid ℝ)
    (hsheet : s.ctx.mat.grid = some sheet) (cs : List (BeamControl ℝ)) (b : Bool)
    (hcs : ∀ c ∈ cs, c.dwellTime < 3600000000 ∧
      RatesAt cfg.rate sheet.positions (o0.fov.floatToMaterial c.position)) :
    (∃ o s', Sim.floatStep cfg cs b s = .ok o s') ∨
    ((∃ s', Sim.floatStep cfg cs b s = .error .diverges s') ∧
      ((∀ scale g, 1 / 1000000 ≤ (cfg.rng.exponential scale g).1) → cfg.fuel < 3600000000)) := by
  subst hs
  have hm := floatGenerate_moderate T S k hn hl hgen
  have h0 : FloatInv (Sim.fresh g obs : Sim ℝ G O P) := FloatInv.fresh g obs
  have hinv := h0.run hl hm hr.keepsDoping ops
  have hf := floatRun_fov hl hm hr.keepsDoping ops h0
  rw [hlast] at hf
  simp only [Option.map_some, Option.some_or] at hf
  obtain ⟨sheet2, hready⟩ := hinv _ hf
  have : sheet2 = sheet := by
    have := hready.grid
    rw [hsheet] at this
    cases this
    rfl
  subst this
  rcases floatStep_cases cfg hr.keepsDoping cs b hready with ⟨e, s2, c2, _, k1, k2, _⟩ | ⟨o2, s2, _, k1, _⟩
  · rcases floatControls_return cfg hvp hl hch hr o0.fov cs hcs 0 _ sheet2 hready.matFlag hsheet hready.doped rfl with
      ⟨el, s', h⟩ | ⟨⟨s', h⟩, h2⟩
    · rw [k2] at h; cases h
    · rw [k2] at h
      cases h
      exact .inr ⟨⟨s2, k1⟩, h2⟩
  · exact .inl ⟨o2, s2, k1⟩

/-- With numpy 2 there is a mixture of Gaussians, as they are sampled, for which a control raises ValueError on every
sheet: the beam is on the silicon, every waiting time is at most a second, and the control lasts a little longer than
that.  The sheet stays as it is. -/
theorem C145_mixture_raises : ∃ m : GmmParams, Sampled 1 m ∧
    ∀ (knn : Knn ℝ) (rng : Rng ℝ G) (handle : Event ℝ Img → O → O) (fuel : ℕ) (s : MatCtx ℝ G O) (sheet : Grid ℝ),
      s.mat.hasBeenReset = true → s.mat.grid = some sheet → SingleDoped sheet → 4 ≤ sheet.positions.length →
      sheet.positions.Nodup → (∀ scale g, 0 ≤ (rng.exponential scale g).1 ∧ (rng.exponential scale g).1 ≤ 1) →
      ∀ dwell : Timedelta, 1000001 ≤ dwell → ∃ beam g', getSingleSiliconPosition sheet = .ok beam ∧
        Material.floatApplyControl .two .double rng handle (m.toGmm.call knn) (fuel + 1) (BeamControl.mk' beam dwell) s =
          .error .valueError { s with g := g' } := by
  obtain ⟨m, hm, h⟩ := C136_mixture_fails
  refine ⟨m, hm, ?_⟩
  intro knn rng handle fuel s sheet hflag hg hd h4 hnd hfast dwell hdw
  obtain ⟨beam, ss, h1, h2, h3, _, _, _, h5, _⟩ := h knn sheet hd h4 hnd
  have hread : s.mat.read = .ok sheet := by simp [Material.read, hflag, hg]
  have h0 : floatTotalRate .two .double (ss.map (·.rate)) ≠ 0 := by
    intro h0
    obtain ⟨e1, _, q, hq, hq0⟩ := transitionProbs_ok h5
    rw [e1] at hq
    obtain ⟨r, _, rfl⟩ := List.mem_map.1 hq
    have h0' : floatTotalRate .one .double (ss.map (·.rate)) = 0 := h0
    simp only [h0', Precision.round_zero, div_zero] at hq0
    exact lt_irrefl _ hq0
  obtain ⟨d, e1, e2⟩ := timedeltaOf_err (min (rng.exponential ((withPythonNumber .two .double).round
    (1 / floatTotalRate .two .double (ss.map (·.rate)))) s.g).1 3600)
  have hf := hfast ((withPythonNumber .two .double).round (1 / floatTotalRate .two .double (ss.map (·.rate)))) s.g
  have hd1 : (d : ℤ) ≤ 1000000 := by
    rw [min_eq_left (by linarith [hf.2]), abs_le] at e2
    have : ((d : ℤ) : ℝ) < 1000001 := by linarith [e2.2, hf.2]
    have : d < 1000001 := by exact_mod_cast this
    omega
  have hdraw : floatDrawTime .two .double rng ss s.g = .ok (d, (rng.exponential ((withPythonNumber .two .double).round
      (1 / floatTotalRate .two .double (ss.map (·.rate)))) s.g).2) := by
    unfold floatDrawTime
    simp only [h0, if_false, e1]
  refine ⟨beam, (rng.exponential ((withPythonNumber .two .double).round
    (1 / floatTotalRate .two .double (ss.map (·.rate)))) s.g).2, h1, ?_⟩
  unfold Material.floatApplyControl
  rw [if_pos hflag, floatApplyLoop]
  have k1 : (0 : ℤ) < dwell := by omega
  have k2 : 0 + d ≤ dwell := by omega
  simp only [BeamControl.mk', k1, if_true, hread, h2, hdraw, k2]
  unfold floatPerform
  simp only [h0, if_false, h3]

/-! ### The hypotheses can be met -/

theorem chooses_witness (t : ℝ) : Chooses (Witness.rng t) := by
  intro p g _ ⟨q, hq, hq0⟩
  have hlt : p.findIdx (fun q => decide (0 < q)) < p.length :=
    List.findIdx_lt_length_of_exists ⟨q, hq, by simpa using hq0⟩
  refine ⟨p[p.findIdx (fun q => decide (0 < q))], by simp [Witness.rng, hlt], ?_⟩
  simpa using List.findIdx_getElem (w := hlt)

/-- Three rates of one. -/
noncomputable def evenRates : RateFunction ℝ := pristineRates Witness.knn (fun _ _ _ n => .ok (n.map (fun _ => 1)))

theorem evenRates_at {ps : List (V2 ℝ)} (h4 : 4 ≤ ps.length) (hnd : ps.Nodup) (q : V2 ℝ) : RatesAt evenRates ps q := by
  intro g hd hps
  obtain ⟨i, si, nbrs, rates, ss, _, _, h1, h2, h3, h5, _, _, _, h6⟩ := C39_three_neighbour_swaps Witness.knn
    (fun _ _ _ n => .ok (n.map (fun _ => (1 : ℝ)))) g q hd (by rw [hps]; exact h4) (by rw [hps]; exact hnd)
    (fun s n _ => ⟨_, rfl, by simp, by simp⟩)
  simp only [Except.ok.injEq] at h1
  obtain ⟨a, b, c, rfl⟩ : ∃ a b c, nbrs = [a, b, c] := List.length_eq_three.1 h5
  obtain ⟨x, y, z, rfl⟩ : ∃ x y z, ss = [x, y, z] := List.length_eq_three.1 h3
  refine ⟨x, y, z, h2, .inr ?_⟩
  obtain ⟨x', k1, _, _, _, k2, _⟩ := h6 0 a rfl
  obtain ⟨y', l1, _, _, _, l2, _⟩ := h6 1 b rfl
  obtain ⟨z', m1, _, _, _, m2, _⟩ := h6 2 c rfl
  subst h1
  simp at k1 k2 l1 l2 m1 m2
  subst k1 l1 m1
  rw [← k2, ← l2, ← m2]
  norm_num

theorem displaced_good {n : ℕ} (hn : 12 ≤ n) {offset : V2 ℝ} {angle : ℝ} (hx : |offset.x| ≤ 71 / 100)
    (hy : |offset.y| ≤ 71 / 100) {ps : List (V2 ℝ)} (hD : Displaced (1 / 1000) (layOutSheet n offset angle) ps) :
    4 ≤ ps.length ∧ ps.Nodup := by
  have hn' : (12 : ℝ) ≤ n := by exact_mod_cast hn
  obtain ⟨p, hpm, hpd⟩ := atom_near_origin n (by omega) offset angle hx hy
  obtain ⟨nbrs, hH⟩ := C123_disc n offset angle hx hy p hpm (by linarith)
  refine ⟨?_, ?_⟩
  · obtain ⟨qs, hq1, hq2, hq3⟩ := hH.ten
    have := (hq1.subperm (fun q hq => (hq3 q hq).1)).length_le
    rw [hD.length_eq] at this
    omega
  · rw [List.nodup_iff_injective_get]
    intro i j hij
    have e1 := (List.forall₂_iff_get.1 hD).2 i (by rw [hD.length_eq]; exact i.2) i.2
    have e2 := (List.forall₂_iff_get.1 hD).2 j (by rw [hD.length_eq]; exact j.2) j.2
    have hij' : ps.get ⟨i, i.2⟩ = ps.get ⟨j, j.2⟩ := hij
    rw [hij'] at e1
    rw [dist_comm'] at e2
    have e3 := dist_tri ((layOutSheet n offset angle).get ⟨i, by rw [hD.length_eq]; exact i.2⟩)
      (ps.get ⟨j, j.2⟩) ((layOutSheet n offset angle).get ⟨j, by rw [hD.length_eq]; exact j.2⟩)
    have e4 := (List.nodup_iff_injective_get.1 (C40_honeycomb n offset angle).1)
    by_contra hne
    have e5 : (layOutSheet n offset angle).get ⟨i, by rw [hD.length_eq]; exact i.2⟩ ≠
        (layOutSheet n offset angle).get ⟨j, by rw [hD.length_eq]; exact j.2⟩ := by
      intro h
      have := e4 h
      simp only [Fin.mk.injEq] at this
      exact hne (Fin.ext this)
    rcases sheet_gap n offset angle (List.get_mem _ _) (List.get_mem _ _) e5 with g | g <;>
      linarith

/-- A simulator with even rates. -/
noncomputable def evenPlay : FloatSimCfg Unit Unit Unit Unit := { floatPlay with rate := evenRates }

/-- A reset, and a step of two and a half seconds, with a transition every second. -/
example : ∃ o0 s o s' sheet, Sim.floatRun evenPlay (Sim.fresh () [()] : Sim ℝ Unit Unit Unit) [.reset true] =
      ([some (.ok o0)], s) ∧ s.ctx.mat.grid = some sheet ∧
    Sim.floatStep evenPlay [BeamControl.mk' ⟨1 / 2, 1 / 2⟩ 2500000] false s = .ok o s' ∧
    ∃ sheet' evs, ExposedAll (Img := Unit) evenRates (floatAim o0.fov [BeamControl.mk' ⟨1 / 2, 1 / 2⟩ 2500000]) sheet evs sheet' := by
  have hl : evenPlay.rng.Lawful := Witness.rng_lawful zero_le_one
  have hch : Chooses evenPlay.rng := chooses_witness 1
  have hsw : SwapRates evenPlay.rate := by
    show SwapRates evenRates
    unfold evenRates
    exact C39_pristine_swaps _ _
  obtain ⟨o0, s, sheet, offset, angle, h1, h2, h3, hx, hy, h4, _⟩ := C144_reset roundedTrig inOrder .fusedFirst
    evenPlay 50 (by norm_num) (by norm_num) rfl hl true (Sim.fresh () [()] : Sim ℝ Unit Unit Unit)
  have hrun : Sim.floatRun evenPlay (Sim.fresh () [()] : Sim ℝ Unit Unit Unit) [.reset true] = ([some (.ok o0)], s) := by
    simp only [Sim.floatRun, Sim.floatExec, h1]
  have hD : Displaced (1 / 1000) (layOutSheet 50 offset angle) sheet.positions := by
    rw [h4]
    exact C141_sheet _ _ _ (by norm_num) offset (hx.trans (by norm_num)) (hy.trans (by norm_num)) angle
  obtain ⟨k1, k2⟩ := displaced_good (by norm_num) hx hy hD
  have hlast : lastObs (Sim.floatRun evenPlay (Sim.fresh () [()] : Sim ℝ Unit Unit Unit) [.reset true]).1 = some o0 := by
    rw [hrun]
    simp [lastObs]
  rcases C145_returns_partial roundedTrig inOrder .fusedFirst evenPlay 50 (by norm_num) rfl hl hch hsw.dopedRates (.inr rfl) () [()]
    [.reset true] o0 s (by rw [hrun]) hlast sheet h2 [BeamControl.mk' ⟨1 / 2, 1 / 2⟩ 2500000] false (by
      intro c hc
      rw [List.mem_singleton] at hc
      subst hc
      exact ⟨by norm_num [BeamControl.mk'], evenRates_at k1 k2 _⟩) with ⟨o, s', h5⟩ | ⟨_, h5⟩
  · obtain ⟨⟨sh, sheet', evs, _, e1, _, e2, _⟩, _⟩ := C145_step roundedTrig inOrder .fusedFirst evenPlay 50 (by norm_num)
      rfl hl hch hsw.dopedRates () [()] [.reset true] o0 s (by rw [hrun]) hlast _ false o s' h5
    rw [h2] at e1
    cases e1
    exact ⟨o0, s, o, s', sheet, hrun, h2, h5, sheet', evs, e2⟩
  · have := h5 (by
      intro scale g
      show (1 : ℝ) / 1000000 ≤ 1
      norm_num)
    exact absurd this (by show ¬ (3600000000 < 3600000000); norm_num)

/-- A mean waiting time of a third of a second, and a draw of one second. -/
example (g : Grid ℝ) : ∃ (mean : ℝ) (t : Timedelta), |mean - 1 / 3| ≤ 1 / 500000 * (1 / 3) ∧
    floatDrawTime .one .single (Witness.rng 1) [⟨g, 1⟩, ⟨g, 1⟩, ⟨g, 1⟩] () = .ok (t, ()) ∧
    |(t : ℝ) - 1000000| ≤ 501 / 1000 := by
  obtain ⟨mean, t, h1, h2, h3⟩ := (C145_wait .one .single (Witness.rng (1 : ℝ)) ⟨g, 1⟩ ⟨g, 1⟩ ⟨g, 1⟩ (by norm_num)
    (by norm_num) (by norm_num) ()).2 (by norm_num) (by norm_num)
  have e : (min ((Witness.rng (1 : ℝ)).exponential mean ()).1 3600) = 1 := by
    show min (1 : ℝ) 3600 = 1
    norm_num
  rw [e] at h3
  norm_num at h1 h3
  exact ⟨mean, t, by norm_num; exact h1, h2, by norm_num; exact h3⟩

end PD.Props
