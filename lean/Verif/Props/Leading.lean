/- C156: the silicon can be led step by step. -/
import Verif.Props.Plans
import Verif.Props.Simulator
import Verif.Lemmas.SimHistory
import Verif.Spec.Leading

set_option linter.unusedSectionVars false
set_option linter.unusedSimpArgs false

namespace PD.Props
open PD PD.Spec MeasureTheory ProbabilityTheory

section
variable {G O P Img : Type}

theorem step_brings (cfg : SimCfg ℝ G O P Img) {s : Sim ℝ G O P} {c : V2 ℝ} {sc : ℝ} (hpos : 0 < sc)
    (hreset : s.hasBeenReset = true) (hscale : s.fovScale = some sc) (hfov : s.fov = some (centredFov c sc))
    {cs : List (BeamControl ℝ)} {el : Timedelta} {ctx : MatCtx ℝ G O} {next : Grid ℝ} {p : V2 ℝ}
    (hc : applyControls cfg (centredFov c sc) cs 0 s.ctx = .ok el ctx) (hmat : ctx.mat = ⟨true, some next⟩)
    (hdop : SingleDoped next) (hsi : silicons next = [p]) :
    ∃ o s' x c', Sim.step cfg cs false s = .ok o s' ∧ s'.ctx.g = ctx.g ∧ s'.ctx.mat = ctx.mat ∧ s'.hasBeenReset = true ∧
      s'.fovScale = some sc ∧ o.fov = centredFov c' sc ∧ s'.fov = some o.fov ∧ silicons o.grid = [x] ∧ InSafeArea x ∧
      o.fov.toMaterial x = p ∧
      (o.elapsedTime = el + cfg.imageDuration ∨ o.elapsedTime = el + cfg.imageDuration + cfg.imageDuration) := by
  have hsi' : getSiliconPositions next = [p] := by rw [getSiliconPositions_eq_silicons hdop.wf, hsi]
  have hr : ctx.mat.hasBeenReset = true := by rw [hmat]
  have hg : ctx.mat.grid = some next := by rw [hmat]
  have hread : ctx.mat.read = .ok next := by simp [Material.read, hr, hg]
  have hsil : ctx.mat.getSiliconPosition = .ok p := by simp only [Material.getSiliconPosition, hread, hsi']
  have hsq := centredFov_square c sc
  have hsq' := centredFov_square p sc
  obtain ⟨grid, hgrid⟩ := getAtomsInBounds_ok hr hg (centredFov c sc)
  obtain ⟨grid', hgrid'⟩ := getAtomsInBounds_ok hr hg (centredFov p sc)
  obtain ⟨hwf, hv⟩ := observed_silicons hdop hread hsi' (f := centredFov c sc) (by rw [hsq.1]; exact hpos)
    (by rw [hsq.2]; exact hpos) hgrid
  obtain ⟨hwf', hv'⟩ := observed_silicons hdop hread hsi' (f := centredFov p sc) (by rw [hsq'.1]; exact hpos)
    (by rw [hsq'.2]; exact hpos) hgrid'
  rw [if_pos (centredFov_inside p hpos.le), centredFov_toMicroscope p hpos] at hv'
  have hno : ∀ e, siliconOutsideOfSafeArea grid ≠ .error e := by
    intro e he
    unfold siliconOutsideOfSafeArea at he
    rw [hv] at he
    split_ifs at he <;> cases he
  cases hout : siliconOutsideOfSafeArea grid with
  | error e => exact absurd hout (hno e)
  | ok b =>
    cases b with
    | false =>
      obtain ⟨x, hx, hsafe⟩ := outside_false hout
      refine ⟨⟨grid, centredFov c sc, cs, el + cfg.imageDuration, none, none⟩, { s with ctx := { ctx with
        obs := notify cfg.handle (.takeImage cfg.imageDuration (centredFov c sc)) ctx.obs } }, x, c, ?_, rfl, rfl, hreset, hscale,
        rfl, hfov, ?_, hsafe, ?_, .inl rfl⟩
      · rw [step_eq hreset hfov, hc]
        simp only [Sim.observe, hgrid, Sim.recentre, hout, Sim.maybeImage]
        rfl
      · rw [← getSiliconPositions_eq_silicons hwf, hx]
      · rw [hv] at hx
        split_ifs at hx
        rw [List.singleton_inj] at hx
        rw [← hx]
        exact toMaterial_toMicroscope (by rw [hsq.1]; exact hpos.ne') (by rw [hsq.2]; exact hpos.ne') p
    | true =>
      refine ⟨⟨grid', centredFov p sc, cs, el + cfg.imageDuration + cfg.imageDuration, none, none⟩,
        { s with fov := some (centredFov p sc), ctx := { ctx with
          obs := notify cfg.handle (.takeImage cfg.imageDuration (centredFov p sc)) (notify cfg.handle (.fovChange (centredFov p sc))
            (notify cfg.handle (.takeImage cfg.imageDuration (centredFov c sc)) ctx.obs)) } }, ⟨1 / 2, 1 / 2⟩, p, ?_, rfl, rfl,
        hreset, hscale, rfl, rfl, ?_, centre_safe, ?_, .inr rfl⟩
      · rw [step_eq hreset hfov, hc]
        simp only [Sim.observe, hgrid, Sim.recentre, hout, Sim.maybeImage, hsil, hscale, hgrid']
        rfl
      · rw [← getSiliconPositions_eq_silicons hwf', hv']
      · rw [← centredFov_toMicroscope p hpos]
        exact toMaterial_toMicroscope (by rw [hsq'.1]; exact hpos.ne') (by rw [hsq'.2]; exact hpos.ne') p

/-- C156.  Every reset that returns leaves the simulator like that, with one silicon. -/
theorem C156_starts (cfg : SimCfg ℝ G O P Img) (hl : cfg.rng.Lawful) (b : Bool) (s s' : Sim ℝ G O P) (o : Observation ℝ Img)
    (h : Sim.reset cfg b s = .ok o s') :
    ∃ sheet si, Started s' sheet ∧ SingleDoped sheet ∧ silicons sheet = [si] := by
  obtain ⟨sheet, si, sc, hr⟩ := reset_ok h
  obtain ⟨g, hsc⟩ := hr.scaleDraw
  have hu := hl.uniform_mem 15 30 g (by norm_num)
  rw [← hsc] at hu
  obtain ⟨q, hq, _, _⟩ := doped_silicon hr.doped
  refine ⟨sheet, q, ⟨hr.flag, ?_, si, sc, hr.scale, hr.fov, hu.1, hu.2⟩, hr.doped, hq⟩
  have h1 := hr.matFlag
  have h2 := hr.grid
  cases hm : s'.ctx.mat
  rw [hm] at h1 h2
  simp only at h1 h2
  rw [h1, h2]

variable [MeasurableSpace G] {μ : Measure G}

theorem lead_law (cfg : SimCfg ℝ G O P Img) (hf : Fair cfg.rng μ) (hl : cfg.rng.Lawful) (knn : Knn ℝ)
    (hc : cfg.rate = pristineRates knn simpleCanonicalRates) (n : ℕ) (offset : V2 ℝ) (angle : ℝ) (dwell : Timedelta)
    (h0 : 0 < dwell) (hd : dwell < 3600000000) (path : List (V2 ℝ)) (sheet : Grid ℝ)
    (hD : Displaced (1 / 1000) (layOutSheet n offset angle) sheet.positions) (hdop : SingleDoped sheet)
    (si y : V2 ℝ) (hsi : silicons sheet = [si]) (ht : Trail sheet.positions si path y) :
    ∃ S : Set G, MeasurableSet S ∧ ENNReal.ofReal (arriveProb dwell ^ path.length) ≤ μ S ∧
      ∀ g ∈ S, ∀ s : Sim ℝ G O P, Started s sheet → s.ctx.g = g → ∃ s' next, Led cfg dwell s path s' ∧ Started s' next ∧
        next.positions = sheet.positions ∧ SingleDoped next ∧ silicons next = [y] := by
  induction path generalizing sheet si with
  | nil =>
    obtain ⟨rfl, _⟩ := ht
    exact ⟨Set.univ, MeasurableSet.univ, by rw [hf.total]; simp, fun g _ s hs _ => ⟨s, sheet, .done s, hs, rfl, hdop, hsi⟩⟩
  | cons p path ih =>
    obtain ⟨⟨nbrs, hbond, hp⟩, ht⟩ := ht
    obtain ⟨nbrs', hbond'⟩ := trail_bonded ht
    obtain ⟨next, y1, y2, y3, hlaw⟩ := arrive_law hf hl knn n offset angle sheet hD hdop si hsi nbrs nbrs' hbond p hp hbond'
      (BeamControl.mk' p dwell) (by simp only [BeamControl.mk']; rw [dist_self']; norm_num) h0 hd
    obtain ⟨S, m, e, hS⟩ := ih next (by rw [y1]; exact hD) y2 p y3 (by rw [y1]; exact ht)
    obtain ⟨m', e'⟩ := hlaw S m
    refine ⟨_, m', le_trans ?_ e', ?_⟩
    · rw [List.length_cons, pow_succ', ENNReal.ofReal_mul (arriveProb_nonneg h0)]
      exact mul_le_mul_right e _
    · rintro g hg ⟨⟨_, _, obs⟩, _, _, _, params⟩ ⟨rfl, rfl, c, sc, rfl, rfl, h15, h30⟩ rfl
      simp only [Set.mem_iUnion] at hg
      obtain ⟨time, _, g', sheet', hj, hg'⟩ := hg
      have hlast : sheet' = next := jumps_last hj
      subst hlast
      have hpos : 0 < sc := by linarith
      have hsq := centredFov_square c sc
      have hback : (centredFov c sc).toMaterial ((centredFov c sc).toMicroscope p) = p :=
        toMaterial_toMicroscope (by rw [hsq.1]; exact hpos.ne') (by rw [hsq.2]; exact hpos.ne') p
      set c' := BeamControl.mk' p dwell with hc'
      set obs' := (notify cfg.handle (.applyControl c') obs).map
        (observeAll cfg.handle ([(time, sheet')].map (fun e => Event.transition e.1 e.2))) with hobs'
      obtain ⟨fuel, h1⟩ := (C72_jump_process cfg.rng cfg.handle cfg.rate c'
        ⟨_, ⟨true, some sheet⟩, notify cfg.handle (.applyControl c') obs⟩ ⟨g', ⟨true, some sheet'⟩, obs'⟩ sheet rfl rfl).2
        ⟨_, sheet', hc ▸ hj, rfl, rfl, rfl⟩
      obtain ⟨o, s', x, c2, k1, k2, k3, k4, k5, k6, k7, k8, k9, k10, k11⟩ := step_brings { cfg with fuel := fuel } hpos
        (s := ⟨⟨_, ⟨true, some sheet⟩, obs⟩, true, some sc, some (centredFov c sc), params⟩) (c := c) rfl rfl rfl
        (cs := [BeamControl.mk' ((centredFov c sc).toMicroscope p) dwell]) (el := dwell)
        (ctx := ⟨g', ⟨true, some sheet'⟩, obs'⟩) (by
          simp only [applyControls, BeamControl.mk', hback]
          simp only [hc', BeamControl.mk'] at h1
          rw [h1]
          simp) rfl y2 y3
      obtain ⟨s'', last, l1, l2, l3, l4, l5⟩ := hS g' hg' s' ⟨k4, k3, c2, sc, k5, by rw [k7, k6], h15, h30⟩ k2
      exact ⟨s'', last, .step rfl k1 k8 k9 (by rw [← fov_lerp]; exact k10) k7 k11 l1, l2, l3.trans y1, l4, l5⟩

/-- C156.  A client who steps the simulator once for each atom of a path, each time aiming at the next atom in the current
field of view, leads the silicon along the path, with the probability of a single move for each step: every step returns,
shows the silicon on the atom it was aimed at, and in the end the silicon is at the end of the path. -/
theorem C156_led (cfg : SimCfg ℝ G O P Img) (hf : Fair cfg.rng μ) (hl : cfg.rng.Lawful) (knn : Knn ℝ)
    (hc : cfg.rate = pristineRates knn simpleCanonicalRates) (n : ℕ) (offset : V2 ℝ) (angle : ℝ) (dwell : Timedelta)
    (h0 : 0 < dwell) (hd : dwell < 3600000000) (path : List (V2 ℝ)) (s : Sim ℝ G O P) (sheet : Grid ℝ)
    (hs : Started s sheet) (hD : Displaced (1 / 1000) (layOutSheet n offset angle) sheet.positions) (hdop : SingleDoped sheet)
    (si y : V2 ℝ) (hsi : silicons sheet = [si]) (ht : Trail sheet.positions si path y) :
    ENNReal.ofReal (arriveProb dwell ^ path.length) ≤
      μ {g | ∃ s' next, Led cfg dwell (seeded s g) path s' ∧ Started s' next ∧ next.positions = sheet.positions ∧
        SingleDoped next ∧ silicons next = [y]} := by
  obtain ⟨S, _, e, hS⟩ := lead_law cfg hf hl knn hc n offset angle dwell h0 hd path sheet hD hdop si y hsi ht
  exact e.trans (measure_mono (fun g hg => hS g hg (seeded s g) ⟨hs.reset, hs.sheet, hs.view⟩ rfl))

/-- C156.  So the silicon can be led to every atom that is not too near to the edge, in at most four steps for each Å of the
distance, with at least the probability one half to the power of the number of steps of a second and a half. -/
theorem C156_reaches (cfg : SimCfg ℝ G O P Img) (hf : Fair cfg.rng μ) (hl : cfg.rng.Lawful) (knn : Knn ℝ)
    (hc : cfg.rate = pristineRates knn simpleCanonicalRates) (n : ℕ) (offset : V2 ℝ) (angle : ℝ)
    (hx : |offset.x| ≤ 71 / 100) (hy : |offset.y| ≤ 71 / 100) (s : Sim ℝ G O P) (sheet : Grid ℝ)
    (hs : Started s sheet) (hD : Displaced (1 / 1000) (layOutSheet n offset angle) sheet.positions) (hdop : SingleDoped sheet)
    (si b : V2 ℝ) (hsi : silicons sheet = [si]) (hb : b ∈ sheet.positions) (hfar : Spec.dist si b ≤ 1000)
    (hroom : Spec.dist ⟨0, 0⟩ b + Spec.dist si b ≤ 71 / 100 * n - 64 / 10) :
    ∃ path : List (V2 ℝ), (path.length : ℝ) ≤ 4 * Spec.dist si b ∧
      ENNReal.ofReal ((1 / 2) ^ path.length) ≤
        μ {g | ∃ s' next, Led cfg 1500000 (seeded s g) path s' ∧ Started s' next ∧ next.positions = sheet.positions ∧
          SingleDoped next ∧ silicons next = [b]} := by
  have hsim : si ∈ sheet.positions := by
    have : si ∈ silicons sheet := by rw [hsi]; exact List.mem_singleton_self si
    exact (List.of_mem_zip (mem_silicons.1 this)).1
  obtain ⟨hbound, hway⟩ := C151_way n offset angle hx hy sheet.positions hD si b hsim hb hfar
  obtain ⟨m, hm⟩ := (hway hroom).2
  have h0 := dist_nonneg' si b
  obtain ⟨nbrs, hbond⟩ := C146_bonds n offset angle hx hy _ hD b hb (by linarith)
  obtain ⟨path, hlen, htrail⟩ := way_trail hm hbond
  refine ⟨path, by rw [hlen]; exact (hbound m b hm).1, le_trans (ENNReal.ofReal_le_ofReal ?_) (C156_led cfg hf hl knn hc n offset
    angle 1500000 (by decide) (by decide) path s sheet hs hD hdop si b hsi htrail)⟩
  exact pow_le_pow_left₀ (by norm_num) arriveProb_half _

end

/-- To a neighbour, with a field of view of 20 Å around the silicon. -/
example : ∃ (s : Sim ℝ (ℕ → ℝ) Unit Unit) (sheet : Grid ℝ) (si b : V2 ℝ) (path : List (V2 ℝ)), silicons sheet = [si] ∧ b ≠ si ∧
    path.length ≤ 6 ∧ ENNReal.ofReal ((1 / 2) ^ path.length) ≤
      Witness.streamLaw {g | ∃ s' next, Led planned 1500000 (seeded s g) path s' ∧ Started s' next ∧
        next.positions = sheet.positions ∧ SingleDoped next ∧ silicons next = [b]} := by
  obtain ⟨sheet, si, nbrs, nbrs', p, _, hdop, hD, hsi, hbond, hp, hbond', hd⟩ := middle_silicon
  obtain ⟨hpm, hsp⟩ := hbond.bonds p hp
  rw [abs_le] at hsp
  have h2 := dist_tri ⟨0, 0⟩ si p
  obtain ⟨path, h1, h3⟩ := C156_reaches planned Witness.streamRng_fair Witness.streamRng_lawful Witness.knn rfl 50 ⟨0, 0⟩ 0
    (by norm_num) (by norm_num) ⟨⟨fun _ => 0, ⟨true, some sheet⟩, []⟩, true, some 20, some (centredFov si 20), some ()⟩ sheet
    ⟨rfl, rfl, si, 20, rfl, rfl, by norm_num, by norm_num⟩ hD hdop si p hsi hpm (by linarith [hsp.2])
    (by norm_num at hd h2 hsp ⊢; linarith [hsp.2])
  refine ⟨_, sheet, si, p, path, hsi, ?_, ?_, h3⟩
  · rintro rfl
    rw [dist_self'] at hsp
    linarith [hsp.1]
  · have : (path.length : ℝ) ≤ 6 := by norm_num at hsp; linarith [hsp.2]
    exact_mod_cast this

end PD.Props
