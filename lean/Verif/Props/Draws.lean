/- Property C132: starts and goals are drawn evenly. -/
import Verif.Spec.Draws
import Verif.Lemmas.FairDraws
import Verif.Model.Experiments
import Verif.Model.NoiseStages
import Verif.Props.Episode

set_option linter.unusedSectionVars false
set_option linter.unusedSimpArgs false

namespace PD.Props
open PD PD.Spec MeasureTheory ProbabilityTheory
variable {G O P Img F : Type}

/-! ### Sheets tell their numbers -/

theorem turn_inj {n : ℕ} (hn : 5 ≤ n) {off off' : V2 ℝ} {ang ang' : ℝ} (h0 : 0 ≤ ang) (h1 : ang ≤ 2 * Real.pi)
    (h0' : 0 < ang') (h1' : ang' < 2 * Real.pi) (h : layOutSheet n off ang = layOutSheet n off' ang') :
    off = off' ∧ ang = ang' := by
  have hp : ∃ p, p ∈ layOutSheet n off ang := List.exists_mem_of_ne_nil _ (sheet_ne_nil n hn off ang)
  obtain ⟨p, hp⟩ := hp
  obtain ⟨a, b, c, hnd, hm⟩ := four_near n hn off ang p hp
  have ha := (hm a (by simp)).1
  have hpa : p ≠ a := by
    intro e
    rw [e] at hnd
    simp at hnd
  have hcos : Real.cos ang = Real.cos ang' ∧ Real.sin ang = Real.sin ang' := by
    rw [layOutSheet_eq] at hp ha h
    rw [layOutSheet_eq, List.map_inj_left] at h
    obtain ⟨u, hu, rfl⟩ := List.mem_map.1 hp
    obtain ⟨v, hv, rfl⟩ := List.mem_map.1 ha
    have huv : u ≠ v := fun e => hpa (by rw [e])
    have e1 := h u hu
    have e2 := h v hv
    simp only [motion, V2.mk.injEq, V2.sub_x, V2.sub_y, V2.add_x, V2.add_y, V2.smul_x, V2.smul_y] at e1 e2
    have hB : (0 : ℝ) < BOND := by norm_num [BOND]
    have hw : 0 < (u.x - v.x) ^ 2 + (u.y - v.y) ^ 2 := by
      rcases lt_or_eq_of_le (add_nonneg (sq_nonneg (u.x - v.x)) (sq_nonneg (u.y - v.y))) with h | h
      · exact h
      · exfalso
        apply huv
        have hx : u.x - v.x = 0 := by nlinarith [sq_nonneg (u.x - v.x), sq_nonneg (u.y - v.y)]
        have hy : u.y - v.y = 0 := by nlinarith [sq_nonneg (u.x - v.x), sq_nonneg (u.y - v.y)]
        ext <;> linarith
    have d1 : (u.x - v.x) * (Real.cos ang - Real.cos ang') + (u.y - v.y) * (Real.sin ang - Real.sin ang') = 0 := by
      have := mul_eq_zero.1 (show BOND * ((u.x - v.x) * (Real.cos ang - Real.cos ang') +
        (u.y - v.y) * (Real.sin ang - Real.sin ang')) = 0 by linear_combination e1.1 - e2.1)
      exact this.resolve_left hB.ne'
    have d2 : (u.y - v.y) * (Real.cos ang - Real.cos ang') - (u.x - v.x) * (Real.sin ang - Real.sin ang') = 0 := by
      have := mul_eq_zero.1 (show BOND * ((u.y - v.y) * (Real.cos ang - Real.cos ang') -
        (u.x - v.x) * (Real.sin ang - Real.sin ang')) = 0 by linear_combination e1.2 - e2.2)
      exact this.resolve_left hB.ne'
    constructor
    · have := mul_eq_zero.1 (show ((u.x - v.x) ^ 2 + (u.y - v.y) ^ 2) * (Real.cos ang - Real.cos ang') = 0 by
        linear_combination (u.x - v.x) * d1 + (u.y - v.y) * d2)
      linarith [this.resolve_left hw.ne']
    · have := mul_eq_zero.1 (show ((u.x - v.x) ^ 2 + (u.y - v.y) ^ 2) * (Real.sin ang - Real.sin ang') = 0 by
        linear_combination (u.y - v.y) * d1 - (u.x - v.x) * d2)
      linarith [this.resolve_left hw.ne']
  have hang : ang = ang' := by
    have h2 : Real.cos (ang - ang') = 1 := by
      rw [Real.cos_sub, hcos.1, hcos.2]
      linarith [Real.cos_sq_add_sin_sq ang']
    have := (Real.cos_eq_one_iff_of_lt_of_lt (by linarith) (by linarith)).1 h2
    linarith
  refine ⟨?_, hang⟩
  rw [layOutSheet_eq, layOutSheet_eq, List.map_inj_left] at h
  rw [layOutSheet_eq] at hp
  obtain ⟨u, hu, -⟩ := List.mem_map.1 hp
  have e1 := h u hu
  rw [hang] at e1
  simp only [motion, V2.mk.injEq, V2.sub_x, V2.sub_y, V2.add_x, V2.add_y, V2.smul_x, V2.smul_y] at e1
  have hcs := Real.cos_sq_add_sin_sq ang'
  ext
  · linear_combination Real.cos ang' * e1.1 - Real.sin ang' * e1.2 - (off.x - off'.x) * hcs
  · linear_combination Real.sin ang' * e1.1 + Real.cos ang' * e1.2 - (off.y - off'.y) * hcs

/-! ### What a reset draws -/

/-- The numbers of a start, and the generator afterwards. -/
noncomputable def drawStart (rng : Rng ℝ G) (g : G) : StartNumbers × G :=
  let x := rng.uniform (-71 / 100) (71 / 100) g
  let y := rng.uniform (-71 / 100) (71 / 100) x.2
  let a := rng.uniform 0 (2 * Real.pi) y.2
  let w := rng.uniform 15 30 a.2
  ((x.1, y.1, a.1, w.1), w.2)

/-- What else is drawn before the goal. -/
noncomputable def drawRest (cfg : EnvCfg ℝ G O P Img F) (s : Env ℝ G O P Img) (g : G) : G :=
  match s.adapterRng with
  | some _ => (cfg.sim.sampleParams g).2
  | none => (cfg.adapter.reset cfg.sim.rng s.beam (cfg.sim.sampleParams g).2).2

theorem simReset_draws {cfg : SimCfg ℝ G O P Img} {n : ℕ} (hgen : cfg.generate = generatePristineGraphene cfg.rng n)
    {b : Bool} {s s' : Sim ℝ G O P} {o : Observation ℝ Img} (h : Sim.reset cfg b s = .ok o s') :
    (cfg.generate s.ctx.g).1 = layOutSheet n ⟨(drawStart cfg.rng s.ctx.g).1.1, (drawStart cfg.rng s.ctx.g).1.2.1⟩
      (drawStart cfg.rng s.ctx.g).1.2.2.1 ∧
    s'.fovScale = some (drawStart cfg.rng s.ctx.g).1.2.2.2 ∧
    (b = false → s'.ctx.g = (cfg.sampleParams (drawStart cfg.rng s.ctx.g).2).2) ∧
    ∀ sheet, s'.ctx.mat.grid = some sheet → dopeSheet (cfg.generate s.ctx.g).1 = .ok sheet := by
  have hb : (-BOND / 2 : ℝ) = -71 / 100 := by norm_num [BOND]
  have hb' : (BOND / 2 : ℝ) = 71 / 100 := by norm_num [BOND]
  have e : cfg.generate s.ctx.g = (layOutSheet n ⟨(drawStart cfg.rng s.ctx.g).1.1, (drawStart cfg.rng s.ctx.g).1.2.1⟩
      (drawStart cfg.rng s.ctx.g).1.2.2.1, (cfg.rng.uniform 0 (2 * Real.pi) (cfg.rng.uniform (-71 / 100) (71 / 100)
        (cfg.rng.uniform (-71 / 100) (71 / 100) s.ctx.g).2).2).2) := by
    rw [hgen]
    simp only [generatePristineGraphene, hb, hb', drawStart]
  refine ⟨by rw [e], ?_⟩
  unfold Sim.reset at h
  simp only at h
  cases hm : Material.reset cfg.generate s.ctx with
  | error e c => rw [hm] at h; cases h
  | ok u c =>
    have hg : c.g = (cfg.generate s.ctx.g).2 ∧
        ∀ sheet, c.mat.grid = some sheet → dopeSheet (cfg.generate s.ctx.g).1 = .ok sheet := by
      unfold Material.reset at hm
      dsimp only at hm
      split at hm
      · cases hm
      · rename_i g0 hd
        cases hm
        refine ⟨rfl, fun sheet hs => ?_⟩
        rw [Option.some.injEq] at hs
        rw [← hs]
        exact hd
    obtain ⟨hg, hdope⟩ := hg
    rw [hm] at h
    dsimp only at h
    rw [e] at hg
    rw [hg] at h
    split at h
    · cases h
    · split at h
      · cases h
      · split at h
        · cases h
        · rename_i hobs
          unfold Sim.observe at hobs
          split at hobs
          · cases hobs
          · cases hobs
            cases b with
            | false =>
              simp only [Sim.maybeImage, Bool.false_eq_true, if_false, EStateM.Result.ok.injEq] at h
              rw [← h.2]
              exact ⟨rfl, fun _ => rfl, hdope⟩
            | true =>
              simp only [Sim.maybeImage, if_true, EStateM.Result.ok.injEq] at h
              rw [← h.2]
              exact ⟨rfl, fun hb => absurd hb (by decide), hdope⟩

theorem goalSites_eq {o : Observation ℝ Img} {si : V2 ℝ} (hsi : silicons o.grid = [si]) (lo hi : ℝ) (hlo : 0 ≤ lo)
    (hhi : 0 < hi) :
    goalSites lo hi o = (o.grid.positions.filter (fun p => normLt ((⟨o.fov.width, o.fov.height⟩ : V2 ℝ) * (p - si)) hi &&
      normGt ((⟨o.fov.width, o.fov.height⟩ : V2 ℝ) * (p - si)) lo)).map o.fov.toMaterial := by
  unfold goalSites
  rw [List.filter_map]
  have e : o.fov.toMaterial = place o := by
    funext p
    rw [toMaterial_place]
  rw [e]
  congr 1
  apply List.filter_congr
  intro p _
  rw [Bool.eq_iff_iff, place_sub, Bool.and_eq_true, normLt_iff hhi, normGt_iff hlo]
  simp only [Function.comp, decide_eq_true_eq, hsi, List.mem_singleton, exists_eq_left]
  exact and_comm

open Classical in
/-- How many goals a start offers. -/
noncomputable def offered (n : ℕ) (lo hi : ℝ) (d : StartNumbers) : ℕ :=
  let ps := layOutSheet n ⟨d.1, d.2.1⟩ d.2.2.1
  match argmin? (ps.map V2.normSq) with
  | none => 0
  | some i => ps.countP (fun p => decide (Inside (centredFov (ps.getD i 0) d.2.2.2).lowerLeft
      (centredFov (ps.getD i 0) d.2.2.2).upperRight p ∧ InRange lo hi p (ps.getD i 0)))

/-- A reset in numbers: the start and the goal follow from the draws. -/
theorem reset_draws {cfg : EnvCfg ℝ G O P Img F} {n : ℕ} (hl : cfg.sim.rng.Lawful)
    (hgen : cfg.sim.generate = generatePristineGraphene cfg.sim.rng n)
    {s s' : Env ℝ G O P Img} (hr : GoalRangeOk s.goal) {t : TimeStep F} (h : Env.reset cfg s = .ok t s') :
    StartsAs n (drawStart cfg.sim.rng s.sim.ctx.g).1 s' ∧
    (cfg.requiresImage = false → (goalSites s.goal.rangeMin s.goal.rangeMax s'.last)[(cfg.sim.rng.choice
      (goalSites s.goal.rangeMin s.goal.rangeMax s'.last).length
      (drawRest cfg s (drawStart cfg.sim.rng s.sim.ctx.g).2)).1]? = some s'.goal.goal) ∧
    (goalSites s.goal.rangeMin s.goal.rangeMax s'.last).Nodup ∧
    (goalSites s.goal.rangeMin s.goal.rangeMax s'.last).length =
      offered n s.goal.rangeMin s.goal.rangeMax (drawStart cfg.sim.rng s.sim.ctx.g).1 := by
  obtain ⟨o, sim, g, h1, h2, h3⟩ := envReset_parts h
  have h1' := h1
  obtain ⟨d1, d2, d3, d4⟩ := simReset_draws hgen h1
  obtain ⟨sheet, si, sc, hf⟩ := reset_ok h1
  obtain ⟨si', sc', hv⟩ := firstView cfg.sim hl n hgen _ s.sim sim o h1
  have hw : 0 < o.fov.width ∧ 0 < o.fov.height := by
    have hsq := centredFov_square si' sc'
    rw [hv.fov, hsq.1, hsq.2]
    have := hv.scale
    constructor <;> linarith
  refine ⟨⟨⟨sheet, by rw [h3]; exact hf.grid, hf.positions.trans d1⟩, by rw [h3]; exact d2⟩, ?_, ?_, ?_⟩
  · intro himg
    have d3 := d3 himg
    rw [h2, goalSites_eq hv.silicons _ _ hr.1 (by linarith [hr.2.2])]
    rw [envReset_eq, h1'] at h
    simp only [Env.resetTail] at h
    have hfr := resetAdapter_frame cfg { s with requiresReset := false, sim := sim, last := o }
    have hgen' : (Env.resetAdapter cfg { s with requiresReset := false, sim := sim, last := o }).sim.ctx.g =
        drawRest cfg s (drawStart cfg.sim.rng s.sim.ctx.g).2 := by
      unfold Env.resetAdapter drawRest
      dsimp only
      cases s.adapterRng with
      | some ga => exact d3
      | none => dsimp only; rw [d3]
    rw [hfr.1, hfr.2, hgen'] at h
    split at h
    · cases h
    · rename_i goal g' hgr
      have hs' : s'.goal = goal := by
        split at h
        · cases h
        · simp only [EStateM.Result.ok.injEq] at h
          rw [← h.2]
      rw [hs']
      have hsi : getSingleSiliconPosition o.grid = .ok ⟨1 / 2, 1 / 2⟩ := by
        obtain ⟨c, hc1, hc2⟩ := getSingle_some hv.wf (by rw [hv.silicons]; simp)
        rw [hc1, centralSilicon_unique hc2 (centralSilicon_singleton hv.silicons)]
      simp only [GoalState.reset, hsi, maskSelect_map_self] at hgr
      split_ifs at hgr with h0
      split at hgr
      · cases hgr
      · rename_i p hp
        cases hgr
        rw [List.length_map, List.getElem?_map, hp]
        rfl
  · rw [h2]
    unfold goalSites
    apply List.Nodup.filter
    obtain ⟨off, ang, -, hpos⟩ := hv.sheet
    rw [hpos]
    exact (C40_honeycomb n off ang).1.filter _
  · have hd := d4 sheet hf.grid
    have hpos := hf.positions.trans d1
    rw [d1] at hd
    have hscale : sc = (drawStart cfg.sim.rng s.sim.ctx.g).1.2.2.2 := by
      have := hf.scale
      rw [d2, Option.some.injEq] at this
      exact this.symm
    obtain ⟨-, hview⟩ := view_positions hf.matFlag hf.grid hf.doped.wf hw.1 hw.2 hf.ogrid
    rw [hpos] at hview
    have hplace : place o ⟨1 / 2, 1 / 2⟩ = si := by
      ext <;> simp [place, lerp, hf.ofov, centredFov] <;> ring
    rw [h2]
    unfold offered goalSites
    dsimp only
    rw [hview, hv.silicons, List.filter_filter, ← List.countP_eq_length_filter]
    unfold dopeSheet at hd
    cases ha : argmin? ((layOutSheet n ⟨(drawStart cfg.sim.rng s.sim.ctx.g).1.1, (drawStart cfg.sim.rng s.sim.ctx.g).1.2.1⟩
      (drawStart cfg.sim.rng s.sim.ctx.g).1.2.2.1).map V2.normSq) with
    | none => rw [ha] at hd; cases hd
    | some i =>
      rw [ha] at hd
      dsimp only at hd ⊢
      have hlt := argmin?_lt ha
      rw [List.length_map] at hlt
      have hsi := hf.silicon
      cases hd
      rw [getSiliconPositions_doped _ i _ rfl (List.getElem?_eq_getElem hlt), List.cons.injEq] at hsi
      have hget : (layOutSheet n ⟨(drawStart cfg.sim.rng s.sim.ctx.g).1.1, (drawStart cfg.sim.rng s.sim.ctx.g).1.2.1⟩
          (drawStart cfg.sim.rng s.sim.ctx.g).1.2.2.1).getD i 0 = si := by
        rw [List.getD_eq_getElem?_getD, List.getElem?_eq_getElem hlt]
        exact hsi.1
      rw [hget, ← hscale, ← hf.ofov]
      apply List.countP_congr
      intro p _
      simp only [List.mem_singleton, exists_eq_left, hplace, Bool.and_eq_true, decide_eq_true_eq]
      exact and_comm

/-! ### The law of the draws -/

section
variable [MeasurableSpace G] {μ : Measure G} {rng : Rng ℝ G}

theorem evenOn_prob {lo hi : ℝ} (h : lo < hi) : IsProbabilityMeasure (evenOn lo hi) := by
  apply cond_isProbabilityMeasure_of_finite
  · rw [Real.volume_Icc]
    simpa using h
  · rw [Real.volume_Icc]
    exact ENNReal.ofReal_ne_top

instance {lo hi : ℝ} : SFinite (evenOn lo hi) := by unfold evenOn ProbabilityTheory.cond; infer_instance

theorem uniform_preserves (hf : FairDraws rng μ) {lo hi : ℝ} (h : lo < hi) :
    MeasurePreserving (rng.uniform lo hi) μ ((evenOn lo hi).prod μ) := by
  have : IsProbabilityMeasure μ := ⟨hf.total⟩
  have := evenOn_prob h
  refine ⟨hf.uniform_measurable lo hi h, (Measure.prod_eq fun A E hA hE => ?_).symm⟩
  rw [Measure.map_apply (hf.uniform_measurable lo hi h) (hA.prod hE)]
  exact hf.uniform lo hi h A hA E hE

theorem snd_preserves {D : Type} [MeasurableSpace D] {ν : Measure D} [IsProbabilityMeasure ν] [SFinite μ] {f : G → D × G}
    (h : MeasurePreserving f μ (ν.prod μ)) : MeasurePreserving (fun g => (f g).2) μ μ :=
  measurePreserving_snd.comp h

theorem prepend {D D' : Type} [MeasurableSpace D] [MeasurableSpace D'] {ν : Measure D} {κ : Measure D'} [SFinite ν]
    [SFinite κ] [SFinite μ] {f : G → D × G} {u : G → D' × G} (hf : MeasurePreserving f μ (ν.prod μ))
    (hu : MeasurePreserving u μ (κ.prod μ)) :
    MeasurePreserving (fun g => (((u g).1, (f (u g).2).1), (f (u g).2).2)) μ ((κ.prod ν).prod μ) :=
  ((measurePreserving_prodAssoc κ ν μ).symm).comp (((MeasurePreserving.id κ).prod hf).comp hu)

theorem drawStart_preserves (hf : FairDraws rng μ) : MeasurePreserving (drawStart rng) μ (startLaw.prod μ) := by
  have : IsProbabilityMeasure μ := ⟨hf.total⟩
  have hw := uniform_preserves hf (show (15 : ℝ) < 30 by norm_num)
  have ha := uniform_preserves hf (show (0 : ℝ) < 2 * Real.pi by positivity)
  have hy := uniform_preserves hf (show (-71 / 100 : ℝ) < 71 / 100 by norm_num)
  exact prepend (prepend (prepend hw ha) hy) hy

theorem adapter_preserves (hf : FairDraws rng μ) (a : Adapter ℝ) (beam : V2 ℝ) :
    MeasurePreserving (fun g => (a.reset rng beam g).2) μ μ := by
  have : IsProbabilityMeasure μ := ⟨hf.total⟩
  have := evenOn_prob (show (0 : ℝ) < 1 by norm_num)
  have hu := snd_preserves (uniform_preserves hf (show (0 : ℝ) < 1 by norm_num))
  cases a with
  | delta => exact hu.comp hu
  | direct => exact MeasurePreserving.id μ
  | _ => exact MeasurePreserving.id μ

theorem drawRest_preserves {cfg : EnvCfg ℝ G O P Img F} (hf : FairDraws cfg.sim.rng μ)
    (hp : MeasurePreserving (fun g => (cfg.sim.sampleParams g).2) μ μ) (s : Env ℝ G O P Img) :
    MeasurePreserving (drawRest cfg s) μ μ := by
  unfold drawRest
  cases s.adapterRng with
  | some ga => exact hp
  | none => exact (adapter_preserves hf cfg.adapter s.beam).comp hp

theorem drawStart_range (hl : rng.Lawful) (g : G) :
    0 ≤ (drawStart rng g).1.2.2.1 ∧ (drawStart rng g).1.2.2.1 ≤ 2 * Real.pi :=
  hl.uniform_mem 0 (2 * Real.pi) _ (by positivity)

/-- A start tells its numbers. -/
theorem starts_unique {n : ℕ} (hn : 5 ≤ n) {d d' : StartNumbers} {s : Env ℝ G O P Img} (h : StartsAs n d s)
    (h' : StartsAs n d' s) (h0 : 0 ≤ d.2.2.1 ∧ d.2.2.1 ≤ 2 * Real.pi) (h0' : 0 < d'.2.2.1 ∧ d'.2.2.1 < 2 * Real.pi) :
    d = d' := by
  obtain ⟨⟨sheet, hg, hp⟩, hs⟩ := h
  obtain ⟨⟨sheet', hg', hp'⟩, hs'⟩ := h'
  rw [hg, Option.some.injEq] at hg'
  rw [hs, Option.some.injEq] at hs'
  subst hg'
  rw [hp] at hp'
  obtain ⟨ho, ha⟩ := turn_inj hn h0.1 h0.2 h0'.1 h0'.2 hp'
  rw [V2.mk.injEq] at ho
  exact Prod.ext ho.1 (Prod.ext ho.2 (Prod.ext ha hs'))

/-- **Starts are even.** Whatever happened before, a reset lays out the sheet with an evenly distributed offset and angle
and chooses the side of the field of view evenly, all four numbers being independent. -/
theorem C132_starts (cfg : EnvCfg ℝ G O P Img F) (n : ℕ) (hc : PlayCfg cfg n) (hf : FairDraws cfg.sim.rng μ)
    (s : Env ℝ G O P Img) (hgoal : GoalRangeOk s.goal)
    (S : Set StartNumbers) (hS : MeasurableSet S) (hangle : ∀ d ∈ S, 0 < d.2.2.1 ∧ d.2.2.1 < 2 * Real.pi) :
    μ {g | ∃ t s' d, Env.reset cfg { s with sim := { s.sim with ctx := { s.sim.ctx with g := g } } } = .ok t s' ∧
      d ∈ S ∧ StartsAs n d s'} = startLaw S := by
  have : IsProbabilityMeasure μ := ⟨hf.total⟩
  have e : {g | ∃ t s' d, Env.reset cfg { s with sim := { s.sim with ctx := { s.sim.ctx with g := g } } } = .ok t s' ∧
      d ∈ S ∧ StartsAs n d s'} = drawStart cfg.sim.rng ⁻¹' (S ×ˢ Set.univ) := by
    ext g
    simp only [Set.mem_ofPred_eq, Set.mem_preimage, Set.mem_prod, Set.mem_univ, and_true]
    constructor
    · rintro ⟨t, s', d, hr, hd, hs⟩
      have h := (reset_draws hc.lawful hc.generate (s := { s with sim := { s.sim with ctx := { s.sim.ctx with g := g } } })
        hgoal hr).1
      rw [starts_unique hc.wide h hs (drawStart_range hc.lawful g) (hangle d hd)]
      exact hd
    · intro hd
      obtain ⟨t, s', hr⟩ := C69_reset_returns cfg hc.lawful n hc.wide hc.generate hc.features
        { s with sim := { s.sim with ctx := { s.sim.ctx with g := g } } } hgoal.1 hgoal.2.1 hgoal.2.2
      exact ⟨t, s', _, hr, hd, (reset_draws hc.lawful hc.generate
        (s := { s with sim := { s.sim with ctx := { s.sim.ctx with g := g } } }) hgoal hr).1⟩
  rw [e, (drawStart_preserves hf).measure_preimage (hS.prod MeasurableSet.univ).nullMeasurableSet, Measure.prod_prod,
    hf.total, mul_one]

/-! ### The number of goals offered is measurable -/

theorem argmin?_iff {l : List ℝ} {i : ℕ} (hi : i < l.length) : argmin? l = some i ↔
    (∀ j, j < l.length → l.getD i 0 ≤ l.getD j 0) ∧ ∀ j, j < i → l.getD i 0 < l.getD j 0 := by
  have get : ∀ j, j < l.length → l[j]? = some (l.getD j 0) := by
    intro j hj
    rw [List.getD_eq_getElem?_getD, List.getElem?_eq_getElem hj]
    rfl
  constructor
  · intro h
    obtain ⟨v, hv, hmin, hfirst⟩ := argmin?_eq_some h
    rw [get i hi, Option.some.injEq] at hv
    rw [hv]
    exact ⟨fun j hj => hmin _ (List.mem_of_getElem? (get j hj)), fun j hj => hfirst j hj _ (get j (hj.trans hi))⟩
  · rintro ⟨h1, h2⟩
    obtain ⟨k, hk⟩ := argmin?_isSome (l := l) (by rintro rfl; simp at hi)
    have hkl := argmin?_lt hk
    obtain ⟨v, hv, hmin, hfirst⟩ := argmin?_eq_some hk
    rw [get k hkl, Option.some.injEq] at hv
    rcases lt_trichotomy i k with h | h | h
    · have := hfirst i h _ (get i hi)
      have := h1 k hkl
      linarith
    · rw [hk, h]
    · have := h2 k h
      have := hmin _ (List.mem_of_getElem? (get i hi))
      linarith

theorem countP_measurable {D V : Type} [MeasurableSpace D] (us : List V) (R : D → V → Prop)
    [∀ d u, Decidable (R d u)] (hR : ∀ u ∈ us, MeasurableSet {d | R d u}) :
    Measurable (fun d => us.countP (fun u => decide (R d u))) := by
  induction us with
  | nil => simp only [List.countP_nil]; exact measurable_const
  | cons u us ih =>
    simp only [List.countP_cons, decide_eq_true_eq]
    exact (ih fun v hv => hR v (List.mem_cons_of_mem _ hv)).add
      (Measurable.ite (hR u List.mem_cons_self) measurable_const measurable_const)

/-- The place of the atom `u` of the grid. -/
noncomputable def siteAt (n : ℕ) (u : V2 ℝ) (d : StartNumbers) : V2 ℝ :=
  motion (meanPoint ((hexagonalGrid n).map (fun p => V2.smul BOND p))) ⟨d.1, d.2.1⟩ d.2.2.1 u

theorem siteAt_measurable (n : ℕ) (u : V2 ℝ) :
    Measurable (fun d => (siteAt n u d).x) ∧ Measurable (fun d => (siteAt n u d).y) := by
  simp only [siteAt, motion, V2.sub_x, V2.sub_y, V2.add_x, V2.add_y, V2.smul_x, V2.smul_y]
  constructor <;> fun_prop

theorem offered_measurable (n : ℕ) (lo hi : ℝ) : Measurable (offered n lo hi) := by
  classical
  set us := hexagonalGrid n with hus
  have hsheet : ∀ d : StartNumbers, layOutSheet n ⟨d.1, d.2.1⟩ d.2.2.1 = us.map (fun u => siteAt n u d) :=
    fun d => layOutSheet_eq n _ _
  by_cases h0 : us = []
  · have e : offered n lo hi = fun _ => 0 := by
      funext d
      unfold offered
      simp only [hsheet, h0, List.map_nil, argmin?]
    rw [e]
    exact measurable_const
  have hnorm : ∀ u, Measurable (fun d => V2.normSq (siteAt n u d)) := fun u => by
    obtain ⟨hx, hy⟩ := siteAt_measurable n u
    simp only [V2.normSq]
    fun_prop
  have getN : ∀ (d : StartNumbers) (j : ℕ), j < us.length →
      (((us.map (fun u => siteAt n u d)).map V2.normSq).getD j 0) = V2.normSq (siteAt n (us.getD j 0) d) := by
    intro d j hj
    simp [List.getD_eq_getElem?_getD, hj]
  have getS : ∀ (d : StartNumbers) (j : ℕ), j < us.length →
      ((us.map (fun u => siteAt n u d)).getD j 0) = siteAt n (us.getD j 0) d := by
    intro d j hj
    simp [List.getD_eq_getElem?_getD, hj]
  have hcount : ∀ i, i < us.length → Measurable (fun d : StartNumbers => us.countP (fun u => decide
      (Inside (centredFov (siteAt n (us.getD i 0) d) d.2.2.2).lowerLeft
        (centredFov (siteAt n (us.getD i 0) d) d.2.2.2).upperRight (siteAt n u d) ∧
        InRange lo hi (siteAt n u d) (siteAt n (us.getD i 0) d)))) := by
    intro i _
    apply countP_measurable
    intro u _
    obtain ⟨hx, hy⟩ := siteAt_measurable n u
    obtain ⟨hx', hy'⟩ := siteAt_measurable n (us.getD i 0)
    simp only [Inside, InRange, centredFov, V2.sub_x, V2.sub_y, V2.add_x, V2.add_y, V2.const, V2.distSq, V2.normSq]
    have le : ∀ f g : StartNumbers → ℝ, Measurable f → Measurable g → Measurable (fun d => f d ≤ g d) :=
      fun f g hf hg => measurableSet_setOfPred.1 (measurableSet_le hf hg)
    have lt : ∀ f g : StartNumbers → ℝ, Measurable f → Measurable g → Measurable (fun d => f d < g d) :=
      fun f g hf hg => measurableSet_setOfPred.1 (measurableSet_lt hf hg)
    refine measurableSet_setOfPred.2 (((((le _ _ ?_ ?_).and (le _ _ ?_ ?_)).and ((le _ _ ?_ ?_).and (le _ _ ?_ ?_)))).and
      ((lt _ _ ?_ ?_).and (lt _ _ ?_ ?_))) <;> fun_prop
  have hmin : ∀ i, i < us.length → MeasurableSet {d : StartNumbers |
      argmin? ((us.map (fun u => siteAt n u d)).map V2.normSq) = some i} := by
    intro i hi
    have e : {d : StartNumbers | argmin? ((us.map (fun u => siteAt n u d)).map V2.normSq) = some i} =
        {d | (∀ j, j < us.length → V2.normSq (siteAt n (us.getD i 0) d) ≤ V2.normSq (siteAt n (us.getD j 0) d)) ∧
          ∀ j, j < i → V2.normSq (siteAt n (us.getD i 0) d) < V2.normSq (siteAt n (us.getD j 0) d)} := by
      ext d
      simp only [Set.mem_ofPred_eq]
      rw [argmin?_iff (by simpa using hi), getN d i hi]
      simp only [List.length_map]
      constructor
      · rintro ⟨h1, h2⟩
        exact ⟨fun j hj => by rw [← getN d j hj]; exact h1 j hj, fun j hj => by rw [← getN d j (hj.trans hi)]; exact h2 j hj⟩
      · rintro ⟨h1, h2⟩
        exact ⟨fun j hj => by rw [getN d j hj]; exact h1 j hj, fun j hj => by rw [getN d j (hj.trans hi)]; exact h2 j hj⟩
    rw [e]
    refine measurableSet_setOfPred.2 (Measurable.and ?_ ?_)
    · exact Measurable.forall fun j => Measurable.forall fun _ => measurableSet_setOfPred.1 (measurableSet_le (hnorm _) (hnorm _))
    · exact Measurable.forall fun j => Measurable.forall fun _ => measurableSet_setOfPred.1 (measurableSet_lt (hnorm _) (hnorm _))
  refine measurable_to_countable' fun N => ?_
  have e : offered n lo hi ⁻¹' {N} = ⋃ i, ⋃ (_ : i < us.length),
      ({d : StartNumbers | argmin? ((us.map (fun u => siteAt n u d)).map V2.normSq) = some i} ∩
        (fun d : StartNumbers => us.countP (fun u => decide
          (Inside (centredFov (siteAt n (us.getD i 0) d) d.2.2.2).lowerLeft
            (centredFov (siteAt n (us.getD i 0) d) d.2.2.2).upperRight (siteAt n u d) ∧
            InRange lo hi (siteAt n u d) (siteAt n (us.getD i 0) d)))) ⁻¹' {N}) := by
    ext d
    simp only [Set.mem_preimage, Set.mem_singleton_iff, Set.mem_iUnion, Set.mem_inter_iff, Set.mem_ofPred_eq,
      exists_prop]
    have key : ∀ i, argmin? ((us.map (fun u => siteAt n u d)).map V2.normSq) = some i → i < us.length →
        offered n lo hi d = us.countP (fun u => decide
          (Inside (centredFov (siteAt n (us.getD i 0) d) d.2.2.2).lowerLeft
            (centredFov (siteAt n (us.getD i 0) d) d.2.2.2).upperRight (siteAt n u d) ∧
            InRange lo hi (siteAt n u d) (siteAt n (us.getD i 0) d))) := by
      intro i h hlt
      unfold offered
      simp only [hsheet, h, getS d i hlt, List.countP_map]
      apply List.countP_congr
      intro u _
      simp
    constructor
    · intro h
      obtain ⟨i, hi⟩ := argmin?_isSome (l := (us.map (fun u => siteAt n u d)).map V2.normSq) (by simpa using h0)
      have hlt : i < us.length := by simpa using argmin?_lt hi
      exact ⟨i, hlt, hi, by rw [← key i hi hlt]; exact h⟩
    · rintro ⟨i, hlt, hi, hN⟩
      rw [key i hi hlt]
      exact hN
  rw [e]
  exact MeasurableSet.iUnion fun i => MeasurableSet.iUnion fun hi => (hmin i hi).inter (hcount i hi (measurableSet_singleton N))

/-- **Goals are even.** Among the starts in any given set that offer `N` goals, each of the `N` goals comes up with the
same probability. -/
theorem C132_goals (cfg : EnvCfg ℝ G O P Img F) (n : ℕ) (hc : PlayCfg cfg n) (hf : FairDraws cfg.sim.rng μ)
    (himg : cfg.requiresImage = false) (hparams : MeasurePreserving (fun g => (cfg.sim.sampleParams g).2) μ μ)
    (s : Env ℝ G O P Img) (hgoal : GoalRangeOk s.goal)
    (S : Set StartNumbers) (hS : MeasurableSet S) (hangle : ∀ d ∈ S, 0 < d.2.2.1 ∧ d.2.2.1 < 2 * Real.pi)
    (N k : ℕ) (hk : k < N) :
    μ {g | ∃ t s' d, Env.reset cfg { s with sim := { s.sim with ctx := { s.sim.ctx with g := g } } } = .ok t s' ∧
      d ∈ S ∧ StartsAs n d s' ∧ (goalSites s.goal.rangeMin s.goal.rangeMax s'.last).length = N ∧
      (goalSites s.goal.rangeMin s.goal.rangeMax s'.last)[k]? = some s'.goal.goal} =
    μ {g | ∃ t s' d, Env.reset cfg { s with sim := { s.sim with ctx := { s.sim.ctx with g := g } } } = .ok t s' ∧
      d ∈ S ∧ StartsAs n d s' ∧ (goalSites s.goal.rangeMin s.goal.rangeMax s'.last).length = N} / N := by
  have : IsProbabilityMeasure μ := ⟨hf.total⟩
  have hrest := drawRest_preserves hf hparams s
  have hSN : MeasurableSet (S ∩ offered n s.goal.rangeMin s.goal.rangeMax ⁻¹' {N}) :=
    hS.inter (offered_measurable n _ _ (measurableSet_singleton N))
  have back : ∀ g, ∃ t s', Env.reset cfg { s with sim := { s.sim with ctx := { s.sim.ctx with g := g } } } = .ok t s' :=
    fun g => C69_reset_returns cfg hc.lawful n hc.wide hc.generate hc.features
        { s with sim := { s.sim with ctx := { s.sim.ctx with g := g } } } hgoal.1 hgoal.2.1 hgoal.2.2
  have e0 : {g | ∃ t s' d, Env.reset cfg { s with sim := { s.sim with ctx := { s.sim.ctx with g := g } } } = .ok t s' ∧
      d ∈ S ∧ StartsAs n d s' ∧ (goalSites s.goal.rangeMin s.goal.rangeMax s'.last).length = N} =
      drawStart cfg.sim.rng ⁻¹' ((S ∩ offered n s.goal.rangeMin s.goal.rangeMax ⁻¹' {N}) ×ˢ Set.univ) := by
    ext g
    simp only [Set.mem_ofPred_eq, Set.mem_preimage, Set.mem_prod, Set.mem_inter_iff, Set.mem_singleton_iff, Set.mem_univ,
      and_true]
    constructor
    · rintro ⟨t, s', d, hr, hd, hs, hlen⟩
      obtain ⟨h1, -, -, h4⟩ := reset_draws hc.lawful hc.generate
        (s := { s with sim := { s.sim with ctx := { s.sim.ctx with g := g } } }) hgoal hr
      have he := starts_unique hc.wide h1 hs (drawStart_range hc.lawful g) (hangle d hd)
      exact ⟨by rw [he]; exact hd, h4.symm.trans hlen⟩
    · rintro ⟨hd, hlen⟩
      obtain ⟨t, s', hr⟩ := back g
      obtain ⟨h1, -, -, h4⟩ := reset_draws hc.lawful hc.generate
        (s := { s with sim := { s.sim with ctx := { s.sim.ctx with g := g } } }) hgoal hr
      exact ⟨t, s', _, hr, hd, h1, h4.trans hlen⟩
  have e : {g | ∃ t s' d, Env.reset cfg { s with sim := { s.sim with ctx := { s.sim.ctx with g := g } } } = .ok t s' ∧
      d ∈ S ∧ StartsAs n d s' ∧ (goalSites s.goal.rangeMin s.goal.rangeMax s'.last).length = N ∧
      (goalSites s.goal.rangeMin s.goal.rangeMax s'.last)[k]? = some s'.goal.goal} =
      drawStart cfg.sim.rng ⁻¹' ((S ∩ offered n s.goal.rangeMin s.goal.rangeMax ⁻¹' {N}) ×ˢ
        {g | (cfg.sim.rng.choice N (drawRest cfg s g)).1 = k}) := by
    ext g
    simp only [Set.mem_ofPred_eq, Set.mem_preimage, Set.mem_prod, Set.mem_inter_iff, Set.mem_singleton_iff]
    constructor
    · rintro ⟨t, s', d, hr, hd, hs, hlen, hkk⟩
      obtain ⟨h1, h2, h3, h4⟩ := reset_draws hc.lawful hc.generate
        (s := { s with sim := { s.sim with ctx := { s.sim.ctx with g := g } } }) hgoal hr
      have h2 := h2 himg
      have he := starts_unique hc.wide h1 hs (drawStart_range hc.lawful g) (hangle d hd)
      refine ⟨⟨by rw [he]; exact hd, h4.symm.trans hlen⟩, ?_⟩
      simp only at h2 h3
      rw [hlen] at h2
      have hlt := (List.getElem?_eq_some_iff.1 h2).1
      exact (List.getElem?_inj hlt h3).1 (h2.trans hkk.symm)
    · rintro ⟨⟨hd, hlen⟩, hch⟩
      obtain ⟨t, s', hr⟩ := back g
      obtain ⟨h1, h2, h3, h4⟩ := reset_draws hc.lawful hc.generate
        (s := { s with sim := { s.sim with ctx := { s.sim.ctx with g := g } } }) hgoal hr
      have h2 := h2 himg
      have hlen' := h4.trans hlen
      refine ⟨t, s', _, hr, hd, h1, hlen', ?_⟩
      simp only at h2 hlen'
      rw [hlen'] at h2
      rw [← hch]
      exact h2
  have hm : MeasurableSet {g : G | (cfg.sim.rng.choice N g).1 = k} :=
    (measurable_fst.comp (hf.choice_measurable N)) (measurableSet_singleton k)
  have hch : μ {g | (cfg.sim.rng.choice N (drawRest cfg s g)).1 = k} = (N : ENNReal)⁻¹ := by
    have h1 := hrest.measure_preimage hm.nullMeasurableSet
    have h2 := hf.choice N k hk Set.univ MeasurableSet.univ
    simp only [Set.mem_univ, and_true, hf.total, mul_one] at h2
    rw [← h2, ← h1]
    rfl
  have hm' : MeasurableSet {g : G | (cfg.sim.rng.choice N (drawRest cfg s g)).1 = k} := hrest.measurable hm
  rw [e, e0, (drawStart_preserves hf).measure_preimage (hSN.prod hm').nullMeasurableSet, Measure.prod_prod, hch,
    (drawStart_preserves hf).measure_preimage (hSN.prod MeasurableSet.univ).nullMeasurableSet, Measure.prod_prod, hf.total,
    mul_one, div_eq_mul_inv]

/-! ### Beams and actions -/

/-- **The first beam position is even.** The delta adapter starts anywhere in the image with the same probability. -/
theorem C132_beams (hf : FairDraws rng μ) (beam : V2 ℝ) (A B : Set ℝ) (hA : MeasurableSet A) (hB : MeasurableSet B)
    (E : Set G) (hE : MeasurableSet E) :
    μ {g | ((Adapter.delta : Adapter ℝ).reset rng beam g).1.x ∈ A ∧ ((Adapter.delta : Adapter ℝ).reset rng beam g).1.y ∈ B ∧
      ((Adapter.delta : Adapter ℝ).reset rng beam g).2 ∈ E} = evenOn 0 1 A * evenOn 0 1 B * μ E := by
  have hin : MeasurableSet {g | (rng.uniform 0 1 g).1 ∈ B ∧ (rng.uniform 0 1 g).2 ∈ E} :=
    (hf.uniform_measurable 0 1 zero_lt_one) (hB.prod hE)
  have := hf.uniform 0 1 zero_lt_one A hA _ hin
  rw [hf.uniform 0 1 zero_lt_one B hB E hE, ← mul_assoc] at this
  exact this

theorem drawAction_measurable (hf : FairDraws rng μ) (spec : List (ℝ × ℝ)) (hspec : ∀ p ∈ spec, p.1 < p.2)
    (As : List (Set ℝ)) (hA : ∀ A ∈ As, MeasurableSet A) {E : Set G} (hE : MeasurableSet E) :
    MeasurableSet {g | List.Forall₂ (fun x A => x ∈ A) (drawAction rng spec g).1 As ∧ (drawAction rng spec g).2 ∈ E} := by
  induction spec generalizing As with
  | nil =>
    cases As with
    | nil => simpa [drawAction] using hE
    | cons A As =>
      have : {g : G | List.Forall₂ (fun x A => x ∈ A) (drawAction rng ([] : List (ℝ × ℝ)) g).1 (A :: As) ∧
          (drawAction rng ([] : List (ℝ × ℝ)) g).2 ∈ E} = ∅ := by
        ext g
        simp [drawAction]
      rw [this]
      exact MeasurableSet.empty
  | cons p spec ih =>
    obtain ⟨lo, hi⟩ := p
    cases As with
    | nil =>
      have : {g : G | List.Forall₂ (fun x A => x ∈ A) (drawAction rng ((lo, hi) :: spec) g).1 ([] : List (Set ℝ)) ∧
          (drawAction rng ((lo, hi) :: spec) g).2 ∈ E} = ∅ := by
        ext g
        simp [drawAction]
      rw [this]
      exact MeasurableSet.empty
    | cons A As =>
      have hin := ih (fun q hq => hspec q (List.mem_cons_of_mem _ hq)) As (fun B hB => hA B (List.mem_cons_of_mem _ hB))
      have := (hf.uniform_measurable lo hi (hspec _ List.mem_cons_self)) ((hA A List.mem_cons_self).prod hin)
      convert this using 1
      ext g
      simp only [drawAction, Set.mem_ofPred_eq, List.forall₂_cons, Set.mem_preimage, Set.mem_prod, and_assoc]

/-- **Actions are even.** The uniform random agent draws each entry of an action evenly from its range, independently of
the other entries and of everything drawn later. -/
theorem C132_actions (hf : FairDraws rng μ) (spec : List (ℝ × ℝ)) (hspec : ∀ p ∈ spec, p.1 < p.2)
    (As : List (Set ℝ)) (hlen : As.length = spec.length) (hA : ∀ A ∈ As, MeasurableSet A) (E : Set G)
    (hE : MeasurableSet E) :
    μ {g | List.Forall₂ (fun x A => x ∈ A) (drawAction rng spec g).1 As ∧ (drawAction rng spec g).2 ∈ E} =
      (List.zipWith (fun p A => evenOn p.1 p.2 A) spec As).prod * μ E := by
  induction spec generalizing As with
  | nil =>
    rw [List.length_nil, List.length_eq_zero_iff] at hlen
    subst hlen
    simp [drawAction]
  | cons p spec ih =>
    obtain ⟨lo, hi⟩ := p
    cases As with
    | nil => simp at hlen
    | cons A As =>
      have hspec' : ∀ q ∈ spec, q.1 < q.2 := fun q hq => hspec q (List.mem_cons_of_mem _ hq)
      have hA' : ∀ B ∈ As, MeasurableSet B := fun B hB => hA B (List.mem_cons_of_mem _ hB)
      have hin := drawAction_measurable hf spec hspec' As hA' hE
      have key := hf.uniform lo hi (hspec _ List.mem_cons_self) A (hA A List.mem_cons_self) _ hin
      rw [ih hspec' As (by simpa using hlen) hA'] at key
      rw [List.zipWith_cons_cons, List.prod_cons, mul_assoc, ← key]
      congr 1
      ext g
      simp only [drawAction, Set.mem_ofPred_eq, List.forall₂_cons, and_assoc]

/-! ### The hypotheses can be met -/

/-- The sampler of the image parameters draws nine numbers and leaves the generator as random as it was. -/
theorem sampleImageParameters_preserves (hf : FairDraws rng μ) (size : ℕ) :
    MeasurePreserving (fun g => (sampleImageParameters rng size g).2) μ μ := by
  have : IsProbabilityMeasure μ := ⟨hf.total⟩
  have u : ∀ lo hi : ℝ, lo < hi → MeasurePreserving (fun g => (rng.uniform lo hi g).2) μ μ := by
    intro lo hi h
    have := evenOn_prob h
    exact snd_preserves (uniform_preserves hf h)
  have w : MeasurePreserving (fun g => (rng.exponential 15 g).2) μ μ := by
    have : IsProbabilityMeasure (expMeasure (1 / 15)) := isProbabilityMeasure_expMeasure (by norm_num)
    refine ⟨(hf.waits_measurable 15 (by norm_num)).snd, ?_⟩
    ext E hE
    rw [Measure.map_apply (hf.waits_measurable 15 (by norm_num)).snd hE]
    have := hf.waits 15 (by norm_num) Set.univ MeasurableSet.univ E hE
    rw [measure_univ, one_mul] at this
    rw [← this]
    simp
    rfl
  exact (u _ _ (by norm_num)).comp ((u _ _ (by norm_num)).comp ((u _ _ (by norm_num)).comp ((u _ _ (by norm_num)).comp
    ((u _ _ (by norm_num)).comp (w.comp ((u _ _ (by norm_num)).comp ((u _ _ (by norm_num)).comp
      (u _ _ (by norm_num)))))))))

end

/-- An environment with the delta adapter, drawing image parameters the way the code does. -/
noncomputable def evenCfg : EnvCfg ℝ (ℕ → ℝ) Unit StemParams Unit (List ℝ) where
  sim := {
    fuel := 10
    rng := Witness.streamRng
    generate := generatePristineGraphene Witness.streamRng 50
    rate := pristineRates Witness.knn HumanPrior.default.predict
    render := fun _ _ _ g => ((), g)
    sampleParams := sampleImageParameters Witness.streamRng 512
    imageDuration := 2000000
    handle := fun _ o => o }
  adapter := .delta
  features := pristineFeatures Witness.knn
  requiresImage := false
  seedRng := fun _ _ => 0

theorem evenCfg_ok : PlayCfg evenCfg 50 :=
  ⟨Witness.streamRng_lawful, by norm_num, rfl, (C69_features_defined Witness.knn id).1 _, C39_pristine_swaps _ _,
    (C99_rates_defined Witness.knn).2.1, show (1500000 : ℤ) ≤ 1500000 by decide,
    show (1500000 : ℤ) < 3600000000 by decide⟩

/-- One start in six has an angle below 180° and a side of at most 20 Å. -/
example (s : Env ℝ (ℕ → ℝ) Unit StemParams Unit) (h : s.goal = GoalState.fresh) :
    Witness.streamLaw {g | ∃ t s' d, Env.reset evenCfg { s with sim := { s.sim with ctx := { s.sim.ctx with g := g } } } =
      .ok t s' ∧ d ∈ (Set.univ ×ˢ (Set.univ ×ˢ (Set.Ioo 0 Real.pi ×ˢ Set.Icc 15 20)) : Set StartNumbers) ∧
      StartsAs 50 d s'} = ENNReal.ofReal (1 / 6) := by
  have hpi := Real.pi_pos
  rw [C132_starts evenCfg 50 evenCfg_ok Witness.streamRng_fairDraws s
    (by rw [h]; constructor <;> norm_num [GoalState.fresh]) _
    (MeasurableSet.univ.prod (MeasurableSet.univ.prod (measurableSet_Ioo.prod measurableSet_Icc)))
    (fun d hd => ⟨hd.2.2.1.1, by linarith [hd.2.2.1.2]⟩)]
  have h1 := evenOn_prob (show (-71 / 100 : ℝ) < 71 / 100 by norm_num)
  unfold startLaw
  rw [Measure.prod_prod, Measure.prod_prod, Measure.prod_prod, measure_univ, one_mul, one_mul]
  unfold evenOn
  have e1 : Set.Icc 0 (2 * Real.pi) ∩ Set.Ioo 0 Real.pi = Set.Ioo 0 Real.pi :=
    Set.inter_eq_right.2 fun x hx => ⟨hx.1.le, by linarith [hx.2]⟩
  have e2 : Set.Icc (15 : ℝ) 30 ∩ Set.Icc 15 20 = Set.Icc 15 20 :=
    Set.inter_eq_right.2 fun x hx => ⟨hx.1, by linarith [hx.2]⟩
  rw [cond_apply measurableSet_Icc, cond_apply measurableSet_Icc, e1, e2, Real.volume_Icc, Real.volume_Icc, Real.volume_Icc,
    Real.volume_Ioo, ← ENNReal.ofReal_inv_of_pos (by linarith), ← ENNReal.ofReal_inv_of_pos (by norm_num),
    ← ENNReal.ofReal_mul (by rw [sub_zero]; positivity), ← ENNReal.ofReal_mul (by norm_num),
    ← ENNReal.ofReal_mul (by rw [sub_zero, sub_zero]; positivity)]
  congr 1
  field_simp
  norm_num
  ring

/-- If thirty goals are offered, each has one chance in thirty. -/
example (s : Env ℝ (ℕ → ℝ) Unit StemParams Unit) (h : s.goal = GoalState.fresh) (k : ℕ) (hk : k < 30) :
    Witness.streamLaw {g | ∃ t s' d, Env.reset evenCfg { s with sim := { s.sim with ctx := { s.sim.ctx with g := g } } } =
      .ok t s' ∧ d ∈ {d : StartNumbers | 0 < d.2.2.1 ∧ d.2.2.1 < 2 * Real.pi} ∧ StartsAs 50 d s' ∧
      (goalSites s.goal.rangeMin s.goal.rangeMax s'.last).length = 30 ∧
      (goalSites s.goal.rangeMin s.goal.rangeMax s'.last)[k]? = some s'.goal.goal} =
    Witness.streamLaw {g | ∃ t s' d, Env.reset evenCfg { s with sim := { s.sim with ctx := { s.sim.ctx with g := g } } } =
      .ok t s' ∧ d ∈ {d : StartNumbers | 0 < d.2.2.1 ∧ d.2.2.1 < 2 * Real.pi} ∧ StartsAs 50 d s' ∧
      (goalSites s.goal.rangeMin s.goal.rangeMax s'.last).length = 30} / (30 : ℕ) := by
  have hang : Measurable (fun d : StartNumbers => d.2.2.1) := by fun_prop
  exact C132_goals evenCfg 50 evenCfg_ok Witness.streamRng_fairDraws rfl
    (sampleImageParameters_preserves Witness.streamRng_fairDraws 512) s
    (by rw [h]; constructor <;> norm_num [GoalState.fresh]) _
    ((measurableSet_lt measurable_const hang).inter (measurableSet_lt hang measurable_const)) (fun d hd => hd) 30 k hk

/-- One beam in four starts in the lower left quarter; one action in eight has all entries negative. -/
example : Witness.streamLaw {g | ((Adapter.delta : Adapter ℝ).reset Witness.streamRng 0 g).1.x ∈ Set.Iic (1 / 2) ∧
      ((Adapter.delta : Adapter ℝ).reset Witness.streamRng 0 g).1.y ∈ Set.Iic (1 / 2) ∧
      ((Adapter.delta : Adapter ℝ).reset Witness.streamRng 0 g).2 ∈ Set.univ} =
      evenOn 0 1 (Set.Iic (1 / 2)) * evenOn 0 1 (Set.Iic (1 / 2)) * Witness.streamLaw Set.univ ∧
    Witness.streamLaw {g | List.Forall₂ (fun x A => x ∈ A)
      (drawAction Witness.streamRng [(-1, 1), (-1, 1), (-1, 1)] g).1 [Set.Iio 0, Set.Iio 0, Set.Iio 0] ∧
      (drawAction Witness.streamRng [(-1, 1), (-1, 1), (-1, 1)] g).2 ∈ Set.univ} =
      (List.zipWith (fun (p : ℝ × ℝ) A => evenOn p.1 p.2 A) [(-1, 1), (-1, 1), (-1, 1)]
        [Set.Iio 0, Set.Iio 0, Set.Iio 0]).prod * Witness.streamLaw Set.univ :=
  ⟨C132_beams Witness.streamRng_fairDraws 0 _ _ measurableSet_Iic measurableSet_Iic _ MeasurableSet.univ,
    C132_actions Witness.streamRng_fairDraws _ (by norm_num) _ rfl (by simp) _ MeasurableSet.univ⟩

end PD.Props
