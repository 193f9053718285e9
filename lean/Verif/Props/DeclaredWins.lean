/- C159: episodes can be won with declared actions. -/
import Verif.Props.Winning
import Verif.Props.Episode
import Verif.Model.Experiments
import Verif.Spec.DeclaredWins

set_option linter.unusedSectionVars false
set_option linter.unusedSimpArgs false

namespace PD.Props
open PD PD.Spec MeasureTheory ProbabilityTheory

section
variable {G O P Img F : Type}

/-- Near a silicon in the safe area everything is in the image. -/
theorem near_inside {o : Observation ℝ Img} {x c p : V2 ℝ} {sc : ℝ} (hf : o.fov = centredFov c sc) (h15 : 15 ≤ sc)
    (hsafe : InSafeArea x) (h1 : |(place o x).x - p.x| ≤ 2) (h2 : |(place o x).y - p.y| ≤ 2) :
    o.fov.toMicroscope p = ⟨(p.x - c.x) / sc + 1 / 2, (p.y - c.y) / sc + 1 / 2⟩ ∧
    x = ⟨((place o x).x - c.x) / sc + 1 / 2, ((place o x).y - c.y) / sc + 1 / 2⟩ ∧
    0 ≤ (p.x - c.x) / sc + 1 / 2 ∧ (p.x - c.x) / sc + 1 / 2 ≤ 1 ∧ 0 ≤ (p.y - c.y) / sc + 1 / 2 ∧ (p.y - c.y) / sc + 1 / 2 ≤ 1 := by
  have hpos : 0 < sc := by linarith
  have hsq := centredFov_square c sc
  have hback : o.fov.toMicroscope (o.fov.toMaterial x) = x :=
    toMicroscope_toMaterial (by rw [hf, hsq.1]; exact hpos.ne') (by rw [hf, hsq.2]; exact hpos.ne') x
  have hplace : place o x = o.fov.toMaterial x := (fov_lerp _ _).symm
  rw [← hplace] at hback
  have hmem : ∀ a b q : ℝ, |a - b| ≤ 2 → 1 / 4 ≤ (a - q) / sc + 1 / 2 → (a - q) / sc + 1 / 2 ≤ 3 / 4 →
      0 ≤ (b - q) / sc + 1 / 2 ∧ (b - q) / sc + 1 / 2 ≤ 1 := by
    intro a b q hab l1 l2
    have e : (b - q) / sc = (a - q) / sc - (a - b) / sc := by field_simp; ring
    have l3 : |(a - b) / sc| ≤ 2 / 15 := by
      rw [abs_div, abs_of_pos hpos]
      rw [div_le_div_iff₀ hpos (by norm_num)]
      nlinarith
    rw [abs_le] at l3
    rw [e]
    constructor <;> linarith [l3.1, l3.2]
  rw [hf, centredFov_toMicroscope' c _ hpos] at hback
  have hback' := hback.symm
  rw [← hback] at hsafe
  obtain ⟨⟨s1, s2⟩, s3, s4⟩ := hsafe
  rw [hback] at s1 s2 s3 s4
  have sx := congrArg V2.x hback'
  have sy := congrArg V2.y hback'
  simp only at sx sy
  rw [sx] at s1 s2
  rw [sy] at s3 s4
  obtain ⟨m1, m2⟩ := hmem _ p.x c.x h1 s1 s2
  obtain ⟨m3, m4⟩ := hmem _ p.y c.y h2 s3 s4
  exact ⟨by rw [hf, centredFov_toMicroscope' c p hpos], hback', m1, m2, m3, m4⟩

theorem cutFraction_clip (d l : ℝ) : clip (cutFraction d l) (-1) 1 = cutFraction d l ∧ -1 ≤ cutFraction d l ∧ cutFraction d l ≤ 1 := by
  have h1 : -1 ≤ cutFraction d l := le_max_left _ _
  have h2 : cutFraction d l ≤ 1 := max_le (by norm_num) (min_le_left _ _)
  exact ⟨by simp only [clip]; rw [max_eq_left h1, min_eq_right h2], h1, h2⟩

theorem cutFraction_near {d l : ℝ} (hl : 142 / 100 ≤ l) (hd : |d| ≤ 1422 / 1000) : |cutFraction d l * l - d| ≤ 2 / 1000 := by
  have hpos : 0 < l := by linarith
  rw [abs_le] at hd
  unfold cutFraction
  rcases le_total (d / l) 1 with h1 | h1
  · rw [min_eq_right h1]
    rcases le_total (-1) (d / l) with h2 | h2
    · rw [max_eq_right h2, div_mul_cancel₀ _ hpos.ne', sub_self, abs_zero]
      norm_num
    · rw [max_eq_left h2, abs_le]
      rw [div_le_iff₀ hpos] at h2
      constructor <;> linarith [hd.1]
  · rw [min_eq_left h1, max_eq_right (by norm_num), abs_le]
    rw [le_div_iff₀ hpos] at h1
    constructor <;> linarith [hd.2]

/-- The place the beam goes to. -/
noncomputable def aimedPlace : Adapter ℝ → V2 ℝ → V2 ℝ → V2 ℝ
  | .relative _ _ largest, si, p => ⟨si.x + cutFraction (p.x - si.x) largest * largest, si.y + cutFraction (p.y - si.y) largest * largest⟩
  | _, _, p => p

theorem aimed_near {adapter : Adapter ℝ} {dwell : Timedelta} (h : Reaching adapter dwell) {si p : V2 ℝ}
    (hd : |Spec.dist si p - 142 / 100| ≤ 2 / 1000) : Spec.dist (aimedPlace adapter si p) p ≤ 1 / 100 := by
  rw [abs_le] at hd
  rcases h with ⟨_, l, hl, rfl⟩ | ⟨rfl, _⟩
  · have hx := cutFraction_near (d := p.x - si.x) hl (by
      rw [abs_sub_comm]; exact (abs_x_le_dist si p).trans (by linarith [hd.2]))
    have hy := cutFraction_near (d := p.y - si.y) hl (by
      rw [abs_sub_comm]; exact (abs_y_le_dist si p).trans (by linarith [hd.2]))
    rw [abs_le] at hx hy
    simp only [aimedPlace, Spec.dist]
    rw [Real.sqrt_le_iff]
    refine ⟨by norm_num, ?_⟩
    nlinarith [hx.1, hx.2, hy.1, hy.2]
  · simp only [aimedPlace]
    rw [dist_self']
    norm_num

/-- Every neighbour of a silicon in the safe area is reached by a declared action. -/
theorem aimed_action {adapter : Adapter ℝ} {dwell : Timedelta} (h : Reaching adapter dwell) {o : Observation ℝ Img} {x c p : V2 ℝ}
    {sc : ℝ} (hwf : o.grid.WF) (hx : silicons o.grid = [x]) (hf : o.fov = centredFov c sc) (h15 : 15 ≤ sc) (hsafe : InSafeArea x)
    (hd : |Spec.dist (place o x) p - 142 / 100| ≤ 2 / 1000) (beam : V2 ℝ) :
    Declared adapter (aimedAction adapter o x p) ∧
    Adapter.getAction adapter o (aimedAction adapter o x p) beam =
      .ok [BeamControl.mk' (o.fov.toMicroscope (aimedPlace adapter (place o x) p)) dwell] beam := by
  have hpos : 0 < sc := by linarith
  have hsq := centredFov_square c sc
  rw [← hf] at hsq
  have hw := hsq.1
  have hh := hsq.2
  simp only [Fov.width, Fov.height] at hw hh
  have hnear := aimed_near h hd
  rw [abs_le] at hd
  set q := aimedPlace adapter (place o x) p with hq
  have hbnd : ∀ u v w : ℝ, |u - v| ≤ Spec.dist (place o x) p → |w - v| ≤ Spec.dist q p → |u - w| ≤ 2 := by
    intro u v w h1 h2
    rw [abs_le] at h1 h2 ⊢
    constructor <;> linarith [h1.1, h1.2, h2.1, h2.2, hd.2]
  obtain ⟨e1, e2, m1, m2, m3, m4⟩ := near_inside hf h15 hsafe (p := q)
    (hbnd _ _ _ (abs_x_le_dist _ p) (abs_x_le_dist q p)) (hbnd _ _ _ (abs_y_le_dist _ p) (abs_y_le_dist q p))
  have hclip : clip2 (o.fov.toMicroscope q) 0 1 = o.fov.toMicroscope q := by
    rw [e1]
    simp only [clip2, clip, max_eq_left m1, max_eq_left m3, min_eq_right m2, min_eq_right m4]
  rcases h with ⟨longest, l, hl, rfl⟩ | ⟨rfl, rfl⟩
  · obtain ⟨cx, cx1, cx2⟩ := cutFraction_clip (p.x - (place o x).x) l
    obtain ⟨cy, cy1, cy2⟩ := cutFraction_clip (p.y - (place o x).y) l
    refine ⟨?_, ?_⟩
    · simp only [Declared, aimedAction, Adapter.actionSpec]
      split_ifs
      · exact .cons ⟨cx1, cx2⟩ (.cons ⟨cy1, cy2⟩ .nil)
      · exact .cons ⟨cx1, cx2⟩ (.cons ⟨cy1, cy2⟩ (.cons ⟨le_rfl, zero_le_one⟩ .nil))
    · have hone : oneSilicon o.grid = .ok x := by
        unfold oneSilicon
        rw [getSiliconPositions_eq_silicons hwf, hx]
      have hdw : dwellOf dwell longest (aimedAction (.relative dwell longest l) o x p) = .ok dwell := by
        by_cases hll : dwell = longest
        · subst hll
          simp only [dwellOf, if_true, ofSeconds_totalSeconds]
        · have hc : clip (0 : ℝ) 0 1 = 0 := by simp [clip]
          simp [dwellOf, aimedAction, hll, hc, ofSeconds_totalSeconds]
      have hpre : actionPrefix2 (aimedAction (.relative dwell longest l) o x p) =
          .ok ⟨cutFraction (p.x - (place o x).x) l, cutFraction (p.y - (place o x).y) l⟩ := by
        simp [aimedAction, actionPrefix2]
      have hno : ¬ (sc = 0 ∨ sc = 0) := by simp [hpos.ne']
      simp only [Adapter.getAction, hone, hw, hh, if_neg hno, hdw, hpre]
      simp only [clip2, cx, cy]
      rw [← hclip, e1]
      have ex := congrArg V2.x e2
      have ey := congrArg V2.y e2
      simp only at ex ey
      have e3 : x.x + cutFraction (p.x - (place o x).x) l * (l / sc) = (q.x - c.x) / sc + 1 / 2 := by
        rw [hq]
        simp only [aimedPlace]
        rw [ex]
        field_simp
        ring
      have e4 : x.y + cutFraction (p.y - (place o x).y) l * (l / sc) = (q.y - c.y) / sc + 1 / 2 := by
        rw [hq]
        simp only [aimedPlace]
        rw [ey]
        field_simp
        ring
      simp only [clip2, V2.add_x, V2.add_y, V2.mul_x, V2.mul_y, e3, e4]
  · have e5 : aimedAction .direct o x p = [(q.x - c.x) / sc + 1 / 2, (q.y - c.y) / sc + 1 / 2] := by
      have lx : o.fov.lowerLeft.x = c.x - sc / 2 := by rw [hf]; simp [centredFov, V2.const]
      have ly : o.fov.lowerLeft.y = c.y - sc / 2 := by rw [hf]; simp [centredFov, V2.const]
      have hqp : q = p := rfl
      have key : ∀ u v : ℝ, (u - (v - sc / 2)) / sc = (u - v) / sc + 1 / 2 := by
        intro u v
        field_simp
        ring
      simp only [aimedAction]
      rw [hw, hh, lx, ly, key, key, hqp]
    refine ⟨?_, ?_⟩
    · rw [e5]
      simp only [Declared, Adapter.actionSpec]
      exact .cons ⟨m1, m2⟩ (.cons ⟨m3, m4⟩ .nil)
    · rw [e5]
      simp only [Adapter.getAction, action2]
      rw [← hclip, e1]
      rfl

/-- What a step shows apart from the picture depends only on the view before and on the sheet, and the picture is drawn last. -/
theorem step_shown (cfg : SimCfg ℝ G O P Img) (b : Bool) (c : V2 ℝ) {sc : ℝ} (hpos : 0 < sc)
    (cs : List (BeamControl ℝ)) (el : Timedelta) {next : Grid ℝ} {p : V2 ℝ} (hdop : SingleDoped next) (hsi : silicons next = [p]) (ip : P) :
    ∃ (x c' : V2 ℝ) (draw : G → Option Img × G), Draws cfg b draw ∧
      InSafeArea x ∧ (centredFov c' sc).toMaterial x = p ∧
      ∀ (fuel : ℕ) (s : Sim ℝ G O P) (ctx : MatCtx ℝ G O), s.hasBeenReset = true → s.fovScale = some sc →
        s.fov = some (centredFov c sc) → s.imageParams = some ip →
        applyControls { cfg with fuel := fuel } (centredFov c sc) cs 0 s.ctx = .ok el ctx → ctx.mat = ⟨true, some next⟩ →
        ∃ o s', Sim.step { cfg with fuel := fuel } cs b s = .ok o s' ∧ o.fov = centredFov c' sc ∧ silicons o.grid = [x] ∧
          s'.ctx.g = (draw ctx.g).2 ∧ s'.ctx.mat = ctx.mat ∧
          s'.hasBeenReset = true ∧ s'.fovScale = some sc ∧ s'.fov = some (centredFov c' sc) ∧ s'.imageParams = some ip := by
  have hsi' : getSiliconPositions next = [p] := by rw [getSiliconPositions_eq_silicons hdop.wf, hsi]
  set mat : Material ℝ := ⟨true, some next⟩ with hmat
  have hr : mat.hasBeenReset = true := rfl
  have hg : mat.grid = some next := rfl
  have hread : mat.read = .ok next := by simp [Material.read, hr, hg]
  have hsil : mat.getSiliconPosition = .ok p := by simp only [Material.getSiliconPosition, hread, hsi']
  have hsq := centredFov_square c sc
  have hsq' := centredFov_square p sc
  obtain ⟨grid, hgrid⟩ := getAtomsInBounds_ok hr hg (centredFov c sc)
  obtain ⟨grid', hgrid'⟩ := getAtomsInBounds_ok hr hg (centredFov p sc)
  obtain ⟨hwf, hv⟩ := observed_silicons hdop hread hsi' (f := centredFov c sc) (by rw [hsq.1]; exact hpos)
    (by rw [hsq.2]; exact hpos) hgrid
  obtain ⟨hwf', hv'⟩ := observed_silicons hdop hread hsi' (f := centredFov p sc) (by rw [hsq'.1]; exact hpos)
    (by rw [hsq'.2]; exact hpos) hgrid'
  rw [if_pos (centredFov_inside p hpos.le), centredFov_toMicroscope p hpos] at hv'
  have hno : ∀ e, siliconOutsideOfSafeArea grid ≠ .error e := by
    intro e he
    unfold siliconOutsideOfSafeArea at he
    rw [hv] at he
    split_ifs at he <;> cases he
  have hdraws : ∀ (gr : Grid ℝ) (f : Fov ℝ), Draws cfg b (fun g => if b then (some (cfg.render gr f ip g).1, (cfg.render gr f ip g).2)
      else (none, g)) := by
    intro gr f
    cases b with
    | false => exact .none
    | true => exact .some rfl gr f ip
  cases hout : siliconOutsideOfSafeArea grid with
  | error e => exact absurd hout (hno e)
  | ok out =>
    cases out with
    | false =>
      obtain ⟨x, hx, hsafe⟩ := outside_false hout
      refine ⟨x, c, _, hdraws grid (centredFov c sc), hsafe, ?_, ?_⟩
      · rw [hv] at hx
        split_ifs at hx
        rw [List.singleton_inj] at hx
        rw [← hx]
        exact toMaterial_toMicroscope (by rw [hsq.1]; exact hpos.ne') (by rw [hsq.2]; exact hpos.ne') p
      · intro fuel s ctx hreset hscale hfov hip hc hm
        have hsx : silicons grid = [x] := by rw [← getSiliconPositions_eq_silicons hwf, hx]
        cases b with
        | false =>
          refine ⟨⟨grid, centredFov c sc, cs, el + cfg.imageDuration, none, none⟩, { s with ctx := { ctx with
            obs := notify cfg.handle (.takeImage cfg.imageDuration (centredFov c sc)) ctx.obs } }, ?_, rfl, hsx, rfl, rfl, hreset,
            hscale, hfov, hip⟩
          rw [step_eq hreset hfov, hc]
          simp only [Sim.observe, hm, hgrid, Sim.recentre, hout, Sim.maybeImage]
          rfl
        | true =>
          refine ⟨⟨grid, centredFov c sc, cs, el + cfg.imageDuration, some (cfg.render grid (centredFov c sc) ip ctx.g).1, none⟩,
            { s with ctx := { ctx with
              g := (cfg.render grid (centredFov c sc) ip ctx.g).2
              obs := notify cfg.handle (.generatedImage (cfg.render grid (centredFov c sc) ip ctx.g).1)
                (notify cfg.handle (.takeImage cfg.imageDuration (centredFov c sc)) ctx.obs) } }, ?_, rfl, hsx, rfl, rfl, hreset,
            hscale, hfov, hip⟩
          rw [step_eq hreset hfov, hc]
          simp only [Sim.observe, hm, hgrid, Sim.recentre, hout, Sim.maybeImage, hip]
          rfl
    | true =>
      refine ⟨⟨1 / 2, 1 / 2⟩, p, _, hdraws grid' (centredFov p sc), centre_safe, ?_, ?_⟩
      · rw [← centredFov_toMicroscope p hpos]
        exact toMaterial_toMicroscope (by rw [hsq'.1]; exact hpos.ne') (by rw [hsq'.2]; exact hpos.ne') p
      · intro fuel s ctx hreset hscale hfov hip hc hm
        have hsx : silicons grid' = [⟨1 / 2, 1 / 2⟩] := by rw [← getSiliconPositions_eq_silicons hwf', hv']
        cases b with
        | false =>
          refine ⟨⟨grid', centredFov p sc, cs, el + cfg.imageDuration + cfg.imageDuration, none, none⟩,
            { s with fov := some (centredFov p sc), ctx := { ctx with
              obs := notify cfg.handle (.takeImage cfg.imageDuration (centredFov p sc)) (notify cfg.handle (.fovChange (centredFov p sc))
                (notify cfg.handle (.takeImage cfg.imageDuration (centredFov c sc)) ctx.obs)) } }, ?_, rfl, hsx, rfl, rfl, hreset,
            hscale, rfl, hip⟩
          rw [step_eq hreset hfov, hc]
          simp only [Sim.observe, hm, hgrid, Sim.recentre, hout, Sim.maybeImage, hsil, hscale, hgrid']
          rfl
        | true =>
          refine ⟨⟨grid', centredFov p sc, cs, el + cfg.imageDuration + cfg.imageDuration,
              some (cfg.render grid' (centredFov p sc) ip ctx.g).1, none⟩,
            { s with fov := some (centredFov p sc), ctx := { ctx with
              g := (cfg.render grid' (centredFov p sc) ip ctx.g).2
              obs := notify cfg.handle (.generatedImage (cfg.render grid' (centredFov p sc) ip ctx.g).1)
                (notify cfg.handle (.takeImage cfg.imageDuration (centredFov p sc)) (notify cfg.handle (.fovChange (centredFov p sc))
                (notify cfg.handle (.takeImage cfg.imageDuration (centredFov c sc)) ctx.obs))) } }, ?_, rfl, hsx, rfl, rfl, hreset,
            hscale, rfl, hip⟩
          rw [step_eq hreset hfov, hc]
          simp only [Sim.observe, hm, hgrid, Sim.recentre, hout, Sim.maybeImage, hsil, hscale, hgrid', hip]
          rfl

variable [MeasurableSpace G] {μ : Measure G}

/-- Drawing a picture does not make a set of generator states less likely. -/
theorem draw_keeps {cfg : SimCfg ℝ G O P Img} {b : Bool} {draw : G → Option Img × G} (h : Draws cfg b draw)
    (hi : b = true → FairImages cfg.render μ) [IsProbabilityMeasure μ] {S : Set G} (hS : MeasurableSet S) :
    MeasurableSet {g | (draw g).2 ∈ S} ∧ μ S ≤ μ {g | (draw g).2 ∈ S} := by
  have hm : MeasurableSet {g | (draw g).2 ∈ S} := by
    cases h with
    | none => exact hS
    | some hb grid fov p => exact (hi hb).measurable grid fov p hS
  refine ⟨hm, ?_⟩
  have h1 := draw_bound h hi (fun _ => Sᶜ) (x := μ Sᶜ) (fun _ => le_rfl)
  have e : {g | (draw g).2 ∈ Sᶜ} = {g | (draw g).2 ∈ S}ᶜ := rfl
  rw [e, prob_compl_eq_one_sub hm, prob_compl_eq_one_sub hS] at h1
  exact (ENNReal.sub_le_sub_iff_left prob_le_one (by simp)).1 h1

theorem declared_law (cfg : EnvCfg ℝ G O P Img F) (n : ℕ) (hp : PlayCfg cfg n) (hf : Fair cfg.sim.rng μ) (knn : Knn ℝ)
    (hr : cfg.sim.rate = pristineRates knn simpleCanonicalRates) (dwell : Timedelta)
    (h0 : 0 < dwell) (ha : Reaching cfg.adapter dwell) (hi : cfg.requiresImage = true → FairImages cfg.sim.render μ)
    (offset : V2 ℝ) (angle : ℝ) (sc : ℝ) (h15 : 15 ≤ sc) (h30 : sc ≤ 30) (ip : P) (c : V2 ℝ) (path : List (V2 ℝ)) (sheet : Grid ℝ)
    (hpos : sheet.positions = layOutSheet n offset angle) (hdop : SingleDoped sheet)
    (si y : V2 ℝ) (hsi : silicons sheet = [si]) (ht : Trail sheet.positions si path y) :
    ∃ S : Set G, MeasurableSet S ∧ ENNReal.ofReal (arriveProb dwell ^ path.length) ≤ μ S ∧
      ∀ g ∈ S, ∀ s : Env ℝ G O P Img, Playing n s → InEpisode s sheet → s.sim.ctx.g = g → s.sim.fovScale = some sc →
        s.sim.fov = some (centredFov c sc) → s.sim.imageParams = some ip → s.goal.required = 1 →
        V2.distSq y s.goal.goal < (71 / 100) ^ 2 → path ≠ [] → WonDeclared cfg s path := by
  have hd : dwell < 3600000000 := by
    have := hp.dwellHour
    have ho := hp.dwellOrder
    rcases ha with ⟨longest, l, _, e⟩ | ⟨e, rfl⟩
    · rw [e] at this ho; exact lt_of_le_of_lt ho this
    · decide
  have hsc : 0 < sc := by linarith
  have : IsProbabilityMeasure μ := ⟨hf.total⟩
  induction path generalizing sheet si c with
  | nil => exact ⟨Set.univ, MeasurableSet.univ, by rw [hf.total]; simp, fun _ _ _ _ _ _ _ _ _ _ _ h => absurd rfl h⟩
  | cons p path ih =>
    obtain ⟨⟨nbrs, hbond, hpn⟩, ht⟩ := ht
    obtain ⟨nbrs', hbond'⟩ := trail_bonded ht
    have hD : Displaced (1 / 1000) (layOutSheet n offset angle) sheet.positions := by
      rw [hpos]
      exact List.forall₂_same.2 (fun p _ => by rw [dist_self']; norm_num)
    obtain ⟨next, y1, y2, y3, hlaw⟩ := arrive_law hf hp.lawful knn n offset angle sheet hD hdop si hsi nbrs nbrs' hbond p hpn
      hbond' (BeamControl.mk' (aimedPlace cfg.adapter si p) dwell) (aimed_near ha (hbond.bonds p hpn).2)
      h0 hd
    set q := aimedPlace cfg.adapter si p with hq
    have hsq := centredFov_square c sc
    have hback : (centredFov c sc).toMaterial ((centredFov c sc).toMicroscope q) = q :=
      toMaterial_toMicroscope (by rw [hsq.1]; exact hsc.ne') (by rw [hsq.2]; exact hsc.ne') q
    obtain ⟨x', c2, draw, hdraw, k9, k10, hshown⟩ := step_shown (O := O) cfg.sim cfg.requiresImage c hsc
      [BeamControl.mk' ((centredFov c sc).toMicroscope q) dwell] dwell y2 y3 ip
    obtain ⟨S, m, e, hS⟩ := ih c2 next (by rw [y1]; exact hpos) y2 p y3 (by rw [y1]; exact ht)
    obtain ⟨md, ed⟩ := draw_keeps hdraw hi m
    obtain ⟨m', e'⟩ := hlaw _ md
    refine ⟨_, m', le_trans ?_ e', ?_⟩
    · rw [List.length_cons, pow_succ', ENNReal.ofReal_mul (arriveProb_nonneg h0)]
      exact mul_le_mul_right (e.trans ed) _
    · rintro g hg s hplay hep hsg v1 v2 hip hreq hgoal -
      simp only [Set.mem_iUnion] at hg
      obtain ⟨time, _, g', sheet', hj, hg'⟩ := hg
      have hlast : sheet' = next := jumps_last hj
      subst hlast
      obtain ⟨x, hx, hsafe, hxs⟩ := hep.shown
      have hfov : s.last.fov = centredFov c sc := by
        have := hep.view
        rw [v2, Option.some.injEq] at this
        exact this.symm
      rw [hsi, List.singleton_inj] at hxs
      obtain ⟨hdecl, hact⟩ := aimed_action ha hep.wf hx hfov h15 hsafe (p := p) (by rw [← hxs]; exact (hbond.bonds p hpn).2) s.beam
      rw [← hxs, ← hq, hfov] at hact
      set c' := BeamControl.mk' q dwell with hc'
      set obs' := (notify cfg.sim.handle (.applyControl c') s.sim.ctx.obs).map
        (observeAll cfg.sim.handle ([(time, sheet')].map (fun e => Event.transition e.1 e.2))) with hobs'
      obtain ⟨fuel, h1⟩ := (C72_jump_process cfg.sim.rng cfg.sim.handle cfg.sim.rate c'
        ⟨g, ⟨true, some sheet⟩, notify cfg.sim.handle (.applyControl c') s.sim.ctx.obs⟩
        ⟨g', ⟨true, some sheet'⟩, obs'⟩ sheet rfl rfl).2 ⟨_, sheet', hr ▸ hj, rfl, rfl, rfl⟩
      have hpf := hp.fuelled fuel
      obtain ⟨o, sim, k1, k6, k8, k2, k3, k4, k5, k7, k12⟩ := hshown fuel s.sim ⟨g', ⟨true, some sheet'⟩, obs'⟩ hep.started.reset
        v1 v2 hip (by
          have hctx : s.sim.ctx = ⟨g, ⟨true, some sheet⟩, s.sim.ctx.obs⟩ := by
            rw [← hsg, ← hep.started.sheet]
          rw [hctx]
          simp only [applyControls, BeamControl.mk', hback]
          simp only [hc', BeamControl.mk'] at h1
          rw [h1]
          simp) rfl
      have hgrid : s.sim.ctx.mat.grid = some sheet := by rw [hep.started.sheet]
      obtain ⟨_, _, hwf', hp', hw', hh', h4, hnd, himg⟩ := step_shows hpf hplay.inv hgrid hpos k1
      obtain ⟨f, hfe⟩ := hpf.features o s.goal hwf' hnd h4 hp' hw'.ne' hh'.ne' himg
      obtain ⟨k, hk, hk1, hk2⟩ := calculate_ok o s.goal hwf' (by simp [ShowsSilicon, k8])
      have hplace : place o x' = p := by rw [← k10, ← k6]; exact (fov_lerp _ _).symm
      have hstep : Env.step (withFuel cfg fuel) (aimedAction cfg.adapter s.last x p) s =
          (if s.goal.required ≤ k then
            .ok (TimeStep.termination (gammaPow o.elapsedTime) f)
              { s with sim := sim, last := o, goal := { s.goal with consecutive := k }, requiresReset := true }
          else .ok (TimeStep.transition 0 f (gammaPow o.elapsedTime))
              { s with sim := sim, last := o, goal := { s.goal with consecutive := k } }) := by
        have hact' : (withFuel cfg fuel).adapter.getAction s.last (aimedAction cfg.adapter s.last x p) s.beam =
            .ok [BeamControl.mk' ((centredFov c sc).toMicroscope q) dwell] s.beam := hact
        have k1' : Sim.step (withFuel cfg fuel).sim [BeamControl.mk' ((centredFov c sc).toMicroscope q) dwell]
            (withFuel cfg fuel).requiresImage s.sim = .ok o sim := k1
        unfold Env.step
        simp only [hep.running, Bool.false_eq_true, if_false, hact', k1', hfe, hk]
        by_cases hle : s.goal.required ≤ k
        · simp [hle]
        · simp [hle]
      have hat : AtGoal s.goal.goal o ↔ s.goal.required ≤ k := by
        rw [hreq]
        constructor
        · intro h
          rw [hk1 h]; omega
        · intro h
          by_contra hno
          rw [hk2 hno] at h
          omega
      by_cases hle : s.goal.required ≤ k
      · rw [if_pos hle] at hstep
        exact .last hx hdecl hstep rfl rfl rfl (hat.2 hle)
      · rw [if_neg hle] at hstep
        have hnext : Playing n (endState (Env.step (withFuel cfg fuel) (aimedAction cfg.adapter s.last x p) s)) :=
          (step_plays hpf hplay _).1
        rw [hstep] at hnext
        simp only [endState] at hnext
        cases path with
        | nil =>
          exfalso
          obtain ⟨rfl, _⟩ := ht
          refine hle (hat.1 ⟨x', ?_, ?_⟩)
          · exact ⟨[], [], by simp [k8], by simp, by simp⟩
          · rw [hplace]; exact hgoal
        | cons q path =>
          exact .more hx hdecl hstep rfl rfl rfl (hS _ hg' _ hnext ⟨hep.running, ⟨k4, k3, c2, sc, k5, k7, h15, h30⟩,
            by rw [k7, k6], hwf', x', k8, k9, by rw [y3, hplace]⟩ k2 k5 k7 k12 hreq hgoal (by simp))

/-- C159.  After any history, an episode has just been started: if there is room, there is a path of at most four moves for
each Å between the silicon and the goal, and with at least the probability of a single move to the power of its length a player
who aims at one atom of it after the other wins the episode with declared actions. -/
theorem C159_wins (cfg : EnvCfg ℝ G O P Img F) (n : ℕ) (hp : PlayCfg cfg n) (hn : 12 ≤ n) (hf : Fair cfg.sim.rng μ) (knn : Knn ℝ)
    (hr : cfg.sim.rate = pristineRates knn simpleCanonicalRates) (dwell : Timedelta)
    (h0 : 0 < dwell) (ha : Reaching cfg.adapter dwell)
    (hi : cfg.requiresImage = true → FairImages cfg.sim.render μ)
    (g0 : G) (ga : Option G) (beam : V2 ℝ) (goal : GoalState ℝ) (hgoal : GoalRangeOk goal) (history : List (EnvOp ℝ O))
    (t : TimeStep F) (s : Env ℝ G O P Img)
    (h : Env.reset cfg (Env.after cfg (Env.fresh g0 ga beam goal) history) = .ok t s) (hreq : s.goal.required = 1) :
    ∃ sheet si, s.sim.ctx.mat.grid = some sheet ∧ silicons sheet = [si] ∧ si ≠ s.goal.goal ∧ Spec.dist si s.goal.goal ≤ 22 ∧
      (31 / 20 + 2 * Spec.dist si s.goal.goal ≤ 71 / 100 * n - 64 / 10 →
        ∃ path : List (V2 ℝ), (path.length : ℝ) ≤ 4 * Spec.dist si s.goal.goal ∧
          ENNReal.ofReal (arriveProb dwell ^ path.length) ≤ μ {g | WonDeclared cfg (reseeded s g) path}) := by
  have hplay := after_plays hp history (fresh_plays (O := O) (P := P) (Img := Img) n g0 ga beam hgoal)
  obtain ⟨hplay', sheet, si, offset, angle, hep, hdop, hsi, hx, hy, hlay, hor, hgm, hgne, hgd, _⟩ :=
    reset_episode cfg n hp hn _ s hplay t h
  refine ⟨sheet, si, by rw [hep.started.sheet], hsi, hgne.symm, hgd, fun hroom => ?_⟩
  have hsim : si ∈ sheet.positions := by
    have : si ∈ silicons sheet := by rw [hsi]; exact List.mem_singleton_self si
    exact (List.of_mem_zip (mem_silicons.1 this)).1
  have hD : Displaced (1 / 1000) (layOutSheet n offset angle) sheet.positions := by
    rw [hlay]
    exact List.forall₂_same.2 (fun p _ => by rw [dist_self']; norm_num)
  obtain ⟨hbound, hway⟩ := C151_way n offset angle hx hy sheet.positions hD si s.goal.goal hsim hgm (by linarith)
  have htri := dist_triangle0 si s.goal.goal
  obtain ⟨m, hm⟩ := (hway (by linarith)).2
  have hdn := dist_nonneg' si s.goal.goal
  obtain ⟨nbrs, hbond⟩ := C146_bonds n offset angle hx hy _ hD s.goal.goal hgm (by linarith)
  obtain ⟨path, hlen, htrail⟩ := way_trail hm hbond
  have hne : path ≠ [] := by
    rintro rfl
    exact hgne htrail.1.symm
  obtain ⟨c, sc, v1, v2, h15, h30⟩ := hep.started.view
  obtain ⟨ip, hip⟩ : ∃ ip, s.sim.imageParams = some ip := by
    obtain ⟨o, sim, g, h1, _, h3⟩ := envReset_parts h
    obtain ⟨_, _, _, hf⟩ := reset_ok h1
    obtain ⟨ip, hip⟩ := hf.params
    exact ⟨ip, by rw [h3]; exact hip⟩
  obtain ⟨S, _, e, hS⟩ := declared_law cfg n hp hf knn hr dwell h0 ha hi offset angle sc h15 h30 ip c path sheet hlay hdop si _ hsi htrail
  refine ⟨path, by rw [hlen]; exact (hbound m _ hm).1, e.trans (measure_mono ?_)⟩
  · intro g hg
    refine hS g hg (reseeded s g) ⟨SimInv.reseed hplay'.inv g, hplay'.range, hplay'.live⟩ ⟨hep.running, ⟨hep.started.reset,
      hep.started.sheet, hep.started.view⟩, hep.view, hep.wf, hep.shown⟩ rfl v1 v2 hip hreq ?_ hne
    simp [reseeded, V2.distSq, V2.normSq]

/-- After a second the silicon is at the neighbour with at least the probability one half. -/
theorem arriveProb_second : 1 / 2 ≤ arriveProb 1000000 := by
  unfold arriveProb
  push_cast
  have h1 : Real.exp (-(99 / 100 * (1000000 / 1000000))) ≤ 372 / 1000 := by
    have h3 : (1000 / 372 : ℝ) ≤ Real.exp (99 / 100 * (1000000 / 1000000)) := by
      refine le_trans ?_ (Real.sum_le_exp_of_nonneg (by norm_num) 8)
      norm_num [Finset.sum_range_succ, Nat.factorial]
    rw [Real.exp_neg, inv_eq_one_div]
    refine le_trans (one_div_le_one_div_of_le (by norm_num) h3) (by norm_num)
  have h2 : 834 / 1000 ≤ Real.exp (-(9 / 50 * ((1000000 + 1) / 1000000))) := by
    have h := Real.add_one_le_exp (-(9 / 50 * ((1000000 + 1) / 1000000 : ℝ)) / 16)
    have e : Real.exp (-(9 / 50 * ((1000000 + 1) / 1000000 : ℝ))) =
        Real.exp (-(9 / 50 * ((1000000 + 1) / 1000000 : ℝ)) / 16) ^ 16 := by
      rw [← Real.exp_nat_mul]; congr 1; ring
    rw [e]
    refine le_trans ?_ (pow_le_pow_left₀ (by norm_num) h 16)
    norm_num
  have h4 : (24 / 25 * (1 - 372 / 1000) : ℝ) * (834 / 1000) ≤ 24 / 25 * (1 - Real.exp (-(99 / 100 * (1000000 / 1000000)))) *
      Real.exp (-(9 / 50 * ((1000000 + 1) / 1000000))) := by
    refine mul_le_mul (by linarith) h2 (by norm_num) ?_
    linarith
  refine le_trans ?_ h4
  norm_num

/-- C159.  The training experiments with the simple rates that come with the package, with or without images, on a sheet with
room for every goal: every episode can be won with declared actions, with at least the probability one half to the power of the
number of moves. -/
theorem C159_training (cfg : EnvCfg ℝ G O P Img F) (n : ℕ) (hp : PlayCfg cfg n) (hn : 74 ≤ n) (hf : Fair cfg.sim.rng μ) (knn : Knn ℝ)
    (name : String) (exp : TrainExperiment ℝ) (hexp : (name, exp) ∈ trainExperiments (K := ℝ)) (hsimple : exp.rates = .simple)
    (hr : cfg.sim.rate = pristineRates knn simpleCanonicalRates) (ha : cfg.adapter = exp.parts.adapter)
    (hi : cfg.requiresImage = true → FairImages cfg.sim.render μ)
    (g0 : G) (ga : Option G) (beam : V2 ℝ) (goal : GoalState ℝ) (hgoal : GoalRangeOk goal) (history : List (EnvOp ℝ O))
    (t : TimeStep F) (s : Env ℝ G O P Img)
    (h : Env.reset cfg (Env.after cfg (Env.fresh g0 ga beam goal) history) = .ok t s) (hreq : s.goal.required = 1) :
    ∃ path : List (V2 ℝ), path.length ≤ 88 ∧
      ENNReal.ofReal ((1 / 2) ^ path.length) ≤ μ {g | WonDeclared cfg (reseeded s g) path} := by
  have hreach : ∃ dwell, 0 < dwell ∧ Reaching cfg.adapter dwell ∧ 1 / 2 ≤ arriveProb dwell := by
    have hb : (142 / 100 : ℝ) ≤ BOND := by norm_num [BOND]
    simp only [trainExperiments, List.mem_cons, Prod.mk.injEq, List.not_mem_nil, or_false] at hexp
    rw [ha]
    rcases hexp with ⟨_, rfl⟩ | ⟨_, rfl⟩ | ⟨_, rfl⟩ | ⟨_, rfl⟩ | ⟨_, rfl⟩
    · exact ⟨1500000, by decide, .inl ⟨_, BOND, hb, rfl⟩, arriveProb_half⟩
    · exact absurd hsimple (by simp)
    · exact ⟨1500000, by decide, .inl ⟨_, BOND, hb, rfl⟩, arriveProb_half⟩
    · exact ⟨1000000, by decide, .inl ⟨_, BOND, hb, rfl⟩, arriveProb_second⟩
    · exact ⟨1500000, by decide, .inr ⟨rfl, rfl⟩, arriveProb_half⟩
  obtain ⟨dwell, h0, hreach, hhalf⟩ := hreach
  obtain ⟨sheet, si, _, _, _, hd, hwin⟩ := C159_wins cfg n hp (by omega) hf knn hr dwell h0 hreach hi g0 ga beam
    goal hgoal history t s h hreq
  have hn' : (74 : ℝ) ≤ n := by exact_mod_cast hn
  obtain ⟨path, h1, h2⟩ := hwin (by linarith)
  refine ⟨path, ?_, le_trans (ENNReal.ofReal_le_ofReal (pow_le_pow_left₀ (by norm_num) hhalf _)) h2⟩
  have : (path.length : ℝ) ≤ 88 := by linarith
  exact_mod_cast this

end

/-- The environment of the example: that of the training experiment, on a sheet of 80 columns. -/
noncomputable def trainWin : EnvCfg ℝ (ℕ → ℝ) Unit Unit Unit (List ℝ) where
  sim := {
    fuel := 10
    rng := Witness.streamRng
    generate := generatePristineGraphene Witness.streamRng 80
    rate := pristineRates Witness.knn simpleCanonicalRates
    render := fun _ _ _ g => ((), g)
    sampleParams := fun g => ((), g)
    imageDuration := 2000000
    handle := fun _ o => o }
  adapter := (goalReaching (K := ℝ)).adapter
  features := pristineFeatures Witness.knn
  requiresImage := false
  seedRng := fun _ _ => 0

theorem trainWin_ok : PlayCfg trainWin 80 :=
  ⟨Witness.streamRng_lawful, by norm_num, rfl, (C69_features_defined Witness.knn id).1 _,
    C39_pristine_swaps _ _, (C99_rates_defined Witness.knn).1,
    show (1500000 : ℤ) ≤ 1500000 by decide, show (1500000 : ℤ) < 3600000000 by decide⟩

/-- The first episode of a new environment: there is a path, of one move at least, by which it can be won. -/
example : ∃ t s path, Env.reset trainWin (Env.fresh (fun _ => 0) none 0 GoalState.fresh) = .ok t s ∧ path ≠ [] ∧
    ENNReal.ofReal ((1 / 2) ^ path.length) ≤ Witness.streamLaw {g | WonDeclared trainWin (reseeded s g) path} := by
  have hrange : GoalRangeOk GoalState.fresh := by norm_num [GoalRangeOk, GoalState.fresh]
  obtain ⟨⟨t, s, h⟩, _⟩ := C99_never_fails trainWin 80 trainWin_ok (fun _ => 0) none 0 GoalState.fresh hrange []
  obtain ⟨_, _, _, _, _, _, _, _, _, _, _, _, _, _, hreq⟩ := reset_episode trainWin 80 trainWin_ok (by norm_num) _ s
    (fresh_plays 80 _ _ _ hrange) t h
  obtain ⟨path, _, h2⟩ := C159_training trainWin 80 trainWin_ok (by norm_num) Witness.streamRng_fair Witness.knn
    "relative_simple_rates" ⟨goalReaching, .simple⟩ (by simp [trainExperiments]) rfl rfl rfl (fun h => by cases h) _ _ _ _ hrange [] t s h hreq.2
  refine ⟨t, s, path, h, ?_, h2⟩
  rintro rfl
  have he : {g | WonDeclared trainWin (reseeded s g) []} = ∅ := by
    ext g
    simp only [Set.mem_empty_iff_false, iff_false]
    intro hw
    cases hw
  rw [he] at h2
  simp at h2

/-- The environment of the second example: pictures of noise and a choice of dwell times, on a sheet of 80 columns. -/
noncomputable def pictureWin : EnvCfg ℝ (ℕ → ℝ) Unit Unit ℕ (ℕ × V2 ℝ) where
  sim := { trainWin.sim with render := noisyCfg.sim.render, handle := fun _ o => o }
  adapter := (goalReachingPixels (K := ℝ) 1000000 10000000).adapter
  features := imageFeatures id
  requiresImage := true
  seedRng := fun _ _ => 0

theorem pictureWin_ok : PlayCfg pictureWin 80 :=
  ⟨Witness.streamRng_lawful, by norm_num, rfl, (C69_features_defined Witness.knn id).2.2,
    C39_pristine_swaps _ _, (C99_rates_defined Witness.knn).1,
    show (1000000 : ℤ) ≤ 10000000 by decide, show (10000000 : ℤ) < 3600000000 by decide⟩

/-- Its episodes can be won, too. -/
example : ∃ t s path, Env.reset pictureWin (Env.fresh (fun _ => 0) none 0 GoalState.fresh) = .ok t s ∧
    ENNReal.ofReal ((1 / 2) ^ path.length) ≤ Witness.streamLaw {g | WonDeclared pictureWin (reseeded s g) path} := by
  have hrange : GoalRangeOk GoalState.fresh := by norm_num [GoalRangeOk, GoalState.fresh]
  obtain ⟨⟨t, s, h⟩, _⟩ := C99_never_fails pictureWin 80 pictureWin_ok (fun _ => 0) none 0 GoalState.fresh hrange []
  obtain ⟨_, _, _, _, _, _, _, _, _, _, _, _, _, _, hreq⟩ := reset_episode pictureWin 80 pictureWin_ok (by norm_num) _ s
    (fresh_plays 80 _ _ _ hrange) t h
  obtain ⟨path, _, h2⟩ := C159_training pictureWin 80 pictureWin_ok (by norm_num) Witness.streamRng_fair Witness.knn
    "relative_simple_rates_from_images_variable_time" ⟨goalReachingPixels 1000000 10000000, .simple⟩ (by simp [trainExperiments])
    rfl rfl rfl (fun _ => noisyCfg_images) _ _ _ _ hrange [] t s h hreq.2
  exact ⟨t, s, path, h, h2⟩

/-- The beam of a direct action can be put on every neighbour, too. -/
example : Reaching .direct 1500000 := .inr ⟨rfl, rfl⟩

end PD.Props
