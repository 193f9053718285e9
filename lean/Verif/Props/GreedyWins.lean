/- C158: the greedy agent wins. -/
import Verif.Props.Winning
import Verif.Props.GreedyAgent
import Verif.Props.Progress
import Verif.Model.Experiments
import Verif.Spec.GreedyWins

set_option linter.unusedSectionVars false
set_option linter.unusedSimpArgs false

namespace PD.Props
open PD PD.Spec MeasureTheory ProbabilityTheory

/-- The three atoms nearest to one with three bonds are those it is bonded to. -/
theorem among_bonded {ps : List (V2 ℝ)} {si pa : V2 ℝ} {nbrs : List (V2 ℝ)} {i a : ℕ} (hbond : BondedTo ps si nbrs)
    (hi : ps[i]? = some si) (hn : AmongThreeNearest ps i a) (ha : ps[a]? = some pa) : pa ∈ nbrs := by
  obtain ⟨hia, pi, pj, e1, e2, hlen⟩ := hn
  rw [hi, Option.some.injEq] at e1
  rw [ha, Option.some.injEq] at e2
  subst e1 e2
  by_contra hno
  obtain ⟨_, hsn⟩ := bonded_four hbond
  have hinj : ∀ (j k : ℕ) (q : V2 ℝ), ps[j]? = some q → ps[k]? = some q → j = k := by
    intro j k q h1 h2
    obtain ⟨l1, e1⟩ := List.getElem?_eq_some_iff.1 h1
    obtain ⟨l2, e2⟩ := List.getElem?_eq_some_iff.1 h2
    exact (List.Nodup.getElem_inj_iff hbond.distinct).1 (e1.trans e2.symm)
  have hne : pa ≠ si := by
    rintro rfl
    exact hia (hinj _ _ _ hi ha)
  have hfar := hbond.far pa (List.mem_of_getElem? ha) hne hno
  have hget : ∀ q ∈ nbrs, ps[ps.idxOf q]? = some q := by
    intro q hq
    have hm := (hbond.bonds q hq).1
    rw [List.getElem?_eq_some_iff]
    exact ⟨List.idxOf_lt_length_of_mem hm, List.getElem_idxOf _⟩
  have hnd : (nbrs.map (fun q => ps.idxOf q)).Nodup := by
    refine hbond.nodup.map_on (fun q hq q' hq' e => ?_)
    have h1 := hget q hq
    have h2 := hget q' hq'
    rw [e, h2, Option.some.injEq] at h1
    exact h1.symm
  have := (hnd.subperm (l₂ := (List.range ps.length).filter (fun k => k ≠ i ∧
      ∃ pk, ps[k]? = some pk ∧ V2.distSq si pk < V2.distSq si pa)) (by
    intro k hk
    obtain ⟨q, hq, rfl⟩ := List.mem_map.1 hk
    have hb := (hbond.bonds q hq).2
    rw [abs_le] at hb
    rw [List.mem_filter, decide_eq_true_eq, List.mem_range]
    refine ⟨List.idxOf_lt_length_of_mem (hbond.bonds q hq).1, ?_, q, hget q hq, ?_⟩
    · intro e
      have h1 := hget q hq
      rw [e, hi, Option.some.injEq] at h1
      exact hsn (h1 ▸ hq)
    · rw [distSq_of_dist, distSq_of_dist]
      have := dist_nonneg' si q
      nlinarith)).length_le
  rw [List.length_map, hbond.three] at this
  omega

/-- What is bonded to a silicon in the safe area is in view. -/
theorem bonded_view {ll ur : V2 ℝ} {ps : List (V2 ℝ)} {x : V2 ℝ} {nbrs : List (V2 ℝ)} (hsafe : InSafeArea x)
    (hx : 15 ≤ ur.x - ll.x) (hy : 15 ≤ ur.y - ll.y) (hbond : BondedTo ps (lerp ll ur x) nbrs) :
    BondedTo (ps.filter (fun p => decide (Inside ll ur p))) (lerp ll ur x) nbrs := by
  have hroom := safe_room hsafe hx hy
  refine ⟨hbond.distinct.filter _, ?_, hbond.three, hbond.nodup, ?_, ?_⟩
  · rw [List.mem_filter, decide_eq_true_eq]
    exact ⟨hbond.mem, hroom _ (by rw [distSq_of_dist, dist_self']; norm_num)⟩
  · intro p hp
    obtain ⟨h1, h2⟩ := hbond.bonds p hp
    refine ⟨?_, h2⟩
    rw [List.mem_filter, decide_eq_true_eq]
    refine ⟨h1, hroom _ ?_⟩
    rw [abs_le] at h2
    rw [distSq_of_dist]
    have := dist_nonneg' (lerp ll ur x) p
    nlinarith
  · intro p hp
    exact hbond.far p (List.mem_filter.1 hp).1

/-- The greedy agent without noise: its action does not depend on the generator. -/
theorem greedy_aims {A : Type} (normal : ℝ → A → V2 ℝ × A) (hnormal : ∀ g, (normal 0 g).1 = 0)
    (agent : Greedy) (hs : agent.sigma = 0) {r : ℝ} (hr : agent.argmax + agent.fixedOffset = ⟨r, 0⟩)
    (s n1 n2 n3 goal : V2 ℝ) (h0 : ∀ n ∈ [n1, n2, n3], n ≠ 0) :
    ∃ n ∈ [n1, n2, n3], (∀ m ∈ [n1, n2, n3], Spec.dist n goal ≤ Spec.dist m goal) ∧
      ∀ a, ∃ a', Greedy.step normal agent [s.x, s.y, n1.x, n1.y, n2.x, n2.y, n3.x, n3.y, goal.x, goal.y] a =
        .ok (towards 0 n r) a' := by
  obtain ⟨i, n, hi, hn, hang, hmin⟩ := greedy_list [n1, n2, n3] (by simp) goal
  refine ⟨n, hn, hmin, fun g => ⟨(normal agent.sigma g).2, ?_⟩⟩
  have e1 : reshape2 (([s.x, s.y, n1.x, n1.y, n2.x, n2.y, n3.x, n3.y, goal.x, goal.y].drop 2).take 6)
      = [n1, n2, n3] := rfl
  have e2 : reshape2 ([s.x, s.y, n1.x, n1.y, n2.x, n2.y, n3.x, n3.y, goal.x, goal.y].drop 8)
      = [goal] := rfl
  have e3 : ¬ [s.x, s.y, n1.x, n1.y, n2.x, n2.y, n3.x, n3.y, goal.x, goal.y].length ≠ 10 := by simp
  have e4 : agent.argmax + agent.fixedOffset + (normal agent.sigma g).1 = ⟨r, 0⟩ := by
    rw [hs, hnormal, hr]; ext <;> simp
  simp only [Greedy.step, e1, e2, e3, if_false, hi, hang, e4]
  congr 1
  have hx := len_cos_angle n
  have hy := len_sin_angle n
  have hl : len n ≠ 0 := by
    intro h
    apply h0 n hn
    have : Spec.dist n 0 = 0 := by
      rw [dist_eq_len, ← h]; congr 1; ext <;> simp
    exact dist_eq_zero.1 this
  have hd : Spec.dist 0 n = len n := by
    simp [Spec.dist, len]
  have hc : Real.cos (getAngle n) = n.x / len n := by rw [eq_div_iff hl, mul_comm]; exact hx
  have hs : Real.sin (getAngle n) = n.y / len n := by rw [eq_div_iff hl, mul_comm]; exact hy
  ext <;> simp [rotate, towards, hd, hc, hs] <;> ring

/-- A bond's length along a bond. -/
theorem towards_near {si p : V2 ℝ} {r : ℝ} (hd : |Spec.dist si p - 142 / 100| ≤ 2 / 1000) (hr : |r - 142 / 100| ≤ 7 / 1000) :
    Spec.dist (si + towards 0 (p - si) r) p ≤ 1 / 100 := by
  rw [abs_le] at hd hr
  set d := Spec.dist si p with hd'
  have hpos : 0 < d := by linarith [hd.1]
  have e : Spec.dist 0 (p - si) = d := by
    rw [hd']; simp only [Spec.dist, V2.sub_x, V2.sub_y, V2.zero_x, V2.zero_y]; congr 1; ring
  have hsq : d ^ 2 = (p.x - si.x) ^ 2 + (p.y - si.y) ^ 2 := by
    rw [hd', ← distSq_of_dist]; simp [V2.distSq, V2.normSq]; ring
  have h1 : V2.distSq (si + towards 0 (p - si) r) p = (r - d) ^ 2 := by
    have : (r - d) ^ 2 = (r / d - 1) ^ 2 * d ^ 2 := by field_simp
    rw [this, hsq]
    simp only [V2.distSq, V2.normSq, towards, e, V2.sub_x, V2.sub_y, V2.add_x, V2.add_y, V2.smul, V2.zero_x, V2.zero_y]
    ring
  rw [distSq_of_dist] at h1
  have := dist_nonneg' (si + towards 0 (p - si) r) p
  nlinarith

theorem features_goal {Img : Type} (knn : Knn ℝ) (o : Observation ℝ Img) {goal goal' : GoalState ℝ} (h : goal.goal = goal'.goal) :
    materialFeatures knn o (.singleSilicon goal) = materialFeatures knn o (.singleSilicon goal') := by
  simp only [materialFeatures, siliconGoalDelta, h]

section
variable {G O P Img A : Type}

/-- What a step shows depends only on the view before and on the sheet. -/
theorem step_fixed (cfg : SimCfg ℝ G O P Img) (c : V2 ℝ) {sc : ℝ} (hpos : 0 < sc)
    (cs : List (BeamControl ℝ)) (el : Timedelta) {next : Grid ℝ} {p : V2 ℝ} (hdop : SingleDoped next) (hsi : silicons next = [p]) :
    ∃ (o : Observation ℝ Img) (x c' : V2 ℝ), o.fov = centredFov c' sc ∧ o.grid.WF ∧ silicons o.grid = [x] ∧ InSafeArea x ∧
      o.fov.toMaterial x = p ∧ o.grid.positions.map (place o) =
        next.positions.filter (fun p => decide (Inside o.fov.lowerLeft o.fov.upperRight p)) ∧
      ∀ (fuel : ℕ) (s : Sim ℝ G O P) (ctx : MatCtx ℝ G O), s.hasBeenReset = true → s.fovScale = some sc →
        s.fov = some (centredFov c sc) → applyControls { cfg with fuel := fuel } (centredFov c sc) cs 0 s.ctx = .ok el ctx →
        ctx.mat = ⟨true, some next⟩ →
        ∃ s', Sim.step { cfg with fuel := fuel } cs false s = .ok o s' ∧ s'.ctx.g = ctx.g ∧ s'.ctx.mat = ctx.mat ∧
          s'.hasBeenReset = true ∧ s'.fovScale = some sc ∧ s'.fov = some o.fov := by
  have hsi' : getSiliconPositions next = [p] := by rw [getSiliconPositions_eq_silicons hdop.wf, hsi]
  set mat : Material ℝ := ⟨true, some next⟩ with hmat
  have hr : mat.hasBeenReset = true := rfl
  have hg : mat.grid = some next := rfl
  have hread : mat.read = .ok next := by simp [Material.read, hr, hg]
  have hsil : mat.getSiliconPosition = .ok p := by simp only [Material.getSiliconPosition, hread, hsi']
  have hsq := centredFov_square c sc
  have hsq' := centredFov_square p sc
  obtain ⟨grid, hgrid⟩ := getAtomsInBounds_ok hr hg (centredFov c sc)
  obtain ⟨grid', hgrid'⟩ := getAtomsInBounds_ok hr hg (centredFov p sc)
  obtain ⟨hwf, hv⟩ := observed_silicons hdop hread hsi' (f := centredFov c sc) (by rw [hsq.1]; exact hpos)
    (by rw [hsq.2]; exact hpos) hgrid
  obtain ⟨hwf', hv'⟩ := observed_silicons hdop hread hsi' (f := centredFov p sc) (by rw [hsq'.1]; exact hpos)
    (by rw [hsq'.2]; exact hpos) hgrid'
  rw [if_pos (centredFov_inside p hpos.le), centredFov_toMicroscope p hpos] at hv'
  have hno : ∀ e, siliconOutsideOfSafeArea grid ≠ .error e := by
    intro e he
    unfold siliconOutsideOfSafeArea at he
    rw [hv] at he
    split_ifs at he <;> cases he
  cases hout : siliconOutsideOfSafeArea grid with
  | error e => exact absurd hout (hno e)
  | ok b =>
    cases b with
    | false =>
      obtain ⟨x, hx, hsafe⟩ := outside_false hout
      refine ⟨⟨grid, centredFov c sc, cs, el + cfg.imageDuration, none, none⟩, x, c, rfl, hwf, ?_, hsafe, ?_, ?_, ?_⟩
      · rw [← getSiliconPositions_eq_silicons hwf, hx]
      · rw [hv] at hx
        split_ifs at hx
        rw [List.singleton_inj] at hx
        rw [← hx]
        exact toMaterial_toMicroscope (by rw [hsq.1]; exact hpos.ne') (by rw [hsq.2]; exact hpos.ne') p
      · exact (view_positions hr hg hdop.wf (o := ⟨grid, centredFov c sc, cs, el + cfg.imageDuration, none, none⟩)
          (by rw [hsq.1]; exact hpos) (by rw [hsq.2]; exact hpos) hgrid).2
      · intro fuel s ctx hreset hscale hfov hc hm
        refine ⟨{ s with ctx := { ctx with
          obs := notify cfg.handle (.takeImage cfg.imageDuration (centredFov c sc)) ctx.obs } }, ?_, rfl, rfl, hreset, hscale, hfov⟩
        rw [step_eq hreset hfov, hc]
        simp only [Sim.observe, hm, hgrid, Sim.recentre, hout, Sim.maybeImage]
        rfl
    | true =>
      refine ⟨⟨grid', centredFov p sc, cs, el + cfg.imageDuration + cfg.imageDuration, none, none⟩, ⟨1 / 2, 1 / 2⟩, p, rfl, hwf', ?_,
        centre_safe, ?_, ?_, ?_⟩
      · rw [← getSiliconPositions_eq_silicons hwf', hv']
      · rw [← centredFov_toMicroscope p hpos]
        exact toMaterial_toMicroscope (by rw [hsq'.1]; exact hpos.ne') (by rw [hsq'.2]; exact hpos.ne') p
      · exact (view_positions hr hg hdop.wf
          (o := ⟨grid', centredFov p sc, cs, el + cfg.imageDuration + cfg.imageDuration, none, none⟩)
          (by rw [hsq'.1]; exact hpos) (by rw [hsq'.2]; exact hpos) hgrid').2
      · intro fuel s ctx hreset hscale hfov hc hm
        refine ⟨{ s with fov := some (centredFov p sc), ctx := { ctx with
          obs := notify cfg.handle (.takeImage cfg.imageDuration (centredFov p sc)) (notify cfg.handle (.fovChange (centredFov p sc))
            (notify cfg.handle (.takeImage cfg.imageDuration (centredFov c sc)) ctx.obs)) } }, ?_, rfl, rfl, hreset, hscale, rfl⟩
        rw [step_eq hreset hfov, hc]
        simp only [Sim.observe, hm, hgrid, Sim.recentre, hout, Sim.maybeImage, hsil, hscale, hgrid']
        rfl

theorem arriveProb_le_one {d : Timedelta} (h : 0 < d) : arriveProb d ≤ 1 := by
  have hT : (0 : ℝ) < d := by exact_mod_cast h
  have h1 := Real.exp_pos (-(99 / 100 * ((d : ℝ) / 1000000)))
  have h2 : Real.exp (-(9 / 50 * (((d : ℝ) + 1) / 1000000))) ≤ 1 :=
    Real.exp_le_one_iff.2 (by have : 0 ≤ 9 / 50 * (((d : ℝ) + 1) / 1000000) := by positivity
                              linarith)
  have h3 := Real.exp_pos (-(9 / 50 * (((d : ℝ) + 1) / 1000000)))
  unfold arriveProb
  nlinarith

/-- The place the agent aims at, given the features of a view with the silicon in the safe area. -/
theorem greedy_choice (knn : Knn ℝ) (normal : ℝ → A → V2 ℝ × A) (hnormal : ∀ g, (normal 0 g).1 = 0)
    (agent : Greedy) (hs : agent.sigma = 0) {r : ℝ} (hr : agent.argmax + agent.fixedOffset = ⟨r, 0⟩)
    {ps nbrs : List (V2 ℝ)} {si x c b : V2 ℝ} {sc : ℝ} (h15 : 15 ≤ sc) (hbond : BondedTo ps si nbrs)
    {o : Observation ℝ Img} (hfov : o.fov = centredFov c sc) (hwf : o.grid.WF) (hx : silicons o.grid = [x])
    (hsafe : InSafeArea x) (hplace : place o x = si)
    (hview : o.grid.positions.map (place o) = ps.filter (fun p => decide (Inside o.fov.lowerLeft o.fov.upperRight p))) :
    ∃ p ∈ nbrs, (∀ p' ∈ nbrs, Spec.dist p b ≤ Spec.dist p' b) ∧ ∀ goal : GoalState ℝ, goal.goal = b →
      ∀ obs, materialFeatures knn o (.singleSilicon goal) = .ok obs →
        ∀ a, ∃ a', Greedy.step normal agent obs a = .ok (towards 0 (p - si) r) a' := by
  have hpos : 0 < sc := by linarith
  have hsq := centredFov_square c sc
  rw [← hfov] at hsq
  have hlerp : lerp o.fov.lowerLeft o.fov.upperRight x = si := hplace
  have hb2 : BondedTo (o.grid.positions.map (place o)) si nbrs := by
    rw [hview, ← hlerp]
    refine bonded_view hsafe ?_ ?_ (by rw [hlerp]; exact hbond)
    · have := hsq.1; simp only [Fov.width] at this; rw [this]; exact h15
    · have := hsq.2; simp only [Fov.height] at this; rw [this]; exact h15
  obtain ⟨h4, hsn⟩ := bonded_four hb2
  rw [List.length_map] at h4
  have hnd : o.grid.positions.Nodup := List.Nodup.of_map _ hb2.distinct
  have hfe := fun goal => C27_material_features knn o hwf (by rw [hsq.1]; exact hpos.ne') (by rw [hsq.2]; exact hpos.ne') x hx h4 hnd goal
  obtain ⟨i, j1, j2, j3, pa, pb, pc, hi, _, hnj, t1, t2, t3, e1, e2, e3, hok⟩ := hfe ⟨0, 0, 0, b, 0⟩
  have hi' : (o.grid.positions.map (place o))[i]? = some si := by rw [List.getElem?_map, hi, ← hplace]; rfl
  have m1 := among_bonded hb2 hi' t1 e1
  have m2 := among_bonded hb2 hi' t2 e2
  have m3 := among_bonded hb2 hi' t3 e3
  have hinj : ∀ (j k : ℕ) (q : V2 ℝ), (o.grid.positions.map (place o))[j]? = some q →
      (o.grid.positions.map (place o))[k]? = some q → j = k := by
    intro j k q h1 h2
    obtain ⟨l1, e1⟩ := List.getElem?_eq_some_iff.1 h1
    obtain ⟨l2, e2⟩ := List.getElem?_eq_some_iff.1 h2
    exact (List.Nodup.getElem_inj_iff hb2.distinct).1 (e1.trans e2.symm)
  have hpnd : [pa, pb, pc].Nodup := by
    simp only [List.nodup_cons, List.mem_cons, List.not_mem_nil, or_false, not_or, not_false_eq_true, List.nodup_nil, and_true] at hnj ⊢
    refine ⟨⟨?_, ?_⟩, ?_⟩
    · rintro rfl; exact hnj.1.1 (hinj _ _ _ e1 e2)
    · rintro rfl; exact hnj.1.2 (hinj _ _ _ e1 e3)
    · rintro rfl; exact hnj.2 (hinj _ _ _ e2 e3)
  have hperm : [pa, pb, pc].Perm nbrs := (hpnd.subperm (by
    intro q hq
    simp only [List.mem_cons, List.not_mem_nil, or_false] at hq
    rcases hq with rfl | rfl | rfl <;> assumption)).perm_of_length_le (by rw [hbond.three]; simp)
  have hne0 : ∀ q ∈ nbrs, q - si ≠ 0 := by
    intro q hq e
    have : q = si := by
      have ex := congrArg V2.x e
      have ey := congrArg V2.y e
      simp only [V2.sub_x, V2.sub_y, V2.zero_x, V2.zero_y] at ex ey
      ext <;> linarith
    exact hsn (this ▸ hq)
  have hsub : ∀ q, Spec.dist (q - si) (b - si) = Spec.dist q b := by
    intro q
    simp only [Spec.dist, V2.sub_x, V2.sub_y]
    congr 1
    ring
  obtain ⟨n, hn, hmin, hact⟩ := greedy_aims normal hnormal agent hs hr si (pa - si) (pb - si) (pc - si) (b - si) (by
    intro m hm
    simp only [List.mem_cons, List.not_mem_nil, or_false] at hm
    rcases hm with rfl | rfl | rfl
    · exact hne0 _ m1
    · exact hne0 _ m2
    · exact hne0 _ m3)
  have hn' : ∃ p ∈ [pa, pb, pc], n = p - si := by
    simp only [List.mem_cons, List.not_mem_nil, or_false] at hn
    rcases hn with rfl | rfl | rfl
    · exact ⟨pa, by simp, rfl⟩
    · exact ⟨pb, by simp, rfl⟩
    · exact ⟨pc, by simp, rfl⟩
  obtain ⟨p, hp, rfl⟩ := hn'
  refine ⟨p, hperm.subset hp, fun p' hp' => ?_, ?_⟩
  · have := hmin (p' - si) (by
      have := hperm.symm.subset hp'
      simp only [List.mem_cons, List.not_mem_nil, or_false] at this ⊢
      rcases this with rfl | rfl | rfl <;> simp)
    rwa [hsub, hsub] at this
  · intro goal hg obs hobs a
    rw [features_goal knn o (goal' := ⟨0, 0, 0, b, 0⟩) hg, hok] at hobs
    simp only [Except.ok.injEq] at hobs
    rw [← hobs, hplace]
    exact hact a

variable [MeasurableSpace G] {μ : Measure G}

theorem greedy_law (cfg : EnvCfg ℝ G O P Img (List ℝ)) (n : ℕ) (hp : PlayCfg cfg n) (hf : Fair cfg.sim.rng μ) (knn knn' : Knn ℝ)
    (hr : cfg.sim.rate = pristineRates knn simpleCanonicalRates) (hfeat : cfg.features = materialFeatures knn') (dwell : Timedelta)
    (h0 : 0 < dwell) (maxDistance : ℝ) (ha : cfg.adapter = .materialFrame dwell dwell maxDistance) (hi : cfg.requiresImage = false)
    (normal : ℝ → A → V2 ℝ × A) (hnormal : ∀ g, (normal 0 g).1 = 0) (agent : Greedy) (hsig : agent.sigma = 0)
    (r : ℝ) (hagent : agent.argmax + agent.fixedOffset = ⟨r, 0⟩) (hr7 : |r - 142 / 100| ≤ 7 / 1000)
    (offset : V2 ℝ) (angle : ℝ) (hox : |offset.x| ≤ 71 / 100) (hoy : |offset.y| ≤ 71 / 100) (b : V2 ℝ) (sc : ℝ) (h15 : 15 ≤ sc) (h30 : sc ≤ 30)
    (m : ℕ) (sheet : Grid ℝ) (hpos : sheet.positions = layOutSheet n offset angle) (hdop : SingleDoped sheet)
    (si : V2 ℝ) (hsi : silicons sheet = [si]) (hbm : b ∈ sheet.positions) (hne : si ≠ b) (hm : 4 * Spec.dist si b ≤ m)
    (hfar : Spec.dist si b ≤ 1000) (hroom : Spec.dist ⟨0, 0⟩ b + Spec.dist si b ≤ 71 / 100 * n - 64 / 10)
    (o : Observation ℝ Img) (x c : V2 ℝ) (hfov : o.fov = centredFov c sc) (hwf : o.grid.WF) (hx : silicons o.grid = [x])
    (hsafe : InSafeArea x) (hplace : place o x = si)
    (hview : o.grid.positions.map (place o) =
      sheet.positions.filter (fun p => decide (Inside o.fov.lowerLeft o.fov.upperRight p))) :
    ∃ S : Set G, MeasurableSet S ∧ ENNReal.ofReal (arriveProb dwell ^ m) ≤ μ S ∧
      ∀ g ∈ S, ∀ s : Env ℝ G O P Img, Playing n s → InEpisode s sheet → s.last = o → s.sim.fovScale = some sc → s.sim.ctx.g = g →
        s.goal.required = 1 → s.goal.goal = b → ∀ a obs, materialFeatures knn' o (.singleSilicon s.goal) = .ok obs →
          AgentWins cfg (Greedy.step normal agent) m s a obs := by
  have hd : dwell < 3600000000 := by
    have := hp.dwellHour
    rw [ha] at this
    exact this
  have hsc : 0 < sc := by linarith
  induction m generalizing sheet si o x c with
  | zero =>
    exfalso
    have := dist_nonneg' si b
    push_cast at hm
    exact hne (dist_eq_zero.1 (by linarith))
  | succ m ih =>
    have hD : Displaced (1 / 1000) (layOutSheet n offset angle) sheet.positions := by
      rw [hpos]
      exact List.forall₂_same.2 (fun p _ => by rw [dist_self']; norm_num)
    have hsim : si ∈ sheet.positions := by
      have : si ∈ silicons sheet := by rw [hsi]; exact List.mem_singleton_self si
      exact (List.of_mem_zip (mem_silicons.1 this)).1
    have hbonds : ∀ q ∈ sheet.positions, Spec.dist q b ≤ Spec.dist si b → ∃ nbrs, BondedTo sheet.positions q nbrs := by
      intro q hq hle
      have htri := dist_triangle0 b q
      rw [dist_comm' b q] at htri
      exact C146_bonds n offset angle hox hoy _ hD q hq (by linarith)
    obtain ⟨nbrs, hbond⟩ := hbonds si hsim le_rfl
    obtain ⟨p, hpn, hmin, hchoice⟩ := greedy_choice knn' normal hnormal agent hsig hagent (b := b) h15 hbond hfov hwf hx hsafe hplace hview
    have hpd := (hbond.bonds p hpn).2
    have hpm := (hbond.bonds p hpn).1
    have hnear : Spec.dist p b ≤ Spec.dist si b - 1 / 4 :=
      C151_nearer n offset angle sheet.positions hD si b p hbm hne hfar ⟨nbrs, hbond, hpn, fun p' hp' => by
        have h1 := hmin p' hp'
        have h2 := dist_nonneg' si b
        have : 0 ≤ (1 + Spec.dist si b) / 10 ^ 5 := by positivity
        linarith⟩
    obtain ⟨nbrs', hbond'⟩ := hbonds p hpm (by linarith)
    set q := si + towards 0 (p - si) r with hq
    have hqp : Spec.dist q p ≤ 1 / 100 := towards_near hpd hr7
    obtain ⟨next, y1, y2, y3, hlaw⟩ := arrive_law hf hp.lawful knn n offset angle sheet hD hdop si hsi nbrs nbrs' hbond p hpn
      hbond' (BeamControl.mk' q dwell) hqp h0 hd
    have hsq := centredFov_square c sc
    have hback : (centredFov c sc).toMaterial ((centredFov c sc).toMicroscope q) = q :=
      toMaterial_toMicroscope (by rw [hsq.1]; exact hsc.ne') (by rw [hsq.2]; exact hsc.ne') q
    obtain ⟨o2, x2, c2, f1, f2, f3, f4, f5, f6, hstepS⟩ := step_fixed (O := O) cfg.sim c hsc
      [BeamControl.mk' (o.fov.toMicroscope q) dwell] dwell y2 y3
    have hplace2 : place o2 x2 = p := by rw [← f5]; exact (fov_lerp _ _).symm
    have hS : ∃ S : Set G, MeasurableSet S ∧ ENNReal.ofReal (arriveProb dwell ^ m) ≤ μ S ∧
        (p ≠ b → ∀ g ∈ S, ∀ s : Env ℝ G O P Img, Playing n s → InEpisode s next → s.last = o2 → s.sim.fovScale = some sc →
          s.sim.ctx.g = g → s.goal.required = 1 → s.goal.goal = b → ∀ a obs,
          materialFeatures knn' o2 (.singleSilicon s.goal) = .ok obs → AgentWins cfg (Greedy.step normal agent) m s a obs) := by
      by_cases hpb : p = b
      · refine ⟨Set.univ, MeasurableSet.univ, ?_, fun h => absurd hpb h⟩
        rw [hf.total, ← ENNReal.ofReal_one]
        exact ENNReal.ofReal_le_ofReal (pow_le_one₀ (arriveProb_nonneg h0) (arriveProb_le_one h0))
      · obtain ⟨S, s1, s2, s3⟩ := ih next (by rw [y1]; exact hpos) y2 p y3 (by rw [y1]; exact hbm) hpb
          (by push_cast at hm; linarith) (by linarith) (by linarith) o2 x2 c2 f1 f2 f3 f4 hplace2 f6
        exact ⟨S, s1, s2, fun _ => s3⟩
    obtain ⟨S, mS, eS, hS⟩ := hS
    obtain ⟨m', e'⟩ := hlaw S mS
    refine ⟨_, m', le_trans ?_ e', ?_⟩
    · rw [pow_succ', ENNReal.ofReal_mul (arriveProb_nonneg h0)]
      exact mul_le_mul_right eS _
    · rintro g hg s hplay hep hlast hscale hsg hreq hgoal a obs hobs
      simp only [Set.mem_iUnion] at hg
      obtain ⟨time, _, g', sheet', hj, hg'⟩ := hg
      have hl : sheet' = next := jumps_last hj
      subst hl
      obtain ⟨a', hact0⟩ := hchoice s.goal hgoal obs hobs a
      have hsfov : s.sim.fov = some (centredFov c sc) := by rw [hep.view, hlast, hfov]
      have hbnd : ∀ u v w : ℝ, |u - v| ≤ Spec.dist si p → |w - v| ≤ Spec.dist q p → |u - w| ≤ 2 := by
        intro u v w h1 h2
        rw [abs_le] at h1 h2 hpd ⊢
        constructor <;> linarith [h1.1, h1.2, h2.1, h2.2, hpd.2]
      have hact := aims_at hwf hx hfov h15 hsafe (p := q)
        (by rw [hplace]; exact hbnd _ _ _ (abs_x_le_dist si p) (abs_x_le_dist q p))
        (by rw [hplace]; exact hbnd _ _ _ (abs_y_le_dist si p) (abs_y_le_dist q p)) dwell maxDistance s.beam
      have hto : actionTo o x q = [(towards 0 (p - si) r).x, (towards 0 (p - si) r).y] := by
        simp only [actionTo, hplace, hq, V2.add_x, V2.add_y, add_sub_cancel_left]
      rw [hto] at hact
      set c' := BeamControl.mk' q dwell with hc'
      set obs' := (notify cfg.sim.handle (.applyControl c') s.sim.ctx.obs).map
        (observeAll cfg.sim.handle ([(time, sheet')].map (fun e => Event.transition e.1 e.2))) with hobs'
      obtain ⟨fuel, h1⟩ := (C72_jump_process cfg.sim.rng cfg.sim.handle cfg.sim.rate c'
        ⟨g, ⟨true, some sheet⟩, notify cfg.sim.handle (.applyControl c') s.sim.ctx.obs⟩
        ⟨g', ⟨true, some sheet'⟩, obs'⟩ sheet rfl rfl).2 ⟨_, sheet', hr ▸ hj, rfl, rfl, rfl⟩
      have hpf := hp.fuelled fuel
      obtain ⟨sim, k1, k2, k3, k4, k5, k6⟩ := hstepS fuel s.sim ⟨g', ⟨true, some sheet'⟩, obs'⟩ hep.started.reset hscale hsfov (by
          have hctx : s.sim.ctx = ⟨g, ⟨true, some sheet⟩, s.sim.ctx.obs⟩ := by
            rw [← hsg, ← hep.started.sheet]
          rw [hctx, hfov]
          simp only [applyControls, BeamControl.mk', hback]
          simp only [hc', BeamControl.mk'] at h1
          rw [h1]
          simp) rfl
      have hgrid : s.sim.ctx.mat.grid = some sheet := by rw [hep.started.sheet]
      obtain ⟨_, _, hwf', hp', hw', hh', h4, hnd, himg⟩ := step_shows hpf hplay.inv hgrid hpos k1
      obtain ⟨f, hfe⟩ := hpf.features o2 s.goal hwf' hnd h4 hp' hw'.ne' hh'.ne' (himg.trans hi.symm)
      obtain ⟨k, hk, hk1, hk2⟩ := calculate_ok o2 s.goal hwf' (by simp [ShowsSilicon, f3])
      have hstep : Env.step (withFuel cfg fuel) [(towards 0 (p - si) r).x, (towards 0 (p - si) r).y] s =
          (if s.goal.required ≤ k then
            .ok (TimeStep.termination (gammaPow o2.elapsedTime) f)
              { s with sim := sim, last := o2, goal := { s.goal with consecutive := k }, requiresReset := true }
          else .ok (TimeStep.transition 0 f (gammaPow o2.elapsedTime))
              { s with sim := sim, last := o2, goal := { s.goal with consecutive := k } }) := by
        have hact' : (withFuel cfg fuel).adapter.getAction s.last [(towards 0 (p - si) r).x, (towards 0 (p - si) r).y] s.beam =
            .ok [BeamControl.mk' (o.fov.toMicroscope q) dwell] s.beam := by
          show cfg.adapter.getAction _ _ _ = _
          rw [ha, hlast]; exact hact
        have himg' : (withFuel cfg fuel).requiresImage = false := hi
        have k1' : Sim.step (withFuel cfg fuel).sim [BeamControl.mk' (o.fov.toMicroscope q) dwell] false s.sim = .ok o2 sim := k1
        unfold Env.step
        simp only [hep.running, Bool.false_eq_true, if_false, hact', himg', k1', hfe, hk]
        by_cases hle : s.goal.required ≤ k
        · simp [hle]
        · simp [hle]
      have hat : AtGoal s.goal.goal o2 ↔ s.goal.required ≤ k := by
        rw [hreq]
        constructor
        · intro h
          rw [hk1 h]; omega
        · intro h
          by_contra hno
          rw [hk2 hno] at h
          omega
      by_cases hle : s.goal.required ≤ k
      · rw [if_pos hle] at hstep
        exact .last hact0 hstep rfl rfl rfl (hat.2 hle)
      · rw [if_neg hle] at hstep
        have hnext : Playing n (endState (Env.step (withFuel cfg fuel) [(towards 0 (p - si) r).x, (towards 0 (p - si) r).y] s)) :=
          (step_plays hpf hplay _).1
        rw [hstep] at hnext
        simp only [endState] at hnext
        have hpb : p ≠ b := by
          intro hpb
          refine hle (hat.1 ⟨x2, ⟨[], [], by simp [f3], by simp, by simp⟩, ?_⟩)
          rw [hplace2, hgoal, hpb]
          simp [V2.distSq, V2.normSq]
        refine .more hact0 hstep rfl rfl rfl (hS hpb g' hg' _ hnext ⟨hep.running, ⟨k4, k3, c2, sc, k5, by rw [k6, f1], h15, h30⟩, k6,
            f2, x2, f3, f4, by rw [y3, hplace2]⟩ rfl k5 k2 hreq hgoal a' f ?_)
        have : (withFuel cfg fuel).features = materialFeatures knn' := hfeat
        rw [this] at hfe
        exact (features_goal knn' o2 (goal' := s.goal) rfl).trans hfe

/-- What a reset shows: the features of the first observation. -/
theorem envReset_features {cfg : EnvCfg ℝ G O P Img (List ℝ)} {s s' : Env ℝ G O P Img} {t : TimeStep (List ℝ)}
    (h : Env.reset cfg s = .ok t s') : cfg.features s'.last (.singleSilicon s'.goal) = .ok t.observation := by
  unfold Env.reset at h
  dsimp only at h
  split at h
  · cases h
  · split at h
    · cases h
    · split at h
      · cases h
      · rename_i f hfe
        simp only [EStateM.Result.ok.injEq] at h
        obtain ⟨rfl, rfl⟩ := h
        exact hfe

/-- The atoms in the first observation. -/
theorem reset_atoms {cfg : EnvCfg ℝ G O P Img (List ℝ)} {n : ℕ} (hp : PlayCfg cfg n) {s s' : Env ℝ G O P Img} {t : TimeStep (List ℝ)}
    (h : Env.reset cfg s = .ok t s') {sheet : Grid ℝ} (hs : s'.sim.ctx.mat.grid = some sheet) :
    s'.last.grid.positions.map (place s'.last) =
      sheet.positions.filter (fun p => decide (Inside s'.last.fov.lowerLeft s'.last.fov.upperRight p)) := by
  obtain ⟨o, sim, g, h1, h2, h3⟩ := envReset_parts h
  obtain ⟨sheet', si, sc, hf⟩ := reset_ok h1
  obtain ⟨g0, hsc⟩ := hf.scaleDraw
  have hu := hp.lawful.uniform_mem 15 30 g0 (by norm_num)
  rw [← hsc] at hu
  have hpos : 0 < sc := by linarith [hu.1]
  have hsq := centredFov_square si sc
  rw [h3] at hs
  have he : sheet' = sheet := by
    have := hf.grid
    rw [hs] at this
    exact (Option.some.inj this).symm
  subst he
  rw [h2]
  exact (view_positions hf.matFlag hf.grid hf.doped.wf (o := o)
    (by rw [hf.ofov, hsq.1]; exact hpos) (by rw [hf.ofov, hsq.2]; exact hpos) hf.ogrid).2

/-- C158.  After any history, an episode has just been started: if there is room, the greedy agent without noise, whose best
beam position is a bond's length along the bond, wins it, within four steps for each Å between the silicon and the goal, with
at least the probability of a single move to the power of that number. -/
theorem C158_wins (cfg : EnvCfg ℝ G O P Img (List ℝ)) (n : ℕ) (hp : PlayCfg cfg n) (hn : 12 ≤ n) (hf : Fair cfg.sim.rng μ)
    (knn knn' : Knn ℝ) (hr : cfg.sim.rate = pristineRates knn simpleCanonicalRates) (hfeat : cfg.features = materialFeatures knn')
    (dwell : Timedelta) (h0 : 0 < dwell) (maxDistance : ℝ) (ha : cfg.adapter = .materialFrame dwell dwell maxDistance)
    (hi : cfg.requiresImage = false) (normal : ℝ → A → V2 ℝ × A) (hnormal : ∀ g, (normal 0 g).1 = 0) (agent : Greedy)
    (hsig : agent.sigma = 0) (r : ℝ) (hagent : agent.argmax + agent.fixedOffset = ⟨r, 0⟩) (hr7 : |r - 142 / 100| ≤ 7 / 1000)
    (g0 : G) (ga : Option G) (beam : V2 ℝ) (goal : GoalState ℝ) (hgoal : GoalRangeOk goal) (history : List (EnvOp ℝ O))
    (t : TimeStep (List ℝ)) (s : Env ℝ G O P Img)
    (h : Env.reset cfg (Env.after cfg (Env.fresh g0 ga beam goal) history) = .ok t s) (hreq : s.goal.required = 1) :
    ∃ sheet si, s.sim.ctx.mat.grid = some sheet ∧ silicons sheet = [si] ∧ si ≠ s.goal.goal ∧ Spec.dist si s.goal.goal ≤ 22 ∧
      (31 / 20 + 2 * Spec.dist si s.goal.goal ≤ 71 / 100 * n - 64 / 10 → ∀ (m : ℕ), 4 * Spec.dist si s.goal.goal ≤ m → ∀ a : A,
        ENNReal.ofReal (arriveProb dwell ^ m) ≤ μ {g | AgentWins cfg (Greedy.step normal agent) m (reseeded s g) a t.observation}) := by
  have hplay := after_plays hp history (fresh_plays (O := O) (P := P) (Img := Img) n g0 ga beam hgoal)
  obtain ⟨hplay', sheet, si, offset, angle, hep, hdop, hsi, hx, hy, hlay, hor, hgm, hgne, hgd, _⟩ :=
    reset_episode cfg n hp hn _ s hplay t h
  have hgrid : s.sim.ctx.mat.grid = some sheet := by rw [hep.started.sheet]
  refine ⟨sheet, si, hgrid, hsi, hgne.symm, hgd, fun hroom m hm a => ?_⟩
  have htri := dist_triangle0 si s.goal.goal
  obtain ⟨x, hx1, hx2, hx3⟩ := hep.shown
  rw [hsi, List.singleton_inj] at hx3
  obtain ⟨c, sc, v1, v2, h15, h30⟩ := hep.started.view
  have hfov : s.last.fov = centredFov c sc := by
    have := hep.view
    rw [v2, Option.some.injEq] at this
    exact this.symm
  have hfe := envReset_features h
  rw [hfeat] at hfe
  obtain ⟨S, _, e, hS⟩ := greedy_law (O := O) (P := P) cfg n hp hf knn knn' hr hfeat dwell h0 maxDistance ha hi normal hnormal agent hsig r
    hagent hr7 offset angle hx hy s.goal.goal sc h15 h30 m sheet hlay hdop si hsi hgm hgne.symm hm (by linarith) (by linarith)
    s.last x c hfov hep.wf hx1 hx2 hx3.symm (reset_atoms hp h hgrid)
  refine e.trans (measure_mono ?_)
  intro g hg
  exact hS g hg (reseeded s g) ⟨SimInv.reseed hplay'.inv g, hplay'.range, hplay'.live⟩ ⟨hep.running, ⟨hep.started.reset,
      hep.started.sheet, hep.started.view⟩, hep.view, hep.wf, hep.shown⟩ rfl v1 rfl hreq rfl a _ hfe

theorem arriveProb_five : 3 / 8 ≤ arriveProb 5000000 := by
  unfold arriveProb
  push_cast
  have h1 : Real.exp (-(99 / 100 * (5000000 / 1000000))) ≤ 1 / 100 := by
    have h3 : (100 : ℝ) ≤ Real.exp (99 / 100 * (5000000 / 1000000)) := by
      refine le_trans ?_ (Real.sum_le_exp_of_nonneg (by norm_num) 8)
      norm_num [Finset.sum_range_succ, Nat.factorial]
    rw [Real.exp_neg, inv_eq_one_div]
    exact one_div_le_one_div_of_le (by norm_num) h3
  have h2 : 395 / 1000 ≤ Real.exp (-(9 / 50 * ((5000000 + 1) / 1000000))) := by
    have h := Real.add_one_le_exp (-(9 / 50 * ((5000000 + 1) / 1000000 : ℝ)) / 16)
    have e : Real.exp (-(9 / 50 * ((5000000 + 1) / 1000000 : ℝ))) =
        Real.exp (-(9 / 50 * ((5000000 + 1) / 1000000 : ℝ)) / 16) ^ 16 := by
      rw [← Real.exp_nat_mul]; congr 1; ring
    rw [e]
    have hb : (9437 / 10000 : ℝ) ≤ Real.exp (-(9 / 50 * ((5000000 + 1) / 1000000 : ℝ)) / 16) := by
      refine le_trans ?_ h
      norm_num
    refine le_trans ?_ (pow_le_pow_left₀ (by norm_num) hb 16)
    norm_num
  have h4 : (24 / 25 * (1 - 1 / 100) : ℝ) * (395 / 1000) ≤ 24 / 25 * (1 - Real.exp (-(99 / 100 * (5000000 / 1000000)))) *
      Real.exp (-(9 / 50 * ((5000000 + 1) / 1000000))) := by
    refine mul_le_mul (by linarith) h2 (by norm_num) ?_
    linarith
  refine le_trans ?_ h4
  norm_num

/-- C158.  The experiment `greedy_on_neighbor` that comes with the package, played with the simple rates on a
sheet with room for every goal: the agent wins every episode within 88 steps with positive probability, at least three eighths to
the power of 88. -/
theorem C158_on_neighbour (cfg : EnvCfg ℝ G O P Img (List ℝ)) (n : ℕ) (hp : PlayCfg cfg n) (hn : 74 ≤ n) (hf : Fair cfg.sim.rng μ)
    (knn knn' : Knn ℝ) (hr : cfg.sim.rate = pristineRates knn simpleCanonicalRates) (hfeat : cfg.features = materialFeatures knn')
    (hi : cfg.requiresImage = false) (parts : AdaptersAndGoal ℝ) (argmax : V2 ℝ)
    (hexp : ("greedy_on_neighbor", ⟨.greedy argmax, parts⟩) ∈ microscopeExperiments (K := ℝ)) (ha : cfg.adapter = parts.adapter)
    (normal : ℝ → A → V2 ℝ × A) (hnormal : ∀ g, (normal 0 g).1 = 0)
    (g0 : G) (ga : Option G) (beam : V2 ℝ) (goal : GoalState ℝ) (hgoal : GoalRangeOk goal) (history : List (EnvOp ℝ O))
    (t : TimeStep (List ℝ)) (s : Env ℝ G O P Img)
    (h : Env.reset cfg (Env.after cfg (Env.fresh g0 ga beam goal) history) = .ok t s) (hreq : s.goal.required = 1) (a : A) :
    ENNReal.ofReal ((3 / 8) ^ 88) ≤
      μ {g | AgentWins cfg (Greedy.step normal ⟨argmax, 0, 0⟩) 88 (reseeded s g) a t.observation} := by
  have hin : argmax = ⟨142 / 100, 0⟩ ∧ parts = goalReachingMaterial 5000000 5000000 (2 * BOND) := by
    simp [microscopeExperiments] at hexp
    exact hexp
  obtain ⟨rfl, rfl⟩ := hin
  obtain ⟨sheet, si, _, _, _, hd, hwin⟩ := C158_wins cfg n hp (by omega) hf knn knn' hr hfeat 5000000 (by decide) (2 * BOND) ha hi
    normal hnormal ⟨⟨142 / 100, 0⟩, 0, 0⟩ rfl (142 / 100) (by ext <;> simp) (by norm_num) g0 ga beam goal hgoal history t s h hreq
  have hn' : (74 : ℝ) ≤ n := by exact_mod_cast hn
  exact le_trans (ENNReal.ofReal_le_ofReal (pow_le_pow_left₀ (by norm_num) arriveProb_five _))
    (hwin (by linarith) 88 (by push_cast; linarith) a)

end

/-- The environment of the example: that of the experiment, with the simple rates, on a sheet of 80 columns. -/
noncomputable def greedyWin : EnvCfg ℝ (ℕ → ℝ) Unit Unit Unit (List ℝ) where
  sim := {
    fuel := 10
    rng := Witness.streamRng
    generate := generatePristineGraphene Witness.streamRng 80
    rate := pristineRates Witness.knn simpleCanonicalRates
    render := fun _ _ _ g => ((), g)
    sampleParams := fun g => ((), g)
    imageDuration := 2000000
    handle := fun _ o => o }
  adapter := (goalReachingMaterial (K := ℝ) 5000000 5000000 (2 * BOND)).adapter
  features := materialFeatures Witness.knn
  requiresImage := false
  seedRng := fun _ _ => 0

theorem greedyWin_ok : PlayCfg greedyWin 80 :=
  ⟨Witness.streamRng_lawful, by norm_num, rfl, (C69_features_defined Witness.knn id).2.1 _,
    C39_pristine_swaps _ _, (C99_rates_defined Witness.knn).1,
    show (5000000 : ℤ) ≤ 5000000 by decide, show (5000000 : ℤ) < 3600000000 by decide⟩

/-- The first episode of a new environment. -/
example : ∃ t s, Env.reset greedyWin (Env.fresh (fun _ => 0) none 0 GoalState.fresh) = .ok t s ∧
    0 < Witness.streamLaw {g | AgentWins greedyWin
      (Greedy.step (fun _ (a : Unit) => (0, a)) ⟨⟨142 / 100, 0⟩, 0, 0⟩) 88 (reseeded s g) () t.observation} := by
  have hrange : GoalRangeOk GoalState.fresh := by norm_num [GoalRangeOk, GoalState.fresh]
  obtain ⟨⟨t, s, h⟩, _⟩ := C99_never_fails greedyWin 80 greedyWin_ok (fun _ => 0) none 0 GoalState.fresh hrange []
  obtain ⟨_, _, _, _, _, _, _, _, _, _, _, _, _, _, hreq⟩ := reset_episode greedyWin 80 greedyWin_ok (by norm_num) _ s
    (fresh_plays 80 _ _ _ hrange) t h
  refine ⟨t, s, h, lt_of_lt_of_le ?_ (C158_on_neighbour greedyWin 80 greedyWin_ok (by norm_num) Witness.streamRng_fair Witness.knn
    Witness.knn rfl rfl rfl (goalReachingMaterial 5000000 5000000 (2 * BOND)) ⟨142 / 100, 0⟩ (by simp [microscopeExperiments]) rfl _
    (fun _ => rfl) _ _ _ _ hrange [] t s h hreq.2 ())⟩
  rw [ENNReal.ofReal_pos]
  positivity

end PD.Props
