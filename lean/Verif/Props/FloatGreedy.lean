/- Property C150: greedy play with floating point numbers. -/
import Verif.Lemmas.FloatGreedy
import Verif.Props.FloatRates

set_option linter.unusedSectionVars false
set_option linter.unusedSimpArgs false

namespace PD.Props
open PD PD.Spec
variable {G O P Img F : Type}

/-! ### What a call leaves -/

/-- After a call that returned. -/
theorem after_call {T : FloatTrig} {S : Summation} {k : DotKind} {n : ℕ} {cfg : FloatEnvCfg G O P Img F}
    (hc : FloatWorld T S k n cfg) {s : Env ℝ G O P Img} (hp : FloatPlaying n s) {t : TimeStep F} {s' : Env ℝ G O P Img}
    (h : Env.floatReset cfg s = .ok t s' ∨ ∃ a, Env.floatStep cfg a s = .ok t s') :
    ∃ sheet si b, ∃ goal : GoalState ℝ, ∃ offset angle, Viewing s'.sim sheet s'.last ∧ silicons sheet = [si] ∧
      GoalOn sheet s'.goal.goal b ∧ goal.goal = s'.goal.goal ∧
      cfg.features s'.last (.singleSilicon goal) = .ok t.observation ∧
      Displaced (1 / 1000) (layOutSheet n offset angle) sheet.positions ∧ sheet.positions.Nodup := by
  have reset : Env.floatReset cfg s = .ok t s' → ∃ sheet si b, ∃ goal : GoalState ℝ, ∃ offset angle,
      Viewing s'.sim sheet s'.last ∧ silicons sheet = [si] ∧
      GoalOn sheet s'.goal.goal b ∧ goal.goal = s'.goal.goal ∧
      cfg.features s'.last (.singleSilicon goal) = .ok t.observation ∧
      Displaced (1 / 1000) (layOutSheet n offset angle) sheet.positions ∧ sheet.positions.Nodup := by
    intro h
    obtain ⟨s3, sheet, b, si, h1, h2, h3, h4, h5, h6, h7, h8, h9, h10, h11, he⟩ := envFloatReset hc hp
    rw [he] at h
    cases hf : cfg.features s3.last (.singleSilicon s3.goal) with
    | error e => simp [hf] at h
    | ok f =>
      simp only [hf, EStateM.Result.ok.injEq] at h
      obtain ⟨rfl, rfl⟩ := h
      obtain ⟨offset, angle, hx, hy, hD⟩ := h3.laid
      exact ⟨sheet, si, b, _, offset, angle, h4, h5, h9, rfl, hf, hD, (displaced_good hc.wide hx hy hD).2⟩
  rcases h with h | ⟨a, h⟩
  · exact reset h
  by_cases hq : s.requiresReset = true
  · have : Env.floatStep cfg a s = Env.floatReset cfg s := by unfold Env.floatStep; rw [if_pos hq]
    rw [this] at h
    exact reset h
  simp only [Bool.not_eq_true] at hq
  obtain ⟨sheet, hlive⟩ := hp.live hq
  obtain ⟨b, hb⟩ := hlive.goal
  obtain ⟨offset, angle, hx, hy, hD⟩ := hlive.laid
  rcases envFloatStep hc hp hq a hlive hb with ⟨e, beam, _, he⟩ | ⟨cs, beam, _, ⟨e, sim, sheet', c, _, _, he, _, _⟩ |
    ⟨o, sim, sheet', si, s3, goal, _, k2, k3, k4, _, _, _, _, k5, k6, _, _, he⟩⟩
  · rw [he] at h; cases h
  · rw [he] at h; cases h
  · rw [he] at h
    have hD' : Displaced (1 / 1000) (layOutSheet n offset angle) sheet'.positions := by rw [k3]; exact hD
    cases hf : cfg.features o (.singleSilicon s.goal) with
    | error e => simp [hf] at h
    | ok f =>
      simp only [hf] at h
      have hb' : GoalOn sheet' goal.goal b := ⟨by rw [k3]; exact hb.1, by rw [k5]; exact hb.2⟩
      subst k6
      refine ⟨sheet', si, b, s.goal, offset, angle, ?_⟩
      by_cases e : si = b
      · rw [if_pos e] at h
        cases h
        exact ⟨k2, k4, hb', k5.symm, hf, hD', (displaced_good hc.wide hx hy hD').2⟩
      · rw [if_neg e] at h
        cases h
        exact ⟨k2, k4, hb', k5.symm, hf, hD', (displaced_good hc.wide hx hy hD').2⟩

/-- After any history a reset returns, and every observation that a reset or a step returns has ten numbers; if the silicon
has three bonds, they tell where it, its neighbours and the goal are. -/
theorem C150_features (T : FloatTrig) (S : Summation) (k : DotKind) (n : ℕ) (cfg : FloatEnvCfg G O P Img (List ℝ))
    (hc : FloatWorld T S k n cfg) (knn : FloatKnn) (hfeat : cfg.features = floatMaterialFeatures knn)
    (g : G) (ga : Option G) (beam : V2 ℝ) (ops : List (EnvOp ℝ O))
    (s : Env ℝ G O P Img) (hs : s = Env.floatAfter cfg (Env.fresh g ga beam GoalState.floatFresh) ops) :
    (∃ t s', Env.floatReset cfg s = .ok t s') ∧
    ∀ t s', (Env.floatReset cfg s = .ok t s' ∨ ∃ a, Env.floatStep cfg a s = .ok t s') →
      ∃ sheet si b, s'.sim.ctx.mat.grid = some sheet ∧ silicons sheet = [si] ∧ b ∈ sheet.positions ∧
        Spec.dist s'.goal.goal b ≤ 1 / 10 ^ 9 ∧ t.observation.length = 10 ∧
        ∀ nbrs, BondedTo sheet.positions si nbrs → TellsNeighbours t.observation si nbrs b := by
  have hp : FloatPlaying n s := by rw [hs]; exact floatAfter_playing hc ops (floatFresh_playing n g ga beam)
  have hn : 5 ≤ n := by have := hc.wide; omega
  constructor
  · obtain ⟨s3, sheet, b, si, h1, h2, h3, h4, h5, h6, h7, h8, h9, h10, h11, he⟩ := envFloatReset hc hp
    obtain ⟨offset, angle, hx, hy, hD⟩ := h3.laid
    obtain ⟨obs, hobs, _⟩ := features_defined knn hn h4 hD (displaced_good hc.wide hx hy hD).2 s3.goal
    exact ⟨_, s3, by rw [he, hfeat, hobs]⟩
  · intro t s' h
    obtain ⟨sheet, si, b, goal, offset, angle, h1, h2, h3, h4, h5, h6, h7⟩ := after_call hc hp h
    rw [hfeat] at h5
    obtain ⟨obs, e1, e2⟩ := features_defined knn hn h1 h6 h7 goal
    rw [h5] at e1
    cases e1
    refine ⟨sheet, si, b, h1.ready.grid, h2, h3.1, h3.near, e2, ?_⟩
    intro nbrs hbond
    obtain ⟨obs, e3, e4⟩ := features_tell knn h1 h6 (goal := goal) (by rw [h4]; exact h3) h2 hbond
    rw [h5] at e3
    cases e3
    exact e4

/-! ### What the agent does -/

/-- The greedy agent, told where the neighbours and the goal are, chooses a neighbour that is nearest to the goal, up to
little, and aims the beam where it should be beside the bond to that neighbour. -/
theorem C150_choice (T : SingleLib) (k : DotKind) (normal : ℝ → G → V2 ℝ × G) (a : Greedy) (g : G) (obs : List ℝ)
    (si : V2 ℝ) (nbrs : List (V2 ℝ)) (b : V2 ℝ) (htells : TellsNeighbours obs si nbrs b)
    (hbonds : ∀ p ∈ nbrs, |Spec.dist si p - 142 / 100| ≤ 2 / 1000)
    (hx : |a.argmax.x + a.fixedOffset.x| ≤ 2) (hy : |a.argmax.y + a.fixedOffset.y| ≤ 2)
    (hnx : |(normal a.sigma g).1.x| ≤ 1 / 2) (hny : |(normal a.sigma g).1.y| ≤ 1 / 2) :
    ∃ r, ∃ p ∈ nbrs, a.floatStep T k normal obs g = .ok r (normal a.sigma g).2 ∧
      (∀ p' ∈ nbrs, Spec.dist p b ≤ Spec.dist p' b + (1 + Spec.dist si b) / 10 ^ 5) ∧
      |si.x + r.x - (besideBond si p (a.argmax + a.fixedOffset + (normal a.sigma g).1)).x| ≤ 3 / 10 ^ 5 ∧
      |si.y + r.y - (besideBond si p (a.argmax + a.fixedOffset + (normal a.sigma g).1)).y| ≤ 3 / 10 ^ 5 := by
  obtain ⟨x, y, x₁, y₁, x₂, y₂, x₃, y₃, gx, gy, p₁, p₂, p₃, rfl, hperm, _, _, hd⟩ := htells
  obtain ⟨g1, g2⟩ := hd (⟨gx, gy⟩, b) (by simp)
  -- the neighbours with what is told about them
  let L : List (V2 ℝ × V2 ℝ) := [(⟨x₁, y₁⟩, p₁), (⟨x₂, y₂⟩, p₂), (⟨x₃, y₃⟩, p₃)]
  have hL : ∀ e ∈ L, e.2 ∈ nbrs ∧ |e.1.x - (e.2.x - si.x)| ≤ (1 + Spec.dist si e.2) / 10 ^ 7 ∧
      |e.1.y - (e.2.y - si.y)| ≤ (1 + Spec.dist si e.2) / 10 ^ 7 := by
    intro e he
    refine ⟨?_, hd e ?_⟩
    · simp only [L, List.mem_cons, List.not_mem_nil, or_false] at he
      rcases he with rfl | rfl | rfl <;> exact hperm.mem_iff.1 (by simp)
    · simp only [L, List.mem_cons, List.not_mem_nil, or_false] at he
      rcases he with rfl | rfl | rfl <;> simp
  have hall : ∀ p ∈ nbrs, ∃ e ∈ L, e.2 = p := by
    intro p hp
    have := hperm.mem_iff.2 hp
    simp only [List.mem_cons, List.not_mem_nil, or_false] at this
    rcases this with rfl | rfl | rfl
    · exact ⟨_, by simp only [L]; exact List.mem_cons_self, rfl⟩
    · exact ⟨(⟨x₂, y₂⟩, p), by simp [L], rfl⟩
    · exact ⟨(⟨x₃, y₃⟩, p), by simp [L], rfl⟩
  have bond : ∀ p ∈ nbrs, 1 ≤ Spec.dist si p ∧ Spec.dist si p ≤ 3 / 2 := by
    intro p hp
    have := hbonds p hp
    rw [abs_le] at this
    constructor <;> linarith [this.1, this.2]
  have score : ∀ e ∈ L, |singleNorm (singleSub e.1 ⟨gx, gy⟩) - Spec.dist e.2 b| ≤ 3 * (1 + Spec.dist si b) / 10 ^ 6 := by
    intro e he
    obtain ⟨h0, h1, h2⟩ := hL e he
    exact score_err (bond _ h0).2 h1 h2 g1 g2
  have er : reshape2 (([x, y, x₁, y₁, x₂, y₂, x₃, y₃, gx, gy].drop 2).take 6) = L.map Prod.fst := rfl
  have eg : reshape2 ([x, y, x₁, y₁, x₂, y₂, x₃, y₃, gx, gy].drop 8) = [⟨gx, gy⟩] := rfl
  unfold Greedy.floatStep
  rw [if_neg (by simp)]
  dsimp only
  rw [er, eg]
  dsimp only
  obtain ⟨best, hbest⟩ := argmin?_isSome
    (l := (L.map Prod.fst).map (fun d => singleNorm (singleSub d ⟨gx, gy⟩))) (by simp [L])
  obtain ⟨v, hv, hmin, _⟩ := argmin?_eq_some hbest
  have hlt := argmin?_lt hbest
  simp only [List.length_map] at hlt
  have hein : L[best] ∈ L := List.getElem_mem hlt
  obtain ⟨e, he⟩ : ∃ e, e = L[best] := ⟨_, rfl⟩
  rw [← he] at hein
  have hLe : L[best]? = some e := by rw [he]; exact List.getElem?_eq_getElem hlt
  have hve : v = singleNorm (singleSub e.1 ⟨gx, gy⟩) := by
    simp only [List.getElem?_map, hLe, Option.map_some, Option.some.injEq] at hv
    exact hv.symm
  simp only [hbest]
  have hang : ((L.map Prod.fst).map (fun d => T.arctan2 d.y d.x))[best]? = some (T.arctan2 e.1.y e.1.x) := by
    simp only [List.getElem?_map, hLe, Option.map_some]
  simp only [hang]
  obtain ⟨h0, h1, h2⟩ := hL e hein
  refine ⟨_, e.2, h0, rfl, ?_, ?_⟩
  · intro p' hp'
    obtain ⟨e', he', rfl⟩ := hall p' hp'
    have m := hmin (singleNorm (singleSub e'.1 ⟨gx, gy⟩)) (List.mem_map.2 ⟨e'.1, List.mem_map.2 ⟨e', he', rfl⟩, rfl⟩)
    rw [hve] at m
    have s1 := score e hein
    have s2 := score e' he'
    have hD0 : 0 ≤ Spec.dist si b := dist_nonneg' _ _
    rw [abs_le] at s1 s2
    norm_num at s1 s2 ⊢
    linarith [s1.1, s1.2, s2.1, s2.2]
  · obtain ⟨b1, b2⟩ := bond e.2 h0
    have el : len (e.2 - si) = Spec.dist si e.2 := by rw [dist_len]
    have hdir := single_direction T (d := e.1) (u := e.2 - si) (by rw [el]; exact b1)
      (h1.trans (by norm_num; linarith)) (h2.trans (by norm_num; linarith))
    obtain ⟨d1, d2⟩ := hdir
    generalize T.cos (T.arctan2 e.1.y e.1.x) = c at *
    generalize T.sin (T.arctan2 e.1.y e.1.x) = z at *
    have u1 : |(e.2 - si).x / len (e.2 - si)| ≤ 1 := by
      rw [abs_div, abs_of_pos (by rw [el]; linarith : 0 < len (e.2 - si))]
      exact (div_le_one (by rw [el]; linarith)).2 (abs_x_le_len _)
    have u2 : |(e.2 - si).y / len (e.2 - si)| ≤ 1 := by
      rw [abs_div, abs_of_pos (by rw [el]; linarith : 0 < len (e.2 - si))]
      exact (div_le_one (by rw [el]; linarith)).2 (abs_y_le_len _)
    have beamErr : ∀ {w v : ℝ}, |w| ≤ 2 → |v| ≤ 1 / 2 → |w + v| ≤ 5 / 2 ∧ |f64 (f64 w + v) - (w + v)| ≤ 1 / 10 ^ 10 := by
      intro w v hw hv
      have e1 := f64_near hw
      have e2 := f64_near (x := f64 w + v) (b := 3) (by
        rw [abs_le] at *
        norm_num at *
        constructor <;> linarith [e1.1, e1.2, hw.1, hw.2, hv.1, hv.2])
      constructor
      · refine (abs_add_le _ _).trans ?_
        linarith
      generalize f64 (f64 w + v) = q at *
      rw [abs_le] at *
      norm_num at *
      constructor <;> linarith [e1.1, e1.2, e2.1, e2.2]
    obtain ⟨m1, m2⟩ := beamErr hx hnx
    obtain ⟨m3, m4⟩ := beamErr hy hny
    have d2' : |-z - -((e.2 - si).y / len (e.2 - si))| ≤ 4 / 10 ^ 6 := by
      rw [show -z - -((e.2 - si).y / len (e.2 - si)) = -(z - (e.2 - si).y / len (e.2 - si)) by ring, abs_neg]
      exact d2
    have tx := small_turn k m1 m2 u1 d1 m3 m4 (by rw [abs_neg]; exact u2) d2'
    have ty := small_turn k m1 m2 u2 d2 m3 m4 u1 d1
    constructor
    · refine le_of_eq_of_le ?_ tx
      congr 1
      simp only [besideBond, V2.add_x, V2.sub_x, V2.sub_y, V2.add_y, el]
      ring
    · refine le_of_eq_of_le ?_ ty
      congr 1
      simp only [besideBond, V2.add_x, V2.sub_x, V2.sub_y, V2.add_y, el]
      ring

/-! ### The two together -/

theorem within_near {lo hi z w ε : ℝ} (hw : lo ≤ w ∧ w ≤ hi) (h : |z - w| ≤ ε) : |within lo hi z - w| ≤ ε := by
  have h0 : 0 ≤ ε := (abs_nonneg _).trans h
  unfold within
  rw [abs_le] at *
  simp only [max_def, min_def]
  split_ifs <;> constructor <;> linarith [h.1, h.2, hw.1, hw.2]

/-- A place beside a bond is as far from the silicon as it should be. -/
theorem besideBond_len {si p m : V2 ℝ} (hp : 0 < Spec.dist si p) :
    ((besideBond si p m).x - si.x) ^ 2 + ((besideBond si p m).y - si.y) ^ 2 = m.x ^ 2 + m.y ^ 2 := by
  have h2 : Spec.dist si p ^ 2 = (p.x - si.x) ^ 2 + (p.y - si.y) ^ 2 := by
    rw [dist_len]
    unfold len
    rw [Real.sq_sqrt (by positivity)]
    simp [V2.sub_x, V2.sub_y]
  unfold besideBond
  generalize Spec.dist si p = d at *
  have : (si.x + (m.x * (p.x - si.x) - m.y * (p.y - si.y)) / d - si.x) ^ 2 +
      (si.y + (m.x * (p.y - si.y) + m.y * (p.x - si.x)) / d - si.y) ^ 2 =
      (m.x ^ 2 + m.y ^ 2) * ((p.x - si.x) ^ 2 + (p.y - si.y) ^ 2) / d ^ 2 := by
    field_simp
    ring
  dsimp only
  rw [this, ← h2]
  field_simp

/-- After any history, and a call that returned and did not end the episode: if the silicon has three bonds and the agent
is shown the observation, then the step with its action exposes the sheet at the place beside the bond to the neighbour
nearest to the goal, up to a ten thousandth of an Å. -/
theorem C150_beam (T : FloatTrig) (S : Summation) (k : DotKind) (n : ℕ) (cfg : FloatEnvCfg G O P Img (List ℝ))
    (hc : FloatWorld T S k n cfg) (hch : Chooses cfg.sim.rng) (knn : FloatKnn)
    (hfeat : cfg.features = floatMaterialFeatures knn) (lo hi : Timedelta) (D : ℝ)
    (ha : cfg.adapter = .materialFrame lo hi D) (h0 : 0 ≤ lo) (hm : lo ≤ hi) (h1 : hi ≤ 86400000000)
    (g : G) (ga : Option G) (beam : V2 ℝ) (ops : List (EnvOp ℝ O))
    (s : Env ℝ G O P Img) (hs : s = Env.floatAfter cfg (Env.fresh g ga beam GoalState.floatFresh) ops)
    (t : TimeStep (List ℝ)) (s₁ : Env ℝ G O P Img)
    (hcall : Env.floatReset cfg s = .ok t s₁ ∨ ∃ a, Env.floatStep cfg a s = .ok t s₁) (hq : s₁.requiresReset = false)
    (sheet : Grid ℝ) (hsheet : s₁.sim.ctx.mat.grid = some sheet) (si : V2 ℝ) (hsi : silicons sheet = [si])
    (nbrs : List (V2 ℝ)) (hbond : BondedTo sheet.positions si nbrs)
    (T' : SingleLib) (k' : DotKind) (normal : ℝ → G → V2 ℝ × G) (agent : Greedy) (gen : G)
    (hx : |agent.argmax.x + agent.fixedOffset.x| ≤ 2) (hy : |agent.argmax.y + agent.fixedOffset.y| ≤ 2)
    (hnx : |(normal agent.sigma gen).1.x| ≤ 1 / 2) (hny : |(normal agent.sigma gen).1.y| ≤ 1 / 2) :
    ∃ r, agent.floatStep T' k' normal t.observation gen = .ok r (normal agent.sigma gen).2 ∧
      ∃ b ∈ sheet.positions, Spec.dist s₁.goal.goal b ≤ 1 / 10 ^ 9 ∧ ∃ p ∈ nbrs,
        (∀ p' ∈ nbrs, Spec.dist p b ≤ Spec.dist p' b + (1 + Spec.dist si b) / 10 ^ 5) ∧
        ∀ rest t' s₂, Env.floatStep cfg (r.x :: r.y :: rest) s₁ = .ok t' s₂ → ∃ q dwell sheet', ∃ evs : List (Event ℝ Img),
          s₂.sim.ctx.mat.grid = some sheet' ∧ lo ≤ dwell ∧ dwell ≤ hi ∧
          ExposedAll cfg.sim.rate [(q, dwell)] sheet evs sheet' ∧
          |q.x - (besideBond si p (agent.argmax + agent.fixedOffset + (normal agent.sigma gen).1)).x| ≤ 1 / 10 ^ 4 ∧
          |q.y - (besideBond si p (agent.argmax + agent.fixedOffset + (normal agent.sigma gen).1)).y| ≤ 1 / 10 ^ 4 := by
  have hp : FloatPlaying n s := by rw [hs]; exact floatAfter_playing hc ops (floatFresh_playing n g ga beam)
  obtain ⟨sheet', si', b, goal, offset, angle, k1, k2, k3, k4, k5, k6, k7⟩ := after_call hc hp hcall
  have e1 : sheet' = sheet := by
    have := k1.ready.grid
    rw [hsheet] at this
    exact (Option.some.inj this).symm
  subst e1
  rw [hsi] at k2
  cases k2
  rw [hfeat] at k5
  obtain ⟨obs, e2, htells⟩ := features_tell knn k1 k6 (goal := goal) (by rw [k4]; exact k3) hsi hbond
  rw [k5] at e2
  cases e2
  obtain ⟨r, p, hpm, c1, c2, c3, c4⟩ := C150_choice T' k' normal agent gen t.observation si nbrs b htells
    (fun p hp => (hbond.bonds p hp).2) hx hy hnx hny
  refine ⟨r, c1, b, k3.1, k3.near, p, hpm, c2, ?_⟩
  intro rest t' s₂ hstep
  obtain ⟨op, hop⟩ : ∃ op : EnvOp ℝ O, s₁ = Env.floatExec cfg s op := by
    rcases hcall with h | ⟨a, h⟩
    · exact ⟨.reset, by simp only [Env.floatExec, h]⟩
    · exact ⟨.step a, by simp only [Env.floatExec, h]⟩
  have hs1 : s₁ = Env.floatAfter cfg (Env.fresh g ga beam GoalState.floatFresh) (ops ++ [op]) := by
    rw [hop, hs]
    simp only [Env.floatAfter, List.foldl_append, List.foldl_cons, List.foldl_nil]
  have hdist : 0 < Spec.dist si p := by
    have := (hbond.bonds p hpm).2
    rw [abs_le] at this
    linarith [this.1]
  obtain ⟨m, hmdef⟩ : ∃ m, m = agent.argmax + agent.fixedOffset + (normal agent.sigma gen).1 := ⟨_, rfl⟩
  have hmx : |m.x| ≤ 5 / 2 := by
    rw [hmdef]
    exact (abs_add_le (agent.argmax.x + agent.fixedOffset.x) (normal agent.sigma gen).1.x).trans (by linarith)
  have hmy : |m.y| ≤ 5 / 2 := by
    rw [hmdef]
    exact (abs_add_le (agent.argmax.y + agent.fixedOffset.y) (normal agent.sigma gen).1.y).trans (by linarith)
  rw [← hmdef] at c3 c4 ⊢
  have hlen := besideBond_len (m := m) hdist
  have hm2 : m.x ^ 2 + m.y ^ 2 ≤ (36 / 10) ^ 2 := by
    have a1 := sq_le_sq' (abs_le.1 hmx).1 (abs_le.1 hmx).2
    have a2 := sq_le_sq' (abs_le.1 hmy).1 (abs_le.1 hmy).2
    norm_num at a1 a2 ⊢
    linarith
  have bx : |(besideBond si p m).x - si.x| ≤ 36 / 10 :=
    abs_le_of_sq_le_sq (by nlinarith [sq_nonneg ((besideBond si p m).y - si.y)]) (by norm_num)
  have by' : |(besideBond si p m).y - si.y| ≤ 36 / 10 :=
    abs_le_of_sq_le_sq (by nlinarith [sq_nonneg ((besideBond si p m).x - si.x)]) (by norm_num)
  obtain ⟨hin, hq2, hsafe⟩ := k1.safe si hsi
  have hv := k1.ready.sound
  have inside := safe_margin hv hin hsafe (besideBond si p m) (bx.trans (by norm_num)) (by'.trans (by norm_num))
  generalize besideBond si p m = B at *
  have small : ∀ {ρ β σ : ℝ}, |β - σ| ≤ 36 / 10 → |σ + ρ - β| ≤ 3 / 10 ^ 5 → |ρ| ≤ 1000 := by
    intro ρ β σ u1 u2
    rw [abs_le] at *
    norm_num at *
    constructor <;> linarith [u1.1, u1.2, u2.1, u2.2]
  obtain ⟨sh, sh', q, P', dwell, evs, evs', f1, f2, f3, f4, f5, f6, _, f7, f8⟩ := C147_beam T S k n cfg hc hch
    (by rw [ha]; intro _ _ _ h; cases h) (by rw [ha]; exact h0) (by rw [ha]; exact hm) (by rw [ha]; exact h1) g ga beam
    (ops ++ [op]) s₁ hs1 hq (by rw [ha]; intro h; cases h) r.x r.y (small bx c3) (small by' c4) rest t' s₂ hstep
  rw [hsheet] at f1
  cases f1
  rw [hq2] at f3
  cases f3
  rw [ha] at f4 f5 f7 f8
  simp only [aimedAt] at f7 f8
  have coord : ∀ {lo hi σ ρ β x : ℝ}, 14 ≤ hi - lo → hi - lo ≤ 31 → lo ≤ σ ∧ σ ≤ hi → lo ≤ β ∧ β ≤ hi →
      |σ + ρ - β| ≤ 3 / 10 ^ 5 →
      |x - within lo hi (lo + floatNormalise lo hi σ * (hi - lo) + ρ)| ≤ 1 / 10 ^ 9 → |x - β| ≤ 1 / 10 ^ 4 := by
    intro lo hi σ ρ β x w1 w2 hσ hβ hρ hx
    have e := normalise_err w1 w2 hσ
    have e3 : |lo + floatNormalise lo hi σ * (hi - lo) - σ| ≤ 31 / 10 ^ 9 := by
      have hw : 0 < hi - lo := by linarith
      have : lo + floatNormalise lo hi σ * (hi - lo) - σ = (floatNormalise lo hi σ - (σ - lo) / (hi - lo)) * (hi - lo) := by
        field_simp
        ring
      rw [this, abs_mul, abs_of_pos hw]
      refine (mul_le_mul e w2 hw.le (by norm_num)).trans (by norm_num)
    have e4 : |lo + floatNormalise lo hi σ * (hi - lo) + ρ - β| ≤ 4 / 10 ^ 5 := by
      have : lo + floatNormalise lo hi σ * (hi - lo) + ρ - β =
          (lo + floatNormalise lo hi σ * (hi - lo) - σ) + (σ + ρ - β) := by ring
      rw [this]
      exact (abs_add_le _ _).trans ((add_le_add e3 hρ).trans (by norm_num))
    have e5 := within_near hβ e4
    have : x - β = (x - within lo hi (lo + floatNormalise lo hi σ * (hi - lo) + ρ)) +
        (within lo hi (lo + floatNormalise lo hi σ * (hi - lo) + ρ) - β) := by ring
    rw [this]
    exact (abs_add_le _ _).trans ((add_le_add hx e5).trans (by norm_num))
  have w1 := hv.width
  have w2 := hv.height
  refine ⟨P', dwell, sh', evs, f2, f4, f5, f6, ?_, ?_⟩
  · exact coord (by linarith [w1.1]) (by linarith [w1.2]) hin.1 inside.1 c3 f7
  · exact coord (by linarith [w2.1]) (by linarith [w2.2]) hin.2 inside.2 c4 f8

/-- After a reset the silicon has three bonds. -/
theorem C150_begins (T : FloatTrig) (S : Summation) (k : DotKind) (n : ℕ) (cfg : FloatEnvCfg G O P Img F)
    (hc : FloatWorld T S k n cfg) (s : Env ℝ G O P Img) (t : TimeStep F) (s' : Env ℝ G O P Img)
    (h : Env.floatReset cfg s = .ok t s') :
    ∃ sheet si nbrs, s'.sim.ctx.mat.grid = some sheet ∧ silicons sheet = [si] ∧ BondedTo sheet.positions si nbrs := by
  obtain ⟨o, sim, sheet, offset, angle, k1, k2, k3, hx, hy, k4, _, _, _, k5⟩ := C144_reset T S k cfg.sim n hc.wide hc.narrow
    hc.generate hc.lawful cfg.requiresImage s.sim
  have hD : Displaced (1 / 1000) (layOutSheet n offset angle) sheet.positions := by
    rw [k4]
    exact C141_sheet _ _ _ hc.narrow offset (hx.trans (by norm_num)) (hy.trans (by norm_num)) angle
  obtain ⟨si, hsi, _, hmem⟩ := doped_silicon k3
  have hn : (12 : ℝ) ≤ n := by exact_mod_cast hc.wide
  obtain ⟨p, hpm, hpd⟩ := atom_near_origin n (by have := hc.wide; omega) offset angle hx hy
  have hmid := k5 si hsi p hpm
  obtain ⟨nbrs, hb⟩ := C146_bonds n offset angle hx hy sheet.positions hD si hmem (by norm_num at hmid hpd ⊢; linarith)
  refine ⟨sheet, si, nbrs, ?_, hsi, hb⟩
  unfold Env.floatReset at h
  simp only [k1] at h
  obtain ⟨g', bm, ga', e⟩ := resetAdapter_eq cfg.plain { s with requiresReset := false, sim := sim, last := o }
  rw [e] at h
  dsimp only at h
  split at h
  · cases h
  · split at h
    · cases h
    · cases h
      exact k2

/-- After any history every step returns, if the waiting times drawn are at least a microsecond. -/
theorem C150_returns (T : FloatTrig) (S : Summation) (k : DotKind) (n : ℕ) (cfg : FloatEnvCfg G O P Img (List ℝ))
    (hc : FloatWorld T S k n cfg) (hst : FloatSteps cfg) (knn : FloatKnn) (hfeat : cfg.features = floatMaterialFeatures knn)
    (hwait : ∀ scale g, 1 / 1000000 ≤ (cfg.sim.rng.exponential scale g).1) (hfuel : 3600000000 ≤ cfg.sim.fuel)
    (g : G) (ga : Option G) (beam : V2 ℝ) (ops : List (EnvOp ℝ O))
    (s : Env ℝ G O P Img) (hs : s = Env.floatAfter cfg (Env.fresh g ga beam GoalState.floatFresh) ops)
    (a : List ℝ) (hlen : a.length = actionSize cfg.adapter) : ∃ t s', Env.floatStep cfg a s = .ok t s' := by
  have hp : FloatPlaying n s := by rw [hs]; exact floatAfter_playing hc ops (floatFresh_playing n g ga beam)
  have hn : 5 ≤ n := by have := hc.wide; omega
  by_cases hq : s.requiresReset = true
  · have : Env.floatStep cfg a s = Env.floatReset cfg s := by unfold Env.floatStep; rw [if_pos hq]
    rw [this]
    exact (C150_features T S k n cfg hc knn hfeat g ga beam ops s hs).1
  simp only [Bool.not_eq_true] at hq
  obtain ⟨sheet, hlive⟩ := hp.live hq
  obtain ⟨b, hb⟩ := hlive.goal
  obtain ⟨q, hsi, hu⟩ := hlive.silicon
  obtain ⟨offset, angle, hx, hy, hD⟩ := hlive.laid
  obtain ⟨h4, hnd⟩ := displaced_good hc.wide hx hy hD
  rcases envFloatStep hc hp hq a hlive hb with ⟨e, bm, hact, he⟩ |
    ⟨cs, bm, hact, ⟨e, sim, sheet', c2, _, happ, he, hl, _⟩ |
    ⟨o, sim, sheet', si, s3, goal, _, k1, k2, k3, kimg, _, r4, rnd, k4, k5, _, _, he⟩⟩
  · obtain ⟨cs, bm', hok⟩ := floatAction_total (v := cfg.sim.numpy) (p := cfg.actions) hst.seconds hlive.wf hsi
      hlive.ready.sound.rect hlen s.beam
    rw [hok] at hact
    cases hact
  · obtain ⟨c, rfl, hcu, d1, d2⟩ := floatAction_mem _ _ hst.dwellPos hst.dwellOrder
      (hst.dwellHour.le.trans (by norm_num)) hact
    rcases floatControls_return cfg.sim hst.accepted hc.lawful hst.chooses hc.doped s.last.fov [c] (by
        intro c' hc'
        rw [List.mem_singleton] at hc'
        subst hc'
        refine ⟨lt_of_le_of_lt d2 hst.dwellHour, hst.rates _ _ h4 hnd (fun p hpm => ?_) (beam_near16 hlive.ready hcu)⟩
        obtain ⟨m1, m2⟩ := hlive.ready.within p hpm
        exact ⟨m1.trans (by norm_num), m2.trans (by norm_num)⟩) 0 _ sheet hlive.ready.matFlag hlive.ready.grid
        hlive.ready.doped rfl with ⟨el, c', hr⟩ | ⟨⟨c', hr⟩, hf⟩
    · rw [happ] at hr; cases hr
    · exact absurd (hf hwait) (by omega)
  · have hD' : Displaced (1 / 1000) (layOutSheet n offset angle) sheet'.positions := by rw [k2]; exact hD
    obtain ⟨obs, hobs, _⟩ := features_defined knn hn k1 hD' (displaced_good hc.wide hx hy hD').2 s.goal
    rw [he, hfeat, hobs]
    dsimp only
    split_ifs
    · exact ⟨_, _, rfl⟩
    · exact ⟨_, _, rfl⟩

/-! ### The hypotheses can be met -/

/-- Angles, sines and cosines computed without error and rounded. -/
noncomputable def roundedSingle : SingleLib where
  arctan2 y x := f32 (getAngle ⟨x, y⟩)
  cos t := f32 (Real.cos t)
  sin t := f32 (Real.sin t)
  size y x := by
    have h1 : |getAngle (⟨x, y⟩ : V2 ℝ)| ≤ Real.pi := Complex.abs_arg_le_pi _
    have h2 := f32_rel (getAngle (⟨x, y⟩ : V2 ℝ))
    have hpi := Real.pi_lt_d2
    generalize getAngle (⟨x, y⟩ : V2 ℝ) = t at *
    have h3 : |f32 t| ≤ |f32 t - t| + |t| := by
      have : f32 t = (f32 t - t) + t := by ring
      calc |f32 t| = |(f32 t - t) + t| := by rw [← this]
        _ ≤ _ := abs_add_le _ _
    norm_num at h2 hpi
    linarith
  angle_err y x := by
    refine ⟨0, ?_⟩
    have h1 : |getAngle (⟨x, y⟩ : V2 ℝ)| ≤ Real.pi := Complex.abs_arg_le_pi _
    have h2 := f32_rel (getAngle (⟨x, y⟩ : V2 ℝ))
    have hpi := Real.pi_lt_d2
    simp only [Int.cast_zero, zero_mul, add_zero]
    refine h2.trans ?_
    norm_num at hpi ⊢
    linarith
  cos_err t _ := by
    refine (f32_rel _).trans ?_
    have := Real.abs_cos_le_one t
    norm_num
    linarith
  sin_err t _ := by
    refine (f32_rel _).trans ?_
    have := Real.abs_sin_le_one t
    norm_num
    linarith

/-- An environment for the greedy agent. -/
noncomputable def greedyPlay : FloatEnvCfg Unit Unit Unit Unit (List ℝ) :=
  { floatEnvPlay with adapter := .materialFrame 1500000 1500000 10, features := floatMaterialFeatures roundedLib.knn }

/-- The default agent: the beam on the neighbour. -/
noncomputable def greedyDefault : Greedy := ⟨⟨142 / 100, 0⟩, ⟨0, 0⟩, 0⟩

/-- After a reset, the default agent has the beam put on the neighbour of the silicon that is nearest to the goal. -/
example : ∃ t s r t' s', Env.floatReset greedyPlay (Env.fresh () none ⟨0, 0⟩ GoalState.floatFresh) = .ok t s ∧
    greedyDefault.floatStep roundedSingle .plain (fun _ g => (⟨0, 0⟩, g)) t.observation () = .ok r () ∧
    Env.floatStep greedyPlay [r.x, r.y] s = .ok t' s' ∧
    ∃ sheet si b, ∃ p ∈ sheet.positions, ∃ q, s.sim.ctx.mat.grid = some sheet ∧ silicons sheet = [si] ∧
      Spec.dist s.goal.goal b ≤ 1 / 10 ^ 9 ∧ |Spec.dist si p - 142 / 100| ≤ 2 / 1000 ∧
      (∃ dwell sheet', ∃ evs : List (Event ℝ Unit), ExposedAll greedyPlay.sim.rate [(q, dwell)] sheet evs sheet') ∧
      |q.x - (besideBond si p ⟨142 / 100, 0⟩).x| ≤ 1 / 10 ^ 4 := by
  have hw : FloatWorld roundedTrig inOrder .fusedFirst 50 greedyPlay :=
    ⟨by norm_num, by norm_num, rfl, Witness.rng_lawful zero_le_one, floatPristine_doped _⟩
  have hst : FloatSteps greedyPlay :=
    ⟨chooses_witness 1, fun _ _ h4 _ hbox hq => floatPristine_at _ h4 hbox hq, .inr rfl,
      by norm_num [greedyPlay, dwellRange], by norm_num [greedyPlay, dwellRange], by norm_num [greedyPlay, dwellRange],
      .inr (.inl rfl)⟩
  obtain ⟨⟨t, s, h1⟩, _⟩ := C150_features _ _ _ _ greedyPlay hw roundedLib.knn rfl () none ⟨0, 0⟩ [] _ rfl
  have h1' : Env.floatReset greedyPlay (Env.fresh () none ⟨0, 0⟩ GoalState.floatFresh) = .ok t s := h1
  have hs : s = Env.floatAfter greedyPlay (Env.fresh () none ⟨0, 0⟩ GoalState.floatFresh) [.reset] := by
    simp only [Env.floatAfter, List.foldl, Env.floatExec, h1']
  obtain ⟨_, _, _, _, _, _, _, _, _, _, _, _, hq, _⟩ := C147_goal _ _ _ _ greedyPlay hw () none ⟨0, 0⟩ [] _ rfl t s h1
  obtain ⟨sheet, si, nbrs, e1, e2, e3⟩ := C150_begins _ _ _ _ greedyPlay hw _ t s h1
  obtain ⟨r, c1, b, _, c2, p, c3, _, c4⟩ := C150_beam _ _ _ _ greedyPlay hw hst.chooses roundedLib.knn rfl 1500000 1500000 10
    rfl (by norm_num) le_rfl (by norm_num) () none ⟨0, 0⟩ [] _ rfl t s (.inl h1) hq sheet e1 si e2 nbrs e3 roundedSingle
    .plain (fun _ g => (⟨0, 0⟩, g)) greedyDefault () (by norm_num [greedyDefault, abs_le]) (by norm_num [greedyDefault])
    (by norm_num) (by norm_num)
  obtain ⟨t', s', h2⟩ := C150_returns _ _ _ _ greedyPlay hw hst roundedLib.knn rfl (by
      intro scale g
      show (1 : ℝ) / 1000000 ≤ 1
      norm_num) (by show 3600000000 ≤ 3600000000; norm_num) () none ⟨0, 0⟩ [.reset] s hs [r.x, r.y]
      (by simp [greedyPlay, actionSize])
  obtain ⟨q, dwell, sheet', evs, _, _, _, d1, d2, _⟩ := c4 [] t' s' h2
  refine ⟨t, s, r, t', s', h1', c1, h2, sheet, si, b, p, (e3.bonds p c3).1, q, e1, e2, c2, (e3.bonds p c3).2,
    ⟨dwell, sheet', evs, d1⟩, ?_⟩
  have : greedyDefault.argmax + greedyDefault.fixedOffset + (⟨0, 0⟩ : V2 ℝ) = ⟨142 / 100, 0⟩ := by
    apply V2.ext <;> simp [greedyDefault]
  rw [← this]
  exact d2

end PD.Props
