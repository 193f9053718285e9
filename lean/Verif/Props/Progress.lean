/- Property C151: greedy play gets to the goal. -/
import Verif.Lemmas.Progress
import Verif.Spec.Progress
import Verif.Props.Reach

set_option linter.unusedSectionVars false
set_option linter.unusedSimpArgs false

namespace PD.Props
open PD PD.Spec
variable {G O P Img F : Type}

/-- On a sheet whose atoms are within a thousandth of an Å of the honeycomb, the neighbour nearest to any other atom at most
1000 Å away is nearer to it by a quarter of an Å. -/
theorem C151_nearer (n : ℕ) (offset : V2 ℝ) (angle : ℝ) (ps : List (V2 ℝ))
    (hD : Displaced (1 / 1000) (layOutSheet n offset angle) ps) (si b p : V2 ℝ) (hb : b ∈ ps) (hne : si ≠ b)
    (hfar : Spec.dist si b ≤ 1000) (hp : NearestTo ps b si p) : Spec.dist p b ≤ Spec.dist si b - 1 / 4 := by
  obtain ⟨nbrs, hbond, _, hmin⟩ := hp
  obtain ⟨w, hw, hwd⟩ := bonded_progress n offset angle hD hbond hb (Ne.symm hne)
  have := hmin w hw
  norm_num at this hwd ⊢
  linarith

theorem way_bound (n : ℕ) (offset : V2 ℝ) (angle : ℝ) {ps : List (V2 ℝ)}
    (hD : Displaced (1 / 1000) (layOutSheet n offset angle) ps) {si b : V2 ℝ} (hb : b ∈ ps)
    (hfar : Spec.dist si b ≤ 1000) {m : ℕ} {x : V2 ℝ} (h : WayTo ps b si m x) :
    Spec.dist x b ≤ Spec.dist si b - m / 4 := by
  induction h with
  | start => norm_num
  | @move m x p _ hne hp ih =>
    have hm : (0 : ℝ) ≤ m := Nat.cast_nonneg m
    have := C151_nearer n offset angle ps hD x b p hb hne (by linarith) hp
    push_cast
    linarith

/-- Among the neighbours of an atom with three bonds there is one that is nearest to the goal. -/
theorem nearest_exists {ps : List (V2 ℝ)} {si : V2 ℝ} {nbrs : List (V2 ℝ)} (hbond : BondedTo ps si nbrs) (b : V2 ℝ) :
    ∃ p, NearestTo ps b si p := by
  have hne : nbrs ≠ [] := by
    intro e
    have := hbond.three
    rw [e] at this
    simp at this
  obtain ⟨p, hp, hmin⟩ := nbrs.toFinset.exists_min_image (fun p => Spec.dist p b)
    (by obtain ⟨q, hq⟩ := List.exists_mem_of_ne_nil _ hne; exact ⟨q, List.mem_toFinset.2 hq⟩)
  refine ⟨p, nbrs, hbond, List.mem_toFinset.1 hp, fun p' hp' => ?_⟩
  have h1 := hmin p' (List.mem_toFinset.2 hp')
  have h2 := dist_nonneg' si b
  have : 0 ≤ (1 + Spec.dist si b) / 10 ^ 5 := by positivity
  linarith

/-- Moves to the neighbour nearest to the goal: there are at most four for every Å of the distance, and if the goal is
further from the edge of the sheet than from the silicon, they can be continued until the silicon is at the goal. -/
theorem C151_way (n : ℕ) (offset : V2 ℝ) (angle : ℝ) (hx : |offset.x| ≤ 71 / 100) (hy : |offset.y| ≤ 71 / 100)
    (ps : List (V2 ℝ)) (hD : Displaced (1 / 1000) (layOutSheet n offset angle) ps) (si b : V2 ℝ) (hsi : si ∈ ps)
    (hb : b ∈ ps) (hfar : Spec.dist si b ≤ 1000) :
    (∀ m x, WayTo ps b si m x → (m : ℝ) ≤ 4 * Spec.dist si b ∧ Spec.dist x b ≤ Spec.dist si b - m / 4) ∧
    (Spec.dist ⟨0, 0⟩ b + Spec.dist si b ≤ 71 / 100 * n - 64 / 10 →
      (∀ m x, WayTo ps b si m x → x ≠ b → ∃ p, NearestTo ps b x p ∧ WayTo ps b si (m + 1) p) ∧
      ∃ m, WayTo ps b si m b) := by
  have hbound : ∀ m x, WayTo ps b si m x → (m : ℝ) ≤ 4 * Spec.dist si b ∧ Spec.dist x b ≤ Spec.dist si b - m / 4 := by
    intro m x h
    have h1 := way_bound n offset angle hD hb hfar h
    have h2 := dist_nonneg' x b
    exact ⟨by linarith, h1⟩
  refine ⟨hbound, fun hroom => ?_⟩
  have hgo : ∀ m x, WayTo ps b si m x → x ≠ b → ∃ p, NearestTo ps b x p ∧ WayTo ps b si (m + 1) p := by
    intro m x h hne
    have hmem : x ∈ ps := by
      cases h with
      | start => exact hsi
      | move _ _ hn =>
        obtain ⟨nbrs, hbond, hp, _⟩ := hn
        exact (hbond.bonds _ hp).1
    have h1 := (hbound m x h).2
    have hm : (0 : ℝ) ≤ m := Nat.cast_nonneg m
    have h2 := dist_tri ⟨0, 0⟩ b x
    rw [dist_comm' b x] at h2
    obtain ⟨nbrs, hbond⟩ := C146_bonds n offset angle hx hy ps hD x hmem (by linarith)
    obtain ⟨p, hp⟩ := nearest_exists hbond b
    exact ⟨p, hp, .move h hne hp⟩
  refine ⟨hgo, ?_⟩
  by_contra hno
  have hall : ∀ m, ∃ x, WayTo ps b si m x := by
    intro m
    induction m with
    | zero => exact ⟨si, .start⟩
    | succ m ih =>
      obtain ⟨x, h⟩ := ih
      obtain ⟨p, _, hp⟩ := hgo m x h (fun e => hno ⟨m, e ▸ h⟩)
      exact ⟨p, hp⟩
  obtain ⟨m, hm⟩ := exists_nat_gt (4 * Spec.dist si b)
  obtain ⟨x, h⟩ := hall m
  have := (hbound m x h).1
  linarith

/-! ### In the environment -/

theorem after_op {cfg : FloatEnvCfg G O P Img F} {s₀ s s' : Env ℝ G O P Img} {ops : List (EnvOp ℝ O)}
    (hs : s = Env.floatAfter cfg s₀ ops) {op : EnvOp ℝ O} (h : Env.floatExec cfg s op = s') :
    s' = Env.floatAfter cfg s₀ (ops ++ [op]) := by
  rw [← h, hs]
  simp only [Env.floatAfter, List.foldl_append, List.foldl_cons, List.foldl_nil]

/-- After a reset, whatever the history before it, and whatever the actions: if in every step the silicon stays or goes to
the neighbour nearest to the goal, it goes at most four times for every Å of the distance, of which there are fewer than
52; it is nearer by a quarter of an Å for every move; the episode ends when it is at the goal, not before; and if the goal
is further from the edge of the sheet than from the silicon, the silicon has three bonds all the time. -/
theorem C151_arrives (T : FloatTrig) (S : Summation) (k : DotKind) (n : ℕ) (cfg : FloatEnvCfg G O P Img F)
    (hc : FloatWorld T S k n cfg) (g : G) (ga : Option G) (beam : V2 ℝ) (ops : List (EnvOp ℝ O))
    (s₀ : Env ℝ G O P Img) (hs : s₀ = Env.floatAfter cfg (Env.fresh g ga beam GoalState.floatFresh) ops)
    (t : TimeStep F) (s : Env ℝ G O P Img) (h : Env.floatReset cfg s₀ = .ok t s) :
    ∃ sheet si b, s.sim.ctx.mat.grid = some sheet ∧ silicons sheet = [si] ∧ b ∈ sheet.positions ∧
      Spec.dist s.goal.goal b ≤ 1 / 10 ^ 9 ∧ si ≠ b ∧ Spec.dist si b < 52 ∧
      ∀ m s', PlaysTowards cfg b s m s' → ∃ sheet' x, s'.sim.ctx.mat.grid = some sheet' ∧
        sheet'.positions = sheet.positions ∧ silicons sheet' = [x] ∧ (m : ℝ) ≤ 4 * Spec.dist si b ∧
        Spec.dist x b ≤ Spec.dist si b - m / 4 ∧ (s'.requiresReset = true ↔ x = b) ∧
        (Spec.dist ⟨0, 0⟩ b + Spec.dist si b ≤ 71 / 100 * n - 64 / 10 → ∃ nbrs, BondedTo sheet'.positions x nbrs) := by
  have hp : FloatPlaying n s₀ := by rw [hs]; exact floatAfter_playing hc ops (floatFresh_playing n g ga beam)
  obtain ⟨sheet, si, b, g1, g2, _, g3, g4, g5, g6, _, g7, g8, _⟩ := C147_goal T S k n cfg hc g ga beam ops s₀ hs t s h
  have hs1 : s = Env.floatAfter cfg (Env.fresh g ga beam GoalState.floatFresh) (ops ++ [.reset]) :=
    after_op hs (by simp only [Env.floatExec, h])
  have hp1 : FloatPlaying n s := by rw [hs1]; exact floatAfter_playing hc _ (floatFresh_playing n g ga beam)
  obtain ⟨sheet₁, hlive⟩ := hp1.live g8
  have e1 : sheet₁ = sheet := by
    have := hlive.ready.grid
    rw [g1] at this
    exact (Option.some.inj this).symm
  subst e1
  obtain ⟨offset, angle, hx, hy, hD⟩ := hlive.laid
  refine ⟨sheet₁, si, b, g1, g3, g4, g7, Ne.symm g5, g6, ?_⟩
  have inv : ∀ m s', PlaysTowards cfg b s m s' →
      (∃ ops', s' = Env.floatAfter cfg (Env.fresh g ga beam GoalState.floatFresh) ops') ∧ s'.goal.goal = s.goal.goal ∧
      ∃ sheet' x, s'.sim.ctx.mat.grid = some sheet' ∧ sheet'.positions = sheet₁.positions ∧ silicons sheet' = [x] ∧
        x ∈ sheet₁.positions ∧ Spec.dist x b ≤ Spec.dist si b - m / 4 ∧ (s'.requiresReset = true ↔ x = b) := by
    intro m s' hrun
    -- what a step does
    have one : ∀ (s₁ s₂ : Env ℝ G O P Img) (a : List ℝ) (t' : TimeStep F) (sheet' : Grid ℝ),
        (∃ ops', s₁ = Env.floatAfter cfg (Env.fresh g ga beam GoalState.floatFresh) ops') →
        s₁.goal.goal = s.goal.goal → s₁.sim.ctx.mat.grid = some sheet' → sheet'.positions = sheet₁.positions →
        s₁.requiresReset = false → Env.floatStep cfg a s₁ = .ok t' s₂ →
        (∃ ops', s₂ = Env.floatAfter cfg (Env.fresh g ga beam GoalState.floatFresh) ops') ∧ s₂.goal.goal = s.goal.goal ∧
        ∃ sheet₂ x, s₂.sim.ctx.mat.grid = some sheet₂ ∧ sheet₂.positions = sheet₁.positions ∧ silicons sheet₂ = [x] ∧
          (s₂.requiresReset = true ↔ x = b) := by
      rintro s₁ s₂ a t' sheet' ⟨ops', e⟩ hgoal hgrid hpos hq hstep
      obtain ⟨sh, sh', y, b', k1, k2, k3, k4, _, k5, k6, k7, k8, k9, k10⟩ :=
        C147_ends T S k n cfg hc g ga beam ops' s₁ e hq a t' s₂ hstep
      have e2 : sh = sheet' := by
        rw [hgrid] at k1
        exact (Option.some.inj k1).symm
      subst e2
      have hb' : b = b' := k8 b (by rw [k3, hpos]; exact g4) (by rw [k4, hgoal]; exact g7)
      subst hb'
      refine ⟨⟨_, after_op e (op := .step a) (by simp only [Env.floatExec, hstep])⟩, k4.trans hgoal, sh', y, k2,
        k3.trans hpos, k5, ?_⟩
      constructor
      · intro hr
        by_contra hne
        rw [(k10 hne).2.2.2] at hr
        cases hr
      · intro hy
        exact (k9 hy).2.2.2
    induction hrun with
    | start =>
      have hmem : si ∈ sheet₁.positions := by
        obtain ⟨q, hq, _, hm⟩ := doped_silicon g2
        rw [g3] at hq
        cases hq
        exact hm
      refine ⟨⟨_, hs1⟩, rfl, sheet₁, si, g1, rfl, g3, hmem, by norm_num, ?_⟩
      rw [g8]
      exact ⟨fun h => (Bool.false_ne_true h).elim, fun h => (g5 h.symm).elim⟩
    | @stay m s₁ s₂ a t' sh sh' _ hq hstep h1 h2 h3 ih =>
      obtain ⟨ho, hg, sheet', x, i1, i2, i3, i4, i5, i6⟩ := ih
      obtain ⟨ho', hg', sheet₂, y, j1, j2, j3, j4⟩ := one s₁ s₂ a t' sheet' ho hg i1 i2 hq hstep
      have hxy : y = x := by
        rw [h1] at i1
        rw [h2] at j1
        cases i1
        cases j1
        rw [j3, i3] at h3
        exact (List.cons.inj h3).1
      subst hxy
      exact ⟨ho', hg', sheet₂, y, j1, j2, j3, i4, i5, j4⟩
    | @move m s₁ s₂ a t' sh sh' z p _ hq hstep h1 h2 h3 h4 hn ih =>
      obtain ⟨ho, hg, sheet', x, i1, i2, i3, i4, i5, i6⟩ := ih
      obtain ⟨ho', hg', sheet₂, y, j1, j2, j3, j4⟩ := one s₁ s₂ a t' sheet' ho hg i1 i2 hq hstep
      rw [h1] at i1
      rw [h2] at j1
      cases i1
      cases j1
      rw [h3] at i3
      rw [h4] at j3
      cases i3
      cases j3
      rw [i2] at hn
      have hne : z ≠ b := by
        intro hz
        rw [i6.2 hz] at hq
        cases hq
      have hm : (0 : ℝ) ≤ m := Nat.cast_nonneg m
      have hnear := C151_nearer n offset angle _ hD z b p g4 hne (by linarith) hn
      have hpm : p ∈ sheet₁.positions := by
        obtain ⟨nbrs, hbond, hp', _⟩ := hn
        exact (hbond.bonds _ hp').1
      refine ⟨ho', hg', _, p, h2, j2, h4, hpm, ?_, j4⟩
      push_cast
      linarith
  intro m s' hrun
  obtain ⟨_, _, sheet', x, i1, i2, i3, i4, i5, i6⟩ := inv m s' hrun
  have h0 := dist_nonneg' x b
  have hm : (0 : ℝ) ≤ m := Nat.cast_nonneg m
  refine ⟨sheet', x, i1, i2, i3, by linarith, i5, i6, fun hroom => ?_⟩
  rw [i2]
  have h2 := dist_tri ⟨0, 0⟩ b x
  rw [dist_comm' b x] at h2
  exact C146_bonds n offset angle hx hy _ hD x i4 (by linarith)

/-- After any history, and a call that returned and did not end the episode: the silicon is not at the goal. -/
theorem not_at_goal {T : FloatTrig} {S : Summation} {k : DotKind} {n : ℕ} {cfg : FloatEnvCfg G O P Img F}
    (hc : FloatWorld T S k n cfg) {g : G} {ga : Option G} {beam : V2 ℝ} {ops : List (EnvOp ℝ O)}
    {s : Env ℝ G O P Img} (hs : s = Env.floatAfter cfg (Env.fresh g ga beam GoalState.floatFresh) ops)
    {t : TimeStep F} {s₁ : Env ℝ G O P Img}
    (hcall : Env.floatReset cfg s = .ok t s₁ ∨ ∃ a, Env.floatStep cfg a s = .ok t s₁) (hq : s₁.requiresReset = false)
    {sheet : Grid ℝ} (hsheet : s₁.sim.ctx.mat.grid = some sheet) {si : V2 ℝ} (hsi : silicons sheet = [si]) :
    Spec.dist s₁.goal.goal si > 1 / 10 ^ 9 ∧ ∃ offset angle, |offset.x| ≤ 71 / 100 ∧ |offset.y| ≤ 71 / 100 ∧
      Displaced (1 / 1000) (layOutSheet n offset angle) sheet.positions := by
  have hp : FloatPlaying n s := by rw [hs]; exact floatAfter_playing hc ops (floatFresh_playing n g ga beam)
  obtain ⟨op, hop⟩ : ∃ op : EnvOp ℝ O, Env.floatExec cfg s op = s₁ := by
    rcases hcall with h | ⟨a, h⟩
    · exact ⟨.reset, by simp only [Env.floatExec, h]⟩
    · exact ⟨.step a, by simp only [Env.floatExec, h]⟩
  have hs1 := after_op hs hop
  have hp1 : FloatPlaying n s₁ := by rw [hs1]; exact floatAfter_playing hc _ (floatFresh_playing n g ga beam)
  obtain ⟨sheet₁, hlive⟩ := hp1.live hq
  have e1 : sheet₁ = sheet := by
    have := hlive.ready.grid
    rw [hsheet] at this
    exact (Option.some.inj this).symm
  subst e1
  obtain ⟨offset, angle, hx, hy, hD⟩ := hlive.laid
  refine ⟨?_, offset, angle, hx, hy, hD⟩
  have reset : Env.floatReset cfg s = .ok t s₁ → Spec.dist s₁.goal.goal si > 1 / 10 ^ 9 := by
    intro h
    obtain ⟨sh, q, b, g1, g2, _, g3, g4, g5, g6, _, g7, g8, _⟩ := C147_goal T S k n cfg hc g ga beam ops s hs t s₁ h
    rw [hsheet] at g1
    cases g1
    rw [hsi] at g3
    cases g3
    obtain ⟨q, hq', _, hm⟩ := doped_silicon g2
    rw [hsi] at hq'
    cases hq'
    have h1 := sheet_apart hD hm g4 (Ne.symm g5)
    have h2 := dist_tri si s₁.goal.goal b
    rw [dist_comm' si s₁.goal.goal] at h2
    norm_num at h1 g7 ⊢
    linarith
  rcases hcall with h | ⟨a, h⟩
  · exact reset h
  by_cases hr : s.requiresReset = true
  · have : Env.floatStep cfg a s = Env.floatReset cfg s := by unfold Env.floatStep; rw [if_pos hr]
    exact reset (this ▸ h)
  simp only [Bool.not_eq_true] at hr
  obtain ⟨sh, sh', y, b', k1, k2, k3, k4, _, k5, k6, k7, k8, k9, k10⟩ :=
    C147_ends T S k n cfg hc g ga beam ops s hs hr a t s₁ h
  rw [hsheet] at k2
  cases k2
  rw [hsi] at k5
  cases k5
  by_contra hno
  have hmem : si ∈ sheet₁.positions := by
    obtain ⟨q, hq', _, hm⟩ := doped_silicon hlive.ready.doped
    rw [hsi] at hq'
    cases hq'
    exact hm
  have := (k9 (k8 si hmem (not_lt.1 hno))).2.2.2
  rw [hq] at this
  cases this

/-- The greedy agent, shown the observation of a call that did not end the episode, after any history, has the beam put
beside the bond to a neighbour that is nearer to the goal than the silicon is, by a quarter of an Å. -/
theorem C151_aim (T : FloatTrig) (S : Summation) (k : DotKind) (n : ℕ) (cfg : FloatEnvCfg G O P Img (List ℝ))
    (hc : FloatWorld T S k n cfg) (hch : Chooses cfg.sim.rng) (knn : FloatKnn)
    (hfeat : cfg.features = floatMaterialFeatures knn) (lo hi : Timedelta) (D : ℝ)
    (ha : cfg.adapter = .materialFrame lo hi D) (h0 : 0 ≤ lo) (hm : lo ≤ hi) (h1 : hi ≤ 86400000000)
    (g : G) (ga : Option G) (beam : V2 ℝ) (ops : List (EnvOp ℝ O))
    (s : Env ℝ G O P Img) (hs : s = Env.floatAfter cfg (Env.fresh g ga beam GoalState.floatFresh) ops)
    (t : TimeStep (List ℝ)) (s₁ : Env ℝ G O P Img)
    (hcall : Env.floatReset cfg s = .ok t s₁ ∨ ∃ a, Env.floatStep cfg a s = .ok t s₁) (hq : s₁.requiresReset = false)
    (sheet : Grid ℝ) (hsheet : s₁.sim.ctx.mat.grid = some sheet) (si : V2 ℝ) (hsi : silicons sheet = [si])
    (nbrs : List (V2 ℝ)) (hbond : BondedTo sheet.positions si nbrs) (hfar : Spec.dist si s₁.goal.goal ≤ 999)
    (T' : SingleLib) (k' : DotKind) (normal : ℝ → G → V2 ℝ × G) (agent : Greedy) (gen : G)
    (hx : |agent.argmax.x + agent.fixedOffset.x| ≤ 2) (hy : |agent.argmax.y + agent.fixedOffset.y| ≤ 2)
    (hnx : |(normal agent.sigma gen).1.x| ≤ 1 / 2) (hny : |(normal agent.sigma gen).1.y| ≤ 1 / 2) :
    ∃ r, agent.floatStep T' k' normal t.observation gen = .ok r (normal agent.sigma gen).2 ∧
      ∃ b ∈ sheet.positions, Spec.dist s₁.goal.goal b ≤ 1 / 10 ^ 9 ∧ ∃ p, NearestTo sheet.positions b si p ∧
        Spec.dist p b ≤ Spec.dist si b - 1 / 4 ∧
        ∀ rest t' s₂, Env.floatStep cfg (r.x :: r.y :: rest) s₁ = .ok t' s₂ → ∃ q dwell sheet', ∃ evs : List (Event ℝ Img),
          s₂.sim.ctx.mat.grid = some sheet' ∧ lo ≤ dwell ∧ dwell ≤ hi ∧
          ExposedAll cfg.sim.rate [(q, dwell)] sheet evs sheet' ∧
          |q.x - (besideBond si p (agent.argmax + agent.fixedOffset + (normal agent.sigma gen).1)).x| ≤ 1 / 10 ^ 4 ∧
          |q.y - (besideBond si p (agent.argmax + agent.fixedOffset + (normal agent.sigma gen).1)).y| ≤ 1 / 10 ^ 4 := by
  obtain ⟨r, c1, b, hb, hgb, p, hpm, hmin, c2⟩ := C150_beam T S k n cfg hc hch knn hfeat lo hi D ha h0 hm h1 g ga beam ops s
    hs t s₁ hcall hq sheet hsheet si hsi nbrs hbond T' k' normal agent gen hx hy hnx hny
  obtain ⟨hng, offset, angle, _, _, hD⟩ := not_at_goal hc hs hcall hq hsheet hsi
  have hne : si ≠ b := by
    intro e
    rw [e] at hng
    exact absurd hgb (not_le.2 hng)
  have hn : NearestTo sheet.positions b si p := ⟨nbrs, hbond, hpm, hmin⟩
  have hd : Spec.dist si b ≤ 1000 := by
    have := dist_tri si s₁.goal.goal b
    norm_num at hgb
    linarith
  exact ⟨r, c1, b, hb, hgb, p, hn, C151_nearer n offset angle _ hD si b p hb hne hd hn, c2⟩

/-! ### The hypotheses can be met -/

/-- Near the middle of a sheet of 50 columns: from an atom, there is a way to each of its neighbours. -/
example : ∃ si b m, si ≠ b ∧ WayTo (layOutSheet 50 ⟨0, 0⟩ 0) b si m b := by
  obtain ⟨si, hsi, hd⟩ := atom_near_origin 50 (by norm_num) ⟨0, 0⟩ 0 (by norm_num) (by norm_num)
  have hD : Displaced (1 / 1000) (layOutSheet 50 ⟨0, 0⟩ 0) (layOutSheet 50 ⟨0, 0⟩ 0) :=
    List.forall₂_same.2 (fun p _ => by rw [dist_self']; norm_num)
  obtain ⟨nbrs, hbond⟩ := C146_bonds 50 ⟨0, 0⟩ 0 (by norm_num) (by norm_num) _ hD si hsi (by norm_num at hd ⊢; linarith)
  obtain ⟨b, hb⟩ := List.exists_mem_of_ne_nil nbrs (by
    intro e
    have := hbond.three
    rw [e] at this
    simp at this)
  obtain ⟨hbm, hbd⟩ := hbond.bonds b hb
  rw [abs_le] at hbd
  have h2 := dist_tri ⟨0, 0⟩ si b
  obtain ⟨m, hm⟩ := ((C151_way 50 ⟨0, 0⟩ 0 (by norm_num) (by norm_num) _ hD si b hsi hbm (by linarith [hbd.2])).2
    (by norm_num at hd h2 hbd ⊢; linarith [hbd.2])).2
  refine ⟨si, b, m, ?_, hm⟩
  rintro rfl
  rw [dist_self'] at hbd
  linarith [hbd.1]

/-- Rates by which the silicon jumps to the atom `i`, from wherever it is. -/
noncomputable def jumpTo (i : ℕ) : RateFunction ℝ := fun g _ => .ok (List.replicate 3 ⟨siliconAt g.positions i, 1⟩)

open Classical in
/-- Rates by which the silicon jumps to the atom `i` of a sheet with at least as many. -/
noncomputable def jumpRate (i : ℕ) : RateFunction ℝ := fun g q =>
  if i < g.positions.length then jumpTo i g q else .ok (List.replicate 3 ⟨g, 1⟩)

/-- The environment for the greedy agent with other rates. -/
noncomputable def playWith (rate : RateFunction ℝ) : FloatEnvCfg Unit Unit Unit Unit (List ℝ) :=
  { greedyPlay with sim := { greedyPlay.sim with rate := rate } }

theorem jumpRate_doped (i : ℕ) : DopedRates (jumpRate i) := by
  constructor
  · intro g p ss h x hx
    unfold jumpRate jumpTo at h
    split_ifs at h <;> cases h <;> rw [List.eq_of_mem_replicate hx] <;> norm_num
  · intro g p ss h hd x hx
    unfold jumpRate jumpTo at h
    split_ifs at h with hi <;> cases h <;> rw [List.eq_of_mem_replicate hx]
    · exact ⟨siliconAt_doped hi, rfl⟩
    · exact ⟨hd, rfl⟩

theorem jump_chain {i : ℕ} {q : V2 ℝ} : ∀ {l : List (Grid ℝ)} {g : Grid ℝ}, i < g.positions.length →
    ChainFrom (Offered (jumpRate i) q) g l → l.getLast?.getD g = g ∨ l.getLast?.getD g = siliconAt g.positions i
  | [], g, _, _ => .inl rfl
  | x :: l, g, hi, h => by
    obtain ⟨⟨ss, hss, y, hy, hyx, _⟩, hrest⟩ := h
    have hx : x = siliconAt g.positions i := by
      unfold jumpRate jumpTo at hss
      rw [if_pos hi] at hss
      cases hss
      rw [List.eq_of_mem_replicate hy] at hyx
      exact hyx.symm
    subst hx
    have e : (siliconAt g.positions i :: l).getLast?.getD g = l.getLast?.getD (siliconAt g.positions i) := by
      cases l with
      | nil => rfl
      | cons a l => simp [List.getLast?_cons]
    rw [e]
    rcases jump_chain (l := l) (g := siliconAt g.positions i) hi hrest with h | h
    · exact .inr h
    · exact .inr h

theorem playWith_reset (rate : RateFunction ℝ) (s : Env ℝ Unit Unit Unit Unit) :
    Env.floatReset (playWith rate) s = Env.floatReset greedyPlay s := rfl

theorem playWith_fuel (rate : RateFunction ℝ) : 3600000000 ≤ (playWith rate).sim.fuel := by
  have e : (playWith rate).sim.fuel = greedyPlay.sim.fuel := rfl
  rw [e]
  show 3600000000 ≤ 3600000000
  norm_num

theorem playWith_world (i : ℕ) : FloatWorld roundedTrig inOrder .fusedFirst 50 (playWith (jumpRate i)) :=
  ⟨by norm_num, by norm_num, rfl, Witness.rng_lawful zero_le_one, jumpRate_doped i⟩

theorem playWith_steps (i : ℕ) : FloatSteps (playWith (jumpRate i)) where
  chooses := chooses_witness 1
  rates := by
    intro ps q _ _ _ _ g _ _
    show ∃ a b c, jumpRate i g q = .ok [a, b, c] ∧ _
    unfold jumpRate jumpTo
    split_ifs
    · exact ⟨_, _, _, rfl, .inr (.inl (by norm_num))⟩
    · exact ⟨_, _, _, rfl, .inr (.inl (by norm_num))⟩
  accepted := .inr rfl
  dwellPos := by norm_num [playWith, greedyPlay, dwellRange]
  dwellOrder := by norm_num [playWith, greedyPlay, dwellRange]
  dwellHour := by norm_num [playWith, greedyPlay, dwellRange]
  seconds := .inr (.inl rfl)

/-- An episode in which the greedy agent acts once, and the silicon can only stay or go where the beam is. -/
example : ∃ i t s b r t' s' m, Env.floatReset (playWith (jumpRate i)) (Env.fresh () none ⟨0, 0⟩ GoalState.floatFresh) = .ok t s ∧
    greedyDefault.floatStep roundedSingle .plain (fun _ g => (⟨0, 0⟩, g)) t.observation () = .ok r () ∧
    Env.floatStep (playWith (jumpRate i)) [r.x, r.y] s = .ok t' s' ∧ PlaysTowards (playWith (jumpRate i)) b s m s' := by
  have hw := playWith_world
  have hst := playWith_steps
  have same : ∀ i s, Env.floatReset (playWith (jumpRate i)) s = Env.floatReset (playWith (jumpRate 0)) s :=
    fun i s => (playWith_reset _ s).trans (playWith_reset _ s).symm
  have start : ∀ i, (Env.fresh () none ⟨0, 0⟩ GoalState.floatFresh : Env ℝ Unit Unit Unit Unit) =
      Env.floatAfter (playWith (jumpRate i)) (Env.fresh () none ⟨0, 0⟩ GoalState.floatFresh) [] := fun _ => rfl
  obtain ⟨⟨t, s, h1⟩, _⟩ := C150_features _ _ _ _ _ (hw 0) roundedLib.knn rfl () none ⟨0, 0⟩ [] _ (start 0)
  obtain ⟨sheet, si, b, g1, g3, g4, g7, g5, g6, _⟩ := C151_arrives _ _ _ _ _ (hw 0) () none ⟨0, 0⟩ [] _ (start 0) t s h1
  obtain ⟨_, _, _, _, _, _, _, _, _, _, _, _, hq, _⟩ := C147_goal _ _ _ _ _ (hw 0) () none ⟨0, 0⟩ [] _ (start 0) t s h1
  obtain ⟨sheet₁, si₁, nbrs, e1, e2, e3⟩ := C150_begins _ _ _ _ _ (hw 0) _ t s h1
  rw [g1] at e1
  cases e1
  rw [g3] at e2
  cases e2
  have hfar : Spec.dist si s.goal.goal ≤ 999 := by
    have := dist_tri si b s.goal.goal
    rw [dist_comm' b s.goal.goal] at this
    norm_num at g7
    linarith
  have haim := fun i => C151_aim _ _ _ _ _ (hw i) (hst i).chooses roundedLib.knn rfl 1500000 1500000 10
    rfl (by norm_num) le_rfl (by norm_num) () none ⟨0, 0⟩ [] _ (start i) t s (.inl ((same i _).trans h1)) hq sheet g1 si g3 nbrs e3 hfar
    roundedSingle .plain (fun _ g => (⟨0, 0⟩, g)) greedyDefault () (by norm_num [greedyDefault, abs_le])
    (by norm_num [greedyDefault]) (by norm_num) (by norm_num)
  obtain ⟨r, c1, b₁, hb₁, hgb₁, p, hn, _, _⟩ := haim 0
  obtain ⟨nbrs', hb', hp', hm'⟩ := hn
  obtain ⟨i, hi⟩ := List.mem_iff_getElem?.1 (hb'.bonds p hp').1
  have hil : i < sheet.positions.length := (List.getElem?_eq_some_iff.1 hi).1
  obtain ⟨r', c1', _, _, _, _, _, _, c4⟩ := haim i
  rw [c1] at c1'
  cases c1'
  have hs : s = Env.floatAfter (playWith (jumpRate i)) (Env.fresh () none ⟨0, 0⟩ GoalState.floatFresh) [.reset] := by
    simp only [Env.floatAfter, List.foldl, Env.floatExec, same i, h1]
  obtain ⟨t', s', h2⟩ := C150_returns _ _ _ _ _ (hw i) (hst i) roundedLib.knn rfl (by
      intro scale g
      show (1 : ℝ) / 1000000 ≤ 1
      norm_num) (playWith_fuel _) () none ⟨0, 0⟩ [.reset] s hs [r.x, r.y]
      (by simp [playWith, greedyPlay, actionSize])
  obtain ⟨q, dwell, sheet', evs, d0, _, _, d1, _⟩ := c4 [] t' s' h2
  have hend : sheet' = sheet ∨ sheet' = siliconAt sheet.positions i := by
    cases d1 with
    | cons hex hrest =>
      cases hrest
      have h3 := jump_chain (g := sheet) hil hex.chain
      rw [hex.final]
      rw [List.getLast?_map] at h3
      exact h3
  rcases hend with e | e
  · exact ⟨i, t, s, b₁, r, t', s', 0, (same i _).trans h1, c1, h2, .stay .start hq h2 g1 d0 (by rw [e])⟩
  · refine ⟨i, t, s, b₁, r, t', s', 1, (same i _).trans h1, c1, h2,
      .move .start hq h2 g1 d0 g3 ?_ ⟨nbrs', hb', hp', hm'⟩⟩
    rw [e]
    obtain ⟨x, hx, _⟩ := doped_silicon (siliconAt_doped (ps := sheet.positions) hil)
    obtain ⟨j, hj, hj'⟩ := exists_silicon_index (g := siliconAt sheet.positions i) (si := x) (by rw [hx]; simp)
    have hji := silicon_unique hj'
    subst hji
    have : x = p := by
      have hj2 : sheet.positions[j]? = some x := hj
      rw [hi] at hj2
      exact (Option.some.inj hj2).symm
    rw [hx, this]

end PD.Props
