/- Property C146: the simple rates with floating point numbers. -/
import Verif.Lemmas.FloatPristine

set_option linter.unusedSectionVars false
set_option linter.unusedSimpArgs false

namespace PD.Props
open PD PD.Spec
variable {G O P Img : Type}

theorem simpleRateAt_eq (beam si p : V2 ℝ) : simpleRate beam si p = simpleRateAt beam p := by
  rw [simpleRate_quarters]
  unfold quarters simpleRateAt
  congr 3
  ring

theorem floatSimpleRates_rows : floatSimpleRates = rowByRow (fun beam si n => f32 (floatSimpleRate beam si n)) := rfl

/-- What the predictor does with neighbours that are atoms of the sheet. -/
theorem floatPristine_ok (knn : FloatKnn) {g : Grid ℝ} {beam si : V2 ℝ} (hd : SingleDoped g)
    (hsi : silicons g = [si]) {idx : List ℕ} (hidx : knn.kneighbors g.positions si 4 = .ok idx) {R : List (V2 ℝ)}
    (hR : takeRows g.positions (idx.drop 1) = .ok R) (hb : WellPlaced beam) (hs : WellPlaced si) (hn : ∀ p ∈ R, WellPlaced p) :
    ∃ ss, floatPristineRates knn floatSimpleRates g beam = .ok ss ∧ List.Forall₂ (MovesTo g beam) ss R := by
  have hpos : ∀ p ∈ R, |f32 (floatSimpleRate beam si p) - simpleRateAt beam p| ≤ simpleRateAt beam p * (2 / 10 ^ 7) := by
    intro p hp
    rw [← simpleRateAt_eq beam si p]
    exact castRate_err hb hs (hn p hp)
  have hrate : ∀ p ∈ R, 0 ≤ f32 (floatSimpleRate beam si p) := by
    intro p hp
    have h1 := hpos p hp
    have h2 := simpleRate_ge (si := si) hb (hn p hp)
    rw [simpleRateAt_eq] at h2
    rw [abs_le] at h1
    norm_num at h1 h2
    linarith [h1.1]
  obtain ⟨ss, h1, h2⟩ := pristine_ok knn (fun beam si n => f32 (floatSimpleRate beam si n)) hd hsi hidx hR hrate
  refine ⟨ss, h1, List.forall₂_iff_get.2 ⟨h2.length_eq, fun i hi hi' => ?_⟩⟩
  obtain ⟨e1, e2, e3, e4⟩ := (List.forall₂_iff_get.1 h2).2 i hi hi'
  exact ⟨e1, e2, e3, by rw [e4]; exact hpos _ (List.get_mem R ⟨i, hi'⟩)⟩

theorem floatPristine_doped (knn : FloatKnn) : DopedRates (floatPristineRates knn floatSimpleRates) :=
  pristine_doped knn _

/-- If the silicon has three bonds, the predictor returns three successors, one for each of the atoms it is bonded to:
the sheet with the silicon there, at the rate prescribed by the distance of the beam from there. -/
theorem C146_rates (knn : FloatKnn) (g : Grid ℝ) (beam : V2 ℝ) (hd : SingleDoped g) (si : V2 ℝ)
    (hsi : silicons g = [si]) (nbrs : List (V2 ℝ)) (hbond : BondedTo g.positions si nbrs)
    (hbox : ∀ p ∈ g.positions, Near16 p) (hbeam : Near16 beam) :
    ∃ ss places, floatPristineRates knn floatSimpleRates g beam = .ok ss ∧ places.Perm nbrs ∧
      List.Forall₂ (MovesTo g beam) ss places := by
  have hnear : ∀ p, Near16 p → WellPlaced p := fun p h => ⟨h.1.trans (by norm_num), h.2.trans (by norm_num)⟩
  obtain ⟨idx, R, hk, hR, hperm⟩ := pristine_bonded knn hbond hbox
  obtain ⟨ss, h1, h2⟩ := floatPristine_ok knn hd hsi hk hR (hnear _ hbeam) (hnear _ (hbox _ hbond.mem))
    (fun p hp => hnear p (hbox p (hbond.bonds p (hperm.mem_iff.1 hp)).1))
  exact ⟨ss, R, h1, hperm, h2⟩

/-- An atom in the middle of a generated sheet, with its atoms up to a thousandth of an Å from where they should be, has
three bonds. -/
theorem C146_bonds (n : ℕ) (offset : V2 ℝ) (angle : ℝ) (hx : |offset.x| ≤ 71 / 100) (hy : |offset.y| ≤ 71 / 100)
    (ps : List (V2 ℝ)) (hD : Displaced (1 / 1000) (layOutSheet n offset angle) ps) (si : V2 ℝ) (hsi : si ∈ ps)
    (hmid : Spec.dist ⟨0, 0⟩ si ≤ 71 / 100 * n - 64 / 10) : ∃ nbrs, BondedTo ps si nbrs := by
  have hnd0 := (C40_honeycomb n offset angle).1
  obtain ⟨f, rfl, hf⟩ := displaced_map hnd0 hD
  obtain ⟨p, hp, rfl⟩ := List.mem_map.1 hsi
  have hmv : ∀ q ∈ layOutSheet n offset angle, |Spec.dist (f p) (f q) - Spec.dist p q| ≤ 2 / 1000 := by
    intro q hq
    have := displaced_dist (hf p hp) (hf q hq)
    norm_num at this ⊢
    exact this
  have hinj : ∀ q ∈ layOutSheet n offset angle, ∀ r ∈ layOutSheet n offset angle, f q = f r → q = r := by
    intro q hq r hr h
    by_contra hne
    have := displaced_dist (hf q hq) (hf r hr)
    rw [h, dist_self', abs_le] at this
    rcases sheet_gap n offset angle hq hr hne with h1 | h1 <;> linarith [this.1]
  have hnear : Spec.dist ⟨0, 0⟩ p ≤ 71 / 100 * n - 639 / 100 := by
    have h1 := dist_tri ⟨0, 0⟩ (f p) p
    have h2 := hf p hp
    rw [dist_comm'] at h2
    linarith
  obtain ⟨nbrs, hH⟩ := C123_disc n offset angle hx hy p hp hnear
  have hmem : ∀ q ∈ nbrs, q ∈ layOutSheet n offset angle := fun q hq => (hH.bonds q hq).1
  refine ⟨nbrs.map f, ?_, hsi, by rw [List.length_map, hH.three], ?_, ?_, ?_⟩
  · exact hnd0.map_on hinj
  · exact hH.nodup.map_on (fun q hq r hr => hinj q (hmem q hq) r (hmem r hr))
  · intro q hq
    obtain ⟨r, hr, rfl⟩ := List.mem_map.1 hq
    refine ⟨List.mem_map_of_mem (hmem r hr), ?_⟩
    have hne : p ≠ r := fun h => hH.other (h ▸ hr)
    have h1 := hmv r (hmem r hr)
    rcases sheet_gap n offset angle hp (hmem r hr) hne with h2 | h2
    · rwa [h2] at h1
    · have := (hH.bonds r hr).2
      linarith
  · intro q hq hne hnot
    obtain ⟨r, hr, rfl⟩ := List.mem_map.1 hq
    have hrn : r ∉ nbrs := fun h => hnot (List.mem_map_of_mem h)
    have hne' : p ≠ r := fun h => hne (h ▸ rfl)
    have h1 := hmv r hr
    have h2 := hH.far r hr (Ne.symm hne') hrn
    rw [abs_le] at h1
    rcases sheet_gap n offset angle hp hr hne' with h3 | h3 <;> linarith [h1.1]

theorem share_err {α A S' S : ℝ} (hA : 0 ≤ A) (hAS : A ≤ S) (hS : 0 < S) (ha : |α - A| ≤ A * (2 / 10 ^ 7))
    (hs : |S' - S| ≤ S * (2 / 10 ^ 7)) : |α / S' - A / S| ≤ 5 / 10 ^ 7 := by
  have hS' : S * (9 / 10) ≤ S' := by
    rw [abs_le] at hs
    norm_num at hs ⊢
    linarith [hs.1]
  have hS0 : 0 < S' := by linarith
  have e : α / S' - A / S = ((α - A) * S + A * (S - S')) / (S' * S) := by
    field_simp
    ring
  rw [e, abs_div, abs_of_pos (by positivity : 0 < S' * S), div_le_iff₀ (by positivity)]
  refine (abs_add_le _ _).trans ?_
  rw [abs_mul, abs_mul, abs_of_pos hS, abs_of_nonneg hA, abs_sub_comm S S']
  have k1 := mul_le_mul_of_nonneg_right ha hS.le
  have k2 := mul_le_mul_of_nonneg_left hs hA
  have k3 := mul_le_mul_of_nonneg_right hAS hS.le
  have k4 := mul_le_mul_of_nonneg_right hS' hS.le
  have k5 := mul_pos hS hS
  norm_num at k1 k2 ⊢
  linarith

/-- What holds of the places of every generated sheet holds of the places of the sheet after any history of calls. -/
theorem floatRun_places {cfg : FloatSimCfg G O P Img} (hl : cfg.rng.Lawful)
    (hgen : ∀ g, ∀ p ∈ (cfg.generate g).1, Moderate p) (hk : KeepsDoping cfg.rate) {Q : List (V2 ℝ) → Prop}
    (hQ : ∀ g, Q (cfg.generate g).1) (ops : List (SimOp ℝ O)) : ∀ {s : Sim ℝ G O P},
      (∀ f, s.fov = some f → ∃ sheet, FloatReady s sheet f ∧ Q sheet.positions) →
      ∀ f, (Sim.floatRun cfg s ops).2.fov = some f →
        ∃ sheet, FloatReady (Sim.floatRun cfg s ops).2 sheet f ∧ Q sheet.positions := by
  induction ops with
  | nil => intro s h; exact h
  | cons op ops ih =>
    intro s h
    refine ih (s := (Sim.floatExec cfg s op).2) ?_
    cases op with
    | reset b =>
      simp only [Sim.floatExec]
      rcases floatReset_cases cfg hl hgen b s with ⟨e, s', h1, h2, h3, h4, h5, h6, h7, _⟩ | ⟨o, s', sheet, h1, h2, _, h8, _⟩
      · rw [h1]
        intro f hf
        dsimp only at hf
        rw [h2] at hf
        obtain ⟨sheet, hr, hq⟩ := h f hf
        exact ⟨sheet, ⟨h5, h6, h7.trans hr.grid, h2.trans hr.fov, hr.doped, hr.within, by rw [h4]; exact hr.params,
          by rw [h3]; exact hr.shape⟩, hq⟩
      · rw [h1]
        intro f hf
        have := h2.ready.fov
        dsimp only at hf
        rw [this] at hf
        cases hf
        exact ⟨sheet, h2.ready, by rw [h8]; exact hQ _⟩
    | step cs b =>
      simp only [Sim.floatExec]
      cases hf : s.fov with
      | none =>
        obtain ⟨e, he⟩ := floatStep_unready cfg cs b hf
        rw [he]
        exact h
      | some f =>
        obtain ⟨sheet, hr, hq⟩ := h f hf
        rcases floatStep_cases cfg hk cs b hr with ⟨e, s', c, sheet', h1, _, h2, h3⟩ | ⟨o, s', sheet', h1, h2, h3, _⟩
        · rw [h1]
          intro f' hf'
          have := h2.fov
          dsimp only at hf'
          rw [this] at hf'
          cases hf'
          exact ⟨sheet', h2, by rw [h3]; exact hq⟩
        · rw [h1]
          intro f' hf'
          have := h2.ready.fov
          dsimp only at hf'
          rw [this] at hf'
          cases hf'
          exact ⟨sheet', h2.ready, by rw [h3]; exact hq⟩
    | addObserver o =>
      intro f hf
      obtain ⟨sheet, hr, hq⟩ := h f hf
      exact ⟨sheet, hr.congr rfl rfl rfl rfl rfl, hq⟩
    | removeObserver i =>
      simp only [Sim.floatExec, Sim.removeObserver]
      split_ifs
      · intro f hf
        obtain ⟨sheet, hr, hq⟩ := h f hf
        exact ⟨sheet, hr.congr rfl rfl rfl rfl rfl, hq⟩
      · exact h

/-- Wherever the silicon is, there are three successors with a total rate that is not too small. -/
theorem floatPristine_at (knn : FloatKnn) {ps : List (V2 ℝ)} (h4 : 4 ≤ ps.length) (hbox : ∀ p ∈ ps, Near16 p) {q : V2 ℝ}
    (hq : Near16 q) : RatesAt (floatPristineRates knn floatSimpleRates) ps q := by
  have hnear : ∀ p, Near16 p → WellPlaced p := fun p h => ⟨h.1.trans (by norm_num), h.2.trans (by norm_num)⟩
  intro g hd hps
  subst hps
  obtain ⟨si, hsi, _, hmem⟩ := doped_silicon hd
  obtain ⟨idx, R, hk, hR, hlen, hRmem⟩ := pristine_rows knn h4 hbox hmem
  have hw : ∀ p ∈ R, WellPlaced p := fun p hp => hnear p (hbox p (hRmem p hp))
  obtain ⟨ss, h1, h2⟩ := floatPristine_ok knn hd hsi hk hR (hnear _ hq) (hnear _ (hbox _ hmem)) hw
  obtain ⟨x, y, z, rfl⟩ : ∃ a b c, R = [a, b, c] := List.length_eq_three.1 hlen
  obtain ⟨a, b, c, rfl⟩ : ∃ a b c, ss = [a, b, c] := List.length_eq_three.1 h2.length_eq
  simp only [List.forall₂_cons, List.forall₂_nil_left_iff, and_true] at h2
  obtain ⟨⟨_, _, _, ea⟩, ⟨_, _, _, eb⟩, _, _, _, ec⟩ := h2
  refine ⟨a, b, c, h1, .inr (.inl ?_)⟩
  have low : ∀ {r : ℝ} {p : V2 ℝ}, p ∈ [x, y, z] → |r - simpleRateAt q p| ≤ simpleRateAt q p * (2 / 10 ^ 7) →
      1 / 10 ^ 13 ≤ r := by
    intro r p hp h
    have h3 := simpleRate_ge (si := si) (hnear _ hq) (hw p hp)
    rw [simpleRateAt_eq] at h3
    rw [abs_le] at h
    norm_num at h h3 ⊢
    linarith [h.1]
  have l1 := low (by simp) ea
  have l2 := low (by simp) eb
  have l3 := low (by simp) ec
  have t13 : (0 : ℝ) < 1 / 10 ^ 13 := by norm_num
  have : (2 : ℝ) ^ (-100 : ℤ) ≤ 1 / 10 ^ 13 := by norm_num
  exact this.trans (by linarith)

/-- A step returns if the rate function offers three successors on every sheet of four or more atoms. -/
theorem float_steps_return (T : FloatTrig) (S : Summation) (k : DotKind) (cfg : FloatSimCfg G O P Img) (n : ℕ)
    (hn : 12 ≤ n) (hn' : n ≤ 4096) (hgen : cfg.generate = floatGenerate T S k cfg.rng n) (hl : cfg.rng.Lawful)
    (hch : Chooses cfg.rng) (hr : DopedRates cfg.rate) (hat : ∀ ps q, 4 ≤ ps.length → (∀ p ∈ ps, Near16 p) → Near16 q → RatesAt cfg.rate ps q)
    (hp : cfg.rates = .single)
    (g : G) (obs : List O) (ops : List (SimOp ℝ O)) (o0 : Observation ℝ Img) (s : Sim ℝ G O P)
    (hs : (Sim.floatRun cfg (Sim.fresh g obs) ops).2 = s)
    (hlast : lastObs (Sim.floatRun cfg (Sim.fresh g obs : Sim ℝ G O P) ops).1 = some o0)
    (cs : List (BeamControl ℝ)) (b : Bool) (hcs : ∀ c ∈ cs, InUnit c.position ∧ c.dwellTime < 3600000000) :
    (∃ o s', Sim.floatStep cfg cs b s = .ok o s') ∨
    ((∃ s', Sim.floatStep cfg cs b s = .error .diverges s') ∧
      ((∀ scale g, 1 / 1000000 ≤ (cfg.rng.exponential scale g).1) → cfg.fuel < 3600000000)) := by
  have hm := floatGenerate_moderate T S k hn' hl hgen
  have h0 : FloatInv (Sim.fresh g obs : Sim ℝ G O P) := FloatInv.fresh g obs
  have hf := floatRun_fov hl hm hr.keepsDoping ops h0
  rw [hlast] at hf
  simp only [Option.map_some, Option.some_or] at hf
  have hQ : ∀ g, 4 ≤ (cfg.generate g).1.length := by
    intro g
    obtain ⟨offset, angle, hx, hy, he⟩ := floatGenerate_eq T S k hl n g
    rw [hgen, he]
    exact (displaced_good hn hx hy (C141_sheet T S k hn' offset (hx.trans (by norm_num)) (hy.trans (by norm_num)) angle)).1
  obtain ⟨sheet, hready, h4⟩ := floatRun_places (Q := fun ps => 4 ≤ ps.length) hl hm hr.keepsDoping hQ ops
    (s := (Sim.fresh g obs : Sim ℝ G O P)) (fun f hf => by cases hf) _ hf
  refine C145_returns_partial T S k cfg n hn' hgen hl hch hr (.inr hp) g obs ops o0 s hs hlast sheet
    (by rw [← hs]; exact hready.grid) cs b (fun c hc => ⟨(hcs c hc).2, ?_⟩)
  refine hat _ _ h4 (fun p hp => ?_) ?_
  · obtain ⟨m1, m2⟩ := hready.within p hp
    exact ⟨m1.trans (by norm_num), m2.trans (by norm_num)⟩
  · obtain ⟨u1, u2⟩ := (hcs c hc).1
    have hcor := sound_corners hready
    obtain ⟨e1, e2⟩ := C139_beam o0.fov hready.sound.rect 60020 (by
      have : (2 : ℝ) ^ (-900 : ℤ) ≤ 2 ^ (0 : ℤ) := zpow_le_zpow_right₀ (by norm_num) (by norm_num)
      rw [zpow_zero] at this
      linarith) hcor c.position (hcs c hc).1
    obtain ⟨⟨c1, c2⟩, c3, c4⟩ := hcor
    have mix : ∀ {lo hi t : ℝ}, |lo| ≤ 60020 → |hi| ≤ 60020 → 0 ≤ t → t ≤ 1 → |lo + t * (hi - lo)| ≤ 60020 := by
      intro lo hi t h1 h2 h3 h4
      rw [abs_le] at *
      constructor <;> nlinarith
    have b1 : |(lerp o0.fov.lowerLeft o0.fov.upperRight c.position).x| ≤ 60020 := by
      have := mix c1 c3 u1.1 u1.2
      simpa [lerp] using this
    have b2 : |(lerp o0.fov.lowerLeft o0.fov.upperRight c.position).y| ≤ 60020 := by
      have := mix c2 c4 u2.1 u2.2
      simpa [lerp] using this
    constructor
    · rw [abs_le] at *
      norm_num at e1 ⊢
      constructor <;> linarith [e1.1, e1.2, b1.1, b1.2]
    · rw [abs_le] at *
      norm_num at e2 ⊢
      constructor <;> linarith [e2.1, e2.2, b2.1, b2.2]

/-- With the simple rates, on a sheet of at least 12 columns, a step of controls from 0 to 1 for less than an hour
returns, after any calls the last of which to return an observation returned `o0`, in every version of numpy.  The one
exception is a control that takes more rounds than the model allows; this does not happen if the model allows 3.6
billion and every waiting time is at least a microsecond. -/
theorem C146_returns (T : FloatTrig) (S : Summation) (k : DotKind) (knn : FloatKnn) (cfg : FloatSimCfg G O P Img) (n : ℕ)
    (hn : 12 ≤ n) (hn' : n ≤ 4096) (hgen : cfg.generate = floatGenerate T S k cfg.rng n) (hl : cfg.rng.Lawful)
    (hch : Chooses cfg.rng) (hrate : cfg.rate = floatPristineRates knn floatSimpleRates) (hp : cfg.rates = .single)
    (g : G) (obs : List O) (ops : List (SimOp ℝ O)) (o0 : Observation ℝ Img) (s : Sim ℝ G O P)
    (hs : (Sim.floatRun cfg (Sim.fresh g obs) ops).2 = s)
    (hlast : lastObs (Sim.floatRun cfg (Sim.fresh g obs : Sim ℝ G O P) ops).1 = some o0)
    (cs : List (BeamControl ℝ)) (b : Bool) (hcs : ∀ c ∈ cs, InUnit c.position ∧ c.dwellTime < 3600000000) :
    (∃ o s', Sim.floatStep cfg cs b s = .ok o s') ∨
    ((∃ s', Sim.floatStep cfg cs b s = .error .diverges s') ∧
      ((∀ scale g, 1 / 1000000 ≤ (cfg.rng.exponential scale g).1) → cfg.fuel < 3600000000)) := by
  refine float_steps_return T S k cfg n hn hn' hgen hl hch (by rw [hrate]; exact floatPristine_doped knn) ?_ hp g obs ops o0
    s hs hlast cs b hcs
  intro ps q h4 hbox hq
  rw [hrate]
  exact floatPristine_at knn h4 hbox hq

/-- The rates are float32 numbers, and numpy then accepts the probabilities computed from them.  With the silicon bonded
to three atoms, each of the three probabilities is within 1/400000 of the share of its rate in the total, and the
waiting time is drawn with the mean the total prescribes, up to a part in 400000. -/
theorem C146_odds (v : NumpyVersion) (knn : FloatKnn) (rng : Rng ℝ G) (g : Grid ℝ) (beam : V2 ℝ) (hd : SingleDoped g)
    (si : V2 ℝ) (hsi : silicons g = [si]) (nbrs : List (V2 ℝ)) (hbond : BondedTo g.positions si nbrs)
    (hbox : ∀ p ∈ g.positions, Near16 p) (hbeam : Near16 beam) (gen : G) :
    ∃ a b c pa pb pc, floatPristineRates knn floatSimpleRates g beam = .ok [a, b, c] ∧ [pa, pb, pc].Perm nbrs ∧
      MovesTo g beam a pa ∧ MovesTo g beam b pb ∧ MovesTo g beam c pc ∧
      ∃ total, total = (nbrs.map (simpleRateAt beam)).sum ∧
      (∃ x y z, transitionProbs v .single [a.rate, b.rate, c.rate] = .ok [x, y, z] ∧
        |x - simpleRateAt beam pa / total| ≤ 1 / 400000 ∧ |y - simpleRateAt beam pb / total| ≤ 1 / 400000 ∧
        |z - simpleRateAt beam pc / total| ≤ 1 / 400000) ∧
      ∃ mean t, |mean - 1 / total| ≤ 1 / 400000 * (1 / total) ∧
        floatDrawTime v .single rng [a, b, c] gen = .ok (t, (rng.exponential mean gen).2) ∧
        |(t : ℝ) - 1000000 * min (rng.exponential mean gen).1 3600| ≤ 501 / 1000 := by
  obtain ⟨ss, places, h1, h2, h3⟩ := C146_rates knn g beam hd si hsi nbrs hbond hbox hbeam
  obtain ⟨pa, pb, pc, rfl⟩ : ∃ a b c, places = [a, b, c] :=
    List.length_eq_three.1 (h2.length_eq.trans hbond.three)
  obtain ⟨a, b, c, rfl⟩ : ∃ a b c, ss = [a, b, c] := List.length_eq_three.1 h3.length_eq
  simp only [List.forall₂_cons, List.forall₂_nil_left_iff, and_true] at h3
  obtain ⟨ma, mb, mc⟩ := h3
  refine ⟨a, b, c, pa, pb, pc, h1, h2, ma, mb, mc, _, rfl, ?_⟩
  have hnear : ∀ p, Near16 p → WellPlaced p := fun p h => ⟨h.1.trans (by norm_num), h.2.trans (by norm_num)⟩
  have hp : ∀ p ∈ [pa, pb, pc], 1 / (2 * 10 ^ 12) ≤ simpleRateAt beam p ∧ simpleRateAt beam p ≤ 1 := by
    intro p hp
    rw [← simpleRateAt_eq beam si p]
    exact ⟨simpleRate_ge (hnear _ hbeam) (hnear _ (hbox p (hbond.bonds p (h2.mem_iff.1 hp)).1)), simpleRate_le _ _ _⟩
  have hsum : (nbrs.map (simpleRateAt beam)).sum = simpleRateAt beam pa + simpleRateAt beam pb + simpleRateAt beam pc := by
    rw [← (h2.map (simpleRateAt beam)).sum_eq]
    simp
    ring
  rw [hsum]
  obtain ⟨a1, a2⟩ := hp pa (by simp)
  obtain ⟨b1, b2⟩ := hp pb (by simp)
  obtain ⟨c1, c2⟩ := hp pc (by simp)
  obtain ⟨_, _, _, ea⟩ := ma
  obtain ⟨_, _, _, eb⟩ := mb
  obtain ⟨_, _, _, ec⟩ := mc
  clear h1 h2 hp hsum hbond hbox hsi
  generalize simpleRateAt beam pa = A at *
  generalize simpleRateAt beam pb = B at *
  generalize simpleRateAt beam pc = C at *
  obtain ⟨α, hα⟩ : ∃ α, α = a.rate := ⟨_, rfl⟩
  obtain ⟨β, hβ⟩ : ∃ β, β = b.rate := ⟨_, rfl⟩
  obtain ⟨γ, hγ⟩ : ∃ γ, γ = c.rate := ⟨_, rfl⟩
  have hs : |(α + β + γ) - (A + B + C)| ≤ (A + B + C) * (2 / 10 ^ 7) := by
    rw [hα, hβ, hγ]
    rw [abs_le] at ea eb ec ⊢
    constructor <;> linarith [ea.1, ea.2, eb.1, eb.2, ec.1, ec.2]
  have bounds : ∀ {r R : ℝ}, 1 / (2 * 10 ^ 12) ≤ R → R ≤ 1 → |r - R| ≤ R * (2 / 10 ^ 7) → 1 / 10 ^ 13 ≤ r ∧ r ≤ 2 := by
    intro r R h1 h2 h3
    rw [abs_le] at h3
    norm_num at h1 h3 ⊢
    constructor <;> linarith [h3.1, h3.2]
  obtain ⟨a3, a4⟩ := bounds a1 a2 ea
  obtain ⟨b3, b4⟩ := bounds b1 b2 eb
  obtain ⟨c3, c4⟩ := bounds c1 c2 ec
  have t13 : (0 : ℝ) < 1 / 10 ^ 13 := by norm_num
  have t12 : (0 : ℝ) < 1 / (2 * 10 ^ 12) := by norm_num
  have hlo : (2 : ℝ) ^ (-100 : ℤ) ≤ a.rate + b.rate + c.rate := by
    have : (2 : ℝ) ^ (-100 : ℤ) ≤ 1 / 10 ^ 13 := by norm_num
    exact this.trans (by linarith)
  have hhi : a.rate + b.rate + c.rate ≤ (2 : ℝ) ^ (100 : ℤ) := by
    have : (6 : ℝ) ≤ 2 ^ (100 : ℤ) := by norm_num
    exact le_trans (by linarith) this
  constructor
  · obtain ⟨x, y, z, e, e1, e2, e3, _⟩ := C136_accepted_partial v .single (.inr rfl) (a := a.rate) (b := b.rate)
      (c := c.rate) (by linarith) (by linarith) (by linarith) (.inl hlo)
    rw [← hα] at ea
    rw [← hβ] at eb
    rw [← hγ] at ec
    rw [← hα, ← hβ, ← hγ] at e1 e2 e3
    have k1 := share_err (by linarith) (by linarith) (by linarith) ea hs
    have k2 := share_err (by linarith) (by linarith) (by linarith) eb hs
    have k3 := share_err (by linarith) (by linarith) (by linarith) ec hs
    have t := fun (u v w : ℝ) => abs_sub_le u v w
    refine ⟨x, y, z, e, ?_, ?_, ?_⟩
    · refine (t x (α / (α + β + γ)) _).trans ((add_le_add e1 k1).trans (by norm_num))
    · refine (t y (β / (α + β + γ)) _).trans ((add_le_add e2 k2).trans (by norm_num))
    · refine (t z (γ / (α + β + γ)) _).trans ((add_le_add e3 k3).trans (by norm_num))
  · obtain ⟨mean, tt, m1, m2, m3⟩ := (C145_wait v .single rng a b c (by linarith) (by linarith) (by linarith) gen).2 (.inl hlo) hhi
    refine ⟨mean, tt, ?_, m2, m3⟩
    rw [← hα, ← hβ, ← hγ] at m1
    have hS : 0 < A + B + C := by linarith
    have hS' : (A + B + C) * (9 / 10) ≤ α + β + γ := by
      rw [abs_le] at hs
      norm_num at hs ⊢
      linarith [hs.1]
    generalize A + B + C = S at hs hS hS' ⊢
    generalize α + β + γ = T at hs hS' m1
    have hT : 0 < T := by linarith
    have k1 : |1 / T - 1 / S| ≤ 1 / S * (3 / 10 ^ 7) := by
      have : 1 / T - 1 / S = (S - T) / T * (1 / S) := by field_simp
      rw [this, abs_mul, abs_of_pos (by positivity : 0 < 1 / S), mul_comm]
      refine mul_le_mul_of_nonneg_left ?_ (by positivity)
      rw [abs_div, abs_of_pos hT, div_le_iff₀ hT, abs_sub_comm]
      norm_num at hs ⊢
      linarith
    have hI : 0 < 1 / S := by positivity
    generalize 1 / S = I at k1 hI ⊢
    generalize 1 / T = J at k1 m1
    rw [abs_le] at k1 m1 ⊢
    norm_num at k1 m1 ⊢
    constructor <;> linarith [k1.1, k1.2, m1.1, m1.2]

/-- Every transition the beam can cause moves a silicon with three bonds along one of them, and nothing else. -/
theorem C146_moves (knn : FloatKnn) (a b : Grid ℝ) (beam : V2 ℝ) (hd : SingleDoped a) (si : V2 ℝ)
    (hsi : silicons a = [si]) (nbrs : List (V2 ℝ)) (hbond : BondedTo a.positions si nbrs)
    (hbox : ∀ p ∈ a.positions, Near16 p) (hbeam : Near16 beam)
    (h : Offered (floatPristineRates knn floatSimpleRates) beam a b) :
    ∃ p ∈ nbrs, silicons b = [p] ∧ b.positions = a.positions ∧ SingleDoped b := by
  obtain ⟨ss, places, h1, h2, h3⟩ := C146_rates knn a beam hd si hsi nbrs hbond hbox hbeam
  obtain ⟨ss', k1, x, hx, rfl, _⟩ := h
  rw [h1] at k1
  cases k1
  obtain ⟨i, hi, rfl⟩ := List.getElem_of_mem hx
  have hi' : i < places.length := by rw [← h3.length_eq]; exact hi
  obtain ⟨e1, e2, e3, _⟩ := (List.forall₂_iff_get.1 h3).2 i hi hi'
  exact ⟨places[i], h2.mem_iff.1 (List.getElem_mem hi'), e3, e1, e2⟩

/-! ### The hypotheses can be met -/

/-- A simulator with the simple rates. -/
noncomputable def simplePlay : FloatSimCfg Unit Unit Unit Unit :=
  { floatPlay with rate := floatPristineRates roundedLib.knn floatSimpleRates }

/-- After a reset the silicon has three bonds, there are three successors with the prescribed rates for a beam on the
origin, and a step of two and a half seconds returns. -/
example : ∃ o0 s o s' sheet si nbrs ss places,
    Sim.floatRun simplePlay (Sim.fresh () [()] : Sim ℝ Unit Unit Unit) [.reset true] = ([some (.ok o0)], s) ∧
    s.ctx.mat.grid = some sheet ∧ silicons sheet = [si] ∧ BondedTo sheet.positions si nbrs ∧
    simplePlay.rate sheet ⟨0, 0⟩ = .ok ss ∧ places.Perm nbrs ∧ List.Forall₂ (MovesTo sheet ⟨0, 0⟩) ss places ∧
    Sim.floatStep simplePlay [BeamControl.mk' ⟨1 / 2, 1 / 2⟩ 2500000] false s = .ok o s' := by
  have hl : simplePlay.rng.Lawful := Witness.rng_lawful zero_le_one
  have hch : Chooses simplePlay.rng := chooses_witness 1
  have hr : DopedRates simplePlay.rate := floatPristine_doped _
  obtain ⟨o0, s, sheet, offset, angle, h1, h2, h3, hx, hy, h4, _, _, _, h5⟩ := C144_reset roundedTrig inOrder .fusedFirst
    simplePlay 50 (by norm_num) (by norm_num) rfl hl true (Sim.fresh () [()] : Sim ℝ Unit Unit Unit)
  have hrun : Sim.floatRun simplePlay (Sim.fresh () [()] : Sim ℝ Unit Unit Unit) [.reset true] = ([some (.ok o0)], s) := by
    simp only [Sim.floatRun, Sim.floatExec, h1]
  have hD : Displaced (1 / 1000) (layOutSheet 50 offset angle) sheet.positions := by
    rw [h4]
    exact C141_sheet _ _ _ (by norm_num) offset (hx.trans (by norm_num)) (hy.trans (by norm_num)) angle
  have hlast : lastObs (Sim.floatRun simplePlay (Sim.fresh () [()] : Sim ℝ Unit Unit Unit) [.reset true]).1 = some o0 := by
    rw [hrun]
    simp [lastObs]
  have hbox : ∀ p ∈ sheet.positions, Near16 p := by
    intro p hp
    have hm := floatGenerate_moderate roundedTrig inOrder .fusedFirst (cfg := simplePlay) (n := 50) (by norm_num) hl rfl
    have hinv := (FloatInv.fresh () [()] : FloatInv (Sim.fresh () [()] : Sim ℝ Unit Unit Unit)).run hl hm hr.keepsDoping
      [.reset true]
    have hf := floatRun_fov hl hm hr.keepsDoping [.reset true]
      (FloatInv.fresh () [()] : FloatInv (Sim.fresh () [()] : Sim ℝ Unit Unit Unit))
    rw [hlast] at hf
    obtain ⟨sh, hready⟩ := hinv _ hf
    rw [hrun] at hready
    have := hready.grid
    rw [h2] at this
    cases this
    obtain ⟨m1, m2⟩ := hready.within p hp
    exact ⟨m1.trans (by norm_num), m2.trans (by norm_num)⟩
  obtain ⟨si, hsi, _, hmem⟩ := doped_silicon h3
  obtain ⟨p, hpm, hpd⟩ := atom_near_origin 50 (by norm_num) offset angle hx hy
  have hmid := h5 si hsi p hpm
  obtain ⟨nbrs, hb⟩ := C146_bonds 50 offset angle hx hy sheet.positions hD si hmem (by norm_num at hmid hpd ⊢; linarith)
  obtain ⟨ss, places, e1, e2, e3⟩ := C146_rates roundedLib.knn sheet ⟨0, 0⟩ h3 si hsi nbrs hb hbox
    ⟨by norm_num, by norm_num⟩
  rcases C146_returns roundedTrig inOrder .fusedFirst roundedLib.knn simplePlay 50 (by norm_num) (by norm_num) rfl hl hch
    rfl rfl () [()] [.reset true] o0 s (by rw [hrun]) hlast [BeamControl.mk' ⟨1 / 2, 1 / 2⟩ 2500000] false (by
      intro c hc
      rw [List.mem_singleton] at hc
      subst hc
      exact ⟨⟨⟨by norm_num [BeamControl.mk'], by norm_num [BeamControl.mk']⟩, by norm_num [BeamControl.mk'],
        by norm_num [BeamControl.mk']⟩, by norm_num [BeamControl.mk']⟩) with ⟨o, s', h6⟩ | ⟨_, h6⟩
  · exact ⟨o0, s, o, s', sheet, si, nbrs, ss, places, hrun, h2, hsi, hb, e1, e2, e3, h6⟩
  · have := h6 (by
      intro scale g
      show (1 : ℝ) / 1000000 ≤ 1
      norm_num)
    exact absurd this (by show ¬ (3600000000 < 3600000000); norm_num)

/-- The rates for a beam on an atom, a quarter of a bond from it and a bond from it. -/
example : simpleRateAt ⟨0, 0⟩ ⟨0, 0⟩ = 1 ∧ simpleRateAt ⟨0, 0⟩ ⟨355 / 1000, 0⟩ = 1 / 2 ∧
    simpleRateAt ⟨0, 0⟩ ⟨0, 142 / 100⟩ = 1 / 17 := by
  have h : ∀ t : ℝ, 0 ≤ t → √((0 - t) ^ 2 + (0 - 0) ^ 2) = t ∧ √((0 - 0) ^ 2 + (0 - t) ^ 2) = t := by
    intro t ht
    constructor
    · rw [show (0 - t) ^ 2 + (0 - 0 : ℝ) ^ 2 = t ^ 2 by ring, Real.sqrt_sq ht]
    · rw [show (0 - 0 : ℝ) ^ 2 + (0 - t) ^ 2 = t ^ 2 by ring, Real.sqrt_sq ht]
  unfold simpleRateAt Spec.dist
  dsimp only
  rw [(h 0 le_rfl).1, (h (355 / 1000) (by norm_num)).1, (h (142 / 100) (by norm_num)).2]
  norm_num

end PD.Props
