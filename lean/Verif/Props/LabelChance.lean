/- C129: what one exposure leaves behind, compared with the probabilities the scoring of rates is based on. -/
import Verif.Props.Chance

set_option linter.unusedSectionVars false
set_option linter.unusedSimpArgs false

namespace PD.Props
open PD PD.Spec MeasureTheory ProbabilityTheory

section
variable {G O P Img : Type} [MeasurableSpace G] {rng : Rng ℝ G} {μ : Measure G} {rate : RateFunction ℝ}

/-- What a control leaves behind is the last sheet of its history. -/
theorem left_behind (handle : Event ℝ Img → O → O) (obs : List O) (c : BeamControl ℝ) (g : G) (sheet target : Grid ℝ) :
    (∃ fuel s', Material.applyControl rng handle rate fuel c ⟨g, ⟨true, some sheet⟩, obs⟩ = .ok () s' ∧
      s'.mat.grid = some target) ↔
    ∃ evs g' sheet', Jumps rng rate c.position c.dwellTime 0 g sheet evs g' sheet' ∧ lastSheet sheet evs = target := by
  constructor
  · rintro ⟨fuel, s', h, hg⟩
    obtain ⟨evs, sheet', hj, h1, -, -⟩ := (C72_jump_process rng handle rate c ⟨g, ⟨true, some sheet⟩, obs⟩ s' sheet
      rfl rfl).1 ⟨fuel, h⟩
    rw [hg, Option.some.injEq] at h1
    exact ⟨evs, _, _, hj, by rw [← jumps_last hj, h1]⟩
  · rintro ⟨evs, g', sheet', hj, ht⟩
    obtain ⟨fuel, h⟩ := (C72_jump_process rng handle rate c ⟨g, ⟨true, some sheet⟩, obs⟩
      ⟨g', ⟨true, some sheet'⟩, obs.map (observeAll handle (evs.map (fun e => Event.transition e.1 e.2)))⟩ sheet rfl
      rfl).2 ⟨evs, sheet', hj, rfl, rfl, rfl⟩
    exact ⟨fuel, _, h, by rw [← ht, ← jumps_last hj]⟩

/-- Transitions only lead to successors. -/
theorem jumps_first {p : V2 ℝ} {dwell t time : Timedelta} {g g' : G} {sheet sheet' next : Grid ℝ}
    {rest : List (Timedelta × Grid ℝ)} {ss : List (Successor ℝ)} (hr : rate sheet p = .ok ss)
    (h : Jumps rng rate p dwell t g sheet ((time, next) :: rest) g' sheet') : next ∈ ss.map (·.grid) := by
  cases h with
  | jump h hr' h0 hx hl hi hy rest =>
    rw [hr, Except.ok.injEq] at hr'
    subst hr'
    exact List.mem_map_of_mem (List.mem_of_getElem? hy)

/-- C129.  The sheet is found as it was with at least the probability `exp (-R t)` that the scoring assumes, and at most
with the square of the probability of a transition more. -/
theorem C129_stays_partial (hf : Fair rng μ) (hl : rng.Lawful) (handle : Event ℝ Img → O → O) (obs : List O)
    (c : BeamControl ℝ) (h0 : 0 < c.dwellTime) (hd : c.dwellTime < 3600000000) (Sheets : Grid ℝ → Prop) (B : ℝ)
    (ho : Orderly rate c.position Sheets B)
    (hrate : ∀ sheet ss, rate sheet c.position = .ok ss → ∀ y ∈ ss, 0 ≤ y.rate)
    (sheet : Grid ℝ) (hsheet : Sheets sheet) (ss : List (Successor ℝ)) (hr : rate sheet c.position = .ok ss)
    (hmove : sheet ∉ ss.map (·.grid)) :
    ENNReal.ofReal (labelProb (ss.map (·.rate)) (exposure c.dwellTime) 0) ≤
      μ {g | ∃ fuel s', Material.applyControl rng handle rate fuel c ⟨g, ⟨true, some sheet⟩, obs⟩ = .ok () s' ∧
        s'.mat.grid = some sheet} ∧
    μ {g | ∃ fuel s', Material.applyControl rng handle rate fuel c ⟨g, ⟨true, some sheet⟩, obs⟩ = .ok () s' ∧
        s'.mat.grid = some sheet} ≤
      ENNReal.ofReal (labelProb (ss.map (·.rate)) (exposure c.dwellTime) 0) +
        ENNReal.ofReal ((1 - Real.exp (-(B * exposure c.dwellTime))) ^ 2) := by
  have hne : ss ≠ [] := by
    obtain ⟨ss', hr', hne, -⟩ := ho.rates sheet hsheet
    rw [hr, Except.ok.injEq] at hr'
    subst hr'
    exact hne
  rw [← C127_stays (Img := Img) hf hl c h0 hd hrate sheet ss hr hne]
  constructor
  · apply measure_mono
    rintro g ⟨fuel, s', h, hobs⟩
    obtain ⟨g', sheet', hj⟩ := (heard c g sheet []).1 ⟨fuel, s', h, hobs⟩
    exact (left_behind handle obs c g sheet sheet).2 ⟨[], g', sheet', hj, rfl⟩
  · rw [← quietProb_exposure B h0]
    refine le_trans (measure_mono ?_) ((measure_union_le _ _).trans (add_le_add le_rfl (many hf hl hd ho hsheet 2)))
    intro g hg
    obtain ⟨evs, g', sheet', hj, ht⟩ := (left_behind handle obs c g sheet sheet).1 hg
    match evs, hj, ht with
    | [], hj, _ => exact .inl ((heard c g sheet []).2 ⟨g', sheet', hj⟩)
    | [e], hj, ht => exact absurd (jumps_first hr (time := e.1) (next := e.2) hj) (by
        have : e.2 = sheet := ht
        rw [this]; exact hmove)
    | e :: e' :: evs, hj, _ => exact .inr ⟨_, g', sheet', hj, by simp⟩

/-- C129.  The `k`-th successor is found with the probability of the label `k + 1` that the scoring assumes, up to the
square of the probability of a transition. -/
theorem C129_moves_partial (hf : Fair rng μ) (hl : rng.Lawful) (handle : Event ℝ Img → O → O) (obs : List O)
    (c : BeamControl ℝ) (h0 : 0 < c.dwellTime) (hd : c.dwellTime < 3600000000) (Sheets : Grid ℝ → Prop) (B : ℝ)
    (ho : Orderly rate c.position Sheets B) (sheet : Grid ℝ) (hsheet : Sheets sheet) (ss : List (Successor ℝ))
    (hr : rate sheet c.position = .ok ss) (hmove : sheet ∉ ss.map (·.grid)) (hnd : (ss.map (·.grid)).Nodup) (k : ℕ)
    (y : Successor ℝ) (hy : ss[k]? = some y) :
    μ {g | ∃ fuel s', Material.applyControl rng handle rate fuel c ⟨g, ⟨true, some sheet⟩, obs⟩ = .ok () s' ∧
        s'.mat.grid = some y.grid} ≤
      ENNReal.ofReal (labelProb (ss.map (·.rate)) (exposure c.dwellTime) (k + 1)) +
        ENNReal.ofReal ((1 - Real.exp (-(B * exposure c.dwellTime))) ^ 2) ∧
    ENNReal.ofReal (labelProb (ss.map (·.rate)) (exposure c.dwellTime) (k + 1)) ≤
      μ {g | ∃ fuel s', Material.applyControl rng handle rate fuel c ⟨g, ⟨true, some sheet⟩, obs⟩ = .ok () s' ∧
        s'.mat.grid = some y.grid} +
        ENNReal.ofReal ((1 - Real.exp (-(B * exposure c.dwellTime))) ^ 2) := by
  rw [← C127_leaves (Img := Img) hf hl c h0 hd Sheets B ho sheet hsheet ss hr hnd k y hy, ← quietProb_exposure B h0]
  have hys : y.grid ∈ ss.map (·.grid) := List.mem_map_of_mem (List.mem_of_getElem? hy)
  constructor
  · refine le_trans (measure_mono ?_) ((measure_union_le _ _).trans (add_le_add le_rfl (many hf hl hd ho hsheet 2)))
    intro g hg
    obtain ⟨evs, g', sheet', hj, ht⟩ := (left_behind handle obs c g sheet y.grid).1 hg
    match evs, hj, ht with
    | [], _, ht => exact absurd (show sheet = y.grid from ht) (fun h => hmove (h ▸ hys))
    | [e], hj, ht =>
      obtain ⟨fuel, s', h, hobs⟩ := (heard (Img := Img) c g sheet [e]).2 ⟨g', sheet', hj⟩
      have : e.2 = y.grid := ht
      exact .inl ⟨fuel, s', h, e.1, [], by rw [hobs, ← this]⟩
    | e :: e' :: evs, hj, _ => exact .inr ⟨_, g', sheet', hj, by simp⟩
  · refine le_trans (measure_mono ?_) ((measure_union_le _ _).trans (add_le_add le_rfl (many hf hl hd ho hsheet 2)))
    rintro g ⟨fuel, s', h, time, rest, hobs⟩
    obtain ⟨g', sheet', hj⟩ := (heard c g sheet _).1 ⟨fuel, s', h, hobs⟩
    match rest, hj with
    | [], hj => exact .inl ((left_behind handle obs c g sheet y.grid).2 ⟨_, g', sheet', hj, rfl⟩)
    | e :: rest, hj => exact .inr ⟨_, g', sheet', hj, by simp⟩

/-- C129.  Any other sheet, from which an exposure is not labelled at all or wrongly, is found with at most the square of
the probability of a transition. -/
theorem C129_elsewhere (hf : Fair rng μ) (hl : rng.Lawful) (handle : Event ℝ Img → O → O) (obs : List O)
    (c : BeamControl ℝ) (h0 : 0 < c.dwellTime) (hd : c.dwellTime < 3600000000) (Sheets : Grid ℝ → Prop) (B : ℝ)
    (ho : Orderly rate c.position Sheets B) (sheet : Grid ℝ) (hsheet : Sheets sheet) (ss : List (Successor ℝ))
    (hr : rate sheet c.position = .ok ss) :
    μ {g | ∃ fuel s', Material.applyControl rng handle rate fuel c ⟨g, ⟨true, some sheet⟩, obs⟩ = .ok () s' ∧
        ∃ target, s'.mat.grid = some target ∧ target ≠ sheet ∧ target ∉ ss.map (·.grid)} ≤
      ENNReal.ofReal ((1 - Real.exp (-(B * exposure c.dwellTime))) ^ 2) := by
  rw [← quietProb_exposure B h0]
  refine le_trans (measure_mono ?_) (many hf hl hd ho hsheet 2)
  rintro g ⟨fuel, s', h, target, hg, h1, h2⟩
  obtain ⟨evs, g', sheet', hj, ht⟩ := (left_behind handle obs c g sheet target).1 ⟨fuel, s', h, hg⟩
  match evs, hj, ht with
  | [], _, ht => exact absurd (show sheet = target from ht) h1.symm
  | [e], hj, ht => exact absurd (jumps_first hr (time := e.1) (next := e.2) hj) (by
      have : e.2 = target := ht
      rw [this]; exact h2)
  | e :: e' :: evs, hj, _ => exact ⟨_, g', sheet', hj, by simp⟩

theorem waitProb_zero_pos {R : ℝ} (hR : 0 < R) : 0 < waitProb R 0 := by
  unfold waitProb quietProb
  norm_num
  exact hR

theorem shareOf_pos {ss : List (Successor ℝ)} (hnn : ∀ y ∈ ss, 0 ≤ y.rate) {y : Successor ℝ} (hy : y ∈ ss)
    (hpos : 0 < y.rate) : 0 < shareOf ss y.grid ∧ 0 < sumRates ss := by
  classical
  have hsum : 0 < sumRates ss := by
    refine lt_of_lt_of_le hpos (List.single_le_sum ?_ _ (List.mem_map_of_mem hy))
    intro x hx
    obtain ⟨z, hz, rfl⟩ := List.mem_map.1 hx
    exact hnn z hz
  refine ⟨?_, hsum⟩
  unfold shareOf
  refine lt_of_lt_of_le (div_pos hpos hsum) (List.single_le_sum ?_ _ (List.mem_map.2 ⟨y, hy, if_pos rfl⟩))
  intro x hx
  obtain ⟨z, hz, rfl⟩ := List.mem_map.1 hx
  split_ifs
  · exact div_nonneg (hnn z hz) hsum.le
  · exact le_rfl

/-- C129 fails.  If the silicon can go to some sheet and back, the sheet is found unchanged more often than the scoring
assumes: moving away and back looks like staying. -/
theorem C129_back_and_forth (hf : Fair rng μ) (hl : rng.Lawful) (handle : Event ℝ Img → O → O) (obs : List O)
    (c : BeamControl ℝ) (h0 : 0 < c.dwellTime) (hd : c.dwellTime < 3600000000)
    (hrate : ∀ sheet ss, rate sheet c.position = .ok ss → ∀ y ∈ ss, 0 ≤ y.rate)
    (sheet : Grid ℝ) (ss : List (Successor ℝ)) (hr : rate sheet c.position = .ok ss) (y : Successor ℝ) (hy : y ∈ ss)
    (hpos : 0 < y.rate) (ss' : List (Successor ℝ)) (hr' : rate y.grid c.position = .ok ss') (z : Successor ℝ) (hz : z ∈ ss')
    (hzpos : 0 < z.rate) (hback : z.grid = sheet) :
    ENNReal.ofReal (labelProb (ss.map (·.rate)) (exposure c.dwellTime) 0) <
      μ {g | ∃ fuel s', Material.applyControl rng handle rate fuel c ⟨g, ⟨true, some sheet⟩, obs⟩ = .ok () s' ∧
        s'.mat.grid = some sheet} := by
  have hne : ss ≠ [] := List.ne_nil_of_mem hy
  have k1 := (histories_law hf hl hd hrate MeasurableSet.univ [] 0 sheet le_rfl)
  have k2 := (histories_law hf hl hd hrate MeasurableSet.univ [(0, y.grid), (0, sheet)] 0 sheet le_rfl)
  rw [hf.total, mul_one] at k1 k2
  obtain ⟨s1, s2⟩ := shareOf_pos (hrate _ _ hr) hy hpos
  obtain ⟨s3, s4⟩ := shareOf_pos (hrate _ _ hr') hz hzpos
  rw [hback] at s3
  have e1 : historyProb rate c.position c.dwellTime 0 sheet [] = quietProb (sumRates ss) (c.dwellTime - 0 + 1) := by
    unfold historyProb
    rw [if_neg (by omega), hr]
    simp only
    rw [if_neg hne]
  have hprob : 0 < historyProb rate c.position c.dwellTime 0 sheet [(0, y.grid), (0, sheet)] := by
    have e2 : historyProb rate c.position c.dwellTime 0 y.grid [(0, sheet)] =
        waitProb (sumRates ss') (0 - 0) * shareOf ss' sheet *
          historyProb rate c.position c.dwellTime 0 sheet [] := by
      conv_lhs => rw [historyProb]
      rw [if_pos ⟨h0, le_rfl, h0.le⟩, hr']
    have e3 : historyProb rate c.position c.dwellTime 0 sheet [(0, y.grid), (0, sheet)] =
        waitProb (sumRates ss) (0 - 0) * shareOf ss y.grid *
          historyProb rate c.position c.dwellTime 0 y.grid [(0, sheet)] := by
      conv_lhs => rw [historyProb]
      rw [if_pos ⟨h0, le_rfl, h0.le⟩, hr]
    rw [e3, e2, e1, sub_zero]
    have := waitProb_zero_pos s2
    have := waitProb_zero_pos s4
    have := quietProb_pos (sumRates ss) (c.dwellTime - 0 + 1)
    simp only [sub_zero] at this ⊢
    positivity
  have hlabel : labelProb (ss.map (·.rate)) (exposure c.dwellTime) 0 = historyProb rate c.position c.dwellTime 0 sheet [] := by
    rw [e1, sub_zero, quietProb_exposure _ h0]
    unfold labelProb
    rw [if_pos rfl]
    rfl
  have hdisj : Disjoint (histories rng rate c.position c.dwellTime Set.univ 0 sheet [])
      (histories rng rate c.position c.dwellTime Set.univ 0 sheet [(0, y.grid), (0, sheet)]) := by
    rw [Set.disjoint_left]
    rintro g ⟨g1, sh1, hj1, -⟩ ⟨g2, sh2, hj2, -⟩
    have a1 := (heard (Img := Unit) c g sheet []).2 ⟨_, _, hj1⟩
    have a2 := (heard (Img := Unit) c g sheet _).2 ⟨_, _, hj2⟩
    obtain ⟨f1, t1, b1, c1⟩ := a1
    obtain ⟨f2, t2, b2, c2⟩ := a2
    have d1 := applyControl_more b1 (max f1 f2) (le_max_left _ _)
    have d2 := applyControl_more b2 (max f1 f2) (le_max_right _ _)
    rw [d1] at d2
    cases d2
    rw [c1] at c2
    simp at c2
  calc ENNReal.ofReal (labelProb (ss.map (·.rate)) (exposure c.dwellTime) 0)
      < ENNReal.ofReal (historyProb rate c.position c.dwellTime 0 sheet []) +
          ENNReal.ofReal (historyProb rate c.position c.dwellTime 0 sheet [(0, y.grid), (0, sheet)]) := by
        rw [hlabel]
        exact ENNReal.lt_add_right ENNReal.ofReal_ne_top (by simpa using hprob)
    _ = μ (histories rng rate c.position c.dwellTime Set.univ 0 sheet [] ∪
          histories rng rate c.position c.dwellTime Set.univ 0 sheet [(0, y.grid), (0, sheet)]) := by
        rw [measure_union hdisj k2.1, k1.2, k2.2]
    _ ≤ _ := by
        apply measure_mono
        rintro g (⟨g', sh, hj, -⟩ | ⟨g', sh, hj, -⟩)
        · exact (left_behind handle obs c g sheet sheet).2 ⟨_, _, _, hj, rfl⟩
        · exact (left_behind handle obs c g sheet sheet).2 ⟨_, _, _, hj, rfl⟩

end

/-! ### The hypotheses can be met -/

/-- From the first sheet to the second with two per second, and back with one per second. -/
noncomputable def toAndFro : RateFunction ℝ := fun sheet _ =>
  open Classical in if sheet = sheetA then .ok [⟨sheetB, 2⟩] else .ok [⟨sheetA, 1⟩]

theorem toAndFro_A (p : V2 ℝ) : toAndFro sheetA p = .ok [⟨sheetB, 2⟩] := if_pos rfl

theorem toAndFro_B (p : V2 ℝ) : toAndFro sheetB p = .ok [⟨sheetA, 1⟩] := if_neg (Ne.symm sheets_differ)

theorem toAndFro_nonneg : ∀ sheet p ss, toAndFro sheet p = .ok ss → ∀ y ∈ ss, 0 ≤ y.rate := by
  intro sheet p ss h y hy
  unfold toAndFro at h
  split_ifs at h <;>
  · simp only [Except.ok.injEq] at h
    subst h
    simp only [List.mem_singleton] at hy
    subst hy
    norm_num

theorem toAndFro_orderly (p : V2 ℝ) : Orderly toAndFro p (fun s => s = sheetA ∨ s = sheetB) 2 := by
  refine ⟨?_⟩
  rintro sheet (rfl | rfl)
  · exact ⟨_, toAndFro_A p, by simp, by simp, by norm_num [sumRates]⟩
  · exact ⟨_, toAndFro_B p, by simp, by simp, by norm_num [sumRates]⟩

/-- In a tenth of a second: staying, going, and staying more often than assumed. -/
example (S : Grid ℝ → Set (ℕ → ℝ)) (hS : ∀ target, S target = {g | ∃ fuel s', Material.applyControl Witness.streamRng
      (fun (_ : Event ℝ Unit) (o : Unit) => o) toAndFro fuel (BeamControl.mk' 0 100000) ⟨g, ⟨true, some sheetA⟩, []⟩ =
      .ok () s' ∧ s'.mat.grid = some target}) :
    (Witness.streamLaw (S sheetA) ≤ ENNReal.ofReal (labelProb [2] (exposure 100000) 0) +
      ENNReal.ofReal ((1 - Real.exp (-(2 * exposure 100000))) ^ 2)) ∧
    (Witness.streamLaw (S sheetB) ≤ ENNReal.ofReal (labelProb [2] (exposure 100000) 1) +
      ENNReal.ofReal ((1 - Real.exp (-(2 * exposure 100000))) ^ 2)) ∧
    ENNReal.ofReal (labelProb [2] (exposure 100000) 0) < Witness.streamLaw (S sheetA) := by
  rw [hS, hS]
  have hAB : sheetA ∉ ([⟨sheetB, 2⟩] : List (Successor ℝ)).map (·.grid) := by simp [sheets_differ]
  exact ⟨(C129_stays_partial Witness.streamRng_fair Witness.streamRng_lawful _ _ (BeamControl.mk' 0 100000) (by decide)
      (by decide) _ 2 (toAndFro_orderly _) (fun sheet ss => toAndFro_nonneg sheet _ ss) sheetA (.inl rfl) _
      (toAndFro_A _) hAB).2,
    (C129_moves_partial Witness.streamRng_fair Witness.streamRng_lawful _ _ (BeamControl.mk' 0 100000) (by decide)
      (by decide) _ 2 (toAndFro_orderly _) sheetA (.inl rfl) _ (toAndFro_A _) hAB (by simp) 0 ⟨sheetB, 2⟩ rfl).1,
    C129_back_and_forth Witness.streamRng_fair Witness.streamRng_lawful _ _ (BeamControl.mk' 0 100000) (by decide)
      (by decide) (fun sheet ss => toAndFro_nonneg sheet _ ss) sheetA _ (toAndFro_A _) ⟨sheetB, 2⟩ (by simp) (by norm_num)
      _ (toAndFro_B _) ⟨sheetA, 1⟩ (by simp) (by norm_num) rfl⟩

end PD.Props
