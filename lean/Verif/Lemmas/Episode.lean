/- Lemmas for C131: what one control leaves to chance. -/
import Verif.Props.Reach

set_option linter.unusedSectionVars false
set_option linter.unusedSimpArgs false

namespace PD.Props
open PD PD.Spec MeasureTheory

section
variable {G O P Img F : Type} [MeasurableSpace G] {rng : Rng ℝ G} {μ : Measure G} {rate : RateFunction ℝ}

/-- All sheets of a history have one silicon, among atoms at `ps`. -/
def OnSheet (ps : List (V2 ℝ)) (evs : List (Timedelta × Grid ℝ)) : Prop :=
  ∀ e ∈ evs, ∃ i, i < ps.length ∧ e.2 = siliconAt ps i

theorem doped_siliconAt {x : Grid ℝ} (hd : SingleDoped x) : ∃ i, i < x.positions.length ∧ x = siliconAt x.positions i := by
  obtain ⟨i, hi, he⟩ := doped_eq hd
  exact ⟨i, hi, by rw [siliconAt_eq]; exact he⟩

/-- Rates that swap the silicon with a neighbour keep to the sheet. -/
theorem jumps_onSheet (hr : SwapRates rate) {p : V2 ℝ} {dwell t : Timedelta} {g g' : G} {sheet sheet' : Grid ℝ}
    {evs : List (Timedelta × Grid ℝ)} (h : Jumps rng rate p dwell t g sheet evs g' sheet') (hd : SingleDoped sheet) :
    OnSheet sheet.positions evs ∧ SingleDoped sheet' ∧ sheet'.positions = sheet.positions := by
  induction h with
  | over h => exact ⟨by simp [OnSheet], hd, rfl⟩
  | idle => exact ⟨by simp [OnSheet], hd, rfl⟩
  | late => exact ⟨by simp [OnSheet], hd, rfl⟩
  | jump h hrate h0 hx hl hi hy rest ih =>
    obtain ⟨h1, h2⟩ := hr.keepsDoping _ _ _ hrate hd _ (List.mem_of_getElem? hy)
    obtain ⟨h3, h4, h5⟩ := ih h1
    rw [h2] at h3 h5
    refine ⟨?_, h4, h5⟩
    intro e he
    rcases List.mem_cons.1 he with rfl | he
    · obtain ⟨i, hi, h⟩ := doped_siliconAt h1
      rw [h2] at hi h
      exact ⟨i, hi, h⟩
    · exact h3 e he

theorem siliconAt_inj {ps : List (V2 ℝ)} {i j : ℕ} (hi : i < ps.length) (h : siliconAt ps i = siliconAt ps j) : i = j := by
  refine silicon_unique (ps := ps) (i := j) (j := i) ?_
  rw [← h, siliconAt_get hi, if_pos rfl]

/-- A history in numbers: when, and at which atom. -/
def decode (ps : List (V2 ℝ)) (c : List (ℤ × Fin ps.length)) : List (Timedelta × Grid ℝ) :=
  c.map (fun x => (x.1, siliconAt ps x.2))

theorem decode_injective (ps : List (V2 ℝ)) : Function.Injective (decode ps) := by
  refine List.map_injective_iff.2 ?_
  rintro ⟨t, i⟩ ⟨t', j⟩ h
  simp only [Prod.mk.injEq] at h
  rw [h.1, Fin.ext (siliconAt_inj i.2 h.2)]

theorem decode_surj {ps : List (V2 ℝ)} {evs : List (Timedelta × Grid ℝ)} (h : OnSheet ps evs) : ∃ c, decode ps c = evs := by
  induction evs with
  | nil => exact ⟨[], rfl⟩
  | cons e evs ih =>
    obtain ⟨c, hc⟩ := ih (fun x hx => h x (List.mem_cons_of_mem _ hx))
    obtain ⟨i, hi, he⟩ := h e List.mem_cons_self
    exact ⟨(e.1, ⟨i, hi⟩) :: c, by simp only [decode, List.map_cons] at hc ⊢; rw [hc, ← he]⟩

/-- If one history of the control has probability at least `δ` and leaves no chance of failure, and after each other
the chance is at most `b`, then the chance of failure before the control is at most `(1 - δ) b`. -/
theorem one_control (hf : Fair rng μ) (hl : rng.Lawful) (hr : SwapRates rate) (hdef : RatesDefined rate) {p : V2 ℝ}
    {dwell : Timedelta} (hd : dwell < 3600000000) {sheet : Grid ℝ} (hgood : GoodSheet sheet)
    (N : List (Timedelta × Grid ℝ) → Set G) {b : ENNReal}
    (hb : ∀ evs, OnSheet sheet.positions evs → μ (N evs) ≤ b) {path : List (Timedelta × Grid ℝ)} (hN : N path = ∅)
    {δ : ℝ} (hδ : 0 < δ) (hp : δ ≤ historyProb rate p dwell 0 sheet path) :
    μ {g | ¬ ∃ evs g' sheet', Jumps rng rate p dwell 0 g sheet evs g' sheet' ∧ g' ∉ N evs} ≤
      ENNReal.ofReal (1 - δ) * b := by
  classical
  have : IsProbabilityMeasure μ := ⟨hf.total⟩
  set ps := sheet.positions with hps
  have hrate : ∀ s ss, rate s p = .ok ss → ∀ y ∈ ss, 0 ≤ y.rate := fun s ss => hr.nonneg s p ss
  set law := fun (E : Set G) (hE : MeasurableSet E) (evs : List (Timedelta × Grid ℝ)) =>
    histories_law hf hl hd hrate hE evs 0 sheet le_rfl with hlaw
  set f : List (ℤ × Fin ps.length) → ENNReal := fun c => ENNReal.ofReal (historyProb rate p dwell 0 sheet (decode ps c)) with hfdef
  -- the histories exclude each other
  have hsum : ∑' c, f c ≤ 1 := by
    have h1 : ∀ c, μ (histories rng rate p dwell Set.univ 0 sheet (decode ps c)) = f c := fun c => by
      rw [(law _ MeasurableSet.univ _).2, measure_univ, mul_one]
    calc ∑' c, f c = ∑' c, μ (histories rng rate p dwell Set.univ 0 sheet (decode ps c)) := tsum_congr fun c => (h1 c).symm
      _ = μ (⋃ c, histories rng rate p dwell Set.univ 0 sheet (decode ps c)) := by
        refine (measure_iUnion ?_ fun c => (law _ MeasurableSet.univ _).1).symm
        intro c c' hne
        refine Set.disjoint_left.2 ?_
        rintro g ⟨g1, s1, hj1, -⟩ ⟨g2, s2, hj2, -⟩
        exact hne (decode_injective ps (C72_deterministic _ _ _ _ _ _ _ _ _ _ _ _ _ hj1 hj2).1)
      _ ≤ 1 := prob_le_one
  -- the good path
  obtain ⟨c0, hc0⟩ : ∃ c, decode ps c = path := by
    refine decode_surj ?_
    have hpos : 0 < μ (histories rng rate p dwell Set.univ 0 sheet path) := by
      rw [(law _ MeasurableSet.univ _).2, measure_univ, mul_one]
      exact ENNReal.ofReal_pos.2 (lt_of_lt_of_le hδ hp)
    obtain ⟨g, g', s', hj, -⟩ := nonempty_of_measure_ne_zero hpos.ne'
    exact (jumps_onSheet hr hj hgood.doped).1
  have hrest : ∑' c, (if c = c0 then 0 else f c) ≤ ENNReal.ofReal (1 - δ) := by
    have h1 : f c0 + ∑' c, (if c = c0 then 0 else f c) ≤ 1 := by
      refine le_of_eq_of_le ?_ hsum
      rw [ENNReal.tsum_eq_add_tsum_ite (f := f) c0]
      congr 1
      exact tsum_congr fun c => by congr
    have h2 : ENNReal.ofReal δ ≤ f c0 := by
      simp only [hfdef, hc0]
      exact ENNReal.ofReal_le_ofReal hp
    rw [ENNReal.ofReal_sub _ hδ.le, ENNReal.ofReal_one]
    refine ENNReal.le_sub_of_add_le_left ENNReal.ofReal_ne_top ?_
    exact (add_le_add_left h2 _).trans h1
  -- what can go wrong
  set M : List (ℤ × Fin ps.length) → Set G := fun c => if c = c0 then ∅ else toMeasurable μ (N (decode ps c)) with hM
  have hMm : ∀ c, MeasurableSet (M c) := fun c => by
    simp only [hM]
    split_ifs
    · exact MeasurableSet.empty
    · exact measurableSet_toMeasurable _ _
  obtain ⟨B, ho⟩ := orderly hr hdef p hgood
  have hnull := ends (N := fun _ => ∅) hf hl hd ho (fun _ _ => measure_empty) le_rfl (sheet := sheet) ⟨hgood.doped, rfl⟩
  calc μ {g | ¬ ∃ evs g' sheet', Jumps rng rate p dwell 0 g sheet evs g' sheet' ∧ g' ∉ N evs}
      ≤ μ ({g | ¬ ∃ evs g' sheet', Jumps rng rate p dwell 0 g sheet evs g' sheet' ∧
          (SingleDoped sheet' ∧ sheet'.positions = sheet.positions) ∧ g' ∉ (∅ : Set G)} ∪
          ⋃ c, histories rng rate p dwell (M c) 0 sheet (decode ps c)) := by
        refine measure_mono fun g hg => ?_
        by_cases hend : ∃ evs g' sheet', Jumps rng rate p dwell 0 g sheet evs g' sheet' ∧
          (SingleDoped sheet' ∧ sheet'.positions = sheet.positions) ∧ g' ∉ (∅ : Set G)
        · right
          obtain ⟨evs, g', sheet', hj, -⟩ := hend
          obtain ⟨c, hc⟩ := decode_surj (jumps_onSheet hr hj hgood.doped).1
          have hin : g' ∈ N evs := by
            by_contra hn
            exact hg ⟨evs, g', sheet', hj, hn⟩
          refine Set.mem_iUnion.2 ⟨c, g', sheet', by rw [hc]; exact hj, ?_⟩
          have hne : c ≠ c0 := by
            rintro rfl
            rw [← hc, hc0, hN] at hin
            exact hin
          simp only [hM, if_neg hne]
          exact subset_toMeasurable _ _ (by rw [hc]; exact hin)
        · exact .inl hend
    _ ≤ 0 + ∑' c, μ (histories rng rate p dwell (M c) 0 sheet (decode ps c)) := by
        refine (measure_union_le _ _).trans (add_le_add hnull.le (measure_iUnion_le _))
    _ ≤ ∑' c, (if c = c0 then 0 else f c) * b := by
        rw [zero_add]
        refine ENNReal.tsum_le_tsum fun c => ?_
        rw [(law _ (hMm c) _).2]
        by_cases hc : c = c0
        · simp [hM, hc]
        · simp only [hM, if_neg hc, measure_toMeasurable]
          refine mul_le_mul_right (hb _ ?_) _
          rintro e he
          obtain ⟨x, -, rfl⟩ := List.mem_map.1 he
          exact ⟨x.2, x.2.2, rfl⟩
    _ = (∑' c, (if c = c0 then 0 else f c)) * b := ENNReal.tsum_mul_right
    _ ≤ ENNReal.ofReal (1 - δ) * b := mul_le_mul_left hrest _

end
end PD.Props
