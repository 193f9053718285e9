/- Property C72: a control runs the jump process given by the rates. -/
import Verif.Spec.Jumps
import Verif.Lemmas.ApplyLoop
import Verif.Lemmas.Witness

set_option linter.unusedSectionVars false
set_option linter.unusedSimpArgs false

namespace PD.Props
open PD PD.Spec
variable {K G O Img : Type} [Field K] [LinearOrder K] [IsStrictOrderedRing K] [FloorRing K]

theorem hour : ofSeconds (3600 : K) = 3600000000 := by
  have h := ofSeconds_totalSeconds (K := K) 3600000000
  have : (totalSeconds (3600000000 : ℤ) : K) = 3600 := by unfold totalSeconds; norm_num
  rwa [this] at h

theorem applyLoop_over {rng : Rng K G} {handle : Event K Img → O → O} {rate : RateFunction K}
    {c : BeamControl K} (fuel : ℕ) {t : Timedelta} (s : MatCtx K G O) (h : ¬ t < c.dwellTime) :
    applyLoop rng handle rate c fuel t s = .ok () s := by
  rw [applyLoop]; simp only [h, if_false]

theorem applyLoop_round {rng : Rng K G} {handle : Event K Img → O → O} {rate : RateFunction K}
    {c : BeamControl K} (fuel : ℕ) {t : Timedelta} (s : MatCtx K G O) (h : t < c.dwellTime) :
    applyLoop rng handle rate c (fuel + 1) t s =
      match s.mat.read with
      | .error e => .error e s
      | .ok grid =>
        match rate grid c.position with
        | .error e => .error e s
        | .ok ss =>
          match drawTransitionTime rng ss s.g with
          | .error e => .error e s
          | .ok (dt, g) =>
            if t + dt ≤ c.dwellTime then
              match performTransition rng handle (t + dt) ss { s with g := g } with
              | .error e s2 => .error e s2
              | .ok () s2 => applyLoop rng handle rate c fuel (t + dt) s2
            else applyLoop rng handle rate c fuel (t + dt) { s with g := g } := by
  rw [applyLoop]; simp only [h, if_true]; rfl

theorem read_ok {m : Material K} {sheet : Grid K} (hr : m.hasBeenReset = true) (hs : m.grid = some sheet) :
    m.read = .ok sheet := by simp [Material.read, hr, hs]

theorem sumRates_eq (ss : List (Successor K)) : sumRates ss = totalRate ss := rfl

/-- The state after the jumps. -/
def jumped (handle : Event K Img → O → O) (s : MatCtx K G O) (evs : List (Timedelta × Grid K)) (g : G)
    (sheet : Grid K) : MatCtx K G O :=
  { g := g
    mat := { s.mat with grid := some sheet }
    obs := s.obs.map (observeAll handle (evs.map (fun e => Event.transition e.1 e.2))) }

theorem applyLoop_of_jumps {rng : Rng K G} {handle : Event K Img → O → O} {rate : RateFunction K}
    {c : BeamControl K} {t : Timedelta} {g g' : G} {sheet sheet' : Grid K}
    {evs : List (Timedelta × Grid K)}
    (h : Jumps rng rate c.position c.dwellTime t g sheet evs g' sheet') :
    ∀ s : MatCtx K G O, s.g = g → s.mat.hasBeenReset = true → s.mat.grid = some sheet →
      ∃ fuel, applyLoop rng handle rate c fuel t s = .ok () (jumped handle s evs g' sheet') := by
  induction h with
  | over h =>
    rintro s rfl hr hs
    refine ⟨0, ?_⟩
    rw [applyLoop_over _ _ (not_lt.2 h)]
    simp [jumped, ← hs]
  | idle h hr hne h0 hl =>
    rename_i ss0
    rw [sumRates_eq] at h0
    rintro s rfl hreset hs
    refine ⟨1, ?_⟩
    have hread := read_ok hreset hs
    rw [applyLoop_round _ _ h]
    simp only [hread, hr]
    have hd : drawTransitionTime rng ss0 s.g = .ok (3600000000, (rng.exponential 0 s.g).2) := by
      unfold drawTransitionTime
      rw [if_pos h0]
      simp only [List.isEmpty_iff, hne, if_false, hour]
    rw [hd]
    simp only
    rw [if_neg (by omega), applyLoop_over _ _ (by omega)]
    simp [jumped, ← hs]
  | late h hr h0 hx hl =>
    rw [sumRates_eq] at h0 hx
    rintro s rfl hreset hs
    refine ⟨1, ?_⟩
    have hread := read_ok hreset hs
    rw [applyLoop_round _ _ h]
    simp only [hread, hr]
    unfold drawTransitionTime
    rw [if_neg h0]
    simp only [hx]
    rw [if_neg (by omega), applyLoop_over _ _ (by omega)]
    simp [jumped, ← hs]
  | jump h hr h0 hx hl hi hy rest ih =>
    rename_i y _ _ _
    simp only [sumRates_eq] at h0 hx hi
    rintro s rfl hreset hs
    have hread := read_ok hreset hs
    obtain ⟨fuel, hf⟩ := ih { g := _, mat := { s.mat with grid := some y.grid }
                              obs := notify handle (.transition _ y.grid) s.obs } rfl hreset rfl
    refine ⟨fuel + 1, ?_⟩
    rw [applyLoop_round _ _ h]
    simp only [hread, hr]
    unfold drawTransitionTime
    rw [if_neg h0]
    simp only [hx]
    rw [if_pos hl]
    simp only [performTransition, h0, if_false, hi, hy]
    rw [hf]
    simp [jumped, notify, Function.comp_def, observeAll]

theorem jumps_of_applyLoop {rng : Rng K G} {handle : Event K Img → O → O} {rate : RateFunction K}
    {c : BeamControl K} (fuel : ℕ) (t : Timedelta) (s s' : MatCtx K G O) (sheet : Grid K)
    (hs : s.mat.grid = some sheet) (h : applyLoop rng handle rate c fuel t s = .ok () s') :
    ∃ evs sheet', Jumps rng rate c.position c.dwellTime t s.g sheet evs s'.g sheet' ∧
      s' = jumped handle s evs s'.g sheet' := by
  induction fuel generalizing t s sheet with
  | zero =>
    rw [applyLoop] at h
    split_ifs at h with h1
    simp only [EStateM.Result.ok.injEq, true_and] at h
    subst h
    exact ⟨[], sheet, .over (not_lt.1 h1), by simp [jumped, ← hs]⟩
  | succ fuel ih =>
    by_cases h1 : t < c.dwellTime
    swap
    · rw [applyLoop_over _ _ h1] at h
      simp only [EStateM.Result.ok.injEq, true_and] at h
      subst h
      exact ⟨[], sheet, .over (not_lt.1 h1), by simp [jumped, ← hs]⟩
    rw [applyLoop_round _ _ h1] at h
    cases hread : s.mat.read with
    | error e => rw [hread] at h; cases h
    | ok sheet0 =>
    have he : sheet0 = sheet := by
      simp only [Material.read, hs] at hread
      split at hread
      · simpa using hread.symm
      · cases hread
    subst he
    rw [hread] at h
    simp only at h
    cases hr : rate sheet0 c.position with
    | error e => rw [hr] at h; cases h
    | ok ss =>
    rw [hr] at h
    simp only at h
    by_cases h0 : totalRate ss = 0
    · by_cases hne : ss = []
      · have hd : drawTransitionTime rng ss s.g = .error .zeroDivision := by
          simp [drawTransitionTime, hne, totalRate]
        rw [hd] at h
        cases h
      · have hd : drawTransitionTime rng ss s.g = .ok (3600000000, (rng.exponential 0 s.g).2) := by
          unfold drawTransitionTime
          rw [if_pos h0]
          simp only [List.isEmpty_iff, hne, if_false, hour]
        rw [hd] at h
        simp only at h
        split_ifs at h with hl
        · simp [performTransition, h0] at h
        · rw [applyLoop_over _ _ (by omega)] at h
          simp only [EStateM.Result.ok.injEq, true_and] at h
          subst h
          exact ⟨[], sheet0, .idle h1 hr hne h0 (by omega), by simp [jumped, ← hs]⟩
    · cases hx : rng.exponential (1 / totalRate ss) s.g with
      | mk x g1 =>
      have hd : drawTransitionTime rng ss s.g = .ok (ofSeconds (min x 3600), g1) := by
        unfold drawTransitionTime
        rw [if_neg h0, hx]
      rw [hd] at h
      simp only at h
      split_ifs at h with hl
      · cases hi : rng.choiceP (ss.map (fun z => z.rate / totalRate ss)) g1 with
        | mk i g2 =>
        simp only [performTransition, h0, if_false, hi] at h
        cases hy : ss[i]? with
        | none => rw [hy] at h; cases h
        | some y =>
          rw [hy] at h
          simp only at h
          obtain ⟨evs, sheet', hj, hs'⟩ := ih _ _ y.grid rfl h
          refine ⟨_, sheet', .jump h1 hr h0 hx hl hi hy hj, ?_⟩
          rw [hs']
          simp [jumped, notify, Function.comp_def, observeAll]
      · rw [applyLoop_over _ _ (by omega)] at h
        simp only [EStateM.Result.ok.injEq, true_and] at h
        subst h
        exact ⟨[], sheet0, .late h1 hr h0 hx (by omega), by simp [jumped, ← hs]⟩

/-- Applying a control to a sheet returns exactly when the jump process of the sheet comes to the end of
the dwell time, and then the sheet, the generator and what observers were told are those of the process.
(The bound `fuel` on the rounds of the loop is a device of the model.) -/
theorem C72_jump_process (rng : Rng K G) (handle : Event K Img → O → O) (rate : RateFunction K)
    (c : BeamControl K) (s s' : MatCtx K G O) (sheet : Grid K) (hr : s.mat.hasBeenReset = true)
    (hs : s.mat.grid = some sheet) :
    (∃ fuel, Material.applyControl rng handle rate fuel c s = .ok () s') ↔
    ∃ evs sheet', Jumps rng rate c.position c.dwellTime 0 s.g sheet evs s'.g sheet' ∧
      s'.mat.grid = some sheet' ∧ s'.mat.hasBeenReset = true ∧
      s'.obs = s.obs.map (observeAll handle (evs.map (fun e => Event.transition e.1 e.2))) := by
  simp only [Material.applyControl, hr, if_true]
  constructor
  · rintro ⟨fuel, h⟩
    obtain ⟨evs, sheet', h1, h2⟩ := jumps_of_applyLoop fuel 0 s s' sheet hs h
    refine ⟨evs, sheet', h1, ?_, ?_, ?_⟩ <;> rw [h2]
    · rfl
    · exact hr
    · rfl
  · rintro ⟨evs, sheet', h1, h2, h3, h4⟩
    obtain ⟨fuel, h⟩ := applyLoop_of_jumps (O := O) (Img := Img) (handle := handle) h1 s rfl hr hs
    refine ⟨fuel, ?_⟩
    rw [h]
    obtain ⟨g', ⟨m1, m2⟩, o'⟩ := s'
    simp only at h2 h3 h4 ⊢
    subst h2 h3 h4
    simp [jumped, hr]

/-- The process is determined by the sheet and the generator. -/
theorem C72_deterministic (rng : Rng K G) (rate : RateFunction K) (p : V2 K) (dwell t : Timedelta)
    (g g1 g2 : G) (sheet sheet1 sheet2 : Grid K) (evs1 evs2 : List (Timedelta × Grid K))
    (h1 : Jumps rng rate p dwell t g sheet evs1 g1 sheet1)
    (h2 : Jumps rng rate p dwell t g sheet evs2 g2 sheet2) :
    evs1 = evs2 ∧ g1 = g2 ∧ sheet1 = sheet2 := by
  induction h1 generalizing evs2 g2 sheet2 with
  | over h =>
    cases h2 with
    | over => exact ⟨rfl, rfl, rfl⟩
    | idle h' => exact absurd h' (not_lt.2 h)
    | late h' => exact absurd h' (not_lt.2 h)
    | jump h' => exact absurd h' (not_lt.2 h)
  | idle h hr hne h0 hl =>
    cases h2 with
    | over h' => exact absurd h (not_lt.2 h')
    | idle => exact ⟨rfl, rfl, rfl⟩
    | late h' hr' h0' => rw [hr, Except.ok.injEq] at hr'; subst hr'; exact absurd h0 h0'
    | jump h' hr' h0' => rw [hr, Except.ok.injEq] at hr'; subst hr'; exact absurd h0 h0'
  | late h hr h0 hx hl =>
    cases h2 with
    | over h' => exact absurd h (not_lt.2 h')
    | idle _ hr' _ h0' => rw [hr, Except.ok.injEq] at hr'; subst hr'; exact absurd h0' h0
    | late h' hr' h0' hx' hl' =>
      rw [hr, Except.ok.injEq] at hr'; subst hr'
      rw [hx, Prod.mk.injEq] at hx'
      exact ⟨rfl, hx'.2, rfl⟩
    | jump h' hr' h0' hx' hl' =>
      rw [hr, Except.ok.injEq] at hr'; subst hr'
      rw [hx, Prod.mk.injEq] at hx'
      rw [hx'.1] at hl
      exact absurd hl' (not_le.2 hl)
  | jump h hr h0 hx hl hi hy rest ih =>
    cases h2 with
    | over h' => exact absurd h (not_lt.2 h')
    | idle _ hr' _ h0' => rw [hr, Except.ok.injEq] at hr'; subst hr'; exact absurd h0' h0
    | late h' hr' h0' hx' hl' =>
      rw [hr, Except.ok.injEq] at hr'; subst hr'
      rw [hx, Prod.mk.injEq] at hx'
      rw [hx'.1] at hl
      exact absurd hl' (not_lt.2 hl)
    | jump h' hr' h0' hx' hl' hi' hy' rest' =>
      rw [hr, Except.ok.injEq] at hr'; subst hr'
      rw [hx, Prod.mk.injEq] at hx'
      obtain ⟨rfl, rfl⟩ := hx'
      rw [hi, Prod.mk.injEq] at hi'
      obtain ⟨rfl, rfl⟩ := hi'
      rw [hy, Option.some.injEq] at hy'
      subst hy'
      obtain ⟨rfl, rfl, rfl⟩ := ih _ _ _ rest'
      exact ⟨rfl, rfl, rfl⟩

/-- Draws of one second each and a dwell time of a second and a half: one jump, and a second one that
comes too late. -/
example (sheet : Grid ℚ) : Jumps (Witness.rng (1 : ℚ)) (fun g _ => .ok [⟨g, 0⟩, ⟨⟨g.positions, []⟩, 2⟩])
    ⟨0, 0⟩ 1500000 0 () sheet [(1000000, ⟨sheet.positions, []⟩)] () ⟨sheet.positions, []⟩ := by
  have h1 : ofSeconds (min (1 : ℚ) 3600) = 1000000 := by decide +kernel
  have h2 : List.findIdx (fun q : ℚ => decide (0 < q)) [0 / (0 + (2 + 0)), 2 / (0 + (2 + 0))] = 1 := by
    decide +kernel
  have := Jumps.jump (rng := Witness.rng (1 : ℚ)) (dwell := 1500000) (t := 0) (g := ()) (sheet := sheet)
    (p := ⟨0, 0⟩) (rate := fun g _ => .ok [⟨g, 0⟩, ⟨⟨g.positions, []⟩, 2⟩]) (x := 1) (g1 := ()) (i := 1)
    (g2 := ()) (y := ⟨⟨sheet.positions, []⟩, 2⟩) (evs := []) (g' := ())
    (sheet' := ⟨sheet.positions, []⟩) (by norm_num) rfl (by simp [sumRates]) rfl (by rw [h1]; norm_num)
    (by simp only [Witness.rng, sumRates, List.map_cons, List.map_nil, List.sum_cons, List.sum_nil, h2])
    rfl
    (Jumps.late (x := 1) (by rw [h1]; norm_num) rfl (by simp [sumRates]) rfl (by rw [h1]; norm_num))
  rwa [h1] at this

end PD.Props
