/- Lemmas about the beam with floating point numbers. -/
import Verif.Lemmas.FloatSim
import Verif.Spec.FloatBeam
import Verif.Props.FloatDwell
import Verif.Props.Floats
import Verif.Props.Play

set_option linter.unusedSectionVars false
set_option linter.unusedSimpArgs false

namespace PD
open PD.Spec PD.Props
variable {G O P Img : Type}

/-! ### Waiting times -/

theorem floatTotalRate_pos (v : NumpyVersion) (p : Precision) {rs : List ℝ} (h : ∀ r ∈ rs, 0 ≤ r) :
    0 ≤ floatTotalRate v p rs := by
  have key : ∀ (rs : List ℝ) (a : ℝ), 0 ≤ a → (∀ r ∈ rs, 0 ≤ r) →
      0 ≤ rs.foldl (fun s r => (withPythonNumber v p).round (s + r)) a := by
    intro rs
    induction rs with
    | nil => intro a ha _; exact ha
    | cons r rs ih =>
      intro a ha hr
      exact ih _ ((withPythonNumber v p).round_nonneg (add_nonneg ha (hr r List.mem_cons_self)))
        (fun x hx => hr x (List.mem_cons_of_mem _ hx))
  exact key rs 0 le_rfl h

theorem timedelta_nonneg {x : ℝ} (h : 0 ≤ x) {d : Timedelta} (hd : timedeltaOf .double x = .ok d) : 0 ≤ d := by
  obtain ⟨d', h1, h2⟩ := timedeltaOf_err x
  rw [hd] at h1
  cases h1
  rw [abs_le] at h2
  have : (-1 : ℝ) < (d : ℤ) := by linarith [h2.1]
  have : (-1 : ℤ) < d := by exact_mod_cast this
  omega

theorem timedelta_tick {x : ℝ} (h : 1 / 1000000 ≤ x) {d : Timedelta} (hd : timedeltaOf .double x = .ok d) : 1 ≤ d := by
  obtain ⟨d', h1, h2⟩ := timedeltaOf_err x
  rw [hd] at h1
  cases h1
  rw [abs_le] at h2
  have : (0 : ℝ) < (d : ℤ) := by linarith [h2.1]
  have : (0 : ℤ) < d := by exact_mod_cast this
  omega

theorem floatDrawTime_nonneg {v : NumpyVersion} {p : Precision} {rng : Rng ℝ G} (hl : rng.Lawful)
    {ss : List (Successor ℝ)} (h : ∀ x ∈ ss, 0 ≤ x.rate) {g g' : G} {t : Timedelta}
    (hd : floatDrawTime v p rng ss g = .ok (t, g')) : 0 ≤ t := by
  unfold floatDrawTime at hd
  dsimp only at hd
  split_ifs at hd with h1 h2
  · cases hd; norm_num
  · cases ht : timedeltaOf .double (min (rng.exponential ((withPythonNumber v p).round
        (1 / floatTotalRate v p (ss.map (·.rate)))) g).1 3600) with
    | error e => rw [ht] at hd; cases hd
    | ok dt =>
      rw [ht] at hd
      cases hd
      refine timedelta_nonneg (le_min (hl.exponential_nonneg _ _ ?_) (by norm_num)) ht
      apply Precision.round_nonneg
      have := floatTotalRate_pos v p (rs := ss.map (·.rate)) (by
        intro r hr
        obtain ⟨x, hx, rfl⟩ := List.mem_map.1 hr
        exact h x hx)
      positivity

/-! ### The choice of a successor -/

theorem kahan_zeros : ∀ (l : List ℝ), (∀ x ∈ l, x = 0) → kahanSum l = 0 := by
  have key : ∀ (l : List ℝ), (∀ x ∈ l, x = 0) → kahanLoop l 0 0 = 0 := by
    intro l
    induction l with
    | nil => intro _; rfl
    | cons x l ih =>
      intro h
      have hx := h x List.mem_cons_self
      subst hx
      rw [kahanLoop]
      have : f64 (0 : ℝ) = 0 := f64_zero
      simp only [sub_zero, add_zero, this]
      exact ih (fun y hy => h y (List.mem_cons_of_mem _ hy))
  intro l h
  cases l with
  | nil => rfl
  | cons x l =>
    have hx := h x List.mem_cons_self
    subst hx
    exact key l (fun y hy => h y (List.mem_cons_of_mem _ hy))

/-- Probabilities that were accepted are not negative, and one of them is positive. -/
theorem transitionProbs_ok {v : NumpyVersion} {p : Precision} {rates probs : List ℝ}
    (h : transitionProbs v p rates = .ok probs) :
    probs = successorProbs v p rates ∧ (∀ q ∈ probs, 0 ≤ q) ∧ ∃ q ∈ probs, 0 < q := by
  unfold transitionProbs at h
  cases hc : checkProbs (probPrecision v p) (successorProbs v p rates) with
  | error e => rw [hc] at h; cases h
  | ok u =>
    rw [hc] at h
    cases h
    unfold checkProbs at hc
    split_ifs at hc with h1 h2
    simp only [List.any_eq_true, decide_eq_true_eq, not_exists, not_and, not_lt] at h1
    refine ⟨rfl, h1, ?_⟩
    by_contra hno
    push Not at hno
    have := kahan_zeros _ (fun x hx => le_antisymm (hno x hx) (h1 x hx))
    rw [this] at h2
    apply h2
    cases probPrecision v p <;> norm_num [Precision.eps]

theorem chosen_positive {v : NumpyVersion} {p : Precision} {ss : List (Successor ℝ)} (hn : ∀ x ∈ ss, 0 ≤ x.rate) {i : ℕ}
    {q : ℝ} (hq : (successorProbs v p (ss.map (·.rate)))[i]? = some q) (h0 : 0 < q) :
    ∃ x, ss[i]? = some x ∧ 0 < x.rate := by
  unfold successorProbs at hq
  simp only [List.getElem?_map, Option.map_eq_some_iff] at hq
  obtain ⟨r, ⟨x, hx, rfl⟩, rfl⟩ := hq
  refine ⟨x, hx, lt_of_le_of_ne (hn x (List.mem_of_getElem? hx)) ?_⟩
  intro h
  rw [← h] at h0
  have e1 : f32 (0 : ℝ) = 0 := Precision.round_zero .single
  have e2 : (probPrecision v p).round (0 : ℝ) = 0 := Precision.round_zero _
  rw [e1, e2, zero_div, e2] at h0
  exact lt_irrefl _ h0

theorem floatPerform_cases {v : NumpyVersion} {p : Precision} {rng : Rng ℝ G} (hch : Chooses rng)
    {handle : Event ℝ Img → O → O} {el : Timedelta} {ss : List (Successor ℝ)} (hn : ∀ x ∈ ss, 0 ≤ x.rate)
    {s : MatCtx ℝ G O} :
    floatPerform v p rng handle el ss s = .error .valueError s ∨
    ∃ g next, next ∈ ss ∧ 0 < next.rate ∧ floatPerform v p rng handle el ss s = .ok () ⟨g,
      ⟨s.mat.hasBeenReset, some next.grid⟩, notify handle (.transition el next.grid) s.obs⟩ := by
  unfold floatPerform
  split
  · exact .inl rfl
  · cases ht : transitionProbs v p (ss.map (·.rate)) with
    | error e =>
      left
      have : e = .valueError := by
        unfold transitionProbs checkProbs at ht
        split_ifs at ht <;> simp_all
      subst this
      rfl
    | ok probs =>
      right
      obtain ⟨rfl, h1, h2⟩ := transitionProbs_ok ht
      obtain ⟨q, hq, hq0⟩ := hch _ s.g h1 h2
      obtain ⟨x, hx, hx0⟩ := chosen_positive hn hq hq0
      simp only [hx]
      exact ⟨_, x, List.mem_of_getElem? hx, hx0, rfl⟩

/-! ### The loop -/

/-- `s'` results from `s` by the transitions `evs`, beginning at time `el` into the control. -/
structure FloatTrace (handle : Event ℝ Img → O → O) (rate : RateFunction ℝ) (c : BeamControl ℝ) (el : Timedelta)
    (s s' : MatCtx ℝ G O) (evs : List (Timedelta × Grid ℝ)) : Prop where
  obs : s'.obs = s.obs.map (observeAll handle (evs.map tev))
  reset : s'.mat.hasBeenReset = s.mat.hasBeenReset
  grid : s'.mat.grid = (evs.getLast?.map Prod.snd).or s.mat.grid
  chain : ∀ g, s.mat.grid = some g → ChainFrom (Offered rate c.position) g (evs.map Prod.snd)
  times : ∀ e ∈ evs, el ≤ e.1 ∧ e.1 ≤ c.dwellTime
  ordered : (evs.map Prod.fst).Pairwise (· ≤ ·)

theorem FloatTrace.refl (handle : Event ℝ Img → O → O) (rate : RateFunction ℝ) (c : BeamControl ℝ) (el : Timedelta)
    {s s' : MatCtx ℝ G O} (ho : s'.obs = s.obs) (hm : s'.mat = s.mat) : FloatTrace handle rate c el s s' [] :=
  ⟨by simp [ho], by rw [hm], by simp [hm], fun _ _ => trivial, by simp, by simp⟩

theorem floatApplyLoop_trace (v : NumpyVersion) (p : Precision) {rng : Rng ℝ G} (hl : rng.Lawful) (hch : Chooses rng)
    (handle : Event ℝ Img → O → O) {rate : RateFunction ℝ} (hn : NonnegRates rate) (c : BeamControl ℝ) (fuel : ℕ) :
    ∀ (el : Timedelta) (s : MatCtx ℝ G O), ∃ evs, FloatTrace handle rate c el s
      (endState (floatApplyLoop v p rng handle rate c fuel el s)) evs := by
  induction fuel with
  | zero =>
    intro el s
    rw [floatApplyLoop]
    split_ifs <;> exact ⟨[], .refl _ _ _ _ rfl rfl⟩
  | succ fuel ih =>
    intro el s
    rw [floatApplyLoop]
    by_cases h : el < c.dwellTime
    swap
    · simp only [h, if_false]; exact ⟨[], .refl _ _ _ _ rfl rfl⟩
    simp only [h, if_true]
    cases hr : s.mat.read with
    | error e => exact ⟨[], .refl _ _ _ _ rfl rfl⟩
    | ok grid =>
      obtain ⟨_, hgrid⟩ := read_ok hr
      simp only
      cases hrate : rate grid c.position with
      | error e => exact ⟨[], .refl _ _ _ _ rfl rfl⟩
      | ok ss =>
        simp only
        cases hd : floatDrawTime v p rng ss s.g with
        | error e => exact ⟨[], .refl _ _ _ _ rfl rfl⟩
        | ok tg =>
          obtain ⟨t, g⟩ := tg
          simp only
          have ht := floatDrawTime_nonneg hl (hn _ _ _ hrate) hd
          by_cases hle : el + t ≤ c.dwellTime
          swap
          · simp only [hle, if_false]
            obtain ⟨evs, h1, h2, h3, h4, h5, h6⟩ := ih (el + t) { s with g := g }
            exact ⟨evs, h1, h2, h3, h4, fun e he => ⟨by have := (h5 e he).1; omega, (h5 e he).2⟩, h6⟩
          · simp only [hle, if_true]
            rcases floatPerform_cases (v := v) (p := p) hch (handle := handle) (el := el + t) (hn _ _ _ hrate)
              (s := { s with g := g }) with hf | ⟨g', next, hm, hpos, hf⟩
            · rw [hf]; exact ⟨[], .refl _ _ _ _ rfl rfl⟩
            · rw [hf]
              dsimp only
              obtain ⟨evs, h1, h2, h3, h4, h5, h6⟩ := ih (el + t) ⟨g', ⟨s.mat.hasBeenReset, some next.grid⟩,
                notify handle (.transition (el + t) next.grid) s.obs⟩
              refine ⟨(el + t, next.grid) :: evs, ?_, h2, ?_, ?_, ?_, ?_⟩
              · rw [h1]
                simp [notify, observeAll, tev, Function.comp_def]
              · rw [h3]
                cases hl : evs.getLast? with
                | none =>
                  have : evs = [] := List.getLast?_eq_none_iff.1 hl
                  subst this
                  simp
                | some e =>
                  rw [List.getLast?_cons]
                  simp [hl]
              · intro g0 hg0
                rw [hgrid] at hg0
                cases hg0
                exact ⟨⟨ss, hrate, next, hm, rfl, hpos⟩, h4 next.grid rfl⟩
              · intro e he
                rcases List.mem_cons.1 he with rfl | he
                · exact ⟨by simp only; omega, hle⟩
                · exact ⟨by have := (h5 e he).1; omega, (h5 e he).2⟩
              · rw [List.map_cons, List.pairwise_cons]
                refine ⟨?_, h6⟩
                intro a ha
                obtain ⟨e, he, rfl⟩ := List.mem_map.1 ha
                exact (h5 e he).1

theorem floatApplyControl_trace (v : NumpyVersion) (p : Precision) {rng : Rng ℝ G} (hl : rng.Lawful) (hch : Chooses rng)
    (handle : Event ℝ Img → O → O) {rate : RateFunction ℝ} (hn : NonnegRates rate) (c : BeamControl ℝ) (fuel : ℕ)
    {s : MatCtx ℝ G O} {sheet : Grid ℝ} (hs : s.mat.grid = some sheet) :
    ∃ trs sheet', Exposed rate c.position c.dwellTime sheet trs sheet' ∧
      (endState (Material.floatApplyControl v p rng handle rate fuel c s)).mat.grid = some sheet' ∧
      (endState (Material.floatApplyControl v p rng handle rate fuel c s)).mat.hasBeenReset = s.mat.hasBeenReset ∧
      (endState (Material.floatApplyControl v p rng handle rate fuel c s)).obs =
        s.obs.map (observeAll handle (trs.map fun e => Event.transition e.1 e.2)) := by
  unfold Material.floatApplyControl
  split
  · obtain ⟨evs, h1, h2, h3, h4, h5, h6⟩ := floatApplyLoop_trace v p hl hch handle hn c fuel 0 s
    refine ⟨evs, _, ⟨h4 sheet hs, rfl, h5, h6⟩, ?_, h2, h1⟩
    rw [h3, hs]
    cases evs.getLast? <;> simp
  · exact ⟨[], sheet, ⟨trivial, rfl, by simp, by simp⟩, hs, rfl, by simp [endState]⟩

theorem floatApplyControls_trace (cfg : FloatSimCfg G O P Img) (hl : cfg.rng.Lawful) (hch : Chooses cfg.rng)
    (hn : NonnegRates cfg.rate) (f : Fov ℝ) (cs : List (BeamControl ℝ)) :
    ∀ (el : Timedelta) (s : MatCtx ℝ G O) (sheet : Grid ℝ), s.mat.grid = some sheet →
    ∃ n evs sheet', n ≤ cs.length ∧ ExposedAll cfg.rate (floatAim f (cs.take n)) sheet evs sheet' ∧
      (endState (floatApplyControls cfg f cs el s)).mat.grid = some sheet' ∧
      (endState (floatApplyControls cfg f cs el s)).obs = s.obs.map (observeAll cfg.handle evs) ∧
      ∀ el' s', floatApplyControls cfg f cs el s = .ok el' s' → n = cs.length := by
  induction cs with
  | nil =>
    intro el s sheet hs
    exact ⟨0, [], sheet, le_rfl, .nil _, hs, by simp [floatApplyControls, endState], fun _ _ _ => rfl⟩
  | cons c cs ih =>
    intro el s sheet hs
    obtain ⟨trs, g1, hx, hg, _, ho⟩ := floatApplyControl_trace cfg.numpy cfg.rates hl hch cfg.handle hn
      (BeamControl.mk' (f.floatToMaterial c.position) c.dwellTime) cfg.fuel (s := ⟨s.g, s.mat, notify cfg.handle
        (.applyControl (BeamControl.mk' (f.floatToMaterial c.position) c.dwellTime)) s.obs⟩) hs
    rw [floatApplyControls]
    simp only
    cases hc : Material.floatApplyControl cfg.numpy cfg.rates cfg.rng cfg.handle cfg.rate cfg.fuel
      (BeamControl.mk' (f.floatToMaterial c.position) c.dwellTime)
      ⟨s.g, s.mat, notify cfg.handle
        (.applyControl (BeamControl.mk' (f.floatToMaterial c.position) c.dwellTime)) s.obs⟩ with
    | error e s2 =>
      rw [hc] at hg ho
      refine ⟨1, _, g1, by simp, .cons hx (.nil _), hg, ?_, fun _ _ h => by cases h⟩
      simp only [endState] at ho ⊢
      rw [ho]
      simp [notify, observeAll, Function.comp_def]
    | ok u s2 =>
      rw [hc] at hg ho
      obtain ⟨n, evs, g2, hn', h1, h2, h3, h4⟩ := ih (el + c.dwellTime) s2 g1 hg
      refine ⟨n + 1, _, g2, by simp [hn'], .cons hx h1, h2, ?_, ?_⟩
      · have h3' : (endState (floatApplyControls cfg f cs (el + (BeamControl.mk' (f.floatToMaterial c.position)
            c.dwellTime).dwellTime) s2)).obs = _ := h3
        dsimp only
        rw [h3']
        simp only [endState] at ho
        rw [ho]
        simp [notify, observeAll, Function.comp_def]
      · intro el' s' h
        simp [h4 el' s' h]

/-! ### When it returns -/

theorem floatTotal_err (v : NumpyVersion) (p : Precision) {a b c : ℝ} (ha : 0 ≤ a) (hb : 0 ≤ b) (hc : 0 ≤ c)
    (hS : 2 ^ (-100 : ℤ) ≤ a + b + c ∨ (0 < a + b + c ∧ f32 a = a ∧ f32 b = b ∧ f32 c = c)) :
    |floatTotalRate v p [a, b, c] - (a + b + c)| ≤ 2 ^ (-21 : ℤ) * (a + b + c) := by
  rcases hS with hS | ⟨hS0, ga, gb, gc⟩
  swap
  · refine (smallTotal_err v p ha hb hc ga gb gc).1.trans (mul_le_mul_of_nonneg_right ?_ hS0.le)
    exact zpow_le_zpow_right₀ (by norm_num) (by norm_num)
  have hS0 : 0 < a + b + c := lt_of_lt_of_le (by positivity) hS
  have h1 := three_sum_err (fl := (withPythonNumber v p).round) (fun x => Precision.round_err _ x) (by positivity)
    (by norm_num) (by positivity) ha hb hc
  have h2 := tiny_le hS (k := -150) le_rfl
  show |(withPythonNumber v p).round ((withPythonNumber v p).round
    ((withPythonNumber v p).round (0 + a) + b) + c) - (a + b + c)| ≤ _
  norm_num at h1 h2 ⊢
  linarith

theorem floatTotal_pos (v : NumpyVersion) (p : Precision) {a b c : ℝ} (ha : 0 ≤ a) (hb : 0 ≤ b) (hc : 0 ≤ c)
    (hS : 2 ^ (-100 : ℤ) ≤ a + b + c ∨ (0 < a + b + c ∧ f32 a = a ∧ f32 b = b ∧ f32 c = c)) :
    0 < floatTotalRate v p [a, b, c] := by
  have h := floatTotal_err v p ha hb hc hS
  have hS0 : 0 < a + b + c := hS.elim (lt_of_lt_of_le (by positivity)) And.left
  rw [abs_le] at h
  norm_num at h
  linarith [h.1]

theorem floatTotal_zero (v : NumpyVersion) (p : Precision) {a b c : ℝ} (ha : 0 ≤ a) (hb : 0 ≤ b) (hc : 0 ≤ c)
    (h : a + b + c = 0) : floatTotalRate v p [a, b, c] = 0 := by
  have h1 : a = 0 := by linarith
  have h2 : b = 0 := by linarith
  have h3 : c = 0 := by linarith
  subst h1 h2 h3
  show (withPythonNumber v p).round ((withPythonNumber v p).round ((withPythonNumber v p).round (0 + 0) + 0) + 0) = 0
  simp [Precision.round_zero]

theorem floatLoop_returns {v : NumpyVersion} {p : Precision} (hvp : v = .one ∨ p = .single) {rng : Rng ℝ G}
    (hl : rng.Lawful) (hch : Chooses rng) (handle : Event ℝ Img → O → O) {rate : RateFunction ℝ} (hr : DopedRates rate)
    (c : BeamControl ℝ) {ps : List (V2 ℝ)} (hd : RatesAt rate ps c.position) (hc : c.dwellTime < 3600000000) (fuel : ℕ) :
    ∀ (el : Timedelta), 0 ≤ el → ∀ (s : MatCtx ℝ G O) (g : Grid ℝ), s.mat.hasBeenReset = true → s.mat.grid = some g →
      SingleDoped g → g.positions = ps →
    (∃ s', floatApplyLoop v p rng handle rate c fuel el s = .ok () s') ∨
    ((∃ s', floatApplyLoop v p rng handle rate c fuel el s = .error .diverges s') ∧
      (WaitsATick rng → (fuel : ℤ) < c.dwellTime - el)) := by
  induction fuel with
  | zero =>
    intro el h0 s g hflag hg hdop hps
    rw [floatApplyLoop]
    split_ifs with h
    · exact .inr ⟨⟨s, rfl⟩, fun _ => by push_cast; omega⟩
    · exact .inl ⟨s, rfl⟩
  | succ fuel ih =>
    intro el h0 s g hflag hg hdop hps
    rw [floatApplyLoop]
    by_cases h : el < c.dwellTime
    swap
    · simp only [h, if_false]; exact .inl ⟨s, rfl⟩
    simp only [h, if_true]
    have hread : s.mat.read = .ok g := by simp [Material.read, hflag, hg]
    obtain ⟨x, y, z, hss, htot⟩ := hd g hdop hps
    have hnn := hr.nonneg _ _ _ hss
    have hx := hnn x (by simp)
    have hy := hnn y (by simp)
    have hz := hnn z (by simp)
    have hdraw : ∃ t g', floatDrawTime v p rng [x, y, z] s.g = .ok (t, g') ∧
        (x.rate + y.rate + z.rate = 0 → t = 3600000000) ∧ (WaitsATick rng → 1 ≤ t) := by
      unfold floatDrawTime
      simp only [List.map_cons, List.map_nil]
      split_ifs with h1 h2
      · simp at h2
      · exact ⟨_, _, rfl, fun _ => by norm_num, fun _ => by norm_num⟩
      · obtain ⟨d, e1, _⟩ := timedeltaOf_err (min (rng.exponential ((withPythonNumber v p).round
          (1 / floatTotalRate v p [x.rate, y.rate, z.rate])) s.g).1 3600)
        simp only [e1]
        refine ⟨_, _, rfl, fun h => absurd (floatTotal_zero v p hx hy hz h) h1, fun hw => ?_⟩
        exact timedelta_tick (le_min (hw _ _) (by norm_num)) e1
    obtain ⟨t, g', ht, ht0, htick⟩ := hdraw
    have htn := floatDrawTime_nonneg hl hnn ht
    simp only [hread, hss, ht]
    by_cases hle : el + t ≤ c.dwellTime
    swap
    · simp only [hle, if_false]
      rcases ih (el + t) (by omega) { s with g := g' } g hflag hg hdop hps with h1 | ⟨h1, h2⟩
      · exact .inl h1
      · exact .inr ⟨h1, fun hw => by have := h2 hw; have := htick hw; push_cast; omega⟩
    · simp only [hle, if_true]
      have hne0 : x.rate + y.rate + z.rate ≠ 0 := fun h1 => by
        have := ht0 h1
        omega
      have hS : 2 ^ (-100 : ℤ) ≤ x.rate + y.rate + z.rate ∨ (0 < x.rate + y.rate + z.rate ∧ f32 x.rate = x.rate ∧
          f32 y.rate = y.rate ∧ f32 z.rate = z.rate) := by
        rcases htot with h1 | h1 | h1
        · exact absurd h1 hne0
        · exact .inl h1
        · exact .inr ⟨lt_of_le_of_ne (by linarith) (Ne.symm hne0), h1⟩
      have hperf : ∃ g'' next, next ∈ [x, y, z] ∧ floatPerform v p rng handle (el + t) [x, y, z] { s with g := g' } =
          .ok () ⟨g'', ⟨s.mat.hasBeenReset, some next.grid⟩, notify handle (.transition (el + t) next.grid) s.obs⟩ := by
        rcases floatPerform_cases (v := v) (p := p) hch (handle := handle) (el := el + t) hnn (s := { s with g := g' })
          with hf | ⟨g'', next, hm, _, hf⟩
        · exfalso
          obtain ⟨q1, q2, q3, hp, _⟩ := C136_accepted_partial v p hvp hx hy hz hS
          have hne := (floatTotal_pos v p hx hy hz hS).ne'
          have hok := transitionProbs_ok hp
          obtain ⟨q, hq, hq0⟩ := hch _ g' hok.2.1 hok.2.2
          have hok1 := hok.1
          obtain ⟨w, hw, _⟩ := chosen_positive (v := v) (p := p) (ss := [x, y, z]) hnn
            (by simpa [← hok1] using hq) hq0
          unfold floatPerform at hf
          simp only [List.map_cons, List.map_nil, hne, if_false, hp, hw] at hf
          cases hf
        · exact ⟨g'', next, hm, hf⟩
      obtain ⟨g'', next, hm, hf⟩ := hperf
      obtain ⟨hdop', hpos'⟩ := hr.doped g c.position _ hss hdop next hm
      rw [hf]
      dsimp only
      rcases ih (el + t) (by omega) ⟨g'', ⟨s.mat.hasBeenReset, some next.grid⟩,
        notify handle (.transition (el + t) next.grid) s.obs⟩ next.grid hflag rfl hdop' (by rw [hpos']; exact hps)
        with h1 | ⟨h1, h2⟩
      · exact .inl h1
      · exact .inr ⟨h1, fun hw => by have := h2 hw; have := htick hw; push_cast; omega⟩

theorem floatControls_return (cfg : FloatSimCfg G O P Img) (hvp : cfg.numpy = .one ∨ cfg.rates = .single)
    (hl : cfg.rng.Lawful) (hch : Chooses cfg.rng) (hr : DopedRates cfg.rate) (f : Fov ℝ) {ps : List (V2 ℝ)}
    (cs : List (BeamControl ℝ)) :
    (∀ c ∈ cs, c.dwellTime < 3600000000 ∧ RatesAt cfg.rate ps (f.floatToMaterial c.position)) →
    ∀ (el : Timedelta) (s : MatCtx ℝ G O) (g : Grid ℝ), s.mat.hasBeenReset = true → s.mat.grid = some g →
      SingleDoped g → g.positions = ps →
    (∃ el' s', floatApplyControls cfg f cs el s = .ok el' s') ∨
    ((∃ s', floatApplyControls cfg f cs el s = .error .diverges s') ∧ (WaitsATick cfg.rng → cfg.fuel < 3600000000)) := by
  induction cs with
  | nil => intro _ el s g _ _ _ _; exact .inl ⟨_, _, rfl⟩
  | cons c cs ih =>
    intro hcs el s g hflag hg hdop hps
    obtain ⟨hc1, hc2⟩ := hcs c List.mem_cons_self
    obtain ⟨c', hc'⟩ : ∃ c', c' = BeamControl.mk' (f.floatToMaterial c.position) c.dwellTime := ⟨_, rfl⟩
    obtain ⟨s1, hs1⟩ : ∃ s1 : MatCtx ℝ G O, s1 = { s with obs := notify cfg.handle (.applyControl c') s.obs } := ⟨_, rfl⟩
    have hflag1 : s1.mat.hasBeenReset = true := by rw [hs1]; exact hflag
    have hg1 : s1.mat.grid = some g := by rw [hs1]; exact hg
    have hloop := floatLoop_returns hvp hl hch cfg.handle hr c' (ps := ps) (by rw [hc']; exact hc2) (by rw [hc']; exact hc1)
      cfg.fuel 0 le_rfl s1 g hflag1 hg1 hdop hps
    have happ : Material.floatApplyControl cfg.numpy cfg.rates cfg.rng cfg.handle cfg.rate cfg.fuel c' s1 =
        floatApplyLoop cfg.numpy cfg.rates cfg.rng cfg.handle cfg.rate c' cfg.fuel 0 s1 := by
      simp [Material.floatApplyControl, hflag1]
    have hkeep := floatApplyControl_keeps cfg.numpy cfg.rates cfg.rng cfg.handle hr.keepsDoping c' cfg.fuel s1
    rcases hloop with ⟨s2, h2⟩ | ⟨⟨s2, h2⟩, h3⟩
    · rw [happ, h2] at hkeep
      obtain ⟨k1, k2⟩ := hkeep
      obtain ⟨g2, k3, k4, k5⟩ := k2 g hg1 hdop
      rcases ih (fun c hc => hcs c (List.mem_cons_of_mem _ hc)) (el + c'.dwellTime) s2 g2 (k1.trans hflag1) k3 k4
        (k5.trans hps) with ⟨el', s', h⟩ | ⟨⟨s', h⟩, h5⟩
      · exact .inl ⟨el', s', by simp only [floatApplyControls, ← hc', ← hs1, happ, h2, h]⟩
      · exact .inr ⟨⟨s', by simp only [floatApplyControls, ← hc', ← hs1, happ, h2, h]⟩, h5⟩
    · refine .inr ⟨⟨s2, by simp only [floatApplyControls, ← hc', ← hs1, happ, h2]⟩, fun hw => ?_⟩
      have := h3 hw
      have h6 : c'.dwellTime < 3600000000 := by rw [hc']; exact hc1
      omega

/-! ### Steps and histories -/

/-- What observers are told about images during a step that returns. -/
theorem floatStep_told (cfg : FloatSimCfg G O P Img) {cs : List (BeamControl ℝ)} {b : Bool} {s s' : Sim ℝ G O P}
    {f : Fov ℝ} (hf : s.fov = some f) {o : Observation ℝ Img} (h : Sim.floatStep cfg cs b s = .ok o s') :
    ∃ el c evs', floatApplyControls cfg f cs 0 s.ctx = .ok el c ∧
      s'.ctx.obs = c.obs.map (observeAll cfg.handle
        (.takeImage cfg.imageDuration f :: (evs' ++ (o.image.map Event.generatedImage).toList))) ∧
      (o.image.isSome = b) ∧
      ((evs' = [] ∧ o.fov = f ∧ o.elapsedTime = el + cfg.imageDuration) ∨
        (evs' = [.fovChange o.fov, .takeImage cfg.imageDuration o.fov] ∧
          o.elapsedTime = el + cfg.imageDuration + cfg.imageDuration)) := by
  unfold Sim.floatStep at h
  rw [hf] at h
  split at h
  swap
  · cases h
  dsimp only at h
  have himg : ∀ (b : Bool) (grid : Grid ℝ) (f : Fov ℝ) (s s' : Sim ℝ G O P) (img : Option Img),
      Sim.maybeImage cfg.toSimCfg b grid f s = .ok img s' → img.isSome = b ∧
      s'.ctx.obs = s.ctx.obs.map (observeAll cfg.handle (img.map Event.generatedImage).toList) := by
    intro b grid f s s' img h
    unfold Sim.maybeImage at h
    split_ifs at h with hb
    · split at h
      · cases h
      · dsimp only at h
        cases h
        exact ⟨by simp [hb], by simp [notify, observeAll]⟩
    · cases h
      exact ⟨by simpa using hb, by simp⟩
  cases hc : floatApplyControls cfg f cs 0 s.ctx with
  | error e c => rw [hc] at h; cases h
  | ok el c =>
    rw [hc] at h
    dsimp only at h
    unfold Sim.floatObserve at h
    cases ha : c.mat.floatAtomsInBounds f.lowerLeft f.upperRight with
    | error e => simp only [ha] at h; cases h
    | ok grid =>
      simp only [ha] at h
      unfold Sim.floatRecentre at h
      cases ho : siliconOutsideOfSafeArea grid with
      | error e => simp only [ho] at h; cases h
      | ok out =>
        cases out with
        | false =>
          simp only [ho] at h
          cases hm : Sim.maybeImage cfg.toSimCfg b grid f { s with fov := some f, ctx := { c with
              obs := notify cfg.handle (.takeImage cfg.imageDuration f) c.obs } } with
          | error e s3 => rw [hm] at h; cases h
          | ok img s3 =>
            rw [hm] at h
            cases h
            obtain ⟨k1, k2⟩ := himg _ _ _ _ _ _ hm
            refine ⟨el, c, [], rfl, ?_, k1, .inl ⟨rfl, rfl, rfl⟩⟩
            rw [k2]
            simp [notify, observeAll, Function.comp_def]
        | true =>
          simp only [ho] at h
          cases hs : c.mat.getSiliconPosition with
          | error e => simp only [hs] at h; cases h
          | ok si =>
            simp only [hs] at h
            cases hsc : s.fovScale with
            | none => simp only [hsc] at h; cases h
            | some scale =>
              simp only [hsc] at h
              unfold Sim.floatObserve at h
              cases ha' : c.mat.floatAtomsInBounds (floatCentredFov si scale).lowerLeft
                  (floatCentredFov si scale).upperRight with
              | error e => simp only [ha'] at h; cases h
              | ok grid' =>
                simp only [ha'] at h
                generalize hS : (⟨⟨c.g, c.mat, notify cfg.handle (.takeImage cfg.imageDuration (floatCentredFov si scale))
                  (notify cfg.handle (.fovChange (floatCentredFov si scale))
                    (notify cfg.handle (.takeImage cfg.imageDuration f) c.obs))⟩, s.hasBeenReset, some scale,
                  some (floatCentredFov si scale), s.imageParams⟩ : Sim ℝ G O P) = S at h
                cases hm : Sim.maybeImage cfg.toSimCfg b grid' (floatCentredFov si scale) S with
                | error e s3 => simp only [hm] at h; cases h
                | ok img s3 =>
                  simp only [hm] at h
                  cases h
                  obtain ⟨k1, k2⟩ := himg _ _ _ _ _ _ hm
                  refine ⟨el, c, [.fovChange (floatCentredFov si scale),
                    .takeImage cfg.imageDuration (floatCentredFov si scale)], rfl, ?_, k1, .inr ⟨rfl, rfl⟩⟩
                  rw [k2, ← hS]
                  simp [notify, observeAll, Function.comp_def]

theorem floatExec_fov {cfg : FloatSimCfg G O P Img} (hl : cfg.rng.Lawful)
    (hgen : ∀ g, ∀ p ∈ (cfg.generate g).1, Moderate p) (hk : KeepsDoping cfg.rate) {s : Sim ℝ G O P} (h : FloatInv s)
    (op : SimOp ℝ O) :
    (∀ o, (Sim.floatExec cfg s op).1 = some (.ok o) → (Sim.floatExec cfg s op).2.fov = some o.fov) ∧
    ((∀ o, (Sim.floatExec cfg s op).1 ≠ some (.ok o)) → (Sim.floatExec cfg s op).2.fov = s.fov) := by
  cases op with
  | reset b =>
    simp only [Sim.floatExec]
    rcases floatReset_cases cfg hl hgen b s with ⟨e, s', h1, h2, _⟩ | ⟨o, s', sheet, h1, h2, _⟩
    · rw [h1]
      exact ⟨fun o ho => by simp at ho, fun _ => h2⟩
    · rw [h1]
      refine ⟨fun o' ho => ?_, fun hno => absurd rfl (hno o)⟩
      simp only [Option.some.injEq, Except.ok.injEq] at ho
      subst ho
      exact h2.ready.fov
  | step cs b =>
    simp only [Sim.floatExec]
    cases hf : s.fov with
    | none =>
      obtain ⟨e, he⟩ := floatStep_unready cfg cs b hf
      rw [he]
      exact ⟨fun o ho => by simp at ho, fun _ => hf⟩
    | some f =>
      obtain ⟨sheet, hr⟩ := h f hf
      rcases floatStep_cases cfg hk cs b hr with ⟨e, s', c, sheet', h1, _, h2, _⟩ | ⟨o, s', sheet', h1, h2, _⟩
      · rw [h1]
        exact ⟨fun o ho => by simp at ho, fun _ => h2.fov⟩
      · rw [h1]
        refine ⟨fun o' ho => ?_, fun hno => absurd rfl (hno o)⟩
        simp only [Option.some.injEq, Except.ok.injEq] at ho
        subst ho
        exact h2.ready.fov
  | addObserver o => exact ⟨fun o ho => by simp [Sim.floatExec] at ho, fun _ => rfl⟩
  | removeObserver i =>
    simp only [Sim.floatExec, Sim.removeObserver]
    split_ifs
    · exact ⟨fun o ho => by simp at ho, fun _ => rfl⟩
    · exact ⟨fun o ho => by simp at ho, fun _ => rfl⟩

theorem floatRun_fov {cfg : FloatSimCfg G O P Img} (hl : cfg.rng.Lawful)
    (hgen : ∀ g, ∀ p ∈ (cfg.generate g).1, Moderate p) (hk : KeepsDoping cfg.rate) (ops : List (SimOp ℝ O)) :
    ∀ {s : Sim ℝ G O P}, FloatInv s →
      (Sim.floatRun cfg s ops).2.fov = ((lastObs (Sim.floatRun cfg s ops).1).map (·.fov)).or s.fov := by
  induction ops with
  | nil => intro s _; simp [Sim.floatRun, lastObs]
  | cons op ops ih =>
    intro s h
    simp only [Sim.floatRun]
    rw [ih (h.exec hl hgen hk op).1, lastObs_cons]
    obtain ⟨h1, h2⟩ := floatExec_fov (cfg := cfg) hl hgen hk h op
    cases hl : lastObs (Sim.floatRun cfg (Sim.floatExec cfg s op).2 ops).1 with
    | some o => simp
    | none =>
      cases hr : (Sim.floatExec cfg s op).1 with
      | none => simp [h2 (by simp [hr])]
      | some r =>
        cases r with
        | error e => simp [h2 (by simp [hr])]
        | ok o => simp [h1 o hr]

end PD
