/- What one call of the transition loop does, as a list of transitions. -/
import Verif.Lemmas.Material

set_option linter.unusedSectionVars false
set_option linter.unusedSimpArgs false

namespace PD
open PD.Spec
variable {K G O Img : Type} [Field K] [LinearOrder K] [IsStrictOrderedRing K] [FloorRing K]

/-- A rate function whose rates are never negative. -/
def NonnegRates (rate : RateFunction K) : Prop :=
  ∀ g p ss, rate g p = .ok ss → ∀ x ∈ ss, 0 ≤ x.rate

theorem totalRate_nonneg {ss : List (Successor K)} (h : ∀ x ∈ ss, 0 ≤ x.rate) :
    0 ≤ totalRate ss := by
  unfold totalRate
  apply List.sum_nonneg
  intro a ha
  obtain ⟨x, hx, rfl⟩ := List.mem_map.1 ha
  exact h x hx

theorem drawTransitionTime_nonneg {rng : Rng K G} (hl : rng.Lawful) {ss : List (Successor K)}
    (h : ∀ x ∈ ss, 0 ≤ x.rate) {g g' : G} {t : Timedelta}
    (hd : drawTransitionTime rng ss g = .ok (t, g')) : 0 ≤ t := by
  unfold drawTransitionTime at hd
  split_ifs at hd with h1 h2
  · simp only [Except.ok.injEq, Prod.mk.injEq] at hd
    rw [← hd.1]; exact ofSeconds_nonneg (by norm_num)
  · simp only [Except.ok.injEq, Prod.mk.injEq] at hd
    rw [← hd.1]
    apply ofSeconds_nonneg
    refine le_min (hl.exponential_nonneg _ _ ?_) (by norm_num)
    have := totalRate_nonneg h
    positivity

/-- The successor relation of a rate function with the beam at `p`. -/
def SuccRel (rate : RateFunction K) (p : V2 K) (g g' : Grid K) : Prop :=
  ∃ ss, rate g p = .ok ss ∧ ∃ x ∈ ss, x.grid = g'

/-- The transition event of a (time, grid) pair. -/
def tev (e : Timedelta × Grid K) : Event K Img := .transition e.1 e.2

@[simp] theorem observeAll_nil {E O : Type} (handle : E → O → O) :
    observeAll handle [] = id := rfl

theorem observeAll_cons {E O : Type} (handle : E → O → O) (e : E) (es : List E) (o : O) :
    observeAll handle (e :: es) o = observeAll handle es (handle e o) := rfl

theorem observeAll_append {E O : Type} (handle : E → O → O) (a b : List E) (o : O) :
    observeAll handle (a ++ b) o = observeAll handle b (observeAll handle a o) := by
  simp [observeAll]

/-- `s'` results from `s` by the transitions `evs` under control `c`, starting at time
`elapsed` into the control. -/
structure LoopTrace (rng : Rng K G) (handle : Event K Img → O → O) (rate : RateFunction K)
    (c : BeamControl K) (elapsed : Timedelta) (s s' : MatCtx K G O)
    (evs : List (Timedelta × Grid K)) : Prop where
  obs : s'.obs = s.obs.map (observeAll handle (evs.map tev))
  reset : s'.mat.hasBeenReset = s.mat.hasBeenReset
  grid : s'.mat.grid = (evs.getLast?.map Prod.snd).or s.mat.grid
  none : s.mat.grid = none → evs = []
  chain : ∀ g, s.mat.grid = some g → ChainFrom (SuccRel rate c.position) g (evs.map Prod.snd)
  le : ∀ e ∈ evs, e.1 ≤ c.dwellTime
  times : rng.Lawful → NonnegRates rate →
        (∀ e ∈ evs, elapsed ≤ e.1) ∧ (evs.map Prod.fst).Pairwise (· ≤ ·)

theorem LoopTrace.refl (rng : Rng K G) (handle : Event K Img → O → O) (rate : RateFunction K)
    (c : BeamControl K) (elapsed : Timedelta) (s s' : MatCtx K G O) (ho : s'.obs = s.obs)
    (hm : s'.mat = s.mat) : LoopTrace rng handle rate c elapsed s s' [] :=
  ⟨by simp [ho], by rw [hm], by simp [hm], fun _ => rfl, fun _ _ => trivial, by simp, by simp⟩

theorem applyLoop_trace (rng : Rng K G) (handle : Event K Img → O → O) (rate : RateFunction K)
    (c : BeamControl K) (fuel : ℕ) (elapsed : Timedelta) (s : MatCtx K G O) :
    ∃ evs, LoopTrace rng handle rate c elapsed s
      (endState (applyLoop rng handle rate c fuel elapsed s)) evs := by
  induction fuel generalizing elapsed s with
  | zero =>
    rw [applyLoop]
    split_ifs with h
    · exact ⟨[], .refl _ _ _ _ _ _ _ rfl rfl⟩
    · exact ⟨[], .refl _ _ _ _ _ _ _ rfl rfl⟩
  | succ fuel ih =>
    rw [applyLoop]
    by_cases h : elapsed < c.dwellTime
    swap
    · simp only [h, if_false]; exact ⟨[], .refl _ _ _ _ _ _ _ rfl rfl⟩
    simp only [h, if_true]
    cases hr : s.mat.read with
    | error e => exact ⟨[], .refl _ _ _ _ _ _ _ rfl rfl⟩
    | ok grid =>
      have hgrid : s.mat.grid = some grid := by
        unfold Material.read at hr
        split_ifs at hr
        cases hg : s.mat.grid with
        | none => simp [hg] at hr
        | some g => simp [hg] at hr; rw [hr]
      simp only
      cases hrate : rate grid c.position with
      | error e => exact ⟨[], .refl _ _ _ _ _ _ _ rfl rfl⟩
      | ok ss =>
        simp only
        cases hd : drawTransitionTime rng ss s.g with
        | error e => exact ⟨[], .refl _ _ _ _ _ _ _ rfl rfl⟩
        | ok tg =>
          obtain ⟨t, g⟩ := tg
          simp only
          have htn : rng.Lawful → NonnegRates rate → 0 ≤ t := fun hl hn =>
            drawTransitionTime_nonneg hl (hn _ _ _ hrate) hd
          by_cases hle : elapsed + t ≤ c.dwellTime
          swap
          · simp only [hle, if_false]
            obtain ⟨evs, h1, h2, h3, h4, h5, h6, h7⟩ := ih (elapsed + t) { s with g := g }
            refine ⟨evs, h1, h2, h3, h4, h5, h6, ?_⟩
            intro hl hn
            exact ⟨fun e he => by have := (h7 hl hn).1 e he; have := htn hl hn; omega,
              (h7 hl hn).2⟩
          · simp only [hle, if_true]
            unfold performTransition
            split_ifs with ht0
            · exact ⟨[], .refl _ _ _ _ _ _ _ rfl rfl⟩
            · simp only
              cases hidx : ss[(rng.choiceP (ss.map (fun x => x.rate / totalRate ss)) g).1]? with
              | none => exact ⟨[], .refl _ _ _ _ _ _ _ rfl rfl⟩
              | some next =>
                simp only
                obtain ⟨evs, h1, h2, h3, h4, h5, h6, h7⟩ := ih (elapsed + t)
                  { s with
                    g := (rng.choiceP (ss.map (fun x => x.rate / totalRate ss)) g).2
                    mat := { s.mat with grid := some next.grid }
                    obs := notify handle (.transition (elapsed + t) next.grid) s.obs }
                refine ⟨(elapsed + t, next.grid) :: evs, ?_, ?_, ?_, ?_, ?_, ?_, ?_⟩
                · rw [h1]
                  simp [notify, observeAll, tev, Function.comp_def]
                · rw [h2]
                · rw [h3]
                  cases hl : evs.getLast? with
                  | none =>
                    have : evs = [] := List.getLast?_eq_none_iff.1 hl
                    subst this
                    simp
                  | some e =>
                    have hne : evs ≠ [] := by rintro rfl; simp at hl
                    rw [List.getLast?_cons]
                    simp [hl]
                · intro hnone; rw [hgrid] at hnone; cases hnone
                · intro g0 hg0
                  rw [hgrid] at hg0
                  cases hg0
                  refine ⟨⟨ss, hrate, next, List.mem_of_getElem? hidx, rfl⟩, ?_⟩
                  exact h5 next.grid rfl
                · intro e he
                  rcases List.mem_cons.1 he with rfl | he
                  · exact hle
                  · exact h6 e he
                · intro hl hn
                  obtain ⟨h8, h9⟩ := h7 hl hn
                  have h0 := htn hl hn
                  constructor
                  · intro e he
                    rcases List.mem_cons.1 he with rfl | he
                    · simp only; omega
                    · have := h8 e he; omega
                  · rw [List.map_cons, List.pairwise_cons]
                    refine ⟨?_, h9⟩
                    intro a ha
                    obtain ⟨e, he, rfl⟩ := List.mem_map.1 ha
                    exact h8 e he

end PD
