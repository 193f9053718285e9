/- Properties C05–C08, C39 and the material part of C14. -/
import Verif.Lemmas.ApplyLoop
import Verif.Lemmas.Witness
import Verif.Spec.Rates

set_option linter.unusedSectionVars false
set_option linter.unusedSimpArgs false

namespace PD.Props
open PD PD.Spec
variable {K G O Img : Type} [Field K] [LinearOrder K] [IsStrictOrderedRing K]

/-! ### C39 the rate predictor proposes exactly the three neighbour swaps -/

theorem getSingleSiliconPosition_of_singleton {g : Grid K} {p : V2 K}
    (h : getSiliconPositions g = [p]) : getSingleSiliconPosition g = .ok p := by
  simp [getSingleSiliconPosition, h]

/-- For a sheet with one silicon at atom `i`, at least four atoms and distinct positions, and a
canonical rate function returning, for atoms of the sheet, one non-negative rate each, the
predictor returns three successors.  They belong to three distinct atoms, each among the three
nearest to the silicon, no other atom being nearer; each successor keeps all positions, has its
only silicon at its atom, and carries the rate computed for that atom. -/
theorem C39_three_neighbour_swaps (knn : Knn K) (canon : CanonicalRateFn K) (g : Grid K)
    (beam : V2 K) (hg : SingleDoped g) (h4 : 4 ≤ g.positions.length) (hd : g.positions.Nodup)
    (hcanon : ∀ s n, (∀ j ∈ n, j < g.positions.length) →
      ∃ rates, canon g beam s n = .ok rates ∧ rates.length = n.length ∧ ∀ r ∈ rates, 0 ≤ r) :
    ∃ (i : ℕ) (si : V2 K) (nbrs : List ℕ) (rates : List K) (ss : List (Successor K)),
      g.numbers[i]? = some SILICON ∧ g.positions[i]? = some si ∧
      canon g beam si nbrs = .ok rates ∧
      pristineRates knn canon g beam = .ok ss ∧ ss.length = 3 ∧
      nbrs.length = 3 ∧ nbrs.Nodup ∧ (∀ j ∈ nbrs, AmongThreeNearest g.positions i j) ∧
      (∀ j ∈ nbrs, ∀ k, k ≠ i → k ∉ nbrs → ∀ pj pk, g.positions[j]? = some pj →
        g.positions[k]? = some pk → V2.distSq si pj ≤ V2.distSq si pk) ∧
      ∀ n j : ℕ, nbrs[n]? = some j → ∃ x : Successor K, ss[n]? = some x ∧ x.grid.positions = g.positions ∧
        SingleDoped x.grid ∧ x.grid.numbers[j]? = some SILICON ∧
        rates[n]? = some x.rate ∧ 0 ≤ x.rate := by
  obtain ⟨i, si, hi, hn, hsi⟩ := hg.exists_index
  have hil : i < g.positions.length := (List.getElem?_eq_some_iff.1 hi).1
  have hwf : g.WF := hg.wf
  have hknn := knn.spec g.positions si 4 h4
  obtain ⟨t, ht⟩ := hknn.head_eq hd hi
  have hnb := nearestNeighbors3_eq knn (ps := g.positions) si h4
  set nbrs := (knn.query g.positions si 4).drop 1 with hnbrs
  have ht' : nbrs = t := by rw [hnbrs, ht]; rfl
  have hn3 : nbrs.length = 3 := by rw [hnbrs, List.length_drop, hknn.length]
  have hnd : nbrs.Nodup := hknn.nodup.sublist (List.drop_sublist _ _)
  have hlt : ∀ j ∈ nbrs, j < g.positions.length := fun j hj =>
    hknn.lt j (List.mem_of_mem_drop hj)
  obtain ⟨rates, hcan, hlen, hpos⟩ := hcanon si nbrs hlt
  have hall : rates.all (fun r => decide (0 ≤ r)) = true := by
    simp only [List.all_eq_true, decide_eq_true_eq]
    exact hpos
  have heq : pristineRates knn canon g beam =
      .ok ((nbrs.zip rates).map (fun ir => ⟨successorGrid g ir.1, ir.2⟩)) := by
    simp only [pristineRates, getSingleSiliconPosition_of_singleton hsi, hnb, hcan, hall, if_true, hlen]
  refine ⟨i, si, nbrs, rates, _, ?_, hi, hcan, heq, ?_, hn3, hnd, ?_, ?_, ?_⟩
  · rw [hn, doped_get _ _ _ hil]; simp
  · simp [hlen, hn3]
  · intro j hj; exact hknn.amongThreeNearest hd hi hj
  · intro j hj k hki hk pj pk hpj hpk
    have hjr : j ∈ knn.query g.positions si 4 := List.mem_of_mem_drop hj
    have hkr : k ∉ knn.query g.positions si 4 := by
      rw [ht, List.mem_cons]; push Not; exact ⟨hki, ht' ▸ hk⟩
    exact hknn.nearest j hjr k hkr pj pk hpj hpk
  · intro n j hj
    have hnl : n < nbrs.length := (List.getElem?_eq_some_iff.1 hj).1
    have hjl : j < g.positions.length := by
      have : j ∈ nbrs := List.mem_of_getElem? hj
      exact hknn.lt j (List.mem_of_mem_drop this)
    have hcl : n < rates.length := by rw [hlen]; exact hnl
    have hr : rates[n]? = some rates[n] := by simp [hcl]
    refine ⟨⟨successorGrid g j, rates[n]⟩, ?_, rfl, ?_, ?_, hr, ?_⟩
    · rw [List.getElem?_map, List.getElem?_zip_eq_some.2 (⟨hj, hr⟩ :
        nbrs[n]? = some (j, rates[n]).1 ∧
          rates[n]? = some (j, rates[n]).2)]
      rfl
    · exact singleDoped_successor hwf hjl
    · show (successorGrid g j).numbers[j]? = _
      rw [successorGrid_numbers g hwf, doped_get _ _ _ hjl]; simp
    · exact hpos _ (List.getElem_mem hcl)

/-- C39, error branches: no silicon, too few atoms, a negative rate or a wrong number of rates
are rejected. -/
theorem C39_rejects (knn : Knn K) (canon : CanonicalRateFn K) (g : Grid K) (beam : V2 K) :
    (getSiliconPositions g = [] → pristineRates knn canon g beam = .error .siliconNotFound) ∧
    (∀ si, getSiliconPositions g = [si] →
      (g.positions.length < 4 → pristineRates knn canon g beam = .error .valueError) ∧
      (4 ≤ g.positions.length →
        (∀ e, canon g beam si ((knn.query g.positions si 4).drop 1) = .error e →
          pristineRates knn canon g beam = .error e) ∧
        (∀ rates, canon g beam si ((knn.query g.positions si 4).drop 1) = .ok rates →
          ((∃ r ∈ rates, r < 0) ∨ rates.length ≠ 3) →
          pristineRates knn canon g beam = .error .assertionError))) := by
  constructor
  · intro h
    simp [pristineRates, getSingleSiliconPosition, h]
  · intro si hsi
    constructor
    · intro h4
      have h4' : ¬ 4 ≤ g.positions.length := by omega
      simp [pristineRates, getSingleSiliconPosition_of_singleton hsi, nearestNeighbors3,
        Knn.kneighbors, h4', bind, Except.bind]
    · intro h4
      have hk3 : ((knn.query g.positions si 4).drop 1).length = 3 := by
        rw [List.length_drop, (knn.spec g.positions si 4 h4).length]
      refine ⟨fun e he => ?_, fun rates he hbad => ?_⟩
      · simp only [pristineRates, getSingleSiliconPosition_of_singleton hsi,
          nearestNeighbors3_eq knn si h4, he]
      simp only [pristineRates, getSingleSiliconPosition_of_singleton hsi,
        nearestNeighbors3_eq knn si h4, hk3, he]
      split_ifs with h1 h2
      · simp only [List.all_eq_true, decide_eq_true_eq] at h1
        rcases hbad with ⟨r, hr, hr0⟩ | hl
        · exact absurd (h1 r hr) (not_le.2 hr0)
        · exact absurd h2 hl
      · rfl
      · rfl

theorem pristineRates_succ {knn : Knn K} {canon : CanonicalRateFn K} {g : Grid K} {beam : V2 K}
    {ss : List (Successor K)} (h : pristineRates knn canon g beam = .ok ss) :
    ∀ x ∈ ss, ∃ j, j < g.positions.length ∧ x.grid = successorGrid g j ∧ 0 ≤ x.rate := by
  unfold pristineRates at h
  cases hs : getSingleSiliconPosition g with
  | error e => simp [hs] at h
  | ok si =>
    simp only [hs] at h
    cases hn : nearestNeighbors3 knn g.positions si with
    | error e => simp [hn] at h
    | ok nbrs =>
      simp only [hn] at h
      split at h
      · cases h
      split_ifs at h with h1 h2
      simp only [Except.ok.injEq] at h
      subst h
      intro x hx
      obtain ⟨⟨j, r⟩, hjr, rfl⟩ := List.mem_map.1 hx
      obtain ⟨h4, r', hk, rfl⟩ := nearestNeighbors3_ok hn
      have hj := (List.of_mem_zip hjr).1
      have hr := (List.of_mem_zip hjr).2
      simp only [List.all_eq_true, decide_eq_true_eq] at h1
      exact ⟨j, hk.lt j (List.mem_of_mem_drop hj), rfl, h1 r hr⟩

theorem pristineRates_nonneg (knn : Knn K) (canon : CanonicalRateFn K) :
    NonnegRates (pristineRates knn canon) := by
  intro g p ss h
  unfold pristineRates at h
  cases hs : getSingleSiliconPosition g with
  | error e => simp [hs] at h
  | ok si =>
    simp only [hs] at h
    cases hn : nearestNeighbors3 knn g.positions si with
    | error e => simp [hn] at h
    | ok nbrs =>
      simp only [hn] at h
      split at h
      · cases h
      split_ifs at h with h1 h2
      simp only [Except.ok.injEq] at h
      subst h
      intro x hx
      obtain ⟨⟨j, r⟩, hjr, rfl⟩ := List.mem_map.1 hx
      simp only [List.all_eq_true, decide_eq_true_eq] at h1
      exact h1 r (List.of_mem_zip hjr).2

/-- Moving the silicon to an atom found by the neighbour search is a swap with one of the three
nearest atoms. -/
theorem successorGrid_swap {g : Grid K} (hg : SingleDoped g) (hnd : g.positions.Nodup) {si : V2 K}
    (hs : getSingleSiliconPosition g = .ok si) {r : List ℕ} (hk : IsKnn g.positions si 4 r) {j : ℕ}
    (hj : j ∈ r.drop 1) : NeighbourSwap g (successorGrid g j) := by
  obtain ⟨i, si', hi, hn, hsi⟩ := hg.exists_index
  rw [getSingleSiliconPosition_of_singleton hsi] at hs
  cases hs
  have hil : i < g.positions.length := (List.getElem?_eq_some_iff.1 hi).1
  have hwf : g.WF := hg.wf
  have hjl := hk.lt j (List.mem_of_mem_drop hj)
  have h3 := hk.amongThreeNearest hnd hi hj
  have hij : i ≠ j := h3.1
  refine ⟨rfl, by simp [successorGrid], i, j, h3, ?_, ?_, ?_, ?_, ?_⟩
  · rw [hn, doped_get _ _ _ hil]; simp
  · rw [successorGrid_numbers g hwf, doped_get _ _ _ hil]; simp [hij]
  · rw [hn, doped_get _ _ _ hjl]; simp [hij.symm]
  · rw [successorGrid_numbers g hwf, doped_get _ _ _ hjl]; simp
  · intro k hki hkj
    rw [successorGrid_numbers g hwf, hn]
    by_cases hkl : k < g.positions.length
    · rw [doped_get _ _ _ hkl, doped_get _ _ _ hkl]; simp [hki, hkj]
    · rw [List.getElem?_eq_none (by rw [doped_length]; omega),
        List.getElem?_eq_none (by rw [doped_length]; omega)]

theorem pristine_neighbourSwap {knn : Knn K} {canon : CanonicalRateFn K} {p : V2 K} {g g' : Grid K}
    (hg : SingleDoped g) (hnd : g.positions.Nodup)
    (h : SuccRel (pristineRates knn canon) p g g') : NeighbourSwap g g' := by
  obtain ⟨ss, hss, x, hx, rfl⟩ := h
  unfold pristineRates at hss
  split at hss
  · cases hss
  rename_i si hsi
  split at hss
  · cases hss
  rename_i nbrs hnn
  split at hss
  · cases hss
  split_ifs at hss with h1 h2
  simp only [Except.ok.injEq] at hss
  subst hss
  obtain ⟨⟨j, r⟩, hjr, rfl⟩ := List.mem_map.1 hx
  obtain ⟨h4, r', hk, rfl⟩ := nearestNeighbors3_ok hnn
  exact successorGrid_swap hg hnd hsi hk (List.of_mem_zip hjr).1

/-- C39: the predictor around any canonical rate function proposes neighbour swaps only. -/
theorem C39_pristine_swaps (knn : Knn K) (canon : CanonicalRateFn K) :
    SwapRates (pristineRates knn canon) where
  nonneg := pristineRates_nonneg knn canon
  doped := by
    intro g p ss h hg x hx
    obtain ⟨j, hj, he, _⟩ := pristineRates_succ h x hx
    rw [he]
    exact ⟨singleDoped_successor hg.wf hj, rfl⟩
  swap := fun g p ss h hg hnd x hx => pristine_neighbourSwap hg hnd ⟨ss, h, x, hx, rfl⟩

/-! ### C05 exactly one silicon, forever -/

/-- Calls a client can make on a material. -/
inductive MatOp (K : Type) where
  | reset
  | control (c : BeamControl K) (fuel : ℕ)

variable [FloorRing K]

/-- Run one call and keep the object as the call left it (also when it raised). -/
def matStep (rng : Rng K G) (handle : Event K Img → O → O) (rate : RateFunction K)
    (generate : G → List (V2 K) × G) (s : MatCtx K G O) : MatOp K → MatCtx K G O
  | .reset => endState (Material.reset generate s)
  | .control c fuel => endState (Material.applyControl rng handle rate fuel c s)

theorem succRel_singleDoped {rate : RateFunction K} (hrate : SwapRates rate) {p : V2 K}
    {g g' : Grid K} (hg : SingleDoped g) (h : SuccRel rate p g g') :
    SingleDoped g' ∧ g'.positions = g.positions := by
  obtain ⟨ss, hss, x, hx, rfl⟩ := h
  exact hrate.doped g p ss hss hg x hx

theorem chain_last {R : Grid K → Grid K → Prop} {P : Grid K → Prop}
    (hstep : ∀ g g', P g → R g g' → P g') (l : List (Grid K)) (g : Grid K) (hg : P g)
    (hc : ChainFrom R g l) : ∀ g' ∈ l, P g' := by
  induction l generalizing g with
  | nil => simp
  | cons a l ih =>
    obtain ⟨h1, h2⟩ := hc
    have ha := hstep g a hg h1
    intro g' hg'
    rcases List.mem_cons.1 hg' with rfl | hg'
    · exact ha
    · exact ih a ha h2 g' hg'

theorem dopeSheet_ok {ps : List (V2 K)} {g : Grid K} (h : dopeSheet ps = .ok g) :
    g.positions = ps ∧ SingleDoped g := by
  unfold dopeSheet at h
  cases ha : argmin? (ps.map V2.normSq) with
  | none => simp [ha] at h
  | some i =>
    simp only [ha, Except.ok.injEq] at h
    subst h
    refine ⟨rfl, (singleDoped_iff _).2 ⟨i, ?_, rfl⟩⟩
    have := argmin?_lt ha
    simpa using this

theorem applyControl_trace (rng : Rng K G) (handle : Event K Img → O → O) (rate : RateFunction K)
    (fuel : ℕ) (c : BeamControl K) (s : MatCtx K G O) :
    ∃ evs, LoopTrace rng handle rate c 0 s
      (endState (Material.applyControl rng handle rate fuel c s)) evs := by
  unfold Material.applyControl
  split_ifs
  · exact applyLoop_trace rng handle rate c fuel 0 s
  · exact ⟨[], .refl _ _ _ _ _ _ _ rfl rfl⟩

theorem applyControl_inv (rng : Rng K G) (handle : Event K Img → O → O) (rate : RateFunction K)
    (hrate : SwapRates rate) (fuel : ℕ) (c : BeamControl K) (s : MatCtx K G O) (g : Grid K)
    (hs : s.mat.grid = some g) (hg : SingleDoped g) :
    ∃ g', (endState (Material.applyControl rng handle rate fuel c s)).mat.grid
      = some g' ∧ SingleDoped g' ∧ g'.positions = g.positions := by
  obtain ⟨evs, h⟩ := applyControl_trace rng handle rate fuel c s
  rw [h.grid, hs]
  have hall := chain_last (P := fun g' => SingleDoped g' ∧ g'.positions = g.positions)
    (R := SuccRel rate c.position)
    (fun a b ha hab => by
      obtain ⟨h1, h2⟩ := succRel_singleDoped hrate ha.1 hab
      exact ⟨h1, h2.trans ha.2⟩) _ g ⟨hg, rfl⟩ (h.chain g hs)
  cases hl : evs.getLast? with
  | none => exact ⟨g, by simp, hg, rfl⟩
  | some e =>
    have he : e ∈ evs := List.mem_of_getLast? hl
    have := hall e.2 (List.mem_map_of_mem he)
    exact ⟨e.2, by simp, this.1, this.2⟩

/-- C05: after any sequence of resets and controls (of any kind, raising or not), starting from
a new material, the sheet – if there is one – has exactly one silicon and otherwise carbon. -/
theorem C05_single_silicon_forever (rng : Rng K G) (handle : Event K Img → O → O) (rate : RateFunction K)
    (hrate : SwapRates rate) (generate : G → List (V2 K) × G) (g0 : G) (obs : List O)
    (ops : List (MatOp K)) (sheet : Grid K)
    (h : (ops.foldl (matStep rng handle rate generate)
      ⟨g0, Material.fresh, obs⟩).mat.grid = some sheet) :
    SingleDoped sheet ∧ siliconCount sheet = 1 := by
  have key : ∀ (ops : List (MatOp K)) (s : MatCtx K G O),
      (∀ g, s.mat.grid = some g → SingleDoped g) →
      ∀ g, (ops.foldl (matStep rng handle rate generate) s).mat.grid = some g →
        SingleDoped g := by
    intro ops
    induction ops with
    | nil => intro s hs; exact hs
    | cons op ops ih =>
      intro s hs
      rw [List.foldl_cons]
      apply ih
      · cases op with
        | reset =>
          intro g hg
          simp only [matStep, Material.reset] at hg
          cases hd : dopeSheet (generate s.g).1 with
          | error e => rw [hd] at hg; exact hs g hg
          | ok g' =>
            rw [hd] at hg
            simp only [endState, Option.some.injEq] at hg
            subst hg
            exact (dopeSheet_ok hd).2
        | control c fuel =>
          intro g hg
          simp only [matStep] at hg
          cases hsg : s.mat.grid with
          | none =>
            obtain ⟨evs, ht⟩ := applyControl_trace rng handle rate fuel c s
            rw [ht.grid, hsg, ht.none hsg] at hg
            simp at hg
          | some gs =>
            obtain ⟨g', h1, h2, _⟩ :=
              applyControl_inv rng handle rate hrate fuel c s gs hsg (hs gs hsg)
            rw [h1] at hg
            cases hg
            exact h2
  have hsd := key ops _ (by simp [Material.fresh]) sheet h
  exact ⟨hsd, siliconCount_of_singleDoped hsd⟩

/-- C05: a successful reset creates a sheet at the generated positions, and no sequence of
controls ever moves, adds or removes an atom. -/
theorem C05_positions_never_change (rng : Rng K G) (handle : Event K Img → O → O) (rate : RateFunction K)
    (hrate : SwapRates rate) (generate : G → List (V2 K) × G) (s s1 : MatCtx K G O)
    (hreset : Material.reset generate s = .ok () s1) (controls : List (BeamControl K × ℕ)) :
    ∃ sheet, ((controls.map (fun c => MatOp.control c.1 c.2)).foldl
        (matStep rng handle rate generate) s1).mat.grid = some sheet ∧
      sheet.positions = (generate s.g).1 := by
  have h1 : ∃ g, s1.mat.grid = some g ∧ SingleDoped g ∧ g.positions = (generate s.g).1 := by
    unfold Material.reset at hreset
    simp only at hreset
    cases hd : dopeSheet (generate s.g).1 with
    | error e => rw [hd] at hreset; cases hreset
    | ok g =>
      rw [hd] at hreset
      simp only [EStateM.Result.ok.injEq, true_and] at hreset
      subst hreset
      exact ⟨g, rfl, (dopeSheet_ok hd).2, (dopeSheet_ok hd).1⟩
  clear hreset
  induction controls generalizing s1 with
  | nil => obtain ⟨g, h2, _, h3⟩ := h1; exact ⟨g, h2, h3⟩
  | cons c cs ih =>
    rw [List.map_cons, List.foldl_cons]
    apply ih
    obtain ⟨g, h2, h3, h4⟩ := h1
    obtain ⟨g', h5, h6, h7⟩ := applyControl_inv rng handle rate hrate c.2 c.1 s1 g h2 h3
    exact ⟨g', h5, h6, h7.trans h4⟩

/-! ### C06 / C07 what one control does -/

theorem chainFrom_mono {α : Type} {R S : α → α → Prop} {P : α → Prop}
    (hP : ∀ a b, P a → R a b → P b) (hRS : ∀ a b, P a → R a b → S a b) (l : List α) (a : α)
    (ha : P a) (h : ChainFrom R a l) : ChainFrom S a l := by
  induction l generalizing a with
  | nil => trivial
  | cons b l ih => exact ⟨hRS a b ha h.1, ih b (hP a b ha h.1) h.2⟩

/-- C06: applying a control tells every observer the same list of transitions, each of which
moves the silicon to one of the three atoms nearest to where it was; the material ends in the
last reported grid (or is unchanged if there was none). -/
theorem C06_moves_to_neighbours (rng : Rng K G) (handle : Event K Img → O → O) (rate : RateFunction K)
    (hrate : SwapRates rate) (fuel : ℕ) (c : BeamControl K) (s : MatCtx K G O) (g : Grid K)
    (hs : s.mat.grid = some g) (hg : SingleDoped g) (hnd : g.positions.Nodup) :
    ∃ evs : List (Timedelta × Grid K),
      (endState (Material.applyControl rng handle rate fuel c s)).obs =
        s.obs.map (observeAll handle (evs.map (fun e => Event.transition e.1 e.2))) ∧
      ChainFrom NeighbourSwap g (evs.map Prod.snd) ∧
      (endState (Material.applyControl rng handle rate fuel c s)).mat.grid =
        some ((evs.getLast?.map Prod.snd).getD g) := by
  obtain ⟨evs, h⟩ := applyControl_trace rng handle rate fuel c s
  refine ⟨evs, h.obs, ?_, ?_⟩
  · refine chainFrom_mono (P := fun a => SingleDoped a ∧ a.positions.Nodup)
      (R := SuccRel rate c.position) ?_ ?_ _ g ⟨hg, hnd⟩ (h.chain g hs)
    · intro a b ⟨h1, h2⟩ hab
      obtain ⟨h3, h4⟩ := succRel_singleDoped hrate h1 hab
      exact ⟨h3, h4 ▸ h2⟩
    · intro a b ⟨h1, h2⟩ hab
      obtain ⟨ss, hss, x, hx, rfl⟩ := hab
      exact hrate.swap a _ ss hss h1 h2 x hx
  · rw [h.grid, hs]
    cases evs.getLast? <;> simp

/-- C07: reported transition times are in order and lie between 0 and the dwell time. -/
theorem C07_times_within_dwell (rng : Rng K G) (hl : rng.Lawful) (handle : Event K Img → O → O)
    (rate : RateFunction K) (hr : NonnegRates rate) (fuel : ℕ) (c : BeamControl K)
    (s : MatCtx K G O) :
    ∃ evs : List (Timedelta × Grid K),
      (endState (Material.applyControl rng handle rate fuel c s)).obs =
        s.obs.map (observeAll handle (evs.map (fun e => Event.transition e.1 e.2))) ∧
      (∀ e ∈ evs, 0 ≤ e.1 ∧ e.1 ≤ c.dwellTime) ∧ (evs.map Prod.fst).Pairwise (· ≤ ·) ∧
      (endState (Material.applyControl rng handle rate fuel c s)).mat.grid =
        (evs.getLast?.map Prod.snd).or s.mat.grid := by
  obtain ⟨evs, h⟩ := applyControl_trace rng handle rate fuel c s
  exact ⟨evs, h.obs, fun e he => ⟨(h.times hl hr).1 e he, h.le e he⟩, (h.times hl hr).2, h.grid⟩

/-- C07: a control without positive dwell time changes nothing at all. -/
theorem C07_no_dwell_no_change (rng : Rng K G) (handle : Event K Img → O → O)
    (rate : RateFunction K) (fuel : ℕ) (c : BeamControl K) (s : MatCtx K G O)
    (hs : s.mat.hasBeenReset = true) (hc : c.dwellTime ≤ 0) :
    Material.applyControl rng handle rate fuel c s = .ok () s := by
  have : ¬ (0 : ℤ) < c.dwellTime := by omega
  unfold Material.applyControl
  rw [applyLoop]
  simp [hs, this]

/-- C07: if every drawn waiting time is at least one microsecond, a control with a dwell time of
`d` microseconds never needs more than `d` rounds: the loop bound of the model is not reached. -/
theorem C07_terminates (rng : Rng K G) (handle : Event K Img → O → O) (rate : RateFunction K)
    (hr : NonnegRates rate)
    (hdraw : ∀ scale g, 0 ≤ scale → 1 ≤ ofSeconds (min (rng.exponential scale g).1 3600))
    (fuel : ℕ) (c : BeamControl K) (hf : c.dwellTime ≤ fuel) (s : MatCtx K G O)
    (s' : MatCtx K G O) (hno : ∀ g p, rate g p ≠ .error .diverges) :
    Material.applyControl rng handle rate fuel c s ≠ .error .diverges s' := by
  have key : ∀ (fuel : ℕ) (elapsed : ℤ) (s : MatCtx K G O), c.dwellTime - elapsed ≤ fuel →
      applyLoop rng handle rate c fuel elapsed s ≠ .error .diverges s' := by
    intro fuel
    induction fuel with
    | zero =>
      intro elapsed s h
      rw [applyLoop]
      have : ¬ elapsed < c.dwellTime := by push_cast at h; omega
      simp [this]
    | succ fuel ih =>
      intro elapsed s h
      rw [applyLoop]
      by_cases he : elapsed < c.dwellTime
      swap
      · simp [he]
      simp only [he, if_true]
      cases hread : s.mat.read with
      | error e =>
        have : e ≠ .diverges := by
          rintro rfl
          unfold Material.read at hread
          split_ifs at hread
          · cases hg : s.mat.grid <;> simp [hg] at hread
          · cases hread
        simp [this]
      | ok grid =>
        simp only
        cases hrate : rate grid c.position with
        | error e =>
          have : e ≠ .diverges := by rintro rfl; exact hno _ _ hrate
          simp [this]
        | ok ss =>
          simp only
          cases hd : drawTransitionTime rng ss s.g with
          | error e =>
            have : e ≠ .diverges := by
              rintro rfl
              unfold drawTransitionTime at hd
              split_ifs at hd <;> cases hd
            simp [this]
          | ok tg =>
            obtain ⟨t, g⟩ := tg
            have ht : 1 ≤ t := by
              unfold drawTransitionTime at hd
              split_ifs at hd with h1 h2
              · simp only [Except.ok.injEq, Prod.mk.injEq] at hd
                rw [← hd.1]
                have h3600 := ofSeconds_totalSeconds (K := K) 3600000000
                have : (totalSeconds (3600000000 : ℤ) : K) = 3600 := by
                  unfold totalSeconds; norm_num
                rw [this] at h3600
                rw [h3600]; norm_num
              · simp only [Except.ok.injEq, Prod.mk.injEq] at hd
                rw [← hd.1]
                apply hdraw
                have := totalRate_nonneg (hr _ _ _ hrate)
                positivity
            simp only
            split_ifs with hle
            · cases hp : performTransition rng handle (elapsed + t) ss { s with g := g } with
              | error e s2 =>
                have : e ≠ .diverges := by
                  rintro rfl
                  unfold performTransition at hp
                  split_ifs at hp
                  · cases hp
                  · simp only at hp
                    split at hp <;> cases hp
                simp [this]
              | ok u s2 =>
                simp only
                apply ih
                push_cast at h; omega
            · apply ih
              push_cast at h; omega
  unfold Material.applyControl
  split_ifs
  · exact key fuel 0 s (by omega)
  · simp

/-- C07, rate zero: a sheet on which the beam has total rate 0 stays as it is for dwell times
under one hour; from one hour on the call raises `ValueError` (the waiting time is clipped to an
hour, and a successor has to be chosen with undefined probabilities). -/
theorem C07_zero_rate (rng : Rng K G) (handle : Event K Img → O → O) (rate : RateFunction K)
    (fuel : ℕ) (c : BeamControl K) (s : MatCtx K G O) (g : Grid K) (ss : List (Successor K))
    (hs : s.mat.hasBeenReset = true) (hg : s.mat.grid = some g)
    (hrate : rate g c.position = .ok ss) (hss : ss ≠ []) (h0 : totalRate ss = 0)
    (hpos : 0 < c.dwellTime) :
    (c.dwellTime < 3600000000 → ∃ g', Material.applyControl rng handle rate (fuel + 1) c s =
      .ok () { s with g := g' }) ∧
    (3600000000 ≤ c.dwellTime → ∃ g', Material.applyControl rng handle rate (fuel + 1) c s =
      .error .valueError { s with g := g' }) := by
  have h3600 : ofSeconds (3600 : K) = 3600000000 := by
    have h := ofSeconds_totalSeconds (K := K) 3600000000
    have : (totalSeconds (3600000000 : ℤ) : K) = 3600 := by unfold totalSeconds; norm_num
    rwa [this] at h
  have hread : s.mat.read = .ok g := by simp [Material.read, hs, hg]
  have hdraw : drawTransitionTime rng ss s.g = .ok (3600000000, (rng.exponential 0 s.g).2) := by
    simp [drawTransitionTime, h0, hss, h3600]
  constructor
  · intro hlt
    refine ⟨(rng.exponential 0 s.g).2, ?_⟩
    unfold Material.applyControl
    simp only [hs, if_true]
    rw [applyLoop]
    have h1 : ¬ (3600000000 : ℤ) ≤ c.dwellTime := by omega
    simp only [hpos, if_true, hread, hrate, hdraw, zero_add, h1, if_false]
    rw [applyLoop.eq_def]
    have h2 : ¬ (3600000000 : ℤ) < c.dwellTime := by omega
    simp [h2]
  · intro hle
    refine ⟨(rng.exponential 0 s.g).2, ?_⟩
    unfold Material.applyControl
    simp only [hs, if_true]
    rw [applyLoop]
    simp only [hpos, if_true, hread, hrate, hdraw, zero_add, hle, performTransition, h0]

/-! ### C08 fresh material -/

/-- C08: reset raises `ValueError` exactly for an empty sheet; otherwise the new sheet is at the
generated positions, singly doped, and no atom is nearer the origin than the silicon. -/
theorem C08_reset_centres_silicon (generate : G → List (V2 K) × G) (s : MatCtx K G O) :
    ((generate s.g).1 = [] → ∃ s', Material.reset generate s = .error .valueError s') ∧
    ((generate s.g).1 ≠ [] → ∃ s' sheet si, Material.reset generate s = .ok () s' ∧
      s'.mat.hasBeenReset = true ∧ s'.mat.grid = some sheet ∧
      sheet.positions = (generate s.g).1 ∧ SingleDoped sheet ∧
      s'.mat.getSiliconPosition = .ok si ∧ si ∈ sheet.positions ∧
      ∀ q ∈ sheet.positions, V2.normSq si ≤ V2.normSq q) := by
  constructor
  · intro h
    refine ⟨{ s with mat := { s.mat with hasBeenReset := true }, g := (generate s.g).2 }, ?_⟩
    unfold Material.reset
    simp only [h, dopeSheet, List.map_nil, argmin?]
  · intro h
    obtain ⟨i, hi⟩ := argmin?_isSome (l := (generate s.g).1.map V2.normSq) (by simpa using h)
    obtain ⟨v, hv, hmin, _⟩ := argmin?_eq_some hi
    have hil : i < (generate s.g).1.length := by simpa using argmin?_lt hi
    have hgi : (generate s.g).1[i]? = some (generate s.g).1[i] := by simp [hil]
    have hd : dopeSheet (generate s.g).1 =
        .ok ⟨(generate s.g).1, doped (generate s.g).1.length i⟩ := by
      simp only [dopeSheet, hi]; rfl
    have hr : Material.reset generate s = .ok () { s with
        g := (generate s.g).2
        mat := ⟨true, some ⟨(generate s.g).1, doped (generate s.g).1.length i⟩⟩ } := by
      simp only [Material.reset, hd]
    refine ⟨_, ⟨(generate s.g).1, doped (generate s.g).1.length i⟩, (generate s.g).1[i], hr, rfl,
      rfl, rfl, (dopeSheet_ok hd).2, ?_, List.getElem_mem hil, ?_⟩
    · simp only [Material.getSiliconPosition, Material.read, if_true]
      rw [getSiliconPositions_doped _ i _ rfl hgi]
    · intro q hq
      have hvi : v = V2.normSq (generate s.g).1[i] := by
        rw [List.getElem?_map, hgi] at hv
        simpa using hv.symm
      rw [← hvi]
      exact hmin _ (List.mem_map_of_mem hq)

/-! ### C14 (material part) -/

/-- C14: on a material that was never reset the three methods raise `RuntimeError` and
nothing changes. -/
theorem C14_material_before_reset (rng : Rng K G) (handle : Event K Img → O → O)
    (rate : RateFunction K) (fuel : ℕ) (c : BeamControl K) (s : MatCtx K G O) (ll ur : V2 K)
    (h : s.mat.hasBeenReset = false) :
    s.mat.getAtomsInBounds ll ur = .error .runtimeError ∧
    s.mat.getSiliconPosition = .error .runtimeError ∧
    Material.applyControl rng handle rate fuel c s = .error .runtimeError s := by
  refine ⟨?_, ?_, ?_⟩
  · simp [Material.getAtomsInBounds, Material.read, h]
  · simp [Material.getSiliconPosition, Material.read, h]
  · simp [Material.applyControl, h]

theorem pristineRates_error {knn : Knn K} {canon : CanonicalRateFn K} {g : Grid K} {p : V2 K}
    {e : Err} (h : pristineRates knn canon g p = .error e) :
    (e = .siliconNotFound ∨ e = .valueError ∨ e = .assertionError ∨ e = .indexError) ∨
      ∃ si nbrs, canon g p si nbrs = .error e := by
  unfold pristineRates at h
  cases hs : getSingleSiliconPosition g with
  | error e' =>
    simp only [hs, Except.error.injEq] at h
    subst h
    unfold getSingleSiliconPosition at hs
    split at hs
    · cases hs; simp
    · cases hs
    · simp only at hs
      split at hs
      · cases hs; simp
      · split at hs <;> cases hs; simp
  | ok si =>
    simp only [hs] at h
    cases hn : nearestNeighbors3 knn g.positions si with
    | error e' =>
      simp only [hn, Except.error.injEq] at h
      subst h
      by_cases h4 : 4 ≤ g.positions.length
      · rw [nearestNeighbors3_eq knn si h4] at hn; cases hn
      · simp only [nearestNeighbors3, Knn.kneighbors, h4, if_false, bind, Except.bind] at hn
        cases hn; simp
    | ok nbrs =>
      simp only [hn] at h
      split at h
      · rename_i e' he'
        cases h
        exact Or.inr ⟨si, nbrs, he'⟩
      · split_ifs at h <;> cases h <;> simp

/-- A predictor whose canonical rate function never raises RuntimeError never does either. -/
theorem pristineRates_noRuntimeError (knn : Knn K) (canon : CanonicalRateFn K)
    (hcanon : ∀ g p si nbrs, canon g p si nbrs ≠ .error .runtimeError) (g : Grid K) (p : V2 K) :
    pristineRates knn canon g p ≠ .error .runtimeError := by
  intro h
  rcases pristineRates_error h with h | ⟨si, nbrs, h⟩
  · simp at h
  · exact hcanon _ _ _ _ h

theorem read_not_runtimeError {m : Material K} (hm : m.hasBeenReset = true) :
    m.read ≠ .error .runtimeError := by
  unfold Material.read
  simp only [hm, if_true]
  cases m.grid <;> simp

theorem getAtomsInBounds_not_runtimeError {m : Material K} (hm : m.hasBeenReset = true) (ll ur : V2 K) :
    m.getAtomsInBounds ll ur ≠ .error .runtimeError := by
  unfold Material.getAtomsInBounds
  have := read_not_runtimeError hm
  cases hr : m.read with
  | error e => rw [hr] at this; simpa using this
  | ok g => simp

theorem getSiliconPosition_not_runtimeError {m : Material K} (hm : m.hasBeenReset = true) :
    m.getSiliconPosition ≠ .error .runtimeError := by
  unfold Material.getSiliconPosition
  have := read_not_runtimeError hm
  cases hr : m.read with
  | error e => rw [hr] at this; simpa using this
  | ok g => simp only; split <;> simp

theorem applyControl_not_runtimeError (rng : Rng K G) (handle : Event K Img → O → O) (rate : RateFunction K)
    (hrate : ∀ g p, rate g p ≠ .error .runtimeError) (fuel : ℕ) (c : BeamControl K) (s : MatCtx K G O)
    (h : s.mat.hasBeenReset = true) (s'' : MatCtx K G O) :
    Material.applyControl rng handle rate fuel c s ≠
      .error .runtimeError s'' := by
  have key : ∀ (fuel : ℕ) (elapsed : ℤ) (s : MatCtx K G O), s.mat.hasBeenReset = true →
      applyLoop rng handle rate c fuel elapsed s ≠
        .error .runtimeError s'' := by
    intro fuel
    induction fuel with
    | zero =>
      intro elapsed s _
      rw [applyLoop]
      split_ifs <;> simp
    | succ fuel ih =>
      intro elapsed s hs
      rw [applyLoop]
      by_cases he : elapsed < c.dwellTime
      swap
      · simp [he]
      simp only [he, if_true]
      have := read_not_runtimeError hs
      cases hr : s.mat.read with
      | error e =>
        have he' : e ≠ .runtimeError := by rintro rfl; exact this hr
        simp [he']
      | ok grid =>
        simp only
        cases hr2 : rate grid c.position with
        | error e =>
          have he' : e ≠ .runtimeError := by rintro rfl; exact hrate _ _ hr2
          simp [he']
        | ok ss =>
          simp only
          cases hd : drawTransitionTime rng ss s.g with
          | error e =>
            have : e = .zeroDivision := by
              unfold drawTransitionTime at hd
              split_ifs at hd <;> cases hd
              rfl
            simp [this]
          | ok tg =>
            obtain ⟨t, g⟩ := tg
            simp only
            split_ifs with hle
            · cases hp : performTransition rng handle (elapsed + t) ss { s with g := g } with
              | error e s2 =>
                have : e ≠ .runtimeError := by
                  rintro rfl
                  unfold performTransition at hp
                  split_ifs at hp
                  · cases hp
                  · simp only at hp
                    split at hp <;> cases hp
                simp [this]
              | ok u s2 =>
                simp only
                apply ih
                unfold performTransition at hp
                split_ifs at hp
                simp only at hp
                split at hp
                · cases hp
                · simp only [EStateM.Result.ok.injEq, true_and] at hp
                  subst hp
                  exact hs
            · exact ih _ _ hs
  unfold Material.applyControl
  simp only [h, if_true]
  exact key fuel 0 s h

/-- C14: once a reset has succeeded, no sequence of further calls makes these methods raise the
"must call reset" `RuntimeError` again. -/
theorem C14_material_after_reset (rng : Rng K G) (handle : Event K Img → O → O) (rate : RateFunction K)
    (hrate : ∀ g p, rate g p ≠ .error .runtimeError) (generate : G → List (V2 K) × G) (s s1 : MatCtx K G O)
    (hreset : Material.reset generate s = .ok () s1) (ops : List (MatOp K)) (ll ur : V2 K)
    (fuel : ℕ) (c : BeamControl K) :
    let s' := ops.foldl (matStep rng handle rate generate) s1
    s'.mat.getAtomsInBounds ll ur ≠ .error .runtimeError ∧
    s'.mat.getSiliconPosition ≠ .error .runtimeError ∧
    ∀ s'', Material.applyControl rng handle rate fuel c s' ≠
      .error .runtimeError s'' := by
  have h1 : s1.mat.hasBeenReset = true := by
    unfold Material.reset at hreset
    simp only at hreset
    cases hd : dopeSheet (generate s.g).1 with
    | error e => rw [hd] at hreset; cases hreset
    | ok g =>
      rw [hd] at hreset
      simp only [EStateM.Result.ok.injEq, true_and] at hreset
      subst hreset; rfl
  have h2 : ∀ (ops : List (MatOp K)) (s1 : MatCtx K G O), s1.mat.hasBeenReset = true →
      (ops.foldl (matStep rng handle rate generate) s1).mat.hasBeenReset
        = true := by
    intro ops
    induction ops with
    | nil => intro s1 h; exact h
    | cons op ops ih =>
      intro s1 h
      rw [List.foldl_cons]
      apply ih
      cases op with
      | reset =>
        simp only [matStep, Material.reset]
        cases hd : dopeSheet (generate s1.g).1 <;> rfl
      | control c fuel =>
        obtain ⟨evs, ht⟩ := applyControl_trace rng handle rate fuel c s1
        simp only [matStep]
        rw [ht.reset, h]
  intro s'
  have hs' : s'.mat.hasBeenReset = true := h2 ops s1 h1
  exact ⟨getAtomsInBounds_not_runtimeError hs' ll ur, getSiliconPosition_not_runtimeError hs',
    applyControl_not_runtimeError rng handle rate hrate fuel c s' hs'⟩

/-! ### The hypotheses can be met -/

section Examples
open PD.Witness

/-- A five-atom sheet, rates one, sorting as nearest-neighbour search. -/
example : SingleDoped sheet ∧ 4 ≤ sheet.positions.length ∧ sheet.positions.Nodup ∧
    (∀ s n, (∀ j ∈ n, j < sheet.positions.length) → ∃ rates, canon sheet ⟨0, 0⟩ s n = .ok rates ∧
      rates.length = n.length ∧ ∀ r ∈ rates, 0 ≤ r) ∧
    (pristineRates knn canon sheet ⟨0, 0⟩).toOption.map (fun ss => ss.map (fun x => x.grid.numbers)) =
      some [[6, 14, 6, 6, 6], [6, 6, 14, 6, 6], [6, 6, 6, 14, 6]] := by
  refine ⟨sheet_singleDoped, by decide, sheet_nodup, ?_, ?_⟩
  · intro s n _; simp [canon]
  · decide +kernel

/-- A 2.5 s dwell with a transition every second: two transitions are reported, at 1 s and 2 s. -/
example : (endState (Material.applyControl (rng 1)
      (fun (e : Event ℚ Unit) (o : List (Timedelta × List ℤ)) => match e with
        | .transition t g => o ++ [(t, g.numbers)] | _ => o)
      (pristineRates knn canon) 5 (BeamControl.mk' ⟨0, 0⟩ 2500000)
      ⟨(), ⟨true, some sheet⟩, [[]]⟩)).obs =
    [[(1000000, [6, 14, 6, 6, 6]), (2000000, [14, 6, 6, 6, 6])]] := by
  decide +kernel

/-- Draws of one second satisfy the hypothesis of `C07_terminates`. -/
example : (rng (1 : ℚ)).Lawful ∧
    ∀ scale g, 0 ≤ scale → 1 ≤ ofSeconds (min ((rng (1 : ℚ)).exponential scale g).1 3600) := by
  refine ⟨rng_lawful (by norm_num), ?_⟩
  intro scale g _
  simp only [rng]
  decide +kernel

/-- Resetting a material on a non-empty sheet succeeds. -/
example : ∃ s', Material.reset (fun _ : Unit => (sheet.positions, ()))
    (⟨(), Material.fresh, []⟩ : MatCtx ℚ Unit Unit) = .ok () s' ∧ s'.mat.grid = some sheet := by
  refine ⟨⟨(), ⟨true, some sheet⟩, []⟩, ?_, rfl⟩
  have : dopeSheet sheet.positions = .ok sheet := by
    have h : argmin? (sheet.positions.map V2.normSq) = some 0 := by decide +kernel
    simp only [dopeSheet, h]
    rfl
  simp [Material.reset, this, Material.fresh]

end Examples

/-- C07: without a lower bound on the drawn times the loop need not end: if every draw rounds to
0 µs, a lawful generator keeps the call busy forever (it exceeds every number of rounds). -/
theorem C07_zero_draws_never_end (fuel : ℕ) :
    (Witness.rng (0 : ℚ)).Lawful ∧
    ∃ s', Material.applyControl (Witness.rng (0 : ℚ)) (fun (_ : Event ℚ Unit) (o : Unit) => o)
      (fun g _ => .ok [⟨g, 1⟩]) fuel (BeamControl.mk' ⟨0, 0⟩ 1)
      ⟨(), ⟨true, some Witness.sheet⟩, []⟩ = .error .diverges s' := by
  refine ⟨Witness.rng_lawful le_rfl, ⟨(), ⟨true, some Witness.sheet⟩, []⟩, ?_⟩
  simp only [Material.applyControl, if_true]
  induction fuel with
  | zero => rfl
  | succ n ih =>
    rw [applyLoop]
    have h0 : ofSeconds (0 : ℚ) = 0 := by decide +kernel
    have hf : List.findIdx (fun q : ℚ => decide (0 < q)) [1] = 0 := by decide +kernel
    simpa [Material.read, BeamControl.mk', drawTransitionTime, totalRate, Witness.rng, h0,
      performTransition, notify, hf] using ih

end PD.Props
