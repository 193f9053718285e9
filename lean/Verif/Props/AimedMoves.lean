/- Property C152: a beam on a neighbour brings the silicon there. -/
import Verif.Props.Progress
import Verif.Props.Chance

set_option linter.unusedSectionVars false
set_option linter.unusedSimpArgs false

namespace PD.Props
open PD PD.Spec MeasureTheory

theorem bonded_four {ps : List (V2 ℝ)} {si : V2 ℝ} {nbrs : List (V2 ℝ)} (hbond : BondedTo ps si nbrs) :
    4 ≤ ps.length ∧ si ∉ nbrs := by
  have hno : si ∉ nbrs := by
    intro h
    have := (hbond.bonds si h).2
    rw [dist_self', abs_le] at this
    linarith [this.1]
  refine ⟨?_, hno⟩
  have hnd : (si :: nbrs).Nodup := List.nodup_cons.2 ⟨hno, hbond.nodup⟩
  have hsub : si :: nbrs ⊆ ps := List.cons_subset.2 ⟨hbond.mem, fun p hp => (hbond.bonds p hp).1⟩
  have := (hnd.subperm hsub).length_le
  rw [List.length_cons, hbond.three] at this
  exact this

/-- With exact numbers, too, the three successors have the silicon at the three neighbours, with the rates that the
distances of the beam prescribe. -/
theorem simple_successors (knn : Knn ℝ) {sheet : Grid ℝ} (hdop : SingleDoped sheet) {si : V2 ℝ}
    (hsi : silicons sheet = [si]) {nbrs : List (V2 ℝ)} (hbond : BondedTo sheet.positions si nbrs) (beam : V2 ℝ) :
    ∃ ss places, pristineRates knn simpleCanonicalRates sheet beam = .ok ss ∧ places.Perm nbrs ∧
      List.Forall₂ (fun (x : Successor ℝ) p => x.grid.positions = sheet.positions ∧ SingleDoped x.grid ∧
        silicons x.grid = [p] ∧ x.rate = simpleRateAt beam p) ss places := by
  obtain ⟨h4, hno⟩ := bonded_four hbond
  have hcanon : ∀ (s : V2 ℝ) (idx : List ℕ), (∀ j ∈ idx, j < sheet.positions.length) →
      ∃ rates, simpleCanonicalRates sheet beam s idx = .ok rates ∧ rates.length = idx.length ∧ ∀ r ∈ rates, 0 ≤ r := by
    intro s idx hidx
    obtain ⟨rs, hrs⟩ := takeRows_inRange hidx
    refine ⟨rs.map (simpleRate beam s), by simp [simpleCanonicalRates, hrs], by simp [(takeRows_ok hrs).1], ?_⟩
    intro r hr
    obtain ⟨q, _, rfl⟩ := List.mem_map.1 hr
    exact (C36_range_and_order beam s q q).1.le
  obtain ⟨i, si', nb, rates, ss, hn, hp, hrates, hss, hlen, hnb3, hnbnd, hnear, hmin, hsucc⟩ :=
    C39_three_neighbour_swaps knn simpleCanonicalRates sheet beam hdop h4 hbond.distinct hcanon
  have hsi' : si' = si := by
    have : si' ∈ silicons sheet := mem_silicons.2 (by
      refine List.mem_iff_getElem?.2 ⟨i, ?_⟩
      simp only [atoms, List.getElem?_zip_eq_some]
      exact ⟨hp, hn⟩)
    rw [hsi] at this
    simpa using this
  subst hsi'
  have hget : ∀ j ∈ nb, ∃ q, sheet.positions[j]? = some q := fun j hj => by
    obtain ⟨_, _, q, _, hq, _⟩ := hnear j hj
    exact ⟨q, hq⟩
  set place : ℕ → V2 ℝ := fun j => (sheet.positions[j]?).getD si' with hplace
  have hpl : ∀ j ∈ nb, sheet.positions[j]? = some (place j) := by
    intro j hj
    obtain ⟨q, hq⟩ := hget j hj
    simp only [hplace, hq, Option.getD_some]
  have hinj : ∀ (j k : ℕ) (q : V2 ℝ), sheet.positions[j]? = some q → sheet.positions[k]? = some q → j = k := by
    intro j k q h1 h2
    obtain ⟨l1, e1⟩ := List.getElem?_eq_some_iff.1 h1
    obtain ⟨l2, e2⟩ := List.getElem?_eq_some_iff.1 h2
    exact (List.Nodup.getElem_inj_iff hbond.distinct).1 (e1.trans e2.symm)
  have hpnd : (nb.map place).Nodup := hnbnd.map_on (fun j hj k hk e => hinj j k _ (hpl j hj) (by rw [e]; exact hpl k hk))
  have hsub : nbrs ⊆ nb.map place := by
    intro q hq
    by_contra hnot
    obtain ⟨hqm, hqd⟩ := hbond.bonds q hq
    obtain ⟨k, hk⟩ := List.mem_iff_getElem?.1 hqm
    have hki : k ≠ i := by
      rintro rfl
      rw [hp] at hk
      exact hno ((Option.some.inj hk) ▸ hq)
    have hknb : k ∉ nb := by
      intro h
      have := hpl k h
      rw [hk] at this
      exact hnot (List.mem_map.2 ⟨k, h, (Option.some.inj this).symm⟩)
    have hall : nb.map place ⊆ nbrs.erase q := by
      intro x hx
      obtain ⟨j, hj, rfl⟩ := List.mem_map.1 hx
      have h1 := hmin j hj k hki hknb _ _ (hpl j hj) hk
      have h2 : Spec.dist si' (place j) ≤ Spec.dist si' q := by
        rw [dist_eq_sqrt, dist_eq_sqrt]
        exact Real.sqrt_le_sqrt h1
      rw [abs_le] at hqd
      refine (List.mem_erase_of_ne (fun e : place j = q => hnot (e ▸ hx))).2 ?_
      by_contra hno'
      have hji : place j ≠ si' := by
        intro e
        have := hinj j i si' (by rw [hpl j hj, e]) hp
        exact (hnear j hj).1 this.symm
      have := hbond.far _ (List.mem_of_getElem? (hpl j hj)) hji hno'
      linarith [hqd.2]
    have := (hpnd.subperm hall).length_le
    rw [List.length_map, hnb3, List.length_erase_of_mem hq, hbond.three] at this
    omega
  have hperm : (nb.map place).Perm nbrs :=
    ((hbond.nodup.subperm hsub).perm_of_length_le (by rw [List.length_map, hnb3, hbond.three])).symm
  refine ⟨ss, nb.map place, hss, hperm, ?_⟩
  rw [List.forall₂_iff_get]
  refine ⟨by rw [hlen, List.length_map, hnb3], fun m h1 h2 => ?_⟩
  rw [List.length_map] at h2
  obtain ⟨x, hx, x1, x2, x3, x4, _⟩ := hsucc m nb[m] (List.getElem?_eq_getElem h2)
  have hjm : nb[m] ∈ nb := List.getElem_mem h2
  have ex : ss.get ⟨m, h1⟩ = x := by
    have := List.getElem?_eq_getElem h1
    rw [hx] at this
    exact (Option.some.inj this).symm
  rw [ex]
  simp only [List.get_eq_getElem, List.getElem_map]
  obtain ⟨q, hq, _, _⟩ := doped_silicon x2
  refine ⟨x1, x2, ?_, ?_⟩
  · have : place nb[m] ∈ silicons x.grid := mem_silicons.2 (by
      refine List.mem_iff_getElem?.2 ⟨nb[m], ?_⟩
      simp only [atoms, List.getElem?_zip_eq_some]
      exact ⟨by rw [x1]; exact hpl _ hjm, x3⟩)
    rw [hq] at this ⊢
    rw [List.mem_singleton.1 this]
  · obtain ⟨rates', hr1, _, hr2⟩ := (C36_one_rate_per_neighbour sheet beam si' nb).2
      (fun j hj => (List.getElem?_eq_some_iff.1 (hpl j hj)).1)
    rw [hrates] at hr1
    cases hr1
    have := hr2 m nb[m] _ (List.getElem?_eq_getElem h2) (hpl _ hjm)
    rw [x4] at this
    rw [Option.some.inj this, simpleRate_eq]
    unfold simpleRateAt
    norm_num [BOND]
    ring_nf

theorem nonneg_dist (a b : V2 ℝ) : 0 ≤ Spec.dist a b := by
  rw [dist_eq_sqrt]
  exact Real.sqrt_nonneg _

theorem rate_aimed {beam p : V2 ℝ} (h : Spec.dist beam p ≤ 1 / 100) : 999 / 1000 ≤ simpleRateAt beam p := by
  have h0 := nonneg_dist beam p
  unfold simpleRateAt
  rw [le_div_iff₀ (by positivity)]
  have : (4 * Spec.dist beam p / (142 / 100)) ^ 2 ≤ (4 * (1 / 100) / (142 / 100)) ^ 2 := by gcongr
  norm_num at this ⊢
  linarith

theorem rate_beside {beam q : V2 ℝ} (h : 244 / 100 ≤ Spec.dist beam q) : simpleRateAt beam q ≤ 5 / 241 := by
  unfold simpleRateAt
  rw [div_le_iff₀ (by positivity)]
  have : (4 * (244 / 100 : ℝ) / (142 / 100)) ^ 2 ≤ (4 * Spec.dist beam q / (142 / 100)) ^ 2 := by gcongr
  norm_num at this ⊢
  linarith

theorem simpleRateAt_nonneg (beam q : V2 ℝ) : 0 ≤ simpleRateAt beam q := by
  unfold simpleRateAt
  positivity

/-- Three rates, one of them that of the neighbour aimed at. -/
theorem aimed_share (n : ℕ) (offset : V2 ℝ) (angle : ℝ) {ps : List (V2 ℝ)}
    (hD : Displaced (1 / 1000) (layOutSheet n offset angle) ps) {si : V2 ℝ} {nbrs : List (V2 ℝ)}
    (hbond : BondedTo ps si nbrs) {p : V2 ℝ} (hp : p ∈ nbrs) {beam : V2 ℝ} (haim : Spec.dist beam p ≤ 1 / 100) :
    99 / 100 ≤ (nbrs.map (simpleRateAt beam)).sum ∧
      24 / 25 * (nbrs.map (simpleRateAt beam)).sum ≤ simpleRateAt beam p := by
  have hperm := List.perm_cons_erase hp
  have hlen : (nbrs.erase p).length = 2 := by rw [List.length_erase_of_mem hp, hbond.three]
  have hin : ∀ q ∈ nbrs.erase p, simpleRateAt beam q ≤ 5 / 241 := by
    intro q hq
    obtain ⟨hne, hqm⟩ := hbond.nodup.mem_erase_iff.1 hq
    have h1 := bonded_apart n offset angle hD hbond hp hqm (Ne.symm hne)
    have h2 := dist_tri p beam q
    rw [dist_comm' p beam] at h2
    exact rate_beside (by linarith)
  have hsum := (hperm.map (simpleRateAt beam)).sum_eq
  have h1 := rate_aimed haim
  match hrest : nbrs.erase p, hlen with
  | [q, q'], _ =>
    rw [hrest] at hin hsum
    have a := hin q (by simp)
    have b := hin q' (by simp)
    have c := simpleRateAt_nonneg beam q
    have d := simpleRateAt_nonneg beam q'
    rw [hsum]
    simp only [List.map_cons, List.map_nil, List.sum_cons, List.sum_nil]
    constructor <;> linarith

variable {G Img : Type} [MeasurableSpace G] {μ : Measure G} {rng : Rng ℝ G}

/-- C152.  On a sheet whose atoms are within a thousandth of an Å of the honeycomb, under the simple rates: hold the beam
within a hundredth of an Å of one of the three neighbours of the silicon.  With a perfect generator, the probability that
the silicon moves, and that its first move is to this neighbour, is at least 0.96 (1 - exp (-0.99 t)) for `t` seconds. -/
theorem C152_aimed (hf : Fair rng μ) (hl : rng.Lawful) (knn : Knn ℝ) (n : ℕ) (offset : V2 ℝ) (angle : ℝ)
    (sheet : Grid ℝ) (hD : Displaced (1 / 1000) (layOutSheet n offset angle) sheet.positions) (hdop : SingleDoped sheet)
    (si : V2 ℝ) (hsi : silicons sheet = [si]) (nbrs : List (V2 ℝ)) (hbond : BondedTo sheet.positions si nbrs)
    (p : V2 ℝ) (hp : p ∈ nbrs) (c : BeamControl ℝ) (haim : Spec.dist c.position p ≤ 1 / 100) (h0 : 0 < c.dwellTime)
    (hd : c.dwellTime < 3600000000) :
    ENNReal.ofReal (24 / 25 * (1 - Real.exp (-(99 / 100 * (c.dwellTime / 1000000))))) ≤
      μ {g | ∃ fuel s', Material.applyControl rng (recorder (Img := Img)) (pristineRates knn simpleCanonicalRates) fuel c
          ⟨g, ⟨true, some sheet⟩, [[[]]]⟩ = .ok () s' ∧
        ∃ time next rest, s'.obs = [[(time, next) :: rest]] ∧ next.positions = sheet.positions ∧
          SingleDoped next ∧ silicons next = [p]} := by
  obtain ⟨h4, _⟩ := bonded_four hbond
  obtain ⟨B, ho⟩ := orderly (C39_pristine_swaps knn simpleCanonicalRates) (C99_rates_defined knn).1 c.position
    (sheet := sheet) ⟨hdop, h4, hbond.distinct⟩
  obtain ⟨ss, places, hss, hperm, hall⟩ := simple_successors knn hdop hsi hbond c.position
  have hgrids : (ss.map (·.grid)).Nodup := by
    have hsil : ss.map (fun x => silicons x.grid) = places.map (fun q => [q]) := by
      clear hss hperm
      induction hall with
      | nil => rfl
      | cons h _ ih => simp only [List.map_cons, h.2.2.1, ih]
    have : (places.map (fun q => [q])).Nodup :=
      (hperm.nodup_iff.2 hbond.nodup).map (fun a b e => (List.cons.inj e).1)
    rw [← hsil, show (fun x : Successor ℝ => silicons x.grid) = silicons ∘ (·.grid) from rfl, ← List.map_map] at this
    exact this.of_map _
  have hrates : ss.map (·.rate) = places.map (simpleRateAt c.position) := by
    clear hss hperm hgrids
    induction hall with
    | nil => rfl
    | cons h _ ih => simp only [List.map_cons, h.2.2.2, ih]
  obtain ⟨k, hk⟩ := List.mem_iff_getElem?.1 (hperm.mem_iff.2 hp)
  obtain ⟨hk2, ek⟩ := List.getElem?_eq_some_iff.1 hk
  have hk1 : k < ss.length := by rw [hall.length_eq]; exact hk2
  have hy := (List.forall₂_iff_get.1 hall).2 k hk1 hk2
  simp only [List.get_eq_getElem, ek] at hy
  obtain ⟨y1, y2, y3, y4⟩ := hy
  have hmain := C127_leaves (Img := Img) hf hl c h0 hd _ B ho sheet ⟨hdop, rfl⟩ ss hss hgrids k ss[k]
    (List.getElem?_eq_getElem hk1)
  obtain ⟨hS, hshare⟩ := aimed_share n offset angle hD hbond hp haim
  have hsum : (ss.map (·.rate)).sum = (nbrs.map (simpleRateAt c.position)).sum := by
    rw [hrates]
    exact (hperm.map _).sum_eq
  refine le_trans ?_ (le_trans hmain.ge (measure_mono ?_))
  · apply ENNReal.ofReal_le_ofReal
    unfold labelProb
    rw [if_neg (by omega), Nat.add_sub_cancel, hsum, List.getD_eq_getElem?_getD, hrates, List.getElem?_map, hk]
    simp only [Option.map_some, Option.getD_some]
    set S := (nbrs.map (simpleRateAt c.position)).sum
    have hT : (0 : ℝ) < c.dwellTime := by exact_mod_cast h0
    have hexp : 99 / 100 * ((c.dwellTime : ℝ) / 1000000) ≤ S * exposure c.dwellTime := by
      have : (c.dwellTime : ℝ) / 1000000 ≤ exposure c.dwellTime := by
        unfold exposure
        norm_num
        linarith
      exact mul_le_mul hS this (by positivity) (by linarith)
    have h1 : Real.exp (-(S * exposure c.dwellTime)) ≤ Real.exp (-(99 / 100 * (c.dwellTime / 1000000))) :=
      Real.exp_le_exp.2 (by linarith)
    have h2 : Real.exp (-(99 / 100 * ((c.dwellTime : ℝ) / 1000000))) ≤ 1 :=
      Real.exp_le_one_iff.2 (by have : 0 ≤ 99 / 100 * ((c.dwellTime : ℝ) / 1000000) := by positivity
                                linarith)
    have h3 : 24 / 25 ≤ simpleRateAt c.position p / S := (le_div_iff₀ (by linarith)).2 hshare
    rw [mul_comm]
    exact mul_le_mul (by linarith) h3 (by norm_num) (by linarith)
  · rintro g ⟨fuel, s', h, time, rest, hobs⟩
    exact ⟨fuel, s', h, time, _, rest, hobs, y1, y2, y3⟩

/-- C152.  Five seconds are enough for 95 percent. -/
theorem C152_five_seconds (hf : Fair rng μ) (hl : rng.Lawful) (knn : Knn ℝ) (n : ℕ) (offset : V2 ℝ) (angle : ℝ)
    (sheet : Grid ℝ) (hD : Displaced (1 / 1000) (layOutSheet n offset angle) sheet.positions) (hdop : SingleDoped sheet)
    (si : V2 ℝ) (hsi : silicons sheet = [si]) (nbrs : List (V2 ℝ)) (hbond : BondedTo sheet.positions si nbrs)
    (p : V2 ℝ) (hp : p ∈ nbrs) (c : BeamControl ℝ) (haim : Spec.dist c.position p ≤ 1 / 100)
    (h5 : 5000000 ≤ c.dwellTime) (hd : c.dwellTime < 3600000000) :
    ENNReal.ofReal (95 / 100) ≤
      μ {g | ∃ fuel s', Material.applyControl rng (recorder (Img := Img)) (pristineRates knn simpleCanonicalRates) fuel c
          ⟨g, ⟨true, some sheet⟩, [[[]]]⟩ = .ok () s' ∧
        ∃ time next rest, s'.obs = [[(time, next) :: rest]] ∧ next.positions = sheet.positions ∧
          SingleDoped next ∧ silicons next = [p]} := by
  refine le_trans (ENNReal.ofReal_le_ofReal ?_)
    (C152_aimed hf hl knn n offset angle sheet hD hdop si hsi nbrs hbond p hp c haim (by linarith) hd)
  have hT : (5000000 : ℝ) ≤ c.dwellTime := by exact_mod_cast h5
  have h1 : Real.exp (-(99 / 100 * ((c.dwellTime : ℝ) / 1000000))) ≤ 1 / 100 := by
    have h2 : Real.exp (-(99 / 100 * ((c.dwellTime : ℝ) / 1000000))) ≤ Real.exp (-(495 / 100)) :=
      Real.exp_le_exp.2 (by linarith)
    have h3 : (100 : ℝ) ≤ Real.exp (495 / 100) := by
      have e : (495 / 100 : ℝ) = 5 * (99 / 100) := by norm_num
      have h4 : (2512 / 1000 : ℝ) ≤ Real.exp (99 / 100) := by
        refine le_trans ?_ (Real.sum_le_exp_of_nonneg (x := 99 / 100) (by norm_num) 4)
        norm_num [Finset.sum_range_succ, Nat.factorial]
      rw [e, show (5 : ℝ) * (99 / 100) = ((5 : ℕ) : ℝ) * (99 / 100) by norm_num, Real.exp_nat_mul]
      calc (100 : ℝ) ≤ (2512 / 1000) ^ 5 := by norm_num
        _ ≤ _ := by gcongr
    rw [Real.exp_neg (495 / 100)] at h2
    refine h2.trans ?_
    rw [inv_eq_one_div]
    exact one_div_le_one_div_of_le (by norm_num) h3
  linarith

theorem jumps_when {rate : RateFunction ℝ} {p : V2 ℝ} {dwell t a b : Timedelta} {g g1 g2 : G}
    {sheet next next' sheet1 sheet2 : Grid ℝ} {r r' : List (Timedelta × Grid ℝ)}
    (h : Jumps rng rate p dwell t g sheet ((a, next) :: r) g1 sheet1)
    (h' : Jumps rng rate p dwell t g sheet ((b, next') :: r') g2 sheet2) : a = b := by
  cases h with
  | jump _ hr _ hx _ _ _ _ =>
    cases h' with
    | jump _ hr' _ hx' _ _ _ _ =>
      rw [hr, Except.ok.injEq] at hr'
      subst hr'
      rw [hx, Prod.mk.injEq] at hx'
      rw [hx'.1]

theorem share_of_member {ss : List (Successor ℝ)} (hnn : ∀ y ∈ ss, 0 ≤ y.rate) {y : Successor ℝ} (hy : y ∈ ss) :
    y.rate / sumRates ss ≤ shareOf ss y.grid := by
  classical
  have hS : 0 ≤ sumRates ss := List.sum_nonneg fun x hx => by
    obtain ⟨z, hz, rfl⟩ := List.mem_map.1 hx
    exact hnn z hz
  unfold shareOf
  refine List.single_le_sum ?_ _ (List.mem_map.2 ⟨y, hy, by simp⟩)
  intro x hx
  obtain ⟨z, hz, rfl⟩ := List.mem_map.1 hx
  split_ifs
  · exact div_nonneg (hnn z hz) hS
  · exact le_rfl

theorem stay_rates {ps : List (V2 ℝ)} {p : V2 ℝ} {nbrs : List (V2 ℝ)} (hbond : BondedTo ps p nbrs) {beam : V2 ℝ}
    (haim : Spec.dist beam p ≤ 1 / 100) : (nbrs.map (simpleRateAt beam)).sum ≤ 9 / 50 := by
  have hin : ∀ q ∈ nbrs, simpleRateAt beam q ≤ 3 / 50 := by
    intro q hq
    have h1 := (hbond.bonds q hq).2
    rw [abs_le] at h1
    have h2 := dist_tri p beam q
    rw [dist_comm' p beam] at h2
    have h3 : 1408 / 1000 ≤ Spec.dist beam q := by norm_num at h1 ⊢; linarith [h1.1]
    unfold simpleRateAt
    rw [div_le_iff₀ (by positivity)]
    have : (4 * (1408 / 1000 : ℝ) / (142 / 100)) ^ 2 ≤ (4 * Spec.dist beam q / (142 / 100)) ^ 2 := by gcongr
    norm_num at this ⊢
    linarith
  match nbrs, hbond.three, hin with
  | [a, b, c], _, hin =>
    have h1 := hin a (by simp)
    have h2 := hin b (by simp)
    have h3 := hin c (by simp)
    simp only [List.map_cons, List.map_nil, List.sum_cons, List.sum_nil]
    linarith

/-- The probability that there is one event, that it makes the sheet `next` and that it leaves a state in `E`. -/
theorem once_law {rate : RateFunction ℝ} (hf : Fair rng μ) (hl : rng.Lawful) {p : V2 ℝ} {dwell : Timedelta}
    (h0 : 0 < dwell) (hd : dwell < 3600000000) (hrate : ∀ sheet ss, rate sheet p = .ok ss → ∀ y ∈ ss, 0 ≤ y.rate)
    {sheet next : Grid ℝ} {ss ss' : List (Successor ℝ)} (hss : rate sheet p = .ok ss) (hss' : rate next p = .ok ss')
    (hne : ss' ≠ []) {E : Set G} (hE : MeasurableSet E) :
    MeasurableSet (⋃ k ∈ Finset.Icc 0 dwell, histories rng rate p dwell E 0 sheet [(k, next)]) ∧
    ENNReal.ofReal ((1 - quietProb (sumRates ss) (dwell + 1)) * shareOf ss next * quietProb (sumRates ss') (dwell + 1)) *
      μ E ≤ μ (⋃ k ∈ Finset.Icc 0 dwell, histories rng rate p dwell E 0 sheet [(k, next)]) := by
  have hS : 0 ≤ sumRates ss := List.sum_nonneg fun x hx => by
    obtain ⟨y, hy, rfl⟩ := List.mem_map.1 hx
    exact hrate _ _ hss y hy
  have hS' : 0 ≤ sumRates ss' := List.sum_nonneg fun x hx => by
    obtain ⟨y, hy, rfl⟩ := List.mem_map.1 hx
    exact hrate _ _ hss' y hy
  have hlaw := fun k : ℤ => histories_law (dwell := dwell) hf hl hd hrate hE [(k, next)] 0 sheet le_rfl
  refine ⟨Finset.measurableSet_biUnion _ (fun k _ => (hlaw k).1), ?_⟩
  rw [measure_biUnion_finset]
  · have hsum := sum_waitProb (sumRates ss) dwell.toNat
    rw [Int.toNat_of_nonneg h0.le] at hsum
    rw [← hsum, Finset.sum_mul, Finset.sum_mul, ENNReal.ofReal_sum_of_nonneg, Finset.sum_mul]
    · refine Finset.sum_le_sum fun k hk => ?_
      obtain ⟨hk0, hk1⟩ := Finset.mem_Icc.1 hk
      rw [(hlaw k).2]
      refine mul_le_mul_left (ENNReal.ofReal_le_ofReal ?_) _
      rw [historyProb, if_pos ⟨h0, hk0, hk1⟩, hss]
      simp only [sub_zero]
      refine mul_le_mul_of_nonneg_left ?_
        (mul_nonneg (waitProb_nonneg hS k) (shareOf_nonneg (hrate _ _ hss) next))
      rw [historyProb]
      by_cases hle : dwell ≤ k
      · rw [if_pos hle]
        exact quietProb_le_one hS' _
      · rw [if_neg hle, hss']
        simp only
        rw [if_neg hne]
        exact quietProb_anti hS' le_rfl (by omega)
    · exact fun k _ => mul_nonneg (mul_nonneg (waitProb_nonneg hS k) (shareOf_nonneg (hrate _ _ hss) next))
        (quietProb_nonneg _ _)
  · intro i _ j _ hij
    simp only [Function.onFun]
    rw [Set.disjoint_left]
    rintro g ⟨_, _, h1, _⟩ ⟨_, _, h2, _⟩
    exact hij (jumps_when h1 h2)
  · exact fun k _ => (hlaw k).1

/-- The sheet after the move that is aimed at, and how likely it is that this is the only move and that it leaves a state
in a given set. -/
theorem arrive_law (hf : Fair rng μ) (hl : rng.Lawful) (knn : Knn ℝ) (n : ℕ) (offset : V2 ℝ) (angle : ℝ)
    (sheet : Grid ℝ) (hD : Displaced (1 / 1000) (layOutSheet n offset angle) sheet.positions) (hdop : SingleDoped sheet)
    (si : V2 ℝ) (hsi : silicons sheet = [si]) (nbrs nbrs' : List (V2 ℝ)) (hbond : BondedTo sheet.positions si nbrs)
    (p : V2 ℝ) (hp : p ∈ nbrs) (hbond' : BondedTo sheet.positions p nbrs') (c : BeamControl ℝ)
    (haim : Spec.dist c.position p ≤ 1 / 100) (h0 : 0 < c.dwellTime) (hd : c.dwellTime < 3600000000) :
    ∃ next : Grid ℝ, next.positions = sheet.positions ∧ SingleDoped next ∧ silicons next = [p] ∧
      ∀ E : Set G, MeasurableSet E →
        MeasurableSet (⋃ k ∈ Finset.Icc 0 c.dwellTime, histories rng (pristineRates knn simpleCanonicalRates) c.position
          c.dwellTime E 0 sheet [(k, next)]) ∧
        ENNReal.ofReal (24 / 25 * (1 - Real.exp (-(99 / 100 * (c.dwellTime / 1000000)))) *
          Real.exp (-(9 / 50 * ((c.dwellTime + 1) / 1000000)))) * μ E ≤
        μ (⋃ k ∈ Finset.Icc 0 c.dwellTime, histories rng (pristineRates knn simpleCanonicalRates) c.position
          c.dwellTime E 0 sheet [(k, next)]) := by
  obtain ⟨ss, places, hss, hperm, hall⟩ := simple_successors knn hdop hsi hbond c.position
  have hrates : ss.map (·.rate) = places.map (simpleRateAt c.position) := by
    clear hss hperm
    induction hall with
    | nil => rfl
    | cons h _ ih => simp only [List.map_cons, h.2.2.2, ih]
  obtain ⟨k, hk⟩ := List.mem_iff_getElem?.1 (hperm.mem_iff.2 hp)
  obtain ⟨hk2, ek⟩ := List.getElem?_eq_some_iff.1 hk
  have hk1 : k < ss.length := by rw [hall.length_eq]; exact hk2
  have hy := (List.forall₂_iff_get.1 hall).2 k hk1 hk2
  simp only [List.get_eq_getElem, ek] at hy
  obtain ⟨y1, y2, y3, y4⟩ := hy
  set y := ss[k] with hyd
  have hym : y ∈ ss := List.getElem_mem hk1
  obtain ⟨ss', places', hss', hperm', hall'⟩ := simple_successors knn y2 y3 (nbrs := nbrs') (by rw [y1]; exact hbond')
    c.position
  have hrates' : ss'.map (·.rate) = places'.map (simpleRateAt c.position) := by
    clear hss' hperm'
    induction hall' with
    | nil => rfl
    | cons h _ ih => simp only [List.map_cons, h.2.2.2, ih]
  have hne' : ss' ≠ [] := by
    rintro rfl
    have := hall'.length_eq
    rw [hperm'.length_eq, hbond'.three] at this
    simp at this
  have hnn : ∀ sheet ss, pristineRates knn simpleCanonicalRates sheet c.position = .ok ss → ∀ y ∈ ss, 0 ≤ y.rate :=
    fun sheet ss h => (C39_pristine_swaps knn simpleCanonicalRates).nonneg sheet c.position ss h
  obtain ⟨hS, hshare⟩ := aimed_share n offset angle hD hbond hp haim
  have hsum : sumRates ss = (nbrs.map (simpleRateAt c.position)).sum := by
    unfold sumRates
    rw [hrates]
    exact (hperm.map _).sum_eq
  have hsum' : sumRates ss' ≤ 9 / 50 := by
    unfold sumRates
    rw [hrates', (hperm'.map _).sum_eq]
    exact stay_rates hbond' haim
  have hT : (0 : ℝ) < c.dwellTime := by exact_mod_cast h0
  refine ⟨y.grid, y1, y2, y3, fun E hE => ?_⟩
  obtain ⟨m, e⟩ := once_law hf hl h0 hd hnn hss hss' hne' hE
  refine ⟨m, le_trans (mul_le_mul_left (ENNReal.ofReal_le_ofReal ?_) _) e⟩
  · rw [quietProb_exposure _ h0, quietProb_exposure _ h0]
    rw [← hsum] at hS hshare
    have hexp : 99 / 100 * ((c.dwellTime : ℝ) / 1000000) ≤ sumRates ss * exposure c.dwellTime := by
      have : (c.dwellTime : ℝ) / 1000000 ≤ exposure c.dwellTime := by
        unfold exposure
        norm_num
        linarith
      exact mul_le_mul hS this (by positivity) (by linarith)
    have h1 : Real.exp (-(sumRates ss * exposure c.dwellTime)) ≤ Real.exp (-(99 / 100 * (c.dwellTime / 1000000))) :=
      Real.exp_le_exp.2 (by linarith)
    have h2 : Real.exp (-(99 / 100 * ((c.dwellTime : ℝ) / 1000000))) ≤ 1 :=
      Real.exp_le_one_iff.2 (by have : 0 ≤ 99 / 100 * ((c.dwellTime : ℝ) / 1000000) := by positivity
                                linarith)
    have h3 : 24 / 25 ≤ shareOf ss y.grid := by
      refine le_trans ?_ (share_of_member (hnn _ _ hss) hym)
      rw [y4]
      exact (le_div_iff₀ (by linarith)).2 hshare
    have hexp' : sumRates ss' * exposure c.dwellTime ≤ 9 / 50 * (((c.dwellTime : ℝ) + 1) / 1000000) := by
      have h5 : exposure c.dwellTime ≤ ((c.dwellTime : ℝ) + 1) / 1000000 := by
        unfold exposure
        norm_num
        linarith
      have h6 : 0 ≤ exposure c.dwellTime := by
        unfold exposure
        positivity
      exact mul_le_mul hsum' h5 h6 (by norm_num)
    rw [mul_comm (24 / 25 : ℝ)]
    refine mul_le_mul (mul_le_mul (by linarith) h3 (by norm_num) (by linarith)) (Real.exp_le_exp.2 (by linarith))
      (Real.exp_pos _).le (mul_nonneg (by linarith) (by linarith))

/-- C152.  If the neighbour aimed at has three bonds, too, the silicon is there at the end, whatever the observers do, with
at least the probability 0.96 (1 - exp (-0.99 t)) exp (-0.18 t), up to a microsecond of `t` in the second exponent. -/
theorem C152_arrives {O : Type} (hf : Fair rng μ) (hl : rng.Lawful) (handle : Event ℝ Img → O → O) (obs : List O)
    (knn : Knn ℝ) (n : ℕ) (offset : V2 ℝ) (angle : ℝ)
    (sheet : Grid ℝ) (hD : Displaced (1 / 1000) (layOutSheet n offset angle) sheet.positions) (hdop : SingleDoped sheet)
    (si : V2 ℝ) (hsi : silicons sheet = [si]) (nbrs nbrs' : List (V2 ℝ)) (hbond : BondedTo sheet.positions si nbrs)
    (p : V2 ℝ) (hp : p ∈ nbrs) (hbond' : BondedTo sheet.positions p nbrs') (c : BeamControl ℝ)
    (haim : Spec.dist c.position p ≤ 1 / 100) (h0 : 0 < c.dwellTime) (hd : c.dwellTime < 3600000000) :
    ENNReal.ofReal (24 / 25 * (1 - Real.exp (-(99 / 100 * (c.dwellTime / 1000000)))) *
        Real.exp (-(9 / 50 * ((c.dwellTime + 1) / 1000000)))) ≤
      μ {g | ∃ fuel s', Material.applyControl rng handle (pristineRates knn simpleCanonicalRates) fuel c
          ⟨g, ⟨true, some sheet⟩, obs⟩ = .ok () s' ∧
        ∃ next, s'.mat.grid = some next ∧ next.positions = sheet.positions ∧ SingleDoped next ∧ silicons next = [p]} := by
  obtain ⟨next, y1, y2, y3, hlaw⟩ := arrive_law hf hl knn n offset angle sheet hD hdop si hsi nbrs nbrs' hbond p hp hbond' c
    haim h0 hd
  obtain ⟨_, e⟩ := hlaw Set.univ MeasurableSet.univ
  rw [hf.total, mul_one] at e
  refine e.trans (measure_mono ?_)
  intro g hg
  simp only [Set.mem_iUnion] at hg
  obtain ⟨time, _, g', sheet', hj, _⟩ := hg
  have hlast := jumps_last hj
  obtain ⟨fuel, h⟩ := (C72_jump_process rng handle (pristineRates knn simpleCanonicalRates) c
    ⟨g, ⟨true, some sheet⟩, obs⟩ ⟨g', ⟨true, some sheet'⟩, obs.map (observeAll handle
      ([(time, next)].map (fun e => Event.transition e.1 e.2)))⟩ sheet rfl rfl).2 ⟨_, sheet', hj, rfl, rfl, rfl⟩
  refine ⟨fuel, _, h, next, ?_, y1, y2, y3⟩
  rw [hlast]
  rfl

/-- C152.  For a second and a half, the shortest time that the agents' actions stand for, that is at least one half. -/
theorem C152_half {O : Type} (hf : Fair rng μ) (hl : rng.Lawful) (handle : Event ℝ Img → O → O) (obs : List O)
    (knn : Knn ℝ) (n : ℕ) (offset : V2 ℝ) (angle : ℝ)
    (sheet : Grid ℝ) (hD : Displaced (1 / 1000) (layOutSheet n offset angle) sheet.positions) (hdop : SingleDoped sheet)
    (si : V2 ℝ) (hsi : silicons sheet = [si]) (nbrs nbrs' : List (V2 ℝ)) (hbond : BondedTo sheet.positions si nbrs)
    (p : V2 ℝ) (hp : p ∈ nbrs) (hbond' : BondedTo sheet.positions p nbrs') (c : BeamControl ℝ)
    (haim : Spec.dist c.position p ≤ 1 / 100) (hdw : c.dwellTime = 1500000) :
    ENNReal.ofReal (1 / 2) ≤
      μ {g | ∃ fuel s', Material.applyControl rng handle (pristineRates knn simpleCanonicalRates) fuel c
          ⟨g, ⟨true, some sheet⟩, obs⟩ = .ok () s' ∧
        ∃ next, s'.mat.grid = some next ∧ next.positions = sheet.positions ∧ SingleDoped next ∧ silicons next = [p]} := by
  refine le_trans (ENNReal.ofReal_le_ofReal ?_)
    (C152_arrives hf hl handle obs knn n offset angle sheet hD hdop si hsi nbrs nbrs' hbond p hp hbond' c haim
      (by rw [hdw]; decide) (by rw [hdw]; decide))
  rw [hdw]
  push_cast
  have h1 : Real.exp (-(99 / 100 * (1500000 / 1000000))) ≤ 1 / 4 := by
    have h3 : (4 : ℝ) ≤ Real.exp (99 / 100 * (1500000 / 1000000)) := by
      refine le_trans ?_ (Real.sum_le_exp_of_nonneg (by norm_num) 5)
      norm_num [Finset.sum_range_succ, Nat.factorial]
    rw [Real.exp_neg, inv_eq_one_div]
    exact one_div_le_one_div_of_le (by norm_num) h3
  have h2 : 7 / 10 ≤ Real.exp (-(9 / 50 * ((1500000 + 1) / 1000000))) := by
    have := Real.add_one_le_exp (-(9 / 50 * ((1500000 + 1) / 1000000 : ℝ)))
    norm_num at this ⊢
    linarith
  have h4 : (24 / 25 * (1 - 1 / 4) : ℝ) * (7 / 10) ≤ 24 / 25 * (1 - Real.exp (-(99 / 100 * (1500000 / 1000000)))) *
      Real.exp (-(9 / 50 * ((1500000 + 1) / 1000000))) := by
    refine mul_le_mul (by linarith) h2 (by norm_num) ?_
    linarith
  refine le_trans ?_ h4
  norm_num

/-- A silicon in the middle of a sheet of 50 columns, and a neighbour. -/
theorem middle_silicon : ∃ sheet si nbrs nbrs' p, sheet.positions = layOutSheet 50 ⟨0, 0⟩ 0 ∧ SingleDoped sheet ∧
    Displaced (1 / 1000) (layOutSheet 50 ⟨0, 0⟩ 0) sheet.positions ∧ silicons sheet = [si] ∧
    BondedTo sheet.positions si nbrs ∧ p ∈ nbrs ∧ BondedTo sheet.positions p nbrs' ∧ Spec.dist ⟨0, 0⟩ si ≤ 31 / 20 := by
  obtain ⟨si, hsi, hd⟩ := atom_near_origin 50 (by norm_num) ⟨0, 0⟩ 0 (by norm_num) (by norm_num)
  have hD : Displaced (1 / 1000) (layOutSheet 50 ⟨0, 0⟩ 0) (layOutSheet 50 ⟨0, 0⟩ 0) :=
    List.forall₂_same.2 (fun p _ => by rw [dist_self']; norm_num)
  obtain ⟨nbrs, hbond⟩ := C146_bonds 50 ⟨0, 0⟩ 0 (by norm_num) (by norm_num) _ hD si hsi (by norm_num at hd ⊢; linarith)
  obtain ⟨p, hp⟩ := List.exists_mem_of_ne_nil nbrs (by
    intro e
    have := hbond.three
    rw [e] at this
    simp at this)
  obtain ⟨hpm, hpd⟩ := hbond.bonds p hp
  rw [abs_le] at hpd
  have h2 := dist_tri ⟨0, 0⟩ si p
  obtain ⟨nbrs', hbond'⟩ := C146_bonds 50 ⟨0, 0⟩ 0 (by norm_num) (by norm_num) _ hD p hpm
    (by norm_num at hd h2 hpd ⊢; linarith [hpd.2])
  obtain ⟨i, hi⟩ := List.mem_iff_getElem?.1 hsi
  have hlt := (List.getElem?_eq_some_iff.1 hi).1
  have hdop := siliconAt_doped hlt
  obtain ⟨q, hq, _, _⟩ := doped_silicon hdop
  have hqs : q = si := by
    have : si ∈ silicons (siliconAt (layOutSheet 50 ⟨0, 0⟩ 0) i) := mem_silicons.2 (by
      refine List.mem_iff_getElem?.2 ⟨i, ?_⟩
      simp only [atoms, List.getElem?_zip_eq_some]
      exact ⟨hi, by rw [siliconAt_get hlt, if_pos rfl]⟩)
    rw [hq] at this
    exact (List.mem_singleton.1 this).symm
  subst hqs
  exact ⟨siliconAt (layOutSheet 50 ⟨0, 0⟩ 0) i, q, nbrs, nbrs', p, rfl, hdop, hD, hq, hbond, hp, hbond', hd⟩

/-- In the middle of a sheet of 50 columns, with the beam exactly on a neighbour for six seconds. -/
example : ∃ sheet p, ENNReal.ofReal (95 / 100) ≤ Witness.streamLaw {g | ∃ fuel s', Material.applyControl Witness.streamRng
      (recorder (Img := Unit)) (pristineRates Witness.knn simpleCanonicalRates) fuel (BeamControl.mk' p 6000000)
        ⟨g, ⟨true, some sheet⟩, [[[]]]⟩ = .ok () s' ∧
      ∃ time next rest, s'.obs = [[(time, next) :: rest]] ∧ next.positions = sheet.positions ∧
        SingleDoped next ∧ silicons next = [p]} := by
  obtain ⟨sheet, si, nbrs, nbrs', p, _, hdop, hD, hsi, hbond, hp, _⟩ := middle_silicon
  exact ⟨sheet, p, C152_five_seconds Witness.streamRng_fair Witness.streamRng_lawful Witness.knn 50 ⟨0, 0⟩ 0
    sheet hD hdop si hsi nbrs hbond p hp (BeamControl.mk' p 6000000)
    (by simp only [BeamControl.mk']; rw [dist_self']; norm_num) (show (5000000 : ℤ) ≤ 6000000 by decide)
    (show (6000000 : ℤ) < 3600000000 by decide)⟩

/-- For a second and a half. -/
example : ∃ sheet p, ENNReal.ofReal (1 / 2) ≤ Witness.streamLaw {g | ∃ fuel s', Material.applyControl Witness.streamRng
      (fun (_ : Event ℝ Unit) (n : ℕ) => n + 1) (pristineRates Witness.knn simpleCanonicalRates) fuel
        (BeamControl.mk' p 1500000) ⟨g, ⟨true, some sheet⟩, [0]⟩ = .ok () s' ∧
      ∃ next, s'.mat.grid = some next ∧ next.positions = sheet.positions ∧ SingleDoped next ∧ silicons next = [p]} := by
  obtain ⟨sheet, si, nbrs, nbrs', p, _, hdop, hD, hsi, hbond, hp, hbond', _⟩ := middle_silicon
  exact ⟨sheet, p, C152_half Witness.streamRng_fair Witness.streamRng_lawful _ _ Witness.knn 50 ⟨0, 0⟩ 0
    sheet hD hdop si hsi nbrs nbrs' hbond p hp hbond' (BeamControl.mk' p 1500000)
    (by simp only [BeamControl.mk']; rw [dist_self']; norm_num) rfl⟩

end PD.Props
