/- C155: a planned path is followed. -/
import Verif.Props.AimedMoves
import Verif.Props.Progress
import Verif.Spec.Plans

set_option linter.unusedSectionVars false
set_option linter.unusedSimpArgs false

namespace PD.Props
open PD PD.Spec MeasureTheory ProbabilityTheory

theorem trail_bonded {ps : List (V2 ℝ)} {x y : V2 ℝ} {path : List (V2 ℝ)} (h : Trail ps x path y) :
    ∃ nbrs, BondedTo ps x nbrs := by
  cases path with
  | nil => exact h.2
  | cons p path =>
    obtain ⟨⟨nbrs, hb, _⟩, _⟩ := h
    exact ⟨nbrs, hb⟩

theorem trail_snoc {ps : List (V2 ℝ)} {x y p : V2 ℝ} {path nbrs nbrs' : List (V2 ℝ)} (h : Trail ps x path y)
    (hb : BondedTo ps y nbrs) (hp : p ∈ nbrs) (hb' : BondedTo ps p nbrs') : Trail ps x (path ++ [p]) p := by
  induction path generalizing x with
  | nil =>
    obtain ⟨rfl, _⟩ := h
    exact ⟨⟨nbrs, hb, hp⟩, rfl, nbrs', hb'⟩
  | cons q path ih => exact ⟨h.1, ih h.2⟩

theorem way_trail {ps : List (V2 ℝ)} {b si x : V2 ℝ} {m : ℕ} (h : WayTo ps b si m x) {nbrs : List (V2 ℝ)}
    (hb : BondedTo ps x nbrs) : ∃ path, path.length = m ∧ Trail ps si path x := by
  induction h generalizing nbrs with
  | start => exact ⟨[], rfl, rfl, nbrs, hb⟩
  | move _ _ hn ih =>
    obtain ⟨nbrs1, hb1, hp, _⟩ := hn
    obtain ⟨path, hlen, htrail⟩ := ih hb1
    exact ⟨path ++ [_], by simp [hlen], trail_snoc htrail hb1 hp hb⟩

theorem arriveProb_nonneg {d : Timedelta} (h : 0 < d) : 0 ≤ arriveProb d := by
  have hT : (0 : ℝ) < d := by exact_mod_cast h
  have h2 : Real.exp (-(99 / 100 * ((d : ℝ) / 1000000))) ≤ 1 :=
    Real.exp_le_one_iff.2 (by have : 0 ≤ 99 / 100 * ((d : ℝ) / 1000000) := by positivity
                              linarith)
  unfold arriveProb
  exact mul_nonneg (mul_nonneg (by norm_num) (by linarith)) (Real.exp_pos _).le

theorem arriveProb_half : 1 / 2 ≤ arriveProb 1500000 := by
  unfold arriveProb
  push_cast
  have h1 : Real.exp (-(99 / 100 * (1500000 / 1000000))) ≤ 1 / 4 := by
    have h3 : (4 : ℝ) ≤ Real.exp (99 / 100 * (1500000 / 1000000)) := by
      refine le_trans ?_ (Real.sum_le_exp_of_nonneg (by norm_num) 5)
      norm_num [Finset.sum_range_succ, Nat.factorial]
    rw [Real.exp_neg, inv_eq_one_div]
    exact one_div_le_one_div_of_le (by norm_num) h3
  have h2 : 7 / 10 ≤ Real.exp (-(9 / 50 * ((1500000 + 1) / 1000000))) := by
    have := Real.add_one_le_exp (-(9 / 50 * ((1500000 + 1) / 1000000 : ℝ)))
    norm_num at this ⊢
    linarith
  have h4 : (24 / 25 * (1 - 1 / 4) : ℝ) * (7 / 10) ≤ 24 / 25 * (1 - Real.exp (-(99 / 100 * (1500000 / 1000000)))) *
      Real.exp (-(9 / 50 * ((1500000 + 1) / 1000000))) := by
    refine mul_le_mul (by linarith) h2 (by norm_num) ?_
    linarith
  refine le_trans ?_ h4
  norm_num

section
variable {G O P Img : Type} [MeasurableSpace G] {μ : Measure G}

theorem plan_law (cfg : SimCfg ℝ G O P Img) (hf : Fair cfg.rng μ) (hl : cfg.rng.Lawful) (knn : Knn ℝ)
    (hc : cfg.rate = pristineRates knn simpleCanonicalRates) (n : ℕ) (offset : V2 ℝ) (angle : ℝ) (fov : Fov ℝ)
    (path : List (V2 ℝ)) (cs : List (BeamControl ℝ))
    (haim : List.Forall₂ (fun c p => Spec.dist (fov.toMaterial c.position) p ≤ 1 / 100) cs path)
    (h0 : ∀ c ∈ cs, 0 < c.dwellTime) (hd : ∀ c ∈ cs, c.dwellTime < 3600000000) (sheet : Grid ℝ)
    (hD : Displaced (1 / 1000) (layOutSheet n offset angle) sheet.positions) (hdop : SingleDoped sheet)
    (si y : V2 ℝ) (hsi : silicons sheet = [si]) (ht : Trail sheet.positions si path y) :
    ∃ S : Set G, MeasurableSet S ∧ ENNReal.ofReal ((cs.map (fun c => arriveProb c.dwellTime)).prod) ≤ μ S ∧
      ∀ g ∈ S, ∀ el obs, ∃ fuel el' s', applyControls { cfg with fuel := fuel } fov cs el ⟨g, ⟨true, some sheet⟩, obs⟩ =
        .ok el' s' ∧ ∃ next, s'.mat.grid = some next ∧ next.positions = sheet.positions ∧ SingleDoped next ∧
          silicons next = [y] := by
  induction haim generalizing sheet si with
  | nil =>
    obtain ⟨rfl, _⟩ := ht
    exact ⟨Set.univ, MeasurableSet.univ, by rw [hf.total]; simp, fun g _ el obs =>
      ⟨0, _, _, rfl, sheet, rfl, rfl, hdop, hsi⟩⟩
  | @cons c p cs path ha _ ih =>
    obtain ⟨⟨nbrs, hbond, hp⟩, ht⟩ := ht
    obtain ⟨nbrs', hbond'⟩ := trail_bonded ht
    have h0c := h0 c List.mem_cons_self
    have hdc := hd c List.mem_cons_self
    obtain ⟨next, y1, y2, y3, hlaw⟩ := arrive_law hf hl knn n offset angle sheet hD hdop si hsi nbrs nbrs' hbond p hp hbond'
      (BeamControl.mk' (fov.toMaterial c.position) c.dwellTime) ha h0c hdc
    obtain ⟨S, m, e, hS⟩ := ih (fun c hc => h0 c (List.mem_cons_of_mem _ hc)) (fun c hc => hd c (List.mem_cons_of_mem _ hc))
      next (by rw [y1]; exact hD) y2 p y3 (by rw [y1]; exact ht)
    obtain ⟨m', e'⟩ := hlaw S m
    refine ⟨_, m', le_trans ?_ e', ?_⟩
    · rw [List.map_cons, List.prod_cons, ENNReal.ofReal_mul (arriveProb_nonneg h0c)]
      exact mul_le_mul_right e _
    · intro g hg el obs
      simp only [Set.mem_iUnion] at hg
      obtain ⟨time, _, g', sheet', hj, hg'⟩ := hg
      have hlast : sheet' = next := jumps_last hj
      subst hlast
      set c' := BeamControl.mk' (fov.toMaterial c.position) c.dwellTime with hc'
      set obs' := (notify cfg.handle (.applyControl c') obs).map
        (observeAll cfg.handle ([(time, sheet')].map (fun e => Event.transition e.1 e.2))) with hobs'
      obtain ⟨fuel1, h1⟩ := (C72_jump_process cfg.rng cfg.handle cfg.rate c'
        ⟨g, ⟨true, some sheet⟩, notify cfg.handle (.applyControl c') obs⟩ ⟨g', ⟨true, some sheet'⟩, obs'⟩ sheet rfl rfl).2
        ⟨_, sheet', hc ▸ hj, rfl, rfl, rfl⟩
      obtain ⟨fuel2, el', s', h2, hend⟩ := hS g' hg' (el + c'.dwellTime) obs'
      refine ⟨max fuel1 fuel2, el', s', ?_, ?_⟩
      · simp only [applyControls]
        rw [← hc', applyControl_more h1 _ (le_max_left _ _)]
        exact applyControls_more h2 _ (le_max_right _ _)
      · obtain ⟨last, l1, l2, l3, l4⟩ := hend
        exact ⟨last, l1, l2.trans y1, l3, l4⟩

/-- C155.  Controls that hold the beam on one atom of a path after the other: with at least the product of the probabilities
of single moves, the silicon is at the end of the path at last. -/
theorem C155_follows (cfg : SimCfg ℝ G O P Img) (hf : Fair cfg.rng μ) (hl : cfg.rng.Lawful) (knn : Knn ℝ)
    (hc : cfg.rate = pristineRates knn simpleCanonicalRates) (n : ℕ) (offset : V2 ℝ) (angle : ℝ) (fov : Fov ℝ)
    (path : List (V2 ℝ)) (cs : List (BeamControl ℝ))
    (haim : List.Forall₂ (fun c p => Spec.dist (fov.toMaterial c.position) p ≤ 1 / 100) cs path)
    (h0 : ∀ c ∈ cs, 0 < c.dwellTime) (hd : ∀ c ∈ cs, c.dwellTime < 3600000000) (sheet : Grid ℝ)
    (hD : Displaced (1 / 1000) (layOutSheet n offset angle) sheet.positions) (hdop : SingleDoped sheet)
    (si y : V2 ℝ) (hsi : silicons sheet = [si]) (ht : Trail sheet.positions si path y) (obs : List O) :
    ENNReal.ofReal ((cs.map (fun c => arriveProb c.dwellTime)).prod) ≤
      μ {g | ∃ fuel el s', applyControls { cfg with fuel := fuel } fov cs 0 ⟨g, ⟨true, some sheet⟩, obs⟩ = .ok el s' ∧
        ∃ next, s'.mat.grid = some next ∧ next.positions = sheet.positions ∧ SingleDoped next ∧ silicons next = [y]} := by
  obtain ⟨S, _, e, hS⟩ := plan_law cfg hf hl knn hc n offset angle fov path cs haim h0 hd sheet hD hdop si y hsi ht
  exact e.trans (measure_mono (fun g hg => hS g hg 0 obs))

/-- C155.  For every atom not too near to the edge there is a plan: at most four controls of a second and a half for each Å of
the distance, after which the silicon is there with at least the probability one half to the power of their number. -/
theorem C155_plan (cfg : SimCfg ℝ G O P Img) (hf : Fair cfg.rng μ) (hl : cfg.rng.Lawful) (knn : Knn ℝ)
    (hc : cfg.rate = pristineRates knn simpleCanonicalRates) (n : ℕ) (offset : V2 ℝ) (angle : ℝ)
    (hx : |offset.x| ≤ 71 / 100) (hy : |offset.y| ≤ 71 / 100) (fov : Fov ℝ) (hw : fov.width ≠ 0) (hh : fov.height ≠ 0)
    (sheet : Grid ℝ) (hD : Displaced (1 / 1000) (layOutSheet n offset angle) sheet.positions) (hdop : SingleDoped sheet)
    (si b : V2 ℝ) (hsi : silicons sheet = [si]) (hb : b ∈ sheet.positions) (hfar : Spec.dist si b ≤ 1000)
    (hroom : Spec.dist ⟨0, 0⟩ b + Spec.dist si b ≤ 71 / 100 * n - 64 / 10) :
    ∃ cs : List (BeamControl ℝ), (cs.length : ℝ) ≤ 4 * Spec.dist si b ∧ (∀ c ∈ cs, c.dwellTime = 1500000) ∧
      ∀ obs : List O, ENNReal.ofReal ((1 / 2) ^ cs.length) ≤
        μ {g | ∃ fuel el s', applyControls { cfg with fuel := fuel } fov cs 0 ⟨g, ⟨true, some sheet⟩, obs⟩ = .ok el s' ∧
          ∃ next, s'.mat.grid = some next ∧ next.positions = sheet.positions ∧ SingleDoped next ∧
            silicons next = [b]} := by
  have hsim : si ∈ sheet.positions := by
    have : si ∈ silicons sheet := by rw [hsi]; exact List.mem_singleton_self si
    exact (List.of_mem_zip (mem_silicons.1 this)).1
  obtain ⟨hbound, hway⟩ := C151_way n offset angle hx hy sheet.positions hD si b hsim hb hfar
  obtain ⟨m, hm⟩ := (hway hroom).2
  have h0 := nonneg_dist si b
  obtain ⟨nbrs, hbond⟩ := C146_bonds n offset angle hx hy _ hD b hb (by linarith)
  obtain ⟨path, hlen, htrail⟩ := way_trail hm hbond
  set cs : List (BeamControl ℝ) := path.map (fun p => BeamControl.mk' (fov.toMicroscope p) 1500000) with hcs
  have hdw : ∀ c ∈ cs, c.dwellTime = 1500000 := by
    intro c hc
    obtain ⟨p, _, rfl⟩ := List.mem_map.1 hc
    rfl
  have hx : fov.upperRight.x - fov.lowerLeft.x ≠ 0 := hw
  have hy : fov.upperRight.y - fov.lowerLeft.y ≠ 0 := hh
  have key : ∀ p : V2 ℝ, fov.toMaterial (fov.toMicroscope p) = p := by
    intro p; ext <;> simp [Fov.toMicroscope, Fov.toMaterial, Fov.scale, hx, hy]
  have haim : List.Forall₂ (fun (c : BeamControl ℝ) p => Spec.dist (fov.toMaterial c.position) p ≤ 1 / 100) cs path := by
    rw [hcs, List.forall₂_map_left_iff]
    refine List.forall₂_same.2 (fun p _ => ?_)
    simp only [BeamControl.mk', key]
    rw [dist_self']
    norm_num
  refine ⟨cs, ?_, hdw, fun obs => le_trans (ENNReal.ofReal_le_ofReal ?_) (C155_follows cfg hf hl knn hc n offset angle fov path
    cs haim (fun c hc => by rw [hdw c hc]; decide) (fun c hc => by rw [hdw c hc]; decide) sheet hD hdop si b hsi htrail obs)⟩
  · rw [hcs, List.length_map, hlen]
    exact (hbound m b hm).1
  · have e : cs.map (fun c => arriveProb c.dwellTime) = List.replicate cs.length (arriveProb 1500000) := by
      rw [List.eq_replicate_iff]
      refine ⟨List.length_map _, ?_⟩
      intro r hr
      obtain ⟨c, hc, rfl⟩ := List.mem_map.1 hr
      rw [hdw c hc]
    rw [e, List.prod_replicate]
    exact pow_le_pow_left₀ (by norm_num) arriveProb_half _

end

/-- The simulator of the examples: a fair stream of random numbers, the simple rates. -/
noncomputable def planned : SimCfg ℝ (ℕ → ℝ) Unit Unit Unit :=
  ⟨Witness.streamRng, fun _ o => o, pristineRates Witness.knn simpleCanonicalRates, fun g => ([], g), 0, 0,
    fun g => ((), g), fun _ _ _ g => ((), g)⟩

/-- To a neighbour and back again, with different dwell times. -/
example : ∃ sheet p si, p ≠ si ∧ silicons sheet = [si] ∧
    ENNReal.ofReal ((([BeamControl.mk' p 1500000, BeamControl.mk' si 2000000] : List (BeamControl ℝ)).map
      (fun c => arriveProb c.dwellTime)).prod) ≤
    Witness.streamLaw {g | ∃ fuel el s', applyControls { planned with fuel := fuel } ⟨⟨0, 0⟩, ⟨1, 1⟩⟩
      [BeamControl.mk' p 1500000, BeamControl.mk' si 2000000] 0 ⟨g, ⟨true, some sheet⟩, []⟩ = .ok el s' ∧
      ∃ next, s'.mat.grid = some next ∧ next.positions = sheet.positions ∧ SingleDoped next ∧ silicons next = [si]} := by
  obtain ⟨sheet, si, nbrs, nbrs', p, _, hdop, hD, hsi, hbond, hp, hbond', _⟩ := middle_silicon
  have hsp := (hbond.bonds p hp).2
  have hsim : si ∈ sheet.positions := by
    have : si ∈ silicons sheet := by rw [hsi]; exact List.mem_singleton_self si
    exact (List.of_mem_zip (mem_silicons.1 this)).1
  have key : ∀ q : V2 ℝ, (⟨⟨0, 0⟩, ⟨1, 1⟩⟩ : Fov ℝ).toMaterial q = q := by
    intro q; ext <;> simp [Fov.toMaterial, Fov.scale]
  refine ⟨sheet, p, si, ?_, hsi, C155_follows planned Witness.streamRng_fair Witness.streamRng_lawful Witness.knn rfl 50 ⟨0, 0⟩ 0 _
    [p, si] _ ?_ ?_ ?_ sheet hD hdop si si hsi ⟨⟨nbrs, hbond, hp⟩, ⟨nbrs', hbond', ?_⟩, rfl, nbrs, hbond⟩ []⟩
  · rintro rfl
    rw [dist_self', abs_le] at hsp
    linarith [hsp.1]
  · refine .cons ?_ (.cons ?_ .nil) <;> simp only [BeamControl.mk', key] <;> rw [dist_self'] <;> norm_num
  · simp [BeamControl.mk']
  · simp [BeamControl.mk']
  · by_contra hnot
    have hne : si ≠ p := by
      rintro rfl
      rw [dist_self', abs_le] at hsp
      linarith [hsp.1]
    have h1 := hbond'.far si hsim hne hnot
    rw [dist_comm'] at h1
    rw [abs_le] at hsp
    linarith [hsp.2]

/-- A plan for a move of the silicon in the middle of a sheet of 50 columns. -/
example : ∃ (sheet : Grid ℝ) (si b : V2 ℝ) (cs : List (BeamControl ℝ)), silicons sheet = [si] ∧ b ≠ si ∧ cs.length ≤ 6 ∧
    ENNReal.ofReal ((1 / 2) ^ cs.length) ≤
    Witness.streamLaw {g | ∃ fuel el s', applyControls { planned with fuel := fuel } ⟨⟨-10, -10⟩, ⟨10, 10⟩⟩
      cs 0 ⟨g, ⟨true, some sheet⟩, []⟩ = .ok el s' ∧
      ∃ next, s'.mat.grid = some next ∧ next.positions = sheet.positions ∧ SingleDoped next ∧ silicons next = [b]} := by
  obtain ⟨sheet, si, nbrs, nbrs', p, _, hdop, hD, hsi, hbond, hp, hbond', hd⟩ := middle_silicon
  obtain ⟨hpm, hsp⟩ := hbond.bonds p hp
  rw [abs_le] at hsp
  have h2 := dist_tri ⟨0, 0⟩ si p
  obtain ⟨cs, h1, _, h3⟩ := C155_plan planned Witness.streamRng_fair Witness.streamRng_lawful Witness.knn rfl 50 ⟨0, 0⟩ 0
    (by norm_num) (by norm_num) ⟨⟨-10, -10⟩, ⟨10, 10⟩⟩ (by norm_num [Fov.width]) (by norm_num [Fov.height]) sheet hD hdop si p hsi
    hpm (by linarith [hsp.2]) (by norm_num at hd h2 hsp ⊢; linarith [hsp.2])
  refine ⟨sheet, si, p, cs, hsi, ?_, ?_, h3 []⟩
  · rintro rfl
    rw [dist_self'] at hsp
    linarith [hsp.1]
  · have : (cs.length : ℝ) ≤ 6 := by norm_num at hsp; linarith [hsp.2]
    exact_mod_cast this

end PD.Props
