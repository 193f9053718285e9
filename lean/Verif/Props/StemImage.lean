/- C77: rendering with noise. -/
import Verif.Props.CleanImage
import Verif.Props.Simulator

set_option linter.unusedSectionVars false
set_option linter.unusedSimpArgs false

namespace PD.Props
open PD PD.Spec
variable {K : Type} [Field K] [LinearOrder K] [IsStrictOrderedRing K] [FloorRing K] {G : Type}

theorem mapM_id_none {α : Type} (row : List (Option α)) (hne : row ≠ []) (h : ∀ p ∈ row, p = none) :
    row.mapM id = none := by
  cases row with
  | nil => exact absurd rfl hne
  | cons x xs =>
    have := h x (by simp)
    subst this
    rfl

theorem definite_none (img : List (List (Option K))) {n : ℕ} (hn : 0 < n) (hi : IsImage n n img)
    (h : ∀ row ∈ img, ∀ p ∈ row, p = none) : definite img = none := by
  cases img with
  | nil => have := hi.1; simp at this; omega
  | cons row rows =>
    have hl := hi.2 row (by simp)
    have := mapM_id_none row (by rintro rfl; simp at hl; omega) (h row (by simp))
    unfold definite
    rw [List.mapM_cons, this]
    rfl

theorem mapM_option_map {α β : Type} (f : α → Option β) (l : List α) (m : List β) (h : l.map f = m.map some) :
    l.mapM f = some m := by
  induction l generalizing m with
  | nil =>
    cases m with
    | nil => rfl
    | cons y ys => cases h
  | cons x xs ih =>
    cases m with
    | nil => cases h
    | cons y ys =>
      rw [List.map_cons, List.map_cons, List.cons.injEq] at h
      rw [List.mapM_cons, h.1, ih ys h.2]
      rfl

theorem definite_some (im : List (List K)) : definite (im.map (fun row => row.map some)) = some im := by
  unfold definite
  apply mapM_option_map
  rw [List.map_map]
  apply List.map_congr_left
  intro row _
  simp only [Function.comp_apply]
  exact mapM_option_map id (row.map some) row (by simp)

theorem all_some (img : List (List (Option K))) (P : K → Prop) (h : ∀ row ∈ img, ∀ p ∈ row, ∃ v : K, p = some v ∧ P v) :
    ∃ im : List (List K), img = im.map (fun row => row.map some) ∧ ∀ row ∈ im, ∀ v ∈ row, P v := by
  have hrow : ∀ row : List (Option K), (∀ p ∈ row, ∃ v : K, p = some v ∧ P v) →
      ∃ vs : List K, row = vs.map some ∧ ∀ v ∈ vs, P v := by
    intro row
    induction row with
    | nil => intro _; exact ⟨[], rfl, by simp⟩
    | cons x xs ih =>
      intro h
      obtain ⟨v, rfl, hv⟩ := h x (by simp)
      obtain ⟨vs, rfl, hvs⟩ := ih (fun p hp => h p (List.mem_cons_of_mem _ hp))
      exact ⟨v :: vs, rfl, by
        intro u hu
        rcases List.mem_cons.1 hu with rfl | hu
        · exact hv
        · exact hvs u hu⟩
  induction img with
  | nil => exact ⟨[], rfl, by simp⟩
  | cons row rows ih =>
    obtain ⟨vs, rfl, hvs⟩ := hrow row (h row (by simp))
    obtain ⟨im, rfl, him⟩ := ih (fun r hr => h r (List.mem_cons_of_mem _ hr))
    exact ⟨vs :: im, rfl, by
      intro r hr
      rcases List.mem_cons.1 hr with rfl | hr
      · exact hvs
      · exact him r hr⟩

/-- C77, false in general: a view without atoms (also none in the buffer) raises `ValueError`, with any parameters
and generator: the clean image is 0/0 everywhere, and `poisson` does not accept nan. -/
theorem C77_empty_view (bl : Blur K) (pr : PoissonImages K G) (jr : PoissonRng K G) (power : K → K) (grid : Grid K)
    (fov : Fov K) (params : ImageParams K) (g : G) (b : K) (h : Renderable power grid fov params.imageSize b)
    (hout : ∀ a ∈ grid.positions.zip grid.numbers,
      a.1.x < -b ∨ 1 + b < a.1.x ∨ a.1.y < -b ∨ 1 + b < a.1.y) :
    stemCounts bl pr jr power grid fov params g b = .error .valueError := by
  obtain ⟨img, h1, h2, h3⟩ := C75_empty_view bl power grid fov params.imageSize b h hout
  unfold stemCounts
  rw [h1]
  simp only
  unfold applyBlur
  rw [definite_none img h.size_pos h2 h3]
  simp only
  unfold applyPoisson
  rw [definite_none (n := params.imageSize) _ h.size_pos ⟨by simp [h2.1], ?_⟩ ?_]
  · intro row hrow
    obtain ⟨row', hr, rfl⟩ := List.mem_map.1 hrow
    simp [h2.2 row' hr]
  · intro row hrow p hp
    obtain ⟨row', hr, rfl⟩ := List.mem_map.1 hrow
    obtain ⟨_, _, rfl⟩ := List.mem_map.1 hp
    rfl

theorem normalise_ok {im : List (List K)} {n : ℕ} (hn : 0 < n) (hi : IsImage n n im)
    (hnn : ∀ row ∈ im, ∀ v ∈ row, 0 ≤ v) :
    ∃ out, normalise im = .ok out ∧ IsImage n n out ∧
      ((∀ row ∈ im, ∀ v ∈ row, v = 0) → ∀ row ∈ out, ∀ p ∈ row, p = none) ∧
      ((∃ row ∈ im, ∃ v ∈ row, v ≠ 0) → ∀ row ∈ out, ∀ p ∈ row, ∃ v : K, p = some v ∧ 0 ≤ v ∧ v ≤ 1) := by
  unfold normalise
  cases hmax : imageMax im with
  | none =>
    exfalso
    have h1 : 0 < im.length := by rw [hi.1]; exact hn
    have h2 := hi.2 _ (List.getElem_mem h1)
    have h3 : 0 < (im[0]).length := by rw [h2]; exact hn
    unfold imageMax at hmax
    split at hmax
    · rename_i he
      have : im[0][0] ∈ im.flatten := List.mem_flatten.2 ⟨_, List.getElem_mem h1, List.getElem_mem h3⟩
      rw [he] at this
      cases this
    · cases hmax
  | some m =>
    obtain ⟨hm1, hm2⟩ := imageMax_spec hmax
    obtain ⟨mrow, hmr, hmv⟩ := List.mem_flatten.1 hm1
    refine ⟨_, rfl, ⟨by simp [hi.1], ?_⟩, ?_, ?_⟩
    · intro row hrow
      obtain ⟨row', h1, rfl⟩ := List.mem_map.1 hrow
      simp [hi.2 row' h1]
    · intro hz row hrow q hq
      obtain ⟨row', h1, rfl⟩ := List.mem_map.1 hrow
      obtain ⟨x, h2, rfl⟩ := List.mem_map.1 hq
      rw [if_pos (hz _ hmr _ hmv)]
    · rintro ⟨row0, hr0, v0, hv0, hne⟩ row hrow q hq
      have hmpos : 0 < m := lt_of_lt_of_le (lt_of_le_of_ne (hnn _ hr0 _ hv0) (Ne.symm hne))
        (hm2 v0 (List.mem_flatten.2 ⟨row0, hr0, hv0⟩))
      obtain ⟨row', h1, rfl⟩ := List.mem_map.1 hrow
      obtain ⟨x, h2, rfl⟩ := List.mem_map.1 hq
      refine ⟨x / m, by rw [if_neg hmpos.ne'], div_nonneg (hnn row' h1 x h2) hmpos.le, ?_⟩
      rw [div_le_one hmpos]
      exact hm2 x (List.mem_flatten.2 ⟨row', h1, h2⟩)

/-- C77 for views with an atom, and parameters as they are sampled: no stage raises; the rates given to `poisson`
lie between 0 and the multiplier; the result has the asked size, and its pixels lie between 0 and 1, unless all
counts drawn are zero: then all are nan. -/
theorem C77_atoms_partial (bl : Blur K) (pr : PoissonImages K G) (jr : PoissonRng K G) (power : K → K) (grid : Grid K)
    (fov : Fov K) (params : ImageParams K) (g : G) (b : K) (h : Renderable power grid fov params.imageSize b)
    (hm : 0 ≤ params.poissonMultiplier) (hj : 0 ≤ params.jitterRate)
    (a : V2 K × ℤ) (ha : a ∈ grid.positions.zip grid.numbers)
    (hx : 0 ≤ a.1.x ∧ a.1.x < 1) (hy : 0 ≤ a.1.y ∧ a.1.y < 1) :
    ∃ (rates : List (List K)) (out : List (List (Option K))) (g' : G),
      IsImage params.imageSize params.imageSize rates ∧
      (∀ row ∈ rates, ∀ v ∈ row, 0 ≤ v ∧ v ≤ params.poissonMultiplier) ∧
      stemCounts bl pr jr power grid fov params g b = .ok (out, g') ∧
      IsImage params.imageSize params.imageSize out ∧
      ((∃ row ∈ (pr.draw rates g).1, ∃ k ∈ row, k ≠ 0) →
        ∀ row ∈ out, ∀ p ∈ row, ∃ v : K, p = some v ∧ 0 ≤ v ∧ v ≤ 1) ∧
      ((∀ row ∈ (pr.draw rates g).1, ∀ k ∈ row, k = 0) → ∀ row ∈ out, ∀ p ∈ row, p = none) := by
  have hs := h.size_pos
  obtain ⟨clean, c1, c2, c3, ⟨crow, c4, c5⟩⟩ := C75_range bl power grid fov params.imageSize b h a ha hx hy
  obtain ⟨im, rfl, him⟩ := all_some clean (fun v => 0 ≤ v ∧ v ≤ 1) c3
  have himi : IsImage params.imageSize params.imageSize im := by
    refine ⟨by simpa using c2.1, fun row hrow => ?_⟩
    have := c2.2 (row.map some) (List.mem_map.2 ⟨row, hrow, rfl⟩)
    simpa using this
  obtain ⟨row1, hrow1, rfl⟩ := List.mem_map.1 c4
  have h1mem : (1 : K) ∈ row1 := by simpa using c5
  -- the second blur
  have hbi := bl.size ⟨params.blurAmount, params.blurAmount⟩ _ _ _ himi
  have hbn := bl.nonneg ⟨params.blurAmount, params.blurAmount⟩ im (fun row hr v hv => (him row hr v hv).1)
  have hbpos : ∃ row ∈ bl.blur ⟨params.blurAmount, params.blurAmount⟩ im, ∃ v ∈ row, v ≠ 0 := by
    obtain ⟨r, c, hpix⟩ := mem_pixel (List.mem_flatten.2 ⟨row1, hrow1, h1mem⟩)
    have hrc : r < params.imageSize ∧ c < params.imageSize := by
      unfold pixel at hpix
      obtain ⟨row', h1, h2⟩ := Option.bind_eq_some_iff.1 hpix
      obtain ⟨h3, h4⟩ := List.getElem?_eq_some_iff.1 h1
      obtain ⟨h5, _⟩ := List.getElem?_eq_some_iff.1 h2
      exact ⟨by rw [← himi.1]; exact h3, by rw [← himi.2 row' (List.mem_of_getElem? h1)]; exact h5⟩
    have hat := at2_of_pixel hpix
    have := bl.pos ⟨params.blurAmount, params.blurAmount⟩ _ _ im r c himi (fun row hr v hv => (him row hr v hv).1)
      hrc.1 hrc.2 (by unfold at2 at hat; rw [hat]; exact one_pos)
    have h1 : r < (bl.blur ⟨params.blurAmount, params.blurAmount⟩ im).length := by rw [hbi.1]; exact hrc.1
    have h2 := hbi.2 _ (List.getElem_mem h1)
    have h3 : c < ((bl.blur ⟨params.blurAmount, params.blurAmount⟩ im)[r]).length := by rw [h2]; exact hrc.2
    refine ⟨_, List.getElem_mem h1, _, List.getElem_mem h3, ?_⟩
    simp only [List.getD_eq_getElem?_getD, List.getElem?_eq_getElem h1, Option.getD_some,
      List.getElem?_eq_getElem h3] at this
    exact this.ne'
  obtain ⟨blurred, b1, b2, _, b4⟩ := normalise_ok hs hbi hbn
  obtain ⟨im2, rfl, him2⟩ := all_some blurred (fun v => 0 ≤ v ∧ v ≤ 1) (b4 hbpos)
  have him2i : IsImage params.imageSize params.imageSize im2 := by
    refine ⟨by simpa using b2.1, fun row hrow => ?_⟩
    have := b2.2 (row.map some) (List.mem_map.2 ⟨row, hrow, rfl⟩)
    simpa using this
  -- the counts
  set rates := im2.map (fun row => row.map (fun v => v * params.poissonMultiplier)) with hrates
  have hri : IsImage params.imageSize params.imageSize rates := by
    refine ⟨by simp [hrates, him2i.1], fun row hrow => ?_⟩
    obtain ⟨row', hr, rfl⟩ := List.mem_map.1 hrow
    simp [him2i.2 row' hr]
  have hrb : ∀ row ∈ rates, ∀ v ∈ row, 0 ≤ v ∧ v ≤ params.poissonMultiplier := by
    intro row hrow v hv
    obtain ⟨row', hr, rfl⟩ := List.mem_map.1 hrow
    obtain ⟨u, hu, rfl⟩ := List.mem_map.1 hv
    obtain ⟨u0, u1⟩ := him2 row' hr u hu
    exact ⟨mul_nonneg u0 hm, mul_le_of_le_one_left hm u1⟩
  have hshape := pr.shape rates g
  set counts := (pr.draw rates g).1 with hcounts
  have hci : IsImage params.imageSize params.imageSize counts := by
    have hl : counts.length = rates.length := by
      have := congrArg List.length hshape
      simpa using this
    refine ⟨by rw [hl, hri.1], fun row hrow => ?_⟩
    have : row.length ∈ rates.map List.length := by
      rw [← hshape]; exact List.mem_map.2 ⟨row, hrow, rfl⟩
    obtain ⟨row', hr, he⟩ := List.mem_map.1 this
    rw [← he, hri.2 row' hr]
  have hki : IsImage params.imageSize params.imageSize (counts.map (fun row => row.map (fun k : ℕ => (k : K)))) := by
    refine ⟨by simp [hci.1], fun row hrow => ?_⟩
    obtain ⟨row', hr, rfl⟩ := List.mem_map.1 hrow
    simp [hci.2 row' hr]
  have hkn : ∀ row ∈ counts.map (fun row => row.map (fun k : ℕ => (k : K))), ∀ v ∈ row, 0 ≤ v := by
    intro row hrow v hv
    obtain ⟨row', hr, rfl⟩ := List.mem_map.1 hrow
    obtain ⟨u, hu, rfl⟩ := List.mem_map.1 hv
    exact Nat.cast_nonneg u
  obtain ⟨noisy, n1, n2, n3, n4⟩ := normalise_ok hs hki hkn
  have hne : noisy ≠ [] := by
    rintro rfl
    have := n2.1
    simp at this
    omega
  obtain ⟨out, o1, o2, o3⟩ := (C64_jitter jr params.jitterRate hj noisy (pr.draw rates g).2).2 hne
  have hrow_out : ∀ row ∈ out, ∃ row' ∈ noisy, row.Perm row' := by
    intro row hrow
    obtain ⟨r, hr, rfl⟩ := List.mem_iff_getElem.1 hrow
    have hr' : r < noisy.length := by rw [← o2]; exact hr
    obtain ⟨row', k, e1, _, _, e2, _⟩ := o3 r _ (List.getElem?_eq_getElem hr')
    rw [List.getElem?_eq_getElem hr, Option.some.injEq] at e1
    exact ⟨_, List.getElem_mem hr', by rw [e1]; exact e2⟩
  refine ⟨rates, out, (jr.draw params.jitterRate noisy.length (pr.draw rates g).2).2, hri, hrb, ?_, ?_, ?_, ?_⟩
  · unfold stemCounts
    rw [c1]
    simp only
    unfold applyBlur
    rw [definite_some]
    simp only
    rw [b1]
    simp only
    unfold applyPoisson
    rw [definite_some]
    simp only
    rw [if_neg]
    · rw [← hrates, ← hcounts, n1]
      simp only
      exact o1
    · rw [← hrates]
      intro hany
      obtain ⟨row, hr, hrow⟩ := List.any_eq_true.1 hany
      obtain ⟨v, hv, hlt⟩ := List.any_eq_true.1 hrow
      exact absurd (of_decide_eq_true hlt) (not_lt.2 (hrb row hr v hv).1)
  · refine ⟨by rw [o2, n2.1], fun row hrow => ?_⟩
    obtain ⟨row', hr, hp⟩ := hrow_out row hrow
    rw [hp.length_eq, n2.2 row' hr]
  · rintro ⟨row, hr, k, hk, hne⟩ row' hrow' p hp
    obtain ⟨row'', hr'', hperm⟩ := hrow_out row' hrow'
    refine n4 ⟨_, List.mem_map.2 ⟨row, hr, rfl⟩, _, List.mem_map.2 ⟨k, hk, rfl⟩, ?_⟩ row'' hr'' p (hperm.mem_iff.1 hp)
    exact_mod_cast hne
  · intro hz row' hrow' p hp
    obtain ⟨row'', hr'', hperm⟩ := hrow_out row' hrow'
    refine n3 ?_ row'' hr'' p (hperm.mem_iff.1 hp)
    intro row hrow v hv
    obtain ⟨row0, h0, rfl⟩ := List.mem_map.1 hrow
    obtain ⟨k, hk, rfl⟩ := List.mem_map.1 hv
    rw [hz row0 h0 k hk, Nat.cast_zero]

/-! ### In a simulator -/

section
variable {O P Img : Type}

/-- What a simulator observes: one number per position, carbon and silicon only, in a square view. -/
structure ObservedWell (o : Observation K Img) : Prop where
  wf : o.grid.positions.length = o.grid.numbers.length
  numbers : ∀ Z ∈ o.grid.numbers, Z = 6 ∨ Z = 14
  square : ∃ side, 15 ≤ side ∧ IsSquare o.fov side

theorem doped_numbers {g : Grid K} (h : SingleDoped g) : ∀ Z ∈ g.numbers, Z = 6 ∨ Z = 14 := by
  intro Z hZ
  obtain ⟨i, _, hi⟩ := h.one
  obtain ⟨j, hj, rfl⟩ := List.mem_iff_getElem.1 hZ
  have := hi j hj
  rw [List.getElem?_eq_getElem hj, Option.some.injEq] at this
  rw [this]
  by_cases hij : j = i
  · rw [if_pos hij]; exact .inr rfl
  · rw [if_neg hij]; exact .inl rfl

theorem observed_well {m : Material K} {sheet : Grid K} {o : Observation K Img} (hd : SingleDoped sheet)
    (hr : m.hasBeenReset = true) (hm : m.grid = some sheet) {side : K} (h15 : 15 ≤ side) (hsq : IsSquare o.fov side)
    (ho : m.getAtomsInBounds o.fov.lowerLeft o.fov.upperRight = .ok o.grid) : ObservedWell o := by
  have hpos : 0 < side := by linarith
  obtain ⟨o', h1, hwf, hat, _⟩ := C03_atoms_in_view m sheet hr hm hd.wf o.fov (by rw [hsq.1]; exact hpos)
    (by rw [hsq.2]; exact hpos)
  rw [ho, Except.ok.injEq] at h1
  subst h1
  refine ⟨hwf, ?_, side, h15, hsq⟩
  intro Z hZ
  obtain ⟨j, hj, rfl⟩ := List.mem_iff_getElem.1 hZ
  have hj' : j < o.grid.positions.length := by rw [hwf]; exact hj
  have hmem : (o.fov.toMaterial o.grid.positions[j], o.grid.numbers[j]) ∈ atoms (o.fov.gridToMaterial o.grid) := by
    show _ ∈ (o.grid.positions.map o.fov.toMaterial).zip o.grid.numbers
    rw [List.mem_iff_getElem]
    exact ⟨j, by simp [hj, hj'], by simp⟩
  rw [hat] at hmem
  have := List.mem_of_mem_filter hmem
  exact doped_numbers hd _ (List.of_mem_zip this).2

theorem run_observed (cfg : SimCfg K G O P Img) (hl : cfg.rng.Lawful) (hk : KeepsDoping cfg.rate)
    (ops : List (SimOp K O)) (s : Sim K G O P) (hs : SimInv s) :
    ∀ o, some (.ok o) ∈ (Sim.run cfg s ops).1 → ObservedWell o := by
  induction ops generalizing s with
  | nil => intro o ho; simp [Sim.run] at ho
  | cons op ops ih =>
    intro o ho
    simp only [Sim.run, List.mem_cons] at ho
    rcases ho with ho | ho
    · cases op with
      | reset b =>
        simp only [Sim.exec] at ho
        cases hr : Sim.reset cfg b s with
        | error e s' => simp [hr] at ho
        | ok o' s' =>
          simp only [hr, Option.some.injEq, Except.ok.injEq] at ho
          subst ho
          obtain ⟨sheet, si, sc, hf⟩ := reset_ok hr
          obtain ⟨g, hsc⟩ := hf.scaleDraw
          have hu := hl.uniform_mem 15 30 g (by norm_num)
          rw [← hsc] at hu
          exact observed_well hf.doped hf.matFlag hf.grid hu.1 (by rw [hf.ofov]; exact centredFov_square si sc) hf.ogrid
      | step cs b =>
        simp only [Sim.exec] at ho
        cases hr : Sim.step cfg cs b s with
        | error e s' => simp [hr] at ho
        | ok o' s' =>
          simp only [hr, Option.some.injEq, Except.ok.injEq] at ho
          subst ho
          obtain ⟨fov, sheet, c, sc, evs, evs', sheet', hfov, hg, hd, hsc, hc, h15, h30, happ, hobs, hmf, hg', hsc',
            hfov', hctl, himg, hatoms, hm⟩ := step_ok hs hr
          obtain ⟨hd', _⟩ := happ.doped hk hd
          have hsq : IsSquare o.fov sc := by
            rcases hm with ⟨_, hof, _⟩ | ⟨si, _, _, _, _, hof, _⟩
            · rw [hof, hc]; exact centredFov_square c sc
            · rw [hof]; exact centredFov_square si sc
          exact observed_well hd' hmf hg' h15 hsq hatoms
      | addObserver o => simp [Sim.exec] at ho
      | removeObserver i =>
        simp only [Sim.exec, Sim.removeObserver] at ho
        split_ifs at ho <;> simp at ho
    · exact ih _ (hs.exec hl hk op) o ho

/-- C77: rendering the grid of any observation a simulator returns, in its field of view, does not raise: the
silicon is always in view. -/
theorem C77_simulator (cfg : SimCfg K G O P Img) (hl : cfg.rng.Lawful) (hrate : SwapRates cfg.rate) (g : G)
    (obs0 : List O) (ops : List (SimOp K O)) (o : Observation K Img)
    (ho : some (.ok o) ∈ (Sim.run cfg (Sim.fresh g obs0) ops).1)
    (bl : Blur K) (pr : PoissonImages K G) (jr : PoissonRng K G) (power : K → K)
    (hp : 0 < power 6 ∧ 0 < power 14) (params : ImageParams K) (hs : 0 < params.imageSize)
    (hm : 0 ≤ params.poissonMultiplier) (hj : 0 ≤ params.jitterRate) (g' : G) :
    ∃ out, stemCounts bl pr jr power o.grid o.fov params g' 0 = .ok out := by
  have hw := run_observed cfg hl hrate.keepsDoping ops _ (SimInv.fresh g obs0) o ho
  obtain ⟨p, hsi, hsafe⟩ := C09_silicon_in_safe_area cfg hl hrate g obs0 ops o ho
  obtain ⟨side, h15, hsq⟩ := hw.square
  have hmem : (p, SILICON) ∈ o.grid.positions.zip o.grid.numbers := by
    have : p ∈ silicons o.grid := by rw [hsi]; simp
    obtain ⟨a, ha, rfl⟩ := List.mem_map.1 this
    obtain ⟨h1, h2⟩ := List.mem_filter.1 ha
    have h2 := of_decide_eq_true h2
    rw [← h2]; exact h1
  have hpos : (0 : K) < side := by linarith
  have hR : Renderable power o.grid o.fov params.imageSize 0 := by
    refine ⟨hw.wf, ?_, by rw [hsq.1]; exact hpos.ne', by rw [hsq.2]; exact hpos.ne', hs, le_refl _⟩
    intro Z hZ
    rcases hw.numbers Z hZ with rfl | rfl
    · exact_mod_cast hp.1
    · exact_mod_cast hp.2
  obtain ⟨⟨a1, a2⟩, b1, b2⟩ := hsafe
  obtain ⟨_, out, g'', _, _, h, _⟩ := C77_atoms_partial bl pr jr power o.grid o.fov params g' 0 hR hm hj (p, SILICON) hmem
    ⟨by simp only; linarith, by simp only; linarith⟩ ⟨by simp only; linarith, by simp only; linarith⟩
  exact ⟨_, h⟩

end

/-- A generator of counts: each count is the rate rounded up. -/
def roundingPoisson : PoissonImages ℚ Unit where
  draw rates _ := (rates.map (fun row => row.map (fun v => ⌈v⌉.toNat)), ())
  shape := by intro rates g; simp

/-- A view with an atom, and one without. -/
example : stemCounts (sharp ℚ) roundingPoisson countingPoisson (fun x => x) ⟨[⟨1 / 4, 1 / 4⟩], [6]⟩ ⟨⟨0, 0⟩, ⟨20, 20⟩⟩
      ⟨0, 5, 1, 2⟩ () 0 = .ok ([[some 0, some 0], [some 0, some 1]], ()) ∧
    stemCounts (sharp ℚ) roundingPoisson countingPoisson (fun x => x) ⟨[⟨5 / 4, 1 / 4⟩], [6]⟩ ⟨⟨0, 0⟩, ⟨20, 20⟩⟩
      ⟨0, 5, 1, 2⟩ () 0 = .error .valueError := by
  constructor <;> decide +kernel

end PD.Props
