/- C113: plots of rate functions. -/
import Verif.Model.RatePlots
import Verif.Props.EnsembleTraining
import Verif.Props.Rates
import Verif.Lemmas.Witness
import Mathlib.Data.List.ProdSigma

set_option linter.unusedSectionVars false
set_option linter.unusedSimpArgs false

namespace PD.Spec
open PD
variable {K : Type} [Field K] [LinearOrder K]

/-- The sheet as seen from a place. -/
def seenFrom (g : Grid K) (s : V2 K) : Grid K := ⟨g.positions.map (fun p => p - s), g.numbers⟩

/-- For every beam position, the rate function proposes to move the silicon of the sheet to each of
three different atoms, to atom `j` at the rate `r beam j`. -/
structure Proposes (rate : RateFunction K) (g : Grid K) (nbrs : List ℕ) (r : V2 K → ℕ → K) : Prop where
  three : nbrs.length = 3
  nodup : nbrs.Nodup
  lt : ∀ j ∈ nbrs, j < g.positions.length
  answer : ∀ beam, ∃ ss, rate g beam = .ok ss ∧ List.Forall₂ (fun j s => s.grid.positions = g.positions ∧
    SingleDoped s.grid ∧ s.grid.numbers[j]? = some SILICON ∧ s.rate = r beam j) nbrs ss

/-- The order in which a set is gone through: every element once. -/
def SetOrder (order : List (V2 K) → List (V2 K)) : Prop := ∀ l, (order l).Nodup ∧ ∀ p, p ∈ order l ↔ p ∈ l

end PD.Spec

namespace PD.Props
open PD PD.Spec

section general
variable {K : Type} [Field K] [LinearOrder K] [IsStrictOrderedRing K]

theorem mapM_eq_map {α β : Type} {f : α → Except Err β} {h : α → β} {xs : List α} (hf : ∀ x ∈ xs, f x = .ok (h x)) :
    xs.mapM f = .ok (xs.map h) := by
  induction xs with
  | nil => rfl
  | cons x xs ih =>
    rw [List.mapM_cons, hf x (by simp), ih (fun y hy => hf y (by simp [hy]))]; rfl

/-- The place of atom `j`. -/
def placeOf (g : Grid K) (j : ℕ) : V2 K := (g.positions[j]?).getD 0

theorem placeOf_some {g : Grid K} {j : ℕ} {p : V2 K} (h : g.positions[j]? = some p) : placeOf g j = p := by
  simp [placeOf, h]

theorem placeOf_get {g : Grid K} {j : ℕ} (h : j < g.positions.length) : g.positions[j]? = some (placeOf g j) := by
  simp [placeOf, h]

theorem placeOf_inj {g : Grid K} (hnd : g.positions.Nodup) {i j : ℕ} (hi : i < g.positions.length)
    (hj : j < g.positions.length) (h : placeOf g i = placeOf g j) : i = j := by
  have h1 := placeOf_get hi
  have h2 := placeOf_get hj
  rw [h] at h1
  have e1 := (List.getElem?_eq_some_iff.1 h1).2
  have e2 := (List.getElem?_eq_some_iff.1 h2).2
  exact (List.Nodup.getElem_inj_iff hnd).1 (e1.trans e2.symm)

theorem silicon_at {g s : Grid K} {j : ℕ} (hp : s.positions = g.positions) (hs : SingleDoped s)
    (hj : s.numbers[j]? = some SILICON) (hl : j < g.positions.length) :
    getSingleSiliconPosition s = .ok (placeOf g j) := by
  obtain ⟨i, p, h1, h2, h3⟩ := hs.exists_index
  have hij : j = i := by
    rw [h2, doped_get _ _ _ (by rw [hp]; exact hl)] at hj
    by_contra hne
    simp [hne] at hj
    revert hj; decide
  subst hij
  rw [hp] at h1
  rw [getSingleSiliconPosition_of_singleton h3, placeOf_some h1]

/-- Handling every proposed successor. -/
theorem each_proposal {β : Type} {rate : RateFunction K} {g : Grid K} {nbrs : List ℕ} {r : V2 K → ℕ → K}
    (h : Proposes rate g nbrs r) (beam : V2 K) : ∃ ss, rate g beam = .ok ss ∧
      totalRate ss = (nbrs.map (r beam)).sum ∧
      ∀ (f : K → V2 K → Except Err β) (f' : ℕ → β),
        (∀ j ∈ nbrs, f (r beam j) (placeOf g j) = .ok (f' j)) →
        ss.mapM (fun s => do
          let si ← getSingleSiliconPosition s.grid
          f s.rate si) = .ok (nbrs.map f') := by
  obtain ⟨ss, hss, hall⟩ := h.answer beam
  have hlt := h.lt
  refine ⟨ss, hss, ?_, ?_⟩
  · clear hss h hlt
    unfold totalRate
    induction hall with
    | nil => rfl
    | cons h1 _ ih => simp [ih, h1.2.2.2]
  · intro f f' hf
    clear hss h
    induction hall with
    | nil => rfl
    | @cons j s js ss h1 _ ih =>
      rw [List.mapM_cons, silicon_at h1.1 h1.2.1 h1.2.2.1 (hlt j (by simp)), h1.2.2.2]
      have ih' := ih (fun i hi => hlt i (by simp [hi])) (fun i hi => hf i (by simp [hi]))
      have hj := hf j (by simp)
      change (f (r beam j) (placeOf g j) >>= fun a => (List.mapM _ ss : Except Err (List β)) >>= fun as =>
        pure (a :: as)) = _
      rw [hj, ih']
      rfl

theorem center_ok {g : Grid K} {si : V2 K} (h : getSiliconPositions g = [si]) :
    centerOnSilicon g = .ok (seenFrom g si) := by
  simp [centerOnSilicon, getSingleSiliconPosition_of_singleton h, seenFrom]

theorem rasterRows_ok {rate : RateFunction K} {g : Grid K} {nbrs : List ℕ} {r : V2 K → ℕ → K}
    (h : Proposes rate g nbrs r) (xs : List K) :
    rasterRows rate g xs = .ok ((xs.product xs).flatMap (fun q =>
      nbrs.map (fun j => ⟨q.1, q.2, r ⟨q.1, q.2⟩ j, placeOf g j⟩))) := by
  have hpt : ∀ x y, rasterPoint rate g x y = .ok (nbrs.map (fun j => ⟨x, y, r ⟨x, y⟩ j, placeOf g j⟩)) := by
    intro x y
    obtain ⟨ss, hss, -, hall⟩ := each_proposal (β := RasterRow K) h ⟨x, y⟩
    unfold rasterPoint
    rw [hss]
    exact hall (fun rt si => pure ⟨x, y, rt, si⟩) _ (fun j _ => rfl)
  unfold rasterRows
  rw [mapM_eq_map (h := fun x => (xs.map (fun y => nbrs.map (fun j => ⟨x, y, r ⟨x, y⟩ j, placeOf g j⟩))).flatten)]
  · show Except.ok _ = _
    congr 1
    simp only [List.product, List.flatMap, List.map_flatten, List.map_map, List.flatten_flatten]
    congr 2
    funext x
    simp [Function.comp_def]
  · intro x _
    rw [mapM_eq_map (h := fun y => nbrs.map (fun j => ⟨x, y, r ⟨x, y⟩ j, placeOf g j⟩)) (fun y _ => hpt x y)]
    rfl

theorem filter_place {g : Grid K} (hnd : g.positions.Nodup) {nbrs : List ℕ} (hn : nbrs.Nodup)
    (hlt : ∀ j ∈ nbrs, j < g.positions.length) {j : ℕ} (hj : j ∈ nbrs) :
    nbrs.filter (fun i => decide (placeOf g i = placeOf g j)) = [j] := by
  have h1 : nbrs.filter (fun i => decide (placeOf g i = placeOf g j)) = nbrs.filter (fun i => decide (i = j)) := by
    apply List.filter_congr
    intro i hi
    simp only [decide_eq_decide]
    exact ⟨fun h => placeOf_inj hnd (hlt i hi) (hlt j hj) h, fun h => by rw [h]⟩
  rw [h1]
  rw [List.filter_eq, List.count_eq_one_of_mem hn hj]
  rfl

theorem linspace_length (a b : K) (n : ℕ) : (linspace a b n).length = n := by simp [linspace]

theorem seen_nodup {g : Grid K} (hnd : g.positions.Nodup) (s : V2 K) : (seenFrom g s).positions.Nodup := by
  refine hnd.map ?_
  intro p q h
  have hx := congrArg V2.x h
  have hy := congrArg V2.y h
  simp only [V2.sub_x, V2.sub_y, sub_left_inj] at hx hy
  ext <;> assumption

theorem seen_get {g : Grid K} {s p : V2 K} {j : ℕ} (h : g.positions[j]? = some p) :
    placeOf (seenFrom g s) j = p - s := placeOf_some (by simp [seenFrom, h])

/-- C113, the raster: on a sheet with one silicon, a rate function that proposes three neighbours is drawn
as three contour plots in the three colours, one for each neighbour.  The data of a neighbour's contours
are, for every point of the raster about the silicon, exactly one value: the rate at which the function
moves the silicon to that neighbour with the beam at that point.  The neighbour itself is drawn, relative
to the silicon, in the colour of its contours.  Without raster points the call raises `ValueError`. -/
theorem C113_raster (order : List (V2 K) → List (V2 K)) (ho : SetOrder order) (rate : RateFunction K)
    (g : Grid K) (hnd : g.positions.Nodup) (si : V2 K) (hsi : getSiliconPositions g = [si])
    (nbrs : List ℕ) (r : V2 K → ℕ → K) (hr : Proposes rate (seenFrom g si) nbrs r) (extent : K × K) (n : ℕ) :
    (n = 0 → plotRateFunction3 order rate g extent n = .error .valueError) ∧
    (n ≠ 0 → ∃ plot, plotRateFunction3 order rate g extent n = .ok plot ∧
      plot.atoms = g.positions.map (fun p => p - si) ∧
      plot.contours.map (·.2) = ["Blues", "Oranges", "Greens"] ∧ plot.neighbours.map (·.2) = ["Blues", "Oranges", "Greens"] ∧
      (∀ j ∈ nbrs, ∀ p, g.positions[j]? = some p → ∃ colour, (p - si, colour) ∈ plot.neighbours ∧
        (((linspace extent.1 extent.2 n).product (linspace extent.1 extent.2 n)).map
          (fun q => ⟨q.1, q.2, r ⟨q.1, q.2⟩ j, p - si⟩), colour) ∈ plot.contours)) := by
  have hlt := hr.lt
  set c := seenFrom g si with hc
  have hcn : c.positions.Nodup := seen_nodup hnd si
  set xs := linspace extent.1 extent.2 n with hxs
  have hxl : xs.length = n := linspace_length _ _ _
  have hrows := rasterRows_ok hr xs
  set rows := (xs.product xs).flatMap (fun q => nbrs.map (fun j =>
    (⟨q.1, q.2, r ⟨q.1, q.2⟩ j, placeOf c j⟩ : RasterRow K))) with hrw
  have heq : plotRateFunction3 order rate g extent n =
      if (order (rows.map (·.next))).length = 3 then
        .ok ⟨((order (rows.map (·.next))).zip colourMaps).map (fun nc =>
          (rows.filter (fun r => decide (r.next = nc.1)), nc.2)), c.positions,
          (order (rows.map (·.next))).zip colourMaps⟩ else .error .valueError := by
    unfold plotRateFunction3
    rw [center_ok hsi]
    show (rasterRows rate c xs >>= _) = _
    rw [hrows]
    rfl
  constructor
  · rintro rfl
    have : xs = [] := List.eq_nil_of_length_eq_zero hxl
    have hr0 : rows = [] := by rw [hrw, this]; rfl
    rw [heq, hr0, if_neg]
    have hm := (ho []).2
    have : order [] = [] := List.eq_nil_iff_forall_not_mem.2 (fun p hp => by simpa using (hm p).1 hp)
    simp [this]
  · intro hn
    have hmem : ∀ p, p ∈ order (rows.map (·.next)) ↔ p ∈ nbrs.map (placeOf c) := by
      intro p
      rw [(ho _).2 p]
      simp only [hrw, List.mem_map, List.mem_flatMap]
      constructor
      · rintro ⟨_, ⟨q, hq, j, hj, rfl⟩, rfl⟩
        exact ⟨j, hj, rfl⟩
      · rintro ⟨j, hj, rfl⟩
        obtain ⟨x, hx⟩ : ∃ x, x ∈ xs := List.exists_mem_of_length_pos (by omega)
        exact ⟨_, ⟨(x, x), by rw [List.pair_mem_product]; exact ⟨hx, hx⟩, j, hj, rfl⟩, rfl⟩
    have hnd' : (nbrs.map (placeOf c)).Nodup :=
      List.Nodup.map_on (fun i hi j hj h => placeOf_inj hcn (hlt i hi) (hlt j hj) h) hr.nodup
    have hperm : (order (rows.map (·.next))).Perm (nbrs.map (placeOf c)) :=
      (List.perm_ext_iff_of_nodup (ho _).1 hnd').2 hmem
    have hlen : (order (rows.map (·.next))).length = 3 := by
      rw [hperm.length_eq, List.length_map, hr.three]
    rw [heq, if_pos hlen]
    refine ⟨_, rfl, rfl, ?_, ?_, ?_⟩
    · rw [List.map_map]
      show ((order (rows.map (·.next))).zip colourMaps).map (·.2) = _
      rw [← List.unzip_snd, List.unzip_zip_right (by rw [hlen]; rfl)]
      rfl
    · show ((order (rows.map (·.next))).zip colourMaps).map (·.2) = _
      rw [← List.unzip_snd, List.unzip_zip_right (by rw [hlen]; rfl)]
      rfl
    · intro j hj p hp
      have hpl : placeOf c j = p - si := seen_get hp
      have hin : p - si ∈ order (rows.map (·.next)) := by
        rw [hmem, ← hpl]; exact List.mem_map_of_mem hj
      obtain ⟨k, hk⟩ := List.getElem?_of_mem hin
      have hkl : k < colourMaps.length := by
        have := (List.getElem?_eq_some_iff.1 hk).1
        rw [hlen] at this; exact this
      have hz : (p - si, colourMaps[k]) ∈ (order (rows.map (·.next))).zip colourMaps :=
        List.mem_of_getElem? (List.getElem?_zip_eq_some.2 ⟨hk, by simp [hkl]⟩)
      refine ⟨colourMaps[k], hz, ?_⟩
      refine List.mem_map.2 ⟨_, hz, ?_⟩
      congr 1
      rw [hrw, List.filter_flatMap, List.map_eq_flatMap]
      congr 1
      funext q
      rw [List.filter_map]
      show List.map _ (nbrs.filter (fun i => decide (placeOf c i = p - si))) = _
      rw [← hpl, filter_place hcn hr.nodup hlt hj]
      rfl

/-! ### Along the vector to a neighbour -/

theorem maxOf_ok {l : List K} (h : l ≠ []) : ∃ m, maxOf l = .ok m ∧ m ∈ l ∧ ∀ a ∈ l, a ≤ m := by
  cases l with
  | nil => exact absurd rfl h
  | cons a as =>
    refine ⟨_, rfl, ?_⟩
    clear h
    induction as generalizing a with
    | nil => simp
    | cons b bs ih =>
      obtain ⟨h1, h2⟩ := ih (max a b)
      rw [List.foldl_cons]
      constructor
      · rcases List.mem_cons.1 h1 with h | h
        · rw [h]
          rcases max_choice a b with h' | h' <;> rw [h'] <;> simp
        · simp [h]
      · intro c hc
        have hm := h2 (max a b) (by simp)
        rcases List.mem_cons.1 hc with rfl | hc
        · exact (le_max_left _ _).trans hm
        · rcases List.mem_cons.1 hc with rfl | hc
          · exact (le_max_right _ _).trans hm
          · exact h2 c (by simp [hc])

theorem takeRows_places {g : Grid K} {idx : List ℕ} (h : ∀ j ∈ idx, j < g.positions.length) :
    takeRows g.positions idx = .ok (idx.map (placeOf g)) := by
  induction idx with
  | nil => rfl
  | cons j js ih =>
    simp only [takeRows, placeOf_get (h j (by simp)), ih (fun i hi => h i (by simp [hi])), List.map_cons]

/-- C113, along the vector: if the search of nearest atoms finds the neighbours the rate function proposes
and no other neighbour is within 0.01 Å of the first, the curve has for every point of the scan exactly one
value, the rate of moving to the first neighbour with the beam at that multiple of the vector from the
silicon to it; the dashed lines reach 1.1 times the greatest of them.  Without points the call raises
`ValueError`. -/
theorem C113_vector (knn : Knn K) (rate : RateFunction K) (g : Grid K) (si : V2 K)
    (hsi : getSiliconPositions g = [si]) (j : ℕ) (rest : List ℕ) (p : V2 K) (hp : g.positions[j]? = some p)
    (r : V2 K → ℕ → K) (hr : Proposes rate (seenFrom g si) (j :: rest) r)
    (hk : nearestNeighbors3 knn (seenFrom g si).positions 0 = .ok (j :: rest))
    (hfar : ∀ i ∈ rest, ∀ q, g.positions[i]? = some q → (1 / 100) ^ 2 ≤ V2.distSq q p) (extent : K × K) (n : ℕ) :
    (n = 0 → plotRateAlongVector3 knn rate g extent n = .error .valueError) ∧
    (n ≠ 0 → ∃ top,
      plotRateAlongVector3 knn rate g extent n = .ok ((linspace extent.1 extent.2 n).map (fun x =>
        (x, r ⟨(p.x - si.x) * x, (p.y - si.y) * x⟩ j)), top * (11 / 10)) ∧
      (∃ x ∈ linspace extent.1 extent.2 n, top = r ⟨(p.x - si.x) * x, (p.y - si.y) * x⟩ j) ∧
      ∀ x ∈ linspace extent.1 extent.2 n, r ⟨(p.x - si.x) * x, (p.y - si.y) * x⟩ j ≤ top) := by
  set c := seenFrom g si with hc
  set xs := linspace extent.1 extent.2 n with hxs
  have hxl : xs.length = n := linspace_length _ _ _
  have hpl : placeOf c j = p - si := seen_get hp
  set cv := fun x => (x, r ⟨(p.x - si.x) * x, (p.y - si.y) * x⟩ j) with hcv
  have hpt : ∀ x, vectorPoint rate c (p - si) x = .ok [cv x] := by
    intro x
    obtain ⟨ss, hss, -, hall⟩ := each_proposal (β := List (K × K)) hr ⟨(p - si).x * x, (p - si).y * x⟩
    unfold vectorPoint
    rw [hss]
    have h1 := hall (fun rt s => pure (if V2.distSq s (p - si) < (1 / 100) ^ 2 then [(x, rt)] else []))
      (fun i => if V2.distSq (placeOf c i) (p - si) < (1 / 100) ^ 2 then
        [(x, r ⟨(p - si).x * x, (p - si).y * x⟩ i)] else []) (fun i _ => rfl)
    change ((List.mapM _ ss : Except Err (List (List (K × K)))) >>= _) = _
    rw [h1]
    show Except.ok _ = _
    congr 1
    rw [List.map_cons, List.flatten_cons, hpl, if_pos (by simp [V2.distSq, V2.normSq])]
    rw [List.flatten_eq_nil_iff.2]
    · rfl
    · intro l hl
      obtain ⟨i, hi, rfl⟩ := List.mem_map.1 hl
      have hil : i < c.positions.length := hr.lt i (by simp [hi])
      have hil' : i < g.positions.length := by simpa [hc, seenFrom] using hil
      have h2 := hfar i hi g.positions[i] (by simp)
      rw [if_neg]
      rw [seen_get (g := g) (s := si) (p := g.positions[i]) (by simp), not_lt]
      refine h2.trans (le_of_eq ?_)
      simp [V2.distSq, V2.normSq]
  have heq : plotRateAlongVector3 knn rate g extent n =
      (maxOf ((xs.map cv).map (·.2)) >>= fun top => pure (xs.map cv, top * (11 / 10))) := by
    unfold plotRateAlongVector3
    rw [center_ok hsi]
    show (nearestNeighbors3 knn c.positions 0 >>= _) = _
    rw [hk]
    show (takeRows c.positions (j :: rest) >>= _) = _
    rw [takeRows_places hr.lt, List.map_cons, hpl]
    show (xs.mapM (vectorPoint rate c (p - si)) >>= _) = _
    rw [mapM_eq_map (h := fun x => [cv x]) (fun x _ => hpt x)]
    show (maxOf ((xs.map (fun x => [cv x])).flatten.map (·.2)) >>= fun top =>
      pure ((xs.map (fun x => [cv x])).flatten, top * (11 / 10))) = _
    rw [← List.flatMap_def, ← List.map_eq_flatMap]
  rw [heq]
  constructor
  · rintro rfl
    rw [List.eq_nil_of_length_eq_zero hxl]
    rfl
  · intro hn
    have hne : (xs.map cv).map (·.2) ≠ [] := by
      intro h
      have := congrArg List.length h
      simp [hxl] at this
      exact hn this
    obtain ⟨m, h1, h2, h3⟩ := maxOf_ok hne
    refine ⟨m, by rw [h1]; rfl, ?_, ?_⟩
    · simp only [List.map_map, List.mem_map] at h2
      obtain ⟨x, hx, he⟩ := h2
      exact ⟨x, hx, he.symm⟩
    · intro x hx
      exact h3 _ (by simp only [List.map_map, List.mem_map]; exact ⟨x, hx, rfl⟩)

/-! ### Where the sheet lies -/

theorem shift_silicon (g : Grid K) (s : V2 K) :
    getSiliconPositions (g.shift s) = (getSiliconPositions g).map (fun p => p + s) := by
  obtain ⟨ps, ns⟩ := g
  simp only [getSiliconPositions, Grid.shift]
  generalize ns.map (fun n => decide (n = SILICON)) = bs
  induction bs generalizing ps with
  | nil => simp [maskSelect]
  | cons b bs ih =>
    cases ps with
    | nil => simp [maskSelect]
    | cons p ps =>
      simp only [List.map_cons, maskSelect, ih]
      cases b <;> simp

/-- C113: a plot shows the sheet from its silicon, so moving the sheet changes nothing. -/
theorem C113_place (order : List (V2 K) → List (V2 K)) (knn : Knn K) (rate : RateFunction K) (g : Grid K)
    (hg : SingleDoped g) (s : V2 K) (extent : K × K) (n : ℕ) :
    plotRateFunction3 order rate (g.shift s) extent n = plotRateFunction3 order rate g extent n ∧
    plotRateAlongVector3 knn rate (g.shift s) extent n = plotRateAlongVector3 knn rate g extent n := by
  obtain ⟨i, si, -, -, hsi⟩ := hg.exists_index
  have h1 : centerOnSilicon (g.shift s) = centerOnSilicon g := by
    rw [center_ok hsi, center_ok (si := si + s) (by rw [shift_silicon, hsi]; rfl)]
    congr 1
    simp only [seenFrom, Grid.shift, List.map_map, Grid.mk.injEq, and_true]
    apply List.map_congr_left
    intro p _
    ext <;> simp
  unfold plotRateFunction3 plotRateAlongVector3
  rw [h1]
  exact ⟨rfl, rfl⟩

end general

/-! ### Along an arc -/

theorem arcLabel_at {nbrs : List (V2 ℝ)} (hnd : nbrs.Nodup) {k : ℕ} {p : V2 ℝ} (h : nbrs[k]? = some p) :
    arcLabel nbrs p = .ok (k + 1) := by
  have hmem : (p, k + 1) ∈ (nbrs.zipIdx.map (fun pi => (pi.1, pi.2 + 1))).reverse := by
    rw [List.mem_reverse, List.mem_map]
    exact ⟨(p, k), List.mem_zipIdx_iff_getElem?.2 h, rfl⟩
  unfold arcLabel
  cases hf : (nbrs.zipIdx.map (fun pi => (pi.1, pi.2 + 1))).reverse.find? (fun pi => decide (pi.1 = p)) with
  | none =>
    have := List.find?_eq_none.1 hf _ hmem
    simp at this
  | some pi =>
    have h1 := List.find?_some hf
    have h2 := List.mem_of_find?_eq_some hf
    rw [List.mem_reverse, List.mem_map] at h2
    obtain ⟨⟨q, m⟩, hq, rfl⟩ := h2
    have hq' := List.mem_zipIdx_iff_getElem?.1 hq
    simp only [decide_eq_true_eq] at h1 hq'
    subst h1
    have e1 := (List.getElem?_eq_some_iff.1 h).2
    have e2 := (List.getElem?_eq_some_iff.1 hq').2
    have : m = k := (List.Nodup.getElem_inj_iff hnd).1 (e2.trans e1.symm)
    simp [this]

/-- C113, along the arc: for every angle the curves have the total rate, which is the sum of the rates
of the three neighbours, and the rate of each neighbour with its number, with the beam at the distance from
the silicon that was asked for, in units of the mean distance of the neighbours. -/
theorem C113_arc (knn : Knn ℝ) (rate : RateFunction ℝ) (g : Grid ℝ) (hnd : g.positions.Nodup) (si : V2 ℝ)
    (hsi : getSiliconPositions g = [si]) (nbrs : List ℕ) (r : V2 ℝ → ℕ → ℝ)
    (hr : Proposes rate (seenFrom g si) nbrs r)
    (hk : nearestNeighbors3 knn (seenFrom g si).positions 0 = .ok nbrs) (radius : ℝ) (n : ℕ) :
    ∃ beam : ℝ → V2 ℝ,
      plotRateAlongArc3 knn rate g radius n = .ok ((linspace 0 (2 * Real.pi) n).flatMap (fun a =>
        ⟨a, (nbrs.map (r (beam a))).sum, none⟩ ::
          nbrs.zipIdx.map (fun jk => ⟨a, r (beam a) jk.1, some (jk.2 + 1)⟩))) ∧
      ∀ a, V2.normSq (beam a) =
        (radius * ((nbrs.map (fun j => Spec.dist ((g.positions[j]?).getD 0) si)).sum / 3)) ^ 2 := by
  set c := seenFrom g si with hc
  have hcn : c.positions.Nodup := seen_nodup hnd si
  have hnd' : (nbrs.map (placeOf c)).Nodup :=
    List.Nodup.map_on (fun i hi j hj h => placeOf_inj hcn (hr.lt i hi) (hr.lt j hj) h) hr.nodup
  set R := radius * meanDistance (nbrs.map (placeOf c)) with hR
  refine ⟨fun a => ⟨Real.sin a * R, Real.cos a * R⟩, ?_, ?_⟩
  · have hpt : ∀ a, arcPoint rate c (nbrs.map (placeOf c)) R a =
        .ok (⟨a, (nbrs.map (r ⟨Real.sin a * R, Real.cos a * R⟩)).sum, none⟩ ::
          nbrs.zipIdx.map (fun jk => ⟨a, r ⟨Real.sin a * R, Real.cos a * R⟩ jk.1, some (jk.2 + 1)⟩)) := by
      intro a
      obtain ⟨ss, hss, htot, hall⟩ := each_proposal (β := ArcRow) hr ⟨Real.sin a * R, Real.cos a * R⟩
      unfold arcPoint
      rw [hss]
      have h1 := hall (fun rt s => do
          let label ← arcLabel (nbrs.map (placeOf c)) s
          pure (⟨a, rt, some label⟩ : ArcRow))
        (fun i => ⟨a, r ⟨Real.sin a * R, Real.cos a * R⟩ i, some (nbrs.idxOf i + 1)⟩) (by
          intro i hi
          rw [arcLabel_at hnd' (k := nbrs.idxOf i) (by
            rw [List.getElem?_map, List.getElem?_idxOf hi]; rfl)]
          rfl)
      change ((List.mapM _ ss : Except Err (List ArcRow)) >>= _) = _
      rw [h1]
      show Except.ok _ = _
      rw [htot]
      congr 2
      apply List.ext_getElem?
      intro k
      rw [List.getElem?_map, List.getElem?_map, List.getElem?_zipIdx]
      cases hk : nbrs[k]? with
      | none => rfl
      | some j =>
        have hkl := (List.getElem?_eq_some_iff.1 hk).1
        have e := (List.getElem?_eq_some_iff.1 hk).2
        have : nbrs.idxOf j = k := by rw [← e, hr.nodup.idxOf_getElem]
        simp [this]
    unfold plotRateAlongArc3
    rw [center_ok hsi]
    show (nearestNeighbors3 knn c.positions 0 >>= _) = _
    rw [hk]
    show (takeRows c.positions nbrs >>= _) = _
    rw [takeRows_places hr.lt]
    show ((linspace 0 (2 * Real.pi) n).mapM (arcPoint rate c (nbrs.map (placeOf c)) R) >>= _) = _
    rw [mapM_eq_map (fun a _ => hpt a)]
    rfl
  · intro a
    have hm : meanDistance (nbrs.map (placeOf c)) =
        (nbrs.map (fun j => Spec.dist ((g.positions[j]?).getD 0) si)).sum / 3 := by
      unfold meanDistance
      rw [List.length_map, hr.three, List.map_map]
      congr 2
      apply List.map_congr_left
      intro j hj
      have hjl : j < g.positions.length := by
        have := hr.lt j hj
        simpa [hc, seenFrom] using this
      show Real.sqrt (V2.normSq (placeOf c j)) = _
      rw [seen_get (g := g) (s := si) (p := g.positions[j]) (by simp)]
      simp [Spec.dist, V2.normSq, hjl, pow_two]
    rw [← hm, ← hR]
    simp only [V2.normSq]
    have := Real.sin_sq_add_cos_sq a
    linear_combination R ^ 2 * this

/-! ### The rate functions of the package -/

section predictors
variable {K : Type} [Field K] [LinearOrder K] [IsStrictOrderedRing K]

theorem seen_doped {g : Grid K} (hg : SingleDoped g) (s : V2 K) : SingleDoped (seenFrom g s) :=
  ⟨by simpa [seenFrom] using hg.wf, hg.one⟩

theorem seen_silicon {g : Grid K} {si : V2 K} (h : getSiliconPositions g = [si]) :
    getSiliconPositions (seenFrom g si) = [0] := by
  have h1 := shift_silicon g (-si)
  have h2 : g.shift (-si) = seenFrom g si := by
    simp only [Grid.shift, seenFrom, Grid.mk.injEq, and_true]
    apply List.map_congr_left
    intro p _
    ext <;> simp [sub_eq_add_neg]
  rw [h2, h] at h1
  rw [h1, List.map_singleton]
  congr 1
  ext
  · show si.x + -si.x = 0; ring
  · show si.y + -si.y = 0; ring

/-- C113: the rate functions built around a canonical one propose the three atoms nearest to the silicon,
which are also those the plots look up, at the canonical rates. -/
theorem C113_predictor (knn : Knn K) (canon : CanonicalRateFn K) (g : Grid K) (hg : SingleDoped g)
    (h4 : 4 ≤ g.positions.length) (hnd : g.positions.Nodup)
    (hcanon : ∀ beam si nbrs, nbrs.length = 3 → (∀ j ∈ nbrs, j < g.positions.length) →
      ∃ rates, canon (seenFrom g si) beam 0 nbrs = .ok rates ∧ rates.length = 3 ∧ ∀ r ∈ rates, 0 ≤ r) :
    ∃ (i : ℕ) (si : V2 K) (nbrs : List ℕ) (r : V2 K → ℕ → K), g.numbers[i]? = some SILICON ∧
      g.positions[i]? = some si ∧ getSiliconPositions g = [si] ∧
      (∀ j ∈ nbrs, AmongThreeNearest (seenFrom g si).positions i j) ∧
      nearestNeighbors3 knn (seenFrom g si).positions 0 = .ok nbrs ∧
      Proposes (pristineRates knn canon) (seenFrom g si) nbrs r ∧
      ∀ beam, canon (seenFrom g si) beam 0 nbrs = .ok (nbrs.map (r beam)) := by
  obtain ⟨i, si, hi, hn, hsi⟩ := hg.exists_index
  have hil : i < g.positions.length := (List.getElem?_eq_some_iff.1 hi).1
  set c := seenFrom g si with hc
  have hcl : c.positions.length = g.positions.length := by simp [hc, seenFrom]
  have hc0 : c.positions[i]? = some 0 := by
    have : si - si = 0 := by
      ext
      · show si.x - si.x = 0; ring
      · show si.y - si.y = 0; ring
    simp [hc, seenFrom, hi, this]
  have hcd : SingleDoped c := seen_doped hg si
  have hcn : c.positions.Nodup := seen_nodup hnd si
  have hcs : getSiliconPositions c = [0] := seen_silicon hsi
  have hknn := knn.spec c.positions 0 4 (by omega)
  have hnb := nearestNeighbors3_eq knn (ps := c.positions) 0 (by omega)
  set nbrs := (knn.query c.positions 0 4).drop 1 with hnbrs
  have hn3 : nbrs.length = 3 := by rw [hnbrs, List.length_drop, hknn.length]
  have hnn : nbrs.Nodup := hknn.nodup.sublist (List.drop_sublist _ _)
  have hlt : ∀ j ∈ nbrs, j < c.positions.length := fun j hj => hknn.lt j (List.mem_of_mem_drop hj)
  have hcan := fun beam => hcanon beam si nbrs hn3 (fun j hj => by rw [← hcl]; exact hlt j hj)
  choose rates h1 h2 h3 using hcan
  have hmap : ∀ beam, nbrs.map (fun j => (rates beam).getD (nbrs.idxOf j) 0) = rates beam := by
    intro beam
    apply List.ext_getElem?
    intro k
    rw [List.getElem?_map]
    by_cases hk : k < 3
    · have hkn : k < nbrs.length := by omega
      have hkr : k < (rates beam).length := by rw [h2]; exact hk
      rw [List.getElem?_eq_getElem hkn, List.getElem?_eq_getElem hkr, Option.map_some, hnn.idxOf_getElem]
      simp [List.getD_eq_getElem?_getD, hkr]
    · rw [List.getElem?_eq_none (by omega), List.getElem?_eq_none (by rw [h2]; omega)]
      rfl
  refine ⟨i, si, nbrs, fun beam j => (rates beam).getD (nbrs.idxOf j) 0, ?_, hi, hsi, ?_, hnb, ?_, ?_⟩
  · rw [hn, doped_get _ _ _ hil]; simp
  · intro j hj; exact hknn.amongThreeNearest hcn hc0 hj
  · refine ⟨hn3, hnn, hlt, fun beam => ?_⟩
    have hall : (rates beam).all (fun r => decide (0 ≤ r)) = true := by
      simp only [List.all_eq_true, decide_eq_true_eq]
      exact h3 beam
    refine ⟨(nbrs.zip (rates beam)).map (fun ir => ⟨successorGrid c ir.1, ir.2⟩), ?_, ?_⟩
    · show pristineRates knn canon c beam = _
      have e := h1 beam
      unfold pristineRates
      rw [getSingleSiliconPosition_of_singleton hcs]
      dsimp only
      rw [hnb]
      dsimp only
      rw [e]
      dsimp only
      rw [if_pos hall, if_pos (by rw [h2, hn3])]
    · rw [← hmap beam, ← List.map_prod_left_eq_zip, List.map_map, List.forall₂_map_right_iff,
        List.forall₂_same]
      intro j hj
      refine ⟨rfl, singleDoped_successor hcd.wf (hlt j hj), ?_, ?_⟩
      · show (successorGrid c j).numbers[j]? = _
        rw [successorGrid_numbers c hcd.wf, doped_get _ _ _ (hlt j hj)]; simp
      · show (rates beam).getD (nbrs.idxOf j) 0 = (nbrs.map (fun j => (rates beam).getD (nbrs.idxOf j) 0)).getD _ 0
        rw [hmap beam]
  · intro beam
    rw [hmap, h1]

/-! ### Sheets without a single silicon -/

/-- C113 for what holds: a sheet without silicon is refused with `ValueError` before anything is computed.
Missing: a sheet with several silicon atoms, which is drawn (`C113_two_silicons`). -/
theorem C113_refuses_partial (order : List (V2 K) → List (V2 K)) (knn : Knn K) (rate : RateFunction K)
    (g : Grid K) (h : getSiliconPositions g = []) (extent : K × K) (n : ℕ) :
    plotRateFunction3 order rate g extent n = .error .valueError ∧
    plotRateAlongVector3 knn rate g extent n = .error .valueError := by
  have h1 : centerOnSilicon g = .error .valueError := by
    simp [centerOnSilicon, getSingleSiliconPosition, h]
  unfold plotRateFunction3 plotRateAlongVector3
  rw [h1]
  exact ⟨rfl, rfl⟩

end predictors

/-- C113 for the arc. -/
theorem C113_arc_refuses_partial (knn : Knn ℝ) (rate : RateFunction ℝ) (g : Grid ℝ)
    (h : getSiliconPositions g = []) (radius : ℝ) (n : ℕ) :
    plotRateAlongArc3 knn rate g radius n = .error .valueError := by
  have h1 : centerOnSilicon g = .error .valueError := by
    simp [centerOnSilicon, getSingleSiliconPosition, h]
  unfold plotRateAlongArc3
  rw [h1]
  rfl

theorem forall₂_of_get {α β : Type} {R : α → β → Prop} {xs : List α} {ys : List β} (hl : xs.length = ys.length)
    (h : ∀ (k : ℕ) (x : α), xs[k]? = some x → ∃ y, ys[k]? = some y ∧ R x y) : List.Forall₂ R xs ys := by
  rw [List.forall₂_iff_get]
  refine ⟨hl, fun k h1 h2 => ?_⟩
  obtain ⟨y, hy, hr⟩ := h k xs[k] (by simp)
  have := (List.getElem?_eq_some_iff.1 hy).2
  rw [← this] at hr
  exact hr

/-- C113: the Gaussian mixture too proposes the three atoms nearest to the silicon, which the plots look
up, for every beam position. -/
theorem C113_mixture (knn : Knn ℝ) (m : Gmm) (hm : ValidMixture m) (g : Grid ℝ) (hg : SingleDoped g)
    (h4 : 4 ≤ g.positions.length) (hnd : g.positions.Nodup) :
    ∃ (si : V2 ℝ) (nbrs : List ℕ) (r : V2 ℝ → ℕ → ℝ), getSiliconPositions g = [si] ∧
      nearestNeighbors3 knn (seenFrom g si).positions 0 = .ok nbrs ∧
      Proposes (m.call knn) (seenFrom g si) nbrs r := by
  obtain ⟨i, si, hi, hn, hsi⟩ := hg.exists_index
  set c := seenFrom g si with hc
  have hcl : c.positions.length = g.positions.length := by simp [hc, seenFrom]
  have hcd : SingleDoped c := seen_doped hg si
  have hcs : getSiliconPositions c = [0] := seen_silicon hsi
  have hc4 : 4 ≤ c.positions.length := by omega
  have hknn := knn.spec c.positions 0 4 hc4
  have hnb := nearestNeighbors3_eq knn (ps := c.positions) 0 hc4
  have hcall : ∀ beam, ∃ ss : List (Successor ℝ), m.call knn c beam = .ok ss ∧ ss.length = 3 ∧
      ∀ n j : ℕ, ((knn.query c.positions 0 4).drop 1)[n]? = some j → ∃ x, ss[n]? = some x ∧
        x.grid = successorGrid c j := by
    intro beam
    obtain ⟨k, s', nbrs, ss, norm, a1, a2, -, -, a3, a4, a5, -, -, -, a6⟩ :=
      gmm_call knn m hm c beam hcd hc4 (seen_nodup hnd si)
    obtain ⟨k', s'', b1, b2, b3⟩ := hcd.exists_index
    rw [hcs] at b3
    have hkl := (List.getElem?_eq_some_iff.1 a2).1
    have hkk : k = k' := by
      rw [b2, doped_get _ _ _ hkl] at a1
      by_contra hne
      simp [hne] at a1
      revert a1; decide
    subst hkk
    obtain rfl : s' = 0 := by
      rw [b1] at a2
      have : s'' = 0 := by simpa using b3.symm
      rw [this] at a2
      simpa using a2.symm
    refine ⟨ss, a3, a4, fun n j hj => ?_⟩
    obtain ⟨x, p, hx, -, -, he, -⟩ := a6 n j (by rw [a5]; exact hj)
    exact ⟨x, hx, he⟩
  choose ss h1 h2 h3 using hcall
  set nbrs := (knn.query c.positions 0 4).drop 1 with hnbrs
  have hn3 : nbrs.length = 3 := by rw [hnbrs, List.length_drop, hknn.length]
  have hnn : nbrs.Nodup := hknn.nodup.sublist (List.drop_sublist _ _)
  have hlt : ∀ j ∈ nbrs, j < c.positions.length := fun j hj => hknn.lt j (List.mem_of_mem_drop hj)
  refine ⟨si, nbrs, fun beam j => (((ss beam)[nbrs.idxOf j]?).map (·.rate)).getD 0, hsi, hnb, hn3, hnn, hlt,
    fun beam => ⟨ss beam, h1 beam, forall₂_of_get (by rw [h2, hn3]) ?_⟩⟩
  intro k j hj
  obtain ⟨x, hx, he⟩ := h3 beam k j hj
  have hjl := hlt j (List.mem_of_getElem? hj)
  refine ⟨x, hx, by rw [he]; rfl, ?_, ?_, ?_⟩
  · rw [he]; exact singleDoped_successor hcd.wf hjl
  · rw [he, successorGrid_numbers c hcd.wf, doped_get _ _ _ hjl]; simp
  · have e := (List.getElem?_eq_some_iff.1 hj).2
    have : nbrs.idxOf j = k := by rw [← e, hnn.idxOf_getElem]
    simp [this, hx]

namespace RatePlotWitness

/-- A canonical rate function giving every neighbour the rate one. -/
def ones : CanonicalRateFn ℚ := fun _ _ _ nbrs => .ok (nbrs.map (fun _ => 1))

/-- Two silicon atoms and three carbon atoms. -/
def twoSi : Grid ℚ := ⟨[⟨1/2, 1/2⟩, ⟨1, 1⟩, ⟨1, 2⟩, ⟨2, 1⟩, ⟨5, 5⟩, ⟨-5, -5⟩], [14, 14, 6, 6, 6, 6]⟩

/-- One silicon atom with three neighbours and an atom further away. -/
def sheet : Grid ℚ := ⟨[⟨3, 3⟩, ⟨4, 3⟩, ⟨3, 5⟩, ⟨0, 3⟩, ⟨9, 9⟩], [14, 6, 6, 6, 6]⟩

end RatePlotWitness

open RatePlotWitness in
/-- C113 is violated: the documentation promises `ValueError` for a sheet that does not contain a single
silicon, but a sheet with two is drawn; and since the silicon nearest to (1/2, 1/2) is looked up again
after the sheet was moved, the picture shows the rates of one silicon about the place of the other, which
appears among its own neighbours. -/
theorem C113_two_silicons : ∃ plot, siliconCount twoSi = 2 ∧
    plotRateFunction3 List.dedup (pristineRates Witness.knn ones) twoSi (-1, 1) 2 = .ok plot ∧
    (⟨0, 0⟩, "Blues") ∈ plot.neighbours := by
  have h : (match plotRateFunction3 List.dedup (pristineRates Witness.knn ones) twoSi (-1, 1) 2 with
      | .ok p => decide ((⟨0, 0⟩, "Blues") ∈ p.neighbours)
      | .error _ => false) = true := by decide +kernel
  cases hp : plotRateFunction3 List.dedup (pristineRates Witness.knn ones) twoSi (-1, 1) 2 with
  | error e => rw [hp] at h; cases h
  | ok p =>
    rw [hp] at h
    exact ⟨p, by decide, rfl, by simpa using h⟩

/-! ### The hypotheses can be met -/

open RatePlotWitness in
/-- A sheet whose rates are drawn: one silicon, five distinct atoms, and a canonical rate function. -/
example : SingleDoped sheet ∧ sheet.positions.Nodup ∧ 4 ≤ sheet.positions.length ∧
    SetOrder (List.dedup : List (V2 ℚ) → _) ∧
    ∃ nbrs r, Proposes (pristineRates Witness.knn ones) (seenFrom sheet ⟨3, 3⟩) nbrs r ∧
      nearestNeighbors3 Witness.knn (seenFrom sheet ⟨3, 3⟩).positions 0 = .ok nbrs ∧ nbrs = [1, 2, 3] ∧
      ∃ plot, plotRateFunction3 List.dedup (pristineRates Witness.knn ones) sheet (-1, 1) 2 = .ok plot := by
  have hs : SingleDoped sheet := by
    refine ⟨rfl, 0, by decide, ?_⟩
    decide
  have hn : sheet.positions.Nodup := by decide +kernel
  have hso : SetOrder (List.dedup : List (V2 ℚ) → _) := fun l => ⟨List.nodup_dedup l, fun p => List.mem_dedup⟩
  obtain ⟨i, si, nbrs, r, -, -, h1, -, h2, h3, -⟩ := C113_predictor Witness.knn ones sheet hs (by decide) hn
    (fun beam si nbrs h3 _ => ⟨_, rfl, by simpa using h3, by simp⟩)
  have hsi : getSiliconPositions sheet = [⟨3, 3⟩] := by decide +kernel
  rw [hsi] at h1
  obtain rfl : (⟨3, 3⟩ : V2 ℚ) = si := by simpa using h1
  refine ⟨hs, hn, by decide, hso, nbrs, r, h3, h2, ?_, ?_⟩
  · have : nearestNeighbors3 Witness.knn (seenFrom sheet ⟨3, 3⟩).positions 0 = .ok [1, 2, 3] := by decide +kernel
    rw [this] at h2
    simpa using h2.symm
  · obtain ⟨plot, hp, -⟩ := (C113_raster _ hso _ sheet hn ⟨3, 3⟩ hsi nbrs r h3 (-1, 1) 2).2 (by decide)
    exact ⟨plot, hp⟩

end PD.Props
