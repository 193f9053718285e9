/- Property C144: the simulator with floating point numbers. -/
import Verif.Lemmas.FloatSim
import Verif.Props.FloatData
import Verif.Props.FloatDwell

set_option linter.unusedSectionVars false
set_option linter.unusedSimpArgs false

namespace PD.Props
open PD PD.Spec
variable {G O P Img : Type}

/-! ### What an observation shows of the exact sheet -/

/-- The atoms of the sheet, each with the place in the list `ps`. -/
def withPlaces (ps : List (V2 ℝ)) (sheet : Grid ℝ) : List (V2 ℝ × V2 ℝ × ℤ) := ps.zip (atoms sheet)

theorem withPlaces_facts {δ : ℝ} {ps : List (V2 ℝ)} {sheet : Grid ℝ} (hD : Displaced δ ps sheet.positions)
    (hw : sheet.WF) : (withPlaces ps sheet).map (·.1) = ps ∧ (withPlaces ps sheet).map (·.2) = atoms sheet ∧
      atoms (onPlaces ps sheet) = (withPlaces ps sheet).map (fun t => (t.1, t.2.2)) ∧
      ∀ t ∈ withPlaces ps sheet, Spec.dist t.1 t.2.1 ≤ δ := by
  have hl : ps.length = (atoms sheet).length := by
    have := hD.length_eq
    simp only [Grid.WF] at hw
    simp [atoms, this, hw]
  have e1 : (withPlaces ps sheet).map (·.1) = ps := List.map_fst_zip hl.le
  have e2 : (withPlaces ps sheet).map (·.2) = atoms sheet := List.map_snd_zip hl.ge
  refine ⟨e1, e2, ?_, ?_⟩
  · have e3 : (withPlaces ps sheet).map (fun t => t.2.2) = sheet.numbers := by
      have : (withPlaces ps sheet).map (fun t => t.2.2) = ((withPlaces ps sheet).map (·.2)).map (·.2) := by simp
      rw [this, e2]
      exact List.map_snd_zip (by simp only [Grid.WF] at hw; omega)
    have : atoms (onPlaces ps sheet) = ((withPlaces ps sheet).map (·.1)).zip ((withPlaces ps sheet).map (fun t => t.2.2)) := by
      rw [e1, e3]; rfl
    rw [this]
    generalize withPlaces ps sheet = T
    induction T with
    | nil => rfl
    | cons a T ih => simp [ih]
  · intro t ht
    have e4 : (withPlaces ps sheet).map (fun t => t.2.1) = sheet.positions := by
      have : (withPlaces ps sheet).map (fun t => t.2.1) = ((withPlaces ps sheet).map (·.2)).map (·.1) := by simp
      rw [this, e2]
      exact List.map_fst_zip (by simp only [Grid.WF] at hw; omega)
    unfold Displaced at hD
    rw [← e4] at hD
    conv at hD => arg 2; rw [← e1]
    rw [List.forall₂_map_left_iff, List.forall₂_map_right_iff, List.forall₂_same] at hD
    exact hD t ht

theorem onPlaces_silicon {δ : ℝ} {ps : List (V2 ℝ)} {sheet : Grid ℝ} (hD : Displaced δ ps sheet.positions)
    (hw : sheet.WF) {si : V2 ℝ} (hsi : silicons sheet = [si]) :
    ∃ x, silicons (onPlaces ps sheet) = [x] ∧ Spec.dist x si ≤ δ ∧ x ∈ ps := by
  obtain ⟨e1, e2, e3, e4⟩ := withPlaces_facts hD hw
  have h1 : silicons sheet = ((withPlaces ps sheet).filter (fun t => decide (t.2.2 = SILICON))).map (fun t => t.2.1) := by
    unfold silicons
    rw [← e2, List.filter_map, List.map_map]
    rfl
  have h2 : silicons (onPlaces ps sheet) =
      ((withPlaces ps sheet).filter (fun t => decide (t.2.2 = SILICON))).map (fun t => t.1) := by
    unfold silicons
    rw [e3, List.filter_map, List.map_map]
    rfl
  rw [hsi] at h1
  obtain ⟨t, ht, hts⟩ := List.map_eq_singleton_iff.1 h1.symm
  have hm : t ∈ withPlaces ps sheet := List.mem_of_mem_filter (by rw [ht]; exact List.mem_singleton_self t)
  refine ⟨t.1, by rw [h2, ht]; rfl, ?_, ?_⟩
  · rw [← hts]; exact e4 t hm
  · rw [← e1]; exact List.mem_map_of_mem hm

theorem unit_abs {p : V2 ℝ} (h : InUnit p) : |p.x| ≤ 1 ∧ |p.y| ≤ 1 := by
  obtain ⟨⟨h1, h2⟩, h3, h4⟩ := h
  dsimp only at h1 h2 h3 h4
  exact ⟨abs_le.2 ⟨by linarith, h2⟩, abs_le.2 ⟨by linarith, h4⟩⟩

theorem viewing_fits {s : Sim ℝ G O P} {sheet : Grid ℝ} {o : Observation ℝ Img} (h : Viewing s sheet o) :
    GridFits o.grid := by
  have hwf : o.grid.numbers.length = o.grid.positions.length := h.wf.symm
  refine ⟨hwf, fun k hk => ?_⟩
  have e1 : (atoms o.grid).map Prod.snd = o.grid.numbers := List.map_snd_zip (by omega)
  rw [← e1, h.atoms, List.map_map] at hk
  obtain ⟨⟨p, k⟩, hm, rfl⟩ := List.mem_map.1 hk
  have hm := (List.of_mem_zip (List.mem_of_mem_filter hm)).2
  obtain ⟨i, _, hi⟩ := h.ready.doped.one
  obtain ⟨j, hj⟩ := List.getElem?_of_mem hm
  have := hi j (List.getElem?_eq_some_iff.1 hj).1
  rw [hj] at this
  dsimp only [Function.comp]
  by_cases e : j = i
  · rw [if_pos e] at this; cases this; norm_num [SILICON]
  · rw [if_neg e] at this; cases this; norm_num [CARBON]

theorem viewing_box {s : Sim ℝ G O P} {sheet : Grid ℝ} {o : Observation ℝ Img} (h : Viewing s sheet o) {si : V2 ℝ}
    (hsi : silicons sheet = [si]) (hd : Spec.dist ⟨0, 0⟩ si ≤ 9960) : WithinMicrometre o.fov := by
  have hx := abs_le.1 ((abs_x_le_dist ⟨0, 0⟩ si).trans hd)
  have hy := abs_le.1 ((abs_y_le_dist ⟨0, 0⟩ si).trans hd)
  dsimp only at hx hy
  obtain ⟨⟨⟨a1, a2⟩, a3, a4⟩, _, _⟩ := h.safe si hsi
  have hv := h.ready.sound
  have w := hv.width
  have w' := hv.height
  simp only [WithinMicrometre, abs_le]
  refine ⟨⟨⟨?_, ?_⟩, ?_, ?_⟩, ⟨?_, ?_⟩, ?_, ?_⟩ <;> linarith [hx.1, hx.2, hy.1, hy.2, w.1, w.2, w'.1, w'.2]

theorem viewing_kept {s : Sim ℝ G O P} {sheet : Grid ℝ} {o : Observation ℝ Img} (h : Viewing s sheet o) :
    WithinView (keptObservation o).grid := by
  intro p' hp'
  obtain ⟨p, hp, rfl⟩ := List.mem_map.1 hp'
  have := unit_abs (h.unit p hp)
  exact ⟨f32_within_one this.1, f32_within_one this.2⟩

theorem viewing_shown {s : Sim ℝ G O P} {sheet : Grid ℝ} {o : Observation ℝ Img} (h : Viewing s sheet o)
    {ps : List (V2 ℝ)} (hD : Displaced (1 / 1000) ps sheet.positions) (hnd : ps.Nodup) (hf : WithinMicrometre o.fov)
    {c : V2 ℝ} {r : ℝ} (hin : ∀ p, Spec.dist c p ≤ r + 1 / 1000 → Inside o.fov.lowerLeft o.fov.upperRight p) :
    ShownNear (61 / 10000) r (onPlaces ps sheet) c (keptObservation o).fov (keptObservation o).grid := by
  have hv := h.ready.sound
  obtain ⟨e1, e2, e3, e4⟩ := withPlaces_facts hD h.ready.doped.wf
  set T := withPlaces ps sheet with hT
  set F := T.filter (fun t => decide (Inside o.fov.lowerLeft o.fov.upperRight t.2.1)) with hF
  have hag : atoms o.grid = F.map (fun t => (o.fov.floatToMicroscope t.2.1, t.2.2)) := by
    rw [h.atoms, ← e2, List.filter_map, List.map_map]
    rfl
  have hw := h.wf
  simp only [Grid.WF] at hw
  have hgp : o.grid.positions = F.map (fun t => o.fov.floatToMicroscope t.2.1) := by
    have : (atoms o.grid).map (·.1) = o.grid.positions := List.map_fst_zip (by omega)
    rw [← this, hag, List.map_map]
    rfl
  have hgn : o.grid.numbers = F.map (fun t => t.2.2) := by
    have : (atoms o.grid).map (·.2) = o.grid.numbers := List.map_snd_zip (by omega)
    rw [← this, hag, List.map_map]
    rfl
  have hpart : atoms (⟨F.map (·.1), F.map (fun t => t.2.2)⟩ : Grid ℝ) = F.map (fun t => (t.1, t.2.2)) := by
    unfold atoms
    dsimp only
    generalize F = X
    induction X with
    | nil => rfl
    | cons a X ih => simp [ih]
  have hFT : ∀ t ∈ F, t ∈ T ∧ Inside o.fov.lowerLeft o.fov.upperRight t.2.1 := by
    intro t ht
    obtain ⟨h1, h2⟩ := List.mem_filter.1 ht
    exact ⟨h1, of_decide_eq_true h2⟩
  refine ⟨⟨F.map (·.1), F.map (fun t => t.2.2)⟩, by simp, ?_, ?_, ?_, ?_, ?_⟩
  · rw [← e1] at hnd
    exact hnd.sublist (List.filter_sublist.map _)
  · intro a ha
    rw [hpart] at ha
    obtain ⟨t, ht, rfl⟩ := List.mem_map.1 ha
    rw [e3]
    exact List.mem_map.2 ⟨t, (hFT t ht).1, rfl⟩
  · intro a ha hor
    rw [e3] at ha
    obtain ⟨t, ht, rfl⟩ := List.mem_map.1 ha
    rw [hpart]
    refine List.mem_map.2 ⟨t, List.mem_filter.2 ⟨ht, ?_⟩, rfl⟩
    simp only [decide_eq_true_eq]
    rcases hor with hS | hd
    · obtain ⟨si, hsi, _, _⟩ := doped_silicon h.ready.doped
      have hm : t.2 ∈ atoms sheet := by rw [← e2]; exact List.mem_map_of_mem ht
      have : t.2.1 ∈ silicons sheet := mem_silicons.2 (by rw [← hS]; exact hm)
      rw [hsi] at this
      simp only [List.mem_cons, List.not_mem_nil, or_false] at this
      rw [this]
      exact (h.safe si hsi).1
    · have a1 := dist_tri c t.1 t.2.1
      have a2 := e4 t ht
      exact hin _ (by dsimp only at hd; linarith)
  · have hfit : GridFits o.grid → (keptObservation o).grid.numbers = o.grid.numbers := fun hg => (gridKept _ hg).2
    rw [hfit (viewing_fits h), hgn]
  · have hk : (keptObservation o).grid.positions = F.map (fun t => keptPoint (o.fov.floatToMicroscope t.2.1)) := by
      have : (keptObservation o).grid.positions = o.grid.positions.map keptPoint := rfl
      rw [this, hgp, List.map_map]
      rfl
    unfold Displaced
    simp only [placedOn]
    rw [hk, List.map_map, List.forall₂_map_left_iff, List.forall₂_map_right_iff, List.forall₂_same]
    intro t ht
    obtain ⟨ht1, ht2⟩ := hFT t ht
    have hu := h.unit (o.fov.floatToMicroscope t.2.1) (by rw [hgp]; exact List.mem_map_of_mem ht)
    have b1 := e4 t ht1
    have b2 := shown_back hv ht2
    have b3 := lerp_kept hf (fovKept _) (unit_abs hu) (pointKept (o.fov.floatToMicroscope t.2.1))
    have c1 := dist_tri t.1 t.2.1 (lerp o.fov.lowerLeft o.fov.upperRight (o.fov.floatToMicroscope t.2.1))
    have c2 := dist_tri t.1 (lerp o.fov.lowerLeft o.fov.upperRight (o.fov.floatToMicroscope t.2.1))
      (lerp (keptFov o.fov).lowerLeft (keptFov o.fov).upperRight (keptPoint (o.fov.floatToMicroscope t.2.1)))
    refine c2.trans ((add_le_add (c1.trans (add_le_add b1 b2)) b3).trans ?_)
    norm_num

theorem recorded_floatSim (L : FloatLib) {cutoff : ℝ} (hcut : 1 / 80 ≤ cutoff) {cfg : FloatSimCfg G O P Img}
    (hk : KeepsDoping cfg.rate) {n : ℕ} (hn : n ≤ 4096) {offset : V2 ℝ} (hx : |offset.x| ≤ 71 / 100)
    (hy : |offset.y| ≤ 71 / 100) (angle : ℝ) {s : Sim ℝ G O P}
    {l : List (BeamControl ℝ × Grid ℝ × Observation ℝ Img)}
    (hrec : FloatRecorded cfg s l) : ∀ {sheet : Grid ℝ} {o0 : Observation ℝ Img}, Viewing s sheet o0 →
    Displaced (1 / 1000) (layOutSheet n offset angle) sheet.positions →
    AllSteps (DiscStep (71 / 100 * n - 64 / 10) (549 / 100)) sheet l →
    (∀ e ∈ l, |e.1.position.x| ≤ 1 ∧ |e.1.position.y| ≤ 1) → ∀ (data0 : List DataPoint) (c0 : Counters),
    (∀ o ∈ o0 :: l.map (fun e => e.2.2), CanWrite o.grid) ∧
    ∃ data k, floatTransitionsToDatapoints L cutoff
        (transitionsLoop true (some (heldBy (keptObservation o0))) ((l.map (fun e => e.2.2)).map keptObservation))
          data0 c0 =
        .ok (data0 ++ data, { c0 with noSiliconNeighbor := c0.noSiliconNeighbor + k }) ∧
      FloatYields (61 / 10000 + 1 / 10 ^ 6) (onPlaces (layOutSheet n offset angle) sheet) o0.fov
        (l.map (fun e => (e.1, onPlaces (layOutSheet n offset angle) e.2.1, e.2.2)))
        ((l.map (fun e => e.2.2)).map keptObservation) data ∧
        data.length + k = l.length := by
  induction hrec with
  | done s =>
    intro sheet o0 h hD hds _ data0 c0
    refine ⟨?_, [], 0, by simp [transitionsLoop, floatTransitionsToDatapoints], .nil _ _, rfl⟩
    intro o ho
    simp only [List.map_nil, List.mem_cons, List.not_mem_nil, or_false] at ho
    subst ho
    exact canWrite_of_fits _ (viewing_fits h)
  | @step s s' c sheet' o rest b hs hg hr ih =>
    intro sheet o0 h hD hds hcs data0 c0
    have hnd := (C40_honeycomb n offset angle).1
    rcases floatStep_cases cfg hk [c] b h.ready with ⟨e, s2, _, _, he, _⟩ | ⟨o2, s2, sheet2, he, h1, hpos1, hctl, hview, _⟩
    · rw [hs] at he; cases he
    rw [hs] at he
    cases he
    have : sheet2 = sheet' := by have := h1.ready.grid; rw [hg] at this; cases this; rfl
    subst this
    have hD1 : Displaced (1 / 1000) (layOutSheet n offset angle) sheet2.positions := by rw [hpos1]; exact hD
    obtain ⟨si, hsi, _, _⟩ := doped_silicon h.ready.doped
    obtain ⟨si', hsi', _, hmem'⟩ := doped_silicon h1.ready.doped
    obtain ⟨hd1, hd2⟩ := hds.1 si si' hsi hsi'
    obtain ⟨x, hxs, hxd, hxm⟩ := onPlaces_silicon hD h.ready.doped.wf hsi
    obtain ⟨x', hxs', hxd', hxm'⟩ := onPlaces_silicon hD1 h1.ready.doped.wf hsi'
    have hx0 := dist_tri ⟨0, 0⟩ si x
    rw [dist_comm' si x] at hx0
    obtain ⟨nbrs, hH⟩ := C123_disc n offset angle hx hy x hxm (by linarith)
    have hn' : (n : ℝ) ≤ 4096 := by exact_mod_cast hn
    have hf : WithinMicrometre o0.fov := viewing_box h hsi (by linarith)
    have hfo : WithinMicrometre o.fov := viewing_box h1 hsi' (by linarith [dist_triangle0 si si'])
    have hmargin : ∀ p, Spec.dist x p ≤ 3 + 1 / 1000 → Inside o0.fov.lowerLeft o0.fov.upperRight p := by
      intro p hp
      have a := dist_tri p x si
      rw [dist_comm' p x] at a
      have a' : Spec.dist p si ≤ 374 / 100 := by linarith
      obtain ⟨b1, _, b3⟩ := h.safe si hsi
      exact safe_margin h.ready.sound b1 b3 p ((abs_x_le_dist p si).trans a') ((abs_y_le_dist p si).trans a')
    have hmargin' : ∀ p, Spec.dist x p ≤ 3 / 2 + 1 / 1000 → Inside o.fov.lowerLeft o.fov.upperRight p := by
      intro p hp
      rcases hview with ⟨e, _⟩ | ⟨⟨si2, sc, e1, e2, e3, e4⟩, _⟩
      · rw [e]; exact hmargin p (by linarith)
      · rw [hsi'] at e1
        cases e1
        rw [e4]
        refine (floatCentredFov_centre (h1.ready.within si' hmem') e2 e3).2.1 p ?_
        have a := dist_tri si' si p
        have a' := dist_tri si x p
        rw [dist_comm' si' si] at a
        rw [dist_comm' si x] at a'
        linarith
    have hc1 := hcs _ List.mem_cons_self
    have sh1 := viewing_shown h hD hnd hf hmargin
    have sh2 := viewing_shown h1 hD1 hnd hfo hmargin'
    have hlen : ∀ {g : Grid ℝ}, g.WF → Displaced (1 / 1000) (layOutSheet n offset angle) g.positions →
        (onPlaces (layOutSheet n offset angle) g).numbers.length =
          (onPlaces (layOutSheet n offset angle) g).positions.length := by
      intro g hw hd
      have := hd.length_eq
      simp only [Grid.WF] at hw
      simp only [onPlaces]
      omega
    obtain ⟨r, k4, k5, k6⟩ := C143_point L (cutoff := cutoff) (ε := 61 / 10000) (by norm_num)
      (le_trans (by norm_num) hcut) n offset angle
      (sheet := onPlaces (layOutSheet n offset angle) sheet) (sheet' := onPlaces (layOutSheet n offset angle) sheet2)
      rfl rfl (hlen h.ready.doped.wf hD) (hlen h1.ready.doped.wf hD1) hxs hxs' hH
      (t := ⟨(keptObservation o0).grid, (keptObservation o).grid, (keptObservation o0).fov, (keptObservation o).fov,
        (keptObservation o).controls, (keptObservation o0).image, (keptObservation o).image,
        (keptObservation o0).labelImage, (keptObservation o).labelImage⟩) (c := keptControl c)
      (by simp [keptObservation, hctl]) sh1 sh2
      (beam := lerp o0.fov.lowerLeft o0.fov.upperRight c.position)
      ((lerp_kept hf (fovKept _) hc1 (pointKept _)).trans (by norm_num)) (within_kept hf) (within_kept hfo)
      (viewing_kept h) (viewing_kept h1) ⟨f32_within_one hc1.1, f32_within_one hc1.2⟩
    have ih' := ih h1 hD1 hds.2 (fun e he => hcs e (List.mem_cons_of_mem _ he))
    refine ⟨?_, ?_⟩
    · intro o1 ho1
      rw [List.mem_cons] at ho1
      rcases ho1 with rfl | ho1
      · exact canWrite_of_fits _ (viewing_fits h)
      · exact (ih' [] {}).1 o1 (by simpa using ho1)
    · simp only [List.map_cons, transitionsLoop, heldBy, List.cons_append, List.nil_append, Bool.not_true,
        Bool.false_eq_true, if_false, floatTransitionsToDatapoints, k4]
      cases r with
      | inl y =>
        obtain ⟨rfl, h6⟩ := k6 y rfl
        obtain ⟨-, data, k, e1, e2, e3⟩ := ih' data0 (c0.bump .noSiliconNeighbor)
        refine ⟨data, k + 1, ?_, .left hxs hxs' hH h6 e2, by simp; omega⟩
        simp only [heldBy] at e1
        dsimp only
        rw [e1]
        simp [Counters.bump]
        omega
      | inr d =>
        obtain ⟨h7, h8⟩ := k5 d rfl
        obtain ⟨-, data, k, e1, e2, e3⟩ := ih' (data0 ++ [d]) c0
        refine ⟨d :: data, k, ?_, .kept (c' := keptControl c) hxs hxs' hH h7 (by simp [keptObservation, hctl])
          (controlRead c) h8 e2,
          by simp; omega⟩
        simp only [heldBy] at e1
        dsimp only
        rw [e1]
        simp

/-! ### C144 -/

theorem floatGenerate_moderate (T : FloatTrig) (S : Summation) (k : DotKind) {n : ℕ} (hn : n ≤ 4096)
    {cfg : FloatSimCfg G O P Img} (hl : cfg.rng.Lawful) (hgen : cfg.generate = floatGenerate T S k cfg.rng n) :
    ∀ g, ∀ p ∈ (cfg.generate g).1, Moderate p := by
  intro g p hp
  obtain ⟨offset, angle, hx, hy, he⟩ := floatGenerate_eq T S k hl n g
  rw [hgen, he] at hp
  exact floatLayOut_moderate T S k hn (hx.trans (by norm_num)) (hy.trans (by norm_num)) angle hp

/-- With floating point numbers throughout, on generated graphene of at most 4096 columns: whatever calls came before,
if a reset or a step returns an observation, then the sheet has one silicon, and the observation shows the sheet as
`FloatShows` says. -/
theorem C144_seen (T : FloatTrig) (S : Summation) (k : DotKind) (cfg : FloatSimCfg G O P Img) (n : ℕ) (hn : n ≤ 4096)
    (hgen : cfg.generate = floatGenerate T S k cfg.rng n) (hl : cfg.rng.Lawful) (hr : DopedRates cfg.rate) (g : G)
    (obs : List O) (ops : List (SimOp ℝ O)) (op : SimOp ℝ O) (o : Observation ℝ Img) (s : Sim ℝ G O P)
    (hop : Sim.floatExec cfg (Sim.floatRun cfg (Sim.fresh g obs) ops).2 op = (some (.ok o), s)) :
    ∃ sheet, s.ctx.mat.grid = some sheet ∧ SingleDoped sheet ∧ FloatShows sheet o := by
  have hm := floatGenerate_moderate T S k hn hl hgen
  have hinv := (FloatInv.fresh g obs : FloatInv (Sim.fresh g obs : Sim ℝ G O P)).run hl hm hr.keepsDoping ops
  obtain ⟨sheet, hv⟩ := (hinv.exec hl hm hr.keepsDoping op).2 o (by rw [hop])
  rw [hop] at hv
  exact ⟨sheet, hv.ready.grid, hv.ready.doped, hv.shows⟩

/-- A reset of a sheet of 12 to 4096 columns always returns an observation. -/
theorem C144_reset (T : FloatTrig) (S : Summation) (k : DotKind) (cfg : FloatSimCfg G O P Img) (n : ℕ) (hn : 12 ≤ n)
    (hn' : n ≤ 4096) (hgen : cfg.generate = floatGenerate T S k cfg.rng n) (hl : cfg.rng.Lawful) (b : Bool)
    (s : Sim ℝ G O P) : ∃ o s' sheet offset angle, Sim.floatReset cfg b s = .ok o s' ∧ s'.ctx.mat.grid = some sheet ∧
      SingleDoped sheet ∧ |offset.x| ≤ 71 / 100 ∧ |offset.y| ≤ 71 / 100 ∧
      sheet.positions = floatLayOut T S k n offset angle ∧ FloatShows sheet o ∧ o.controls = [] ∧
      o.elapsedTime = cfg.imageDuration ∧
      ∀ si, silicons sheet = [si] → ∀ p ∈ layOutSheet n offset angle,
        Spec.dist ⟨0, 0⟩ si ≤ Spec.dist ⟨0, 0⟩ p + 1 / 250 := by
  have hm := floatGenerate_moderate T S k hn' hl hgen
  obtain ⟨offset, angle, hx, hy, he⟩ := floatGenerate_eq T S k hl n s.ctx.g
  obtain ⟨i, p, q, h1, h2, h3, h4, _⟩ := C141_start T S k hn hn' offset hx hy angle
  have hD := C141_sheet T S k hn' offset (hx.trans (by norm_num)) (hy.trans (by norm_num)) angle
  have hdope : floatDopeSheet (cfg.generate s.ctx.g).1 = .ok ⟨floatLayOut T S k n offset angle,
      (List.replicate (floatLayOut T S k n offset angle).length CARBON).set i SILICON⟩ := by
    rw [hgen, he]
    simp only [floatDopeSheet, h1]
  rcases floatReset_cases cfg hl hm b s with ⟨e, s', _, _, _, _, _, _, _, hbad⟩ | ⟨o, s', sheet, k1, k2, k3, k4, k5, k6⟩
  · rw [hdope] at hbad; cases hbad
  rw [hdope] at k3
  have hs := Except.ok.inj k3
  refine ⟨o, s', sheet, offset, angle, k1, k2.ready.grid, k2.ready.doped, hx, hy, by rw [← hs], k2.shows, k5, k6, ?_⟩
  intro si hsi r hr
  have hq : si = q := by
    have hlt : i < (floatLayOut T S k n offset angle).length := (List.getElem?_eq_some_iff.1 h3).1
    have : q ∈ silicons sheet := by
      rw [← hs]
      refine mem_silicons.2 ?_
      refine List.mem_of_getElem? (i := i) ?_
      unfold atoms
      rw [List.getElem?_zip_eq_some]
      exact ⟨h3, by simp [hlt]⟩
    rw [hsi, List.mem_singleton] at this
    exact this.symm
  subst hq
  have hp := (List.forall₂_iff_get.1 hD).2 i (List.getElem?_eq_some_iff.1 h2).1 (List.getElem?_eq_some_iff.1 h3).1
  simp only [List.get_eq_getElem, (List.getElem?_eq_some_iff.1 h2).2, (List.getElem?_eq_some_iff.1 h3).2] at hp
  have := dist_tri ⟨0, 0⟩ p si
  linarith [h4 r hr]

/-- A step, after any history, raises only if applying one of the controls raises, or if there was no successful reset
before.  Either way the atoms stay where they are, with one silicon among them.  An observation returned shows the sheet,
repeats the controls, and says how long they and the imaging took, which is done twice if the field of view moves. -/
theorem C144_step (T : FloatTrig) (S : Summation) (k : DotKind) (cfg : FloatSimCfg G O P Img) (n : ℕ) (hn : n ≤ 4096)
    (hgen : cfg.generate = floatGenerate T S k cfg.rng n) (hl : cfg.rng.Lawful) (hr : DopedRates cfg.rate) (g : G)
    (obs : List O) (ops : List (SimOp ℝ O)) (s : Sim ℝ G O P) (hs : (Sim.floatRun cfg (Sim.fresh g obs) ops).2 = s)
    (cs : List (BeamControl ℝ)) (b : Bool) :
    (s.fov = none ∧ ∃ e, Sim.floatStep cfg cs b s = .error e s) ∨
    ∃ f sheet, s.fov = some f ∧ s.ctx.mat.grid = some sheet ∧
      ((∃ e c s' sheet', floatApplyControls cfg f cs 0 s.ctx = .error e c ∧ Sim.floatStep cfg cs b s = .error e s' ∧
          s'.ctx.mat.grid = some sheet' ∧ SingleDoped sheet' ∧ sheet'.positions = sheet.positions) ∨
        ∃ o el c s' sheet', floatApplyControls cfg f cs 0 s.ctx = .ok el c ∧ Sim.floatStep cfg cs b s = .ok o s' ∧
          c.mat.grid = some sheet' ∧ s'.ctx.mat.grid = some sheet' ∧ SingleDoped sheet' ∧
          sheet'.positions = sheet.positions ∧ FloatShows sheet' o ∧ o.controls = cs ∧
          ((o.fov = f ∧ o.elapsedTime = (cs.map (·.dwellTime)).sum + cfg.imageDuration) ∨
            ((∃ si sc, silicons sheet' = [si] ∧ 15 ≤ sc ∧ sc ≤ 30 ∧ o.fov = floatCentredFov si sc) ∧
              o.elapsedTime = (cs.map (·.dwellTime)).sum + cfg.imageDuration + cfg.imageDuration))) := by
  have hm := floatGenerate_moderate T S k hn hl hgen
  have hinv := (FloatInv.fresh g obs : FloatInv (Sim.fresh g obs : Sim ℝ G O P)).run hl hm hr.keepsDoping ops
  rw [hs] at hinv
  cases hf : s.fov with
  | none => exact .inl ⟨rfl, floatStep_unready cfg cs b hf⟩
  | some f =>
    right
    obtain ⟨sheet, hready⟩ := hinv f hf
    refine ⟨f, sheet, rfl, hready.grid, ?_⟩
    rcases floatStep_cases cfg hr.keepsDoping cs b hready with
      ⟨e, s', c, sheet', h1, h2, h3, h4⟩ | ⟨o, s', sheet', h1, h2, h3, h4, h5, el, c, h6, h7⟩
    · exact .inl ⟨e, c, s', sheet', h2, h1, h3.grid, h3.doped, h4⟩
    · exact .inr ⟨o, el, c, s', sheet', h6, h1, h7 ▸ h2.ready.grid, h2.ready.grid, h2.ready.doped, h3, h2.shows, h4, h5⟩

/-- From the generated sheet to the training data, with floating point numbers throughout.  On graphene of at most 4096
columns, after any history of calls and a reset, let each step of a record start with the silicon at most `0.71 n - 6.4` Å
from the origin, move it at most 5.49 Å, and aim the beam into the field of view.  Then the record can be written as a
trajectory message and the data points made from what is read back are those called for by the exact honeycomb that the
sheet stands for: for the same steps, with the right next states, and positions off by at most 0.006101 Å times the
factor in `FloatTells`. -/
theorem C144_files (T : FloatTrig) (S : Summation) (kind : DotKind) (L : FloatLib) (cutoff : ℝ) (hcut : 1 / 80 ≤ cutoff)
    (cfg : FloatSimCfg G O P Img) (n : ℕ) (hn : n ≤ 4096) (hgen : cfg.generate = floatGenerate T S kind cfg.rng n)
    (hl : cfg.rng.Lawful) (hr : DopedRates cfg.rate) (g : G) (obs : List O) (ops : List (SimOp ℝ O))
    (b : Bool) (o0 : Observation ℝ Img) (s : Sim ℝ G O P)
    (hreset : Sim.floatReset cfg b (Sim.floatRun cfg (Sim.fresh g obs) ops).2 = .ok o0 s)
    (sheet : Grid ℝ) (hsheet : s.ctx.mat.grid = some sheet)
    (l : List (BeamControl ℝ × Grid ℝ × Observation ℝ Img)) (hrec : FloatRecorded cfg s l)
    (hdisc : AllSteps (DiscStep (71 / 100 * n - 64 / 10) (549 / 100)) sheet l)
    (hbeam : ∀ e ∈ l, |e.1.position.x| ≤ 1 ∧ |e.1.position.y| ≤ 1) :
    ∃ offset angle, |offset.x| ≤ 71 / 100 ∧ |offset.y| ≤ 71 / 100 ∧
      sheet.positions = floatLayOut T S kind n offset angle ∧
      Displaced (1 / 1000) (layOutSheet n offset angle) sheet.positions ∧
      ∃ m, trajectoryToProto (o0 :: l.map (fun e => e.2.2)) = .ok m ∧
        ∃ data k, floatTransitionsToDatapoints L cutoff (trajectoriesToTransitions true [trajectoryFromProto m]) [] {} =
            .ok (data, { noSiliconNeighbor := k }) ∧
          FloatYields (61 / 10000 + 1 / 10 ^ 6) (onPlaces (layOutSheet n offset angle) sheet) o0.fov
            (l.map (fun e => (e.1, onPlaces (layOutSheet n offset angle) e.2.1, e.2.2)))
            (trajectoryFromProto m).tail data ∧ data.length + k = l.length := by
  have hm := floatGenerate_moderate T S kind hn hl hgen
  rcases floatReset_cases cfg hl hm b (Sim.floatRun cfg (Sim.fresh g obs) ops).2 with
    ⟨e, s', h1, _⟩ | ⟨o, s', sheet1, h1, hv, _, hpos, _⟩
  · rw [hreset] at h1; cases h1
  rw [hreset] at h1
  cases h1
  have : sheet1 = sheet := by have := hv.ready.grid; rw [hsheet] at this; cases this; rfl
  subst this
  obtain ⟨offset, angle, hx, hy, he⟩ := floatGenerate_eq T S kind hl n
    (Sim.floatRun cfg (Sim.fresh g obs : Sim ℝ G O P) ops).2.ctx.g
  rw [hgen, he] at hpos
  have hD : Displaced (1 / 1000) (layOutSheet n offset angle) sheet1.positions := by
    rw [hpos]
    exact C141_sheet T S kind hn offset (hx.trans (by norm_num)) (hy.trans (by norm_num)) angle
  refine ⟨offset, angle, hx, hy, hpos, hD, ?_⟩
  obtain ⟨hw, data, k, e1, e2, e3⟩ := recorded_floatSim L hcut hr.keepsDoping hn hx hy angle hrec hv hD hdisc hbeam [] {}
  obtain ⟨m, hm1, hm2⟩ := trajectoryTo _ hw
  refine ⟨m, hm1, data, k, ?_, ?_, e3⟩
  · rw [hm2]
    simpa [trajectoriesToTransitions, transitionsLoop, heldBy] using e1
  · rw [hm2]
    exact e2

/-! ### Examples -/

/-- A simulator with graphene of 50 columns and the human prior's rates. -/
noncomputable def floatPlay : FloatSimCfg Unit Unit Unit Unit :=
  { playCfg.sim with
    generate := floatGenerate roundedTrig inOrder .fusedFirst (Witness.rng 1) 50
    numpy := .two
    rates := .single }

/-- Half a second of the beam, when the next transition comes later, ends without a transition. -/
theorem floatBrief {rate : RateFunction ℝ} (hd : RatesDefined rate) {sheet : Grid ℝ} (hdop : SingleDoped sheet)
    (h4 : 4 ≤ sheet.positions.length) (hnd : sheet.positions.Nodup) (v : NumpyVersion) (p : Precision) (q : V2 ℝ)
    (fuel : ℕ) {handle : Event ℝ Img → O → O} {s : MatCtx ℝ Unit O} (hf : s.mat.hasBeenReset = true)
    (hg : s.mat.grid = some sheet) :
    Material.floatApplyControl v p (Witness.rng 1) handle rate (fuel + 1) (BeamControl.mk' q 500000) s = .ok () s := by
  obtain ⟨ss, h1, h2⟩ := hd sheet q hdop h4 hnd
  have hread : s.mat.read = .ok sheet := by simp [Material.read, hf, hg]
  have hdraw : ∃ t, floatDrawTime v p (Witness.rng 1) ss s.g = .ok (t, s.g) ∧ 500000 < t := by
    unfold floatDrawTime
    dsimp only
    split_ifs with h3 h5
    · exact absurd (List.isEmpty_iff.1 h5) h2
    · exact ⟨_, rfl, by norm_num⟩
    · obtain ⟨d, e1, e2⟩ := timedeltaOf_err (min 1 3600 : ℝ)
      have e3 : (min 1 3600 : ℝ) = 1 := by norm_num
      rw [e3] at e1 e2
      simp only [Witness.rng, e3, e1]
      refine ⟨d, rfl, ?_⟩
      rw [abs_le] at e2
      have : (500000 : ℝ) < d := by linarith [e2.1]
      exact_mod_cast this
  obtain ⟨t, e1, e2⟩ := hdraw
  have e3 : ¬ (0 + t ≤ 500000) := by omega
  have e4 : ¬ (0 + t < 500000) := by omega
  unfold Material.floatApplyControl
  rw [if_pos hf, floatApplyLoop]
  simp only [BeamControl.mk', hread, h1, e1, e3, if_false]
  rw [floatApplyLoop]
  dsimp only
  rw [if_neg e4]
  simp

/-- The hypotheses of `C144_seen`, `C144_step` and `C144_files` can be met: a reset and a step of half a second. -/
example : ∃ o0 s sheet c sheet' o m data k, Sim.floatReset floatPlay true (Sim.floatRun floatPlay
      (Sim.fresh () [] : Sim ℝ Unit Unit Unit) []).2 = .ok o0 s ∧
    s.ctx.mat.grid = some sheet ∧ FloatRecorded floatPlay s [(c, sheet', o)] ∧
    trajectoryToProto [o0, o] = .ok m ∧
    floatTransitionsToDatapoints roundedLib (1 / 10) (trajectoriesToTransitions true [trajectoryFromProto m]) [] {} =
      .ok (data, { noSiliconNeighbor := k }) ∧ data.length + k = 1 := by
  have hl : floatPlay.rng.Lawful := playCfg_ok.1
  have hsw : SwapRates floatPlay.rate := C39_pristine_swaps _ _
  obtain ⟨o0, s, sheet, offset, angle, h1, h2, h3, hx, hy, h4, h5, _, _, h8⟩ := C144_reset roundedTrig inOrder .fusedFirst
    floatPlay 50 (by norm_num) (by norm_num) rfl hl true (Sim.floatRun floatPlay (Sim.fresh () [] : Sim ℝ Unit Unit Unit) []).2
  have hD : Displaced (1 / 1000) (layOutSheet 50 offset angle) sheet.positions := by
    rw [h4]
    exact C141_sheet _ _ _ (by norm_num) offset (hx.trans (by norm_num)) (hy.trans (by norm_num)) angle
  obtain ⟨p, hpm, hpd⟩ := atom_near_origin 50 (by norm_num) offset angle hx hy
  obtain ⟨nbrs, hH⟩ := C123_disc 50 offset angle hx hy p hpm (by norm_num; linarith)
  have h10 : 4 ≤ sheet.positions.length := by
    obtain ⟨qs, hq1, hq2, hq3⟩ := hH.ten
    have := (hq1.subperm (fun q hq => (hq3 q hq).1)).length_le
    rw [hD.length_eq] at this
    omega
  have hnd : sheet.positions.Nodup := by
    rw [List.nodup_iff_injective_get]
    intro i j hij
    have e1 := (List.forall₂_iff_get.1 hD).2 i (by rw [hD.length_eq]; exact i.2) i.2
    have e2 := (List.forall₂_iff_get.1 hD).2 j (by rw [hD.length_eq]; exact j.2) j.2
    have hij' : sheet.positions.get ⟨i, i.2⟩ = sheet.positions.get ⟨j, j.2⟩ := hij
    rw [hij', ] at e1
    rw [dist_comm'] at e2
    have e3 := dist_tri ((layOutSheet 50 offset angle).get ⟨i, by rw [hD.length_eq]; exact i.2⟩)
      (sheet.positions.get ⟨j, j.2⟩) ((layOutSheet 50 offset angle).get ⟨j, by rw [hD.length_eq]; exact j.2⟩)
    have e4 := (List.nodup_iff_injective_get.1 (C40_honeycomb 50 offset angle).1)
    by_contra hne
    have e5 : (layOutSheet 50 offset angle).get ⟨i, by rw [hD.length_eq]; exact i.2⟩ ≠
        (layOutSheet 50 offset angle).get ⟨j, by rw [hD.length_eq]; exact j.2⟩ := by
      intro h
      have := e4 h
      simp only [Fin.mk.injEq] at this
      exact hne (Fin.ext this)
    rcases sheet_gap 50 offset angle (List.get_mem _ _) (List.get_mem _ _) e5 with g | g <;>
      linarith
  rcases floatReset_cases floatPlay hl (floatGenerate_moderate roundedTrig inOrder .fusedFirst (by norm_num) hl rfl) true
    (Sim.floatRun floatPlay (Sim.fresh () [] : Sim ℝ Unit Unit Unit) []).2 with
    ⟨e, s2, k1, _⟩ | ⟨o2, s2, sheet2, k1, hv, _⟩
  · rw [h1] at k1; cases k1
  rw [h1] at k1
  cases k1
  have : sheet2 = sheet := by have := hv.ready.grid; rw [h2] at this; cases this; rfl
  subst this
  have happ : floatApplyControls floatPlay o0.fov [BeamControl.mk' ⟨1 / 2, 1 / 2⟩ 500000] 0 s.ctx = .ok 500000 s.ctx := by
    have hno : ∀ (e : Event ℝ Unit) (l : List Unit), notify floatPlay.handle e l = l := by
      intro e l
      simp [notify, floatPlay, playCfg]
    have hb := floatBrief (C99_rates_defined Witness.knn).2.1 h3 h10 hnd floatPlay.numpy floatPlay.rates
      (o0.fov.floatToMaterial ⟨1 / 2, 1 / 2⟩) 3599999999 (handle := floatPlay.handle) (s := s.ctx) hv.ready.matFlag h2
    have hb' : Material.floatApplyControl floatPlay.numpy floatPlay.rates floatPlay.rng floatPlay.handle floatPlay.rate
        floatPlay.fuel (BeamControl.mk' (o0.fov.floatToMaterial (BeamControl.mk' ⟨1 / 2, 1 / 2⟩ 500000).position)
          (BeamControl.mk' (K := ℝ) ⟨1 / 2, 1 / 2⟩ 500000).dwellTime) s.ctx = .ok () s.ctx := hb
    rw [floatApplyControls]
    simp only [hno, hb']
    rfl
  rcases floatStep_cases floatPlay hsw.keepsDoping [BeamControl.mk' ⟨1 / 2, 1 / 2⟩ 500000] true hv.ready with
    ⟨e, s', c, _, _, hbad, _⟩ | ⟨o, s', sheet', hs, hv', _, _, _, el, c, happ', hmat⟩
  · rw [happ] at hbad; cases hbad
  rw [happ] at happ'
  cases happ'
  have hg' : s'.ctx.mat.grid = some sheet2 := by rw [hmat]; exact h2
  obtain ⟨si, hsi, _, _⟩ := doped_silicon h3
  have hsi0 : Spec.dist ⟨0, 0⟩ si ≤ 10 := by
    have := h8 si hsi p hpm
    linarith
  have hrec : FloatRecorded floatPlay s [(BeamControl.mk' ⟨1 / 2, 1 / 2⟩ 500000, sheet2, o)] :=
    .step true hs hg' (.done _)
  obtain ⟨_, _, _, _, _, _, m, hm, data, k, e1, _, e3⟩ := C144_files roundedTrig inOrder .fusedFirst roundedLib (1 / 10)
    (by norm_num) floatPlay 50 (by norm_num) rfl hl hsw.dopedRates () [] [] true o0 s h1 sheet2 h2 _ hrec
    ⟨fun a a' ha ha' => by
      rw [ha] at ha' hsi
      cases ha'
      cases hsi
      rw [dist_self']
      norm_num
      linarith, trivial⟩
    (by
      simp only [List.mem_cons, List.not_mem_nil, or_false, forall_eq, BeamControl.mk']
      norm_num)
  exact ⟨o0, s, sheet2, _, sheet2, o, m, data, k, h1, h2, hrec, hm, e1, by simpa using e3⟩

end PD.Props
