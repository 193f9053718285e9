/- Lemmas about the simulator model. -/
import Verif.Lemmas.ApplyLoop
import Verif.Spec.Simulator
import Verif.Props.Material
import Verif.Props.Frames

set_option linter.unusedSectionVars false
set_option linter.unusedSimpArgs false

namespace PD
open PD.Spec
variable {K G O P Img : Type} [Field K] [LinearOrder K] [IsStrictOrderedRing K]

theorem getSiliconPositions_eq_silicons {g : Grid K} (h : g.WF) :
    getSiliconPositions g = silicons g := by
  unfold getSiliconPositions silicons
  rw [maskSelect_zip_right _ _ _ h]
  rfl

theorem silicons_gridToMaterial (f : Fov K) (g : Grid K) :
    silicons (f.gridToMaterial g) = (silicons g).map f.toMaterial := by
  unfold silicons atoms Fov.gridToMaterial
  rw [List.zip_map_left, List.filter_map, List.map_map, List.map_map]
  rfl

theorem silicons_of_filter {g h : Grid K} {p : V2 K → Prop} [DecidablePred p]
    (he : atoms h = (atoms g).filter (fun a => decide (p a.1))) :
    silicons h = (silicons g).filter (fun a => decide (p a)) := by
  unfold silicons
  rw [he, List.filter_filter, List.filter_map, List.filter_filter]
  congr 1
  apply List.filter_congr
  intro a _
  simp [Bool.and_comm]

theorem toMicroscope_toMaterial {f : Fov K} (hw : f.width ≠ 0) (hh : f.height ≠ 0) (p : V2 K) :
    f.toMicroscope (f.toMaterial p) = p := by
  have hx : f.upperRight.x - f.lowerLeft.x ≠ 0 := hw
  have hy : f.upperRight.y - f.lowerLeft.y ≠ 0 := hh
  ext <;> simp [Fov.toMicroscope, Fov.toMaterial, Fov.scale, hx, hy]

theorem toMaterial_toMicroscope {f : Fov K} (hw : f.width ≠ 0) (hh : f.height ≠ 0) (p : V2 K) :
    f.toMaterial (f.toMicroscope p) = p := by
  have hx : f.upperRight.x - f.lowerLeft.x ≠ 0 := hw
  have hy : f.upperRight.y - f.lowerLeft.y ≠ 0 := hh
  ext <;> simp [Fov.toMicroscope, Fov.toMaterial, Fov.scale, hx, hy]

theorem read_ok {m : Material K} {g : Grid K} (h : m.read = .ok g) :
    m.hasBeenReset = true ∧ m.grid = some g := by
  unfold Material.read at h
  split_ifs at h with h1
  cases hg : m.grid with
  | none => simp [hg] at h
  | some g' => simp [hg] at h; exact ⟨h1, by rw [h]⟩

/-- The silicons in view of a singly doped sheet. -/
theorem observed_silicons {m : Material K} {sheet o : Grid K} {f : Fov K} {si : V2 K}
    (hg : SingleDoped sheet) (hm : m.read = .ok sheet) (hsi : getSiliconPositions sheet = [si])
    (hw : 0 < f.width) (hh : 0 < f.height)
    (ho : m.getAtomsInBounds f.lowerLeft f.upperRight = .ok o) :
    o.WF ∧ getSiliconPositions o =
      if Inside f.lowerLeft f.upperRight si then [f.toMicroscope si] else [] := by
  obtain ⟨hr, hgr⟩ := read_ok hm
  obtain ⟨o', ho', hwf, hat, _⟩ := Props.C03_atoms_in_view m sheet hr hgr hg.wf f hw hh
  rw [ho] at ho'
  cases ho'
  refine ⟨hwf, ?_⟩
  rw [getSiliconPositions_eq_silicons hwf]
  have h1 := silicons_of_filter hat
  rw [silicons_gridToMaterial] at h1
  have h2 : silicons sheet = [si] := by
    rw [← getSiliconPositions_eq_silicons hg.wf, hsi]
  rw [h2] at h1
  have h3 : silicons o = ((silicons o).map f.toMaterial).map f.toMicroscope := by
    rw [List.map_map]
    conv_lhs => rw [← List.map_id (silicons o)]
    apply List.map_congr_left
    intro a _
    exact (toMicroscope_toMaterial hw.ne' hh.ne' a).symm
  rw [h3, h1]
  split_ifs with h <;> simp [h]

theorem centredFov_square (si : V2 K) (sc : K) : IsSquare (centredFov si sc) sc := by
  constructor
  · simp [centredFov, Fov.width]
  · simp [centredFov, Fov.height]

theorem centredFov_inside (si : V2 K) {sc : K} (h : 0 ≤ sc) :
    Inside (centredFov si sc).lowerLeft (centredFov si sc).upperRight si := by
  refine ⟨⟨?_, ?_⟩, ?_, ?_⟩ <;> simp [centredFov] <;> linarith

theorem centredFov_toMicroscope (si : V2 K) {sc : K} (h : 0 < sc) :
    (centredFov si sc).toMicroscope si = ⟨1 / 2, 1 / 2⟩ := by
  have := h.ne'
  ext <;> simp [centredFov, Fov.toMicroscope, Fov.scale] <;> field_simp

theorem centredFov_toMicroscope' (c si : V2 K) {sc : K} (h : 0 < sc) :
    (centredFov c sc).toMicroscope si = ⟨(si.x - c.x) / sc + 1 / 2, (si.y - c.y) / sc + 1 / 2⟩ := by
  have := h.ne'
  ext <;> simp [centredFov, Fov.toMicroscope, Fov.scale] <;> field_simp <;> ring

theorem centredFov_inj {c c' : V2 K} {sc : K} (h : centredFov c sc = centredFov c' sc) :
    c = c' := by
  have h1 := congrArg (fun f => f.lowerLeft.x) h
  have h2 := congrArg (fun f => f.lowerLeft.y) h
  simp [centredFov] at h1 h2
  ext <;> assumption

variable [FloorRing K]

/-! ### The controls loop -/

theorem applyControls_trace (cfg : SimCfg K G O P Img) (fov : Fov K) (cs : List (BeamControl K))
    (el : Timedelta) (s : MatCtx K G O) (g : Grid K) (hg : s.mat.grid = some g) :
    ∃ n evs g', n ≤ cs.length ∧
      Applied cfg.rate ((cs.take n).map (fun c => (fov.toMaterial c.position, c.dwellTime))) g evs g' ∧
      (endState (applyControls cfg fov cs el s)).obs = s.obs.map (observeAll cfg.handle evs) ∧
      (endState (applyControls cfg fov cs el s)).mat.hasBeenReset = s.mat.hasBeenReset ∧
      (endState (applyControls cfg fov cs el s)).mat.grid = some g' ∧
      ∀ el' s', applyControls cfg fov cs el s = .ok el' s' →
        n = cs.length ∧ el' = el + (cs.map (·.dwellTime)).sum := by
  induction cs generalizing el s g with
  | nil =>
    refine ⟨0, [], g, le_rfl, .nil g, ?_, rfl, hg, ?_⟩
    · simp [applyControls, endState]
    · intro el' s' h
      simp only [applyControls, EStateM.Result.ok.injEq] at h
      simp [← h.1]
  | cons c cs ih =>
    obtain ⟨trs, ht⟩ := Props.applyControl_trace cfg.rng cfg.handle cfg.rate cfg.fuel
      (BeamControl.mk' (fov.toMaterial c.position) c.dwellTime)
      ⟨s.g, s.mat, notify cfg.handle
        (.applyControl (BeamControl.mk' (fov.toMaterial c.position) c.dwellTime)) s.obs⟩
    have hchain := ht.chain g hg
    have hgrid := ht.grid
    have hobs := ht.obs
    have hres := ht.reset
    have hle := ht.le
    rw [applyControls]
    simp only
    cases hc : Material.applyControl cfg.rng cfg.handle cfg.rate cfg.fuel
      (BeamControl.mk' (fov.toMaterial c.position) c.dwellTime)
      ⟨s.g, s.mat, notify cfg.handle
        (.applyControl (BeamControl.mk' (fov.toMaterial c.position) c.dwellTime)) s.obs⟩ with
    | error e s2 =>
      simp only [hc, endState] at hgrid hobs hres ⊢
      have heff : ControlEffect cfg.rate (fov.toMaterial c.position) c.dwellTime g trs
          ((trs.getLast?.map Prod.snd).getD g) := ⟨hchain, rfl, hle⟩
      refine ⟨1, _, _, by simp, .cons heff (.nil _), ?_, hres, ?_, ?_⟩
      · rw [hobs]
        simp [notify, observeAll, Function.comp_def]
        intro a _; rfl
      · rw [hgrid, hg]
        cases trs.getLast? <;> simp
      · intro el' s' h; cases h
    | ok u s2 =>
      simp only [hc, endState] at hgrid hobs hres ⊢
      have heff : ControlEffect cfg.rate (fov.toMaterial c.position) c.dwellTime g trs
          ((trs.getLast?.map Prod.snd).getD g) := ⟨hchain, rfl, hle⟩
      have hg2 : s2.mat.grid = some ((trs.getLast?.map Prod.snd).getD g) := by
        rw [hgrid, hg]
        cases trs.getLast? <;> simp
      obtain ⟨n, evs, g', hn, happ, h1, h2, h3, h4⟩ := ih (el + c.dwellTime) s2 _ hg2
      have happ' := Applied.cons heff happ
      refine ⟨n + 1, _, g', by simp [hn], happ', ?_, ?_, h3, ?_⟩
      · show (endState (applyControls cfg fov cs (el + c.dwellTime) s2)).obs = _
        rw [h1, hobs]
        simp [notify, observeAll, Function.comp_def]
        intro a _; rfl
      · show (endState (applyControls cfg fov cs (el + c.dwellTime) s2)).mat.hasBeenReset = _
        rw [h2, hres]
      · intro el' s' h
        obtain ⟨h5, h6⟩ := h4 el' s' h
        refine ⟨by simp [h5], ?_⟩
        rw [h6, List.map_cons, List.sum_cons]; ring

/-! ### Invariant -/

/-- What holds of a simulator after any history of calls. -/
structure SimInv (s : Sim K G O P) : Prop where
  doped : ∀ g, s.ctx.mat.grid = some g → SingleDoped g
  square : ∀ f, s.fov = some f → ∃ c sc, s.fovScale = some sc ∧ f = centredFov c sc ∧ 15 ≤ sc ∧ sc ≤ 30
  sheet : ∀ f, s.fov = some f → s.hasBeenReset = true ∧ s.ctx.mat.hasBeenReset = true ∧
    (∃ g, s.ctx.mat.grid = some g) ∧ ∃ p, s.imageParams = some p

/-- Rate functions all of whose successors are singly doped sheets at the same positions. -/
def KeepsDoping (rate : RateFunction K) : Prop :=
  ∀ g p ss, rate g p = .ok ss → SingleDoped g → ∀ x ∈ ss,
    SingleDoped x.grid ∧ x.grid.positions = g.positions

theorem Spec.SwapRates.keepsDoping {rate : RateFunction K} (h : SwapRates rate) :
    KeepsDoping rate := h.doped

theorem Spec.Applied.doped {rate : RateFunction K} (hr : KeepsDoping rate) {cs : List (V2 K × Timedelta)}
    {g g' : Grid K} {evs : List (Event K Img)} (h : Applied rate cs g evs g') (hg : SingleDoped g) :
    SingleDoped g' ∧ g'.positions = g.positions := by
  induction h with
  | nil g => exact ⟨hg, rfl⟩
  | @cons p dwell g trs g1 cs evs g2 he ht ih =>
    have h1 : SingleDoped g1 ∧ g1.positions = g.positions := by
      rw [he.final]
      have hall := Props.chain_last (P := fun a => SingleDoped a ∧ a.positions = g.positions)
        (R := fun a b => ∃ ss, rate a p = .ok ss ∧ ∃ x ∈ ss, x.grid = b) (by
          rintro a b ⟨h1, h2⟩ ⟨ss, hss, x, hx, rfl⟩
          obtain ⟨h3, h4⟩ := hr a p ss hss h1 x hx
          exact ⟨h3, h4.trans h2⟩) (trs.map Prod.snd) g ⟨hg, rfl⟩ he.chain
      cases hl : trs.getLast? with
      | none => exact ⟨hg, rfl⟩
      | some e =>
        have : e ∈ trs := List.mem_of_getLast? hl
        exact hall e.2 (List.mem_map_of_mem this)
    obtain ⟨h2, h3⟩ := ih h1.1
    exact ⟨h2, h3.trans h1.2⟩

/-! ### What a successful reset does -/

theorem materialReset_ok {generate : G → List (V2 K) × G} {c c' : MatCtx K G O}
    (h : Material.reset generate c = .ok () c') :
    c'.mat.hasBeenReset = true ∧ c'.obs = c.obs ∧
    ∃ sheet i si, c'.mat.grid = some sheet ∧ sheet.positions = (generate c.g).1 ∧ SingleDoped sheet ∧
      sheet.positions[i]? = some si ∧ sheet.numbers = doped sheet.positions.length i ∧
      getSiliconPositions sheet = [si] ∧ c'.mat.getSiliconPosition = .ok si := by
  unfold Material.reset at h
  simp only at h
  cases hd : dopeSheet (generate c.g).1 with
  | error e => rw [hd] at h; cases h
  | ok g =>
    rw [hd] at h
    simp only [EStateM.Result.ok.injEq, true_and] at h
    subst h
    obtain ⟨hp, hs⟩ := Props.dopeSheet_ok hd
    obtain ⟨i, si, hi, hn, hsi⟩ := hs.exists_index
    refine ⟨rfl, rfl, g, i, si, rfl, hp, hs, hi, hn, hsi, ?_⟩
    simp [Material.getSiliconPosition, Material.read, hsi]

theorem materialReset_end {generate : G → List (V2 K) × G} (c : MatCtx K G O) :
    (∀ g, c.mat.grid = some g → SingleDoped g) →
    (∀ g, (endState (Material.reset generate c)).mat.grid = some g → SingleDoped g) ∧
    (endState (Material.reset generate c)).mat.hasBeenReset = true ∧
    (endState (Material.reset generate c)).obs = c.obs := by
  intro hc
  unfold Material.reset
  simp only
  cases hd : dopeSheet (generate c.g).1 with
  | error e => exact ⟨hc, rfl, rfl⟩
  | ok g =>
    refine ⟨?_, rfl, rfl⟩
    intro g' hg'
    simp only [endState, Option.some.injEq] at hg'
    subst hg'
    exact (Props.dopeSheet_ok hd).2

/-- Everything about a reset that returned. -/
structure ResetFacts (cfg : SimCfg K G O P Img) (b : Bool) (s s' : Sim K G O P)
    (o : Observation K Img) (sheet : Grid K) (si : V2 K) (sc : K) : Prop where
  flag : s'.hasBeenReset = true
  matFlag : s'.ctx.mat.hasBeenReset = true
  grid : s'.ctx.mat.grid = some sheet
  positions : sheet.positions = (cfg.generate s.ctx.g).1
  doped : SingleDoped sheet
  silicon : getSiliconPositions sheet = [si]
  scale : s'.fovScale = some sc
  scaleDraw : ∃ g, sc = (cfg.rng.uniform 15 30 g).1
  fov : s'.fov = some (centredFov si sc)
  params : ∃ p, s'.imageParams = some p
  ofov : o.fov = centredFov si sc
  ogrid : s'.ctx.mat.getAtomsInBounds o.fov.lowerLeft o.fov.upperRight = .ok o.grid
  ocontrols : o.controls = []
  oelapsed : o.elapsedTime = cfg.imageDuration
  oimage : o.image.isSome = b
  obs : s'.ctx.obs = s.ctx.obs.map (observeAll cfg.handle
    ([.reset sheet o.fov, .fovChange o.fov, .takeImage cfg.imageDuration o.fov] ++
      (o.image.map Event.generatedImage).toList))

theorem reset_ok {cfg : SimCfg K G O P Img} {b : Bool} {s s' : Sim K G O P} {o : Observation K Img}
    (h : Sim.reset cfg b s = .ok o s') :
    ∃ sheet si sc, ResetFacts cfg b s s' o sheet si sc := by
  unfold Sim.reset at h
  simp only at h
  cases hm : Material.reset cfg.generate s.ctx with
  | error e c => rw [hm] at h; cases h
  | ok u c =>
    obtain ⟨h1, h2, sheet, i, si, h3, h4, h5, h6, h7, h8, h9⟩ := materialReset_ok hm
    rw [hm] at h
    simp only [h9, h3] at h
    have hread : c.mat.read = .ok sheet := by simp [Material.read, h1, h3]
    have hat : c.mat.getAtomsInBounds (centredFov si (cfg.rng.uniform 15 30 c.g).1).lowerLeft
        (centredFov si (cfg.rng.uniform 15 30 c.g).1).upperRight =
        .ok ((centredFov si (cfg.rng.uniform 15 30 c.g).1).gridToMicroscope
          ((centredFov si (cfg.rng.uniform 15 30 c.g).1).getAtomsInBounds sheet 0)) :=
      Props.C04_agrees_with_material c.mat sheet h1 h3 _
    simp only [Sim.observe, hat] at h
    cases b with
    | false =>
      simp only [Sim.maybeImage, Bool.false_eq_true, if_false, EStateM.Result.ok.injEq] at h
      obtain ⟨ho, hs⟩ := h
      subst ho hs
      refine ⟨sheet, si, (cfg.rng.uniform 15 30 c.g).1, ?_⟩
      refine ⟨rfl, h1, h3, h4, h5, h8, rfl, ⟨_, rfl⟩, rfl, ⟨_, rfl⟩, rfl, hat, rfl, rfl, rfl, ?_⟩
      simp [h2, notify, observeAll, Function.comp_def]
    | true =>
      simp only [Sim.maybeImage, if_true, EStateM.Result.ok.injEq] at h
      obtain ⟨ho, hs⟩ := h
      subst ho hs
      refine ⟨sheet, si, (cfg.rng.uniform 15 30 c.g).1, ?_⟩
      refine ⟨rfl, h1, h3, h4, h5, h8, rfl, ⟨_, rfl⟩, rfl, ⟨_, rfl⟩, rfl, hat, rfl, rfl, rfl, ?_⟩
      simp [h2, notify, observeAll, Function.comp_def]

/-- A reset either returns or fails inside the material's reset, leaving everything but the flags
and the generator as it was. -/
theorem reset_error {cfg : SimCfg K G O P Img} {b : Bool} {s s' : Sim K G O P} {e : Err}
    (h : Sim.reset cfg b s = .error e s') :
    (cfg.generate s.ctx.g).1 = [] ∧ e = .valueError ∧
    s' = { s with hasBeenReset := true, ctx :=
      ⟨(cfg.generate s.ctx.g).2, { s.ctx.mat with hasBeenReset := true }, s.ctx.obs⟩ } := by
  unfold Sim.reset at h
  simp only at h
  cases hm : Material.reset cfg.generate s.ctx with
  | error e' c =>
    rw [hm] at h
    simp only [EStateM.Result.error.injEq] at h
    obtain ⟨rfl, rfl⟩ := h
    unfold Material.reset at hm
    simp only at hm
    cases hd : dopeSheet (cfg.generate s.ctx.g).1 with
    | ok g => rw [hd] at hm; cases hm
    | error e'' =>
      rw [hd] at hm
      simp only [EStateM.Result.error.injEq] at hm
      obtain ⟨rfl, rfl⟩ := hm
      unfold dopeSheet at hd
      cases ha : argmin? ((cfg.generate s.ctx.g).1.map V2.normSq) with
      | some i => simp [ha] at hd
      | none =>
        simp [ha] at hd
        refine ⟨by simpa using argmin?_eq_none ha, hd.symm, rfl⟩
  | ok u c =>
    obtain ⟨h1, h2, sheet, i, si, h3, h4, h5, h6, h7, h8, h9⟩ := materialReset_ok hm
    rw [hm] at h
    simp only [h9, h3] at h
    have hat : c.mat.getAtomsInBounds (centredFov si (cfg.rng.uniform 15 30 c.g).1).lowerLeft
        (centredFov si (cfg.rng.uniform 15 30 c.g).1).upperRight =
        .ok ((centredFov si (cfg.rng.uniform 15 30 c.g).1).gridToMicroscope
          ((centredFov si (cfg.rng.uniform 15 30 c.g).1).getAtomsInBounds sheet 0)) :=
      Props.C04_agrees_with_material c.mat sheet h1 h3 _
    simp only [Sim.observe, hat] at h
    cases b <;> simp [Sim.maybeImage] at h

/-! ### What a step does -/

/-- `s'` differs from `s` by what imaging can change: observers were told imaging events. -/
structure ImgStep (handle : Event K Img → O → O) (s s' : Sim K G O P) (evs : List (Event K Img)) :
    Prop where
  imaging : ∀ e ∈ evs, Imaging e
  obs : s'.ctx.obs = s.ctx.obs.map (observeAll handle evs)
  mat : s'.ctx.mat = s.ctx.mat
  flag : s'.hasBeenReset = s.hasBeenReset
  scale : s'.fovScale = s.fovScale
  params : s'.imageParams = s.imageParams

theorem ImgStep.refl (handle : Event K Img → O → O) (s : Sim K G O P) : ImgStep handle s s [] :=
  ⟨by simp, by simp, rfl, rfl, rfl, rfl⟩

theorem ImgStep.trans {handle : Event K Img → O → O} {s1 s2 s3 : Sim K G O P}
    {a b : List (Event K Img)} (h : ImgStep handle s1 s2 a) (h' : ImgStep handle s2 s3 b) :
    ImgStep handle s1 s3 (a ++ b) := by
  refine ⟨?_, ?_, h'.mat.trans h.mat, h'.flag.trans h.flag, h'.scale.trans h.scale,
    h'.params.trans h.params⟩
  · intro e he
    rcases List.mem_append.1 he with he | he
    · exact h.imaging e he
    · exact h'.imaging e he
  · rw [h'.obs, h.obs, List.map_map]
    apply List.map_congr_left
    intro o _
    exact (observeAll_append handle a b o).symm

theorem observe_end (cfg : SimCfg K G O P Img) (fov : Fov K) (s : Sim K G O P) :
    (∃ e, Sim.observe cfg fov s = .error e s ∧
      s.ctx.mat.getAtomsInBounds fov.lowerLeft fov.upperRight = .error e) ∨
    ∃ grid s', Sim.observe cfg fov s = .ok grid s' ∧
      s.ctx.mat.getAtomsInBounds fov.lowerLeft fov.upperRight = .ok grid ∧
      ImgStep cfg.handle s s' [.takeImage cfg.imageDuration fov] ∧ s'.fov = s.fov := by
  unfold Sim.observe
  cases h : s.ctx.mat.getAtomsInBounds fov.lowerLeft fov.upperRight with
  | error e => exact .inl ⟨e, by simp, rfl⟩
  | ok grid =>
    refine .inr ⟨grid, _, rfl, rfl, ⟨by simp [Imaging], ?_, rfl, rfl, rfl, rfl⟩, rfl⟩
    simp [notify, observeAll]

theorem maybeImage_end (cfg : SimCfg K G O P Img) (b : Bool) (grid : Grid K) (fov : Fov K)
    (s : Sim K G O P) :
    Sim.maybeImage cfg b grid fov s = .error .attributeError s ∨
    ∃ img s', Sim.maybeImage cfg b grid fov s = .ok img s' ∧ img.isSome = b ∧
      ImgStep cfg.handle s s' (img.map Event.generatedImage).toList ∧ s'.fov = s.fov := by
  unfold Sim.maybeImage
  cases b with
  | false => exact .inr ⟨none, s, by simp, rfl, .refl _ _, rfl⟩
  | true =>
    simp only [if_true]
    cases h : s.imageParams with
    | none => exact .inl rfl
    | some p =>
      refine .inr ⟨_, _, rfl, rfl, ⟨by simp [Imaging], ?_, rfl, rfl, rfl, h.symm⟩, rfl⟩
      simp [notify, observeAll]

/-- The three outcomes of `recentre`. -/
inductive RecentreOutcome (cfg : SimCfg K G O P Img) (fov : Fov K) (grid : Grid K)
    (el : Timedelta) (s : Sim K G O P) : Prop
  | failed (e : Err) (s' : Sim K G O P) (evs : List (Event K Img))
      (h : Sim.recentre cfg fov grid el s = .error e s') (img : ImgStep cfg.handle s s' evs)
      (fovs : s'.fov = s.fov ∨ ∃ si sc, s.fovScale = some sc ∧ s'.fov = some (centredFov si sc))
  | kept (h : Sim.recentre cfg fov grid el s = .ok (grid, fov, el) s)
      (safe : siliconOutsideOfSafeArea grid = .ok false)
  | moved (grid' : Grid K) (si : V2 K) (sc : K) (s' : Sim K G O P)
      (h : Sim.recentre cfg fov grid el s = .ok (grid', centredFov si sc, el + cfg.imageDuration) s')
      (unsafe' : siliconOutsideOfSafeArea grid = .ok true)
      (silicon : s.ctx.mat.getSiliconPosition = .ok si) (scale : s.fovScale = some sc)
      (fov : s'.fov = some (centredFov si sc))
      (img : ImgStep cfg.handle s s'
        [.fovChange (centredFov si sc), .takeImage cfg.imageDuration (centredFov si sc)])
      (atoms : s.ctx.mat.getAtomsInBounds (centredFov si sc).lowerLeft (centredFov si sc).upperRight
        = .ok grid')

theorem recentre_end (cfg : SimCfg K G O P Img) (fov : Fov K) (grid : Grid K) (el : Timedelta)
    (s : Sim K G O P) : RecentreOutcome cfg fov grid el s := by
  cases h1 : siliconOutsideOfSafeArea grid with
  | error e => exact .failed e s [] (by simp [Sim.recentre, h1]) (.refl _ _) (.inl rfl)
  | ok b =>
    cases b with
    | false => exact .kept (by simp [Sim.recentre, h1]) h1
    | true =>
      cases h2 : s.ctx.mat.getSiliconPosition with
      | error e => exact .failed e s [] (by simp [Sim.recentre, h1, h2]) (.refl _ _) (.inl rfl)
      | ok si =>
        cases h3 : s.fovScale with
        | none => 
          exact .failed .attributeError s [] (by simp [Sim.recentre, h1, h2, h3]) (.refl _ _) (.inl rfl)
        | some sc =>
          have himg : ImgStep cfg.handle s { s with fov := some (centredFov si sc), ctx :=
              ⟨s.ctx.g, s.ctx.mat, notify cfg.handle (.fovChange (centredFov si sc)) s.ctx.obs⟩ }
              [.fovChange (centredFov si sc)] :=
            ⟨by simp [Imaging], by simp [notify, observeAll], rfl, rfl, rfl, rfl⟩
          rcases observe_end cfg (centredFov si sc) { s with fov := some (centredFov si sc), ctx :=
              ⟨s.ctx.g, s.ctx.mat, notify cfg.handle (.fovChange (centredFov si sc)) s.ctx.obs⟩ } with
            ⟨e, h4, h5⟩ | ⟨grid', s', h4, h5, h6, h7⟩
          · refine .failed e _ _ ?_ himg (.inr ⟨si, sc, h3, rfl⟩)
            simp only [h3] at h4
            simp only [Sim.recentre, h1, h2, h3, h4]
          · refine .moved grid' si sc s' ?_ h1 h2 h3 h7 (himg.trans h6) h5
            simp only [h3] at h4
            simp only [Sim.recentre, h1, h2, h3, h4]

/-- The outcomes of a step on a simulator that has a field of view. -/
inductive StepOutcome (cfg : SimCfg K G O P Img) (cs : List (BeamControl K)) (b : Bool)
    (s : Sim K G O P) (fov : Fov K) (sheet : Grid K) : Prop
  | failed (e : Err) (s' : Sim K G O P) (h : Sim.step cfg cs b s = .error e s')
      (n : ℕ) (evs evs' : List (Event K Img)) (sheet' : Grid K)
      (applied : Applied cfg.rate ((cs.take n).map (fun c => (fov.toMaterial c.position, c.dwellTime)))
        sheet evs sheet')
      (imaging : ∀ e ∈ evs', Imaging e)
      (obs : s'.ctx.obs = s.ctx.obs.map (observeAll cfg.handle (evs ++ evs')))
      (matFlag : s'.ctx.mat.hasBeenReset = s.ctx.mat.hasBeenReset)
      (grid : s'.ctx.mat.grid = some sheet')
      (flag : s'.hasBeenReset = s.hasBeenReset) (scale : s'.fovScale = s.fovScale)
      (params : s'.imageParams = s.imageParams)
      (fovs : s'.fov = s.fov ∨ ∃ si sc, s.fovScale = some sc ∧ s'.fov = some (centredFov si sc))
  | ok (o : Observation K Img) (s' : Sim K G O P) (h : Sim.step cfg cs b s = .ok o s')
      (evs evs' : List (Event K Img)) (sheet' : Grid K)
      (applied : Applied cfg.rate (cs.map (fun c => (fov.toMaterial c.position, c.dwellTime)))
        sheet evs sheet')
      (obs : s'.ctx.obs = s.ctx.obs.map (observeAll cfg.handle
        (evs ++ [.takeImage cfg.imageDuration fov] ++ evs' ++
          (o.image.map Event.generatedImage).toList)))
      (matFlag : s'.ctx.mat.hasBeenReset = s.ctx.mat.hasBeenReset)
      (grid : s'.ctx.mat.grid = some sheet')
      (flag : s'.hasBeenReset = s.hasBeenReset) (scale : s'.fovScale = s.fovScale)
      (params : s'.imageParams = s.imageParams)
      (sfov : s'.fov = some o.fov) (ocontrols : o.controls = cs) (oimage : o.image.isSome = b)
      (atoms : s'.ctx.mat.getAtomsInBounds o.fov.lowerLeft o.fov.upperRight = .ok o.grid)
      (moved : (siliconOutsideOfSafeArea o.grid = .ok false ∧ o.fov = fov ∧ evs' = [] ∧
          o.elapsedTime = (cs.map (·.dwellTime)).sum + cfg.imageDuration) ∨
        (∃ si sc grid1, s'.ctx.mat.getAtomsInBounds fov.lowerLeft fov.upperRight = .ok grid1 ∧
          siliconOutsideOfSafeArea grid1 = .ok true ∧ s'.ctx.mat.getSiliconPosition = .ok si ∧
          s.fovScale = some sc ∧ o.fov = centredFov si sc ∧
          evs' = [.fovChange o.fov, .takeImage cfg.imageDuration o.fov] ∧
          o.elapsedTime = (cs.map (·.dwellTime)).sum + cfg.imageDuration + cfg.imageDuration))

theorem step_eq {cfg : SimCfg K G O P Img} {cs : List (BeamControl K)} {b : Bool}
    {s : Sim K G O P} {fov : Fov K} (hreset : s.hasBeenReset = true) (hfov : s.fov = some fov) :
    Sim.step cfg cs b s =
      match applyControls cfg fov cs 0 s.ctx with
      | .error e c => .error e { s with ctx := c }
      | .ok elapsed c =>
        match Sim.observe cfg fov { s with ctx := c } with
        | .error e s1 => .error e s1
        | .ok grid s1 =>
          match Sim.recentre cfg fov grid (elapsed + cfg.imageDuration) s1 with
          | .error e s2 => .error e s2
          | .ok (grid', fov', elapsed') s2 =>
            match Sim.maybeImage cfg b grid' fov' s2 with
            | .error e s3 => .error e s3
            | .ok img s3 => .ok ⟨grid', fov', cs, elapsed', img, none⟩ s3 := by
  obtain ⟨ctx, flag, scl, fv, prm⟩ := s
  simp only at hreset hfov
  subst hreset hfov
  rfl

theorem step_end (cfg : SimCfg K G O P Img) (cs : List (BeamControl K)) (b : Bool)
    (s : Sim K G O P) (fov : Fov K) (sheet : Grid K) (hreset : s.hasBeenReset = true)
    (hfov : s.fov = some fov) (hg : s.ctx.mat.grid = some sheet) :
    StepOutcome cfg cs b s fov sheet := by
  obtain ⟨n, evs, sheet', hn, happ, hobs, hmf, hgr, hok⟩ :=
    applyControls_trace cfg fov cs 0 s.ctx sheet hg
  cases hc : applyControls cfg fov cs 0 s.ctx with
  | error e c =>
    rw [hc] at hobs hmf hgr
    refine .failed e { s with ctx := c } ?_ n evs [] sheet' happ (by simp) ?_ hmf hgr rfl rfl rfl
      (.inl rfl)
    · simp only [step_eq hreset hfov, hc]
    · simpa [endState] using hobs
  | ok el c =>
    obtain ⟨rfl, hel⟩ := hok el c hc
    rw [hc] at hobs hmf hgr
    simp only [endState] at hobs hmf hgr
    rw [List.take_length] at happ
    rcases observe_end cfg fov { s with ctx := c } with ⟨e, h1, _⟩ | ⟨grid1, s1, h1, h2, h3, h4⟩
    · refine .failed e { s with ctx := c } ?_ cs.length evs [] sheet'
        (by rw [List.take_length]; exact happ) (by simp) (by simpa using hobs) hmf hgr rfl rfl rfl
        (.inl rfl)
      simp only [step_eq hreset hfov, hc, h1]
    have hobs1 : ∀ s2 evs2, ImgStep cfg.handle s1 s2 evs2 → s2.ctx.obs = s.ctx.obs.map
        (observeAll cfg.handle (evs ++ [.takeImage cfg.imageDuration fov] ++ evs2)) := by
      intro s2 evs2 hi
      rw [hi.obs, h3.obs, hobs, List.map_map, List.map_map]
      apply List.map_congr_left
      intro o _
      simp [observeAll_append, Function.comp_def]
      rfl
    have hs1mat : s1.ctx.mat = c.mat := h3.mat
    cases recentre_end cfg fov grid1 (el + cfg.imageDuration) s1 with
    | failed e s2 evs2 h5 h6 h7 =>
      refine .failed e s2 ?_ cs.length evs ([.takeImage cfg.imageDuration fov] ++ evs2) sheet'
        (by rw [List.take_length]; exact happ) ?_ ?_ ?_ ?_ ?_ ?_ ?_ ?_
      · simp only [step_eq hreset hfov, hc, h1, h5]
      · intro e he
        rcases List.mem_append.1 he with he | he
        · exact h3.imaging e he
        · exact h6.imaging e he
      · rw [hobs1 s2 evs2 h6, List.append_assoc]
      · rw [h6.mat, hs1mat]; exact hmf
      · rw [h6.mat, hs1mat]; exact hgr
      · rw [h6.flag, h3.flag]
      · rw [h6.scale, h3.scale]
      · rw [h6.params, h3.params]
      · rcases h7 with h7 | ⟨si, sc, h7, h8⟩
        · left; rw [h7, h4]
        · right; exact ⟨si, sc, by rw [← h7, h3.scale], h8⟩
    | kept h5 h6 =>
      rcases maybeImage_end cfg b grid1 fov s1 with h7 | ⟨img, s3, h7, h8, h9, h10⟩
      · refine .failed .attributeError s1 ?_ cs.length evs [.takeImage cfg.imageDuration fov] sheet'
          (by rw [List.take_length]; exact happ) h3.imaging ?_ ?_ ?_ h3.flag h3.scale h3.params
          (.inl h4)
        · simp only [step_eq hreset hfov, hc, h1, h5, h7]
        · simpa using hobs1 s1 [] (.refl _ _)
        · rw [hs1mat]; exact hmf
        · rw [hs1mat]; exact hgr
      · refine .ok ⟨grid1, fov, cs, el + cfg.imageDuration, img, none⟩ s3 ?_ evs [] sheet' happ ?_ ?_
          ?_ ?_ ?_ ?_ ?_ rfl h8 ?_ (.inl ⟨h6, rfl, rfl, ?_⟩)
        · simp only [step_eq hreset hfov, hc, h1, h5, h7]
        · simpa using hobs1 s3 _ h9
        · rw [h9.mat, hs1mat]; exact hmf
        · rw [h9.mat, hs1mat]; exact hgr
        · rw [h9.flag, h3.flag]
        · rw [h9.scale, h3.scale]
        · rw [h9.params, h3.params]
        · rw [h10, h4]; exact hfov
        · rw [h9.mat, hs1mat]; exact h2
        · simp [hel]
    | moved grid' si sc s2 h5 h6 h7 h8 h9 h10 h11 =>
      rcases maybeImage_end cfg b grid' (centredFov si sc) s2 with h12 | ⟨img, s3, h12, h13, h14, h15⟩
      · refine .failed .attributeError s2 ?_ cs.length evs ([.takeImage cfg.imageDuration fov] ++ _)
          sheet' (by rw [List.take_length]; exact happ) ?_ (by
            rw [hobs1 s2 _ h10, List.append_assoc]) ?_ ?_ ?_ ?_ ?_ (.inr ⟨si, sc, by rw [← h8, h3.scale], h9⟩)
        · simp only [step_eq hreset hfov, hc, h1, h5, h12]
        · intro e he
          rcases List.mem_append.1 he with he | he
          · exact h3.imaging e he
          · exact h10.imaging e he
        · rw [h10.mat, hs1mat]; exact hmf
        · rw [h10.mat, hs1mat]; exact hgr
        · rw [h10.flag, h3.flag]
        · rw [h10.scale, h3.scale]
        · rw [h10.params, h3.params]
      · have h16 := h10.trans h14
        refine .ok ⟨grid', centredFov si sc, cs, el + cfg.imageDuration + cfg.imageDuration, img, none⟩
          s3 ?_ evs _ sheet' happ (by
            rw [hobs1 s3 _ h16, ← List.append_assoc]) ?_ ?_ ?_ ?_ ?_ ?_ rfl h13 ?_
            (.inr ⟨si, sc, grid1, ?_, h6, ?_, by rw [← h8, h3.scale], rfl, rfl, ?_⟩)
        · simp only [step_eq hreset hfov, hc, h1, h5, h12]
        · rw [h16.mat, hs1mat]; exact hmf
        · rw [h16.mat, hs1mat]; exact hgr
        · rw [h16.flag, h3.flag]
        · rw [h16.scale, h3.scale]
        · rw [h16.params, h3.params]
        · rw [h15, h9]
        · rw [h16.mat]; exact h11
        · rw [h16.mat, hs1mat]; exact h2
        · rw [h16.mat]; exact h7
        · simp [hel]

/-! ### The invariant is kept by every call -/

theorem SimInv.fresh (g : G) (obs : List O) : SimInv (Sim.fresh g obs : Sim K G O P) :=
  ⟨by simp [Sim.fresh, Material.fresh], by simp [Sim.fresh], by simp [Sim.fresh]⟩

theorem SimInv.reset {cfg : SimCfg K G O P Img} (hl : cfg.rng.Lawful) {s : Sim K G O P}
    (h : SimInv s) (b : Bool) : SimInv (endState (Sim.reset cfg b s)) := by
  cases hr : Sim.reset cfg b s with
  | error e s' =>
    obtain ⟨_, _, rfl⟩ := reset_error hr
    refine ⟨h.doped, h.square, ?_⟩
    intro f hf
    obtain ⟨_, _, h3, h4⟩ := h.sheet f hf
    exact ⟨rfl, rfl, h3, h4⟩
  | ok o s' =>
    obtain ⟨sheet, si, sc, hf⟩ := reset_ok hr
    obtain ⟨g, hsc⟩ := hf.scaleDraw
    have hu := hl.uniform_mem 15 30 g (by norm_num)
    rw [← hsc] at hu
    refine ⟨?_, ?_, ?_⟩
    · intro g' hg'
      rw [show (endState (EStateM.Result.ok (ε := Err) o s')).ctx.mat.grid = some sheet from hf.grid] at hg'
      cases hg'; exact hf.doped
    · intro f hf'
      rw [show (endState (EStateM.Result.ok (ε := Err) o s')).fov = _ from hf.fov] at hf'
      cases hf'
      exact ⟨si, sc, hf.scale, rfl, hu.1, hu.2⟩
    · intro f _
      exact ⟨hf.flag, hf.matFlag, ⟨sheet, hf.grid⟩, hf.params⟩

theorem SimInv.step {cfg : SimCfg K G O P Img} (hk : KeepsDoping cfg.rate) {s : Sim K G O P}
    (h : SimInv s) (cs : List (BeamControl K)) (b : Bool) : SimInv (endState (Sim.step cfg cs b s)) := by
  by_cases hreset : s.hasBeenReset = true
  swap
  · simp only [Sim.step, hreset]; exact h
  cases hfov : s.fov with
  | none => simp only [Sim.step, hreset, if_true, hfov]; exact h
  | some fov =>
    obtain ⟨h1, h2, ⟨sheet, h3⟩, p, h4⟩ := h.sheet fov hfov
    obtain ⟨c, sc, h5, h6, h7, h8⟩ := h.square fov hfov
    cases step_end cfg cs b s fov sheet hreset hfov h3 with
    | failed e s' hs n evs evs' sheet' applied imaging obs matFlag grid flag scale params fovs =>
      rw [hs]
      simp only [endState]
      refine ⟨?_, ?_, ?_⟩
      · intro g hg
        rw [grid] at hg; cases hg
        exact (applied.doped hk (h.doped _ h3)).1
      · intro f hf
        rcases fovs with hf' | ⟨si, sc', hsc, hf'⟩
        · rw [hf', hfov] at hf; cases hf
          exact ⟨c, sc, by rw [scale, h5], h6, h7, h8⟩
        · rw [hf'] at hf; cases hf
          rw [h5] at hsc; cases hsc
          exact ⟨si, sc, by rw [scale, h5], rfl, h7, h8⟩
      · intro f _
        exact ⟨by rw [flag, h1], by rw [matFlag, h2], ⟨_, grid⟩, p, by rw [params, h4]⟩
    | ok o s' hs evs evs' sheet' applied obs matFlag grid flag scale params sfov ocontrols oimage atoms moved =>
      rw [hs]
      simp only [endState]
      refine ⟨?_, ?_, ?_⟩
      · intro g hg
        rw [grid] at hg; cases hg
        exact (applied.doped hk (h.doped _ h3)).1
      · intro f hf
        rw [sfov] at hf; cases hf
        rcases moved with ⟨_, hf', _⟩ | ⟨si, sc', _, _, _, _, hsc, hf', _⟩
        · exact ⟨c, sc, by rw [scale, h5], hf'.trans h6, h7, h8⟩
        · rw [h5] at hsc; cases hsc
          exact ⟨si, sc, by rw [scale, h5], hf', h7, h8⟩
      · intro f _
        exact ⟨by rw [flag, h1], by rw [matFlag, h2], ⟨_, grid⟩, p, by rw [params, h4]⟩

theorem SimInv.exec {cfg : SimCfg K G O P Img} (hl : cfg.rng.Lawful) (hk : KeepsDoping cfg.rate)
    {s : Sim K G O P} (h : SimInv s) (op : SimOp K O) : SimInv (Sim.exec cfg s op).2 := by
  cases op with
  | reset b =>
    have := h.reset hl b
    simp only [Sim.exec]
    cases hr : Sim.reset cfg b s <;> rw [hr] at this <;> exact this
  | step cs b =>
    have := h.step hk cs b
    simp only [Sim.exec]
    cases hr : Sim.step cfg cs b s <;> rw [hr] at this <;> exact this
  | addObserver o => exact ⟨h.doped, h.square, h.sheet⟩
  | removeObserver i =>
    simp only [Sim.exec, Sim.removeObserver]
    split_ifs
    · exact ⟨h.doped, h.square, h.sheet⟩
    · exact h

theorem SimInv.run {cfg : SimCfg K G O P Img} (hl : cfg.rng.Lawful) (hk : KeepsDoping cfg.rate)
    {s : Sim K G O P} (h : SimInv s) (ops : List (SimOp K O)) : SimInv (Sim.run cfg s ops).2 := by
  induction ops generalizing s with
  | nil => exact h
  | cons op ops ih => exact ih (h.exec hl hk op)

/-- A step that returned, in full. -/
theorem step_ok {cfg : SimCfg K G O P Img} {s s' : Sim K G O P} (h : SimInv s)
    {cs : List (BeamControl K)} {b : Bool} {o : Observation K Img}
    (hs : Sim.step cfg cs b s = .ok o s') :
    ∃ fov sheet c sc evs evs' sheet', s.fov = some fov ∧ s.ctx.mat.grid = some sheet ∧
      SingleDoped sheet ∧ s.fovScale = some sc ∧ fov = centredFov c sc ∧ 15 ≤ sc ∧ sc ≤ 30 ∧
      Applied cfg.rate (cs.map (fun c => (fov.toMaterial c.position, c.dwellTime)))
        sheet evs sheet' ∧
      s'.ctx.obs = s.ctx.obs.map (observeAll cfg.handle
        (evs ++ [.takeImage cfg.imageDuration fov] ++ evs' ++
          (o.image.map Event.generatedImage).toList)) ∧
      s'.ctx.mat.hasBeenReset = true ∧ s'.ctx.mat.grid = some sheet' ∧
      s'.fovScale = some sc ∧ s'.fov = some o.fov ∧ o.controls = cs ∧ o.image.isSome = b ∧
      s'.ctx.mat.getAtomsInBounds o.fov.lowerLeft o.fov.upperRight = .ok o.grid ∧
      ((siliconOutsideOfSafeArea o.grid = .ok false ∧ o.fov = fov ∧ evs' = [] ∧
          o.elapsedTime = (cs.map (·.dwellTime)).sum + cfg.imageDuration) ∨
        (∃ si grid1, s'.ctx.mat.getAtomsInBounds fov.lowerLeft fov.upperRight = .ok grid1 ∧
          siliconOutsideOfSafeArea grid1 = .ok true ∧ s'.ctx.mat.getSiliconPosition = .ok si ∧
          o.fov = centredFov si sc ∧
          evs' = [.fovChange o.fov, .takeImage cfg.imageDuration o.fov] ∧
          o.elapsedTime = (cs.map (·.dwellTime)).sum + cfg.imageDuration + cfg.imageDuration)) := by
  have hreset : s.hasBeenReset = true := by
    by_contra hc
    simp [Sim.step, hc] at hs
  cases hfov : s.fov with
  | none => simp [Sim.step, hreset, hfov] at hs
  | some fov =>
    obtain ⟨h1, h2, ⟨sheet, h3⟩, p, h4⟩ := h.sheet fov hfov
    obtain ⟨c, sc, h5, h6, h7, h8⟩ := h.square fov hfov
    cases step_end cfg cs b s fov sheet hreset hfov h3 with
    | failed e s2 hs2 => rw [hs] at hs2; cases hs2
    | ok o2 s2 hs2 evs evs' sheet' applied obs matFlag grid flag scale params sfov ocontrols oimage atoms moved =>
      rw [hs] at hs2
      cases hs2
      refine ⟨fov, sheet, c, sc, evs, evs', sheet', rfl, h3, h.doped _ h3, h5, h6, h7, h8, applied, obs,
        by rw [matFlag, h2], grid, by rw [scale, h5], sfov, ocontrols, oimage, atoms, ?_⟩
      rcases moved with hm | ⟨si, sc', grid1, m1, m2, m3, m4, m5⟩
      · exact .inl hm
      · rw [h5] at m4; cases m4
        exact .inr ⟨si, grid1, m1, m2, m3, m5⟩

end PD
