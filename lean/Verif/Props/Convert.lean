/- Property C124: the conversion program. -/
import Verif.Model.Convert
import Verif.Spec.Convert
import Verif.Props.Records
import Verif.Props.Transitions
import Verif.Props.Simulator

set_option linter.unusedSectionVars false
set_option linter.unusedSimpArgs false

namespace PD.Props
open PD PD.Spec
variable {K G O P Img B : Type} [Field K] [LinearOrder K] [IsStrictOrderedRing K] [FloorRing K]

theorem transitionsLoop_zip (a : Observation K Img) (os : List (Observation K Img)) :
    transitionsLoop false (some (heldBy a)) os =
      ((a :: os).zip os).map (fun p => between p.1.controls p) := by
  induction os generalizing a with
  | nil => rfl
  | cons o os ih =>
    rw [transitionsLoop]
    have := ih o
    simp only [heldBy] at this
    rw [this]
    rfl

/-- What the program writes of a list of trajectories. -/
theorem transitions_consecutive (ts : List (List (Observation K Img))) :
    trajectoriesToTransitions false ts = (consecutive ts).map (fun p => between p.1.controls p) := by
  unfold trajectoriesToTransitions consecutive
  rw [List.map_flatMap]
  congr 1
  funext t
  cases t with
  | nil => rfl
  | cons o os =>
    simp only [transitionsLoop, List.nil_append, List.tail_cons]
    exact transitionsLoop_zip o os

theorem consecutive_map (f : Observation K Img → Observation K Img) (ts : List (List (Observation K Img))) :
    consecutive (ts.map (List.map f)) = (consecutive ts).map (Prod.map f f) := by
  unfold consecutive
  rw [List.map_flatMap, List.flatMap_map]
  congr 1
  funext t
  rw [← List.map_tail, List.zip_map]

theorem mem_consecutive {ts : List (List (Observation K Img))} {p : Observation K Img × Observation K Img}
    (h : p ∈ consecutive ts) : ∃ t ∈ ts, p.1 ∈ t ∧ p.2 ∈ t := by
  obtain ⟨t, ht, hp⟩ := List.mem_flatMap.1 h
  exact ⟨t, ht, (List.of_mem_zip hp).1, List.mem_of_mem_tail (List.of_mem_zip hp).2⟩

/-- A file of trajectories is read back with everything rounded. -/
theorem read_trajectories (w : Wire K Img B) (fs : Files B) {source : List Char} (hs : RecordFile source)
    (ts : List (List (Observation K Img))) (hw : ∀ t ∈ ts, ∀ o ∈ t, CanWrite o.grid) :
    readRecords w.readTrajectory (writeRecords w.writeTrajectory fs source ts).1 source =
      (ts.map (List.map keptObservation), none) := by
  obtain ⟨stem, h0, rfl⟩ := hs
  obtain ⟨fs', h1, _, as, h2, h3⟩ := C62_roundtrip w.writeTrajectory w.readTrajectory
    (fun t a => a = t.map keptObservation) ts (by
      intro t ht
      obtain ⟨ms, e1, e2⟩ := trajectoryTo t (hw t ht)
      exact ⟨_, _, by rw [Wire.writeTrajectory, e1]; rfl,
        by rw [Wire.readTrajectory, w.trajectory_back]; rfl, e2⟩) fs stem h0
  rw [h1, h2]
  congr 1
  clear h1 h2 hw
  induction h3 with
  | nil => rfl
  | cons h _ ih => rw [List.map_cons, h, ih]

/-- The transition the program makes of two observations that were read. -/
theorem between_kept (p : Observation K Img × Observation K Img) :
    between (keptObservation p.1).controls (Prod.map keptObservation keptObservation p) =
      keptTransition (between p.1.controls p) := rfl

theorem keptTransition_idem (t : Transition K Img) : keptTransition (keptTransition t) = keptTransition t := by
  simp only [keptTransition, keptGrid_idem, keptFov_idem, map_idem keptControl_idem]

theorem write_transition (w : Wire K Img B) (p : Observation K Img × Observation K Img)
    (h1 : CanWrite p.1.grid) (h2 : CanWrite p.2.grid) (l1 : Labelled p.1) (l2 : Labelled p.2) :
    ∃ b, w.writeTransition (keptTransition (between p.1.controls p)) = .ok b ∧
      w.readTransition b = .ok (keptTransition (between p.1.controls p)) := by
  obtain ⟨gb, hgb, hgb'⟩ := gridToProto_ok _ (canWrite_kept _ h1)
  obtain ⟨ga, hga, hga'⟩ := gridToProto_ok _ (canWrite_kept _ h2)
  have hw : ∃ m, transitionToProto (keptTransition (between p.1.controls p)) = .ok m ∧
      m = ⟨some gb, some ga, some (fovToProto (keptFov p.1.fov)), some (fovToProto (keptFov p.2.fov)),
        (p.1.controls.map keptControl).map controlToProto, p.1.image, p.2.image, p.1.labelImage,
        p.2.labelImage⟩ := by
    unfold transitionToProto
    simp only [keptTransition, between]
    rw [labelToProto_same _ _ l1, labelToProto_same _ _ l2, hgb, hga]
    exact ⟨_, rfl, rfl⟩
  obtain ⟨m, hm, rfl⟩ := hw
  refine ⟨_, by rw [Wire.writeTransition, hm]; rfl, ?_⟩
  · rw [Wire.readTransition, w.transition_back]
    simp only [Except.map, transitionFromProto, keptTransition, between, Option.getD_some, hgb', hga', fovFrom_to,
      List.map_map, keptGrid_idem, keptFov_idem]
    congr 2
    exact List.map_congr_left (fun c _ => keptControl_idem c)

theorem transition_kept (p : Observation K Img × Observation K Img) (h1 : Storable p.1) (h2 : Storable p.2) :
    TransitionKept (between p.1.controls p) (keptTransition (between p.1.controls p)) :=
  ⟨gridKept _ h1.1, gridKept _ h2.1, fovKept _, fovKept _, forall₂_map_self (fun c h => controlKept c (h1.2 c h)),
    rfl, rfl, rfl, rfl⟩

/-- C124: of trajectories in which each observation has a label image exactly if it has an image, the program
writes one transition for each pair of consecutive observations, in order, and leaves the other files alone.
The transition has the controls of the earlier observation.
Missing from the full claim: images without label images (`C124_unlabelled`), and recordings in which an
observation holds the controls before it (`C124_simulator_controls`). -/
theorem C124_converts_partial (w : Wire K Img B) (fs : Files B) (source target : List Char)
    (hs : RecordFile source) (ht : RecordFile target) (ts : List (List (Observation K Img)))
    (hst : ∀ t ∈ ts, ∀ o ∈ t, Storable o) (hlab : ∀ t ∈ ts, ∀ o ∈ t, Labelled o) :
    ∃ fs', convertMain w (writeRecords w.writeTrajectory fs source ts).1 source target = (fs', none) ∧
      (∀ n, n ≠ target → fs' n = (writeRecords w.writeTrajectory fs source ts).1 n) ∧
      ∃ out, readRecords w.readTransition fs' target = (out, none) ∧
        List.Forall₂ (fun p t => TransitionKept (between p.1.controls p) t) (consecutive ts) out := by
  have hcan : ∀ t ∈ ts, ∀ o ∈ t, CanWrite o.grid := fun t h o ho => canWrite_of_fits _ (hst t h o ho).1
  unfold convertMain
  rw [read_trajectories w fs hs ts hcan]
  simp only [transitions_consecutive, consecutive_map, List.map_map]
  obtain ⟨stem, h0, rfl⟩ := ht
  obtain ⟨fs', h1, h2, out, h3, h4⟩ := C62_roundtrip w.writeTransition w.readTransition
    (fun t a => a = t) ((consecutive ts).map (fun p => keptTransition (between p.1.controls p))) (by
      intro t ht
      obtain ⟨p, hp, rfl⟩ := List.mem_map.1 ht
      obtain ⟨t, ht, a, b⟩ := mem_consecutive hp
      obtain ⟨m, e1, e2⟩ := write_transition w p (hcan t ht _ a) (hcan t ht _ b) (hlab t ht _ a) (hlab t ht _ b)
      exact ⟨m, _, e1, e2, rfl⟩)
    (writeRecords w.writeTrajectory fs source ts).1 stem h0
  refine ⟨fs', h1, h2, out, h3, ?_⟩
  have hout : out = (consecutive ts).map (fun p => keptTransition (between p.1.controls p)) := by
    clear h1 h2 h3
    generalize (consecutive ts).map (fun p => keptTransition (between p.1.controls p)) = l at h4
    induction h4 with
    | nil => rfl
    | cons h _ ih => rw [h, ih]
  rw [hout]
  refine forall₂_map_self (fun p hp => ?_)
  obtain ⟨t, ht, a, b⟩ := mem_consecutive hp
  exact transition_kept p (hst t ht _ a) (hst t ht _ b)

/-- C124: if the source has another extension, is missing, or has a record that is not a trajectory, the program
ends with the error and writes nothing. -/
theorem C124_source_unreadable (w : Wire K Img B) (fs : Files B) (source target : List Char) :
    (¬ RecordFile source → convertMain w fs source target = (fs, some .valueError)) ∧
    (RecordFile source → fs source = none → convertMain w fs source target = (fs, some .notFound)) ∧
    (∀ bs b e, RecordFile source → fs source = some bs → b ∈ bs → w.trajectoryParse b = .error e →
      ∃ e', convertMain w fs source target = (fs, some e')) := by
  refine ⟨?_, ?_, ?_⟩
  · intro h
    have := (C62_rejects (R := B) .ok w.readTrajectory fs source (fun stem h1 h2 => h ⟨stem, h1, h2⟩) []).2
    rw [convertMain, this]
  · intro h h1
    have hsuf : fileSuffix source = tfrecords := (fileSuffix_iff _).2 h
    simp [convertMain, readRecords, hsuf, h1]
  · intro bs b e h h1 hb he
    have hsuf : fileSuffix source = tfrecords := (fileSuffix_iff _).2 h
    have key : ∃ as e', readAll w.readTrajectory bs = (as, some e') := by
      clear h1
      induction bs with
      | nil => cases hb
      | cons c bs ih =>
        unfold readAll
        cases hc : w.readTrajectory c with
        | error e' => exact ⟨[], e', rfl⟩
        | ok a =>
          rcases List.mem_cons.1 hb with rfl | hb
          · rw [Wire.readTrajectory, he] at hc; cases hc
          · obtain ⟨as, e', h⟩ := ih hb
            exact ⟨a :: as, e', by simp [h]⟩
    obtain ⟨as, e', hk⟩ := key
    exact ⟨e', by simp [convertMain, readRecords, hsuf, h1, hk]⟩

/-- C124: a target with another extension is rejected and nothing is written. -/
theorem C124_target_rejected (w : Wire K Img B) (fs : Files B) (source target : List Char)
    (ht : ¬ RecordFile target) (as : List (List (Observation K Img)))
    (hr : readRecords w.readTrajectory fs source = (as, none)) :
    convertMain w fs source target = (fs, some .valueError) := by
  rw [convertMain, hr]
  exact (C62_rejects w.writeTransition w.readTransition fs target (fun stem h1 h2 => ht ⟨stem, h1, h2⟩) _).1

/-- C124, false in general: at the first pair of which an observation has an image but no label image the
program ends with `ValueError`.  What the target held before is lost, and it holds only the transitions before
that pair. -/
theorem C124_unlabelled (w : Wire K Img B) (fs : Files B) (source target : List Char)
    (hs : RecordFile source) (ht : RecordFile target) (ts : List (List (Observation K Img)))
    (hst : ∀ t ∈ ts, ∀ o ∈ t, GridFits o.grid) (pre post : List (Observation K Img × Observation K Img))
    (bad : Observation K Img × Observation K Img) (hsplit : consecutive ts = pre ++ bad :: post)
    (hpre : ∀ p ∈ pre, (Storable p.1 ∧ Storable p.2) ∧ Labelled p.1 ∧ Labelled p.2)
    (hbad : (bad.1.image ≠ none ∧ bad.1.labelImage = none) ∨ (bad.2.image ≠ none ∧ bad.2.labelImage = none)) :
    ∃ fs' out, convertMain w (writeRecords w.writeTrajectory fs source ts).1 source target =
        (fs', some .valueError) ∧
      (∀ n, n ≠ target → fs' n = (writeRecords w.writeTrajectory fs source ts).1 n) ∧
      readRecords w.readTransition fs' target = (out, none) ∧
      List.Forall₂ (fun p t => TransitionKept (between p.1.controls p) t) pre out ∧
      (pre = [] → fs' target = some []) := by
  have hcan : ∀ t ∈ ts, ∀ o ∈ t, CanWrite o.grid := fun t h o ho => canWrite_of_fits _ (hst t h o ho)
  unfold convertMain
  rw [read_trajectories w fs hs ts hcan]
  simp only [transitions_consecutive, consecutive_map, List.map_map, hsplit, List.map_append, List.map_cons]
  obtain ⟨stem, h0, rfl⟩ := ht
  have hmem : ∀ p ∈ pre, p ∈ consecutive ts := fun p hp => by rw [hsplit]; simp [hp]
  have hex : ∃ bs, List.Forall₂ (fun r b => w.writeTransition r = .ok b)
      (pre.map (fun p => keptTransition (between p.1.controls p))) bs ∧
      List.Forall₂ (fun b t => w.readTransition b = .ok t) bs
        (pre.map (fun p => keptTransition (between p.1.controls p))) := by
    clear hsplit
    induction pre with
    | nil => exact ⟨[], .nil, .nil⟩
    | cons p pre ih =>
      obtain ⟨bs, hbs, hbr⟩ := ih (fun q hq => hpre q (by simp [hq])) (fun q hq => hmem q (by simp [hq]))
      obtain ⟨t, ht, a, b⟩ := mem_consecutive (hmem p (by simp))
      obtain ⟨m, e1, e2⟩ := write_transition w p (hcan t ht _ a) (hcan t ht _ b) (hpre p (by simp)).2.1
        (hpre p (by simp)).2.2
      exact ⟨m :: bs, .cons e1 hbs, .cons e2 hbr⟩
  obtain ⟨bs, hbs, hbr⟩ := hex
  have hfail : w.writeTransition (keptTransition (between bad.1.controls bad)) = .error .valueError := by
    rw [Wire.writeTransition, C59_label_missing _ hbad]
    rfl
  have := C62_interrupted w.writeTransition (writeRecords w.writeTrajectory fs source ts).1 stem h0 _ bs _
    (post.map (fun p => keptTransition (between p.1.controls p))) _ hbs hfail
  have hput : ((writeRecords w.writeTrajectory fs source ts).1.put (stem ++ ".tfrecords".toList) bs)
      (stem ++ ".tfrecords".toList) = some bs := if_pos rfl
  refine ⟨_, _, this, ?_, ?_, forall₂_map_self (fun p hp => transition_kept p (hpre p hp).1.1 (hpre p hp).1.2), ?_⟩
  · intro n hn
    exact if_neg hn
  · have hsuf : fileSuffix (stem ++ ".tfrecords".toList) = tfrecords := (fileSuffix_iff _).2 ⟨stem, h0, rfl⟩
    rw [readRecords, if_pos hsuf, hput]
    exact readAll_ok _ _ _ hbr
  · rintro rfl
    cases hbs
    exact hput

theorem simulated_unlabelled {cfg : SimCfg K G O P Img} {s : Sim K G O P} {css : List (List (BeamControl K))}
    {os : List (Observation K Img)} (h : Simulated cfg s css os) :
    (∀ o ∈ os, o.labelImage = none) ∧ os.map (·.controls) = css := by
  induction h with
  | done s => simp
  | @step s s' cs css o os b hs rest ih =>
    have h1 : o.labelImage = none := by
      unfold Sim.step at hs
      repeat' split at hs
      all_goals first
        | (cases hs; done)
        | (simp only [EStateM.Result.ok.injEq] at hs; obtain ⟨rfl, _⟩ := hs; rfl)
    refine ⟨?_, by rw [List.map_cons, simStep_controls hs, ih.2]⟩
    intro q hq
    rcases List.mem_cons.1 hq with rfl | hq
    · exact h1
    · exact ih.1 q hq

theorem reset_unlabelled {cfg : SimCfg K G O P Img} {b : Bool} {s s' : Sim K G O P} {o : Observation K Img}
    (h : Sim.reset cfg b s = .ok o s') : o.labelImage = none := by
  unfold Sim.reset at h
  simp only at h
  repeat' split at h
  all_goals first
    | (cases h; done)
    | (simp only [EStateM.Result.ok.injEq] at h; obtain ⟨rfl, _⟩ := h; rfl)

/-- What a simulator shows can be stored. -/
theorem view_fits {m : Material K} {sheet g : Grid K} (hr : m.hasBeenReset = true) (hm : m.grid = some sheet)
    (hd : SingleDoped sheet) {f : Fov K} (h : m.getAtomsInBounds f.lowerLeft f.upperRight = .ok g) :
    GridFits g := by
  simp only [Material.getAtomsInBounds, Material.read, hr, hm, if_true, Except.ok.injEq] at h
  subst h
  refine ⟨by simp only [List.length_map]; exact maskSelect_length_eq _ _ _ hd.wf.symm, ?_⟩
  intro n hn
  have hsub : n ∈ sheet.numbers := (maskSelect_sublist _ _).subset hn
  obtain ⟨i, hi, hone⟩ := hd.one
  obtain ⟨j, hj, rfl⟩ := List.getElem_of_mem hsub
  have := hone j hj
  rw [List.getElem?_eq_getElem hj, Option.some.injEq] at this
  rw [this]
  split <;> simp [SILICON, CARBON]

theorem simulated_fits {cfg : SimCfg K G O P Img} (hk : KeepsDoping cfg.rate) {s : Sim K G O P}
    {css : List (List (BeamControl K))} {os : List (Observation K Img)} (h : Simulated cfg s css os)
    (hinv : SimInv s) : ∀ o ∈ os, GridFits o.grid := by
  induction h with
  | done s => simp
  | @step s s' cs css o os b hs rest ih =>
    have hinv' := hinv.step hk (cfg := cfg) cs b
    rw [hs] at hinv'
    obtain ⟨fov, sheet, c, sc, evs, evs', sheet', hfov, hg, hd, hsc, hc, h15, h30, happ, hobs, hmf, hg', hsc',
      hfov', hctl, himg, hatoms, hm⟩ := step_ok hinv hs
    intro q hq
    rcases List.mem_cons.1 hq with rfl | hq
    · exact view_fits hmf hg' (hinv'.doped _ hg') hatoms
    · exact ih hinv' q hq

/-- C124, false for simulated experiments with images: simulated observations have no label images, so the
program fails on the first transition and leaves the target empty. -/
theorem C124_simulator_images (w : Wire K Img B) (fs : Files B) (source target : List Char)
    (hs : RecordFile source) (ht : RecordFile target) (cfg : SimCfg K G O P Img)
    (hl : cfg.rng.Lawful) (hk : KeepsDoping cfg.rate) (g : G) (obs : List O) (ops : List (SimOp K O))
    (s : Sim K G O P) (o0 : Observation K Img)
    (hreset : Sim.reset cfg true (Sim.run cfg (Sim.fresh g obs) ops).2 = .ok o0 s) (css : List (List (BeamControl K)))
    (os : List (Observation K Img)) (hsim : Simulated cfg s css os) (hne : css ≠ []) :
    ∃ fs', convertMain w (writeRecords w.writeTrajectory fs source [o0 :: os]).1 source target =
        (fs', some .valueError) ∧ fs' target = some [] := by
  have hinv : SimInv (Sim.run cfg (Sim.fresh g obs : Sim K G O P) ops).2 :=
    (SimInv.fresh g obs).run hl hk ops
  have hinv' := hinv.reset hl true (cfg := cfg)
  rw [hreset] at hinv'
  obtain ⟨sheet, si, sc, hf⟩ := reset_ok hreset
  have hst : ∀ o ∈ o0 :: os, GridFits o.grid := by
    intro o ho
    rcases List.mem_cons.1 ho with rfl | ho
    · exact view_fits hf.matFlag hf.grid hf.doped hf.ogrid
    · exact simulated_fits hk hsim hinv' o ho
  cases os with
  | nil => cases hsim; exact absurd rfl hne
  | cons o1 os =>
    obtain ⟨fs', out, h1, _, _, _, h2⟩ := C124_unlabelled w fs source target hs ht [o0 :: o1 :: os]
      (by intro t h o ho; simp only [List.mem_singleton] at h; subst h; exact hst o ho) []
      ((o1 :: os).zip os) (o0, o1) (by simp [consecutive]) (by simp)
      (.inl ⟨(by
        have h := hf.oimage
        intro hc
        have hc : o0.image = none := hc
        simp [hc] at h), reset_unlabelled hreset⟩)
    exact ⟨fs', h1, h2 rfl⟩

/-- C124, false for simulated experiments: a simulated observation holds the controls before it, but the program
takes them for the controls after it.  So the first transition has no controls, and each other one those that
were applied one step earlier. -/
theorem C124_simulator_controls (w : Wire K Img B) (fs : Files B) (source target : List Char)
    (hs : RecordFile source) (ht : RecordFile target) (cfg : SimCfg K G O P Img)
    (hl : cfg.rng.Lawful) (hk : KeepsDoping cfg.rate) (g : G) (obs : List O) (ops : List (SimOp K O))
    (s : Sim K G O P) (o0 : Observation K Img)
    (hreset : Sim.reset cfg false (Sim.run cfg (Sim.fresh g obs) ops).2 = .ok o0 s)
    (css : List (List (BeamControl K))) (os : List (Observation K Img)) (hsim : Simulated cfg s css os)
    (hfull : ∀ cs ∈ css, ∀ c ∈ cs, ControlFull c) (himg : ∀ o ∈ os, o.image = none) :
    ∃ fs' out, convertMain w (writeRecords w.writeTrajectory fs source [o0 :: os]).1 source target = (fs', none) ∧
      readRecords w.readTransition fs' target = (out, none) ∧
      List.Forall₂ (List.Forall₂ ControlKept) ([] :: css).dropLast (out.map (·.controls)) := by
  have hinv : SimInv (Sim.run cfg (Sim.fresh g obs : Sim K G O P) ops).2 :=
    (SimInv.fresh g obs).run hl hk ops
  have hinv' := hinv.reset hl false (cfg := cfg)
  rw [hreset] at hinv'
  obtain ⟨sheet, si, sc, hf⟩ := reset_ok hreset
  have hst : ∀ o ∈ o0 :: os, GridFits o.grid := by
    intro o ho
    rcases List.mem_cons.1 ho with rfl | ho
    · exact view_fits hf.matFlag hf.grid hf.doped hf.ogrid
    · exact simulated_fits hk hsim hinv' o ho
  obtain ⟨hu, hctl⟩ := simulated_unlabelled hsim
  have himg0 : ∀ o ∈ o0 :: os, o.image = none := by
    intro o ho
    rcases List.mem_cons.1 ho with rfl | ho
    · have := hf.oimage
      cases hi : o.image <;> simp_all
    · exact himg o ho
  have hfull' : ∀ o ∈ o0 :: os, ∀ c ∈ o.controls, ControlFull c := by
    intro o ho
    rcases List.mem_cons.1 ho with rfl | ho
    · simp [hf.ocontrols]
    · exact hfull _ (by rw [← hctl]; exact List.mem_map.2 ⟨o, ho, rfl⟩)
  have hlab : ∀ o ∈ o0 :: os, o.labelImage = none := by
    intro o ho
    rcases List.mem_cons.1 ho with rfl | ho
    · exact reset_unlabelled hreset
    · exact hu o ho
  obtain ⟨fs', h1, _, out, h2, h3⟩ := C124_converts_partial w fs source target hs ht [o0 :: os]
    (by intro t h o ho; simp only [List.mem_singleton] at h; subst h; exact ⟨hst o ho, hfull' o ho⟩)
    (by
      intro t h o ho
      simp only [List.mem_singleton] at h
      subst h
      unfold Labelled
      rw [himg0 o ho, hlab o ho])
  refine ⟨fs', out, h1, h2, ?_⟩
  have hc : ([] :: css).dropLast = (consecutive [o0 :: os]).map (fun p => p.1.controls) := by
    rw [← hctl, ← hf.ocontrols]
    simp only [consecutive, List.flatMap_cons, List.flatMap_nil, List.append_nil, List.tail_cons]
    clear * -
    induction os generalizing o0 with
    | nil => rfl
    | cons o os ih =>
      have := ih o
      simp only [List.map_cons, List.zip_cons_cons, List.dropLast_cons_cons] at this ⊢
      rw [this]
  rw [hc, List.forall₂_map_left_iff, List.forall₂_map_right_iff]
  exact h3.imp (fun p t h => h.2.2.2.2.1)

/-- A wire format: the messages themselves. -/
def plainWire (K Img : Type) : Wire K Img (List (PObservation K Img) ⊕ PTransition K Img) where
  trajectoryBytes := .inl
  trajectoryParse := fun b => match b with | .inl m => .ok m | .inr _ => .error .valueError
  transitionBytes := .inr
  transitionParse := fun b => match b with | .inr m => .ok m | .inl _ => .error .valueError
  trajectory_back := fun _ => rfl
  transition_back := fun _ => rfl

theorem sample_storable : Storable sampleObservation := by
  refine ⟨⟨rfl, by decide⟩, ?_⟩
  intro c hc
  simp only [sampleObservation, List.mem_singleton] at hc
  subst hc
  simp [ControlFull]

theorem example_names : RecordFile "runs.tfrecords".toList ∧ RecordFile "pairs.tfrecords".toList :=
  ⟨⟨"runs".toList, by decide, by decide⟩, ⟨"pairs".toList, by decide, by decide⟩⟩

/-- Two trajectories, one of three observations with labelled images and one of a single observation: two
transitions. -/
example : ∃ fs' out, convertMain (plainWire ℚ ℕ) (writeRecords (plainWire ℚ ℕ).writeTrajectory (fun _ => none)
      "runs.tfrecords".toList [[{ sampleObservation with labelImage := some 3 }, { sampleObservation with
        labelImage := some 4 }, { sampleObservation with image := none }], [{ sampleObservation with
        labelImage := some 5 }]]).1 "runs.tfrecords".toList "pairs.tfrecords".toList = (fs', none) ∧
    readRecords (plainWire ℚ ℕ).readTransition fs' "pairs.tfrecords".toList = (out, none) ∧ out.length = 2 := by
  obtain ⟨fs', h1, _, out, h2, h3⟩ := C124_converts_partial (plainWire ℚ ℕ) (fun _ => none) _ _ example_names.1
    example_names.2 [[{ sampleObservation with labelImage := some 3 }, { sampleObservation with
        labelImage := some 4 }, { sampleObservation with image := none }], [{ sampleObservation with
        labelImage := some 5 }]]
    (by
      intro t ht o ho
      simp only [List.mem_cons, List.not_mem_nil, or_false] at ht
      rcases ht with rfl | rfl <;> simp only [List.mem_cons, List.not_mem_nil, or_false] at ho
      · rcases ho with rfl | rfl | rfl <;> exact sample_storable
      · subst ho; exact sample_storable)
    (by
      intro t ht o ho
      simp only [List.mem_cons, List.not_mem_nil, or_false] at ht
      rcases ht with rfl | rfl <;> simp only [List.mem_cons, List.not_mem_nil, or_false] at ho
      · rcases ho with rfl | rfl | rfl <;> rfl
      · subst ho; rfl)
  exact ⟨fs', out, h1, h2, by rw [← h3.length_eq]; rfl⟩

/-- The same with the label image of the second observation missing: nothing is converted. -/
example : ∃ fs', convertMain (plainWire ℚ ℕ) (writeRecords (plainWire ℚ ℕ).writeTrajectory (fun _ => some [])
      "runs.tfrecords".toList [[{ sampleObservation with labelImage := some 3 }, sampleObservation]]).1
      "runs.tfrecords".toList "pairs.tfrecords".toList = (fs', some .valueError) := by
  obtain ⟨fs', _, h, _⟩ := C124_unlabelled (plainWire ℚ ℕ) (fun _ => some []) _ _ example_names.1 example_names.2
    [[{ sampleObservation with labelImage := some 3 }, sampleObservation]]
    (by
      intro t ht o ho
      simp only [List.mem_cons, List.not_mem_nil, or_false] at ht
      subst ht
      simp only [List.mem_cons, List.not_mem_nil, or_false] at ho
      rcases ho with rfl | rfl <;> exact sample_storable.1) [] [] _ rfl (by simp) (.inr ⟨by simp [sampleObservation], rfl⟩)
  exact ⟨fs', h⟩

/-- An unreadable source: a file of transitions. -/
example : ∃ e, convertMain (plainWire ℚ ℕ) (fun _ => some [.inr {}]) "runs.tfrecords".toList
    "pairs.tfrecords".toList = (fun _ => some [.inr {}], some e) :=
  (C124_source_unreadable (plainWire ℚ ℕ) (fun _ => some [.inr {}]) _ "pairs.tfrecords".toList).2.2
    [.inr {}] (.inr {}) .valueError example_names.1 rfl (by simp) rfl

/-- A simulated experiment of a reset and one control of 1.5 s, with and without images, as in the hypotheses of
`C124_simulator_images` and `C124_simulator_controls`. -/
theorem simulated_example (b : Bool) : ∃ o0 s o, Sim.reset SimExample.cfg b
      (Sim.run SimExample.cfg (Sim.fresh () [[]]) []).2 = .ok o0 s ∧
    Simulated SimExample.cfg s [[⟨⟨1 / 2, 1 / 2⟩, 1500000, some 60, some (1 / 10)⟩]] [o] ∧
    (b = false → o.image = none) := by
  have h : ∀ b : Bool, (match Sim.reset SimExample.cfg b (Sim.run SimExample.cfg (Sim.fresh () [[]]) []).2 with
      | .ok _ s => (match Sim.step SimExample.cfg [⟨⟨1 / 2, 1 / 2⟩, 1500000, some 60, some (1 / 10)⟩] b s with
        | .ok o _ => b || o.image.isNone
        | .error _ _ => false)
      | .error _ _ => false) = true := by decide +kernel
  have hb := h b
  cases hr : Sim.reset SimExample.cfg b (Sim.run SimExample.cfg (Sim.fresh () [[]]) []).2 with
  | error e s => rw [hr] at hb; simp at hb
  | ok o0 s =>
    rw [hr] at hb
    cases hs : Sim.step SimExample.cfg [⟨⟨1 / 2, 1 / 2⟩, 1500000, some 60, some (1 / 10)⟩] b s with
    | error e s => simp only [hs] at hb; cases hb
    | ok o s' =>
      refine ⟨o0, s, o, rfl, .step b hs (.done _), ?_⟩
      rintro rfl
      simp only [hs] at hb
      simpa using hb

example : ∃ (fs : Files _) (ts : List (List (Observation ℚ Unit))) (fs' : Files _),
    convertMain (plainWire ℚ Unit) (writeRecords (plainWire ℚ Unit).writeTrajectory fs "runs.tfrecords".toList ts).1
      "runs.tfrecords".toList "pairs.tfrecords".toList = (fs', some .valueError) ∧
    fs' "pairs.tfrecords".toList = some [] := by
  obtain ⟨o0, s, o, h1, h2, _⟩ := simulated_example true
  obtain ⟨fs', h3, h4⟩ := C124_simulator_images (plainWire ℚ Unit) (fun _ => none) _ _ example_names.1 example_names.2
    SimExample.cfg (Witness.rng_lawful (by norm_num)) (C39_pristine_swaps Witness.knn Witness.canon).keepsDoping () [[]] [] s o0 h1 _ _ h2
    (by simp)
  exact ⟨_, _, fs', h3, h4⟩

/-- The only transition of a simulated experiment with one control is written without that control. -/
example : ∃ (ts : List (List (Observation ℚ Unit))) (fs' : Files _) (t : Transition ℚ Unit),
    convertMain (plainWire ℚ Unit) (writeRecords (plainWire ℚ Unit).writeTrajectory (fun _ => none)
      "runs.tfrecords".toList ts).1 "runs.tfrecords".toList "pairs.tfrecords".toList = (fs', none) ∧
    readRecords (plainWire ℚ Unit).readTransition fs' "pairs.tfrecords".toList = ([t], none) ∧ t.controls = [] := by
  obtain ⟨o0, s, o, h1, h2, h3⟩ := simulated_example false
  obtain ⟨fs', out, h4, h5, h6⟩ := C124_simulator_controls (plainWire ℚ Unit) (fun _ => none) _ _ example_names.1
    example_names.2 SimExample.cfg (Witness.rng_lawful (by norm_num)) (C39_pristine_swaps Witness.knn Witness.canon).keepsDoping () [[]] [] s
    o0 h1 _ _ h2 (by simp [ControlFull]) (by simp [h3 rfl])
  cases out with
  | nil => cases h6
  | cons t out =>
    cases out with
    | nil =>
      refine ⟨_, fs', t, h4, h5, ?_⟩
      cases h6 with
      | cons h _ => exact List.forall₂_nil_left_iff.1 h
    | cons _ _ => cases h6 with | cons _ h => cases h

end PD.Props
