/- Lemmas about histories of simulator calls and event logs. -/
import Verif.Lemmas.Simulator

set_option linter.unusedSectionVars false
set_option linter.unusedSimpArgs false

namespace PD
open PD.Spec
variable {K G O P Img : Type} [Field K] [LinearOrder K] [IsStrictOrderedRing K] [FloorRing K]

theorem fov_lerp (f : Fov K) (p : V2 K) : f.toMaterial p = lerp f.lowerLeft f.upperRight p := by
  ext <;> simp [Fov.toMaterial, lerp, Fov.scale, add_comm, mul_comm]

theorem map_aim (f : Fov K) (cs : List (BeamControl K)) :
    cs.map (fun c => (f.toMaterial c.position, c.dwellTime)) = aim f cs := by
  simp only [aim, fov_lerp]

/-! ### The field of view is that of the last observation -/

theorem getAtomsInBounds_ok {m : Material K} {g : Grid K} (h : m.hasBeenReset = true)
    (hg : m.grid = some g) (f : Fov K) :
    ∃ o, m.getAtomsInBounds f.lowerLeft f.upperRight = .ok o :=
  ⟨_, Props.C04_agrees_with_material m g h hg f⟩

/-- A step that raises leaves the field of view alone. -/
theorem step_error_fov {cfg : SimCfg K G O P Img} {s s' : Sim K G O P} (h : SimInv s)
    {cs : List (BeamControl K)} {b : Bool} {e : Err} (hs : Sim.step cfg cs b s = .error e s') :
    s'.fov = s.fov := by
  by_cases hreset : s.hasBeenReset = true
  swap
  · simp only [Sim.step, hreset, Bool.false_eq_true, if_false, EStateM.Result.error.injEq] at hs
    rw [← hs.2]
  cases hfov : s.fov with
  | none =>
    simp only [Sim.step, hreset, if_true, hfov, EStateM.Result.error.injEq] at hs
    rw [← hs.2, hfov]
  | some fov =>
    obtain ⟨h1, h2, ⟨sheet, h3⟩, p, h4⟩ := h.sheet fov hfov
    obtain ⟨c, sc, h5, h6, h7, h8⟩ := h.square fov hfov
    rw [step_eq hreset hfov] at hs
    obtain ⟨n, evs, sheet', hn, happ, hobs, hmf, hgr, hok⟩ :=
      applyControls_trace cfg fov cs 0 s.ctx sheet h3
    cases hc : applyControls cfg fov cs 0 s.ctx with
    | error e c =>
      rw [hc] at hs
      simp only [EStateM.Result.error.injEq] at hs
      rw [← hs.2]; exact hfov
    | ok el c =>
      rw [hc] at hs hmf hgr
      simp only [endState] at hs hmf hgr
      rw [h2] at hmf
      rcases observe_end cfg fov { s with ctx := c } with ⟨e, h9, h10⟩ | ⟨grid1, s1, h9, h10, h11, h12⟩
      · obtain ⟨o, ho⟩ := getAtomsInBounds_ok hmf hgr fov
        rw [ho] at h10; cases h10
      rw [h9] at hs
      simp only at hs
      have hm1 : s1.ctx.mat = c.mat := h11.mat
      have hp1 : s1.imageParams = some p := h11.params.trans h4
      cases hr : Sim.recentre cfg fov grid1 (el + cfg.imageDuration) s1 with
      | error e' s2 =>
        rw [hr] at hs
        simp only [EStateM.Result.error.injEq] at hs
        obtain ⟨_, rfl⟩ := hs
        suffices s2.fov = s1.fov by rw [this, h12]; exact hfov
        unfold Sim.recentre at hr
        cases h13 : siliconOutsideOfSafeArea grid1 with
        | error e2 => simp only [h13, EStateM.Result.error.injEq] at hr; rw [hr.2]
        | ok b' =>
          cases b' with
          | false => simp [h13] at hr
          | true =>
            simp only [h13] at hr
            cases h14 : s1.ctx.mat.getSiliconPosition with
            | error e2 => simp only [h14, EStateM.Result.error.injEq] at hr; rw [hr.2]
            | ok si =>
              simp only [h14] at hr
              cases h15 : s1.fovScale with
              | none => simp only [h15, EStateM.Result.error.injEq] at hr; rw [hr.2]
              | some sc' =>
                obtain ⟨o, ho⟩ := getAtomsInBounds_ok hmf hgr (centredFov si sc')
                simp only [h15, Sim.observe, hm1, ho] at hr
                cases hr
      | ok r s2 =>
        obtain ⟨grid', fov', el'⟩ := r
        rw [hr] at hs
        simp only at hs
        have hp2 : s2.imageParams = some p := by
          cases recentre_end cfg fov grid1 (el + cfg.imageDuration) s1 with
          | failed e s3 evs h13 => rw [hr] at h13; cases h13
          | kept h13 => rw [hr] at h13; cases h13; exact hp1
          | moved grid' si sc' s3 h13 h14 h15 h16 h17 h18 =>
            rw [hr] at h13; cases h13; rw [h18.params]; exact hp1
        cases b with
        | false => simp [Sim.maybeImage] at hs
        | true => simp [Sim.maybeImage, hp2] at hs

/-- After any call the field of view is that of the observation it returned, or the one it was. -/
theorem exec_fov {cfg : SimCfg K G O P Img} {s : Sim K G O P} (h : SimInv s) (op : SimOp K O) :
    (∀ o, (Sim.exec cfg s op).1 = some (.ok o) → (Sim.exec cfg s op).2.fov = some o.fov) ∧
    ((∀ o, (Sim.exec cfg s op).1 ≠ some (.ok o)) → (Sim.exec cfg s op).2.fov = s.fov) := by
  cases op with
  | reset b =>
    simp only [Sim.exec]
    cases hr : Sim.reset cfg b s with
    | error e s' =>
      obtain ⟨_, _, rfl⟩ := reset_error hr
      simp
    | ok o s' =>
      obtain ⟨sheet, si, sc, hf⟩ := reset_ok hr
      simp [hf.fov, hf.ofov]
  | step cs b =>
    simp only [Sim.exec]
    cases hr : Sim.step cfg cs b s with
    | error e s' => simp [step_error_fov h hr]
    | ok o s' =>
      obtain ⟨fov, sheet, c, sc, evs, evs', sheet', _, _, _, _, _, _, _, _, _, _, _, _, hf, _⟩ := step_ok h hr
      simp [hf]
  | addObserver o => simp [Sim.exec, Sim.addObserver]
  | removeObserver i =>
    simp only [Sim.exec, Sim.removeObserver]
    split_ifs <;> simp

theorem lastObs_cons (r : Option (Except Err (Observation K Img)))
    (rs : List (Option (Except Err (Observation K Img)))) :
    lastObs (r :: rs) = (lastObs rs).or (match r with | some (.ok o) => some o | _ => none) := by
  unfold lastObs
  cases r with
  | none => simp
  | some r =>
    cases r with
    | error e => simp
    | ok o => simp [List.getLast?_cons]

theorem run_fov {cfg : SimCfg K G O P Img} (hl : cfg.rng.Lawful) (hk : KeepsDoping cfg.rate)
    (ops : List (SimOp K O)) : ∀ {s : Sim K G O P}, SimInv s →
    (Sim.run cfg s ops).2.fov = ((lastObs (Sim.run cfg s ops).1).map (·.fov)).or s.fov := by
  induction ops with
  | nil => intro s _; simp [Sim.run, lastObs]
  | cons op ops ih =>
    intro s h
    simp only [Sim.run]
    rw [ih (h.exec hl hk op), lastObs_cons]
    obtain ⟨h1, h2⟩ := exec_fov (cfg := cfg) h op
    cases hl : lastObs (Sim.run cfg (Sim.exec cfg s op).2 ops).1 with
    | some o => simp
    | none =>
      cases hr : (Sim.exec cfg s op).1 with
      | none => simp [h2 (by simp [hr])]
      | some r =>
        cases r with
        | error e => simp [h2 (by simp [hr])]
        | ok o => simp [h1 o hr]

/-! ### What an observation shows -/

theorem outside_false {grid : Grid K} (h : siliconOutsideOfSafeArea grid = .ok false) :
    ∃ p, getSiliconPositions grid = [p] ∧ InSafeArea p := by
  unfold siliconOutsideOfSafeArea at h
  split at h
  · cases h
  · rename_i p hp
    refine ⟨p, hp, ?_⟩
    simp only [Except.ok.injEq, Bool.or_eq_false_iff, decide_eq_false_iff_not, not_lt, gt_iff_lt] at h
    exact ⟨h.1, h.2⟩
  · cases h

theorem centre_safe : InSafeArea (⟨1 / 2, 1 / 2⟩ : V2 K) := by
  constructor <;> constructor <;> norm_num

/-- Facts about the grid of an observation returned by a step. -/
theorem step_view {cfg : SimCfg K G O P Img} (hk : KeepsDoping cfg.rate) {s s' : Sim K G O P}
    (h : SimInv s) {cs : List (BeamControl K)} {b : Bool} {o : Observation K Img}
    (hs : Sim.step cfg cs b s = .ok o s') :
    ∃ p, silicons o.grid = [p] ∧ InSafeArea p ∧
      ((s.fov = some o.fov ∧
          o.elapsedTime = (cs.map (·.dwellTime)).sum + cfg.imageDuration) ∨
        (s.fov ≠ some o.fov ∧ p = ⟨1 / 2, 1 / 2⟩ ∧
          o.elapsedTime = (cs.map (·.dwellTime)).sum + cfg.imageDuration + cfg.imageDuration)) := by
  obtain ⟨fov, sheet, c, sc, evs, evs', sheet', hfov, hg, hd, hsc, hc, h15, h30, happ, hobs, hmf, hg', hsc',
    hfov', hctl, himg, hatoms, hm⟩ := step_ok h hs
  obtain ⟨hd', hpos⟩ := happ.doped hk hd
  obtain ⟨i, si, hi, hn, hsi⟩ := hd'.exists_index
  have hread : s'.ctx.mat.read = .ok sheet' := by simp [Material.read, hmf, hg']
  have hpos' : (0 : K) < sc := by linarith
  rcases hm with ⟨hsafe, hof, _, hel⟩ | ⟨si', grid1, hat1, hun, hsi', hof, _, hel⟩
  · obtain ⟨p, hp, hin⟩ := outside_false hsafe
    have hsq := centredFov_square c sc
    rw [← hc, ← hof] at hsq
    obtain ⟨hwf, _⟩ := observed_silicons hd' hread hsi (f := o.fov)
      (by rw [hsq.1]; exact hpos') (by rw [hsq.2]; exact hpos') hatoms
    refine ⟨p, ?_, hin, .inl ⟨by rw [hfov, hof], hel⟩⟩
    rw [← getSiliconPositions_eq_silicons hwf, hp]
  · have hsi2 : si' = si := by
      simp only [Material.getSiliconPosition, hread, hsi, Except.ok.injEq] at hsi'
      exact hsi'.symm
    subst hsi2
    have hsq := centredFov_square si' sc
    have hsqc := centredFov_square c sc
    obtain ⟨hwf, hv⟩ := observed_silicons hd' hread hsi (f := o.fov)
      (by rw [hof, hsq.1]; exact hpos') (by rw [hof, hsq.2]; exact hpos') hatoms
    rw [hof, if_pos (centredFov_inside si' hpos'.le), centredFov_toMicroscope si' hpos'] at hv
    refine ⟨_, by rw [← getSiliconPositions_eq_silicons hwf, hv], centre_safe, .inr ⟨?_, rfl, hel⟩⟩
    intro heq
    rw [hfov, Option.some.injEq, hof, hc] at heq
    have hcs := centredFov_inj heq
    subst hcs
    obtain ⟨_, hv1⟩ := observed_silicons hd' hread hsi (f := fov)
      (by rw [hc, hsq.1]; exact hpos') (by rw [hc, hsq.2]; exact hpos') hat1
    rw [hc, if_pos (centredFov_inside c hpos'.le), centredFov_toMicroscope c hpos'] at hv1
    simp only [siliconOutsideOfSafeArea, hv1] at hun
    norm_num at hun

theorem reset_view {cfg : SimCfg K G O P Img} (hl : cfg.rng.Lawful) {s s' : Sim K G O P}
    {b : Bool} {o : Observation K Img} (hs : Sim.reset cfg b s = .ok o s') :
    silicons o.grid = [⟨1 / 2, 1 / 2⟩] := by
  obtain ⟨sheet, si, sc, hf⟩ := reset_ok hs
  obtain ⟨g, hsc⟩ := hf.scaleDraw
  have hu := hl.uniform_mem 15 30 g (by norm_num)
  rw [← hsc] at hu
  have hpos : (0 : K) < sc := by linarith [hu.1]
  have hread : s'.ctx.mat.read = .ok sheet := by simp [Material.read, hf.matFlag, hf.grid]
  have hsq := centredFov_square si sc
  obtain ⟨hwf, hv⟩ := observed_silicons hf.doped hread hf.silicon (f := o.fov)
    (by rw [hf.ofov, hsq.1]; exact hpos) (by rw [hf.ofov, hsq.2]; exact hpos) hf.ogrid
  rw [hf.ofov, if_pos (centredFov_inside si hpos.le), centredFov_toMicroscope si hpos] at hv
  rw [← getSiliconPositions_eq_silicons hwf, hv]

/-! ### Event logs -/

/-- The entry an event leaves in a log. -/
def toLog : Event K Img → Option (LogEvent K Img)
  | .reset g f => some (.reset g f)
  | .fovChange _ => none
  | .applyControl c => some (.applyControl c.dwellTime c.position)
  | .transition t g => some (.transition t g)
  | .takeImage d f => some (.takeImage d f)
  | .generatedImage i => some (.generatedImage i)

def NotReset : Event K Img → Prop
  | .reset _ _ => False
  | _ => True

theorem observeAll_log (evs : List (Event K Img)) (h : ∀ e ∈ evs, NotReset e)
    (l : List (LogEvent K Img)) :
    observeAll eventObserver evs l = l ++ evs.filterMap toLog := by
  induction evs generalizing l with
  | nil => simp
  | cons e evs ih =>
    have he := h e (by simp)
    have h' := ih (fun e he => h e (by simp [he]))
    simp only [observeAll, List.foldl_cons] at h' ⊢
    rw [h']
    cases e with
    | reset g f => exact he.elim
    | fovChange f => rfl
    | applyControl c => exact List.append_assoc _ _ _
    | transition t g => exact List.append_assoc _ _ _
    | takeImage d f => exact List.append_assoc _ _ _
    | generatedImage i => exact List.append_assoc _ _ _

theorem Spec.Imaging.notReset {e : Event K Img} (h : Imaging e) : NotReset e := by
  cases e <;> simp [Imaging, NotReset] at h ⊢

theorem toLog_imaging {evs : List (Event K Img)} (h : ∀ e ∈ evs, Imaging e) :
    (∀ x ∈ evs.filterMap toLog, LogEvent.isReset x = false) ∧
    (evs.filterMap toLog).filterMap LogEvent.grid? = [] ∧
    (evs.filterMap toLog).filterMap LogEvent.control? = [] := by
  induction evs with
  | nil => simp
  | cons e evs ih =>
    have he := h e (by simp)
    have h' := ih (fun e he => h e (by simp [he]))
    have hcons : ∀ x : LogEvent K Img, LogEvent.isReset x = false →
        ∀ y ∈ x :: evs.filterMap toLog, LogEvent.isReset y = false := by
      intro x hx y hy
      rcases List.mem_cons.1 hy with rfl | hy
      · exact hx
      · exact h'.1 y hy
    cases e with
    | reset g f => exact he.elim
    | fovChange f => exact h'
    | applyControl c => exact he.elim
    | transition t g => exact he.elim
    | takeImage d f => exact ⟨hcons _ rfl, h'.2⟩
    | generatedImage i => exact ⟨hcons _ rfl, h'.2⟩

theorem logTime_append (a b : List (LogEvent K Img)) : logTime (a ++ b) = logTime a + logTime b := by
  simp [logTime]

theorem applied_log {rate : RateFunction K} {cs : List (V2 K × Timedelta)}
    {g g' : Grid K} {evs : List (Event K Img)} (h : Applied rate cs g evs g') :
    (∀ e ∈ evs, NotReset e) ∧
    (∀ x ∈ evs.filterMap toLog, LogEvent.isReset x = false) ∧
    (((evs.filterMap toLog).filterMap LogEvent.grid?).getLast?).getD g = g' ∧
    (evs.filterMap toLog).filterMap LogEvent.control? = cs ∧
    logTime (evs.filterMap toLog) = (cs.map Prod.snd).sum := by
  induction h with
  | nil g => simp [logTime]
  | @cons p dwell g trs g1 cs evs g2 he ht ih =>
    obtain ⟨i1, i2, i3, i4, i5⟩ := ih
    have hmap : List.filterMap toLog (trs.map (fun e => (Event.transition e.1 e.2 : Event K Img))) =
        trs.map (fun e => LogEvent.transition e.1 e.2) := by
      rw [List.filterMap_map]
      exact List.filterMap_eq_map_iff_forall_eq_some.2 (fun _ _ => rfl)
    have hgr : List.filterMap LogEvent.grid? (trs.map (fun e =>
        (LogEvent.transition e.1 e.2 : LogEvent K Img))) = trs.map Prod.snd := by
      rw [List.filterMap_map]
      exact List.filterMap_eq_map_iff_forall_eq_some.2 (fun _ _ => rfl)
    have hct : List.filterMap LogEvent.control? (trs.map (fun e =>
        (LogEvent.transition e.1 e.2 : LogEvent K Img))) = [] := by
      rw [List.filterMap_map, List.filterMap_eq_nil_iff]
      intro a _; rfl
    have htm : logTime (trs.map (fun e => (LogEvent.transition e.1 e.2 : LogEvent K Img))) = 0 := by
      simp only [logTime, List.map_map]
      apply List.sum_eq_zero
      intro x hx
      obtain ⟨e, _, rfl⟩ := List.mem_map.1 hx
      rfl
    refine ⟨?_, ?_, ?_, ?_, ?_⟩
    · intro e hm
      simp only [List.mem_cons, List.mem_append, List.mem_map] at hm
      rcases hm with rfl | ⟨x, _, rfl⟩ | hm
      · trivial
      · trivial
      · exact i1 e hm
    · simp only [List.filterMap_cons, toLog, List.filterMap_append, hmap]
      intro x hm
      simp only [List.mem_cons, List.mem_append, List.mem_map] at hm
      rcases hm with rfl | ⟨x, _, rfl⟩ | hm
      · rfl
      · rfl
      · exact i2 x hm
    · simp only [List.filterMap_cons, toLog, List.filterMap_append, hmap, LogEvent.grid?, hgr,
        List.getLast?_append]
      rw [← i3, he.final]
      cases (List.filterMap LogEvent.grid? (List.filterMap toLog evs)).getLast? with
      | some x => simp
      | none => simp [List.getLast?_map]
    · simp only [List.filterMap_cons, toLog, List.filterMap_append, hmap, LogEvent.control?, hct, i4]
      rfl
    · simp only [List.filterMap_cons, toLog, List.filterMap_append, hmap]
      rw [show ∀ (a : LogEvent K Img) l, a :: l = [a] ++ l from fun _ _ => rfl, logTime_append,
        logTime_append, htm, i5]
      simp [logTime, LogEvent.time, BeamControl.mk']

end PD
