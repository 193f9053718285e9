/- C117, C118: pictures of frames. -/
import Verif.Model.FramePictures
import Verif.Props.Environment
import Verif.Props.Plotting

set_option linter.unusedSectionVars false
set_option linter.unusedSimpArgs false

namespace PD.Props
open PD PD.Spec

/-! ### C117 rendering an environment -/

section elements
variable {K : Type}

/-- Where the atoms of a grid with a given atomic number are, in the order of the grid. -/
def ofElement (z : ℤ) (g : Grid K) : List (V2 K) :=
  ((atoms g).filter (fun a => decide (a.2 = z))).map Prod.fst

theorem maskSelect_element (z : ℤ) {g : Grid K} (h : g.WF) :
    maskSelect (g.numbers.map (fun n => decide (n = z))) g.positions = ofElement z g := by
  unfold ofElement
  rw [maskSelect_zip_right _ _ _ h]
  rfl

end elements

section render
variable {K G O P Img F : Type} [Field K] [LinearOrder K] [IsStrictOrderedRing K] [FloorRing K]

theorem simStep_echo {cfg : SimCfg K G O P Img} {cs : List (BeamControl K)} {b : Bool} {s s' : Sim K G O P}
    {o : Observation K Img} (h : Sim.step cfg cs b s = .ok o s') : o.controls = cs := by
  unfold Sim.step at h
  split_ifs at h
  split at h
  · cases h
  · split at h
    · cases h
    · split at h
      · cases h
      · split at h
        · cases h
        · split at h
          · cases h
          · simp only [EStateM.Result.ok.injEq] at h
            rw [← h.1]

theorem getAction_one {a : Adapter K} {o : Observation K Img} {act : List K} {beam beam' : V2 K}
    {cs : List (BeamControl K)} (h : a.getAction o act beam = .ok cs beam') : ∃ c, cs = [c] := by
  cases a with
  | direct =>
    simp only [Adapter.getAction] at h
    split at h
    · cases h
    · simp only [EStateM.Result.ok.injEq] at h; exact ⟨_, h.1.symm⟩
  | delta =>
    simp only [Adapter.getAction] at h
    split at h
    · cases h
    · simp only [EStateM.Result.ok.injEq] at h; exact ⟨_, h.1.symm⟩
  | relative a b c =>
    simp only [Adapter.getAction] at h
    split at h
    · cases h
    · split_ifs at h
      split at h
      · cases h
      · split at h
        · cases h
        · simp only [EStateM.Result.ok.injEq] at h; exact ⟨_, h.1.symm⟩
  | materialFrame a b c =>
    simp only [Adapter.getAction] at h
    split at h
    · cases h
    · split at h
      · cases h
      · split at h
        · cases h
        · simp only [EStateM.Result.ok.injEq] at h; exact ⟨_, h.1.symm⟩

theorem envReset_halves {cfg : EnvCfg K G O P Img F} {s s' : Env K G O P Img} {t : TimeStep F}
    (h : Env.reset cfg s = .ok t s') :
    (∃ sim, Sim.reset cfg.sim cfg.requiresImage s.sim = .ok s'.last sim) ∧
    ∃ gs g g', GoalState.reset cfg.sim.rng s'.last gs g = .ok (s'.goal, g') := by
  unfold Env.reset at h
  dsimp only at h
  cases hr : Sim.reset cfg.sim cfg.requiresImage s.sim with
  | error e sim => simp only [hr] at h; cases h
  | ok o sim =>
    simp only [hr] at h
    have hl : (Env.resetAdapter cfg ⟨sim, s.adapterRng, s.beam, s.goal, o, false⟩).last = o := by
      unfold Env.resetAdapter; split <;> rfl
    cases hg : GoalState.reset cfg.sim.rng (Env.resetAdapter cfg ⟨sim, s.adapterRng, s.beam, s.goal, o, false⟩).last
        (Env.resetAdapter cfg ⟨sim, s.adapterRng, s.beam, s.goal, o, false⟩).goal
        (Env.resetAdapter cfg ⟨sim, s.adapterRng, s.beam, s.goal, o, false⟩).sim.ctx.g with
    | error e => simp only [hg] at h; cases h
    | ok gg =>
      obtain ⟨goal, g⟩ := gg
      simp only [hg] at h
      split at h
      · cases h
      · simp only [EStateM.Result.ok.injEq] at h
        obtain ⟨rfl, rfl⟩ := h
        exact ⟨⟨sim, by simp only [hl]⟩, _, _, _, hg⟩

theorem goalReset_place {rng : Rng K G} {o : Observation K Img} {s s' : GoalState K} {g g' : G}
    (h : GoalState.reset rng o s g = .ok (s', g')) : ∃ p ∈ o.grid.positions, s'.goal = place o p := by
  unfold GoalState.reset at h
  split at h
  · cases h
  · dsimp only at h
    split_ifs at h
    split at h
    · cases h
    · rename_i p hp
      simp only [Except.ok.injEq, Prod.mk.injEq] at h
      refine ⟨p, (maskSelect_sublist _ _).subset (List.mem_of_getElem? hp), ?_⟩
      rw [← h.1, toMaterial_place]

theorem toMicroscope_lerp {f : Fov K} (hw : f.width ≠ 0) (hh : f.height ≠ 0) (p : V2 K) :
    f.toMicroscope (lerp f.lowerLeft f.upperRight p) = p := by
  have hx : f.upperRight.x - f.lowerLeft.x ≠ 0 := hw
  have hy : f.upperRight.y - f.lowerLeft.y ≠ 0 := hh
  ext <;> simp [Fov.toMicroscope, Fov.scale, lerp] <;> field_simp

/-- Everything the picture of an observation without controls shows. -/
theorem render_still {o : Observation K Img} (hwf : o.grid.WF) (hc : o.controls = []) (s : GoalState K) :
    renderObservation (.singleSilicon s) o = .ok ⟨ofElement CARBON o.grid, ofElement SILICON o.grid,
      [o.fov.toMicroscope s.goal], [], none, [], (0, 1), (0, 1)⟩ := by
  have hlen : ¬ o.grid.positions.length ≠ o.grid.numbers.length := not_not_intro hwf
  simp only [renderObservation, hc, List.getLast?_nil, Option.map_none, Fov.materialFrameToMicroscopeFrame,
    plotMicroscopeFrame, plotAtomicGrid, if_neg hlen, markersOpt, markers, timeStamp, maskSelect_element _ hwf]

/-- C117: after a reset that returned, rendering draws the observation: every carbon and silicon dot at its place
in the image, which shows all of them, the silicon in the middle, and the goal's cross exactly on one of the
atoms, the one the goal was placed at; no beam.  Missing from the full claim: rendering after a step raises, see
`C117_after_step`. -/
theorem C117_after_reset_partial (cfg : EnvCfg K G O P Img F) (hl : cfg.sim.rng.Lawful) (s s' : Env K G O P Img)
    (t : TimeStep F) (h : Env.reset cfg s = .ok t s') :
    ∃ p ∈ s'.last.grid.positions, s'.goal.goal = place s'.last p ∧
      Env.render s' = .ok ⟨ofElement 6 s'.last.grid, [⟨1 / 2, 1 / 2⟩], [p], [], none, [], (0, 1), (0, 1)⟩ ∧
      ∀ q ∈ s'.last.grid.positions, Inside 0 ⟨1, 1⟩ q := by
  obtain ⟨⟨sim, hsim⟩, gs, g, g', hgoal⟩ := envReset_halves h
  obtain ⟨p, hp, hgp⟩ := goalReset_place hgoal
  obtain ⟨sheet, si, sc, hf⟩ := reset_ok hsim
  obtain ⟨gd, hsc⟩ := hf.scaleDraw
  have hu := hl.uniform_mem 15 30 gd (by norm_num)
  rw [← hsc] at hu
  have hpos : (0 : K) < sc := by linarith [hu.1]
  have hread : sim.ctx.mat.read = .ok sheet := by simp [Material.read, hf.matFlag, hf.grid]
  have hsq := centredFov_square si sc
  have hw : 0 < s'.last.fov.width := by rw [hf.ofov, hsq.1]; exact hpos
  have hh : 0 < s'.last.fov.height := by rw [hf.ofov, hsq.2]; exact hpos
  obtain ⟨hwf, _⟩ := observed_silicons hf.doped hread hf.silicon (f := s'.last.fov) hw hh hf.ogrid
  have hsil : ofElement SILICON s'.last.grid = [⟨1 / 2, 1 / 2⟩] := C09_centred_by_reset _ hl _ _ _ _ hsim
  refine ⟨p, hp, hgp, ?_, ?_⟩
  · unfold Env.render
    rw [render_still hwf hf.ocontrols, hsil, hgp]
    rw [show place s'.last p = lerp s'.last.fov.lowerLeft s'.last.fov.upperRight p from rfl,
      toMicroscope_lerp hw.ne' hh.ne']
    rfl
  · intro q hq
    have hgrid := hf.ogrid
    simp only [Material.getAtomsInBounds, hread, Except.ok.injEq] at hgrid
    rw [← hgrid] at hq
    simp only [maskSelect_map_self, List.mem_map, List.mem_filter] at hq
    obtain ⟨r, ⟨_, hr⟩, rfl⟩ := hq
    simp only [Fov.inRect, Bool.and_eq_true, decide_eq_true_eq] at hr
    have hx : 0 < s'.last.fov.upperRight.x - s'.last.fov.lowerLeft.x := hw
    have hy : 0 < s'.last.fov.upperRight.y - s'.last.fov.lowerLeft.y := hh
    refine ⟨⟨?_, ?_⟩, ?_, ?_⟩
    · exact div_nonneg (sub_nonneg.2 hr.1.1) hx.le
    · exact (div_le_one hx).2 (by have := hr.1.2; simp only [V2.sub_x]; linarith)
    · exact div_nonneg (sub_nonneg.2 hr.2.1) hy.le
    · exact (div_le_one hy).2 (by have := hr.2.2; simp only [V2.sub_y]; linarith)

theorem render_beam {o : Observation K Img} (hc : o.controls ≠ []) (goal : AnyGoal K) :
    renderObservation goal o = .error .indexError := by
  obtain ⟨c, hlast⟩ : ∃ c, o.controls.getLast? = some c := ⟨_, List.getLast?_eq_some_getLast hc⟩
  cases goal with
  | other =>
    simp only [renderObservation, hlast, Option.map_some, plotMicroscopeFrame, plotAtomicGrid, markersOpt, markers]
    split_ifs <;> rfl
  | singleSilicon s =>
    simp only [renderObservation, hlast, Option.map_some, plotMicroscopeFrame, plotAtomicGrid, markersOpt, markers,
      Fov.materialFrameToMicroscopeFrame]
    split_ifs <;> rfl

/-- C117: after any step of an episode that returned, whatever the environment, its history and the action,
rendering raises `IndexError`: the beam position is an array of one row, and its second row is asked for. -/
theorem C117_after_step (cfg : EnvCfg K G O P Img F) (s s' : Env K G O P Img) (hs : s.requiresReset = false)
    (a : List K) (t : TimeStep F) (h : Env.step cfg a s = .ok t s') : Env.render s' = .error .indexError := by
  cases envStep_end cfg a s hs with
  | failed e s2 h2 => rw [h] at h2; cases h2
  | ok t2 s2 h2 cs beam hcs hsim =>
    rw [h] at h2
    simp only [EStateM.Result.ok.injEq] at h2
    obtain ⟨rfl, rfl⟩ := h2
    obtain ⟨c, rfl⟩ := getAction_one hcs
    refine render_beam ?_ _
    rw [simStep_echo hsim]
    simp

/-- C117: so after a call that returned a time step, an environment can be rendered exactly if that time step
was the first of an episode. -/
theorem C117_only_first (cfg : EnvCfg K G O P Img F) (hl : cfg.sim.rng.Lawful) (s s' : Env K G O P Img)
    (c : EnvCall (List K)) (t : TimeStep F) (h : (Env.like cfg).call c s = .ok t s') :
    (∃ pic, Env.render s' = .ok pic) ↔ t.stepType = .first := by
  have hreset : Env.reset cfg s = .ok t s' → ((∃ pic, Env.render s' = .ok pic) ↔ t.stepType = .first) := by
    intro h
    obtain ⟨p, _, _, h3, _⟩ := C117_after_reset_partial cfg hl s s' t h
    exact iff_of_true ⟨_, h3⟩ (envReset_ok h).1
  cases c with
  | reset => exact hreset h
  | step a =>
    cases hq : s.requiresReset with
    | true => exact hreset (by simpa [EnvLike.call, Env.like, Env.step, hq] using h)
    | false =>
      refine iff_of_false ?_ ((env_call_ok h).2.2 hq ⟨a, rfl⟩)
      rintro ⟨pic, hp⟩
      rw [C117_after_step cfg s s' hq a t h] at hp
      cases hp

/-- C117: a new environment shows its placeholder, one silicon in the corner. -/
theorem C117_new_environment (g : G) (ga : Option G) (beam : V2 K) (goal : GoalState K) :
    Env.render (Env.fresh g ga beam goal : Env K G O P Img) =
      .ok ⟨[], [0], [goal.goal], [], none, [], (0, 1), (0, 1)⟩ := by
  unfold Env.render
  have hwf : ((Env.fresh g ga beam goal : Env K G O P Img).last.grid).WF := rfl
  rw [render_still hwf rfl]
  have : (Env.fresh g ga beam goal : Env K G O P Img).last.fov.toMicroscope goal.goal = goal.goal := by
    ext <;> simp [Env.fresh, placeholderObservation, Fov.toMicroscope, Fov.scale]
  have h1 : ofElement CARBON (Env.fresh g ga beam goal : Env K G O P Img).last.grid = [] := by
    simp [ofElement, Env.fresh, placeholderObservation, atoms, CARBON]
  have h2 : ofElement SILICON (Env.fresh g ga beam goal : Env K G O P Img).last.grid = [0] := by
    simp [ofElement, Env.fresh, placeholderObservation, atoms, SILICON]
  rw [h1, h2]
  exact congrArg (fun x => Except.ok _) rfl |>.trans (by rw [show (Env.fresh g ga beam goal : Env K G O P Img).goal = goal from rfl, this])

namespace RenderExample
open Witness EnvExample

/-- The witness of C19: rendered after a reset, after a starting step, and after a step of an episode. -/
example : cfg.sim.rng.Lawful ∧
    (∃ t, Env.reset cfg start = .ok t ((Env.like cfg).run start [.reset]).2) ∧
    Env.render ((Env.like cfg).run start [.reset]).2 = .ok ⟨[⟨53/90, 1/2⟩, ⟨1/2, 53/90⟩, ⟨37/90, 1/2⟩, ⟨1/2, 29/90⟩],
      [⟨1/2, 1/2⟩], [⟨53/90, 1/2⟩], [], none, [], (0, 1), (0, 1)⟩ ∧
    Env.render ((Env.like cfg).run start [shoot]).2 = Env.render ((Env.like cfg).run start [.reset]).2 ∧
    Env.render ((Env.like cfg).run start [shoot, idle]).2 = .error .indexError := by
  refine ⟨rng_lawful (by norm_num), ?_, by decide +kernel, by decide +kernel, by decide +kernel⟩
  cases h : Env.reset cfg start with
  | ok t s' => exact ⟨t, by simp [EnvLike.run, EnvLike.call, Env.like, h]⟩
  | error e s' =>
    have : (match Env.reset cfg start with | .ok _ _ => true | .error _ _ => false) = true := by decide +kernel
    rw [h] at this; cases this

end RenderExample

end render

/-! ### C118 the pictures of a video -/

section video
variable {K Img : Type} [Field K] [LinearOrder K] [IsStrictOrderedRing K]

/-- The same points in the two pictures of a frame: those of `view` are where those of `sheet` lie in the field
of view, and a point is within the axes of the view exactly if it is within the outline on the sheet. -/
def SameThings (f : Fov K) (sheet view : List (V2 K)) : Prop :=
  sheet = view.map (lerp f.lowerLeft f.upperRight) ∧
  ∀ (i : ℕ) (p q : V2 K), sheet[i]? = some p → view[i]? = some q →
    (Inside f.lowerLeft f.upperRight p ↔ Inside 0 ⟨1, 1⟩ q)

/-- The closed path around a rectangle. -/
def around (ll ur : V2 K) : List (V2 K) := [ll, ⟨ur.x, ll.y⟩, ur, ⟨ll.x, ur.y⟩, ll]

/-- The smallest interval with all values, widened by a twentieth of its length at both ends. -/
def Frames (xs : List K) (lim : K × K) : Prop :=
  ∃ lo hi, IsLeast {x | x ∈ xs} lo ∧ IsGreatest {x | x ∈ xs} hi ∧
    lim = (lo - (hi - lo) / 20, hi + (hi - lo) / 20)

theorem lerp_toMicroscope {f : Fov K} (hw : f.width ≠ 0) (hh : f.height ≠ 0) (p : V2 K) :
    lerp f.lowerLeft f.upperRight (f.toMicroscope p) = p := by
  have hx : f.upperRight.x - f.lowerLeft.x ≠ 0 := hw
  have hy : f.upperRight.y - f.lowerLeft.y ≠ 0 := hh
  ext <;> simp [Fov.toMicroscope, Fov.scale, lerp] <;> field_simp <;> simp

theorem sameThings_map {f : Fov K} (hw : 0 < f.width) (hh : 0 < f.height) (l : List (V2 K)) :
    SameThings f l (l.map f.toMicroscope) := by
  refine ⟨?_, ?_⟩
  · rw [List.map_map]
    conv_lhs => rw [← List.map_id l]
    exact List.map_congr_left (fun p _ => (lerp_toMicroscope hw.ne' hh.ne' p).symm)
  · intro i p q hp hq
    rw [List.getElem?_map, hp] at hq
    simp only [Option.map_some, Option.some.injEq] at hq
    subst hq
    have hx : 0 < f.upperRight.x - f.lowerLeft.x := hw
    have hy : 0 < f.upperRight.y - f.lowerLeft.y := hh
    simp only [Inside, Fov.toMicroscope, Fov.scale, V2.div_x, V2.div_y, V2.sub_x, V2.sub_y, V2.zero_x, V2.zero_y]
    rw [div_le_one hx, div_le_one hy, le_div_iff₀ hx, le_div_iff₀ hy]
    simp only [zero_mul, sub_nonneg, sub_le_sub_iff_right]

theorem foldl_min_least (x : K) (xs : List K) : IsLeast {y | y ∈ x :: xs} (xs.foldl min x) := by
  induction xs generalizing x with
  | nil => exact ⟨by simp, fun y hy => by simp at hy; simp [hy]⟩
  | cons a xs ih =>
    obtain ⟨h1, h2⟩ := ih (min x a)
    simp only [List.foldl_cons]
    refine ⟨?_, ?_⟩
    · simp only [Set.mem_ofPred_eq, List.mem_cons] at h1 ⊢
      rcases h1 with h1 | h1
      · rw [h1]
        rcases min_choice x a with h | h <;> simp [h]
      · exact .inr (.inr h1)
    · intro y hy
      have h0 : xs.foldl min (min x a) ≤ min x a := h2 (by simp)
      simp only [Set.mem_ofPred_eq, List.mem_cons] at hy
      rcases hy with rfl | rfl | hy
      · exact h0.trans (min_le_left _ _)
      · exact h0.trans (min_le_right _ _)
      · exact h2 (by simp [hy])

theorem foldl_max_greatest (x : K) (xs : List K) : IsGreatest {y | y ∈ x :: xs} (xs.foldl max x) := by
  induction xs generalizing x with
  | nil => exact ⟨by simp, fun y hy => by simp at hy; simp [hy]⟩
  | cons a xs ih =>
    obtain ⟨h1, h2⟩ := ih (max x a)
    simp only [List.foldl_cons]
    refine ⟨?_, ?_⟩
    · simp only [Set.mem_ofPred_eq, List.mem_cons] at h1 ⊢
      rcases h1 with h1 | h1
      · rw [h1]
        rcases max_choice x a with h | h <;> simp [h]
      · exact .inr (.inr h1)
    · intro y hy
      have h0 : max x a ≤ xs.foldl max (max x a) := h2 (by simp)
      simp only [Set.mem_ofPred_eq, List.mem_cons] at hy
      rcases hy with rfl | rfl | hy
      · exact (le_max_left _ _).trans h0
      · exact (le_max_right _ _).trans h0
      · exact h2 (by simp [hy])

theorem leastOf_ok {xs : List K} (h : xs ≠ []) : ∃ m, leastOf xs = .ok m ∧ IsLeast {x | x ∈ xs} m := by
  cases xs with
  | nil => exact absurd rfl h
  | cons x xs => exact ⟨_, rfl, foldl_min_least x xs⟩

theorem greatestOf_ok {xs : List K} (h : xs ≠ []) : ∃ m, greatestOf xs = .ok m ∧ IsGreatest {x | x ∈ xs} m := by
  cases xs with
  | nil => exact absurd rfl h
  | cons x xs => exact ⟨_, rfl, foldl_max_greatest x xs⟩

theorem paddedLimits_ok {xs : List K} (h : xs ≠ []) : ∃ lim, paddedLimits xs = .ok lim ∧ Frames xs lim := by
  obtain ⟨lo, h1, h2⟩ := leastOf_ok h
  obtain ⟨hi, h3, h4⟩ := greatestOf_ok h
  refine ⟨(lo - (hi - lo) * (1 / 20), hi + (hi - lo) * (1 / 20)), by simp only [paddedLimits, h1, h3], lo, hi, h2, h4, ?_⟩
  simp only [mul_one_div]

theorem timeStamp_none (g : Grid K) : timeStamp g none = .ok none := rfl

theorem timeStamp_ok {g : Grid K} (h : g.positions ≠ []) (t : Timedelta) :
    ∃ x y, timeStamp g (some t) = .ok (some (⟨x, y⟩, formatTimedelta t)) ∧
      IsLeast {a | a ∈ g.positions.map (·.x)} x ∧ IsLeast {a | a ∈ g.positions.map (·.y)} y := by
  obtain ⟨x, h1, h2⟩ := leastOf_ok (xs := g.positions.map (·.x)) (by simpa using h)
  obtain ⟨y, h3, h4⟩ := leastOf_ok (xs := g.positions.map (·.y)) (by simpa using h)
  exact ⟨x, y, by simp only [timeStamp, h1, h3], h2, h4⟩

theorem ofElement_map (z : ℤ) (f : Fov K) (g : Grid K) :
    ofElement z (f.gridToMicroscope g) = (ofElement z g).map f.toMicroscope := by
  simp only [ofElement, atoms, Fov.gridToMicroscope, List.zip_map_left, List.filter_map, List.map_map]
  rfl

/-- C118: a frame with a sheet, a field of view and a control is drawn twice.  The picture of the sheet shows its
carbons and silicons, the goal, the control and the field of view's outline where they are on the sheet; the limits
of its axes leave a twentieth around the atoms, and the time is written at the lower left of the atoms.  The other
picture shows the same things within the field of view, on the unit square, which is exactly what lies within the
outline.  The image is the frame's. -/
theorem C118_two_views (goal : V2 K) (fr : VideoFrame K Img) (g : Grid K) (f : Fov K) (c : V2 K)
    (hg : fr.grid = some g) (hwf : g.WF) (hne : g.positions ≠ []) (hf : fr.fov = some f) (hw : 0 < f.width)
    (hh : 0 < f.height) (hc : fr.controlPosition = some c) :
    ∃ m v, drawFrame goal fr = .ok (m, v, fr.image) ∧
      m.carbons = ofElement 6 g ∧ m.silicons = ofElement 14 g ∧ m.goal = [goal] ∧ m.control = [c] ∧
      m.outline = around f.lowerLeft f.upperRight ∧
      Frames (g.positions.map (·.x)) m.xlim ∧ Frames (g.positions.map (·.y)) m.ylim ∧
      (∃ x y, m.stamp = some (⟨x, y⟩, formatTimedelta fr.timedelta) ∧
        IsLeast {a | a ∈ g.positions.map (·.x)} x ∧ IsLeast {a | a ∈ g.positions.map (·.y)} y) ∧
      SameThings f m.carbons v.carbons ∧ SameThings f m.silicons v.silicons ∧ SameThings f m.goal v.goal ∧
      SameThings f m.control v.control ∧ v.outline = [] ∧ v.stamp = none ∧ v.xlim = (0, 1) ∧ v.ylim = (0, 1) := by
  obtain ⟨x, y, hs, hx, hy⟩ := timeStamp_ok hne fr.timedelta
  obtain ⟨xl, hxl, hxl'⟩ := paddedLimits_ok (xs := g.positions.map (·.x)) (by simpa using hne)
  obtain ⟨yl, hyl, hyl'⟩ := paddedLimits_ok (xs := g.positions.map (·.y)) (by simpa using hne)
  have hlen : ¬ g.positions.length ≠ g.numbers.length := not_not_intro hwf
  have hwf' : (f.gridToMicroscope g).WF := by simpa [Grid.WF, Fov.gridToMicroscope] using hwf
  have hlen' : ¬ (f.gridToMicroscope g).positions.length ≠ (f.gridToMicroscope g).numbers.length :=
    not_not_intro hwf'
  have hd : drawFrame goal fr = .ok
      (⟨ofElement CARBON g, ofElement SILICON g, [goal], [c], some (⟨x, y⟩, formatTimedelta fr.timedelta), fovBounds f,
        xl, yl⟩,
       ⟨ofElement CARBON (f.gridToMicroscope g), ofElement SILICON (f.gridToMicroscope g), [f.toMicroscope goal],
        [f.toMicroscope c], none, [], (0, 1), (0, 1)⟩, fr.image) := by
    simp only [drawFrame, hg, hf, hc, plotMaterialFrame, plotMicroscopeFrame, plotAtomicGrid, if_neg hlen, if_neg hlen',
      Option.map_some, Option.getD_some, markersOpt, markers, hs, hxl, hyl, maskSelect_element _ hwf,
      maskSelect_element _ hwf', timeStamp_none]
    rfl
  refine ⟨_, _, hd, rfl, rfl, rfl, rfl, rfl, hxl', hyl', ⟨x, y, rfl, hx, hy⟩, ?_, ?_, ?_, ?_, rfl, rfl, rfl, rfl⟩
  · have := ofElement_map CARBON f g
    exact this ▸ sameThings_map hw hh _
  · have := ofElement_map SILICON f g
    exact this ▸ sameThings_map hw hh _
  · exact sameThings_map hw hh [goal]
  · exact sameThings_map hw hh [c]

/-- C118: no atom is cut off in the picture of the sheet. -/
theorem C118_all_atoms (goal : V2 K) (fr : VideoFrame K Img) (g : Grid K) (hg : fr.grid = some g)
    (hwf : g.WF) (m v : FramePicture K) (i : Option Img) (h : drawFrame goal fr = .ok (m, v, i)) :
    ∀ p ∈ g.positions, Inside ⟨m.xlim.1, m.ylim.1⟩ ⟨m.xlim.2, m.ylim.2⟩ p := by
  intro p hp
  have hne : g.positions ≠ [] := List.ne_nil_of_mem hp
  obtain ⟨x, y, hs, hx, hy⟩ := timeStamp_ok hne fr.timedelta
  obtain ⟨xl, hxl, lo, hi, h1, h2, rfl⟩ := paddedLimits_ok (xs := g.positions.map (·.x)) (by simpa using hne)
  obtain ⟨yl, hyl, lo', hi', h1', h2', rfl⟩ := paddedLimits_ok (xs := g.positions.map (·.y)) (by simpa using hne)
  have hlen : ¬ g.positions.length ≠ g.numbers.length := not_not_intro hwf
  have hm : m.xlim = (lo - (hi - lo) / 20, hi + (hi - lo) / 20) ∧
      m.ylim = (lo' - (hi' - lo') / 20, hi' + (hi' - lo') / 20) := by
    simp only [drawFrame, hg] at h
    split at h
    · cases h
    · rename_i mat hmat
      simp only [plotMaterialFrame, hxl, hyl] at hmat
      split at hmat
      · cases hmat
      · simp only [Except.ok.injEq] at hmat
        split at h
        · cases h
        · split at h
          · cases h
          · split at h
            · split at h
              · cases h
              · simp only [Except.ok.injEq, Prod.mk.injEq] at h
                rw [← h.1, ← hmat]
                exact ⟨rfl, rfl⟩
            · cases h
  rw [hm.1, hm.2]
  have ha : lo ≤ p.x := h1.2 (List.mem_map.2 ⟨p, hp, rfl⟩)
  have hb : p.x ≤ hi := h2.2 (List.mem_map.2 ⟨p, hp, rfl⟩)
  have ha' : lo' ≤ p.y := h1'.2 (List.mem_map.2 ⟨p, hp, rfl⟩)
  have hb' : p.y ≤ hi' := h2'.2 (List.mem_map.2 ⟨p, hp, rfl⟩)
  have : (0 : K) ≤ (hi - lo) / 20 := div_nonneg (by linarith) (by norm_num)
  have : (0 : K) ≤ (hi' - lo') / 20 := div_nonneg (by linarith) (by norm_num)
  refine ⟨⟨?_, ?_⟩, ?_, ?_⟩ <;> simp only <;> linarith

/-- Whether a frame can be drawn, and the exception if not. -/
theorem drawFrame_outcome (goal : V2 K) (fr : VideoFrame K Img) (hwf : ∀ g, fr.grid = some g → g.WF) :
    (drawFrame goal fr).map (fun _ => ()) = plotFrame fr := by
  cases hg : fr.grid with
  | none => simp [drawFrame, plotFrame, hg, Except.map]
  | some g =>
    have hlen : ¬ g.positions.length ≠ g.numbers.length := not_not_intro (hwf g hg)
    by_cases hne : g.positions = []
    · have hn : g.numbers = [] := by
        have := hwf g hg
        rw [Grid.WF, hne] at this
        exact List.eq_nil_of_length_eq_zero this.symm
      cases hc : fr.controlPosition <;>
      simp [hn, drawFrame, plotFrame, hg, hne, Except.map, plotMaterialFrame, plotAtomicGrid, hlen, markersOpt, markers,
        timeStamp, leastOf, hc]
    · obtain ⟨x, y, hs, _, _⟩ := timeStamp_ok hne fr.timedelta
      obtain ⟨xl, hxl, _⟩ := paddedLimits_ok (xs := g.positions.map (·.x)) (by simpa using hne)
      obtain ⟨yl, hyl, _⟩ := paddedLimits_ok (xs := g.positions.map (·.y)) (by simpa using hne)
      have he : g.positions.isEmpty = false := by simpa using hne
      have hlen' : ∀ f : Fov K, ¬ (f.gridToMicroscope g).positions.length ≠ (f.gridToMicroscope g).numbers.length := by
        intro f; simpa [Fov.gridToMicroscope] using hlen
      cases hc : fr.controlPosition with
      | none =>
        cases hf : fr.fov <;>
        simp only [drawFrame, plotFrame, hg, hc, hf, plotMaterialFrame, plotAtomicGrid, if_neg hlen, Option.map_some,
          Option.map_none, markersOpt, markers, hs, hxl, hyl, he] <;> rfl
      | some c =>
        cases hf : fr.fov with
        | none =>
          simp only [drawFrame, plotFrame, hg, hc, hf, plotMaterialFrame, plotAtomicGrid, if_neg hlen, Option.map_some,
            Option.map_none, markersOpt, markers, hs, hxl, hyl, he]
          rfl
        | some f =>
          simp only [drawFrame, plotFrame, hg, hc, hf, plotMaterialFrame, plotMicroscopeFrame, plotAtomicGrid, if_neg hlen,
            if_neg (hlen' f), Option.map_some, markersOpt, markers, hs, hxl, hyl, he, timeStamp_none]
          rfl

/-- C118: all frames of a log that starts with a reset, has a control and holds sheets with atoms are drawn: one for
each control and a last one. -/
theorem C118_drawn (g : Grid K) (f : Fov K) (rest : List (LogEvent K Img)) (goal : V2 K)
    (hc : rest.filterMap LogEvent.control? ≠ [])
    (hat : ∀ e ∈ LogEvent.reset g f :: rest, ∀ g', LogEvent.grid? e = some g' → g'.WF ∧ g'.positions ≠ []) :
    (videoPictures (LogEvent.reset g f :: rest) goal).length = (rest.filterMap LogEvent.control?).length + 1 ∧
    ∀ r ∈ videoPictures (LogEvent.reset g f :: rest) goal, ∃ m v i, r = .ok (m, v, i) := by
  refine ⟨?_, ?_⟩
  · simp only [videoPictures, List.length_map, (C68_frames _).1]
    rfl
  · intro r hr
    obtain ⟨fr, hfr, rfl⟩ := List.mem_map.1 hr
    have hok := C68_drawable g f rest hc (fun e he g' hg' => (hat e he g' hg').2) fr hfr
    have hwf : ∀ g', fr.grid = some g' → g'.WF := by
      intro g' hg'
      have hmem : ∀ l : List (LogEvent K Img), (∃ b, l ++ b = LogEvent.reset g f :: rest) → replay l = some g' →
          g'.WF := by
        rintro l ⟨b, hb⟩ hl
        have := List.mem_of_getLast? hl
        obtain ⟨e, he, he'⟩ := List.mem_filterMap.1 this
        exact (hat e (by rw [← hb]; simp [he]) g' he').1
      rw [videoFrames_eq, List.mem_append] at hfr
      rcases hfr with hfr | hfr
      · obtain ⟨a, d, p, b, h1, h2⟩ := controlFrames_mem _ _ _ hfr
        rw [h2, List.nil_append] at hg'
        exact hmem a ⟨_, h1.symm⟩ hg'
      · simp only [List.mem_singleton] at hfr
        rw [hfr] at hg'
        exact hmem (LogEvent.reset g f :: rest) ⟨[], by simp⟩ hg'
    have := drawFrame_outcome goal fr hwf
    rw [hok] at this
    cases hd : drawFrame goal fr with
    | error e => rw [hd] at this; cases this
    | ok r => exact ⟨r.1, r.2.1, r.2.2, rfl⟩

namespace VideoPictureExample

/-- A silicon, a carbon and an atom of another kind on a sheet of 10 by 20 Å, seen through a window of 4 by 8 Å. -/
def sheet : Grid ℚ := ⟨[⟨0, 0⟩, ⟨10, 20⟩, ⟨2, 2⟩], [14, 6, 8]⟩
def window : Fov ℚ := ⟨⟨-2, -4⟩, ⟨2, 4⟩⟩
def log : List (LogEvent ℚ Unit) := [.reset sheet window, .takeImage 1000000 window, .applyControl 1500000 ⟨1, 1⟩]

example : videoPictures log ⟨10, 20⟩ =
    [.ok (⟨[⟨10, 20⟩], [⟨0, 0⟩], [⟨10, 20⟩], [⟨1, 1⟩], some (⟨0, 0⟩, "00:01:00".toList), around ⟨-2, -4⟩ ⟨2, 4⟩,
        (-1/2, 21/2), (-1, 21)⟩,
      ⟨[⟨3, 3⟩], [⟨1/2, 1/2⟩], [⟨3, 3⟩], [⟨3/4, 5/8⟩], none, [], (0, 1), (0, 1)⟩, none),
     .ok (⟨[⟨10, 20⟩], [⟨0, 0⟩], [⟨10, 20⟩], [⟨1, 1⟩], some (⟨0, 0⟩, "00:02:50".toList), around ⟨-2, -4⟩ ⟨2, 4⟩,
        (-1/2, 21/2), (-1, 21)⟩,
      ⟨[⟨3, 3⟩], [⟨1/2, 1/2⟩], [⟨3, 3⟩], [⟨3/4, 5/8⟩], none, [], (0, 1), (0, 1)⟩, none)] := by
  decide +kernel

/-- The hypotheses of `C118_drawn` and `C118_two_views` hold. -/
example : sheet.WF ∧ sheet.positions ≠ [] ∧ 0 < window.width ∧ 0 < window.height ∧
    (log.tail.filterMap LogEvent.control?) ≠ [] := by
  decide +kernel

end VideoPictureExample

end video

end PD.Props
