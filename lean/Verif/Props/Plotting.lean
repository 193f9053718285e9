/- C67, C68: time stamps and videos. -/
import Verif.Model.Plotting
import Verif.Spec.Simulator
import Verif.Props.Simulator

set_option linter.unusedSectionVars false
set_option linter.unusedSimpArgs false

namespace PD.Props
open PD PD.Spec

/-! ### C67 -/

theorem wholeSeconds_nonneg (t : Timedelta) (ht : 0 ≤ t) : wholeSeconds t = t / 1000000 := by
  unfold wholeSeconds
  exact Int.tdiv_eq_ediv_of_nonneg ht

theorem frac_eq (t : Timedelta) (ht : 0 ≤ t) :
    (totalSeconds t - (wholeSeconds t : ℚ)) * 100 = ((t % 1000000 : ℤ) : ℚ) / 10000 := by
  rw [wholeSeconds_nonneg t ht]
  have h := Int.mul_ediv_add_emod t 1000000
  have h' : (t : ℚ) = 1000000 * ((t / 1000000 : ℤ) : ℚ) + ((t % 1000000 : ℤ) : ℚ) := by exact_mod_cast h.symm
  unfold totalSeconds
  rw [h']
  field_simp
  ring

/-- C67: the seconds are below 60, the hundredths at most 100, and the stamp is within half a hundredth of
the time.  Missing from the full claim: the hundredths are 100 in the last 5 ms of each second, see
`C67_hundred`. -/
theorem C67_time_stamp_partial (t : Timedelta) (ht : 0 ≤ t) :
    let (m, s, c) := timeParts t
    0 ≤ m ∧ (0 ≤ s ∧ s < 60) ∧ (0 ≤ c ∧ c ≤ 100) ∧ (t % 1000000 < 995000 → c < 100) ∧
      |(m * 60 + s : ℚ) + c / 100 - t / 1000000| ≤ 1 / 2 / 100 ∧
      formatTimedelta t = pad2 m ++ [':'] ++ pad2 s ++ [':'] ++ pad2 c := by
  have hw : 0 ≤ wholeSeconds t := by rw [wholeSeconds_nonneg t ht]; positivity
  have hf := frac_eq t ht
  have hm0 : 0 ≤ t % 1000000 := Int.emod_nonneg _ (by norm_num)
  have hm1 : t % 1000000 < 1000000 := Int.emod_lt_of_pos _ (by norm_num)
  have hm0' : (0 : ℚ) ≤ ((t % 1000000 : ℤ) : ℚ) := by exact_mod_cast hm0
  have hm1' : ((t % 1000000 : ℤ) : ℚ) < 1000000 := by exact_mod_cast hm1
  refine ⟨Int.ediv_nonneg hw (by norm_num), ⟨Int.emod_nonneg _ (by norm_num), Int.emod_lt_of_pos _ (by norm_num)⟩,
    ⟨?_, ?_⟩, ?_, ?_, rfl⟩
  · rw [hf]; exact roundHalfEven_nonneg (by positivity)
  · rw [hf]
    have h := roundHalfEven_mono (x := ((t % 1000000 : ℤ) : ℚ) / 10000) (y := ((100 : ℤ) : ℚ)) (by
      rw [div_le_iff₀ (by norm_num)]; norm_num; linarith)
    rwa [roundHalfEven_intCast] at h
  · intro hlt
    rw [hf]
    have hlt' : ((t % 1000000 : ℤ) : ℚ) < 995000 := by exact_mod_cast hlt
    have h := abs_le.1 (abs_roundHalfEven_sub_le (((t % 1000000 : ℤ) : ℚ) / 10000))
    have h2 : ((t % 1000000 : ℤ) : ℚ) / 10000 < 995 / 10 := by
      rw [div_lt_iff₀ (by norm_num)]; norm_num; linarith
    have h3 : (roundHalfEven (((t % 1000000 : ℤ) : ℚ) / 10000) : ℚ) < ((100 : ℤ) : ℚ) := by
      push_cast; linarith [h.2]
    exact_mod_cast h3
  · have hs : ((wholeSeconds t / 60 : ℤ) : ℚ) * 60 + ((wholeSeconds t % 60 : ℤ) : ℚ) = (wholeSeconds t : ℚ) := by
      have := Int.mul_ediv_add_emod (wholeSeconds t) 60
      have : (60 : ℚ) * ((wholeSeconds t / 60 : ℤ) : ℚ) + ((wholeSeconds t % 60 : ℤ) : ℚ) = (wholeSeconds t : ℚ) := by
        exact_mod_cast this
      linarith
    rw [hs]
    have h := abs_roundHalfEven_sub_le ((totalSeconds t - (wholeSeconds t : ℚ)) * 100)
    rw [abs_le] at h ⊢
    have e : (totalSeconds t : ℚ) = (t : ℚ) / 1000000 := rfl
    rw [e] at h ⊢
    constructor <;> linarith [h.1, h.2]

theorem pad2_two (n : ℤ) (h0 : 0 ≤ n) (h1 : n < 100) : (pad2 n).length = 2 ∧ ∀ c ∈ pad2 n, c.isDigit = true := by
  obtain ⟨k, rfl⟩ := Int.eq_ofNat_of_zero_le h0
  have hk : k < 100 := by omega
  clear h0 h1
  revert k
  decide

/-- C67: the shape of the stamp, for times below 100 minutes outside the last 5 ms of a second: eight
characters, digits and colons as in `MM:SS:CC`. -/
theorem C67_shape_partial (t : Timedelta) (ht : 0 ≤ t) (hlt : t < 100 * 60 * 1000000) (hc : t % 1000000 < 995000) :
    ∃ m1 m2 s1 s2 c1 c2 : Char, formatTimedelta t = [m1, m2, ':', s1, s2, ':', c1, c2] ∧
      ∀ c ∈ [m1, m2, s1, s2, c1, c2], c.isDigit = true := by
  obtain ⟨hm, hs, hcc, h4, _, hfmt⟩ := C67_time_stamp_partial t ht
  have hm100 : (timeParts t).1 < 100 := by
    show wholeSeconds t / 60 < 100
    rw [wholeSeconds_nonneg t ht]
    omega
  have key : ∀ n : ℤ, 0 ≤ n → n < 100 → ∃ a b : Char, pad2 n = [a, b] ∧ a.isDigit = true ∧ b.isDigit = true := by
    intro n h0 h1
    obtain ⟨h2, h3⟩ := pad2_two n h0 h1
    obtain ⟨a, b, hab⟩ := List.length_eq_two.1 h2
    exact ⟨a, b, hab, h3 a (by rw [hab]; simp), h3 b (by rw [hab]; simp)⟩
  obtain ⟨m1, m2, e1, d1, d2⟩ := key _ hm hm100
  obtain ⟨s1, s2, e2, d3, d4⟩ := key _ hs.1 (by have := hs.2; omega)
  obtain ⟨c1, c2, e3, d5, d6⟩ := key _ hcc.1 (h4 hc)
  refine ⟨m1, m2, s1, s2, c1, c2, ?_, by simp [d1, d2, d3, d4, d5, d6]⟩
  rw [hfmt]
  show pad2 (timeParts t).1 ++ [':'] ++ pad2 (timeParts t).2.1 ++ [':'] ++ pad2 (timeParts t).2.2 = _
  rw [show pad2 (timeParts t).1 = [m1, m2] from e1, show pad2 (timeParts t).2.1 = [s1, s2] from e2,
    show pad2 (timeParts t).2.2 = [c1, c2] from e3]
  rfl

/-- C67, false in general: in the last 5 ms of every second the hundredths are 100, without a carry. -/
theorem C67_hundred (t : Timedelta) (ht : 0 ≤ t) (h : 995000 ≤ t % 1000000) : (timeParts t).2.2 = 100 := by
  have hf := frac_eq t ht
  show roundHalfEven ((totalSeconds t - (wholeSeconds t : ℚ)) * 100) = 100
  rw [hf]
  have hm1 : t % 1000000 < 1000000 := Int.emod_lt_of_pos _ (by norm_num)
  have hm1' : ((t % 1000000 : ℤ) : ℚ) < 1000000 := by exact_mod_cast hm1
  have h' : (995000 : ℚ) ≤ ((t % 1000000 : ℤ) : ℚ) := by exact_mod_cast h
  apply le_antisymm
  · have h := roundHalfEven_mono (x := ((t % 1000000 : ℤ) : ℚ) / 10000) (y := ((100 : ℤ) : ℚ)) (by
      rw [div_le_iff₀ (by norm_num)]; norm_num; linarith)
    rwa [roundHalfEven_intCast] at h
  · have h995 : roundHalfEven (199 / 2 : ℚ) = 100 := by decide +kernel
    rw [← h995]
    apply roundHalfEven_mono
    rw [le_div_iff₀ (by norm_num)]
    linarith

example : formatTimedelta 1999000 = "00:01:100".toList ∧ formatTimedelta 61250000 = "01:01:25".toList := by
  decide +kernel

/-! ### C68 -/

variable {K Img : Type}

/-- The field of view an event announces. -/
def fovOf? : LogEvent K Img → Option (Fov K)
  | .reset _ f => some f
  | .takeImage _ f => some f
  | _ => none

/-- The image an event announces. -/
def imageOf? : LogEvent K Img → Option Img
  | .generatedImage i => some i
  | _ => none

/-- What is shown after a log: the last sheet, field of view and image, the total time, and the last
control (or `p`, for the frame of a control that is just being applied). -/
def shown (l : List (LogEvent K Img)) (p : Option (V2 K)) : VideoFrame K Img :=
  ⟨replay l, (l.filterMap fovOf?).getLast?, p, logTime l, (l.filterMap imageOf?).getLast?⟩

/-- The last control of a log. -/
def lastControl (l : List (LogEvent K Img)) : Option (V2 K) :=
  ((l.filterMap LogEvent.control?).getLast?).map Prod.fst

theorem replay_snoc (l : List (LogEvent K Img)) (e : LogEvent K Img) :
    replay (l ++ [e]) = (LogEvent.grid? e).or (replay l) := by
  unfold replay
  rw [List.filterMap_append]
  cases h : LogEvent.grid? e <;> simp [h]

theorem last_snoc {β : Type} (f : LogEvent K Img → Option β) (l : List (LogEvent K Img)) (e : LogEvent K Img) :
    ((l ++ [e]).filterMap f).getLast? = (f e).or ((l.filterMap f).getLast?) := by
  rw [List.filterMap_append]
  cases h : f e <;> simp [h]

theorem logTime_snoc (l : List (LogEvent K Img)) (e : LogEvent K Img) :
    logTime (l ++ [e]) = logTime l + LogEvent.time e := by
  simp [logTime]

/-- The frames before the controls of a log. -/
def controlFrames : List (LogEvent K Img) → List (LogEvent K Img) → List (VideoFrame K Img)
  | _, [] => []
  | pre, .applyControl d p :: rest => shown pre (some p) :: controlFrames (pre ++ [.applyControl d p]) rest
  | pre, e :: rest => controlFrames (pre ++ [e]) rest

theorem foldl_video (pre rest : List (LogEvent K Img)) (frames : List (VideoFrame K Img)) :
    rest.foldl videoEvent (shown pre (lastControl pre), frames) =
      (shown (pre ++ rest) (lastControl (pre ++ rest)), frames ++ controlFrames pre rest) := by
  induction rest generalizing pre frames with
  | nil => simp [controlFrames]
  | cons e rest ih =>
    rw [List.foldl_cons]
    have hpre : pre ++ e :: rest = (pre ++ [e]) ++ rest := by simp
    have hstep : videoEvent (shown pre (lastControl pre), frames) e =
        (shown (pre ++ [e]) (lastControl (pre ++ [e])),
          frames ++ (match e with | .applyControl _ p => [shown pre (some p)] | _ => [])) := by
      cases e <;>
        simp [videoEvent, shown, replay_snoc, last_snoc, logTime_snoc, lastControl, LogEvent.grid?, fovOf?, imageOf?,
          LogEvent.time, LogEvent.control?]
    rw [hstep, ih, hpre]
    cases e <;> simp [controlFrames]

theorem videoFrames_eq (l : List (LogEvent K Img)) :
    videoFrames l = controlFrames [] l ++ [shown l (lastControl l)] := by
  unfold videoFrames
  have := foldl_video (K := K) (Img := Img) [] l []
  have h0 : (shown ([] : List (LogEvent K Img)) (lastControl ([] : List (LogEvent K Img))),
      ([] : List (VideoFrame K Img))) = (⟨none, none, none, 0, none⟩, []) := rfl
  rw [h0] at this
  rw [this]
  simp

theorem controlFrames_length (pre l : List (LogEvent K Img)) :
    (controlFrames pre l).length = (l.filterMap LogEvent.control?).length := by
  induction l generalizing pre with
  | nil => rfl
  | cons e l ih =>
    cases e <;> simp [controlFrames, LogEvent.control?, List.filterMap_cons, ih]

theorem controlFrames_append (pre a b : List (LogEvent K Img)) :
    controlFrames pre (a ++ b) = controlFrames pre a ++ controlFrames (pre ++ a) b := by
  induction a generalizing pre with
  | nil => simp [controlFrames]
  | cons e a ih =>
    cases e <;> simp [controlFrames, ih]

/-- C68: the video of a log has one frame for each control and a final one.  The frame of a control shows
the sheet, field of view, image and time recorded before the control, and its position; the final frame
shows those at the end, and its time stamp is the total time of the log. -/
theorem C68_frames (l : List (LogEvent K Img)) :
    (videoFrames l).length = (l.filterMap LogEvent.control?).length + 1 ∧
    (∀ pre d p post, l = pre ++ .applyControl d p :: post →
      (videoFrames l)[(pre.filterMap LogEvent.control?).length]? = some (shown pre (some p))) ∧
    (videoFrames l).getLast? = some (shown l (lastControl l)) ∧
    ∀ f, (videoFrames l).getLast? = some f → f.timedelta = logTime l ∧ f.grid = replay l := by
  rw [videoFrames_eq]
  refine ⟨by simp [controlFrames_length], ?_, by simp, ?_⟩
  · rintro pre d p post rfl
    rw [controlFrames_append]
    simp only [controlFrames, List.nil_append, List.append_assoc]
    rw [← controlFrames_length [] pre, List.getElem?_append_right (le_refl _)]
    simp
  · intro f hf
    simp at hf
    subst hf
    exact ⟨rfl, rfl⟩

theorem logTime_append (a b : List (LogEvent K Img)) : logTime (a ++ b) = logTime a + logTime b := by
  simp [logTime]

theorem controlFrames_bounds (pre l : List (LogEvent K Img)) (h : ∀ e ∈ l, 0 ≤ LogEvent.time e) :
    ((controlFrames pre l).map (·.timedelta)).Pairwise (· ≤ ·) ∧
      ∀ f ∈ controlFrames pre l, logTime pre ≤ f.timedelta ∧ f.timedelta ≤ logTime (pre ++ l) := by
  induction l generalizing pre with
  | nil => simp [controlFrames]
  | cons e l ih =>
    have he := h e (by simp)
    obtain ⟨h1, h2⟩ := ih (pre ++ [e]) (fun x hx => h x (List.mem_cons_of_mem _ hx))
    have hsnoc := logTime_snoc pre e
    have happ : pre ++ e :: l = pre ++ [e] ++ l := by simp
    have hl : 0 ≤ logTime l := by
      unfold logTime
      apply List.sum_nonneg
      intro x hx
      obtain ⟨y, hy, rfl⟩ := List.mem_map.1 hx
      exact h y (List.mem_cons_of_mem _ hy)
    have hrest : ∀ f ∈ controlFrames (pre ++ [e]) l,
        logTime pre ≤ f.timedelta ∧ f.timedelta ≤ logTime (pre ++ e :: l) := by
      intro f hf
      obtain ⟨a, b⟩ := h2 f hf
      rw [happ]
      exact ⟨by omega, b⟩
    have hcase : controlFrames pre (e :: l) = controlFrames (pre ++ [e]) l ∨
        ∃ p, controlFrames pre (e :: l) = shown pre (some p) :: controlFrames (pre ++ [e]) l := by
      cases e
      case applyControl d p => exact .inr ⟨p, rfl⟩
      all_goals exact .inl rfl
    rcases hcase with hc | ⟨p, hc⟩
    · rw [hc]; exact ⟨h1, hrest⟩
    · rw [hc]
      refine ⟨?_, ?_⟩
      · rw [List.map_cons, List.pairwise_cons]
        refine ⟨?_, h1⟩
        intro x hx
        obtain ⟨f, hf, rfl⟩ := List.mem_map.1 hx
        exact (hrest f hf).1
      · intro f hf
        rcases List.mem_cons.1 hf with rfl | hf
        · refine ⟨le_refl _, ?_⟩
          show logTime pre ≤ _
          rw [happ, logTime_append, hsnoc]
          omega
        · exact hrest f hf

/-- C68: time stamps never decrease, if no control or image takes negative time. -/
theorem C68_stamps_increase (l : List (LogEvent K Img)) (h : ∀ e ∈ l, 0 ≤ LogEvent.time e) :
    ((videoFrames l).map (·.timedelta)).Pairwise (· ≤ ·) := by
  obtain ⟨h1, h2⟩ := controlFrames_bounds [] l h
  rw [videoFrames_eq, List.map_append, List.pairwise_append]
  refine ⟨h1, by simp, ?_⟩
  intro a ha b hb
  obtain ⟨f, hf, rfl⟩ := List.mem_map.1 ha
  simp at hb
  subst hb
  exact (h2 f hf).2

section
variable {G P : Type} [Field K] [LinearOrder K] [IsStrictOrderedRing K] [FloorRing K]

/-- C68: for logs recorded by a simulator since a reset that returned (all calls since then having returned,
none a reset): the first stamp comes after the image of the reset, the last one is the total time the
observations reported, and the last frame shows the current sheet. -/
theorem C68_simulator (cfg : SimCfg K G (List (LogEvent K Img)) P Img)
    (hlog : cfg.handle = eventObserver) (hl : cfg.rng.Lawful) (hrate : SwapRates cfg.rate) (g : G)
    (obs0 : List (List (LogEvent K Img))) (ops0 : List (SimOp K (List (LogEvent K Img)))) (b : Bool)
    (o0 : Observation K Img) (s1 : Sim K G (List (LogEvent K Img)) P)
    (hreset : Sim.reset cfg b (Sim.run cfg (Sim.fresh g obs0) ops0).2 = .ok o0 s1)
    (ops : List (SimOp K (List (LogEvent K Img)))) (hcalls : ∀ op ∈ ops, SimOp.isCall op = true)
    (hops : NoNewEpisode ops (Sim.run cfg s1 ops).1)
    (hret : ∀ r ∈ (Sim.run cfg s1 ops).1, ∃ o, r = some (.ok o)) :
    ∀ l ∈ (Sim.run cfg s1 ops).2.ctx.obs, ∀ f, (videoFrames l).getLast? = some f →
      f.timedelta = o0.elapsedTime + reportedTime (Sim.run cfg s1 ops).1 ∧
      f.grid = (Sim.run cfg s1 ops).2.ctx.mat.grid := by
  intro l hmem f hf
  obtain ⟨h1, h2⟩ := (C68_frames l).2.2.2 f hf
  obtain ⟨_, h3⟩ := C12_log_replays cfg hlog hl hrate g obs0 ops0 b o0 s1 hreset ops hcalls hops
  obtain ⟨_, h4, _⟩ := h3 l hmem
  exact ⟨by rw [h1, C11_clocks_agree cfg hlog hl hrate g obs0 ops0 b o0 s1 hreset ops hcalls hops hret l hmem],
    by rw [h2, h4]⟩

end

theorem shown_drawable (l : List (LogEvent K Img)) (p : V2 K)
    (hg : ∃ g, replay l = some g ∧ g.positions ≠ []) (hf : ∃ f, (l.filterMap fovOf?).getLast? = some f) :
    plotFrame (shown l (some p)) = .ok () := by
  obtain ⟨g, hg, hne⟩ := hg
  obtain ⟨f, hf⟩ := hf
  have : g.positions.isEmpty = false := by simpa using hne
  simp [plotFrame, shown, hg, hf, this]

theorem controlFrames_mem (pre l : List (LogEvent K Img)) (f : VideoFrame K Img) (hf : f ∈ controlFrames pre l) :
    ∃ a d p b, l = a ++ .applyControl d p :: b ∧ f = shown (pre ++ a) (some p) := by
  induction l generalizing pre with
  | nil => simp [controlFrames] at hf
  | cons e l ih =>
    cases e with
    | applyControl d p =>
      simp only [controlFrames, List.mem_cons] at hf
      rcases hf with rfl | hf
      · exact ⟨[], d, p, l, rfl, by simp⟩
      · obtain ⟨a, d', p', b, h1, h2⟩ := ih _ hf
        exact ⟨.applyControl d p :: a, d', p', b, by rw [h1]; rfl, by rw [h2]; simp⟩
    | reset g f' =>
      obtain ⟨a, d', p', b, h1, h2⟩ := ih _ hf
      exact ⟨.reset g f' :: a, d', p', b, by rw [h1]; rfl, by rw [h2]; simp⟩
    | transition t g =>
      obtain ⟨a, d', p', b, h1, h2⟩ := ih _ hf
      exact ⟨.transition t g :: a, d', p', b, by rw [h1]; rfl, by rw [h2]; simp⟩
    | takeImage t g =>
      obtain ⟨a, d', p', b, h1, h2⟩ := ih _ hf
      exact ⟨.takeImage t g :: a, d', p', b, by rw [h1]; rfl, by rw [h2]; simp⟩
    | generatedImage t =>
      obtain ⟨a, d', p', b, h1, h2⟩ := ih _ hf
      exact ⟨.generatedImage t :: a, d', p', b, by rw [h1]; rfl, by rw [h2]; simp⟩

/-- C68: every frame of a log that starts with a reset, has a control and shows only sheets with atoms can be
drawn. -/
theorem C68_drawable (g : Grid K) (f : Fov K) (rest : List (LogEvent K Img))
    (hc : rest.filterMap LogEvent.control? ≠ [])
    (hat : ∀ e ∈ LogEvent.reset g f :: rest, ∀ g', LogEvent.grid? e = some g' → g'.positions ≠ []) :
    ∀ fr ∈ videoFrames (LogEvent.reset g f :: rest), plotFrame fr = .ok () := by
  have key : ∀ a : List (LogEvent K Img), (∃ b, a ++ b = LogEvent.reset g f :: rest) → a ≠ [] →
      (∃ g', replay a = some g' ∧ g'.positions ≠ []) ∧ ∃ f', (a.filterMap fovOf?).getLast? = some f' := by
    rintro a ⟨b, hab⟩ hne
    cases a with
    | nil => exact absurd rfl hne
    | cons x a =>
      rw [List.cons_append, List.cons.injEq] at hab
      obtain ⟨rfl, hab⟩ := hab
      constructor
      · unfold replay
        have hn : ((LogEvent.reset g f :: a : List (LogEvent K Img)).filterMap LogEvent.grid?) ≠ [] := by
          simp [LogEvent.grid?]
        refine ⟨_, List.getLast?_eq_some_getLast hn, ?_⟩
        obtain ⟨e, he, he'⟩ := List.mem_filterMap.1 (List.getLast_mem hn)
        refine hat e ?_ _ he'
        rcases List.mem_cons.1 he with rfl | h
        · simp
        · rw [← hab]; simp [h]
      · have hn : ((LogEvent.reset g f :: a : List (LogEvent K Img)).filterMap fovOf?) ≠ [] := by
          simp [fovOf?]
        exact ⟨_, List.getLast?_eq_some_getLast hn⟩
  intro fr hfr
  rw [videoFrames_eq, List.mem_append] at hfr
  rcases hfr with hfr | hfr
  · obtain ⟨a, d, p, b, h1, h2⟩ := controlFrames_mem _ _ _ hfr
    have hne : a ≠ [] := by
      rintro rfl
      simp at h1
    obtain ⟨h3, h4⟩ := key a ⟨_, h1.symm⟩ hne
    rw [h2, List.nil_append]
    exact shown_drawable a p h3 h4
  · simp only [List.mem_singleton] at hfr
    subst hfr
    obtain ⟨h3, h4⟩ := key (LogEvent.reset g f :: rest) ⟨[], by simp⟩ (by simp)
    have : ∃ p, lastControl (LogEvent.reset g f :: rest) = some p := by
      unfold lastControl
      have hn : ((LogEvent.reset g f :: rest).filterMap LogEvent.control?) ≠ [] := by
        simpa [LogEvent.control?] using hc
      rw [List.getLast?_eq_some_getLast hn]
      exact ⟨_, rfl⟩
    obtain ⟨p, hp⟩ := this
    rw [hp]
    exact shown_drawable _ p h3 h4

/-- C68: the video of a log without controls cannot be drawn: its only frame has no control position. -/
theorem C68_no_controls (l : List (LogEvent K Img)) (hc : l.filterMap LogEvent.control? = []) :
    ∃ fr e, videoFrames l = [fr] ∧ plotFrame fr = .error e := by
  have hlen := (C68_frames l).1
  rw [hc] at hlen
  obtain ⟨fr, hfr⟩ := List.length_eq_one_iff.1 hlen
  have hlast := (C68_frames l).2.2.1
  rw [hfr] at hlast
  simp at hlast
  have hl : lastControl l = none := by unfold lastControl; rw [hc]; rfl
  rw [hl] at hlast
  have : ∃ e, plotFrame fr = .error e := by
    rw [hlast]
    unfold plotFrame shown
    simp only
    split
    · exact ⟨_, rfl⟩
    · split
      · exact ⟨_, rfl⟩
      · split
        · exact ⟨_, rfl⟩
        · exact ⟨_, rfl⟩
  obtain ⟨e, he⟩ := this
  exact ⟨fr, e, hfr, he⟩

/-- A log of a reset, two controls with a transition between them, and two images. -/
def sampleLog : List (LogEvent ℚ ℕ) :=
  [.reset ⟨[⟨0, 0⟩], [6]⟩ ⟨⟨-10, -10⟩, ⟨10, 10⟩⟩, .takeImage 2000000 ⟨⟨-10, -10⟩, ⟨10, 10⟩⟩,
    .applyControl 1500000 ⟨1, 1⟩, .transition 20 ⟨[⟨0, 0⟩], [14]⟩, .applyControl 500000 ⟨2, 1⟩,
    .takeImage 2000000 ⟨⟨-5, -5⟩, ⟨5, 5⟩⟩]

example : (∀ e ∈ sampleLog, 0 ≤ LogEvent.time e) ∧ (videoFrames sampleLog).map (·.timedelta) = [2000000, 3500000, 6000000] := by
  refine ⟨?_, by decide⟩
  intro e he
  simp only [sampleLog, List.mem_cons, List.not_mem_nil, or_false] at he
  rcases he with rfl | rfl | rfl | rfl | rfl | rfl <;> decide

end PD.Props
