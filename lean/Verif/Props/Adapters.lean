/- Properties C24–C26: action adapters. -/
import Verif.Lemmas.Goal
import Verif.Spec.Adapters

set_option linter.unusedSectionVars false
set_option linter.unusedSimpArgs false

namespace PD.Props
open PD PD.Spec
variable {K G Img : Type} [Field K] [LinearOrder K] [IsStrictOrderedRing K] [FloorRing K]

theorem clip2_inUnit (p : V2 K) : InUnit (clip2 p 0 1) :=
  ⟨clip_mem _ zero_le_one, clip_mem _ zero_le_one⟩

theorem clip2_of_inUnit {p : V2 K} (h : InUnit p) : clip2 p 0 1 = p := by
  ext
  · exact clip_of_mem h.1.1 h.1.2
  · exact clip_of_mem h.2.1 h.2.2

theorem dwellOf_mem {lo hi d : Timedelta} {act : List K} (hle : lo ≤ hi)
    (h : dwellOf lo hi act = .ok d) : lo ≤ d ∧ d ≤ hi := by
  unfold dwellOf at h
  simp only at h
  split_ifs at h with heq
  · rw [ofSeconds_totalSeconds] at h
    cases h; omega
  · cases ha : act[2]? with
    | none => simp [ha] at h
    | some a =>
      simp only [ha, Except.ok.injEq] at h
      have hle' : (totalSeconds lo : K) ≤ totalSeconds hi := by
        unfold totalSeconds
        have : (lo : K) ≤ (hi : K) := by exact_mod_cast hle
        gcongr
      obtain ⟨c0, c1⟩ := clip_mem a (zero_le_one (α := K))
      constructor
      · rw [← h, ← ofSeconds_totalSeconds (K := K) lo]
        apply ofSeconds_mono
        rw [ofSeconds_totalSeconds]
        nlinarith
      · rw [← h, ← ofSeconds_totalSeconds (K := K) hi]
        apply ofSeconds_mono
        rw [ofSeconds_totalSeconds]
        nlinarith

/-! ### C24 the beam stays in view -/

/-- Whatever the action, a returned list of controls consists of one control, in the unit square,
with a dwell time in the configured range. -/
theorem C24_one_control_in_view (a : Adapter K) (hd : (dwellRange a).1 ≤ (dwellRange a).2)
    (o : Observation K Img) (act : List K) (beam beam' : V2 K) (cs : List (BeamControl K))
    (h : a.getAction o act beam = .ok cs beam') :
    ∃ c, cs = [c] ∧ InUnit c.position ∧
      (dwellRange a).1 ≤ c.dwellTime ∧ c.dwellTime ≤ (dwellRange a).2 := by
  cases a with
  | direct =>
    simp only [Adapter.getAction] at h
    cases hp : action2 act with
    | error e => simp [hp] at h
    | ok p =>
      simp only [hp, EStateM.Result.ok.injEq] at h
      exact ⟨_, h.1.symm, clip2_inUnit _, by simp [dwellRange, BeamControl.mk', fixedDwell]⟩
  | delta =>
    simp only [Adapter.getAction] at h
    cases hp : action2 act with
    | error e => simp [hp] at h
    | ok p =>
      simp only [hp, EStateM.Result.ok.injEq] at h
      exact ⟨_, h.1.symm, clip2_inUnit _, by simp [dwellRange, BeamControl.mk', fixedDwell]⟩
  | relative lo hi mx =>
    simp only [Adapter.getAction] at h
    cases hs : oneSilicon o.grid with
    | error e => simp [hs] at h
    | ok si =>
      simp only [hs] at h
      split_ifs at h with h0
      cases hp : actionPrefix2 act with
      | error e => simp [hp] at h
      | ok p =>
        cases hdw : dwellOf lo hi act with
        | error e => simp [hp, hdw] at h
        | ok d =>
          simp only [hp, hdw, EStateM.Result.ok.injEq] at h
          exact ⟨_, h.1.symm, clip2_inUnit _, dwellOf_mem hd hdw⟩
  | materialFrame lo hi mx =>
    simp only [Adapter.getAction] at h
    cases hs : oneSilicon o.grid with
    | error e => simp [hs] at h
    | ok si =>
      simp only [hs] at h
      cases hp : actionPrefix2 act with
      | error e => simp [hp] at h
      | ok p =>
        cases hdw : dwellOf lo hi act with
        | error e => simp [hp, hdw] at h
        | ok d =>
          simp only [hp, hdw, EStateM.Result.ok.injEq] at h
          exact ⟨_, h.1.symm, clip2_inUnit _, dwellOf_mem hd hdw⟩

theorem actionPrefix2_ok {act : List K} (h : 2 ≤ act.length) : ∃ p, actionPrefix2 act = .ok p := by
  match act, h with
  | x :: y :: r, _ => exact ⟨_, rfl⟩

theorem dwellOf_ok {lo hi : Timedelta} {act : List K} (h : (if lo = hi then 2 else 3) ≤ act.length) :
    ∃ d, dwellOf lo hi act = .ok d := by
  unfold dwellOf
  split_ifs at h ⊢ with heq
  · exact ⟨_, rfl⟩
  · rw [List.getElem?_eq_getElem (by omega : 2 < act.length)]
    exact ⟨_, rfl⟩

/-- For every action with the right number of entries, however far out of range, an adapter
returns controls; a silicon-relative adapter does so iff the view shows exactly one silicon, and
raises `RuntimeError` otherwise. -/
theorem C24_total (a : Adapter K) (o : Observation K Img) (hwf : o.grid.WF)
    (hw : o.fov.width ≠ 0) (hh : o.fov.height ≠ 0) (act : List K)
    (hlen : act.length = actionSize a) (beam : V2 K) :
    ((SiliconRelative a → (silicons o.grid).length = 1) →
      ∃ cs beam', a.getAction o act beam = .ok cs beam') ∧
    (SiliconRelative a → (silicons o.grid).length ≠ 1 →
      a.getAction o act beam = .error .runtimeError beam) := by
  have hone : (silicons o.grid).length = 1 → ∃ si, oneSilicon o.grid = .ok si := by
    intro h
    obtain ⟨p, hp⟩ := List.length_eq_one_iff.1 h
    exact ⟨p, by simp [oneSilicon, getSiliconPositions_eq_silicons hwf, hp]⟩
  have hnone : (silicons o.grid).length ≠ 1 → oneSilicon o.grid = .error .runtimeError := by
    intro h
    unfold oneSilicon
    rw [getSiliconPositions_eq_silicons hwf]
    match silicons o.grid, h with
    | [], _ => rfl
    | [_], h => simp at h
    | _ :: _ :: _, _ => rfl
  have hw' : o.fov.upperRight.x - o.fov.lowerLeft.x ≠ 0 := hw
  have hh' : o.fov.upperRight.y - o.fov.lowerLeft.y ≠ 0 := hh
  cases a with
  | direct =>
    refine ⟨fun _ => ?_, fun h => h.elim⟩
    simp only [actionSize] at hlen
    match act, hlen with
    | [x, y], _ => exact ⟨_, _, rfl⟩
  | delta =>
    refine ⟨fun _ => ?_, fun h => h.elim⟩
    simp only [actionSize] at hlen
    match act, hlen with
    | [x, y], _ => exact ⟨_, _, rfl⟩
  | relative lo hi mx =>
    constructor
    · intro h
      obtain ⟨si, hs⟩ := hone (h trivial)
      obtain ⟨p, hp⟩ := actionPrefix2_ok (act := act) (by rw [hlen]; simp only [actionSize]; split_ifs <;> omega)
      obtain ⟨d, hd⟩ := dwellOf_ok (act := act) (le_of_eq hlen.symm)
      exact ⟨_, _, by simp only [Adapter.getAction, hs, hp, hd, hw', hh', or_self, if_false]; rfl⟩
    · intro _ h
      simp [Adapter.getAction, hnone h]
  | materialFrame lo hi mx =>
    constructor
    · intro h
      obtain ⟨si, hs⟩ := hone (h trivial)
      obtain ⟨p, hp⟩ := actionPrefix2_ok (act := act) (by rw [hlen]; simp only [actionSize]; split_ifs <;> omega)
      obtain ⟨d, hd⟩ := dwellOf_ok (act := act) (le_of_eq hlen.symm)
      exact ⟨_, _, by simp only [Adapter.getAction, hs, hp, hd]; rfl⟩
    · intro _ h
      simp [Adapter.getAction, hnone h]

theorem oneSilicon_ok {o : Observation K Img} (hwf : o.grid.WF) {si : V2 K}
    (h : silicons o.grid = [si]) : oneSilicon o.grid = .ok si := by
  simp [oneSilicon, getSiliconPositions_eq_silicons hwf, h]

theorem clip_near {x c lo hi m : K} (hc : lo ≤ c ∧ c ≤ hi) (h : |x - c| ≤ m) :
    |clip x lo hi - c| ≤ m := by
  obtain ⟨h1, h2⟩ := abs_le.1 h
  have hm : 0 ≤ m := (abs_nonneg _).trans h
  unfold clip
  rcases le_total x lo with hx | hx
  · rw [max_eq_right hx, min_eq_right (hc.1.trans hc.2)]
    exact abs_le.2 ⟨by linarith, by linarith [hc.1]⟩
  · rw [max_eq_left hx]
    rcases le_total hi x with hy | hy
    · rw [min_eq_left hy]; exact abs_le.2 ⟨by linarith [hc.2], by linarith⟩
    · rw [min_eq_right hy]; exact h

theorem clip_abs_le_one (x : K) : |clip x (-1) 1| ≤ 1 :=
  abs_le.2 (clip_mem x (by linarith [zero_lt_one (α := K)]))

/-- The silicon-relative adapter places the beam, measured in the material, within the maximal
distance of a visible silicon along each axis; if the requested point is in view, the beam is
exactly the clipped action times the maximal distance away. -/
theorem C24_relative_distance (lo hi : Timedelta) (mx : K) (hmx : 0 ≤ mx)
    (o : Observation K Img) (hwf : o.grid.WF) (hw : 0 < o.fov.width) (hh : 0 < o.fov.height)
    (si : V2 K) (hsi : silicons o.grid = [si]) (hview : InUnit si)
    (ax ay : K) (more : List K) (beam beam' : V2 K) (c : BeamControl K)
    (h : (Adapter.relative lo hi mx).getAction o (ax :: ay :: more) beam = .ok [c] beam') :
    |(place o c.position).x - (place o si).x| ≤ mx ∧
    |(place o c.position).y - (place o si).y| ≤ mx ∧
    ∀ q, InUnit q → place o q = place o si + ⟨clip ax (-1) 1 * mx, clip ay (-1) 1 * mx⟩ →
      c.position = q := by
  have hw' : o.fov.upperRight.x - o.fov.lowerLeft.x ≠ 0 := ne_of_gt hw
  have hh' : o.fov.upperRight.y - o.fov.lowerLeft.y ≠ 0 := ne_of_gt hh
  have hw0 : 0 < o.fov.upperRight.x - o.fov.lowerLeft.x := hw
  have hh0 : 0 < o.fov.upperRight.y - o.fov.lowerLeft.y := hh
  simp only [Adapter.getAction, oneSilicon_ok hwf hsi, hw', hh', or_self, if_false,
    actionPrefix2] at h
  cases hd : dwellOf lo hi (ax :: ay :: more) with
  | error e => simp [hd] at h
  | ok d =>
    simp only [hd, EStateM.Result.ok.injEq, List.cons.injEq, and_true] at h
    obtain ⟨h, _⟩ := h
    subst h
    have key : ∀ (s a w : K), 0 ≤ s → s ≤ 1 → 0 < w →
        |clip (s + clip a (-1) 1 * (mx / w)) 0 1 - s| * w ≤ mx := by
      intro s a w hs0 hs1 hwp
      have h1 : |s + clip a (-1) 1 * (mx / w) - s| ≤ mx / w := by
        have : s + clip a (-1) 1 * (mx / w) - s = clip a (-1) 1 * (mx / w) := by ring
        rw [this, abs_mul, abs_of_nonneg (by positivity : 0 ≤ mx / w)]
        exact mul_le_of_le_one_left (by positivity) (clip_abs_le_one a)
      have h2 := clip_near ⟨hs0, hs1⟩ h1
      calc _ ≤ mx / w * w := by gcongr
        _ = mx := by field_simp
    refine ⟨?_, ?_, ?_⟩
    · have := key si.x ax _ hview.1.1 hview.1.2 hw0
      rw [← abs_of_pos hw0, ← abs_mul, abs_of_pos hw0] at this
      refine le_trans (le_of_eq ?_) this
      congr 1
      simp [place, lerp, BeamControl.mk', clip2]
      ring
    · have := key si.y ay _ hview.2.1 hview.2.2 hh0
      rw [← abs_of_pos hh0, ← abs_mul, abs_of_pos hh0] at this
      refine le_trans (le_of_eq ?_) this
      congr 1
      simp [place, lerp, BeamControl.mk', clip2]
      ring
    · intro q hq he
      have hx := congrArg V2.x he
      have hy := congrArg V2.y he
      simp only [place, lerp, V2.add_x, V2.add_y] at hx hy
      have : si + clip2 ⟨ax, ay⟩ (-1) 1 * (⟨mx / (o.fov.upperRight.x - o.fov.lowerLeft.x),
          mx / (o.fov.upperRight.y - o.fov.lowerLeft.y)⟩ : V2 K) = q := by
        ext
        · simp only [V2.add_x, V2.mul_x, clip2]; field_simp; linarith
        · simp only [V2.add_y, V2.mul_y, clip2]; field_simp; linarith
      simp only [BeamControl.mk', this]
      exact clip2_of_inUnit hq

namespace AdapterExample

/-- One silicon a little left of the middle of a 20 Å × 30 Å view. -/
def view : Observation ℚ Unit :=
  ⟨⟨[⟨4/10, 1/2⟩, ⟨6/10, 1/2⟩], [14, 6]⟩, ⟨⟨-10, -15⟩, ⟨10, 15⟩⟩, [], 2000000, none, none⟩

/-- An adapter with a variable dwell time and a wildly out-of-range action. -/
example : view.grid.WF ∧ silicons view.grid = [⟨4/10, 1/2⟩] ∧ InUnit (⟨4/10, 1/2⟩ : V2 ℚ) ∧
    (match (Adapter.relative 1000000 3000000 (3/2)).getAction view [-77, 1/3, 1/2] ⟨0, 0⟩ with
      | .ok cs _ => some (cs.map (fun c => (c.position, c.dwellTime)))
      | .error _ _ => none) = some [(⟨13/40, 31/60⟩, 2000000)] := by
  refine ⟨by decide, by decide +kernel, by norm_num [InUnit, Inside], by decide +kernel⟩

end AdapterExample

/-! ### C25 the delta adapter integrates moves -/

/-- The observations and actions of a list of moves. -/
def moves (ds : List (Observation K Img × V2 K)) : List (Observation K Img × List K) :=
  ds.map (fun d => (d.1, [d.2.x, d.2.y]))

theorem delta_getAction (o : Observation K Img) (d beam : V2 K) :
    Adapter.delta.getAction o [d.x, d.y] beam =
      .ok [BeamControl.mk' (clip2 (beam + d) 0 1) fixedDwell] (clip2 (beam + d) 0 1) := rfl

/-- Whatever actions come (also malformed ones, which raise), a beam that starts in the unit
square stays there. -/
theorem C25_stays_in_view (beam : V2 K) (hb : InUnit beam)
    (acts : List (Observation K Img × List K)) :
    InUnit ((Adapter.delta.run beam acts).2) := by
  induction acts generalizing beam with
  | nil => exact hb
  | cons a acts ih =>
    obtain ⟨o, act⟩ := a
    simp only [Adapter.run, Adapter.getAction]
    cases action2 act with
    | error e => exact ih beam hb
    | ok p => exact ih _ (clip2_inUnit _)

/-- Resetting puts the beam into the unit square. -/
theorem C25_reset_in_view (rng : Rng K G) (hl : rng.Lawful) (beam : V2 K) (g : G) :
    InUnit (Adapter.delta.reset rng beam g).1 :=
  ⟨hl.uniform_mem 0 1 g zero_le_one, hl.uniform_mem 0 1 _ zero_le_one⟩

/-- The position after a reset is made of two successive draws, the first for one axis and the second,
from the generator as the first draw left it, for the other; it does not depend on the old position. -/
theorem C25_reset_draws (rng : Rng K G) (beam : V2 K) (g g1 g2 : G) (x y : K)
    (hx : rng.uniform 0 1 g = (x, g1)) (hy : rng.uniform 0 1 g1 = (y, g2)) :
    Adapter.delta.reset rng beam g = (⟨x, y⟩, g2) := by
  simp [Adapter.reset, hx, hy]

/-- While no prefix of the moves leaves the frame, the beam is at the start plus the sum of the
moves. -/
theorem C25_sum_of_moves (beam : V2 K) (ds : List (Observation K Img × V2 K))
    (h : ∀ n, 1 ≤ n → n ≤ ds.length → InUnit (beam + total ((ds.map Prod.snd).take n))) :
    (Adapter.delta.run beam (moves ds)).2 = beam + total (ds.map Prod.snd) := by
  induction ds generalizing beam with
  | nil => ext <;> simp [moves, Adapter.run, total]
  | cons d ds ih =>
    obtain ⟨o, d⟩ := d
    have h1 : InUnit (beam + d) := by
      have := h 1 le_rfl (by simp)
      simp only [List.map_cons, List.take_succ_cons, List.take_zero, total] at this
      have e : beam + (d + 0) = beam + d := by ext <;> simp
      rwa [e] at this
    simp only [moves, List.map_cons, Adapter.run, delta_getAction, clip2_of_inUnit h1]
    have := ih (beam + d) (fun n hn hn' => by
      have := h (n + 1) (by omega) (by simpa using hn')
      simp only [List.map_cons, List.take_succ_cons, total] at this
      have e : ∀ t : V2 K, beam + (d + t) = beam + d + t := by intro t; ext <;> simp <;> ring
      rwa [e] at this)
    rw [moves] at this
    rw [this]
    ext <;> simp [total] <;> ring

/-- One move changes a beam in the frame by at most the size of the move along each axis, and the
control aims at the new beam position. -/
theorem C25_move_bounded (o : Observation K Img) (beam d : V2 K) (hb : InUnit beam) :
    ∃ beam', Adapter.delta.getAction o [d.x, d.y] beam =
        .ok [BeamControl.mk' beam' 1500000] beam' ∧
      |beam'.x - beam.x| ≤ |d.x| ∧ |beam'.y - beam.y| ≤ |d.y| := by
  refine ⟨_, delta_getAction o d beam, ?_, ?_⟩
  · exact clip_near hb.1 (by simp)
  · exact clip_near hb.2 (by simp)

/-- Three moves that stay inside, and a fourth that does not. -/
example : (Adapter.delta.run (⟨1/2, 1/2⟩ : V2 ℚ) (moves
      [(AdapterExample.view, ⟨1/10, 0⟩), (AdapterExample.view, ⟨1/10, -1/10⟩),
        (AdapterExample.view, ⟨-1/10, 0⟩)])).2 = ⟨6/10, 4/10⟩ ∧
    (Adapter.delta.run (⟨1/2, 1/2⟩ : V2 ℚ) (moves [(AdapterExample.view, ⟨7, 0⟩)])).2 = ⟨1, 1/2⟩ ∧
    InUnit (⟨1/2, 1/2⟩ : V2 ℚ) := by
  refine ⟨by decide +kernel, by decide +kernel, by norm_num [InUnit, Inside]⟩

/-! ### C26 the material-frame adapter -/

/-- The first half of C26: if the point `action` Å from the silicon is in view, the beam is aimed
exactly there.  The second half of C26 (a bound on the offset) is false, see
`C26_offset_not_bounded`. -/
theorem C26_exact_offset_partial (lo hi : Timedelta) (mx : K)
    (o : Observation K Img) (hwf : o.grid.WF) (hw : o.fov.width ≠ 0) (hh : o.fov.height ≠ 0)
    (si : V2 K) (hsi : silicons o.grid = [si])
    (a q : V2 K) (hq : InUnit q) (hqa : place o q = place o si + a) (more : List K)
    (beam beam' : V2 K) (cs : List (BeamControl K))
    (h : (Adapter.materialFrame lo hi mx).getAction o (a.x :: a.y :: more) beam = .ok cs beam') :
    ∃ c, cs = [c] ∧ c.position = q := by
  simp only [Adapter.getAction, oneSilicon_ok hwf hsi, actionPrefix2] at h
  cases hd : dwellOf lo hi (a.x :: a.y :: more) with
  | error e => simp [hd] at h
  | ok d =>
    simp only [hd, EStateM.Result.ok.injEq] at h
    obtain ⟨h, _⟩ := h
    refine ⟨_, h.symm, ?_⟩
    have : o.fov.toMaterial si + (⟨a.x, a.y⟩ : V2 K) = o.fov.toMaterial q := by
      rw [toMaterial_place, toMaterial_place, hqa]
    simp only [BeamControl.mk', this, toMicroscope_toMaterial hw hh]
    exact clip2_of_inUnit hq

/-- The second half of C26 fails: with the default arguments (max distance one bond, 1.42 Å) an
action of 5 Å puts the beam 5 Å from the silicon.  Such actions are outside the advertised
`[-1, 1]` action range; nothing clips them. -/
theorem C26_offset_not_bounded :
    ∃ (o : Observation ℚ Unit) (si : V2 ℚ) (c : BeamControl ℚ),
      o.grid.WF ∧ silicons o.grid = [si] ∧ InUnit si ∧
      (Adapter.materialFrameDefault : Adapter ℚ).getAction o [5, 0] 0 = .ok [c] 0 ∧
      (place o c.position).x - (place o si).x = 5 ∧ ¬ (5 : ℚ) ≤ BOND := by
  refine ⟨AdapterExample.view, ⟨4/10, 1/2⟩, BeamControl.mk' ⟨65/100, 1/2⟩ 1500000, by decide,
    by decide +kernel, by norm_num [InUnit, Inside], ?_, ?_, ?_⟩
  · have h1 : oneSilicon AdapterExample.view.grid = .ok ⟨4/10, 1/2⟩ := by decide +kernel
    have h2 : dwellOf 1500000 1500000 ([5, 0] : List ℚ) = .ok 1500000 := by decide +kernel
    simp only [Adapter.materialFrameDefault, Adapter.getAction, h1, actionPrefix2, h2]
    congr 2
    have : clip2 (AdapterExample.view.fov.toMicroscope
      (AdapterExample.view.fov.toMaterial ⟨4/10, 1/2⟩ + ⟨5, 0⟩)) 0 1 = (⟨65/100, 1/2⟩ : V2 ℚ) := by
      decide +kernel
    rw [this]
  · norm_num [place, lerp, AdapterExample.view, BeamControl.mk']
  · norm_num [BOND]

/-- What does hold in general: along each axis the beam is never farther from a visible silicon
than the action asks. -/
theorem C26_offset_at_most_action (lo hi : Timedelta) (mx : K)
    (o : Observation K Img) (hwf : o.grid.WF) (hw : 0 < o.fov.width) (hh : 0 < o.fov.height)
    (si : V2 K) (hsi : silicons o.grid = [si]) (hview : InUnit si)
    (a : V2 K) (more : List K) (beam beam' : V2 K) (c : BeamControl K)
    (h : (Adapter.materialFrame lo hi mx).getAction o (a.x :: a.y :: more) beam = .ok [c] beam') :
    |(place o c.position).x - (place o si).x| ≤ |a.x| ∧
    |(place o c.position).y - (place o si).y| ≤ |a.y| := by
  have hw0 : 0 < o.fov.upperRight.x - o.fov.lowerLeft.x := hw
  have hh0 : 0 < o.fov.upperRight.y - o.fov.lowerLeft.y := hh
  simp only [Adapter.getAction, oneSilicon_ok hwf hsi, actionPrefix2] at h
  cases hd : dwellOf lo hi (a.x :: a.y :: more) with
  | error e => simp [hd] at h
  | ok d =>
    simp only [hd, EStateM.Result.ok.injEq, List.cons.injEq, and_true] at h
    obtain ⟨h, _⟩ := h
    subst h
    have key : ∀ (s t w l : K), 0 ≤ s → s ≤ 1 → 0 < w →
        |clip ((s * w + l + t - l) / w) 0 1 - s| * w ≤ |t| := by
      intro s t w l hs0 hs1 hwp
      have h1 : |(s * w + l + t - l) / w - s| ≤ |t| / w := by
        have : (s * w + l + t - l) / w - s = t / w := by field_simp; ring
        rw [this, abs_div, abs_of_pos hwp]
      have h2 := clip_near ⟨hs0, hs1⟩ h1
      calc _ ≤ |t| / w * w := by gcongr
        _ = |t| := by field_simp
    constructor
    · have := key si.x a.x _ o.fov.lowerLeft.x hview.1.1 hview.1.2 hw0
      rw [← abs_of_pos hw0, ← abs_mul, abs_of_pos hw0] at this
      refine le_trans (le_of_eq ?_) this
      congr 1
      simp [place, lerp, BeamControl.mk', clip2, Fov.toMaterial, Fov.toMicroscope, Fov.scale]
      ring
    · have := key si.y a.y _ o.fov.lowerLeft.y hview.2.1 hview.2.2 hh0
      rw [← abs_of_pos hh0, ← abs_mul, abs_of_pos hh0] at this
      refine le_trans (le_of_eq ?_) this
      congr 1
      simp [place, lerp, BeamControl.mk', clip2, Fov.toMaterial, Fov.toMicroscope, Fov.scale]
      ring

/-- The hypotheses of the exactness theorem are met by an action of (1, -2) Å. -/
example : place AdapterExample.view ⟨45/100, 13/30⟩ =
    place AdapterExample.view ⟨4/10, 1/2⟩ + ⟨1, -2⟩ ∧ InUnit (⟨45/100, 13/30⟩ : V2 ℚ) := by
  constructor
  · ext <;> norm_num [place, lerp, AdapterExample.view]
  · norm_num [InUnit, Inside]

end PD.Props
