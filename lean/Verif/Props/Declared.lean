/- C125: what the declared actions of an adapter can do. -/
import Verif.Props.Adapters
import Verif.Spec.Experiments

set_option linter.unusedSectionVars false
set_option linter.unusedSimpArgs false

namespace PD.Props
open PD PD.Spec

variable {K G Img : Type} [Field K] [LinearOrder K] [IsStrictOrderedRing K] [FloorRing K]

/-- Placing the beam directly: the declared actions are the positions of the image, each of which is where the
beam is then placed. -/
theorem C125_direct (o : Observation K Img) (action : List K) (beam : V2 K) :
    InSpec Adapter.direct.actionSpec action ↔
      ∃ p, InUnit p ∧ action = [p.x, p.y] ∧
        Adapter.direct.getAction o action beam = .ok [BeamControl.mk' p 1500000] beam := by
  constructor
  · intro h
    rcases h with _ | ⟨hx, h⟩
    rcases h with _ | ⟨hy, h⟩
    cases h
    rename_i x y
    have hu : InUnit (⟨x, y⟩ : V2 K) := ⟨hx, hy⟩
    refine ⟨⟨x, y⟩, hu, rfl, ?_⟩
    simp only [Adapter.getAction, action2, clip2_of_inUnit hu]
    rfl
  · rintro ⟨p, hp, rfl, -⟩
    exact .cons hp.1 (.cons hp.2 .nil)

/-- Moving the beam: the declared actions are the moves by at most a tenth of the image along each axis, and a move
within the image is made in full. -/
theorem C125_moves (o : Observation K Img) (action : List K) (beam : V2 K) :
    InSpec Adapter.delta.actionSpec action ↔
      ∃ d : V2 K, |d.x| ≤ 1 / 10 ∧ |d.y| ≤ 1 / 10 ∧ action = [d.x, d.y] ∧
        (InUnit (beam + d) → Adapter.delta.getAction o action beam =
          .ok [BeamControl.mk' (beam + d) 1500000] (beam + d)) := by
  constructor
  · intro h
    rcases h with _ | ⟨hx, h⟩
    rcases h with _ | ⟨hy, h⟩
    cases h
    rename_i x y
    refine ⟨⟨x, y⟩, abs_le.2 hx, abs_le.2 hy, rfl, fun hu => ?_⟩
    have := delta_getAction o (⟨x, y⟩ : V2 K) beam
    rw [this, clip2_of_inUnit hu]
    rfl
  · rintro ⟨d, hx, hy, rfl, -⟩
    exact .cons (abs_le.1 hx) (.cons (abs_le.1 hy) .nil)

/-- Ten declared moves lead from any position of the image to any other. -/
theorem C125_ten_moves (start goal : V2 K) (hs : InUnit start) (hg : InUnit goal) :
    ∃ action, InSpec Adapter.delta.actionSpec action ∧
      ∀ os : List (Observation K Img), os.length = 10 →
        (Adapter.delta.run start (os.map (fun o => (o, action)))).2 = goal := by
  obtain ⟨⟨s1, s2⟩, s3, s4⟩ := hs
  obtain ⟨⟨g1, g2⟩, g3, g4⟩ := hg
  set d : V2 K := ⟨(goal.x - start.x) / 10, (goal.y - start.y) / 10⟩ with hd
  refine ⟨[d.x, d.y], ?_, fun os hos => ?_⟩
  · refine .cons ⟨?_, ?_⟩ (.cons ⟨?_, ?_⟩ .nil) <;> simp only [hd] <;> linarith
  · have tot : ∀ l : List (V2 K), (∀ e ∈ l, e = d) → total l = ⟨l.length * d.x, l.length * d.y⟩ := by
      intro l
      induction l with
      | nil => intro _; ext <;> simp [total]
      | cons e l ih =>
        intro h
        rw [total, ih (fun e he => h e (List.mem_cons_of_mem _ he)), h e List.mem_cons_self]
        ext <;> simp <;> ring
    have all : ∀ e ∈ (os.map (fun o => (o, d))).map Prod.snd, e = d := by
      intro e he
      simp only [List.map_map, List.mem_map] at he
      obtain ⟨_, _, h⟩ := he
      exact h.symm
    have hrun := C25_sum_of_moves start (os.map (fun o => (o, d))) (fun n h1 hn => by
      rw [tot _ (fun e he => all e (List.mem_of_mem_take he))]
      have hn' : n ≤ 10 := by simpa [hos] using hn
      have hlen : (((os.map (fun o => (o, d))).map Prod.snd).take n).length = n := by
        simp [hos, hn']
      rw [hlen]
      have hnK : (n : K) ≤ 10 := by exact_mod_cast hn'
      have hn0 : (0 : K) ≤ n := Nat.cast_nonneg n
      have key : ∀ a b : K, 0 ≤ a → a ≤ 1 → 0 ≤ b → b ≤ 1 →
          0 ≤ a + n * ((b - a) / 10) ∧ a + n * ((b - a) / 10) ≤ 1 := by
        intro a b ha ha1 hb hb1
        have e : a + n * ((b - a) / 10) = (1 - n / 10) * a + n / 10 * b := by ring
        have f1 : (0 : K) ≤ 1 - n / 10 := by linarith
        have f2 : (0 : K) ≤ n / 10 := by positivity
        rw [e]
        constructor
        · positivity
        · nlinarith [mul_le_mul_of_nonneg_left ha1 f1, mul_le_mul_of_nonneg_left hb1 f2]
      exact ⟨key _ _ s1 s2 g1 g2, key _ _ s3 s4 g3 g4⟩)
    rw [tot _ all] at hrun
    have hm : moves (os.map (fun o => (o, d))) = os.map (fun o => (o, [d.x, d.y])) := by
      simp [moves, List.map_map, Function.comp_def]
    rw [← hm, hrun]
    ext <;> simp [hos, hd] <;> ring

/-- Declared moves lead at most a tenth of the image per move along each axis, so nine do not cross it. -/
theorem C125_nine_moves (start : V2 K) (hs : InUnit start) (acts : List (Observation K Img × List K))
    (ha : ∀ a ∈ acts, InSpec Adapter.delta.actionSpec a.2) :
    |((Adapter.delta.run start acts).2).x - start.x| ≤ acts.length / 10 ∧
    |((Adapter.delta.run start acts).2).y - start.y| ≤ acts.length / 10 := by
  induction acts generalizing start with
  | nil => simp [Adapter.run]
  | cons a acts ih =>
    obtain ⟨o, act⟩ := a
    obtain ⟨d, hx, hy, rfl, -⟩ := (C125_moves o act start).1 (ha _ List.mem_cons_self)
    obtain ⟨b', hb', b1, b2⟩ := C25_move_bounded o start d hs
    have hb : InUnit b' := by
      rw [delta_getAction] at hb'
      simp only [EStateM.Result.ok.injEq] at hb'
      rw [← hb'.2]
      exact clip2_inUnit _
    obtain ⟨i1, i2⟩ := ih b' hb (fun a h => ha a (List.mem_cons_of_mem _ h))
    simp only [Adapter.run, hb', List.length_cons, Nat.cast_add, Nat.cast_one]
    set e := (Adapter.delta.run b' acts).2
    constructor
    · calc _ = |(e.x - b'.x) + (b'.x - start.x)| := by congr 1; ring
        _ ≤ |e.x - b'.x| + |b'.x - start.x| := abs_add_le _ _
        _ ≤ _ := by linarith
    · calc _ = |(e.y - b'.y) + (b'.y - start.y)| := by congr 1; ring
        _ ≤ |e.y - b'.y| + |b'.y - start.y| := abs_add_le _ _
        _ ≤ _ := by linarith

/-- The third entry of an action that asks for the dwell time `t`. -/
theorem dwell_reach (lo hi t : Timedelta) (h1 : lo ≤ t) (h2 : t ≤ hi) (x y : K) :
    ∃ more : List K, dwellOf lo hi (x :: y :: more) = .ok t ∧
      InSpec (if lo = hi then [] else [(0, 1)]) more := by
  by_cases h : lo = hi
  · subst h
    have : t = lo := le_antisymm h2 h1
    subst this
    refine ⟨[], ?_, by rw [if_pos rfl]; exact .nil⟩
    simp only [dwellOf, if_true, ofSeconds_totalSeconds]
  · have hlt : lo < hi := lt_of_le_of_ne (h1.trans h2) h
    have hK : (0 : K) < (hi : K) - lo := sub_pos.2 (by exact_mod_cast hlt)
    have k1 : (lo : K) ≤ t := by exact_mod_cast h1
    have k2 : (t : K) ≤ hi := by exact_mod_cast h2
    have m0 : (0 : K) ≤ ((t : K) - lo) / (hi - lo) := div_nonneg (by linarith) hK.le
    have m1 : ((t : K) - lo) / ((hi : K) - lo) ≤ 1 := (div_le_one hK).2 (by linarith)
    refine ⟨[((t : K) - lo) / (hi - lo)], ?_, by rw [if_neg h]; exact .cons ⟨m0, m1⟩ .nil⟩
    have hc : clip (((t : K) - lo) / (hi - lo)) 0 1 = ((t : K) - lo) / (hi - lo) := by
      simp [clip, max_eq_right m0, max_eq_left m0, min_eq_left m1, min_eq_right m1]
    have e : ((t : K) - lo) / (hi - lo) * (totalSeconds hi - totalSeconds lo) + totalSeconds lo = totalSeconds t := by
      simp only [totalSeconds]
      field_simp
      ring
    simp only [dwellOf, h, if_false, List.getElem?_cons_succ, List.getElem?_cons_zero, hc, e,
      ofSeconds_totalSeconds]

/-- Aiming relative to the silicon: every position of the image within the maximal distance of the silicon along each
axis is reached by a declared action, with every dwell time of the configured range. -/
theorem C125_relative (lo hi : Timedelta) (mx : K) (hmx : 0 < mx)
    (o : Observation K Img) (hwf : o.grid.WF) (hw : 0 < o.fov.width) (hh : 0 < o.fov.height)
    (si : V2 K) (hsi : silicons o.grid = [si]) (goal : V2 K) (hg : InUnit goal)
    (hx : |(place o goal).x - (place o si).x| ≤ mx) (hy : |(place o goal).y - (place o si).y| ≤ mx)
    (t : Timedelta) (h1 : lo ≤ t) (h2 : t ≤ hi) :
    ∃ action, InSpec (Adapter.relative lo hi mx).actionSpec action ∧
      ∀ beam, (Adapter.relative lo hi mx).getAction o action beam = .ok [BeamControl.mk' goal t] beam := by
  have hw' : o.fov.upperRight.x - o.fov.lowerLeft.x ≠ 0 := ne_of_gt hw
  have hh' : o.fov.upperRight.y - o.fov.lowerLeft.y ≠ 0 := ne_of_gt hh
  set a : V2 K := ⟨((place o goal).x - (place o si).x) / mx, ((place o goal).y - (place o si).y) / mx⟩ with ha
  have bound : ∀ v : K, |v| ≤ mx → -1 ≤ v / mx ∧ v / mx ≤ 1 := by
    intro v hv
    obtain ⟨p, q⟩ := abs_le.1 hv
    exact ⟨by rw [le_div_iff₀ hmx]; linarith, by rw [div_le_one hmx]; exact q⟩
  have ax := bound _ hx
  have ay := bound _ hy
  obtain ⟨more, hd, hm⟩ := dwell_reach (K := K) lo hi t h1 h2 a.x a.y
  refine ⟨a.x :: a.y :: more, ?_, fun beam => ?_⟩
  · simp only [Adapter.actionSpec]
    split_ifs with h
    · rw [if_pos h] at hm; exact .cons ax (.cons ay hm)
    · rw [if_neg h] at hm; exact .cons ax (.cons ay hm)
  · have hc : clip2 (⟨a.x, a.y⟩ : V2 K) (-1) 1 = a := by
      ext
      · simp only [clip2, clip]; simp [max_eq_left ax.1, max_eq_right ax.1, min_eq_left ax.2, min_eq_right ax.2, ha]
      · simp only [clip2, clip]; simp [max_eq_left ay.1, max_eq_right ay.1, min_eq_left ay.2, min_eq_right ay.2, ha]
    have hp : si + a * (⟨mx / (o.fov.upperRight.x - o.fov.lowerLeft.x),
        mx / (o.fov.upperRight.y - o.fov.lowerLeft.y)⟩ : V2 K) = goal := by
      ext
      · simp only [V2.add_x, V2.mul_x, ha, place, lerp]; field_simp; ring
      · simp only [V2.add_y, V2.mul_y, ha, place, lerp]; field_simp; ring
    simp only [Adapter.getAction, oneSilicon_ok hwf hsi, hw', hh', or_self, if_false, actionPrefix2, hc, hp, hd,
      clip2_of_inUnit hg]

/-- Aiming in angstroms: every position of the image within one angstrom of the silicon along each axis is reached by
a declared action, with every dwell time of the configured range.  (Positions farther than that are not reached
by declared actions, whatever the maximal distance, see `C125_material_short`.) -/
theorem C125_material_partial (lo hi : Timedelta) (mx : K)
    (o : Observation K Img) (hwf : o.grid.WF) (hw : 0 < o.fov.width) (hh : 0 < o.fov.height)
    (si : V2 K) (hsi : silicons o.grid = [si]) (goal : V2 K) (hg : InUnit goal)
    (hx : |(place o goal).x - (place o si).x| ≤ 1) (hy : |(place o goal).y - (place o si).y| ≤ 1)
    (t : Timedelta) (h1 : lo ≤ t) (h2 : t ≤ hi) :
    ∃ action, InSpec (Adapter.materialFrame lo hi mx).actionSpec action ∧
      ∀ beam, (Adapter.materialFrame lo hi mx).getAction o action beam = .ok [BeamControl.mk' goal t] beam := by
  set a : V2 K := ⟨(place o goal).x - (place o si).x, (place o goal).y - (place o si).y⟩ with ha
  obtain ⟨more, hd, hm⟩ := dwell_reach (K := K) lo hi t h1 h2 a.x a.y
  refine ⟨a.x :: a.y :: more, ?_, fun beam => ?_⟩
  · simp only [Adapter.actionSpec]
    split_ifs with h
    · rw [if_pos h] at hm; exact .cons (abs_le.1 hx) (.cons (abs_le.1 hy) hm)
    · rw [if_neg h] at hm; exact .cons (abs_le.1 hx) (.cons (abs_le.1 hy) hm)
  · have : o.fov.toMaterial si + (⟨a.x, a.y⟩ : V2 K) = o.fov.toMaterial goal := by
      rw [toMaterial_place, toMaterial_place]
      ext <;> simp [ha]
    simp only [Adapter.getAction, oneSilicon_ok hwf hsi, actionPrefix2, this,
      toMicroscope_toMaterial (ne_of_gt hw) (ne_of_gt hh), clip2_of_inUnit hg, hd]

/-- With declared actions the adapter that aims in angstroms never places the beam more than one angstrom from a
visible silicon along either axis, whatever its maximal distance is: a larger maximal distance has no effect. -/
theorem C125_material_short (lo hi : Timedelta) (mx : K)
    (o : Observation K Img) (hwf : o.grid.WF) (hw : 0 < o.fov.width) (hh : 0 < o.fov.height)
    (si : V2 K) (hsi : silicons o.grid = [si]) (hview : InUnit si) (action : List K)
    (ha : InSpec (Adapter.materialFrame lo hi mx).actionSpec action) (beam beam' : V2 K) (c : BeamControl K)
    (h : (Adapter.materialFrame lo hi mx).getAction o action beam = .ok [c] beam') :
    |(place o c.position).x - (place o si).x| ≤ 1 ∧ |(place o c.position).y - (place o si).y| ≤ 1 := by
  have : ∃ (a : V2 K) (more : List K), action = a.x :: a.y :: more ∧ |a.x| ≤ 1 ∧ |a.y| ≤ 1 := by
    simp only [Adapter.actionSpec] at ha
    split_ifs at ha
    all_goals
      rcases ha with _ | ⟨hx, ha⟩
      rcases ha with _ | ⟨hy, ha⟩
      exact ⟨⟨_, _⟩, _, rfl, abs_le.2 hx, abs_le.2 hy⟩
  obtain ⟨a, more, rfl, hx, hy⟩ := this
  obtain ⟨p, q⟩ := C26_offset_at_most_action lo hi mx o hwf hw hh si hsi hview a more beam beam' c h
  exact ⟨p.trans hx, q.trans hy⟩

/-- So the full claim fails for that adapter: with its default maximal distance of one bond, a neighbour of the silicon
one bond away, in the middle of the image, is not reached by any declared action. -/
theorem C125_material_neighbour_missed :
    ∃ (o : Observation ℚ Unit) (si goal : V2 ℚ), o.grid.WF ∧ silicons o.grid = [si] ∧ InUnit si ∧ InUnit goal ∧
      |(place o goal).x - (place o si).x| = BOND ∧ (place o goal).y = (place o si).y ∧
      ∀ action, InSpec (Adapter.materialFrameDefault : Adapter ℚ).actionSpec action →
        ∀ beam beam' c, (Adapter.materialFrameDefault : Adapter ℚ).getAction o action beam = .ok [c] beam' →
          c.position ≠ goal := by
  refine ⟨AdapterExample.view, ⟨4/10, 1/2⟩, ⟨4/10 + BOND / 20, 1/2⟩, by decide, by decide +kernel,
    by norm_num [InUnit, Inside], by norm_num [InUnit, Inside, BOND],
    by norm_num [place, lerp, AdapterExample.view, BOND], by norm_num [place, lerp, AdapterExample.view], ?_⟩
  intro action ha beam beam' c h he
  obtain ⟨p, -⟩ := C125_material_short 1500000 1500000 BOND AdapterExample.view (by decide)
    (by norm_num [AdapterExample.view, Fov.width]) (by norm_num [AdapterExample.view, Fov.height])
    ⟨4/10, 1/2⟩ (by decide +kernel) (by norm_num [InUnit, Inside]) action ha beam beam' c h
  rw [he] at p
  norm_num [place, lerp, AdapterExample.view, BOND] at p

/-- A position one bond to the right and two angstroms up, with a dwell time of 2.5 s. -/
example : ∃ action, InSpec (Adapter.relative 1000000 3000000 (2 : ℚ)).actionSpec action ∧
    ∀ beam, (Adapter.relative 1000000 3000000 (2 : ℚ)).getAction AdapterExample.view action beam =
      .ok [BeamControl.mk' ⟨4/10 + 142/2000, 1/2 + 2/30⟩ 2500000] beam :=
  C125_relative _ _ _ (by norm_num) _ (by decide) (by norm_num [AdapterExample.view, Fov.width])
    (by norm_num [AdapterExample.view, Fov.height]) ⟨4/10, 1/2⟩ (by decide +kernel) _ (by norm_num [InUnit, Inside])
    (by norm_num [place, lerp, AdapterExample.view, abs_le]) (by norm_num [place, lerp, AdapterExample.view, abs_le]) _ (by norm_num)
    (by norm_num)

/-- One angstrom to the right. -/
example : ∃ action, InSpec (Adapter.materialFrameDefault : Adapter ℚ).actionSpec action ∧
    ∀ beam, (Adapter.materialFrameDefault : Adapter ℚ).getAction AdapterExample.view action beam =
      .ok [BeamControl.mk' ⟨9/20, 1/2⟩ 1500000] beam :=
  C125_material_partial _ _ _ _ (by decide) (by norm_num [AdapterExample.view, Fov.width])
    (by norm_num [AdapterExample.view, Fov.height]) ⟨4/10, 1/2⟩ (by decide +kernel) _ (by norm_num [InUnit, Inside])
    (by norm_num [place, lerp, AdapterExample.view, abs_le]) (by norm_num [place, lerp, AdapterExample.view]) _ le_rfl le_rfl

/-- From one corner to the other, and the bound for nine moves. -/
example : (∃ action : List ℚ, InSpec Adapter.delta.actionSpec action ∧
      ∀ os : List (Observation ℚ Unit), os.length = 10 →
        (Adapter.delta.run 0 (os.map (fun o => (o, action)))).2 = ⟨1, 1⟩) ∧
    ∀ acts : List (Observation ℚ Unit × List ℚ), acts.length = 9 →
      (∀ a ∈ acts, InSpec Adapter.delta.actionSpec a.2) → (Adapter.delta.run 0 acts).2 ≠ ⟨1, 1⟩ := by
  refine ⟨C125_ten_moves _ _ (by norm_num [InUnit, Inside]) (by norm_num [InUnit, Inside]), ?_⟩
  intro acts h9 ha he
  have := (C125_nine_moves (0 : V2 ℚ) (by norm_num [InUnit, Inside]) acts ha).1
  rw [he, h9] at this
  norm_num at this

end PD.Props
