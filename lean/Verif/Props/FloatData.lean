/- Property C143: making data points with floating point numbers. -/
import Verif.Lemmas.FloatChecks
import Verif.Spec.FloatData
import Verif.Props.NearData
import Verif.Props.FloatSheet
import Verif.Lemmas.FloatView

set_option linter.unusedSectionVars false
set_option linter.unusedSimpArgs false

namespace PD.Props
open PD PD.Spec
variable {G O P Img : Type}

theorem floatSeconds_rel (t : ℤ) :
    |(floatSeconds t : ℝ) - (t : ℝ) / 1000000| ≤ |(t : ℝ) / 1000000| * 2 ^ (-52 : ℤ) := by
  by_cases h : t = 0
  · subst h; simp [floatSeconds, f64_zero]
  have h1 : (1 : ℝ) ≤ |(t : ℝ)| := by
    have := Int.one_le_abs h
    exact_mod_cast this
  have h2 : (1 : ℝ) / 1000000 ≤ |(t : ℝ) / 1000000| := by
    rw [abs_div]
    norm_num
    linarith
  refine (abs_f64_sub_le _).trans ?_
  have h3 : (2 : ℝ) ^ (-1075 : ℤ) ≤ 1 / 1000000 * 2 ^ (-53 : ℤ) := by
    refine (zpow_le_zpow_right₀ (by norm_num) (show (-1075 : ℤ) ≤ -80 by norm_num)).trans ?_
    norm_num
  have h4 : (1 : ℝ) / 1000000 * 2 ^ (-53 : ℤ) ≤ |(t : ℝ) / 1000000| * 2 ^ (-53 : ℤ) :=
    mul_le_mul_of_nonneg_right h2 (by positivity)
  have h5 : (2 : ℝ) ^ (-52 : ℤ) = 2 * 2 ^ (-53 : ℤ) := by norm_num
  rw [h5]
  generalize (2 : ℝ) ^ (-1075 : ℤ) = τ at *
  generalize (2 : ℝ) ^ (-53 : ℤ) = u at *
  linarith

theorem dist_shift (a u v : V2 ℝ) : Spec.dist (a + u) (a + v) = Spec.dist u v := by
  unfold Spec.dist
  congr 1
  simp only [V2.add_x, V2.add_y]
  ring

theorem dist_add_sub (a b u : V2 ℝ) : Spec.dist b (a + u) = len (u - (b - a)) := by
  unfold Spec.dist len
  congr 1
  simp only [V2.add_x, V2.add_y, V2.sub_x, V2.sub_y]
  ring

/-- The data point made from what was seen, with floating point numbers, says the truth about what there is. -/
theorem Rigid.floatTells {si si' beam beam' : V2 ℝ} {nbrs n2 : List (V2 ℝ)} (h : Rigid si nbrs) (L : FloatLib) {ε : ℝ}
    (hε : ε ≤ 19 / 1000) {f f' : V2 ℝ → V2 ℝ} (hf : ∀ p ∈ si :: nbrs, Spec.dist p (f p) ≤ ε + 1 / 10 ^ 9)
    (hf' : ∀ p ∈ si :: nbrs, Spec.dist p (f' p) ≤ ε + 1 / 10 ^ 9) (hbeam' : Spec.dist beam beam' ≤ ε + 1 / 10 ^ 9)
    (box : ∀ p ∈ si :: nbrs, InBox (f p)) (box' : ∀ p ∈ si :: nbrs, InBox (f' p)) (hbox : InBox beam')
    (near : si' ∈ si :: nbrs) (c : BeamControl ℝ) (hperm : n2.Perm (nbrs.map f)) :
    ∃ d, floatMakeDataPoint L c beam' (f si) (f' si') (f si :: n2) = .ok d ∧
      FloatTells (ε + 1 / 10 ^ 6) si nbrs si' c beam d := by
  classical
  have hself : si ∉ nbrs := fun hm => by
    have := h.bonds si hm
    rw [dist_self'] at this
    norm_num at this
  have hm : ∀ p, p ∈ n2 ↔ ∃ x ∈ nbrs, f x = p := fun p => by rw [hperm.mem_iff, List.mem_map]
  have h0 : -(1 / 10 ^ 9) ≤ ε := by have := (dist_nonneg' _ _).trans (hf si List.mem_cons_self); linarith
  have hfn : ∀ p ∈ nbrs, Spec.dist p (f p) ≤ ε + 1 / 10 ^ 9 := fun p hp => hf p (List.mem_cons_of_mem _ hp)
  have far : ∀ p ∈ si :: nbrs, ∀ p' ∈ si :: nbrs, p ≠ p' → 142 / 100 ≤ Spec.dist p p' := by
    intro p hp p' hp' hne
    rcases List.mem_cons.1 hp with e | k
    · rcases List.mem_cons.1 hp' with e' | k'
      · exact absurd (e.trans e'.symm) hne
      · rw [e, h.bonds p' k']
    · rcases List.mem_cons.1 hp' with e' | k'
      · rw [e', dist_comm', h.bonds p k]
      · linarith [h.apart p k p' k' hne]
  have hinj : ∀ p ∈ si :: nbrs, ∀ p' ∈ si :: nbrs, f p = f p' → p = p' := by
    intro p hp p' hp' he
    by_contra hne
    have a := far p hp p' hp' hne
    have b := dist_tri p (f p) p'
    have c1 := hf p hp
    have c2 := hf p' hp'
    rw [← he, dist_comm'] at c2
    norm_num at c1 c2 hε
    linarith
  have hnd2 : n2.Nodup := hperm.nodup_iff.2 ((List.nodup_map_iff_inj_on h.nodup).2 (fun p hp p' hp' =>
    hinj p (List.mem_cons_of_mem _ hp) p' (List.mem_cons_of_mem _ hp')))
  have hout : f si ∉ n2 := by
    intro hmem
    obtain ⟨x, hx, e⟩ := (hm _).1 hmem
    exact hself (hinj x (List.mem_cons_of_mem _ hx) si List.mem_cons_self e ▸ hx)
  -- the places as they are after subtracting the silicon's place
  have hsub : ∀ p ∈ nbrs, len (floatSub (f p) (f si) - (f p - f si)) ≤ 2 / 10 ^ 15 := by
    intro p hp
    have a := abs_le.1 (displaced_dist (hf si List.mem_cons_self) (hfn p hp))
    rw [h.bonds p hp] at a
    have b : Spec.dist (f si) (f p) ≤ 2 := by norm_num at a hε; linarith [a.2]
    rw [dist_len] at b
    have k := abs_le_len (f p - f si)
    exact floatSub_small (k.1.trans b) (k.2.trans b)
  let F : V2 ℝ → V2 ℝ := fun p => if p = si then f si else f si + floatSub (f p) (f si)
  have hFsi : F si = f si := by simp [F]
  have hF : ∀ p ∈ nbrs, F p = f si + floatSub (f p) (f si) := by
    intro p hp
    have : p ≠ si := fun e => hself (e ▸ hp)
    simp [F, this]
  have hFd : ∀ p ∈ nbrs, F p - F si = floatSub (f p) (f si) := by
    intro p hp
    rw [hF p hp, hFsi]
    ext <;> simp
  have hFn : ∀ p ∈ si :: nbrs, Spec.dist p (F p) ≤ ε + 1 / 10 ^ 9 + 2 / 10 ^ 15 := by
    intro p hp
    rcases List.mem_cons.1 hp with rfl | hp
    · rw [hFsi]; have := hf p List.mem_cons_self; linarith [show (0 : ℝ) ≤ 2 / 10 ^ 15 by positivity]
    · have a := dist_tri p (f p) (F p)
      have b : Spec.dist (f p) (F p) ≤ 2 / 10 ^ 15 := by
        rw [hF p hp, dist_add_sub]; exact hsub p hp
      linarith [hfn p hp]
  obtain ⟨s1, s2, s3⟩ := h.seen (ε := ε + 1 / 10 ^ 9 + 2 / 10 ^ 15) (by norm_num at hε ⊢; linarith) hFn
  have hfar : ∀ p ∈ si :: nbrs, p ≠ si' → 1 / 2 < floatNorm .plain (floatSub (f p) (f' si')) := by
    intro p hp hne
    have a := abs_le.1 (displaced_dist (hf p hp) (hf' si' near))
    have b := far p hp si' near hne
    have e := abs_le.1 ((box p hp).dist_err (box' si' near))
    norm_num at a e hε ⊢
    linarith [a.1, e.1]
  have hclose : floatNorm .plain (floatSub (f si') (f' si')) < 1 / 2 := by
    have a := dist_tri (f si') si' (f' si')
    have b := hf si' near
    rw [dist_comm'] at b
    have b' := hf' si' near
    have e := abs_le.1 ((box si' near).dist_err (box' si' near))
    norm_num at b b' e hε ⊢
    linarith [e.2]
  have hx : f si' ∈ f si :: n2 := by
    rcases List.mem_cons.1 near with e | hmem
    · rw [e]; exact List.mem_cons_self
    · exact List.mem_cons_of_mem _ ((hm _).2 ⟨si', hmem, rfl⟩)
  obtain ⟨d, hd, d1, d2, d3, q', hq', dq, db, φ, hφ, dl⟩ := floatMakeDataPoint_spec L c (beam := beam') (si := f si)
    (siAfter := f' si') (x := f si') (nbrs := n2) (by rw [hperm.length_eq, List.length_map, h.three]; norm_num) hnd2 hout
    (by
      intro p hp p' hp' hne
      obtain ⟨x, hx, rfl⟩ := (hm p).1 hp
      obtain ⟨x', hx', rfl⟩ := (hm p').1 hp'
      have := s1 x hx x' hx' (fun e => hne (by rw [e]))
      rwa [hFd x hx, hFd x' hx'] at this) hx hclose
    (by
      intro p hp hne
      have : ∃ x ∈ si :: nbrs, f x = p := by
        rcases List.mem_cons.1 hp with e | hp
        · exact ⟨si, List.mem_cons_self, e.symm⟩
        · obtain ⟨x, hx, e⟩ := (hm p).1 hp
          exact ⟨x, List.mem_cons_of_mem _ hx, e⟩
      obtain ⟨x, hx, rfl⟩ := this
      exact hfar x hx (fun e => hne (by rw [e])))
  obtain ⟨q, hq, rfl⟩ := (hm q').1 hq'
  refine ⟨d, hd, ?_, d2, d3, q, hq, ?_, ?_, ?_⟩
  · rw [d1]; exact floatSeconds_rel _
  · -- the nearest neighbour
    intro p hp
    have hb1 := (hbox.diff (box si List.mem_cons_self))
    have hbs := floatSub_big (a := beam') (b := f si) (hb1.1.trans (by norm_num)) (hb1.2.trans (by norm_num))
    have hbd : Spec.dist beam (f si + floatSub beam' (f si)) ≤ ε + 1 / 10 ^ 9 + 2 / 10 ^ 10 := by
      have a := dist_tri beam beam' (f si + floatSub beam' (f si))
      rw [dist_add_sub (f si) beam'] at a
      linarith
    have key : ∀ x ∈ nbrs, |floatNorm .plain (floatSub (floatSub (f x) (f si)) (floatSub beam' (f si))) -
        Spec.dist beam x| ≤ 2 * (ε + 1 / 10 ^ 9 + 2 / 10 ^ 10) + 1 / 10 ^ 7 := by
      intro x hx
      have bx := abs_le.1 (displaced_dist (hf si List.mem_cons_self) (hfn x hx))
      rw [h.bonds x hx] at bx
      have b2 : Spec.dist (f si) (f x) ≤ 2 := by norm_num at bx hε; linarith [bx.2]
      rw [dist_len] at b2
      have k := abs_le_len (f x - f si)
      have kb := abs_le_len (floatSub beam' (f si) - (beam' - f si))
      have kx := abs_le_len (floatSub (f x) (f si) - (f x - f si))
      have hsx := hsub x hx
      simp only [V2.sub_x, V2.sub_y] at k kb kx
      have e := floatDist_err (a := floatSub (f x) (f si)) (b := floatSub beam' (f si))
        (by
          have u1 := abs_le.1 (k.1.trans b2)
          have u2 := abs_le.1 (kb.1.trans hbs)
          have u3 := abs_le.1 (kx.1.trans hsx)
          have u4 := abs_le.1 hb1.1
          norm_num at u1 u2 u3 u4
          rw [abs_le]
          constructor <;> linarith [u1.1, u1.2, u2.1, u2.2, u3.1, u3.2, u4.1, u4.2])
        (by
          have u1 := abs_le.1 (k.2.trans b2)
          have u2 := abs_le.1 (kb.2.trans hbs)
          have u3 := abs_le.1 (kx.2.trans hsx)
          have u4 := abs_le.1 hb1.2
          norm_num at u1 u2 u3 u4
          rw [abs_le]
          constructor <;> linarith [u1.1, u1.2, u2.1, u2.2, u3.1, u3.2, u4.1, u4.2])
      have hxF := hFn x (List.mem_cons_of_mem _ hx)
      rw [hF x hx] at hxF
      have a := displaced_dist (η := ε + 1 / 10 ^ 9 + 2 / 10 ^ 10) hbd (hxF.trans (by norm_num))
      rw [dist_shift, dist_comm'] at a
      have a := abs_le.1 a
      have e := abs_le.1 e
      rw [abs_le]
      constructor <;> linarith [a.1, a.2, e.1, e.2]
    have a := dq (f p) ((hm _).2 ⟨p, hp, rfl⟩)
    have k1 := abs_le.1 (key q hq)
    have k2 := abs_le.1 (key p hp)
    norm_num at k1 k2 ⊢
    linarith [k1.1, k2.2]
  · -- the beam in the frame
    have hb1 := (hbox.diff (box si List.mem_cons_self))
    have hbs := floatSub_big (a := beam') (b := f si) (hb1.1.trans (by norm_num)) (hb1.2.trans (by norm_num))
    have kb := abs_le_len (floatSub beam' (f si) - (beam' - f si))
    simp only [V2.sub_x, V2.sub_y] at kb
    have hrot := floatRotate_err L (floatSub (f q) (f si)) (b := floatSub beam' (f si))
      (by
        have u2 := abs_le.1 (kb.1.trans hbs)
        have u4 := abs_le.1 hb1.1
        norm_num at u2 u4
        rw [abs_le]
        constructor <;> linarith [u2.1, u2.2, u4.1, u4.2])
      (by
        have u2 := abs_le.1 (kb.2.trans hbs)
        have u4 := abs_le.1 hb1.2
        norm_num at u2 u4
        rw [abs_le]
        constructor <;> linarith [u2.1, u2.2, u4.1, u4.2])
    obtain ⟨w, hw, hwq⟩ : ∃ w ∈ nbrs, w ≠ q := by
      by_contra hcon
      push Not at hcon
      have hs : nbrs ⊆ [q] := fun x hx => by simp [hcon x hx]
      have := (List.subperm_of_subset h.nodup hs).length_le
      rw [h.three] at this
      simp at this
    have hlq : 0 < len (floatSub (f q) (f si)) := by
      have := (len_pos_of_dot (s1 q hq w hw (Ne.symm hwq))).1
      rwa [hFd q hq] at this
    have hlq0 : len (q - si) = 142 / 100 := by rw [← dist_len, h.bonds q hq]
    rw [rotate_along hlq.ne'] at hrot
    have hal := along_near (u := q - si) (b := beam - si) (u' := floatSub (f q) (f si)) (b' := floatSub beam' (f si))
      (by rw [hlq0]; norm_num) hlq
    have e2 := s3 q hq
    rw [hFd q hq] at e2
    have e1 : len (floatSub beam' (f si) - (beam - si)) ≤ 2 * (ε + 1 / 10 ^ 9) + 2 / 10 ^ 10 := by
      have a := hf si List.mem_cons_self
      rw [dist_toC] at a hbeam'
      rw [← norm_toC, toC_sub, toC_sub] at hbs ⊢
      have e : toC (floatSub beam' (f si)) - (toC beam - toC si) = (toC si - toC (f si)) - (toC beam - toC beam') +
        (toC (floatSub beam' (f si)) - (toC beam' - toC (f si))) := by ring
      rw [e]
      refine (norm_add_le _ _).trans ?_
      have := norm_sub_le (toC si - toC (f si)) (toC beam - toC beam')
      linarith
    rw [hlq0] at hal
    have hb0 : 0 ≤ len (beam - si) := Real.sqrt_nonneg _
    have e3 : 2 * len (floatSub (f q) (f si) - (q - si)) / (142 / 100) ≤ 3 * (ε + 1 / 10 ^ 6) := by
      rw [div_le_iff₀ (by norm_num)]
      norm_num at e2 h0 ⊢
      linarith
    have e4 := mul_le_mul_of_nonneg_right e3 hb0
    rw [db, dist_len si beam]
    refine (dist_tri _ _ _).trans ((add_le_add hrot hal).trans ?_)
    norm_num at e1 e4 ⊢
    linarith
  · -- the next state
    let θ : V2 ℝ → ℝ := fun p => pyMod (getAngle (p - si) + -getAngle (q - si)) (2 * Real.pi)
    have hθt : ∀ p ∈ nbrs, CcwAngle (q - si) (p - si) (θ p) := fun p _ => ccwAngle_pyMod _ _
    obtain ⟨w, hw, hwq⟩ : ∃ w ∈ nbrs, w ≠ q := by
      by_contra hcon
      push Not at hcon
      have hs : nbrs ⊆ [q] := fun x hx => by simp [hcon x hx]
      have := (List.subperm_of_subset h.nodup hs).length_le
      rw [h.three] at this
      simp at this
    have hlq : 0 < len (F q - F si) := (len_pos_of_dot (s1 q hq w hw (Ne.symm hwq))).1
    have hlq0 : len (q - si) = 142 / 100 := by rw [← dist_len, h.bonds q hq]
    have ord : ∀ p ∈ nbrs, ∀ p' ∈ nbrs, θ p < θ p' ↔ φ (f p) < φ (f p') := by
      intro p hp p' hp'
      have o1 := angle_order (d := fun p => p - si) hq (fun p hp p' hp' hne => by linarith [h.dots p hp p' hp' hne])
        (by rw [hlq0]; norm_num) hθt (fun p hp hne hz => by
          have := h.crosses q hq p hp hne
          rw [hz] at this
          norm_num at this) p hp p' hp'
      have o2 := angle_order (d := fun p => F p - F si) (θ := fun p => φ (f p)) hq s1 hlq
        (fun p hp => by
          have := hφ _ ((hm _).2 ⟨p, hp, rfl⟩)
          rw [← hFd q hq, ← hFd p hp] at this
          exact this) (fun p hp hne => (s2 q hq p hp hne).1) p hp p' hp'
      have er : ∀ p ∈ nbrs, sideRank (q - si) (fun p => p - si) q p =
          sideRank (F q - F si) (fun p => F p - F si) q p := by
        intro p hp
        unfold sideRank
        by_cases e : p = q
        · simp [e]
        · simp only [e, if_false, (s2 q hq p hp e).2]
      rw [o1, o2, er p hp, er p' hp']
    refine ⟨θ, hθt, ?_⟩
    rcases dl with ⟨e, hz⟩ | ⟨hmem, hn⟩
    · exact .inl ⟨hinj si' near si List.mem_cons_self e, hz⟩
    · right
      obtain ⟨x, hxn, e⟩ := (hm _).1 hmem
      have hsx := hinj x (List.mem_cons_of_mem _ hxn) si' near e
      subst hsx
      refine ⟨hxn, ?_⟩
      rw [hn]
      congr 1
      rw [(hperm.filter _).length_eq, List.filter_map, List.length_map]
      congr 1
      refine List.filter_congr (fun p hp => ?_)
      simp only [Function.comp_apply, ord p hp x hxn]

/-! ### Grids -/

/-- A field of view in which both frames are the same. -/
def unitFov : Fov ℝ := ⟨⟨0, 0⟩, ⟨1, 1⟩⟩

theorem placedOn_unit (g : Grid ℝ) : placedOn unitFov g = g := by
  have : ∀ p : V2 ℝ, lerp unitFov.lowerLeft unitFov.upperRight p = p := by
    intro p
    ext <;> simp [lerp, unitFov]
  cases g
  simp only [placedOn]
  rw [List.map_congr_left (fun p _ => this p), List.map_id']

/-- All positions of the grid are at most one width and height of the field of view from its lower left corner. -/
def WithinView (g : Grid ℝ) : Prop := ∀ p ∈ g.positions, |p.x| ≤ 1 ∧ |p.y| ≤ 1

theorem shownNear_float {ε r : ℝ} {sheet : Grid ℝ} {c : V2 ℝ} {f : Fov ℝ} {g : Grid ℝ}
    (h : ShownNear ε r sheet c f g) (hf : WithinMicrometre f) (hg : WithinView g) :
    ShownNear (ε + 1 / 10 ^ 9) r sheet c unitFov (f.floatGridToMaterial g) ∧
      ∀ p ∈ (f.floatGridToMaterial g).positions, InBox p := by
  constructor
  · obtain ⟨part, h1, h2, h3, h4, h5, h6⟩ := h
    refine ⟨part, h1, h2, h3, h4, h5, ?_⟩
    rw [placedOn_unit]
    unfold Displaced at h6 ⊢
    simp only [placedOn, Fov.floatGridToMaterial] at h6 ⊢
    rw [List.forall₂_map_right_iff] at h6 ⊢
    have h7 : List.Forall₂ (fun p q => Spec.dist p (lerp f.lowerLeft f.upperRight q) ≤ ε ∧
        (|q.x| ≤ 1 ∧ |q.y| ≤ 1)) part.positions g.positions := by
      have := (List.forall₂_and_left (p := fun q : V2 ℝ => |q.x| ≤ 1 ∧ |q.y| ≤ 1) _ _).2 ⟨hg, h6.flip⟩
      exact (this.imp (fun a b hab => ⟨hab.2, hab.1⟩)).flip
    refine h7.imp (fun p q hpq => ?_)
    have a := (floatToMaterial_err hf hpq.2).1
    linarith [dist_tri p (lerp f.lowerLeft f.upperRight q) (f.floatToMaterial q), hpq.1]
  · intro p hp
    obtain ⟨q, hq, rfl⟩ := List.mem_map.1 hp
    exact (floatToMaterial_err hf (hg q hq)).2

/-! ### C143 -/

/-- Take a generated sheet and a step from `sheet` to `sheet'` in which the silicon started from a place that looks
like graphene.  Let the two pictures of a transition show the surroundings of that place, and the silicon, with errors
of at most `ε ≤ 0.019` Å, and let the beam's place also be off by at most `ε`.  Let the fields of view be within a
micrometre of the origin, and let the positions lie in the fields of view.  If the cutoff is a bit more than `2 ε`,
making the data point with floating point numbers does not raise.  It is kept if and only if the silicon stayed or went
to one of its three true neighbours, and then it tells, up to `ε` and a millionth of an Å, what happened, with exactly
the right next state; otherwise the transition is counted as "silicon not among the neighbours". -/
theorem C143_point (L : FloatLib) {cutoff ε : ℝ} (hε : ε ≤ 19 / 1000) (hcut : 2 * ε + 1 / 10 ^ 5 ≤ cutoff) (n : ℕ)
    (offset : V2 ℝ) (angle : ℝ) {sheet sheet' : Grid ℝ} (hp : sheet.positions = layOutSheet n offset angle)
    (hp' : sheet'.positions = layOutSheet n offset angle) (hw : sheet.numbers.length = sheet.positions.length)
    (hw' : sheet'.numbers.length = sheet'.positions.length) {si si' : V2 ℝ} {nbrs : List (V2 ℝ)}
    (hsi : silicons sheet = [si]) (hsi' : silicons sheet' = [si']) (hH : Honeycomb sheet.positions si nbrs)
    {t : Transition ℝ Img} {c : BeamControl ℝ} (hc : t.controls = [c])
    (hb : ShownNear ε 3 sheet si t.fovBefore t.gridBefore)
    (ha : ShownNear ε (3 / 2) sheet' si t.fovAfter t.gridAfter) {beam : V2 ℝ}
    (hbeam : Spec.dist beam (lerp t.fovBefore.lowerLeft t.fovBefore.upperRight c.position) ≤ ε)
    (hfb : WithinMicrometre t.fovBefore) (hfa : WithinMicrometre t.fovAfter) (hgb : WithinView t.gridBefore)
    (hga : WithinView t.gridAfter) (hcp : |c.position.x| ≤ 1 ∧ |c.position.y| ≤ 1) :
    ∃ r, floatDatapointOf L cutoff t = .ok r ∧
      (∀ d, r = .inr d → (si' = si ∨ si' ∈ nbrs) ∧ FloatTells (ε + 1 / 10 ^ 6) si nbrs si' c beam d) ∧
      (∀ x, r = .inl x → x = .noSiliconNeighbor ∧ si' ≠ si ∧ si' ∉ nbrs) := by
  have h0 : 0 ≤ ε := (dist_nonneg' _ _).trans hbeam
  have hR : Rigid si nbrs := rigid_of_honeycomb n offset angle (hp ▸ hH)
  have gap : ∀ p ∈ layOutSheet n offset angle, ∀ q ∈ layOutSheet n offset angle, p ≠ q →
      2 * (ε + 1 / 10 ^ 9) < Spec.dist p q := by
    intro p hp q hq hne
    norm_num at hε ⊢
    rcases sheet_gap n offset angle hp hq hne with g | g <;> linarith
  have hfar : ∀ p ∈ layOutSheet n offset angle, p ≠ si → p ∉ nbrs → 245 / 100 ≤ Spec.dist si p := by
    intro p hpm h1 h2
    have hm : si ∈ layOutSheet n offset angle := hp ▸ hH.mem
    rcases sheet_gap n offset angle hm hpm (Ne.symm h1) with g | g
    · have := hH.far p (hp ▸ hpm) h1 h2; linarith
    · exact g
  obtain ⟨hb1, boxb⟩ := shownNear_float hb hfb hgb
  obtain ⟨ha1, boxa⟩ := shownNear_float ha hfa hga
  obtain ⟨ps, f, b1, b2, b3, b4, b5, b6, b7, b8, b9⟩ := shownNear_facts hb1 hw (by rw [hp]; exact gap) hsi
  obtain ⟨ps', f', a1, a2, a3, a4, a5, a6, a7, a8, a9⟩ := shownNear_facts ha1 hw' (by rw [hp']; exact gap) hsi'
  rw [placedOn_unit] at b2 b9 a2 a9
  rw [hp] at b5 b7 hH
  rw [hp'] at a5 a7
  have hnb : ∀ p ∈ si :: nbrs, p ∈ ps := by
    intro p hm
    rcases List.mem_cons.1 hm with rfl | hm
    · exact b8
    · exact b7 p (hH.bonds p hm).1 (by linarith [(hH.bonds p hm).2])
  have hna : ∀ p ∈ si :: nbrs, p ∈ ps' := by
    intro p hm
    rcases List.mem_cons.1 hm with rfl | hm
    · exact a7 p hH.mem (by rw [dist_self']; norm_num)
    · exact a7 p (hH.bonds p hm).1 (hH.bonds p hm).2
  have hfn : ∀ p ∈ si :: nbrs, Spec.dist p (f p) ≤ ε + 1 / 10 ^ 9 := fun p hm => (b5 p (hnb p hm)).2
  have hfn' : ∀ p ∈ si :: nbrs, Spec.dist p (f' p) ≤ ε + 1 / 10 ^ 9 := fun p hm => (a5 p (hna p hm)).2
  have hsif := hfn si List.mem_cons_self
  have hnd4 : (si :: nbrs).Nodup := List.nodup_cons.2 ⟨hH.other, hH.nodup⟩
  set before := t.fovBefore.floatGridToMaterial t.gridBefore with hbe
  set after := t.fovAfter.floatGridToMaterial t.gridAfter with haf
  have boxf : ∀ p ∈ si :: nbrs, InBox (f p) := fun p hm =>
    boxb _ (by rw [b2]; exact List.mem_map_of_mem (hnb p hm))
  have boxf' : ∀ p ∈ si :: nbrs, InBox (f' p) := fun p hm =>
    boxa _ (by rw [a2]; exact List.mem_map_of_mem (hna p hm))
  obtain ⟨n2, hn2, hperm⟩ := floatCheckBefore_ok L (before := before) (si := f si) (nbrs := nbrs.map f)
    (by rw [b2]; exact b4)
    (by
      obtain ⟨qs, q1, q2, q3⟩ := hH.ten
      have := (List.subperm_of_subset q1 (fun q hq => b7 q (q3 q hq).1
        (sheet_near n offset angle hH.mem (q3 q hq).1 (q3 q hq).2))).length_le
      rw [b2, List.length_map]; omega) boxb (by rw [b2]; exact List.mem_map_of_mem b8)
    (by
      intro x hx
      obtain ⟨p, hm, rfl⟩ := List.mem_map.1 hx
      rw [b2]; exact List.mem_map_of_mem (hnb p (List.mem_cons_of_mem _ hm)))
    (by simp [hH.three])
    ((List.nodup_map_iff_inj_on hH.nodup).2 (fun p hm q hm' e =>
          b6 p (hnb p (List.mem_cons_of_mem _ hm)) q (hnb q (List.mem_cons_of_mem _ hm')) e))
    (by
      intro hm
      obtain ⟨p, hm, e⟩ := List.mem_map.1 hm
      have := b6 p (hnb p (List.mem_cons_of_mem _ hm)) si b8 e
      exact hH.other (this ▸ hm))
    (by
      intro x hx
      obtain ⟨p, hm, rfl⟩ := List.mem_map.1 hx
      have := abs_le.1 (displaced_dist hsif (hfn p (List.mem_cons_of_mem _ hm)))
      rw [hR.bonds p hm] at this
      norm_num at this hε ⊢
      constructor <;> linarith [this.1, this.2])
    (by
      intro x hx hne hnot
      rw [b2] at hx
      obtain ⟨p, hm, rfl⟩ := List.mem_map.1 hx
      have := hfar p (b5 p hm).1 (fun e => hne (by rw [e])) (fun e => hnot (List.mem_map_of_mem e))
      have := abs_le.1 (displaced_dist hsif (b5 p hm).2)
      norm_num at this hε ⊢
      linarith [this.1])
  have hm2 : ∀ x ∈ f si :: n2, ∃ p ∈ si :: nbrs, f p = x := by
    intro x hx
    rcases List.mem_cons.1 hx with rfl | hx
    · exact ⟨si, List.mem_cons_self, rfl⟩
    · obtain ⟨p, hm, rfl⟩ := List.mem_map.1 (hperm.mem_iff.1 hx)
      exact ⟨p, List.mem_cons_of_mem _ hm, rfl⟩
  obtain ⟨res, hres, hcase⟩ := floatCheckAfter_ok L (cutoff := cutoff) (r := 2 * (ε + 1 / 10 ^ 9)) (after := after)
    (si := f si) (si' := f' si') (xs := (si :: nbrs).map f') (bs := f si :: n2) a1 (by rw [a2]; exact a4) boxa
    (boxf si List.mem_cons_self) a9 (by simp [hH.three])
    ((List.nodup_map_iff_inj_on hnd4).2 (fun p hm q hm' e => a6 p (hna p hm) q (hna q hm') e))
    (by
      intro x hx
      obtain ⟨p, hm, rfl⟩ := List.mem_map.1 hx
      refine ⟨by rw [a2]; exact List.mem_map_of_mem (hna p hm), ?_⟩
      have := abs_le.1 (displaced_dist hsif (hfn' p hm))
      have hd : Spec.dist si p ≤ 142 / 100 := by
        rcases List.mem_cons.1 hm with rfl | hm
        · rw [dist_self']; norm_num
        · rw [hR.bonds p hm]
      norm_num at this hε hd ⊢
      linarith [this.2])
    (by
      intro x hx hnot
      rw [a2] at hx
      obtain ⟨p, hm, rfl⟩ := List.mem_map.1 hx
      have hpn : p ∉ si :: nbrs := fun e => hnot (List.mem_map_of_mem e)
      rw [List.mem_cons, not_or] at hpn
      have := hfar p (a5 p hm).1 hpn.1 hpn.2
      have := abs_le.1 (displaced_dist hsif (a5 p hm).2)
      norm_num at this hε ⊢
      linarith [this.1])
    (by rw [List.length_cons, hperm.length_eq, List.length_map, hH.three])
    (by
      intro x hx
      obtain ⟨p, hm, rfl⟩ := hm2 x hx
      exact boxf p hm)
    (by norm_num at hε ⊢; linarith)
    (by
      intro x hx
      obtain ⟨p, hm, rfl⟩ := hm2 x hx
      refine ⟨f' p, List.mem_map_of_mem hm, ?_⟩
      have a := dist_tri (f p) p (f' p)
      have b := hfn p hm
      rw [dist_comm'] at b
      linarith [hfn' p hm])
    (by norm_num at hcut ⊢; linarith)
  have hxs : f' si' ∈ (si :: nbrs).map f' ↔ si' ∈ si :: nbrs := by
    constructor
    · intro hm
      obtain ⟨p, hm, e⟩ := List.mem_map.1 hm
      rw [← a6 p (hna p hm) si' a8 e]; exact hm
    · exact fun hm => List.mem_map_of_mem hm
  have hsil : getSiliconPositions before = [f si] := by rw [getSiliconPositions_eq_silicons b1]; exact b9
  have hcp' := floatToMaterial_err hfb hcp
  unfold floatDatapointOf
  rw [hc]
  dsimp only
  rw [← hbe, ← haf, hsil]
  dsimp only
  rw [hn2]
  dsimp only
  rw [hres]
  rcases hcase with ⟨rfl, k0⟩ | ⟨rfl, k0⟩
  · have hmem := hxs.1 k0
    have htri := dist_tri beam (lerp t.fovBefore.lowerLeft t.fovBefore.upperRight c.position)
      (t.fovBefore.floatToMaterial c.position)
    obtain ⟨d, hd1, hd2⟩ := hR.floatTells L hε hfn hfn' (beam := beam)
      (beam' := t.fovBefore.floatToMaterial c.position) (by linarith [hcp'.1]) boxf boxf' hcp'.2 hmem c hperm
    refine ⟨.inr d, ?_, ?_, ?_⟩
    · dsimp only
      rw [hd1]
    · intro d' hd'
      cases hd'
      exact ⟨List.mem_cons.1 hmem, hd2⟩
    · intro x hx
      cases hx
  · refine ⟨.inl .noSiliconNeighbor, rfl, ?_, ?_⟩
    · intro d hd
      cases hd
    · intro x hx
      cases hx
      rw [hxs, List.mem_cons, not_or] at k0
      exact ⟨rfl, k0⟩

/-! ### Files -/

theorem f32_within {x : ℝ} (m : ℤ) (hm : |m| ≤ 2 ^ 24) (hx : |x| ≤ m) : |f32 x| ≤ m := by
  have h1 := f32_of_mul (K := ℝ) m 0 hm (by norm_num)
  have h2 := f32_of_mul (K := ℝ) (-m) 0 (by rwa [abs_neg]) (by norm_num)
  simp only [zpow_zero, mul_one, Int.cast_neg] at h1 h2
  rw [abs_le] at hx ⊢
  constructor
  · rw [← h2]; exact f32_mono hx.1
  · rw [← h1]; exact f32_mono hx.2

theorem f32_within_one {x : ℝ} (hx : |x| ≤ 1) : |f32 x| ≤ 1 := by
  have := f32_within (x := x) 1 (by norm_num) (by simpa using hx)
  simpa using this

theorem within_kept {f : Fov ℝ} (h : WithinMicrometre f) : WithinMicrometre (keptFov f) := by
  have k : ∀ x : ℝ, |x| ≤ 10000 → |f32 x| ≤ 10000 := fun x hx => by
    have := f32_within (x := x) 10000 (by norm_num) (by simpa using hx)
    simpa using this
  exact ⟨⟨k _ h.1.1, k _ h.1.2⟩, k _ h.2.1, k _ h.2.2⟩

theorem view_kept {s : Sim ℝ G O P} {sheet : Grid ℝ} {o : Observation ℝ Img} (h : Sees s sheet o) :
    WithinView (keptObservation o).grid := by
  obtain ⟨i, si, _, _, hsi⟩ := h.doped.exists_index
  rw [getSiliconPositions_eq_silicons h.doped.wf] at hsi
  have hm := h.margin si hsi
  have m1 := hm ⟨si.x + 15 / 4, si.y + 15 / 4⟩ (by norm_num) (by norm_num)
  have m2 := hm ⟨si.x - 15 / 4, si.y - 15 / 4⟩ (by norm_num) (by norm_num)
  have hwx : o.fov.lowerLeft.x < o.fov.upperRight.x := by
    have a := m1.1.2; have b := m2.1.1; dsimp only at a b; linarith
  have hwy : o.fov.lowerLeft.y < o.fov.upperRight.y := by
    have a := m1.2.2; have b := m2.2.1; dsimp only at a b; linarith
  intro p' hp'
  obtain ⟨p, hp, rfl⟩ := List.mem_map.1 hp'
  have : lerp o.fov.lowerLeft o.fov.upperRight p ∈ (placedOn o.fov o.grid).positions := List.mem_map_of_mem hp
  rw [h.positions] at this
  have := of_decide_eq_true (List.mem_filter.1 this).2
  simp only [Inside, lerp] at this
  exact ⟨f32_within_one (lerp_in_unit hwx this.1.1 this.1.2), f32_within_one (lerp_in_unit hwy this.2.1 this.2.2)⟩

theorem recorded_float (L : FloatLib) {cutoff : ℝ} (hcut : 1 / 100 + 1 / 10 ^ 5 ≤ cutoff) {cfg : SimCfg ℝ G O P Img}
    (hk : KeepsDoping cfg.rate) (n : ℕ) (offset : V2 ℝ) (angle : ℝ) {R : ℝ} (hR : R + 11 / 2 ≤ 9970) {s : Sim ℝ G O P}
    {l : List (BeamControl ℝ × Grid ℝ × Observation ℝ Img)}
    (hrec : Recorded cfg s l) : ∀ {sheet : Grid ℝ} {o0 : Observation ℝ Img}, Sees s sheet o0 →
    sheet.positions = layOutSheet n offset angle → AllSteps Clean sheet l → AllSteps (DiscStep R (11 / 2)) sheet l →
    (∀ e ∈ l, |e.1.position.x| ≤ 1 ∧ |e.1.position.y| ≤ 1) → ∀ (data0 : List DataPoint) (c0 : Counters),
    (∀ o ∈ o0 :: l.map (fun e => e.2.2), CanWrite o.grid) ∧
    ∃ data k, floatTransitionsToDatapoints L cutoff
        (transitionsLoop true (some (heldBy (keptObservation o0))) ((l.map (fun e => e.2.2)).map keptObservation))
          data0 c0 =
        .ok (data0 ++ data, { c0 with noSiliconNeighbor := c0.noSiliconNeighbor + k }) ∧
      FloatYields (1 / 200 + 1 / 10 ^ 6) sheet o0.fov l ((l.map (fun e => e.2.2)).map keptObservation) data ∧
        data.length + k = l.length := by
  induction hrec with
  | done s =>
    intro sheet o0 h hpos hcl _ _ data0 c0
    refine ⟨?_, [], 0, by simp [transitionsLoop, floatTransitionsToDatapoints], .nil _ _, rfl⟩
    intro o ho
    simp only [List.map_nil, List.mem_cons, List.not_mem_nil, or_false] at ho
    subst ho
    exact canWrite_of_fits _ (sees_fits h)
  | @step s s' c sheet' o rest b hs hg hr ih =>
    intro sheet o0 h hpos hcl hds hcs data0 c0
    have hnd : sheet.positions.Nodup := by rw [hpos]; exact (C40_honeycomb n offset angle).1
    obtain ⟨sheet1, h1, hpos1, hctl, hview⟩ := sees_step hk h hs
    have : sheet1 = sheet' := by have := h1.grid; rw [hg] at this; cases this; rfl
    subst this
    obtain ⟨i, si, _, _, hsi⟩ := h.doped.exists_index
    obtain ⟨i', si', _, _, hsi'⟩ := h1.doped.exists_index
    rw [getSiliconPositions_eq_silicons h.doped.wf] at hsi
    rw [getSiliconPositions_eq_silicons h1.doped.wf] at hsi'
    obtain ⟨⟨nbrs, hH⟩, hdist⟩ := hcl.1 si si' hsi hsi'
    have hin : ∀ p, Spec.dist si p ≤ 3 → Inside o0.fov.lowerLeft o0.fov.upperRight p := by
      intro p hp
      exact h.margin si hsi p ((abs_x_le_dist p si).trans (by rw [dist_comm']; linarith))
        ((abs_y_le_dist p si).trans (by rw [dist_comm']; linarith))
    have hin' := hview si si' hsi hsi' hdist
    obtain ⟨hd1, hd2⟩ := hds.1 si si' hsi hsi'
    have hf : WithinMicrometre o0.fov := sees_box h hsi (by linarith)
    have hfo : WithinMicrometre o.fov := sees_box h1 hsi' (by linarith [dist_triangle0 si si'])
    have hc1 := hcs _ List.mem_cons_self
    have sh1 := sees_shown h hnd hf hin
    have sh2 := sees_shown h1 (by rw [hpos1]; exact hnd) hfo (c := si) (r := 3 / 2)
      (fun p hp => hin' p (by linarith))
    obtain ⟨r, k4, k5, k6⟩ := C143_point L (cutoff := cutoff) (ε := 1 / 200) (by norm_num) (by linarith) n offset angle
      hpos (hpos1.trans hpos) h.doped.wf.symm h1.doped.wf.symm hsi hsi' hH
      (t := ⟨(keptObservation o0).grid, (keptObservation o).grid, (keptObservation o0).fov, (keptObservation o).fov,
        (keptObservation o).controls, (keptObservation o0).image, (keptObservation o).image,
        (keptObservation o0).labelImage, (keptObservation o).labelImage⟩) (c := keptControl c)
      (by simp [keptObservation, hctl]) sh1 sh2
      (beam := lerp o0.fov.lowerLeft o0.fov.upperRight c.position)
      (lerp_kept hf (fovKept _) hc1 (pointKept _)) (within_kept hf) (within_kept hfo) (view_kept h) (view_kept h1)
      ⟨f32_within_one hc1.1, f32_within_one hc1.2⟩
    have ih' := ih h1 (hpos1.trans hpos) hcl.2 hds.2
      (fun e he => hcs e (List.mem_cons_of_mem _ he))
    refine ⟨?_, ?_⟩
    · intro o1 ho1
      rw [List.mem_cons] at ho1
      rcases ho1 with rfl | ho1
      · exact canWrite_of_fits _ (sees_fits h)
      · exact (ih' [] {}).1 o1 (by simpa using ho1)
    · simp only [List.map_cons, transitionsLoop, heldBy, List.cons_append, List.nil_append, Bool.not_true,
        Bool.false_eq_true, if_false, floatTransitionsToDatapoints, k4]
      cases r with
      | inl x =>
        obtain ⟨rfl, h6⟩ := k6 x rfl
        obtain ⟨-, data, k, e1, e2, e3⟩ := ih' data0 (c0.bump .noSiliconNeighbor)
        refine ⟨data, k + 1, ?_, .left hsi hsi' hH h6 e2, by simp; omega⟩
        simp only [heldBy] at e1
        dsimp only
        rw [e1]
        simp [Counters.bump]
        omega
      | inr d =>
        obtain ⟨h7, h8⟩ := k5 d rfl
        obtain ⟨-, data, k, e1, e2, e3⟩ := ih' (data0 ++ [d]) c0
        refine ⟨d :: data, k, ?_, .kept (c' := keptControl c) hsi hsi' hH h7 (by simp [keptObservation, hctl])
          (controlRead c) h8 e2,
          by simp; omega⟩
        simp only [heldBy] at e1
        dsimp only
        rw [e1]
        simp

/-- On generated graphene of at most 14000 columns, after any history of calls and a reset, let each step of a record
start with the silicon at most `0.71 n - 6.39` Å from the origin, move it at most 5.5 Å, and aim the beam into the
field of view.  Then the record can be written as a trajectory message, which holds positions as float32, and the data
points made with floating point numbers from what is read back are those the true sheets call for: for the same
steps, with the right next states, and with positions off by at most 0.005001 Å times the factor in `FloatTells`. -/
theorem C143_files (L : FloatLib) (cutoff : ℝ) (hcut : 1 / 100 + 1 / 10 ^ 5 ≤ cutoff) (cfg : SimCfg ℝ G O P Img) (n : ℕ)
    (hn : n ≤ 14000) (hgen : cfg.generate = generatePristineGraphene cfg.rng n)
    (hl : cfg.rng.Lawful) (hr : SwapRates cfg.rate) (g : G) (obs : List O) (ops : List (SimOp ℝ O))
    (b : Bool) (o0 : Observation ℝ Img) (s : Sim ℝ G O P)
    (hreset : Sim.reset cfg b (Sim.run cfg (Sim.fresh g obs) ops).2 = .ok o0 s)
    (sheet : Grid ℝ) (hsheet : s.ctx.mat.grid = some sheet)
    (l : List (BeamControl ℝ × Grid ℝ × Observation ℝ Img)) (hrec : Recorded cfg s l)
    (hdisc : AllSteps (DiscStep (71 / 100 * n - 639 / 100) (11 / 2)) sheet l)
    (hbeam : ∀ e ∈ l, |e.1.position.x| ≤ 1 ∧ |e.1.position.y| ≤ 1) :
    ∃ m, trajectoryToProto (o0 :: l.map (fun e => e.2.2)) = .ok m ∧
      ∃ data k, floatTransitionsToDatapoints L cutoff (trajectoriesToTransitions true [trajectoryFromProto m]) [] {} =
          .ok (data, { noSiliconNeighbor := k }) ∧
        FloatYields (1 / 200 + 1 / 10 ^ 6) sheet o0.fov l (trajectoryFromProto m).tail data ∧ data.length + k = l.length := by
  have hinv : SimInv (Sim.run cfg (Sim.fresh g obs : Sim ℝ G O P) ops).2 :=
    (SimInv.fresh g obs).run hl hr.keepsDoping ops
  obtain ⟨sheet1, h1, hpos⟩ := sees_reset hl hinv hreset
  have : sheet1 = sheet := by have := h1.grid; rw [hsheet] at this; cases this; rfl
  subst this
  obtain ⟨offset, angle, he, hx, hy, _⟩ := C40_generated cfg.rng hl n
    (Sim.run cfg (Sim.fresh g obs : Sim ℝ G O P) ops).2.ctx.g
  rw [hgen, he] at hpos
  obtain ⟨hw, data, k, e1, e2, e3⟩ := recorded_float L hcut hr.keepsDoping n offset angle
    (R := 71 / 100 * n - 639 / 100) (by have : (n : ℝ) ≤ 14000 := by exact_mod_cast hn
                                        linarith) hrec h1 hpos
    (disc_clean hr.keepsDoping hx hy hrec h1 hpos hdisc) hdisc hbeam [] {}
  obtain ⟨m, hm1, hm2⟩ := trajectoryTo _ hw
  refine ⟨m, hm1, data, k, ?_, ?_, e3⟩
  · rw [hm2]
    simpa [trajectoriesToTransitions, transitionsLoop, heldBy] using e1
  · rw [hm2]
    exact e2

/-! ### Examples -/

/-- Libraries with these errors exist. -/
noncomputable def roundedLib : FloatLib where
  angle := {
    arctan2 := fun y x => f64 (getAngle ⟨x, y⟩)
    size := fun y x => by
      have h4 : f64 (4 : ℝ) = 4 := by
        have := roundTo_of_mul (K := ℝ) 53 (-1022) 1 2 (by decide) (by norm_num) (by norm_num)
        norm_num at this
        exact this
      have h4' : f64 (-4 : ℝ) = -4 := by
        have := roundTo_of_mul (K := ℝ) 53 (-1022) (-1) 2 (by decide) (by norm_num) (by norm_num)
        norm_num at this
        exact this
      have hp := Real.pi_le_four
      have ha := abs_le.1 (Complex.abs_arg_le_pi ⟨x, y⟩)
      rw [abs_le]
      constructor
      · rw [← h4']; exact f64_mono (by unfold getAngle; linarith [ha.1])
      · conv_rhs => rw [← h4]
        exact f64_mono (by unfold getAngle; linarith [ha.2])
    err := fun y x => by
      refine ⟨0, ?_⟩
      have hp := Real.pi_le_four
      have ha : |getAngle ⟨x, y⟩| ≤ 4 := (Complex.abs_arg_le_pi ⟨x, y⟩).trans hp
      simp only [Int.cast_zero, zero_mul, add_zero]
      have h5 : |getAngle ⟨x, y⟩| * (2 : ℝ) ^ (-53 : ℤ) ≤ 4 * 2 ^ (-53 : ℤ) :=
        mul_le_mul_of_nonneg_right ha (by positivity)
      have hθ : (2 : ℝ) ^ (-1075 : ℤ) ≤ 2 ^ (-70 : ℤ) := zpow_le_zpow_right₀ (by norm_num) (by norm_num)
      refine (abs_f64_sub_le _).trans ((add_le_add h5 hθ).trans ?_)
      norm_num }
  trig := roundedTrig
  sums := inOrder
  dots := .fusedFirst
  knn := {
    query := PD.Witness.knn.query
    spec := fun ps q k hk _ _ => by
      have h := PD.Witness.knn.spec ps q k hk
      exact ⟨h.length, h.nodup, h.lt, h.sorted.imp (fun hij a b ha hb => by linarith [hij a b ha hb]),
        fun i hi j hj a b ha hb => by linarith [h.nearest i hi j hj a b ha hb]⟩ }

/-- The hypotheses of `C143_files` can be met: graphene of 50 columns, the human prior's rates, a reset and a step of
half a second, made into data points with the cutoff 0.5 Å. -/
example : ∃ o0 s sheet c sheet' o m data k, Sim.reset playCfg.sim true (Sim.run playCfg.sim
      (Sim.fresh () [] : Sim ℝ Unit Unit Unit) []).2 = .ok o0 s ∧ Recorded playCfg.sim s [(c, sheet', o)] ∧
    trajectoryToProto [o0, o] = .ok m ∧
    floatTransitionsToDatapoints roundedLib (1 / 2) (trajectoriesToTransitions true [trajectoryFromProto m]) [] {} =
      .ok (data, { noSiliconNeighbor := k }) ∧
    FloatYields (1 / 200 + 1 / 10 ^ 6) sheet o0.fov [(c, sheet', o)] (trajectoryFromProto m).tail data := by
  obtain ⟨o0, s, sheet, c, sheet', o, h1, h2, h3, h4, h5⟩ := files_met
  obtain ⟨m, hm, data, k, e1, e2, _⟩ := C143_files roundedLib (1 / 2) (by norm_num) playCfg.sim 50 (by norm_num) rfl
    playCfg_ok.1 (C39_pristine_swaps _ _) () [] [] true o0 s h1 sheet h2 _ h3 h4 h5
  exact ⟨o0, s, sheet, c, sheet', o, m, data, k, h1, h3, hm, e1, e2⟩

/-- The hypotheses of `C143_point` can be met, with pictures of the atoms within 100 Å of the origin, shifted by
0.01 Å, in a field of view of 2000 Å. -/
example : ∃ (sheet : Grid ℝ) (si : V2 ℝ) (nbrs : List (V2 ℝ)) (t : Transition ℝ Unit) (c : BeamControl ℝ),
    sheet.positions = layOutSheet 50 ⟨0, 0⟩ 0 ∧ sheet.numbers.length = sheet.positions.length ∧
    silicons sheet = [si] ∧ Honeycomb sheet.positions si nbrs ∧ t.controls = [c] ∧
    ShownNear (1 / 100) 3 sheet si t.fovBefore t.gridBefore ∧
    ShownNear (1 / 100) (3 / 2) sheet si t.fovAfter t.gridAfter ∧
    Spec.dist ⟨1, 1⟩ (lerp t.fovBefore.lowerLeft t.fovBefore.upperRight c.position) ≤ 1 / 100 ∧
    WithinMicrometre t.fovBefore ∧ WithinMicrometre t.fovAfter ∧ WithinView t.gridBefore ∧ WithinView t.gridAfter ∧
    |c.position.x| ≤ 1 ∧ |c.position.y| ≤ 1 := by
  obtain ⟨si, hm, hd⟩ := atom_near_origin 50 (by norm_num) ⟨0, 0⟩ 0 (by norm_num) (by norm_num)
  obtain ⟨nbrs, hH⟩ := C123_disc 50 ⟨0, 0⟩ 0 (by norm_num) (by norm_num) si hm (by norm_num; linarith)
  have hnd := (C40_honeycomb 50 ⟨0, 0⟩ 0).1
  set ps := layOutSheet 50 ⟨0, 0⟩ 0 with hps
  classical
  let el : V2 ℝ → ℤ := fun p => if p = si then SILICON else CARBON
  have hzip : ∀ (l : List (V2 ℝ)) (g : V2 ℝ → ℤ), l.zip (l.map g) = l.map (fun p => (p, g p)) := by
    intro l g
    induction l with
    | nil => rfl
    | cons a l ih => simp [ih]
  have hat : ∀ l : List (V2 ℝ), atoms (⟨l, l.map el⟩ : Grid ℝ) = l.map (fun p => (p, el p)) := fun l => hzip _ _
  have hsil : silicons (⟨ps, ps.map el⟩ : Grid ℝ) = [si] := by
    unfold silicons
    rw [hat, List.filter_map, List.map_map]
    have e1 : ((fun a : V2 ℝ × ℤ => decide (a.2 = SILICON)) ∘ fun p => (p, el p)) = fun p => decide (p = si) := by
      funext p
      by_cases e : p = si <;> simp [el, e, SILICON, CARBON]
    have e2 : (Prod.fst ∘ fun p : V2 ℝ => (p, el p)) = id := rfl
    rw [e1, e2, List.map_id]
    rw [List.filter_eq, List.count_eq_one_of_mem hnd hm]
    rfl
  let part := ps.filter (fun p => decide (Spec.dist ⟨0, 0⟩ p ≤ 100))
  let view : Fov ℝ := ⟨⟨-1000, -1000⟩, ⟨1000, 1000⟩⟩
  let put : V2 ℝ → V2 ℝ := fun p => ⟨(p.x + 1 / 100 + 1000) / 2000, (p.y + 1000) / 2000⟩
  let g : Grid ℝ := ⟨part.map put, part.map el⟩
  have hput : ∀ p, lerp view.lowerLeft view.upperRight (put p) = ⟨p.x + 1 / 100, p.y⟩ := by
    intro p
    ext <;> simp only [lerp, view, put] <;> ring
  have shown : ∀ r ≤ 15 / 4, ShownNear (1 / 100) r (⟨ps, ps.map el⟩ : Grid ℝ) si view g := by
    intro r hr
    refine ⟨⟨part, part.map el⟩, by simp, hnd.filter _, ?_, ?_, rfl, ?_⟩
    · intro a ha
      rw [hat] at ha ⊢
      obtain ⟨p, hp, rfl⟩ := List.mem_map.1 ha
      exact List.mem_map.2 ⟨p, List.mem_of_mem_filter hp, rfl⟩
    · intro a ha hor
      rw [hat] at ha ⊢
      obtain ⟨p, hp, rfl⟩ := List.mem_map.1 ha
      refine List.mem_map.2 ⟨p, List.mem_filter.2 ⟨hp, ?_⟩, rfl⟩
      rw [decide_eq_true_eq]
      rcases hor with e | e
      · have : p = si := by
          by_contra hne
          simp [el, hne, SILICON, CARBON] at e
        rw [this]; linarith
      · dsimp only at e
        linarith [dist_tri ⟨0, 0⟩ si p]
    · simp only [placedOn, g, List.map_map]
      refine forall₂_map_self (R := fun p q : V2 ℝ => Spec.dist p q ≤ 1 / 100) (fun p _ => ?_)
      simp only [Function.comp_apply, hput]
      refine Real.sqrt_le_iff.2 ⟨by norm_num, ?_⟩
      ring_nf
      norm_num
  have hv : WithinMicrometre view := by norm_num [WithinMicrometre, view]
  have hg : WithinView g := by
    intro q hq
    obtain ⟨p, hp, rfl⟩ := List.mem_map.1 hq
    have hp := of_decide_eq_true (List.mem_filter.1 hp).2
    have hx := abs_le.1 ((abs_x_le_dist ⟨0, 0⟩ p).trans hp)
    have hy := abs_le.1 ((abs_y_le_dist ⟨0, 0⟩ p).trans hp)
    simp only [put, abs_le]
    dsimp only at hx hy
    refine ⟨⟨?_, ?_⟩, ?_, ?_⟩ <;> linarith [hx.1, hx.2, hy.1, hy.2]
  refine ⟨⟨ps, ps.map el⟩, si, nbrs, ⟨g, g, view, view, [BeamControl.mk' (put ⟨1, 1⟩) 500000], none, none, none, none⟩,
    BeamControl.mk' (put ⟨1, 1⟩) 500000, rfl, by simp, hsil, hH, rfl, shown _ (by norm_num), shown _ (by norm_num), ?_, hv, hv,
    hg, hg, ?_, ?_⟩
  · simp only [BeamControl.mk', hput]
    refine Real.sqrt_le_iff.2 ⟨by norm_num, ?_⟩
    norm_num
  · norm_num [BeamControl.mk', put, abs_le]
  · norm_num [BeamControl.mk', put, abs_le]

end PD.Props
