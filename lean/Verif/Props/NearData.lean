/- Property C142: small errors in recorded positions do not change what the training data say. -/
import Verif.Lemmas.NearData
import Verif.Spec.NearData
import Verif.Props.Middle
import Verif.Props.Displaced
import Verif.Props.Proto

set_option linter.unusedSectionVars false
set_option linter.unusedSimpArgs false

namespace PD.Props
open PD PD.Spec
variable {G O P Img : Type}

/-! ### Neighbours in a generated sheet -/

/-- No three atoms of a generated sheet are a bond length from each other. -/
theorem no_triangle (n : ℕ) (offset : V2 ℝ) (angle : ℝ) {p q r : V2 ℝ} (hp : p ∈ layOutSheet n offset angle)
    (hq : q ∈ layOutSheet n offset angle) (hr : r ∈ layOutSheet n offset angle) (h1 : Spec.dist p q = 142 / 100)
    (h2 : Spec.dist p r = 142 / 100) (h3 : Spec.dist q r = 142 / 100) : False := by
  rw [layOutSheet_eq] at hp hq hr
  obtain ⟨u, hu, rfl⟩ := List.mem_map.1 hp
  obtain ⟨v, hv, rfl⟩ := List.mem_map.1 hq
  obtain ⟨w, hw, rfl⟩ := List.mem_map.1 hr
  obtain ⟨X, Y, _, m1, rfl, _⟩ := (mem_hexagonalGrid n u).1 hu
  obtain ⟨X', Y', _, m2, rfl, _⟩ := (mem_hexagonalGrid n v).1 hv
  obtain ⟨X'', Y'', _, m3, rfl, _⟩ := (mem_hexagonalGrid n w).1 hw
  have key : ∀ A B C D : ℤ, Spec.dist (motion (meanPoint ((hexagonalGrid n).map (fun p => V2.smul BOND p))) offset angle
      (site A B)) (motion (meanPoint ((hexagonalGrid n).map (fun p => V2.smul BOND p))) offset angle (site C D)) =
      142 / 100 → (A - C) % 3 ≠ 0 := by
    intro A B C D h
    rw [motion_dist, dist_eq_sqrt] at h
    have h1 : Real.sqrt (V2.distSq (site A B) (site C D)) = 1 := by linarith
    rw [Real.sqrt_eq_one, distSq_site] at h1
    have h2 : (((A - C) ^ 2 + 3 * (B - D) ^ 2 : ℤ) : ℝ) = 4 := by linarith
    have h3 : (A - C) ^ 2 + 3 * (B - D) ^ 2 = 4 := by exact_mod_cast h2
    intro h4
    obtain ⟨k, hk⟩ := Int.dvd_of_emod_eq_zero h4
    rw [hk] at h3
    have : 3 * (3 * k ^ 2 + (B - D) ^ 2) = 4 := by linarith
    omega
  have a1 := key _ _ _ _ h1
  have a2 := key _ _ _ _ h2
  have a3 := key _ _ _ _ h3
  omega

/-- Three neighbours at the bond length, well apart from each other. -/
structure Rigid (si : V2 ℝ) (nbrs : List (V2 ℝ)) : Prop where
  three : nbrs.length = 3
  nodup : nbrs.Nodup
  bonds : ∀ p ∈ nbrs, Spec.dist si p = 142 / 100
  apart : ∀ p ∈ nbrs, ∀ q ∈ nbrs, p ≠ q → 245 / 100 ≤ Spec.dist p q

theorem rigid_of_honeycomb (n : ℕ) (offset : V2 ℝ) (angle : ℝ) {si : V2 ℝ} {nbrs : List (V2 ℝ)}
    (h : Honeycomb (layOutSheet n offset angle) si nbrs) : Rigid si nbrs := by
  have hb : ∀ p ∈ nbrs, Spec.dist si p = 142 / 100 := by
    intro p hp
    rcases sheet_gap n offset angle h.mem (h.bonds p hp).1 (fun e => h.other (e ▸ hp)) with g | g
    · exact g
    · linarith [(h.bonds p hp).2]
  refine ⟨h.three, h.nodup, hb, ?_⟩
  intro p hp q hq hne
  rcases sheet_gap n offset angle (h.bonds p hp).1 (h.bonds q hq).1 hne with g | g
  · exact (no_triangle n offset angle h.mem (h.bonds p hp).1 (h.bonds q hq).1 (hb p hp) (hb q hq) g).elim
  · exact g

/-! ### Small changes of directions -/

/-- A vector as a complex number. -/
def toC (p : V2 ℝ) : ℂ := ⟨p.x, p.y⟩

theorem norm_toC (p : V2 ℝ) : ‖toC p‖ = len p := by
  rw [Complex.norm_eq_sqrt_sq_add_sq]; rfl

theorem toC_sub (p q : V2 ℝ) : toC (p - q) = toC p - toC q := rfl

theorem dist_toC (p q : V2 ℝ) : Spec.dist p q = ‖toC p - toC q‖ := by
  rw [← toC_sub, norm_toC]; rfl

theorem dist_len (p q : V2 ℝ) : Spec.dist p q = len (q - p) := by
  rw [← norm_toC, toC_sub, dist_toC, norm_sub_rev]

theorem conj_mul_toC (u v : V2 ℝ) : (starRingEnd ℂ) (toC u) * toC v = ⟨dot u v, Spec.cross u v⟩ := by
  apply Complex.ext
  · simp [toC, dot]
  · simp [toC, Spec.cross]; ring

theorem products_near {u v u' v' : V2 ℝ} {l δ : ℝ} (hu : len u ≤ l) (hv : len v ≤ l) (hδu : len (u' - u) ≤ δ)
    (hδv : len (v' - v) ≤ δ) :
    |dot u' v' - dot u v| ≤ 2 * l * δ + δ ^ 2 ∧ |Spec.cross u' v' - Spec.cross u v| ≤ 2 * l * δ + δ ^ 2 := by
  rw [← norm_toC] at hu hv hδu hδv
  rw [toC_sub] at hδu hδv
  have hl : 0 ≤ l := (norm_nonneg _).trans hu
  have hδ : 0 ≤ δ := (norm_nonneg _).trans hδu
  have hn : ‖(starRingEnd ℂ) (toC u') * toC v' - (starRingEnd ℂ) (toC u) * toC v‖ ≤ 2 * l * δ + δ ^ 2 := by
    have e : (starRingEnd ℂ) (toC u') * toC v' - (starRingEnd ℂ) (toC u) * toC v =
        (starRingEnd ℂ) (toC u) * (toC v' - toC v) + (starRingEnd ℂ) (toC u' - toC u) * toC v +
          (starRingEnd ℂ) (toC u' - toC u) * (toC v' - toC v) := by
      rw [map_sub]; ring
    rw [e]
    refine (norm_add₃_le).trans ?_
    rw [norm_mul, norm_mul, norm_mul, RCLike.norm_conj, RCLike.norm_conj]
    have a := mul_le_mul hu hδv (norm_nonneg _) hl
    have b := mul_le_mul hδu hv (norm_nonneg _) hδ
    have c := mul_le_mul hδu hδv (norm_nonneg _) hδ
    nlinarith
  rw [conj_mul_toC, conj_mul_toC] at hn
  exact ⟨(Complex.abs_re_le_norm _).trans hn, (Complex.abs_im_le_norm _).trans hn⟩

theorem toC_along (u b : V2 ℝ) : toC (along u b) = (starRingEnd ℂ) (toC u) * toC b / (len u : ℂ) := by
  rw [conj_mul_toC]
  apply Complex.ext
  · simp [toC, along]
  · simp [toC, along]

theorem along_near {u b u' b' : V2 ℝ} (hu : 0 < len u) (hu' : 0 < len u') :
    Spec.dist (along u' b') (along u b) ≤ len (b' - b) + 2 * len (u' - u) / len u * len b := by
  rw [dist_toC, toC_along, toC_along, ← norm_toC (b' - b), ← norm_toC (u' - u), toC_sub, toC_sub,
    ← norm_toC b]
  have hnu := norm_toC u
  have hnu' := norm_toC u'
  set U := toC u
  set U' := toC u'
  set B := toC b
  set B' := toC b'
  rw [← hnu] at hu
  rw [← hnu'] at hu'
  rw [← hnu, ← hnu']
  have c1 : ((‖U‖ : ℝ) : ℂ) ≠ 0 := by exact_mod_cast hu.ne'
  have c2 : ((‖U'‖ : ℝ) : ℂ) ≠ 0 := by exact_mod_cast hu'.ne'
  have e : (starRingEnd ℂ) U' * B' / ((‖U'‖ : ℝ) : ℂ) - (starRingEnd ℂ) U * B / ((‖U‖ : ℝ) : ℂ) =
      (starRingEnd ℂ) U' / ((‖U'‖ : ℝ) : ℂ) * (B' - B) +
        ((starRingEnd ℂ) U' / ((‖U'‖ : ℝ) : ℂ) * (((‖U‖ : ℝ) : ℂ) - ((‖U'‖ : ℝ) : ℂ)) / ((‖U‖ : ℝ) : ℂ) +
          (starRingEnd ℂ) (U' - U) / ((‖U‖ : ℝ) : ℂ)) * B := by
    rw [map_sub]
    field_simp
    ring
  have one : ‖(starRingEnd ℂ) U' / ((‖U'‖ : ℝ) : ℂ)‖ = 1 := by
    rw [norm_div, RCLike.norm_conj, Complex.norm_real, norm_norm, div_self hu'.ne']
  have hlen : ‖((‖U‖ : ℝ) : ℂ) - ((‖U'‖ : ℝ) : ℂ)‖ ≤ ‖U' - U‖ := by
    rw [← Complex.ofReal_sub, Complex.norm_real, norm_sub_rev U' U]
    exact abs_norm_sub_norm_le U U'
  rw [e]
  refine (norm_add_le _ _).trans ?_
  rw [norm_mul, one, one_mul, norm_mul]
  refine add_le_add le_rfl (mul_le_mul_of_nonneg_right ?_ (norm_nonneg _))
  refine (norm_add_le _ _).trans ?_
  rw [norm_div, norm_mul, one, one_mul, norm_div, RCLike.norm_conj, Complex.norm_real, norm_norm, ← add_div]
  exact div_le_div_of_nonneg_right (by linarith) hu.le

/-! ### The order of three directions -/

/-- The rank of a neighbour: 0 for the first, then the one to its left, then the one to its right. -/
noncomputable def sideRank (u : V2 ℝ) (d : V2 ℝ → V2 ℝ) (q p : V2 ℝ) : ℕ :=
  open Classical in if p = q then 0 else if 0 < Spec.cross u (d p) then 1 else 2

theorem angle_order {nbrs : List (V2 ℝ)} {d : V2 ℝ → V2 ℝ} {q : V2 ℝ} {θ : V2 ℝ → ℝ} (hq : q ∈ nbrs)
    (hdot : ∀ p ∈ nbrs, ∀ p' ∈ nbrs, p ≠ p' → dot (d p) (d p') < 0)
    (hlen : 0 < len (d q))
    (hθ : ∀ p ∈ nbrs, CcwAngle (d q) (d p) (θ p)) (hcross : ∀ p ∈ nbrs, p ≠ q → Spec.cross (d q) (d p) ≠ 0) :
    ∀ p ∈ nbrs, ∀ p' ∈ nbrs, θ p < θ p' ↔ sideRank (d q) d q p < sideRank (d q) d q p' := by
  have h0 : θ q = 0 := ccw_self hlen (hθ q hq)
  have hpi := Real.pi_pos
  have side : ∀ p ∈ nbrs, p ≠ q → (0 < Spec.cross (d q) (d p) ∧ (0 < θ p ∧ θ p < Real.pi)) ∨
      (¬ 0 < Spec.cross (d q) (d p) ∧ Real.pi < θ p) := by
    intro p hp hne
    have hl := (len_pos_of_dot (hdot p hp q hq hne)).1
    rcases lt_or_gt_of_ne (hcross p hp hne) with h | h
    · exact .inr ⟨not_lt.2 h.le, ccw_right hlen hl (hθ p hp) h⟩
    · exact .inl ⟨h, ccw_left hlen hl (hθ p hp) h⟩
  intro p hp p' hp'
  by_cases e1 : p = q <;> by_cases e2 : p' = q
  · subst e1; subst e2; simp
  · subst e1
    rcases side p' hp' e2 with ⟨a, b⟩ | ⟨a, b⟩
    · simp [sideRank, e2, a, h0, b.1]
    · simp [sideRank, e2, a, h0, hpi.trans b]
  · subst e2
    rcases side p hp e1 with ⟨a, b⟩ | ⟨a, b⟩
    · simp [sideRank, e1, a, h0, b.1.le]
    · simp [sideRank, e1, a, h0, (hpi.trans b).le]
  · by_cases e3 : p = p'
    · subst e3; simp
    · have hs : Spread (d q) (d p) (d p') :=
        ⟨hdot q hq p hp (Ne.symm e1), hdot q hq p' hp' (Ne.symm e2), hdot p hp p' hp' e3⟩
      rcases hs.cross with ⟨a, b⟩ | ⟨a, b⟩
      · rcases side p hp e1 with ⟨c1, c2⟩ | ⟨c1, c2⟩
        · rcases side p' hp' e2 with ⟨g1, g2⟩ | ⟨g1, g2⟩
          · linarith
          · simp [sideRank, e1, e2, a, g1]; linarith
        · exact absurd a c1
      · rcases side p hp e1 with ⟨c1, c2⟩ | ⟨c1, c2⟩
        · linarith
        · rcases side p' hp' e2 with ⟨g1, g2⟩ | ⟨g1, g2⟩
          · simp [sideRank, e1, e2, b, c1]; linarith
          · exact absurd b g1

/-! ### Directions to the neighbours, true and seen -/

theorem Rigid.dots {si : V2 ℝ} {nbrs : List (V2 ℝ)} (h : Rigid si nbrs) :
    ∀ p ∈ nbrs, ∀ q ∈ nbrs, p ≠ q → dot (p - si) (q - si) ≤ -(98 / 100) := by
  intro p hp q hq hne
  have e := dot_of_dist si p q
  have a := h.apart p hp q hq hne
  rw [h.bonds p hp, h.bonds q hq] at e
  nlinarith

theorem Rigid.third {si : V2 ℝ} {nbrs : List (V2 ℝ)} (h : Rigid si nbrs) {q p : V2 ℝ} (hq : q ∈ nbrs) (hp : p ∈ nbrs)
    (hne : p ≠ q) : ∃ w ∈ nbrs, w ≠ q ∧ w ≠ p := by
  have hsub : ¬ nbrs ⊆ [q, p] := by
    intro hs
    have := (List.subperm_of_subset h.nodup hs).length_le
    rw [h.three] at this
    simp at this
  simp only [List.subset_def, not_forall] at hsub
  obtain ⟨w, hw, hw'⟩ := hsub
  simp only [List.mem_cons, List.not_mem_nil, or_false, not_or] at hw'
  exact ⟨w, hw, hw'.1, hw'.2⟩

theorem Rigid.crosses {si : V2 ℝ} {nbrs : List (V2 ℝ)} (h : Rigid si nbrs) :
    ∀ q ∈ nbrs, ∀ p ∈ nbrs, p ≠ q → 1 ≤ |Spec.cross (q - si) (p - si)| := by
  intro q hq p hp hne
  obtain ⟨w, hw, h1, h2⟩ := h.third hq hp hne
  have hlen : ∀ p ∈ nbrs, (p - si).x ^ 2 + (p - si).y ^ 2 = (142 / 100) ^ 2 := by
    intro p hp
    rw [← len_sq, ← dist_len, h.bonds p hp]; ring
  set u := q - si
  set v := p - si
  set z := w - si
  have d1 : dot u v ≤ -(98 / 100) := h.dots q hq p hp (Ne.symm hne)
  have d2 : dot u z ≤ -(98 / 100) := h.dots q hq w hw (Ne.symm h1)
  have d3 : dot v z ≤ -(98 / 100) := h.dots p hp w hw (Ne.symm h2)
  have hid : (u.x ^ 2 + u.y ^ 2) * dot v z = dot u v * dot u z + Spec.cross u v * Spec.cross u z := by
    simp only [dot, Spec.cross]; ring
  rw [hlen q hq] at hid
  have hcz : |Spec.cross u z| ≤ (142 / 100) ^ 2 := by
    refine abs_le_of_sq_le_sq ?_ (by norm_num)
    have : Spec.cross u z ^ 2 + dot u z ^ 2 = (u.x ^ 2 + u.y ^ 2) * (z.x ^ 2 + z.y ^ 2) := by
      simp only [dot, Spec.cross]; ring
    rw [hlen q hq, hlen w hw] at this
    nlinarith [sq_nonneg (dot u z)]
  have hprod : (5 / 2 : ℝ) ≤ |Spec.cross u v| * |Spec.cross u z| := by
    rw [← abs_mul]
    have : Spec.cross u v * Spec.cross u z ≤ -(5 / 2) := by nlinarith
    rw [le_abs]; right; linarith
  nlinarith [abs_nonneg (Spec.cross u v), abs_nonneg (Spec.cross u z)]

/-- Seen with errors of at most `ε ≤ 1/50`, the directions to the neighbours are still more than a right angle apart,
and turn the same way. -/
theorem Rigid.seen {si : V2 ℝ} {nbrs : List (V2 ℝ)} (h : Rigid si nbrs) {ε : ℝ} (hε : ε ≤ 1 / 50) {f : V2 ℝ → V2 ℝ}
    (hf : ∀ p ∈ si :: nbrs, Spec.dist p (f p) ≤ ε) :
    (∀ p ∈ nbrs, ∀ q ∈ nbrs, p ≠ q → dot (f p - f si) (f q - f si) < 0) ∧
    (∀ q ∈ nbrs, ∀ p ∈ nbrs, p ≠ q → Spec.cross (f q - f si) (f p - f si) ≠ 0 ∧
      (0 < Spec.cross (f q - f si) (f p - f si) ↔ 0 < Spec.cross (q - si) (p - si))) ∧
    ∀ q ∈ nbrs, len ((f q - f si) - (q - si)) ≤ 2 * ε := by
  have hδ : ∀ q ∈ nbrs, len ((f q - f si) - (q - si)) ≤ 2 * ε := by
    intro q hq
    have h1 := hf q (List.mem_cons_of_mem _ hq)
    have h2 := hf si List.mem_cons_self
    rw [dist_toC] at h1 h2
    rw [← norm_toC, toC_sub, toC_sub, toC_sub]
    have e : toC (f q) - toC (f si) - (toC q - toC si) = (toC si - toC (f si)) - (toC q - toC (f q)) := by ring
    rw [e]
    exact (norm_sub_le _ _).trans (by linarith)
  have hl : ∀ q ∈ nbrs, len (q - si) ≤ 142 / 100 := fun q hq => by rw [← dist_len, h.bonds q hq]
  have h0 : 0 ≤ ε := (dist_nonneg' _ _).trans (hf si List.mem_cons_self)
  have hsmall : 2 * (142 / 100) * (2 * ε) + (2 * ε) ^ 2 ≤ 12 / 100 := by nlinarith
  refine ⟨?_, ?_, hδ⟩
  · intro p hp q hq hne
    have a := abs_le.1 (products_near (hl p hp) (hl q hq) (hδ p hp) (hδ q hq)).1
    have b := h.dots p hp q hq hne
    linarith [a.2]
  · intro q hq p hp hne
    have a := abs_le.1 (products_near (hl q hq) (hl p hp) (hδ q hq) (hδ p hp)).2
    have b := h.crosses q hq p hp hne
    rcases le_abs.1 b with b | b
    · have : 0 < Spec.cross (f q - f si) (f p - f si) := by linarith [a.1]
      exact ⟨this.ne', fun _ => by linarith, fun _ => this⟩
    · have : Spec.cross (f q - f si) (f p - f si) < 0 := by linarith [a.2]
      exact ⟨this.ne, fun h => absurd h (not_lt.2 this.le), fun h => by linarith⟩

/-- What a data point made from what was seen says about what there is. -/
theorem Rigid.tellsAbout {si si' beam beam' : V2 ℝ} {nbrs n2 : List (V2 ℝ)} (h : Rigid si nbrs) {ε : ℝ} (hε : ε ≤ 1 / 50)
    {f f' : V2 ℝ → V2 ℝ} (hf : ∀ p ∈ si :: nbrs, Spec.dist p (f p) ≤ ε)
    (hf' : ∀ p ∈ si :: nbrs, Spec.dist p (f' p) ≤ ε) (hbeam' : Spec.dist beam beam' ≤ ε)
    (near : si' ∈ si :: nbrs) {c : BeamControl ℝ} {d : DataPoint}
    (h1 : d.secondsBetween = (c.dwellTime : ℝ) / 1000000) (h2 : d.current = c.currentNa)
    (h3 : d.voltage = c.voltageKv) (hperm : n2.Perm (nbrs.map f)) {q' : V2 ℝ} (hq' : q' ∈ n2)
    (hnear : ∀ p ∈ n2, Spec.dist beam' q' ≤ Spec.dist beam' p)
    (hbeam : d.beamPos = along (q' - f si) (beam' - f si)) {θs : List ℝ}
    (hθ : List.Forall₂ (fun p θ => CcwAngle (q' - f si) (p - f si) θ) n2 θs)
    (hlab : θs.Nodup → IsLabel (f si) (f' si') n2 θs d.nextState) : TellsAbout ε si nbrs si' c beam d := by
  have hm : ∀ p, p ∈ n2 ↔ ∃ x ∈ nbrs, f x = p := fun p => by rw [hperm.mem_iff, List.mem_map]
  have h0 : 0 ≤ ε := (dist_nonneg' _ _).trans (hf si List.mem_cons_self)
  have hfn : ∀ p ∈ nbrs, Spec.dist p (f p) ≤ ε := fun p hp => hf p (List.mem_cons_of_mem _ hp)
  have hinj : ∀ p ∈ nbrs, ∀ p' ∈ nbrs, f p = f p' → p = p' := by
    intro p hp p' hp' he
    by_contra hne
    have a := h.apart p hp p' hp' hne
    have b := dist_tri p (f p) p'
    have c1 := hfn p hp
    have c2 := hfn p' hp'
    rw [← he, dist_comm'] at c2
    linarith
  have hnd2 : n2.Nodup := hperm.nodup_iff.2 ((List.nodup_map_iff_inj_on h.nodup).2 hinj)
  obtain ⟨q, hq, rfl⟩ := (hm q').1 hq'
  obtain ⟨φ, rfl⟩ := exists_map_eq hnd2 hθ.length_eq
  have hang : ∀ p ∈ n2, CcwAngle (f q - f si) (p - f si) (φ p) := by
    rw [List.forall₂_map_right_iff, List.forall₂_same] at hθ
    exact hθ
  obtain ⟨s1, s2, s3⟩ := h.seen hε hf
  obtain ⟨w, hw, hwq⟩ : ∃ w ∈ nbrs, w ≠ q := by
    by_contra hcon
    push Not at hcon
    have hs : nbrs ⊆ [q] := fun x hx => by simp [hcon x hx]
    have := (List.subperm_of_subset h.nodup hs).length_le
    rw [h.three] at this
    simp at this
  have hlq : 0 < len (f q - f si) := (len_pos_of_dot (s1 q hq w hw (Ne.symm hwq))).1
  have hlq0 : len (q - si) = 142 / 100 := by rw [← dist_len, h.bonds q hq]
  -- the true angles
  let θ : V2 ℝ → ℝ := fun p => pyMod (getAngle (p - si) + -getAngle (q - si)) (2 * Real.pi)
  have hθt : ∀ p ∈ nbrs, CcwAngle (q - si) (p - si) (θ p) := fun p _ => ccwAngle_pyMod _ _
  have ord : ∀ p ∈ nbrs, ∀ p' ∈ nbrs, θ p < θ p' ↔ φ (f p) < φ (f p') := by
    intro p hp p' hp'
    have o1 := angle_order (d := fun p => p - si) hq (fun p hp p' hp' hne => by linarith [h.dots p hp p' hp' hne])
      (by rw [hlq0]; norm_num) hθt (fun p hp hne hz => by
        have := h.crosses q hq p hp hne
        rw [hz] at this
        norm_num at this) p hp p' hp'
    have o2 := angle_order (d := fun p => f p - f si) (θ := fun p => φ (f p)) hq s1 hlq
      (fun p hp => hang _ ((hm _).2 ⟨p, hp, rfl⟩)) (fun p hp hne => (s2 q hq p hp hne).1) p hp p' hp'
    have er : ∀ p ∈ nbrs, sideRank (q - si) (fun p => p - si) q p = sideRank (f q - f si) (fun p => f p - f si) q p := by
      intro p hp
      unfold sideRank
      by_cases e : p = q
      · simp [e]
      · simp only [e, if_false, (s2 q hq p hp e).2]
    rw [o1, o2, er p hp, er p' hp']
  have hφinj : ∀ p ∈ n2, ∀ p' ∈ n2, φ p = φ p' → p = p' := by
    intro p hp p' hp' he
    obtain ⟨x, hx, rfl⟩ := (hm p).1 hp
    obtain ⟨x', hx', rfl⟩ := (hm p').1 hp'
    by_contra hne
    have ha := same_angle hlq.ne' (hang _ hp) (he ▸ hang _ hp')
    have := s1 x hx x' hx' (fun e => hne (by rw [e]))
    linarith [ha.2]
  have hl := hlab ((List.nodup_map_iff_inj_on hnd2).2 hφinj)
  refine ⟨h1, h2, h3, q, hq, ?_, ?_, θ, hθt, ?_⟩
  · intro p hp
    have a := hnear (f p) ((hm _).2 ⟨p, hp, rfl⟩)
    have b := abs_le.1 (displaced_dist hbeam' (hfn p hp))
    have b' := abs_le.1 (displaced_dist hbeam' (hfn q hq))
    linarith [b.2, b'.1]
  · rw [hbeam]
    refine (along_near (by rw [hlq0]; norm_num) hlq).trans ?_
    have e1 : len (beam' - f si - (beam - si)) ≤ 2 * ε := by
      have a := hf si List.mem_cons_self
      rw [dist_toC] at a hbeam'
      rw [← norm_toC, toC_sub, toC_sub, toC_sub]
      have e : toC beam' - toC (f si) - (toC beam - toC si) = (toC si - toC (f si)) - (toC beam - toC beam') := by ring
      rw [e]
      exact (norm_sub_le _ _).trans (by linarith)
    have e2 := s3 q hq
    rw [hlq0, dist_len si beam]
    have hb0 : 0 ≤ len (beam - si) := Real.sqrt_nonneg _
    have e3 : 2 * len (f q - f si - (q - si)) / (142 / 100) ≤ 3 * ε := by
      rw [div_le_iff₀ (by norm_num)]; linarith
    have e4 := mul_le_mul_of_nonneg_right e3 hb0
    linarith
  · have hcount : ∀ x ∈ nbrs, ((n2.map φ).filter (fun t => decide (t < φ (f x)))).length =
        (nbrs.filter (fun p => decide (θ p < θ x))).length := by
      intro x hx
      rw [List.filter_map, List.length_map, (hperm.filter _).length_eq, List.filter_map, List.length_map]
      congr 1
      refine List.filter_congr (fun p hp => ?_)
      simp only [Function.comp_apply, ord p hp x hx]
    have gap : ∀ p ∈ si :: nbrs, ∀ p' ∈ si :: nbrs, p ≠ p' → 1 < Spec.dist (f' p) (f p') := by
      intro p hp p' hp' hne
      have far : 142 / 100 ≤ Spec.dist p p' := by
        rcases List.mem_cons.1 hp with e | k
        · rcases List.mem_cons.1 hp' with e' | k'
          · exact absurd (e.trans e'.symm) hne
          · rw [e, h.bonds p' k']
        · rcases List.mem_cons.1 hp' with e' | k'
          · rw [e', dist_comm', h.bonds p k]
          · linarith [h.apart p k p' k' hne]
      have := abs_le.1 (displaced_dist (hf' p hp) (hf p' hp'))
      linarith [this.1]
    have same : ∀ p ∈ si :: nbrs, Spec.dist (f' p) (f p) ≤ 2 * ε := by
      intro p hp
      have a := dist_tri (f' p) p (f p)
      have b := hf' p hp
      rw [dist_comm'] at b
      linarith [hf p hp]
    rcases hl with ⟨hall, hz⟩ | ⟨k, p, θ', hk, hkθ, hlt, hmin, hn⟩
    · left
      refine ⟨?_, hz⟩
      rcases List.mem_cons.1 near with e | hmem
      · exact e
      · by_contra hne
        have a := hall (f si') ((hm _).2 ⟨si', hmem, rfl⟩)
        have b := gap si' near si List.mem_cons_self hne
        have c1 := same si' near
        linarith
    · right
      have hp2 := List.mem_of_getElem? hk
      obtain ⟨x, hx, rfl⟩ := (hm p).1 hp2
      have hne : si' ≠ si := by
        rintro rfl
        by_cases e : si' = x
        · rw [← e] at hlt; exact absurd hlt (lt_irrefl _)
        · have b := gap si' near x (List.mem_cons_of_mem _ hx) e
          have c1 := same si' near
          linarith
      have hmem := (List.mem_cons.1 near).resolve_left hne
      have hp : si' = x := by
        by_contra e
        have a := hmin (f si') ((hm _).2 ⟨si', hmem, rfl⟩)
        have b := gap si' near x (List.mem_cons_of_mem _ hx) e
        have c1 := same si' near
        linarith
      subst hp
      refine ⟨hmem, ?_⟩
      rw [List.getElem?_map, hk] at hkθ
      cases hkθ
      rw [hn, hcount si' hmem]

/-! ### Pictures of the sheet -/

theorem displaced_map {ε : ℝ} : ∀ {ps qs : List (V2 ℝ)}, ps.Nodup → Displaced ε ps qs →
    ∃ f : V2 ℝ → V2 ℝ, qs = ps.map f ∧ ∀ p ∈ ps, Spec.dist p (f p) ≤ ε
  | [], [], _, _ => ⟨id, rfl, by simp⟩
  | x :: xs, y :: ys, h, hd => by
    classical
    obtain ⟨h1, h2⟩ := List.forall₂_cons.1 hd
    obtain ⟨f, hf, hf'⟩ := displaced_map (List.nodup_cons.1 h).2 h2
    have hne : ∀ p ∈ xs, p ≠ x := fun p hp e => (List.nodup_cons.1 h).1 (e ▸ hp)
    refine ⟨fun p => if p = x then y else f p, ?_, ?_⟩
    · simp only [List.map_cons, if_true, List.cons.injEq, true_and]
      rw [hf]
      exact List.map_congr_left (fun p hp => by rw [if_neg (hne p hp)])
    · intro p hp
      rcases List.mem_cons.1 hp with rfl | hp
      · simpa using h1
      · dsimp only
        rw [if_neg (hne p hp)]; exact hf' p hp

theorem silicons_map (f : V2 ℝ → V2 ℝ) (ps : List (V2 ℝ)) (ns : List ℤ) :
    silicons (⟨ps.map f, ns⟩ : Grid ℝ) = (silicons (⟨ps, ns⟩ : Grid ℝ)).map f := by
  simp only [silicons, atoms, List.zip_map_left, List.filter_map, List.map_map]
  rfl

theorem mem_silicons {g : Grid ℝ} {p : V2 ℝ} : p ∈ silicons g ↔ (p, SILICON) ∈ atoms g := by
  simp only [silicons, List.mem_map, List.mem_filter, decide_eq_true_eq]
  constructor
  · rintro ⟨⟨p, k⟩, ⟨h1, h2⟩, rfl⟩
    dsimp only at h2
    rw [← h2]; exact h1
  · intro h; exact ⟨(p, SILICON), ⟨h, rfl⟩, rfl⟩

theorem mem_positions_iff {g : Grid ℝ} (hwf : g.numbers.length = g.positions.length) {p : V2 ℝ} :
    p ∈ g.positions ↔ ∃ k, (p, k) ∈ atoms g := by
  have h1 : (atoms g).map Prod.fst = g.positions := by
    simp only [atoms]; exact List.map_fst_zip (le_of_eq hwf.symm)
  rw [← h1]; simp

/-- What there is to know about a picture. -/
theorem shownNear_facts {ε r : ℝ} {sheet : Grid ℝ} {c si : V2 ℝ} {f : Fov ℝ} {g : Grid ℝ}
    (h : ShownNear ε r sheet c f g) (hwf : sheet.numbers.length = sheet.positions.length)
    (hgap : ∀ p ∈ sheet.positions, ∀ q ∈ sheet.positions, p ≠ q → 2 * ε < Spec.dist p q)
    (hsi : silicons sheet = [si]) :
    ∃ (ps : List (V2 ℝ)) (m : V2 ℝ → V2 ℝ), g.WF ∧ (placedOn f g).positions = ps.map m ∧ ps.Nodup ∧ (ps.map m).Nodup ∧
      (∀ p ∈ ps, p ∈ sheet.positions ∧ Spec.dist p (m p) ≤ ε) ∧
      (∀ p ∈ ps, ∀ q ∈ ps, m p = m q → p = q) ∧
      (∀ p ∈ sheet.positions, Spec.dist c p ≤ r → p ∈ ps) ∧ si ∈ ps ∧ silicons (placedOn f g) = [m si] := by
  obtain ⟨part, h1, h2, h3, h4, h5, h6⟩ := h
  obtain ⟨m, hm, hm'⟩ := displaced_map h2 h6
  have hsub : ∀ p ∈ part.positions, p ∈ sheet.positions := by
    intro p hp
    obtain ⟨k, hk⟩ := (mem_positions_iff h1).1 hp
    exact (mem_positions_iff hwf).2 ⟨k, h3 _ hk⟩
  have hinj : ∀ p ∈ part.positions, ∀ q ∈ part.positions, m p = m q → p = q := by
    intro p hp q hq he
    by_contra hne
    have a := hgap p (hsub p hp) q (hsub q hq) hne
    have b := dist_tri p (m p) q
    have c1 := hm' p hp
    have c2 := hm' q hq
    rw [← he, dist_comm'] at c2
    linarith
  have hlen : g.positions.length = part.positions.length := by
    have := congrArg List.length hm
    simpa [placedOn] using this
  have hsip : si ∈ part.positions := by
    refine (mem_positions_iff h1).2 ⟨SILICON, h4 _ (mem_silicons.1 (by rw [hsi]; simp)) (.inl rfl)⟩
  have hsil : silicons part = [si] := by
    have hall : ∀ p ∈ silicons part, p = si := by
      intro p hp
      have : p ∈ silicons sheet := mem_silicons.2 (h3 _ (mem_silicons.1 hp))
      rw [hsi] at this
      simpa using this
    have hmem : si ∈ silicons part := mem_silicons.2 (h4 _ (mem_silicons.1 (by rw [hsi]; simp)) (.inl rfl))
    have hnd : (silicons part).Nodup := by
      have e1 : (atoms part).map Prod.fst = part.positions := by
        simp only [atoms]; exact List.map_fst_zip (le_of_eq h1.symm)
      refine List.Nodup.sublist ?_ h2
      rw [← e1]
      exact (List.filter_sublist).map _
    have hsub1 : silicons part ⊆ [si] := fun p hp => by simp [hall p hp]
    have hl1 := (List.subperm_of_subset hnd hsub1).length_le
    cases hc : silicons part with
    | nil => rw [hc] at hmem; cases hmem
    | cons a l =>
      rw [hc] at hl1 hall
      simp only [List.length_cons, List.length_nil] at hl1
      have : l = [] := List.length_eq_zero_iff.1 (by omega)
      subst this
      rw [hall a (by simp)]
  refine ⟨part.positions, m, ?_, hm, h2, (List.nodup_map_iff_inj_on h2).2 hinj, fun p hp => ⟨hsub p hp, hm' p hp⟩, hinj,
    ?_, hsip, ?_⟩
  · simp only [Grid.WF]
    rw [h5, h1, hlen]
  · intro p hp hd
    obtain ⟨k, hk⟩ := (mem_positions_iff hwf).1 hp
    exact (mem_positions_iff h1).2 ⟨k, h4 _ hk (.inr hd)⟩
  · have : placedOn f g = ⟨part.positions.map m, part.numbers⟩ := by
      rw [← hm, ← h5]; rfl
    rw [this, silicons_map]
    have : (⟨part.positions, part.numbers⟩ : Grid ℝ) = part := rfl
    rw [this, hsil]
    rfl

/-! ### C142 -/

/-- Take a generated sheet and a step from `sheet` to `sheet'` in which the silicon started from a place that looks
like graphene.  Let the two pictures of a transition show the surroundings of that place, and the silicon, with errors
of at most `ε ≤ 1/50` Å, and let the beam's place also be off by at most `ε`.  If the cutoff is at least `2 ε`, making
the data point does not raise.  It is kept if and only if the silicon stayed or went to one of its three true
neighbours, and then it tells, up to `ε`, what happened, with exactly the right next state; otherwise the transition
is counted as "silicon not among the neighbours". -/
theorem C142_point (knn : Knn ℝ) {cutoff ε : ℝ} (hε : ε ≤ 1 / 50) (hcut : 2 * ε ≤ cutoff) (n : ℕ)
    (offset : V2 ℝ) (angle : ℝ) {sheet sheet' : Grid ℝ} (hp : sheet.positions = layOutSheet n offset angle)
    (hp' : sheet'.positions = layOutSheet n offset angle) (hw : sheet.numbers.length = sheet.positions.length)
    (hw' : sheet'.numbers.length = sheet'.positions.length) {si si' : V2 ℝ} {nbrs : List (V2 ℝ)}
    (hsi : silicons sheet = [si]) (hsi' : silicons sheet' = [si']) (hH : Honeycomb sheet.positions si nbrs)
    {t : Transition ℝ Img} {c : BeamControl ℝ} (hc : t.controls = [c])
    (hb : ShownNear ε (15 / 4) sheet si t.fovBefore t.gridBefore)
    (ha : ShownNear ε (3 / 2) sheet' si t.fovAfter t.gridAfter) {beam : V2 ℝ}
    (hbeam : Spec.dist beam (lerp t.fovBefore.lowerLeft t.fovBefore.upperRight c.position) ≤ ε) :
    ∃ r, datapointOf knn cutoff t = .ok r ∧
      (∀ d, r = .inr d → (si' = si ∨ si' ∈ nbrs) ∧ TellsAbout ε si nbrs si' c beam d) ∧
      (∀ x, r = .inl x → x = .noSiliconNeighbor ∧ si' ≠ si ∧ si' ∉ nbrs) := by
  have h0 : 0 ≤ ε := (dist_nonneg' _ _).trans hbeam
  have hR : Rigid si nbrs := rigid_of_honeycomb n offset angle (hp ▸ hH)
  have gap : ∀ p ∈ layOutSheet n offset angle, ∀ q ∈ layOutSheet n offset angle, p ≠ q → 2 * ε < Spec.dist p q := by
    intro p hp q hq hne
    rcases sheet_gap n offset angle hp hq hne with g | g <;> linarith
  have hfar : ∀ p ∈ layOutSheet n offset angle, p ≠ si → p ∉ nbrs → 245 / 100 ≤ Spec.dist si p := by
    intro p hpm h1 h2
    have hm : si ∈ layOutSheet n offset angle := hp ▸ hH.mem
    rcases sheet_gap n offset angle hm hpm (Ne.symm h1) with g | g
    · have := hH.far p (hp ▸ hpm) h1 h2; linarith
    · exact g
  obtain ⟨ps, f, b1, b2, b3, b4, b5, b6, b7, b8, b9⟩ := shownNear_facts hb hw (by rw [hp]; exact gap) hsi
  obtain ⟨ps', f', a1, a2, a3, a4, a5, a6, a7, a8, a9⟩ := shownNear_facts ha hw' (by rw [hp']; exact gap) hsi'
  rw [hp] at b5 b7 hH
  rw [hp'] at a5 a7
  have hnb : ∀ p ∈ si :: nbrs, p ∈ ps := by
    intro p hm
    rcases List.mem_cons.1 hm with rfl | hm
    · exact b8
    · exact b7 p (hH.bonds p hm).1 (by linarith [(hH.bonds p hm).2])
  have hna : ∀ p ∈ si :: nbrs, p ∈ ps' := by
    intro p hm
    rcases List.mem_cons.1 hm with rfl | hm
    · exact a7 p hH.mem (by rw [dist_self']; norm_num)
    · exact a7 p (hH.bonds p hm).1 (hH.bonds p hm).2
  have hfn : ∀ p ∈ si :: nbrs, Spec.dist p (f p) ≤ ε := fun p hm => (b5 p (hnb p hm)).2
  have hfn' : ∀ p ∈ si :: nbrs, Spec.dist p (f' p) ≤ ε := fun p hm => (a5 p (hna p hm)).2
  have hsif := hfn si List.mem_cons_self
  have hnd4 : (si :: nbrs).Nodup := List.nodup_cons.2 ⟨hH.other, hH.nodup⟩
  obtain ⟨r, hr, hr1, hr2⟩ := datapoint_near knn (cutoff := cutoff) (t := t) (c := c) (si := f si) (si' := f' si')
    (nbrs := nbrs.map f) (xs := (si :: nbrs).map f') b1 a1 (by rw [b2]; exact b4) (by rw [a2]; exact a4) hc b9 a9
    (by
      obtain ⟨qs, q1, q2, q3⟩ := hH.ten
      have := (List.subperm_of_subset q1 (fun q hq => b7 q (q3 q hq).1 (q3 q hq).2)).length_le
      rw [b2, List.length_map]; omega)
    (by
      refine ⟨by rw [b2]; exact List.mem_map_of_mem b8, by simp [hH.three], ?_, ?_, ?_, ?_⟩
      · exact (List.nodup_map_iff_inj_on hH.nodup).2 (fun p hm q hm' e =>
          b6 p (hnb p (List.mem_cons_of_mem _ hm)) q (hnb q (List.mem_cons_of_mem _ hm')) e)
      · intro hm
        obtain ⟨p, hm, e⟩ := List.mem_map.1 hm
        have := b6 p (hnb p (List.mem_cons_of_mem _ hm)) si b8 e
        exact hH.other (this ▸ hm)
      · intro x hx
        obtain ⟨p, hm, rfl⟩ := List.mem_map.1 hx
        refine ⟨by rw [b2]; exact List.mem_map_of_mem (hnb p (List.mem_cons_of_mem _ hm)), ?_⟩
        have := abs_le.1 (displaced_dist hsif (hfn p (List.mem_cons_of_mem _ hm)))
        rw [hR.bonds p hm] at this
        linarith [this.2]
      · intro x hx hne hnot
        rw [b2] at hx
        obtain ⟨p, hm, rfl⟩ := List.mem_map.1 hx
        have := hfar p (b5 p hm).1 (fun e => hne (by rw [e])) (fun e => hnot (List.mem_map_of_mem e))
        have := abs_le.1 (displaced_dist hsif (b5 p hm).2)
        linarith [this.1])
    (by
      intro x hx
      obtain ⟨p, hm, rfl⟩ := List.mem_map.1 hx
      have := abs_le.1 (displaced_dist hsif (hfn p (List.mem_cons_of_mem _ hm)))
      rw [hR.bonds p hm] at this
      linarith [this.2])
    (by
      refine ⟨by simp [hH.three], ?_, ?_, ?_⟩
      · exact (List.nodup_map_iff_inj_on hnd4).2 (fun p hm q hm' e => a6 p (hna p hm) q (hna q hm') e)
      · intro x hx
        obtain ⟨p, hm, rfl⟩ := List.mem_map.1 hx
        refine ⟨by rw [a2]; exact List.mem_map_of_mem (hna p hm), ?_⟩
        have := abs_le.1 (displaced_dist hsif (hfn' p hm))
        have hd : Spec.dist si p ≤ 142 / 100 := by
          rcases List.mem_cons.1 hm with rfl | hm
          · rw [dist_self']; norm_num
          · rw [hR.bonds p hm]
        linarith [this.2]
      · intro x hx hnot
        rw [a2] at hx
        obtain ⟨p, hm, rfl⟩ := List.mem_map.1 hx
        have hpn : p ∉ si :: nbrs := fun e => hnot (List.mem_map_of_mem e)
        rw [List.mem_cons, not_or] at hpn
        have := hfar p (a5 p hm).1 hpn.1 hpn.2
        have := abs_le.1 (displaced_dist hsif (a5 p hm).2)
        linarith [this.1])
    (by
      intro x hx
      have : ∃ p ∈ si :: nbrs, f p = x := by
        rcases List.mem_cons.1 hx with rfl | hx
        · exact ⟨si, List.mem_cons_self, rfl⟩
        · obtain ⟨p, hm, rfl⟩ := List.mem_map.1 hx
          exact ⟨p, List.mem_cons_of_mem _ hm, rfl⟩
      obtain ⟨p, hm, rfl⟩ := this
      refine ⟨f' p, List.mem_map_of_mem hm, ?_⟩
      have a := dist_tri (f p) p (f' p)
      have b := hfn p hm
      rw [dist_comm'] at b
      linarith [hfn' p hm])
  have hxs : f' si' ∈ (si :: nbrs).map f' ↔ si' ∈ si :: nbrs := by
    constructor
    · intro hm
      obtain ⟨p, hm, e⟩ := List.mem_map.1 hm
      rw [← a6 p (hna p hm) si' a8 e]; exact hm
    · exact fun hm => List.mem_map_of_mem hm
  refine ⟨r, hr, ?_, ?_⟩
  · intro d hd
    obtain ⟨k0, k1, k2, k3, n2, k4, q, k5, k6, k7, θs, k8, k9⟩ := hr1 d hd
    have hmem := hxs.1 k0
    exact ⟨List.mem_cons.1 hmem, hR.tellsAbout hε hfn hfn' hbeam hmem k1 k2 k3 k4 k5 k6 k7 k8 k9⟩
  · intro x hx
    obtain ⟨k1, k2⟩ := hr2 x hx
    rw [hxs, List.mem_cons, not_or] at k2
    exact ⟨k1, k2⟩

/-! ### Files -/

theorem rounded_near {x y M δ : ℝ} (h : Rounded x y) (hx : |x| ≤ M) (h1 : M / 2 ^ 24 ≤ δ) (h2 : (2 : ℝ) ^ (-150 : ℤ) ≤ δ) :
    |y - x| ≤ δ :=
  (C58_precision x y h).trans (max_le ((div_le_div_of_nonneg_right hx (by positivity)).trans h1) h2)

theorem lerp_coordinate {a a' b b' t t' : ℝ} (ha : |a| ≤ 10000) (hb : |b| ≤ 10000) (ht : |t| ≤ 1) (ha' : Rounded a a')
    (hb' : Rounded b b') (ht' : Rounded t t') : |(a + t * (b - a)) - (a' + t' * (b' - a'))| ≤ 7 / 2000 := by
  have r1 := rounded_near (δ := 6 / 10000) ha' ha (by norm_num) (by norm_num)
  have r2 := rounded_near (δ := 6 / 10000) hb' hb (by norm_num) (by norm_num)
  have r3 := rounded_near (δ := 6 / 100000000) ht' ht (by norm_num) (by norm_num)
  have e : (a + t * (b - a)) - (a' + t' * (b' - a')) =
      -(a' - a) - t * ((b' - b) - (a' - a)) - (t' - t) * (b - a) - (t' - t) * ((b' - b) - (a' - a)) := by ring
  have s1 : |(b' - b) - (a' - a)| ≤ 12 / 10000 := (abs_sub _ _).trans (by linarith)
  have s2 : |b - a| ≤ 20000 := (abs_sub _ _).trans (by linarith)
  have p1 : |t * ((b' - b) - (a' - a))| ≤ 1 * (12 / 10000) := by
    rw [abs_mul]; exact mul_le_mul ht s1 (abs_nonneg _) (by norm_num)
  have p2 : |(t' - t) * (b - a)| ≤ 6 / 100000000 * 20000 := by
    rw [abs_mul]; exact mul_le_mul r3 s2 (abs_nonneg _) (by norm_num)
  have p3 : |(t' - t) * ((b' - b) - (a' - a))| ≤ 6 / 100000000 * (12 / 10000) := by
    rw [abs_mul]; exact mul_le_mul r3 s1 (abs_nonneg _) (by norm_num)
  rw [e]
  rw [abs_le] at *
  constructor <;> linarith [r1.1, r1.2, p1.1, p1.2, p2.1, p2.2, p3.1, p3.2]

/-- The corners of a field of view are at most a micrometre from the axes. -/
def WithinMicrometre (f : Fov ℝ) : Prop :=
  (|f.lowerLeft.x| ≤ 10000 ∧ |f.lowerLeft.y| ≤ 10000) ∧ |f.upperRight.x| ≤ 10000 ∧ |f.upperRight.y| ≤ 10000

theorem lerp_kept {f f' : Fov ℝ} {p p' : V2 ℝ} (hf : WithinMicrometre f) (hk : FovKept f f') (hp : |p.x| ≤ 1 ∧ |p.y| ≤ 1)
    (hp' : PointKept p p') :
    Spec.dist (lerp f.lowerLeft f.upperRight p) (lerp f'.lowerLeft f'.upperRight p') ≤ 1 / 200 := by
  have hx := lerp_coordinate hf.1.1 hf.2.1 hp.1 hk.1.1 hk.2.1 hp'.1
  have hy := lerp_coordinate hf.1.2 hf.2.2 hp.2 hk.1.2 hk.2.2 hp'.2
  refine Real.sqrt_le_iff.2 ⟨by norm_num, ?_⟩
  simp only [lerp]
  have := sq_le_sq' (abs_le.1 hx).1 (abs_le.1 hx).2
  have := sq_le_sq' (abs_le.1 hy).1 (abs_le.1 hy).2
  linarith

theorem lerp_in_unit {a b t : ℝ} (hab : a < b) (h1 : a ≤ a + t * (b - a)) (h2 : a + t * (b - a) ≤ b) : |t| ≤ 1 := by
  have hw : 0 < b - a := by linarith
  have h0 : 0 ≤ t := by
    by_contra h
    push Not at h
    nlinarith
  rw [abs_of_nonneg h0]
  by_contra h
  push Not at h
  nlinarith

theorem sees_fits {s : Sim ℝ G O P} {sheet : Grid ℝ} {o : Observation ℝ Img} (h : Sees s sheet o) : GridFits o.grid := by
  have hwf : o.grid.numbers.length = o.grid.positions.length := h.wf.symm
  have hnum : ∀ k ∈ o.grid.numbers, k = SILICON ∨ k = CARBON := by
    intro k hk
    have e1 : (atoms (placedOn o.fov o.grid)).map Prod.snd = o.grid.numbers := by
      simp only [atoms, placedOn]
      exact List.map_snd_zip (by simp [hwf])
    rw [← e1] at hk
    obtain ⟨⟨p, k⟩, hm, rfl⟩ := List.mem_map.1 hk
    rw [h.atoms] at hm
    have hm := (List.of_mem_zip (List.mem_of_mem_filter hm)).2
    obtain ⟨i, _, hi⟩ := h.doped.one
    obtain ⟨j, hj⟩ := List.getElem?_of_mem hm
    have := hi j (List.getElem?_eq_some_iff.1 hj).1
    rw [hj] at this
    dsimp only
    by_cases e : j = i
    · left; simpa [e] using this
    · right; simpa [e] using this
  refine ⟨hwf, fun k hk => ?_⟩
  rcases hnum k hk with rfl | rfl <;> norm_num [SILICON, CARBON]

/-- A field of view that shows a silicon less than 9970 Å from the origin. -/
theorem sees_box {s : Sim ℝ G O P} {sheet : Grid ℝ} {o : Observation ℝ Img} (h : Sees s sheet o) {si : V2 ℝ}
    (hsi : silicons sheet = [si]) (hd : Spec.dist ⟨0, 0⟩ si ≤ 9970) : WithinMicrometre o.fov := by
  obtain ⟨c, sc, h1, h2, h3, h4⟩ := h.inv.square o.fov h.fov
  have hin := h.margin si hsi si (by simp; norm_num) (by simp; norm_num)
  have hx := abs_le.1 ((abs_x_le_dist ⟨0, 0⟩ si).trans hd)
  have hy := abs_le.1 ((abs_y_le_dist ⟨0, 0⟩ si).trans hd)
  dsimp only at hx hy
  rw [h2] at hin ⊢
  simp only [Inside, centredFov, V2.sub_x, V2.sub_y, V2.add_x, V2.add_y, V2.const] at hin
  simp only [WithinMicrometre, centredFov, V2.sub_x, V2.sub_y, V2.add_x, V2.add_y, V2.const, abs_le]
  obtain ⟨⟨a1, a2⟩, a3, a4⟩ := hin
  refine ⟨⟨⟨?_, ?_⟩, ?_, ?_⟩, ⟨?_, ?_⟩, ?_, ?_⟩ <;> linarith [hx.1, hx.2, hy.1, hy.2]

theorem sees_shown {s : Sim ℝ G O P} {sheet : Grid ℝ} {o : Observation ℝ Img} (h : Sees s sheet o)
    (hnd : sheet.positions.Nodup) (hf : WithinMicrometre o.fov) {c : V2 ℝ} {r : ℝ}
    (hin : ∀ p, Spec.dist c p ≤ r → Inside o.fov.lowerLeft o.fov.upperRight p) :
    ShownNear (1 / 200) r sheet c (keptObservation o).fov (keptObservation o).grid := by
  obtain ⟨i, si, _, _, hsi⟩ := h.doped.exists_index
  rw [getSiliconPositions_eq_silicons h.doped.wf] at hsi
  have hm := h.margin si hsi
  have m1 := hm ⟨si.x + 15 / 4, si.y + 15 / 4⟩ (by norm_num) (by norm_num)
  have m2 := hm ⟨si.x - 15 / 4, si.y - 15 / 4⟩ (by norm_num) (by norm_num)
  have hwx : o.fov.lowerLeft.x < o.fov.upperRight.x := by
    have a := m1.1.2; have b := m2.1.1; dsimp only at a b; linarith
  have hwy : o.fov.lowerLeft.y < o.fov.upperRight.y := by
    have a := m1.2.2; have b := m2.2.1; dsimp only at a b; linarith
  have hwf : o.grid.numbers.length = o.grid.positions.length := h.wf.symm
  have hk : GridKept o.grid (keptObservation o).grid := gridKept _ (sees_fits h)
  have hpos := h.positions
  refine ⟨placedOn o.fov o.grid, by simpa [placedOn] using hwf, ?_, ?_, ?_, ?_, ?_⟩
  · rw [hpos]; exact hnd.filter _
  · intro a ha
    rw [h.atoms] at ha
    exact List.mem_of_mem_filter ha
  · intro a ha hor
    rw [h.atoms]
    refine List.mem_filter.2 ⟨ha, ?_⟩
    simp only [decide_eq_true_eq]
    rcases hor with hS | hd
    · have : a.1 ∈ silicons sheet := mem_silicons.2 (by rw [← hS]; exact ha)
      rw [hsi] at this
      simp only [List.mem_cons, List.not_mem_nil, or_false] at this
      rw [this]
      exact hm si (by simp; norm_num) (by simp; norm_num)
    · exact hin _ hd
  · exact hk.2
  · unfold Displaced
    simp only [placedOn]
    rw [List.forall₂_map_left_iff, List.forall₂_map_right_iff]
    have hall : ∀ p ∈ o.grid.positions, |p.x| ≤ 1 ∧ |p.y| ≤ 1 := by
      intro p hp
      have : lerp o.fov.lowerLeft o.fov.upperRight p ∈ (placedOn o.fov o.grid).positions := List.mem_map_of_mem hp
      rw [hpos] at this
      have := of_decide_eq_true (List.mem_filter.1 this).2
      simp only [Inside, lerp] at this
      exact ⟨lerp_in_unit hwx this.1.1 this.1.2, lerp_in_unit hwy this.2.1 this.2.2⟩
    have h2 : List.Forall₂ PointKept o.grid.positions (keptObservation o).grid.positions := hk.1
    have h3 := (List.forall₂_and_left (p := fun p : V2 ℝ => |p.x| ≤ 1 ∧ |p.y| ≤ 1) _ _).2 ⟨hall, h2⟩
    exact h3.imp (fun p p' hpp => lerp_kept hf (fovKept _) hpp.1 hpp.2)

theorem controlRead (c : BeamControl ℝ) : ControlRead c (keptControl c) :=
  ⟨timeKept _, fun v hv => ⟨f32 v, by simp [keptControl, hv], f32_rounded v⟩,
    fun v hv => ⟨f32 v, by simp [keptControl, hv], f32_rounded v⟩⟩

/-- The observations of a record as they are read from a file. -/
theorem recorded_files (knn : Knn ℝ) {cutoff : ℝ} (hcut : 1 / 100 ≤ cutoff) {cfg : SimCfg ℝ G O P Img}
    (hk : KeepsDoping cfg.rate) (n : ℕ) (offset : V2 ℝ) (angle : ℝ) {R : ℝ} (hR : R + 11 / 2 ≤ 9970) {s : Sim ℝ G O P}
    {l : List (BeamControl ℝ × Grid ℝ × Observation ℝ Img)}
    (hrec : Recorded cfg s l) : ∀ {sheet : Grid ℝ} {o0 : Observation ℝ Img}, Sees s sheet o0 →
    sheet.positions = layOutSheet n offset angle → AllSteps Clean sheet l → AllSteps (DiscStep R (11 / 2)) sheet l →
    (∀ e ∈ l, |e.1.position.x| ≤ 1 ∧ |e.1.position.y| ≤ 1) → ∀ (data0 : List DataPoint) (c0 : Counters),
    (∀ o ∈ o0 :: l.map (fun e => e.2.2), CanWrite o.grid) ∧
    ∃ data k, transitionsToDatapoints knn cutoff
        (transitionsLoop true (some (heldBy (keptObservation o0))) ((l.map (fun e => e.2.2)).map keptObservation))
          data0 c0 =
        .ok (data0 ++ data, { c0 with noSiliconNeighbor := c0.noSiliconNeighbor + k }) ∧
      YieldsAbout (1 / 200) sheet o0.fov l ((l.map (fun e => e.2.2)).map keptObservation) data ∧
        data.length + k = l.length := by
  induction hrec with
  | done s =>
    intro sheet o0 h hpos hcl _ _ data0 c0
    refine ⟨?_, [], 0, by simp [transitionsLoop, transitionsToDatapoints], .nil _ _, rfl⟩
    intro o ho
    simp only [List.map_nil, List.mem_cons, List.not_mem_nil, or_false] at ho
    subst ho
    exact canWrite_of_fits _ (sees_fits h)
  | @step s s' c sheet' o rest b hs hg hr ih =>
    intro sheet o0 h hpos hcl hds hcs data0 c0
    have hnd : sheet.positions.Nodup := by rw [hpos]; exact (C40_honeycomb n offset angle).1
    obtain ⟨sheet1, h1, hpos1, hctl, hview⟩ := sees_step hk h hs
    have : sheet1 = sheet' := by have := h1.grid; rw [hg] at this; cases this; rfl
    subst this
    obtain ⟨i, si, _, _, hsi⟩ := h.doped.exists_index
    obtain ⟨i', si', _, _, hsi'⟩ := h1.doped.exists_index
    rw [getSiliconPositions_eq_silicons h.doped.wf] at hsi
    rw [getSiliconPositions_eq_silicons h1.doped.wf] at hsi'
    obtain ⟨⟨nbrs, hH⟩, hdist⟩ := hcl.1 si si' hsi hsi'
    have hin : ∀ p, Spec.dist si p ≤ 15 / 4 → Inside o0.fov.lowerLeft o0.fov.upperRight p := by
      intro p hp
      exact h.margin si hsi p ((abs_x_le_dist p si).trans (by rw [dist_comm']; exact hp))
        ((abs_y_le_dist p si).trans (by rw [dist_comm']; exact hp))
    have hin' := hview si si' hsi hsi' hdist
    obtain ⟨hd1, hd2⟩ := hds.1 si si' hsi hsi'
    have hf : WithinMicrometre o0.fov := sees_box h hsi (by linarith)
    have hfo : WithinMicrometre o.fov := sees_box h1 hsi' (by linarith [dist_triangle0 si si'])
    have hc1 := hcs _ List.mem_cons_self
    have sh1 := sees_shown h hnd hf hin
    have sh2 := sees_shown h1 (by rw [hpos1]; exact hnd) hfo (c := si) (r := 3 / 2)
      (fun p hp => hin' p (by linarith))
    obtain ⟨r, k4, k5, k6⟩ := C142_point knn (cutoff := cutoff) (ε := 1 / 200) (by norm_num) (by linarith) n offset angle
      hpos (hpos1.trans hpos) h.doped.wf.symm h1.doped.wf.symm hsi hsi' hH
      (t := ⟨(keptObservation o0).grid, (keptObservation o).grid, (keptObservation o0).fov, (keptObservation o).fov,
        (keptObservation o).controls, (keptObservation o0).image, (keptObservation o).image,
        (keptObservation o0).labelImage, (keptObservation o).labelImage⟩) (c := keptControl c)
      (by simp [keptObservation, hctl]) sh1 sh2
      (beam := lerp o0.fov.lowerLeft o0.fov.upperRight c.position)
      (lerp_kept hf (fovKept _) hc1 (pointKept _))
    have ih' := ih h1 (hpos1.trans hpos) hcl.2 hds.2
      (fun e he => hcs e (List.mem_cons_of_mem _ he))
    refine ⟨?_, ?_⟩
    · intro o1 ho1
      rw [List.mem_cons] at ho1
      rcases ho1 with rfl | ho1
      · exact canWrite_of_fits _ (sees_fits h)
      · exact (ih' [] {}).1 o1 (by simpa using ho1)
    · simp only [List.map_cons, transitionsLoop, heldBy, List.cons_append, List.nil_append, Bool.not_true,
        Bool.false_eq_true, if_false, transitionsToDatapoints, k4]
      cases r with
      | inl x =>
        obtain ⟨rfl, h6⟩ := k6 x rfl
        obtain ⟨-, data, k, e1, e2, e3⟩ := ih' data0 (c0.bump .noSiliconNeighbor)
        refine ⟨data, k + 1, ?_, .left hsi hsi' hH h6 e2, by simp; omega⟩
        simp only [heldBy] at e1
        dsimp only
        rw [e1]
        simp [Counters.bump]
        omega
      | inr d =>
        obtain ⟨h7, h8⟩ := k5 d rfl
        obtain ⟨-, data, k, e1, e2, e3⟩ := ih' (data0 ++ [d]) c0
        refine ⟨d :: data, k, ?_, .kept (c' := keptControl c) hsi hsi' hH h7 (by simp [keptObservation, hctl])
          (controlRead c) h8 e2,
          by simp; omega⟩
        simp only [heldBy] at e1
        dsimp only
        rw [e1]
        simp

/-- On generated graphene of at most 14000 columns, after any history of calls and a reset, let each step of a record
start with the silicon at most `0.71 n - 6.39` Å from the origin, move it at most 5.5 Å, and aim the beam into the
field of view.  Then the record can be written as a trajectory message, which holds
positions as float32, and the data points made from what is read back are those the true sheets call for: for the same
steps, with the right next states, and with positions off by at most 0.005 Å times the factor in `TellsAbout`. -/
theorem C142_files (knn : Knn ℝ) (cutoff : ℝ) (hcut : 1 / 100 ≤ cutoff) (cfg : SimCfg ℝ G O P Img) (n : ℕ)
    (hn : n ≤ 14000) (hgen : cfg.generate = generatePristineGraphene cfg.rng n)
    (hl : cfg.rng.Lawful) (hr : SwapRates cfg.rate) (g : G) (obs : List O) (ops : List (SimOp ℝ O))
    (b : Bool) (o0 : Observation ℝ Img) (s : Sim ℝ G O P)
    (hreset : Sim.reset cfg b (Sim.run cfg (Sim.fresh g obs) ops).2 = .ok o0 s)
    (sheet : Grid ℝ) (hsheet : s.ctx.mat.grid = some sheet)
    (l : List (BeamControl ℝ × Grid ℝ × Observation ℝ Img)) (hrec : Recorded cfg s l)
    (hdisc : AllSteps (DiscStep (71 / 100 * n - 639 / 100) (11 / 2)) sheet l)
    (hbeam : ∀ e ∈ l, |e.1.position.x| ≤ 1 ∧ |e.1.position.y| ≤ 1) :
    ∃ m, trajectoryToProto (o0 :: l.map (fun e => e.2.2)) = .ok m ∧
      ∃ data k, transitionsToDatapoints knn cutoff (trajectoriesToTransitions true [trajectoryFromProto m]) [] {} =
          .ok (data, { noSiliconNeighbor := k }) ∧
        YieldsAbout (1 / 200) sheet o0.fov l (trajectoryFromProto m).tail data ∧ data.length + k = l.length := by
  have hinv : SimInv (Sim.run cfg (Sim.fresh g obs : Sim ℝ G O P) ops).2 :=
    (SimInv.fresh g obs).run hl hr.keepsDoping ops
  obtain ⟨sheet1, h1, hpos⟩ := sees_reset hl hinv hreset
  have : sheet1 = sheet := by have := h1.grid; rw [hsheet] at this; cases this; rfl
  subst this
  obtain ⟨offset, angle, he, hx, hy, _⟩ := C40_generated cfg.rng hl n
    (Sim.run cfg (Sim.fresh g obs : Sim ℝ G O P) ops).2.ctx.g
  rw [hgen, he] at hpos
  obtain ⟨hw, data, k, e1, e2, e3⟩ := recorded_files knn hcut hr.keepsDoping n offset angle
    (R := 71 / 100 * n - 639 / 100) (by have : (n : ℝ) ≤ 14000 := by exact_mod_cast hn
                                        linarith) hrec h1 hpos
    (disc_clean hr.keepsDoping hx hy hrec h1 hpos hdisc) hdisc hbeam [] {}
  obtain ⟨m, hm1, hm2⟩ := trajectoryTo _ hw
  refine ⟨m, hm1, data, k, ?_, ?_, e3⟩
  · rw [hm2]
    simpa [trajectoriesToTransitions, transitionsLoop, heldBy] using e1
  · rw [hm2]
    exact e2

/-- The hypotheses of `C142_files` can be met: graphene of 50 columns, the human prior's rates, a reset and a step of
half a second. -/
theorem files_met : ∃ o0 s sheet c sheet' o, Sim.reset playCfg.sim true (Sim.run playCfg.sim
      (Sim.fresh () [] : Sim ℝ Unit Unit Unit) []).2 = .ok o0 s ∧
    s.ctx.mat.grid = some sheet ∧ Recorded playCfg.sim s [(c, sheet', o)] ∧
    AllSteps (DiscStep (71 / 100 * (50 : ℕ) - 639 / 100) (11 / 2)) sheet [(c, sheet', o)] ∧
    ∀ e ∈ ([(c, sheet', o)] : List (BeamControl ℝ × Grid ℝ × Observation ℝ Unit)),
      |e.1.position.x| ≤ 1 ∧ |e.1.position.y| ≤ 1 := by
  have hl : playCfg.sim.rng.Lawful := playCfg_ok.1
  have hsw : SwapRates playCfg.sim.rate := C39_pristine_swaps _ _
  have hinv : SimInv (Sim.fresh () [] : Sim ℝ Unit Unit Unit) := SimInv.fresh () []
  obtain ⟨o0, s, sheet, si, nbrs, hres, hg, hsi, _, hd, hH⟩ := C123_start playCfg.sim hl 50 (by norm_num) rfl true
    (Sim.fresh () [] : Sim ℝ Unit Unit Unit)
  obtain ⟨sheet1, h1, hpos⟩ := sees_reset hl hinv hres
  have : sheet1 = sheet := by have := h1.grid; rw [hg] at this; cases this; rfl
  subst this
  obtain ⟨offset, angle, he, _⟩ := C40_generated playCfg.sim.rng hl 50 ()
  have hpos' : sheet1.positions = layOutSheet 50 offset angle := by rw [hpos]; exact he
  have hnd : sheet1.positions.Nodup := by rw [hpos']; exact (C40_honeycomb 50 offset angle).1
  obtain ⟨qs, hq1, hq2, hq3⟩ := hH.ten
  have h10 : 10 ≤ sheet1.positions.length := by
    rw [← hq2]
    exact (hq1.subperm (fun q hq => (hq3 q hq).1)).length_le
  have hgood : GoodSheet sheet1 := ⟨h1.doped, by omega, hnd⟩
  rcases simStep_returns playCfg.sim hl hsw (C99_rates_defined Witness.knn).2.1 true
    [BeamControl.mk' ⟨1 / 2, 1 / 2⟩ 500000] (by simp [BeamControl.mk']) s h1.inv o0.fov h1.fov sheet1 h1.grid hgood
    with ⟨o, s', hs⟩ | ⟨_, hbad⟩
  swap
  · exact absurd (hbad (fun _ _ => by norm_num [playCfg, Witness.rng])) (by simp [playCfg])
  have hsame := brief_step (by decide) h1 hs
  refine ⟨o0, s, sheet1, BeamControl.mk' ⟨1 / 2, 1 / 2⟩ 500000, sheet1, o, hres, hg,
    .step true hs hsame (.done _), ⟨?_, trivial⟩, ?_⟩
  · intro a a' ha ha'
    rw [ha] at ha' hsi
    cases ha'
    cases hsi
    rw [dist_self']
    norm_num
    linarith
  · simp only [List.mem_cons, List.not_mem_nil, or_false, forall_eq, BeamControl.mk']
    norm_num

/-- The hypotheses of `C142_point` can be met, with both pictures shifted by 0.01 Å. -/
example : ∃ (sheet : Grid ℝ) (si : V2 ℝ) (nbrs : List (V2 ℝ)) (t : Transition ℝ Unit) (c : BeamControl ℝ),
    sheet.positions = layOutSheet 50 ⟨0, 0⟩ 0 ∧ sheet.numbers.length = sheet.positions.length ∧
    silicons sheet = [si] ∧ Honeycomb sheet.positions si nbrs ∧ t.controls = [c] ∧
    ShownNear (1 / 50) (15 / 4) sheet si t.fovBefore t.gridBefore ∧
    ShownNear (1 / 50) (3 / 2) sheet si t.fovAfter t.gridAfter ∧
    t.gridBefore.positions = sheet.positions.map (fun p => p + ⟨1 / 100, 0⟩) ∧
    Spec.dist ⟨1, 1⟩ (lerp t.fovBefore.lowerLeft t.fovBefore.upperRight c.position) ≤ 1 / 50 := by
  obtain ⟨si, hm, hd⟩ := atom_near_origin 50 (by norm_num) ⟨0, 0⟩ 0 (by norm_num) (by norm_num)
  obtain ⟨nbrs, hH⟩ := C123_disc 50 ⟨0, 0⟩ 0 (by norm_num) (by norm_num) si hm (by norm_num; linarith)
  have hnd := (C40_honeycomb 50 ⟨0, 0⟩ 0).1
  set ps := layOutSheet 50 ⟨0, 0⟩ 0 with hps
  classical
  set ns : List ℤ := ps.map (fun p => if p = si then SILICON else CARBON) with hns
  have hzip : ∀ (l : List (V2 ℝ)) (g : V2 ℝ → ℤ), l.zip (l.map g) = l.map (fun p => (p, g p)) := by
    intro l g
    induction l with
    | nil => rfl
    | cons a l ih => simp [ih]
  have hat : atoms (⟨ps, ns⟩ : Grid ℝ) = ps.map (fun p => (p, if p = si then SILICON else CARBON)) := hzip _ _
  have hlerp : ∀ p : V2 ℝ, lerp ⟨0, 0⟩ ⟨1, 1⟩ p = p := by intro p; simp [lerp]
  have hsil : silicons (⟨ps, ns⟩ : Grid ℝ) = [si] := by
    unfold silicons
    rw [hat, List.filter_map, List.map_map]
    have e1 : ((fun a : V2 ℝ × ℤ => decide (a.2 = SILICON)) ∘ fun p => (p, if p = si then SILICON else CARBON)) =
        fun p => decide (p = si) := by
      funext p
      by_cases e : p = si <;> simp [e, SILICON, CARBON]
    have e2 : (Prod.fst ∘ fun p : V2 ℝ => (p, if p = si then SILICON else CARBON)) = id := rfl
    rw [e1, e2, List.map_id]
    rw [List.filter_eq, List.count_eq_one_of_mem hnd hm]
    rfl
  have shown : ∀ r, ShownNear (1 / 50) r (⟨ps, ns⟩ : Grid ℝ) si ⟨⟨0, 0⟩, ⟨1, 1⟩⟩
      ⟨ps.map (fun p => p + ⟨1 / 100, 0⟩), ns⟩ := by
    intro r
    refine ⟨⟨ps, ns⟩, by simp [hns], hnd, fun a ha => ha, fun a ha _ => ha, rfl, ?_⟩
    have e : lerp (⟨0, 0⟩ : V2 ℝ) ⟨1, 1⟩ = id := funext hlerp
    simp only [placedOn]
    rw [e, List.map_id]
    refine forall₂_map_self (R := fun p q : V2 ℝ => Spec.dist p q ≤ 1 / 50) (fun p _ => ?_)
    refine Real.sqrt_le_iff.2 ⟨by norm_num, ?_⟩
    simp only [V2.add_x, V2.add_y]
    ring_nf
    norm_num
  refine ⟨⟨ps, ns⟩, si, nbrs, ⟨⟨ps.map (fun p => p + ⟨1 / 100, 0⟩), ns⟩, ⟨ps.map (fun p => p + ⟨1 / 100, 0⟩), ns⟩,
    ⟨⟨0, 0⟩, ⟨1, 1⟩⟩, ⟨⟨0, 0⟩, ⟨1, 1⟩⟩, [BeamControl.mk' ⟨1, 1⟩ 500000], none, none, none, none⟩,
    BeamControl.mk' ⟨1, 1⟩ 500000, rfl, by simp [hns], hsil, hH, rfl, shown _, shown _, rfl, ?_⟩
  simp only [hlerp, BeamControl.mk', dist_self']
  norm_num

end PD.Props
