/- Property C35: rotations. -/
import Verif.Model.Geometry
import Verif.Spec.Geometry
import Mathlib.Analysis.SpecialFunctions.Trigonometric.Angle

set_option linter.unusedSectionVars false
set_option linter.unusedSimpArgs false

namespace PD.Props
open PD PD.Spec

theorem norm2_eq_len (p : V2 ℝ) : norm2 p = len p := by
  simp [norm2, len, pow_two]

theorem len_nonneg (p : V2 ℝ) : 0 ≤ len p := Real.sqrt_nonneg _

theorem len_eq_norm (p : V2 ℝ) : len p = ‖(⟨p.x, p.y⟩ : ℂ)‖ := by
  rw [len, Complex.norm_eq_sqrt_sq_add_sq]

theorem dist_eq_len (p q : V2 ℝ) : Spec.dist p q = len (p - q) := rfl

theorem len_cos_angle (p : V2 ℝ) : len p * Real.cos (getAngle p) = p.x := by
  rw [len_eq_norm, getAngle]; exact Complex.norm_mul_cos_arg ⟨p.x, p.y⟩

theorem len_sin_angle (p : V2 ℝ) : len p * Real.sin (getAngle p) = p.y := by
  rw [len_eq_norm, getAngle]; exact Complex.norm_mul_sin_arg ⟨p.x, p.y⟩

theorem rotate_toComplex (p : V2 ℝ) (θ : ℝ) :
    (⟨(rotate p θ).x, (rotate p θ).y⟩ : ℂ) = ⟨p.x, p.y⟩ * (Complex.cos θ + Complex.sin θ * Complex.I) := by
  apply Complex.ext <;>
    simp [rotate, ← Complex.ofReal_cos, ← Complex.ofReal_sin] <;> ring

/-! ### C35 -/

/-- Rotating two points by the same angle keeps their distance. -/
theorem C35_distance (p q : V2 ℝ) (θ : ℝ) :
    Spec.dist (rotate p θ) (rotate q θ) = Spec.dist p q := by
  unfold Spec.dist rotate
  congr 1
  have := Real.sin_sq_add_cos_sq θ
  simp only
  linear_combination ((p.x - q.x) ^ 2 + (p.y - q.y) ^ 2) * this

/-- Rotation keeps lengths, scalar products and signed areas, so it keeps the oriented angle
between any two vectors. -/
theorem C35_angle_between (p q : V2 ℝ) (θ : ℝ) :
    len (rotate p θ) = len p ∧ dot (rotate p θ) (rotate q θ) = dot p q ∧
    cross (rotate p θ) (rotate q θ) = cross p q := by
  have := Real.sin_sq_add_cos_sq θ
  refine ⟨?_, ?_, ?_⟩
  · unfold len rotate
    congr 1
    simp only
    linear_combination (p.x ^ 2 + p.y ^ 2) * this
  · simp only [dot, rotate]
    linear_combination (p.x * q.x + p.y * q.y) * this
  · simp only [cross, rotate]
    linear_combination (p.x * q.y - p.y * q.x) * this

/-- Rotating a point other than the origin by `θ` adds `θ` (modulo a full turn) to the angle
`get_angles` reports: the rotation is counter-clockwise by exactly `θ`. -/
theorem C35_turns_by_theta (p : V2 ℝ) (θ : ℝ) (hp : p ≠ 0) :
    (getAngle (rotate p θ) : Real.Angle) = (getAngle p : Real.Angle) + (θ : Real.Angle) := by
  unfold getAngle
  rw [rotate_toComplex]
  have h1 : (⟨p.x, p.y⟩ : ℂ) ≠ 0 := by
    intro h
    apply hp
    have := congrArg Complex.re h; have := congrArg Complex.im h
    ext <;> simp_all
  have h2 : (Complex.cos θ + Complex.sin θ * Complex.I) ≠ 0 := by
    rw [← Complex.exp_mul_I]; exact Complex.exp_ne_zero _
  have h3 := Complex.arg_cos_add_sin_mul_I_coe_angle (θ : Real.Angle)
  rw [Real.Angle.cos_coe, Real.Angle.sin_coe, Complex.ofReal_cos, Complex.ofReal_sin] at h3
  rw [Complex.arg_mul_coe_angle h1 h2, h3]

/-- Two rotations one after the other are one rotation by the sum of the angles; rotating by zero
does nothing; so rotating back undoes a rotation. -/
theorem C35_composition (p : V2 ℝ) (a b : ℝ) :
    rotate (rotate p a) b = rotate p (a + b) ∧ rotate p 0 = p ∧ rotate (rotate p a) (-a) = p := by
  have hc : ∀ a b, rotate (rotate p a) b = rotate p (a + b) := by
    intro a b
    ext <;> simp only [rotate, Real.cos_add, Real.sin_add] <;> ring
  have h0 : rotate p 0 = p := by ext <;> simp [rotate]
  exact ⟨hc a b, h0, by rw [hc, add_neg_cancel, h0]⟩

/-- Rotating a point by minus its own angle puts it on the positive x-axis at the same distance
from the origin; and the vector of that length along the x-axis, turned by that angle, is the
point again. -/
theorem C35_to_axis (p : V2 ℝ) :
    rotate p (-getAngle p) = ⟨len p, 0⟩ ∧ rotate ⟨len p, 0⟩ (getAngle p) = p := by
  have hx := len_cos_angle p
  have hy := len_sin_angle p
  have h1 : rotate ⟨len p, 0⟩ (getAngle p) = p := by
    ext <;> simp [rotate, hx, hy]
  refine ⟨?_, h1⟩
  conv_lhs => rw [← h1]
  have := (C35_composition ⟨len p, 0⟩ (getAngle (rotate ⟨len p, 0⟩ (getAngle p)))
    (-getAngle p)).1
  have h2 := (C35_composition ⟨len p, 0⟩ (getAngle p) 0).2.2
  rw [h1] at *
  rw [← h2, h1]

/-- The array versions act on each row on its own. -/
theorem C35_arrays (ps : List (V2 ℝ)) (θ : ℝ) (i : ℕ) :
    (rotateCoordinates ps θ)[i]? = (ps[i]?).map (fun p => rotate p θ) ∧
    (getAngles ps)[i]? = (ps[i]?).map getAngle ∧ (rotateCoordinates ps θ).length = ps.length := by
  simp [rotateCoordinates, getAngles]

/-! The quarter turn takes `(1, 0)` to `(0, 1)`, and `(0, 2)` has angle `π/2`. -/
example : rotate ⟨1, 0⟩ (Real.pi / 2) = ⟨0, 1⟩ := by ext <;> simp [rotate]
example : getAngle ⟨0, 2⟩ = Real.pi / 2 := by
  have : (⟨0, 2⟩ : ℂ) = (2 : ℝ) * Complex.I := by apply Complex.ext <;> simp
  rw [getAngle, this, Complex.arg_real_mul _ (by norm_num), Complex.arg_I]
example : (⟨0, 2⟩ : V2 ℝ) ≠ 0 := by
  intro h; have := congrArg V2.y h; simp at this

end PD.Props
