import Verif.Model.Sphere
import Verif.Props.Boundary
import Mathlib.Geometry.Euclidean.Angle.Unoriented.Basic
import Mathlib.Analysis.InnerProductSpace.PiL2

/-!
# C69: the size of a box
-/

namespace Verif
open Real Spec

/-- The point of the unit sphere at the given latitude and longitude (in degrees). -/
noncomputable def Spec.onSphere (lat long : ℝ) : EuclideanSpace ℝ (Fin 3) :=
  !₂[cos (lat * π / 180) * cos (long * π / 180), cos (lat * π / 180) * sin (long * π / 180), sin (lat * π / 180)]

theorem onSphere_inner (a b c d : ℝ) : inner ℝ (Spec.onSphere a b) (Spec.onSphere c d) =
    cos (a * π / 180) * cos (c * π / 180) * cos (d * π / 180 - b * π / 180) + sin (a * π / 180) * sin (c * π / 180) := by
  simp only [Spec.onSphere, PiLp.inner_apply, Fin.sum_univ_three]
  simp
  rw [cos_sub]; ring

theorem onSphere_norm (a b : ℝ) : ‖Spec.onSphere a b‖ = 1 := by
  have h : ‖Spec.onSphere a b‖ ^ 2 = 1 := by
    rw [← real_inner_self_eq_norm_sq, onSphere_inner, sub_self, cos_zero]
    have := sin_sq_add_cos_sq (a * π / 180)
    nlinarith
  have h0 := norm_nonneg (Spec.onSphere a b)
  nlinarith

theorem haversine_eq (lon1 lat1 lon2 lat2 : ℝ) :
    haversine lon1 lat1 lon2 lat2 = (1 - (cos lat1 * cos lat2 * cos (lon2 - lon1) + sin lat1 * sin lat2)) / 2 := by
  unfold haversine
  have h : ∀ x : ℝ, sin (x / 2) ^ 2 = (1 - cos x) / 2 := by
    intro x
    have := cos_sq (x / 2)
    have h2 := sin_sq_add_cos_sq (x / 2)
    rw [show 2 * (x / 2) = x by ring] at this
    linarith
  rw [h, h, cos_sub lat2 lat1]
  ring

theorem arcsin_sqrt_half {x : ℝ} (h1 : -1 ≤ x) (h2 : x ≤ 1) : 2 * arcsin (sqrt ((1 - x) / 2)) = arccos x := by
  have h0 := arccos_nonneg x
  have hp := arccos_le_pi x
  have hs : 0 ≤ sin (arccos x / 2) := sin_nonneg_of_nonneg_of_le_pi (by linarith) (by linarith [pi_pos])
  have : sqrt ((1 - x) / 2) = sin (arccos x / 2) := by
    rw [sqrt_eq_iff_mul_self_eq (by linarith) hs]
    have h3 := cos_sq (arccos x / 2)
    have h4 := sin_sq_add_cos_sq (arccos x / 2)
    rw [show 2 * (arccos x / 2) = arccos x by ring, cos_arccos h1 h2] at h3
    nlinarith
  rw [this, arcsin_sin (by linarith [pi_pos]) (by linarith)]
  ring

/-- C69: `calc_size` is the length of the shortest arc on the sphere of radius 6371 km between the south-west
and the north-east corner, in metres, divided by the square root of two; also for boxes over the
antimeridian, whose corners are given by longitudes of either sign. -/
theorem C69_size (b : Boundary) : b.calcSize * sqrt 2 =
    6371000 * InnerProductGeometry.angle (Spec.onSphere b.latMin b.longMin) (Spec.onSphere b.latMax b.longMax) := by
  have e : InnerProductGeometry.angle (Spec.onSphere b.latMin b.longMin) (Spec.onSphere b.latMax b.longMax) =
      arccos (inner ℝ (Spec.onSphere b.latMin b.longMin) (Spec.onSphere b.latMax b.longMax)) := by
    unfold InnerProductGeometry.angle
    rw [onSphere_norm, onSphere_norm]; simp
  have hb := abs_real_inner_le_norm (Spec.onSphere b.latMin b.longMin) (Spec.onSphere b.latMax b.longMax)
  rw [onSphere_norm, onSphere_norm, mul_one, abs_le] at hb
  rw [e]
  unfold Boundary.calcSize
  simp only [haversine_eq]
  rw [onSphere_inner] at hb ⊢
  unfold radians
  rw [arcsin_sqrt_half hb.1 hb.2]
  have : sqrt 2 ≠ 0 := by positivity
  field_simp
  ring

/-- Moving the eastern edge by a full turn, as is done for boxes over the antimeridian, does not change the
size. -/
theorem C69_turn (b : Boundary) (n : ℤ) : ({ b with longMax := b.longMax + 360 * n } : Boundary).calcSize = b.calcSize := by
  have h2 : sqrt 2 ≠ 0 := by positivity
  have key : Spec.onSphere (b.latMax : ℝ) ((b.longMax + 360 * n : ℚ) : ℝ) = Spec.onSphere b.latMax b.longMax := by
    unfold Spec.onSphere
    have e : (((b.longMax + 360 * n : ℚ) : ℝ) * π / 180) = (b.longMax : ℝ) * π / 180 + n * (2 * π) := by push_cast; ring
    rw [e, cos_add_int_mul_two_pi, sin_add_int_mul_two_pi]
  apply mul_right_cancel₀ h2
  rw [C69_size, C69_size]
  simp only [key]

/-- The size lies between zero and half the circumference over the square root of two; so no argument of the
square root and of the arcsine is out of range. -/
theorem C69_bounds (b : Boundary) : 0 ≤ b.calcSize ∧ b.calcSize ≤ 6371000 * π / sqrt 2 ∧
    0 ≤ haversine (radians b.longMin) (radians b.latMin) (radians b.longMax) (radians b.latMax) ∧
    haversine (radians b.longMin) (radians b.latMin) (radians b.longMax) (radians b.latMax) ≤ 1 := by
  have h2 : 0 < sqrt 2 := by positivity
  have e := C69_size b
  have h0 := InnerProductGeometry.angle_nonneg (Spec.onSphere b.latMin b.longMin) (Spec.onSphere b.latMax b.longMax)
  have h1 := InnerProductGeometry.angle_le_pi (Spec.onSphere b.latMin b.longMin) (Spec.onSphere b.latMax b.longMax)
  have hb := abs_real_inner_le_norm (Spec.onSphere b.latMin b.longMin) (Spec.onSphere b.latMax b.longMax)
  rw [onSphere_norm, onSphere_norm, mul_one, abs_le, onSphere_inner] at hb
  refine ⟨?_, ?_, ?_, ?_⟩
  · by_contra hc
    nlinarith
  · rw [le_div_iff₀ h2, e]
    nlinarith
  · rw [haversine_eq]; unfold radians; linarith [hb.2]
  · rw [haversine_eq]; unfold radians; linarith [hb.1]

/-- The size says nothing about the width of very wide boxes: a band around the globe has the size of a
box without any width. -/
theorem C69_band_false : ∃ b b' : Boundary, Valid b ∧ Valid b' ∧ b.width = 360 ∧ b'.width = 0 ∧ b.calcSize = b'.calcSize := by
  refine ⟨⟨0, 10, -180, 180, []⟩, ⟨0, 10, 180, -180, []⟩, by norm_num [Valid], by norm_num [Valid], by norm_num [Boundary.width],
    by norm_num [Boundary.width], ?_⟩
  have h2 : sqrt 2 ≠ 0 := by positivity
  apply mul_right_cancel₀ h2
  rw [C69_size, C69_size]
  have t : ∀ lat : ℝ, Spec.onSphere lat 180 = Spec.onSphere lat (-180) := by
    intro lat
    unfold Spec.onSphere
    rw [show (180 : ℝ) * π / 180 = π by ring, show (-180 : ℝ) * π / 180 = -π by ring]
    simp
  push_cast
  rw [t, t]

/-- From pole to equator along a meridian and a quarter of the equator. -/
example : (⟨0, 90, 20, 20, []⟩ : Boundary).calcSize * sqrt 2 = 6371000 * (π / 2) ∧
    (⟨0, 0, 170, -100, []⟩ : Boundary).calcSize * sqrt 2 = 6371000 * (π / 2) := by
  rw [C69_size, C69_size]
  have e : ∀ u v : EuclideanSpace ℝ (Fin 3), inner ℝ u v = 0 → InnerProductGeometry.angle u v = π / 2 :=
    fun u v h => (InnerProductGeometry.inner_eq_zero_iff_angle_eq_pi_div_two u v).1 h
  constructor
  · rw [e]
    rw [onSphere_inner]
    push_cast
    rw [show (90 : ℝ) * π / 180 = π / 2 by ring]
    simp
  · rw [e]
    rw [onSphere_inner]
    push_cast
    rw [show (-100 : ℝ) * π / 180 - 170 * π / 180 = -(π / 2 + π) by ring, cos_neg, cos_add_pi]
    simp

end Verif
