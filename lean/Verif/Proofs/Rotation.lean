import Verif.Spec.Vectors
import Mathlib.Tactic.Ring
import Mathlib.Tactic.Linarith
import Mathlib.Tactic.FieldSimp
import Mathlib.Tactic.LinearCombination

/-! # Lemmas on `rotate` and the kinematics of a collision over the reals -/

namespace RustBCA
open Spec

theorem Vec3.ext_real {v w : Vec3 ℝ} (hx : v.x = w.x) (hy : v.y = w.y) (hz : v.z = w.z) :
    v = w := by
  cases v; cases w; simp_all

theorem not_axis_pos {d : Vec3 ℝ} (hd : Spec.IsUnit d) (hx : |d.x| ≠ 1) :
    0 < 1 - d.x^2 := by
  unfold Spec.IsUnit Spec.inner at hd
  have h1 : d.x^2 ≤ 1 := by nlinarith [sq_nonneg d.y, sq_nonneg d.z]
  have h2 : d.x^2 ≠ 1 := fun h => hx (by rw [← sq_abs] at h; nlinarith [abs_nonneg d.x])
  have := lt_of_le_of_ne h1 h2
  linarith

theorem normalize_of_unit {v : Vec3 ℝ} (h : Spec.IsUnit v) : v.normalize = v := by
  unfold Spec.IsUnit Spec.inner at h
  have : v.magnitude = 1 := by unfold Vec3.magnitude; rw [h]; simp
  unfold Vec3.normalize
  simp only [this, div_one]

theorem turned_unit {d : Vec3 ℝ} (hd : Spec.IsUnit d) (hx : |d.x| ≠ 1) (psi phi : ℝ) :
    Spec.IsUnit (turned d psi phi) ∧ Spec.inner (turned d psi phi) d = Real.cos psi := by
  have h0 := not_axis_pos hd hx
  have hs : Real.sqrt (1 - d.x^2) ^ 2 = 1 - d.x^2 := Real.sq_sqrt h0.le
  have hs0 : Real.sqrt (1 - d.x^2) ≠ 0 := (Real.sqrt_pos.mpr h0).ne'
  have hq := Real.sin_sq_add_cos_sq psi
  have hp := Real.sin_sq_add_cos_sq phi
  unfold Spec.IsUnit Spec.inner at *
  obtain ⟨x, y, z⟩ := d
  simp only [turned, plus, times, minus, cross, xhat] at *
  set s := Real.sqrt (1 - x^2)
  set a := Real.cos psi
  set b := Real.sin psi
  set c := Real.cos phi
  set e := Real.sin phi
  have hyz : y*y + z*z = s^2 := by rw [hs]; linarith
  constructor
  · field_simp
    linear_combination (-2*a*x*s*b*c + a^2*s^2 + b^2*c^2*x^2 + b^2*e^2)*hd
      + b^2*(1 - x^2)*hp + s^2*hq - b^2*hs
  · field_simp
    linear_combination (a*s - b*c*x)*hd

theorem rotated_dir_eq {d : Vec3 ℝ} (hd : Spec.IsUnit d) (hx : |d.x| ≠ 1) (psi phi : ℝ) :
    Particle.rotated_dir d psi phi = turned d psi phi := by
  have h0 := not_axis_pos hd hx
  have hs : Real.sqrt (1 - d.x^2) ^ 2 = 1 - d.x^2 := Real.sq_sqrt h0.le
  have hs0 : Real.sqrt (1 - d.x^2) ≠ 0 := (Real.sqrt_pos.mpr h0).ne'
  have e1 : (1.0 : ℝ) - d.x*d.x = 1 - d.x^2 := by norm_num; ring
  obtain ⟨x, y, z⟩ := d
  simp only [Particle.rotated_dir, turned, plus, times, minus, cross, xhat, sqrt_real, cos_real,
    sin_real] at *
  rw [e1]
  set s := Real.sqrt (1 - x^2)
  apply Vec3.ext_real <;> simp only
  · field_simp
    linear_combination Real.sin psi * Real.cos phi * hs
  · field_simp
    ring
  · field_simp
    ring

theorem rotate_dir {p : Particle ℝ} (hd : Spec.IsUnit p.dir) (hx : |p.dir.x| ≠ 1) (psi phi : ℝ) :
    (p.rotate psi phi).dir = turned p.dir psi phi := by
  unfold Particle.rotate
  simp only
  rw [rotated_dir_eq hd hx, normalize_of_unit (turned_unit hd hx psi phi).1]

end RustBCA
