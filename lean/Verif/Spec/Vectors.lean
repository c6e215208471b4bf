import Verif.Model.Bca

/-!
# Vectors over the reals, as physics uses them

The specification's own vector algebra (the model's `Vec3` is only a container here).
-/

namespace RustBCA.Spec

/-- Scalar product. -/
noncomputable def inner (v w : Vec3 ℝ) : ℝ := v.x*w.x + v.y*w.y + v.z*w.z
/-- Vector product. -/
noncomputable def cross (v w : Vec3 ℝ) : Vec3 ℝ :=
  ⟨v.y*w.z - v.z*w.y, v.z*w.x - v.x*w.z, v.x*w.y - v.y*w.x⟩
/-- Sum. -/
noncomputable def plus (v w : Vec3 ℝ) : Vec3 ℝ := ⟨v.x + w.x, v.y + w.y, v.z + w.z⟩
/-- Difference. -/
noncomputable def minus (v w : Vec3 ℝ) : Vec3 ℝ := ⟨v.x - w.x, v.y - w.y, v.z - w.z⟩
/-- Multiple. -/
noncomputable def times (c : ℝ) (v : Vec3 ℝ) : Vec3 ℝ := ⟨c*v.x, c*v.y, c*v.z⟩
/-- A unit vector. -/
def IsUnit (v : Vec3 ℝ) : Prop := inner v v = 1
/-- Length. -/
noncomputable def norm (v : Vec3 ℝ) : ℝ := Real.sqrt (inner v v)
/-- The x axis, along which RustBCA's surface normal points. -/
def xhat : Vec3 ℝ := ⟨1, 0, 0⟩

/-- Momentum of a particle of mass `m` and kinetic energy `E` moving along `u`. -/
noncomputable def momentum (m E : ℝ) (u : Vec3 ℝ) : Vec3 ℝ := times (Real.sqrt (2*m*E)) u

/-- The direction that makes the polar angle `psi` with the unit vector `d`, and azimuth `phi`
around it, measured from the projection of the x axis. -/
noncomputable def turned (d : Vec3 ℝ) (psi phi : ℝ) : Vec3 ℝ :=
  let s := Real.sqrt (1 - d.x^2)
  let e1 := times s⁻¹ (minus xhat (times d.x d))
  let e2 := times s⁻¹ (cross d xhat)
  plus (times (Real.cos psi) d)
    (times (Real.sin psi) (plus (times (Real.cos phi) e1) (times (Real.sin phi) e2)))

end RustBCA.Spec
