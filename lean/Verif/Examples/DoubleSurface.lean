import Verif.Examples.DoubleEnergy
import Verif.Props.DoubleSurface

/-!
# C108 at the surface, at work
-/

namespace RustBCA.DoubleSurfaceExample
open Scalar Spec DoubleExample
variable {A : DoubleArith}

/-- A small integer as a double. -/
noncomputable def int (A : DoubleArith) (m : ℤ) (h : |m| ≤ 2^53) : Dbl A := ⟨(m:ℝ), isDouble_int m h⟩

/-- A target whose nearest surface point is `(x, y, 0)`. -/
noncomputable def target (x y : Dbl A) : Material (Dbl A) :=
  { mat A with
    surface_binding_model := .INDIVIDUAL
    geometry := { geom A with closest_point := fun _ _ _ => .ok (x, y, int A 0 (by norm_num)) } }

/-- A particle at the origin that moves along `(-5, -12, 0)`. -/
noncomputable def leaver (A : DoubleArith) : Particle (Dbl A) :=
  { ion A with
    E := int A 1 (by norm_num)
    pos := ⟨int A 0 (by norm_num), int A 0 (by norm_num), int A 0 (by norm_num)⟩
    dir := (⟨int A (-5) (by norm_num), int A (-12) (by norm_num), int A 0 (by norm_num)⟩ :
      Vec3 (Dbl A)).normalize }

/-- Beside `C108_refuted_surface`: the hypotheses can be met, for every rounding to nearest; and the
direction is one that `rotate` may return. -/
example : ∃ Es q, surface_leaving (leaver A)
      (target (int A 35 (by norm_num)) (int A 84 (by norm_num))) Es = .ok q ∧ 0 < (leaver A).E.val ∧
    q.E.val < 0 ∧ UnitDirection (leaver A).dir := by
  obtain ⟨q, h, hq⟩ := C108_refuted_surface (leaver A)
    (target (int A 35 (by norm_num)) (int A 84 (by norm_num)))
    ⟨1 + 2^(-52:ℤ), 2^52 + 1, -52, by norm_num, by norm_num⟩ (int A 35 (by norm_num))
    (int A 84 (by norm_num)) (int A (-5) (by norm_num)) (int A (-12) (by norm_num))
    (int A 0 (by norm_num)) (by simp [leaver, int, Dbl.val]) rfl rfl (by simp [int, Dbl.val])
    (by simp [int, Dbl.val]) (by simp [int, Dbl.val]) rfl rfl (by simp [int, Dbl.val])
    (by simp [int, Dbl.val]) rfl
  refine ⟨_, q, h, ?_, ?_, normalize_unit _⟩
  · simp [leaver, int, Dbl.val]
  · rw [hq]; norm_num

/-- Beside `C108_leaving_flat_partial`: a particle leaving a flat target. -/
example : (∃ x2, (target (int A 35 (by norm_num)) (int A 0 (by norm_num))).closest_point
      (leaver A).pos.x (leaver A).pos.y (leaver A).pos.z =
      .ok (x2, (leaver A).pos.y, (leaver A).pos.z)) ∧ |(leaver A).dir.x.val| ≤ 1 :=
  ⟨⟨_, rfl⟩, (normalize_unit _).2.1⟩

end RustBCA.DoubleSurfaceExample
