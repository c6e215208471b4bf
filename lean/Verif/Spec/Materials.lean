import Verif.Model.Material

/-! # Specification vocabulary for materials and surfaces -/

namespace RustBCA.Spec

/-- Concentrations: non-negative and adding up to one. -/
def Concentrations (cs : List ℝ) : Prop := (∀ c ∈ cs, 0 ≤ c) ∧ cs.sum = 1

/-- The number `u` lies in the `i`-th of the consecutive half-open intervals whose lengths are the
concentrations: `c_0 + ... + c_(i-1) ≤ u < c_0 + ... + c_i`. -/
def InInterval (cs : List ℝ) (u : ℝ) (i : Nat) : Prop :=
  i < cs.length ∧ (cs.take i).sum ≤ u ∧ u < (cs.take (i + 1)).sum

/-- Every species of a list of concentrations has an entry in each of the material's tables. -/
structure Tabulated {F : Type} (mat : Material F) (n : Nat) : Prop where
  Z : n ≤ mat.Z.length
  m : n ≤ mat.m.length
  Ec : n ≤ mat.Ec.length
  Es : n ≤ mat.Es.length
  Ed : n ≤ mat.Ed.length
  interaction_index : n ≤ mat.interaction_index.length

/-- The average of the values `v_i` weighted with `c_i`. -/
noncomputable def average (cs vs : List ℝ) : ℝ := (List.zipWith (· * ·) vs cs).sum

/-- The surface binding energy of a particle of surface energy `Ep` on a target of average surface
energy `T`, as documented (material.rs:186-190). -/
noncomputable def documented : SurfaceBindingCalculation → ℝ → ℝ → ℝ
  | .INDIVIDUAL, Ep, _ => Ep
  | .TARGET, Ep, T => if Ep = 0 then 0 else T
  | .AVERAGE, Ep, T => if Ep = 0 ∨ T = 0 then 0 else (Ep + T)/2

/-- How a surface binding model computes its energy. -/
def calculation : SurfaceBindingModel → SurfaceBindingCalculation
  | .ISOTROPIC c => c
  | .PLANAR c => c
  | .TARGET => .TARGET
  | .INDIVIDUAL => .INDIVIDUAL
  | .AVERAGE => .AVERAGE

end RustBCA.Spec
