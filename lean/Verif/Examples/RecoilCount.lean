import Verif.Props.RecoilCount
import Verif.Examples.Energy

/-! # C101: a run that meets the hypotheses -/

namespace RustBCA.RecoilCountExample
open Scalar Spec

theorem bound : BoundBy CascadeExample.mat (1/4) := by
  intro x y z cs h
  have : [(1:ℝ)] = cs := by injection h
  subst this
  simp [CascadeExample.mat]

theorem no_vacuum : NoVacuum CascadeExample.mat := ⟨fun _ _ _ _ => rfl, fun _ _ _ _ => rfl⟩

theorem coulomb : AllCoulomb CascadeExample.options := by
  intro row hrow V hV
  simp only [CascadeExample.options, List.mem_singleton] at hrow
  subst hrow
  exact ⟨1, 1, by simpa using hV⟩

/-- An ion of energy 1 in a target with binding energy 1/4: it makes one recoil, and could not make five. -/
example : ∃ out t, single_ion_bca CascadeExample.rcpr 3 CascadeExample.ion CascadeExample.mat
      CascadeExample.options CascadeExample.zeros = .ok (out, t) ∧ out.length = 2 ∧
    totalEnergy out + 1/4*(out.length - 1) ≤ 1 ∧ (out.length : ℝ) - 1 ≤ 1/(1/4) := by
  obtain ⟨out, t, h, hlen, hs, hl⟩ := CascadeExample.run
  have hL : LossNeverNegative CascadeExample.rcpr CascadeExample.mat CascadeExample.options 3 CascadeExample.ion CascadeExample.zeros :=
    Or.inr (coulomb_always_forwards _ _ _ _ _ _ EnergyExample.target_sound coulomb rfl EnergyExample.zeros_unit rfl)
  refine ⟨out, t, h, hlen, ?_, ?_⟩
  · exact C101_balance _ _ _ _ _ _ _ _ EnergyExample.target_sound EnergyExample.ion_sound _ bound (by norm_num)
      (Or.inr ⟨no_vacuum, rfl⟩) hL h
  · exact (C101_coulomb _ _ _ _ _ _ _ _ EnergyExample.target_sound EnergyExample.ion_sound _ bound (by norm_num)
      (Or.inr ⟨no_vacuum, rfl⟩) coulomb rfl EnergyExample.zeros_unit rfl h).2

end RustBCA.RecoilCountExample
