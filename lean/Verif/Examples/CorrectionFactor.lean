import Verif.Props.CorrectionFactor
import Verif.Examples.Recoils

/-! # C118 on a concrete step -/

namespace RustBCA
open Scalar Spec

namespace FactorExample
open LocalLossExample

/-- The target of `LocalLossExample` with the correction factor `c`. -/
noncomputable def matC (c : ℝ) : Material ℝ :=
  { mat with geometry := { geom with get_ck := fun _ _ _ => .ok c } }

noncomputable def optionsM (m : ElectronicStoppingMode) : Options ℝ :=
  { options with electronic_stopping_mode := m }

noncomputable def inner : Particle ℝ := { ion with pos := ⟨0, 0, 1⟩ }

theorem differs (c c' : ℝ) : OnlyFactorDiffers (matC c) (matC c') inner c c' :=
  ⟨rfl, rfl, rfl, rfl, rfl, rfl⟩

theorem physical (c : ℝ) : Physical (matC c) inner :=
  ⟨fun Z hZ => by
    have : Z ∈ [(1:ℝ)] := hZ
    simp only [List.mem_singleton] at this
    rw [this]; exact one_pos, one_pos, one_pos, one_pos⟩

theorem inside_mat (c : ℝ) : (matC c).geometry.inside inner.pos.x inner.pos.y inner.pos.z = .ok true := by
  show Except.ok ((0.5:ℝ) <. 1) = .ok true
  congr 1
  rw [lt_real]; norm_num

theorem step_ok (c : ℝ) (m : ElectronicStoppingMode) : ∃ q l,
    subtract_electronic_stopping_energy inner (matC c) 1 0 2 0 (optionsM m) = .ok (q, l) := by
  have hS : ∃ s, (matC c).electronic_stopping_cross_sections inner m = .ok [s] := ⟨_, rfl⟩
  obtain ⟨s, hS⟩ := hS
  unfold subtract_electronic_stopping_energy
  have hn : ∀ x y z, (matC c).number_densities x y z = .ok [1] := fun _ _ _ => rfl
  have hin := inside_mat c
  cases m <;>
  simp only [Material.inside, hin, isNaN_real, rassert, Bool.not_false, if_true, bind,
      Except.bind, pure, Except.pure, optionsM, options, vget, List.getElem?_cons_zero, hS, hn,
      show (matC c).interaction_index = [0] from rfl, show inner.interaction_index = 0 from rfl] <;>
    exact ⟨_, _, rfl⟩

/-- C118's hypotheses are met, and its claim is not: doubling the correction factor doubles the loss in
the low-energy modes and lowers it with INTERPOLATED stopping. -/
example : (∀ m, LowEnergy m → ∃ q q' l,
      subtract_electronic_stopping_energy inner (matC 1) 1 0 2 0 (optionsM m) = .ok (q, l) ∧
      subtract_electronic_stopping_energy inner (matC 2) 1 0 2 0 (optionsM m) = .ok (q', 2/1*l)) ∧
    ∃ q q' l l',
      subtract_electronic_stopping_energy inner (matC 1) 1 0 2 0 (optionsM .INTERPOLATED) = .ok (q, l) ∧
      subtract_electronic_stopping_energy inner (matC 2) 1 0 2 0 (optionsM .INTERPOLATED) = .ok (q', l') ∧
      0 < l' ∧ l' < l := by
  constructor
  · intro m hm
    obtain ⟨q, l, h⟩ := step_ok 1 m
    obtain ⟨q', h'⟩ := C118_factor_multiplies_partial (matC 1) (matC 2) inner q (optionsM m) 1 2 1 0 2 l 0
      [1] (differs 1 2) one_ne_zero rfl hm h
    exact ⟨q, q', l, h, h'⟩
  · obtain ⟨q, l, h⟩ := step_ok 1 .INTERPOLATED
    obtain ⟨q', l', h1, h2, h3, -⟩ := C118_refuted_interpolated (matC 1) (matC 2) inner q
      (optionsM .INTERPOLATED) 1 2 1 0 2 l 0 [1] [1] (differs 1 2) (physical 1) (by norm_num) (by norm_num)
      one_pos rfl rfl rfl (by simp [matC, mat, CascadeExample.mat]) rfl (by simp) (inside_mat 1) rfl h
    exact ⟨q, q', l, l', h, h1, h2, h3⟩

end FactorExample
end RustBCA
