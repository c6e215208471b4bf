import Verif.Props.AlmostSurely
import Verif.Examples.Bulk

/-! # C125: the target of `BulkExample` as a gas, with free-flight paths and all recoils -/

namespace RustBCA.AlmostSurelyExample
open Scalar Spec MeasureTheory

noncomputable def options : Options ℝ :=
  { BulkExample.options with
    mean_free_path_model := .GASEOUS
    high_energy_free_flight_paths := true
    electronic_stopping_mode := .INTERPOLATED }

theorem tables : CoulombWithAll BulkExample.mat options 0 := BulkExample.tables

/-- With probability one the run of an ion of any energy ends. -/
example (rcpr : Rcpr ℝ) (E : ℝ) (hE : 0 ≤ E) : ∀ᵐ tape ∂randomTape, ∃ fuel out tape',
    single_ion_bca rcpr fuel { CascadeExample.ion with E := E } BulkExample.mat options tape = .ok (out, tape') := by
  refine C125_almost_surely (ion := { CascadeExample.ion with E := E }) rcpr options BulkExample.target_ready
    BulkExample.target_sound BulkExample.same one_pos (by simp) (fun _ _ _ h => h) (fun x y z h => h)
    (Or.inr BulkExample.bound) (by norm_num) (by simp [options]) ?_ ?_ ?_ tables ?_ ?_ ?_ rfl rfl rfl
  · intro row hrow V hV
    simp only [options, BulkExample.options, List.mem_singleton] at hrow
    subst hrow
    exact ⟨1, 1, by simpa using hV⟩
  · simp [CascadeExample.ion]
  · intro Ec h
    have : Ec = 1/2 := by simpa [BulkExample.mat, CascadeExample.mat] using h
    rw [this]; norm_num
  · intro j hj
    have : j = 0 := by simpa [BulkExample.mat, CascadeExample.mat] using hj
    subst this
    exact tables
  · exact ⟨EnergyExample.ion_sound.m, EnergyExample.ion_sound.Z, hE, EnergyExample.ion_sound.Es, EnergyExample.ion_sound.dir⟩
  · show Except.ok ((0:ℝ) <. 0.5) = Except.ok true
    congr 1
    rw [lt_real]; norm_num

/-- A stream that meets the hypotheses of `C125_ends`. -/
example : OpenUnit (fun _ => (1/8 : ℝ)) ∧ SmallAgain (fun _ => (1/8 : ℝ)) := by
  refine ⟨fun k => by norm_num, fun w k => ⟨k, le_rfl, fun i _ => ?_⟩⟩
  have h := Real.exp_one_lt_d9
  have h1 : Real.exp (-1) = 1/Real.exp 1 := by rw [Real.exp_neg, one_div]
  rw [h1, div_le_div_iff₀ (by norm_num) (Real.exp_pos 1)]
  linarith

end RustBCA.AlmostSurelyExample
