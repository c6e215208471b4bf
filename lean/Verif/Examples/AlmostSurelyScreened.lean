import Verif.Props.AlmostSurelyScreened
import Verif.Examples.BulkScreened

/-! # C125: the hydrogen of `BulkScreenedExample` as a gas -/

namespace RustBCA.AlmostSurelyScreenedExample
open Scalar Spec MeasureTheory SpecialExample BulkScreenedExample

noncomputable def options : Options ℝ :=
  { BulkScreenedExample.options with
    mean_free_path_model := .GASEOUS
    track_recoils := false }

theorem tables : ScreenedWithAll mat options 0 := BulkScreenedExample.tables

/-- With probability one the run of a hydrogen ion of any energy ends. -/
example (rcpr : Rcpr ℝ) (E : ℝ) (hE : unit ≤ E) : ∀ᵐ tape ∂randomTape, ∃ fuel,
    single_ion_bca rcpr fuel (ion E) mat options tape ≠ .error .fuel :=
  C125_screened_almost_surely (ion := ion E) rcpr options target_ready target_sound same one_pos (by simp) nested ends rfl rfl rfl
    (Or.inl rfl) (SpecialRunExample.screened false) unit_pos tables (ion_regular E hE).sound hE rfl rfl rfl

/-- With probability one it returns, unless it moves exactly along the x axis or lands exactly on the surface. -/
example (rcpr : Rcpr ℝ) (E : ℝ) (hE : unit ≤ E) : ∀ᵐ tape ∂randomTape, Generic rcpr mat options (ion E) tape →
    ∃ fuel out tape', single_ion_bca rcpr fuel (ion E) mat options tape = .ok (out, tape') :=
  C125_screened_result (ion := ion E) rcpr options target_ready target_regular same nested ends rfl rfl rfl (Or.inl rfl)
    (SpecialRunExample.screened false) unit_pos tables (fun q i h => SpecialRunExample.species_meet q i h false)
    (SpecialRunExample.meets (ion E) rfl rfl rfl rfl false) (ion_regular E hE) hE rfl rfl rfl

end RustBCA.AlmostSurelyScreenedExample
