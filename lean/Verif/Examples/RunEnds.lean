import Verif.Props.RunEndsSurely
import Verif.Examples.BulkPolygon

/-! # C130 at work: a beam of hydrogen in the unit square -/

set_option linter.unusedVariables false

namespace RustBCA.RunEndsExample
open Scalar Spec SpecialExample PolygonExample BulkPolygonExample

/-- An ion of energy `E` that starts in the middle of the square, heading up. -/
noncomputable def input (E : ℝ) : ParticleInput ℝ := ⟨1, 1, E, unit, 0, 1/2, 1/2, 0, 3/5, 4/5, 0, 0, 1, 0⟩

theorem followable (m : Material ℝ) (E : ℝ) (hE : unit ≤ E) (h : ScreenedWithAll m LocalEndsExample.options 0) :
    Followable (fun x y => Geo.polygon_contains square (x, y) = true) m LocalEndsExample.options (input E) :=
  ⟨one_pos, one_pos, unit_pos, hE, le_rfl, middle_inside, h⟩

/-- The program accepts it. -/
example (E : ℝ) (hE : unit ≤ E) : ∃ b, Particle.from_input (input E) LocalEndsExample.options = .ok b := by
  rw [from_input_ok_iff]
  refine ⟨?_, unit_pos.trans_le hE⟩
  have hs : Real.sqrt ((input E).ux*(input E).ux + (input E).uy*(input E).uy + (input E).uz*(input E).uz) = 1 := by
    simp only [input]
    rw [show (3/5:ℝ)*(3/5) + 4/5*(4/5) + 0*0 = 1 by norm_num, Real.sqrt_one]
  rw [hs]
  simp only [input]
  norm_num [abs_of_pos]

/-- C130: a thousand ions, of all energies above the cutoff. -/
example (parse : String → Option ℝ) (rcpr : Rcpr ℝ) (E : ℕ → ℝ) (hE : ∀ i, unit ≤ E i) :
    ∃ N, ∀ fuel, N ≤ fuel → ∀ cfg splits tapes, (∀ i, OpenUnit (tapes i)) →
      physics_loop_run rcpr fuel cfg (mat parse) LocalEndsExample.options splits tapes
        ((List.range 1000).map fun i => input (E i)) ≠ .error .fuel := by
  refine C130_homogeneous2D (eb := 1) rcpr LocalEndsExample.options (cut_out parse) rfl rfl (SpecialRunExample.screened false)
    (Or.inr ⟨bound parse, one_pos⟩) BulkScreenedExample.tables' _ fun q hq => ?_
  obtain ⟨i, -, rfl⟩ := List.mem_map.1 hq
  exact followable _ _ (hE i) BulkScreenedExample.tables

/-- C130 in the two triangles. -/
example (parse : String → Option ℝ) (rcpr : Rcpr ℝ) (E : ℕ → ℝ) (hE : ∀ i, unit ≤ E i) :
    ∃ N, ∀ fuel, N ≤ fuel → ∀ cfg splits tapes, (∀ i, OpenUnit (tapes i)) →
      physics_loop_run rcpr fuel cfg (mat2 parse) { LocalEndsExample.options with track_recoils := false } splits tapes
        ((List.range 1000).map fun i => input (E i)) ≠ .error .fuel := by
  refine C130_mesh2D (eb := 1) rcpr { LocalEndsExample.options with track_recoils := false } (cut_out_mesh parse) one_pos one_pos rfl rfl
    (SpecialRunExample.screened false) (Or.inl rfl) BulkScreenedExample.tables' _ fun q hq => ?_
  obtain ⟨i, -, rfl⟩ := List.mem_map.1 hq
  exact ⟨one_pos, one_pos, unit_pos, hE i, le_rfl, middle_inside, BulkScreenedExample.tables⟩

/-- C130 with Coulomb potentials, as a gas with all recoils. -/
example (parse : String → Option ℝ) (rcpr : Rcpr ℝ) (E : ℕ → ℝ) (hE : ∀ i, unit ≤ E i) :
    ∀ᵐ tapes ∂randomTapes, ∃ N, ∀ fuel, N ≤ fuel → ∀ cfg splits,
      physics_loop_run rcpr fuel cfg (mat parse) AlmostSurelyExample.options splits tapes
        ((List.range 1000).map fun i => input (E i)) ≠ .error .fuel := by
  refine C130_almost_surely (eb := 1) rcpr AlmostSurelyExample.options (cut_out parse) (Or.inr (bound parse)) one_pos
    (by simp [AlmostSurelyExample.options]) ?_ ?_ _ fun q hq => ?_
  · intro row hrow V hV
    simp only [AlmostSurelyExample.options, BulkExample.options, List.mem_singleton] at hrow
    subst hrow
    exact ⟨1, 1, by simpa using hV⟩
  · intro j hj
    have : j = 0 := by
      simpa [BulkPolygonExample.mat, LocalEndsExample.mat, BulkScreenedExample.mat, SpecialRunExample.mat, CascadeExample.mat] using hj
    subst this
    exact AlmostSurelyExample.tables
  · obtain ⟨i, -, rfl⟩ := List.mem_map.1 hq
    exact ⟨one_pos, one_pos, unit_pos, unit_pos.le.trans (hE i), le_rfl, middle_inside, AlmostSurelyExample.tables⟩

/-- C130 with a screened potential and nonlocal stopping. -/
example (parse : String → Option ℝ) (rcpr : Rcpr ℝ) (E : ℕ → ℝ) (hE : ∀ i, unit ≤ E i) :
    ∀ᵐ tapes ∂randomTapes, ∃ N, ∀ fuel, N ≤ fuel → ∀ cfg splits,
      physics_loop_run rcpr fuel cfg (mat parse) BulkScreenedExample.options splits tapes
        ((List.range 1000).map fun i => input (E i)) ≠ .error .fuel := by
  refine C130_almost_surely_screened rcpr BulkScreenedExample.options (cut_out parse) rfl rfl rfl (Or.inl rfl)
    (SpecialRunExample.screened false) _ fun q hq => ?_
  obtain ⟨i, -, rfl⟩ := List.mem_map.1 hq
  exact ⟨one_pos, one_pos, unit_pos, hE i, le_rfl, middle_inside, BulkScreenedExample.tables⟩

end RustBCA.RunEndsExample
