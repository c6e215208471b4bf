import Verif.Props.PolygonScale
import Verif.Examples.RunEnds

/-! # C130 from an input file in another unit: the unit square in half metres -/

set_option linter.unusedSimpArgs false
set_option linter.unusedVariables false

namespace RustBCA.PolygonScaleExample
open Scalar Spec SpecialExample PolygonExample BulkPolygonExample

/-- A user who writes the unit of length as a number. -/
noncomputable def parse (s : String) : Option ℝ := if s = "0.5" then some (1/2) else none

noncomputable def target : HomogeneousMesh2DInput ℝ := ⟨"0.5", square, inner, [3], 1⟩

theorem half : length_unit_of (Geo.ext parse) target.length_unit = .ok (1/2) := by
  simp [length_unit_of, target, Geo.ext, parse]

noncomputable def built : HomogeneousMesh2D ℝ := ⟨square.map (scaled (1/2)), inner.map (scaled (1/2)),
  barrier_thickness (fsum (convert_densities (1/2) [3])), convert_densities (1/2) [3], 1, concentrations_of (convert_densities (1/2) [3])⟩

theorem is_built : HomogeneousMesh2D.new (Geo.ext parse) target = .ok built := by
  unfold HomogeneousMesh2D.new
  rw [half]
  rfl

noncomputable def mat : Material ℝ := { LocalEndsExample.mat with geometry := built.toGeom (Geo.ext parse) }

theorem cut_out : CutOut parse built mat 1 :=
  cut_out_of_input (by norm_num) parse target built mat 1 half is_built rfl
    (by constructor <;> simp [mat, LocalEndsExample.mat, BulkScreenedExample.mat, SpecialRunExample.mat, CascadeExample.mat])
    (by simp [mat, LocalEndsExample.mat, BulkScreenedExample.mat, SpecialRunExample.mat, CascadeExample.mat])
    square_corners (by simp [target]) (by norm_num [target])
    LocalEndsExample.target_sound.m LocalEndsExample.target_sound.Z SpecialRunExample.target_regular.Ec_pos
    LocalEndsExample.target_sound.Es LocalEndsExample.target_sound.Eb inner_within

/-- An ion a quarter of a metre from two sides. -/
noncomputable def input (E : ℝ) : ParticleInput ℝ := { RunEndsExample.input E with x := 1/4, y := 1/4 }

/-- C130 from the input: a thousand ions, of all energies above the cutoff. -/
example (rcpr : Rcpr ℝ) (E : ℕ → ℝ) (hE : ∀ i, unit ≤ E i) :
    ∃ N, ∀ fuel, N ≤ fuel → ∀ cfg splits tapes, (∀ i, OpenUnit (tapes i)) →
      physics_loop_run rcpr fuel cfg mat { LocalEndsExample.options with track_recoils := false } splits tapes
        ((List.range 1000).map fun i => input (E i)) ≠ .error .fuel := by
  refine C130_from_input (u := 1/2) (eb := 1) (by norm_num) parse target built mat 1 rcpr
    { LocalEndsExample.options with track_recoils := false } half is_built rfl cut_out.tabulated cut_out.species
    square_corners (by simp [target]) (by norm_num [target]) cut_out.m cut_out.Z cut_out.Ec cut_out.Es cut_out.Eb inner_within
    rfl rfl (SpecialRunExample.screened false) (Or.inl rfl) BulkScreenedExample.tables' _ fun q hq => ?_
  obtain ⟨i, -, rfl⟩ := List.mem_map.1 hq
  refine ⟨one_pos, one_pos, unit_pos, hE i, le_rfl, ?_, BulkScreenedExample.tables⟩
  have e : ((1/4:ℝ)/(1/2), (1/4:ℝ)/(1/2)) = (1/2, 1/2) := by norm_num
  show Geo.polygon_contains square ((1/4:ℝ)/(1/2), (1/4:ℝ)/(1/2)) = true
  rw [e]
  exact middle_inside

end RustBCA.PolygonScaleExample
