import Verif.Props.RelistedMesh
import Verif.Examples.RelistedShapes

/-! # C112 at work: two triangles -/

set_option linter.unusedVariables false
set_option linter.unusedSimpArgs false

namespace RustBCA.RelistedExample
open Scalar Spec GeometryExample

/-- The unit square as two triangles, with the densities of its halves. -/
noncomputable def plate (ds : List (List ℝ)) : Mesh2DInput ℝ where
  length_unit := "M"
  triangles := [(0, 1, 2), (0, 2, 3)]
  points := [(0, 0), (1, 0), (1, 1), (0, 1)]
  boundary := [0, 1, 2, 3]
  simulation_boundary_points := [(-1, -1), (2, -1), (2, 2), (-1, 2)]
  densities := ds
  electronic_stopping_correction_factors := [1, 1]
  energy_barrier_thickness := 1/10

theorem plate_built (d e : List ℝ) (h : e.length = d.length) : ∃ g, Mesh2D.new ext (plate [d, e]) = .ok g := by
  unfold Mesh2D.new
  simp only [plate, metre, bind, Except.bind, List.map_cons, List.map_nil, convert_densities, List.all_cons, List.all_nil,
    List.headD_cons, List.length_map, h, beq_self_eq_true, Bool.and_self, Bool.and_true, rassert, if_true, List.length_cons,
    List.length_nil, List.zip_cons_cons, List.zip_nil_right, List.zip_nil_left, forFold, Mesh2D.cellStep, vget,
    List.getElem?_cons_zero, List.getElem?_cons_succ, pure, Except.pure]
  exact ⟨_, rfl⟩

/-- C112: tungsten carbide above the diagonal of the square, carbon below it. -/
example : ∃ mat mat', Material.new ext (section' [a, b]) ((·.toGeom ext) <$> Mesh2D.new ext (plate [[3, 2], [0, 5]])) = .ok mat ∧
    Material.new ext (section' [a, a, c, b]) ((·.toGeom ext) <$> Mesh2D.new ext (plate [[1, 2, 0, 2], [0, 0, 0, 5]])) = .ok mat' ∧
    mat.Z.length = 2 ∧ mat'.Z.length = 4 ∧
    ∀ rcpr fuel ion o tape, single_ion_bca rcpr fuel ion mat' o tape = single_ion_bca rcpr fuel ion mat o tape := by
  obtain ⟨g, hg⟩ := plate_built [3, 2] [0, 5] rfl
  obtain ⟨g', hg'⟩ := plate_built [1, 2, 0, 2] [0, 0, 0, 5] rfl
  rw [hg, hg']
  refine ⟨_, _, rfl, rfl, rfl, rfl, ?_⟩
  intro rcpr fuel ion o tape
  refine C112_mesh2d ext _ _ parameters (plate [[3, 2], [0, 5]]) [[1, 2, 0, 2], [0, 0, 0, 5]]
    (.cons amounts (.cons amounts2 .nil)) unit ?_ ?_ rcpr fuel ion o tape
  · rw [hg]; rfl
  · show Material.new ext _ ((·.toGeom ext) <$> Mesh2D.new ext (plate [[1, 2, 0, 2], [0, 0, 0, 5]])) = _
    rw [hg']; rfl

end RustBCA.RelistedExample
