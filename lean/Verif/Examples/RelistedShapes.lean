import Verif.Props.RelistedShapes
import Verif.Examples.Relisted

/-! # C112 at work: a plate, a sphere, a ball and a triangle mesh of tungsten carbide -/

set_option linter.unusedVariables false

namespace RustBCA.RelistedExample
open Scalar Spec GeometryExample

/-- A plate. -/
example (pts sim : List (ℝ × ℝ)) : ∃ mat mat', Material.new ext (section' [a, b])
      ((·.toGeom ext) <$> HomogeneousMesh2D.new ext ⟨"M", pts, sim, [3, 2], 1⟩) = .ok mat ∧
    Material.new ext (section' [a, a, c, b])
      ((·.toGeom ext) <$> HomogeneousMesh2D.new ext ⟨"M", pts, sim, [1, 2, 0, 2], 1⟩) = .ok mat' ∧
    mat.Z.length = 2 ∧ mat'.Z.length = 4 ∧
    ∀ rcpr fuel ion o tape, single_ion_bca rcpr fuel ion mat' o tape = single_ion_bca rcpr fuel ion mat o tape := by
  have e : ∀ d, ∃ g : HomogeneousMesh2D ℝ, HomogeneousMesh2D.new ext ⟨"M", pts, sim, d, 1⟩ = .ok g := by
    intro d
    unfold HomogeneousMesh2D.new
    simp only [metre, bind, Except.bind]
    exact ⟨_, rfl⟩
  obtain ⟨g, hg⟩ := e [3, 2]
  obtain ⟨g', hg'⟩ := e [1, 2, 0, 2]
  rw [hg, hg']
  refine ⟨_, _, rfl, rfl, rfl, rfl, ?_⟩
  intro rcpr fuel ion o tape
  refine C112_homogeneous2d ext _ _ parameters ⟨"M", pts, sim, [3, 2], 1⟩ [1, 2, 0, 2] amounts unit ?_ ?_ rcpr fuel ion o tape
  · rw [hg]; rfl
  · show Material.new ext _ ((·.toGeom ext) <$> HomogeneousMesh2D.new ext ⟨"M", pts, sim, [1, 2, 0, 2], 1⟩) = _
    rw [hg']; rfl

/-- A sphere. -/
example (r : ℝ) : ∃ mat mat', Material.new ext (section' [a, b]) (Sphere.toGeom <$> Sphere.new ext ⟨"M", r, [3, 2], 1⟩) = .ok mat ∧
    Material.new ext (section' [a, a, c, b]) (Sphere.toGeom <$> Sphere.new ext ⟨"M", r, [1, 2, 0, 2], 1⟩) = .ok mat' ∧
    mat.Z.length = 2 ∧ mat'.Z.length = 4 ∧
    ∀ rcpr fuel ion o tape, single_ion_bca rcpr fuel ion mat' o tape = single_ion_bca rcpr fuel ion mat o tape := by
  have e : ∀ d, ∃ g : Sphere ℝ, Sphere.new ext ⟨"M", r, d, 1⟩ = .ok g := by
    intro d
    unfold Sphere.new
    simp only [metre, bind, Except.bind]
    exact ⟨_, rfl⟩
  obtain ⟨g, hg⟩ := e [3, 2]
  obtain ⟨g', hg'⟩ := e [1, 2, 0, 2]
  rw [hg, hg']
  refine ⟨_, _, rfl, rfl, rfl, rfl, ?_⟩
  intro rcpr fuel ion o tape
  refine C112_sphere ext _ _ parameters ⟨"M", r, [3, 2], 1⟩ [1, 2, 0, 2] amounts unit ?_ ?_ rcpr fuel ion o tape
  · rw [hg]; rfl
  · show Material.new ext _ (Sphere.toGeom <$> Sphere.new ext ⟨"M", r, [1, 2, 0, 2], 1⟩) = _
    rw [hg']; rfl

/-- A ball of the parry3d build. -/
example (parry : Parry ℝ) (r : ℝ) : ∃ mat mat',
    Material.new ext (section' [a, b]) (ParryBall.toGeom parry <$> ParryBall.new ext ⟨"M", r, [3, 2], 1⟩) = .ok mat ∧
    Material.new ext (section' [a, a, c, b]) (ParryBall.toGeom parry <$> ParryBall.new ext ⟨"M", r, [1, 2, 0, 2], 1⟩) = .ok mat' ∧
    mat.Z.length = 2 ∧ mat'.Z.length = 4 ∧
    ∀ rcpr fuel ion o tape, single_ion_bca rcpr fuel ion mat' o tape = single_ion_bca rcpr fuel ion mat o tape := by
  have e : ∀ d, ∃ g : ParryBall ℝ, ParryBall.new ext ⟨"M", r, d, 1⟩ = .ok g := by
    intro d
    unfold ParryBall.new
    simp only [metre, bind, Except.bind]
    exact ⟨_, rfl⟩
  obtain ⟨g, hg⟩ := e [3, 2]
  obtain ⟨g', hg'⟩ := e [1, 2, 0, 2]
  rw [hg, hg']
  refine ⟨_, _, rfl, rfl, rfl, rfl, ?_⟩
  intro rcpr fuel ion o tape
  refine C112_ball ext parry _ _ parameters ⟨"M", r, [3, 2], 1⟩ [1, 2, 0, 2] amounts unit ?_ ?_ rcpr fuel ion o tape
  · rw [hg]; rfl
  · show Material.new ext _ (ParryBall.toGeom parry <$> ParryBall.new ext ⟨"M", r, [1, 2, 0, 2], 1⟩) = _
    rw [hg']; rfl

/-- A triangle mesh of the parry3d build, when the library accepts its vertices and triangles. -/
example (parry : Parry ℝ) (vs : List (ℝ × ℝ × ℝ)) (is : List (ℕ × ℕ × ℕ)) (t : parry.Mesh)
    (h : ∀ vs', parry.trimesh_new vs' is = .ok t) : ∃ mat mat',
    Material.new ext (section' [a, b]) (ParryTriMesh.toGeom <$> ParryTriMesh.new ext parry ⟨"M", [3, 2], 1, vs, is⟩) = .ok mat ∧
    Material.new ext (section' [a, a, c, b]) (ParryTriMesh.toGeom <$> ParryTriMesh.new ext parry ⟨"M", [1, 2, 0, 2], 1, vs, is⟩) = .ok mat' ∧
    mat.Z.length = 2 ∧ mat'.Z.length = 4 ∧
    ∀ rcpr fuel ion o tape, single_ion_bca rcpr fuel ion mat' o tape = single_ion_bca rcpr fuel ion mat o tape := by
  have e : ∀ d, ∃ g : ParryTriMesh ℝ parry, ParryTriMesh.new ext parry ⟨"M", d, 1, vs, is⟩ = .ok g := by
    intro d
    unfold ParryTriMesh.new
    simp only [metre, h, bind, Except.bind]
    exact ⟨_, rfl⟩
  obtain ⟨g, hg⟩ := e [3, 2]
  obtain ⟨g', hg'⟩ := e [1, 2, 0, 2]
  rw [hg, hg']
  refine ⟨_, _, rfl, rfl, rfl, rfl, ?_⟩
  intro rcpr fuel ion o tape
  refine C112_trimesh ext parry _ _ parameters ⟨"M", [3, 2], 1, vs, is⟩ [1, 2, 0, 2] amounts unit ?_ ?_ rcpr fuel ion o tape
  · rw [hg]; rfl
  · show Material.new ext _ (ParryTriMesh.toGeom <$> ParryTriMesh.new ext parry ⟨"M", [1, 2, 0, 2], 1, vs, is⟩) = _
    rw [hg']; rfl

end RustBCA.RelistedExample
