import Verif.Props.Relisted
import Verif.Model.Parry

/-!
# C112: listing the species in another way, in the other targets of one composition
-/

set_option linter.unusedVariables false
set_option linter.unusedSimpArgs false

namespace RustBCA
open Scalar Spec

/-- a target is made only when its geometry is -/
theorem material_geometry {ext : Ext ℝ} {p : MaterialParameters ℝ} {G : Res (Geom ℝ)} {mat : Material ℝ}
    (h : Material.new ext p G = .ok mat) : ∃ g, G = .ok g := by
  cases G with
  | ok g => exact ⟨g, rfl⟩
  | error e =>
    unfold Material.new at h
    cases he : energy_unit_of ext p.energy_unit with
    | error e => rw [he] at h; cases h
    | ok ue =>
      cases hm : mass_unit_of ext p.mass_unit with
      | error e => rw [he, hm] at h; cases h
      | ok um => rw [he, hm] at h; cases h

section
variable {rows rows' : List Row} {mat mat' : Material ℝ}

/-- **C112, from the input file, homogeneous 2D targets.** -/
theorem C112_homogeneous2d (ext : Ext ℝ) (p p' : MaterialParameters ℝ) (hp : SameParametersRelisted p p' rows rows')
    (input : HomogeneousMesh2DInput ℝ) (d' : List ℝ) (hd : SameDensities rows rows' input.densities d')
    (unit : ∀ u, length_unit_of ext input.length_unit = .ok u → 0 < u)
    (h : Material.new ext p ((·.toGeom ext) <$> HomogeneousMesh2D.new ext input) = .ok mat)
    (h' : Material.new ext p' ((·.toGeom ext) <$> HomogeneousMesh2D.new ext { input with densities := d' }) = .ok mat')
    (rcpr : Rcpr ℝ) (fuel : Nat) (ion : Particle ℝ) (o : Options ℝ) (tape : Tape ℝ) :
    single_ion_bca rcpr fuel ion mat' o tape = single_ion_bca rcpr fuel ion mat o tape := by
  obtain ⟨G, hG⟩ := material_geometry h
  unfold HomogeneousMesh2D.new at h h' hG
  cases hu : length_unit_of ext input.length_unit with
  | error e => rw [hu] at hG; cases hG
  | ok u =>
    rw [hu] at h
    simp only [hu] at h'
    have hpos := unit u hu
    obtain ⟨f, hf⟩ := material_mixture hp (g := HomogeneousMesh2D.toGeom _ ext) (g' := HomogeneousMesh2D.toGeom _ ext) (by
      intro f
      have hc := densities_converted hd f hpos
      have hcc := concentrations_same hc
      have ht := same_densities_total hc
      exact {
        densities := fun _ _ _ => .inl ⟨_, _, rfl, rfl, hc⟩
        concentrations := fun _ _ _ => .inl ⟨_, _, rfl, rfl, hcc⟩
        ck := fun _ _ _ => rfl
        inside := fun _ _ _ => rfl
        boundary := fun _ _ _ => rfl
        barrier := fun _ _ _ => by simp only [HomogeneousMesh2D.toGeom, HomogeneousMesh2D.inside_energy_barrier, ht]
        closest := fun _ _ _ => rfl }) h h'
    exact C112_same_run hf rcpr fuel ion o tape

/-- **C112, from the input file, spheres.** -/
theorem C112_sphere (ext : Ext ℝ) (p p' : MaterialParameters ℝ) (hp : SameParametersRelisted p p' rows rows')
    (input : SphereInput ℝ) (d' : List ℝ) (hd : SameDensities rows rows' input.densities d')
    (unit : ∀ u, length_unit_of ext input.length_unit = .ok u → 0 < u)
    (h : Material.new ext p (Sphere.toGeom <$> Sphere.new ext input) = .ok mat)
    (h' : Material.new ext p' (Sphere.toGeom <$> Sphere.new ext { input with densities := d' }) = .ok mat')
    (rcpr : Rcpr ℝ) (fuel : Nat) (ion : Particle ℝ) (o : Options ℝ) (tape : Tape ℝ) :
    single_ion_bca rcpr fuel ion mat' o tape = single_ion_bca rcpr fuel ion mat o tape := by
  obtain ⟨G, hG⟩ := material_geometry h
  unfold Sphere.new at h h' hG
  cases hu : length_unit_of ext input.length_unit with
  | error e => rw [hu] at hG; cases hG
  | ok u =>
    rw [hu] at h
    simp only [hu] at h'
    have hpos := unit u hu
    obtain ⟨f, hf⟩ := material_mixture hp (g := Sphere.toGeom _) (g' := Sphere.toGeom _) (by
      intro f
      have hc := densities_converted hd f hpos
      have hcc := concentrations_same hc
      have ht := same_densities_total hc
      exact {
        densities := fun _ _ _ => .inl ⟨_, _, rfl, rfl, hc⟩
        concentrations := fun _ _ _ => .inl ⟨_, _, rfl, rfl, hcc⟩
        ck := fun _ _ _ => rfl
        inside := fun _ _ _ => rfl
        boundary := fun _ _ _ => by simp only [Sphere.toGeom, ht]
        barrier := fun _ _ _ => by simp only [Sphere.toGeom, ht]
        closest := fun _ _ _ => rfl }) h h'
    exact C112_same_run hf rcpr fuel ion o tape

/-- **C112, from the input file, balls of the parry3d build,** whatever the geometry library answers. -/
theorem C112_ball (ext : Ext ℝ) (parry : Parry ℝ) (p p' : MaterialParameters ℝ) (hp : SameParametersRelisted p p' rows rows')
    (input : ParryBallInput ℝ) (d' : List ℝ) (hd : SameDensities rows rows' input.densities d')
    (unit : ∀ u, length_unit_of ext input.length_unit = .ok u → 0 < u)
    (h : Material.new ext p (ParryBall.toGeom parry <$> ParryBall.new ext input) = .ok mat)
    (h' : Material.new ext p' (ParryBall.toGeom parry <$> ParryBall.new ext { input with densities := d' }) = .ok mat')
    (rcpr : Rcpr ℝ) (fuel : Nat) (ion : Particle ℝ) (o : Options ℝ) (tape : Tape ℝ) :
    single_ion_bca rcpr fuel ion mat' o tape = single_ion_bca rcpr fuel ion mat o tape := by
  obtain ⟨G, hG⟩ := material_geometry h
  unfold ParryBall.new at h h' hG
  cases hu : length_unit_of ext input.length_unit with
  | error e => rw [hu] at hG; cases hG
  | ok u =>
    rw [hu] at h
    simp only [hu] at h'
    have hpos := unit u hu
    obtain ⟨f, hf⟩ := material_mixture hp (g := ParryBall.toGeom parry _) (g' := ParryBall.toGeom parry _) (by
      intro f
      have hc := densities_converted hd f hpos
      have hcc := concentrations_same hc
      have ht := same_densities_total hc
      exact {
        densities := fun _ _ _ => .inl ⟨_, _, rfl, rfl, hc⟩
        concentrations := fun _ _ _ => .inl ⟨_, _, rfl, rfl, hcc⟩
        ck := fun _ _ _ => rfl
        inside := fun _ _ _ => rfl
        boundary := fun _ _ _ => by simp only [ParryBall.toGeom, ht]
        barrier := fun _ _ _ => by simp only [ParryBall.toGeom, ht]
        closest := fun _ _ _ => rfl }) h h'
    exact C112_same_run hf rcpr fuel ion o tape

/-- **C112, from the input file, triangle meshes of the parry3d build,** whatever the geometry library answers. -/
theorem C112_trimesh (ext : Ext ℝ) (parry : Parry ℝ) (p p' : MaterialParameters ℝ) (hp : SameParametersRelisted p p' rows rows')
    (input : ParryTriMeshInput ℝ) (d' : List ℝ) (hd : SameDensities rows rows' input.densities d')
    (unit : ∀ u, length_unit_of ext input.length_unit = .ok u → 0 < u)
    (h : Material.new ext p (ParryTriMesh.toGeom <$> ParryTriMesh.new ext parry input) = .ok mat)
    (h' : Material.new ext p' (ParryTriMesh.toGeom <$> ParryTriMesh.new ext parry { input with densities := d' }) = .ok mat')
    (rcpr : Rcpr ℝ) (fuel : Nat) (ion : Particle ℝ) (o : Options ℝ) (tape : Tape ℝ) :
    single_ion_bca rcpr fuel ion mat' o tape = single_ion_bca rcpr fuel ion mat o tape := by
  obtain ⟨G, hG⟩ := material_geometry h
  unfold ParryTriMesh.new at h h' hG
  cases hu : length_unit_of ext input.length_unit with
  | error e => rw [hu] at hG; cases hG
  | ok u =>
    simp only [hu, bind, Except.bind] at h h' hG
    cases ht : parry.trimesh_new (input.vertices.map fun p => (p.1*u, p.2.1*u, p.2.2*u)) input.indices with
    | error e => simp only [ht] at hG; cases hG
    | ok trimesh =>
      simp only [ht] at h h'
      have hpos := unit u hu
      obtain ⟨f, hf⟩ := material_mixture hp (g := ParryTriMesh.toGeom _) (g' := ParryTriMesh.toGeom _) (by
        intro f
        have hc := densities_converted hd f hpos
        have hcc := concentrations_same hc
        have ht := same_densities_total hc
        exact {
          densities := fun _ _ _ => .inl ⟨_, _, rfl, rfl, hc⟩
          concentrations := fun _ _ _ => .inl ⟨_, _, rfl, rfl, hcc⟩
          ck := fun _ _ _ => rfl
          inside := fun _ _ _ => rfl
          boundary := fun _ _ _ => by simp only [ParryTriMesh.toGeom, ht]
          barrier := fun _ _ _ => by simp only [ParryTriMesh.toGeom, ht]
          closest := fun _ _ _ => rfl }) h h'
      exact C112_same_run hf rcpr fuel ion o tape

end

end RustBCA
