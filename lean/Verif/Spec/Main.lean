import Verif.Model.Main
import Verif.Spec.Output

/-!
# What the command line asks for (C78)

The documented usage: no argument means `input.toml` with a 2D mesh, one argument names the file,
two arguments name geometry and file.
-/

namespace RustBCA.Spec
variable {F : Type} [Scalar F]

/-- The command line `args` (program name first) names an input file, which asks for the options,
materials and particles stated and describes the target `geometry`. -/
inductive AsksFor (w : World F) : List String → Options F → MaterialParameters F →
    ParticleParameters F → Res (Geom F) → Prop
  | default (prog : String) (r : InputRecord F (Mesh2DInput F))
      (h : w.files.mesh2D "input.toml" = some r) :
      AsksFor w [prog] r.options r.material_parameters r.particle_parameters
        ((fun g => g.toGeom w.ext) <$> Mesh2D.new w.ext r.geometry_input)
  | file (prog f : String) (r : InputRecord F (Mesh2DInput F)) (h : w.files.mesh2D f = some r) :
      AsksFor w [prog, f] r.options r.material_parameters r.particle_parameters
        ((fun g => g.toGeom w.ext) <$> Mesh2D.new w.ext r.geometry_input)
  | mesh0D (prog f : String) (r : InputRecord F (Mesh0DInput F)) (h : w.files.mesh0D f = some r) :
      AsksFor w [prog, "0D", f] r.options r.material_parameters r.particle_parameters
        (Mesh0D.toGeom <$> Mesh0D.new w.ext r.geometry_input)
  | mesh1D (prog f : String) (r : InputRecord F (Mesh1DInput F)) (h : w.files.mesh1D f = some r) :
      AsksFor w [prog, "1D", f] r.options r.material_parameters r.particle_parameters
        (Mesh1D.toGeom <$> Mesh1D.new w.ext r.geometry_input)
  | mesh2D (prog f : String) (r : InputRecord F (Mesh2DInput F)) (h : w.files.mesh2D f = some r) :
      AsksFor w [prog, "2D", f] r.options r.material_parameters r.particle_parameters
        ((fun g => g.toGeom w.ext) <$> Mesh2D.new w.ext r.geometry_input)
  | homogeneous2D (prog f : String) (r : InputRecord F (HomogeneousMesh2DInput F))
      (h : w.files.homogeneous2D f = some r) :
      AsksFor w [prog, "HOMOGENEOUS2D", f] r.options r.material_parameters r.particle_parameters
        ((fun g => g.toGeom w.ext) <$> HomogeneousMesh2D.new w.ext r.geometry_input)
  | sphere (prog f : String) (r : InputRecord F (SphereInput F)) (h : w.files.sphere f = some r) :
      AsksFor w [prog, "SPHERE", f] r.options r.material_parameters r.particle_parameters
        (Sphere.toGeom <$> Sphere.new w.ext r.geometry_input)
  | ball (prog f : String) (r : InputRecord F (ParryBallInput F)) (h : w.files.ball f = some r)
      (feature : w.parry3d = true) :
      AsksFor w [prog, "BALL", f] r.options r.material_parameters r.particle_parameters
        (ParryBall.toGeom w.parry <$> ParryBall.new w.ext r.geometry_input)
  | trimesh (prog f : String) (r : InputRecord F (ParryTriMeshInput F))
      (h : w.files.trimesh f = some r) (feature : w.parry3d = true) :
      AsksFor w [prog, "TRIMESH", f] r.options r.material_parameters r.particle_parameters
        (ParryTriMesh.toGeom <$> ParryTriMesh.new w.ext w.parry r.geometry_input)

end RustBCA.Spec
