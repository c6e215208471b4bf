import Verif.Model.Main

/-!
# The build with feature `hdf5_input` (input.rs:529-610)

The crate `hdf5` is external: `hdf5` says which rows the data set `particles` of a file has (`none`:
the file or the data set cannot be read, which panics).
-/

namespace RustBCA
open Scalar
variable {F : Type} [Scalar F]

/-- input.rs:545-608 the loops over species and particles. -/
def make_particle_inputs_hdf5 (sampler : Sampler F) (length_unit energy_unit mass_unit : F)
    (p : ParticleParameters F) : M F (List (ParticleInput F)) :=
  forFold (fun acc i => do
    let N_ ← liftM (vget p.N i)
    let m ← liftM (vget p.m i)
    let Z ← liftM (vget p.Z i)
    let E ← liftM (vget p.E i)
    let Ec ← liftM (vget p.Ec i)
    let Es ← liftM (vget p.Es i)
    let interaction_index ← liftM (vget p.interaction_index i)
    let pos ← liftM (vget p.pos i)
    let dir ← liftM (vget p.dir i)
    let l ← collectN (fun _ => make_particle_input_hdf5 sampler length_unit energy_unit mass_unit
      m Z Ec Es E pos dir interaction_index) N_
    pure (acc ++ l)) (List.range p.Z.length) []

/-- input.rs:377-610, 680-685 `input` in the build with feature `hdf5_input`; `filename` is
`particle_parameters.particle_input_filename` and `hdf5` what HDF5 files hold. -/
def input_hdf5 (ext : Ext F) (sampler : Sampler F) (cpr : Bool) (hdf5 : String → Option (List (ParticleInput F)))
    (filename : String) (options : Options F) (material : Res (Material F)) (p : ParticleParameters F) :
    M F (Accepted F) := do
  let material ← liftM material
  liftM (rassert (decide (0 < options.num_threads))
    "Input error: num_threads must be greater than zero.")
  liftM (rassert (decide (0 < options.num_chunks))
    "Input error: num_chunks must be greater than zero.")
  let material ← liftM (complete_material material)
  liftM (check_options options)
  liftM (check_matrices options)
  liftM (check_compatibility cpr options)
  let p ← liftM (complete_particles p)
  let mi ← liftM (max_unwrap material.interaction_index)
  liftM (rassert (decide (mi < options.interaction_potential.length))
    "Input error: interaction matrix too small for material interaction indices.")
  let pi ← liftM (max_unwrap p.interaction_index)
  liftM (rassert (decide (pi < options.interaction_potential.length))
    "Input error: interaction matrix too small for particle interaction indices.")
  let length_unit ← liftM (length_unit_of ext p.length_unit)
  let energy_unit ← liftM (energy_unit_of ext p.energy_unit)
  let mass_unit ← liftM (mass_unit_of ext p.mass_unit)
  let particle_input_array ←
    (if options.use_hdf5 then
      match hdf5 filename with
      | some rows => pure rows
      | none => liftM (rpanic (α := List (ParticleInput F)) "Input error: cannot open HDF5 file.")
    else make_particle_inputs_hdf5 sampler length_unit energy_unit mass_unit p : M F _)
  pure ⟨particle_input_array, material, options, ⟨length_unit, energy_unit, mass_unit⟩⟩

end RustBCA
