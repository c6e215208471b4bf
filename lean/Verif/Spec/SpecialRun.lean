import Verif.Spec.Special
import Verif.Spec.Vectors
import Verif.Spec.Recoils
import Verif.Spec.Deflection
import Verif.Spec.Energy

/-!
# Vocabulary for C95: a run over numbers with special values

The same particle, options and target with every number read as an extended number, and the conditions
under which a pass meets no infinity and no NaN.
-/

namespace RustBCA
open XReal

/-- The same vector over the extended numbers. -/
def Vec3.lift (v : Vec3 ℝ) : Vec3 XReal := ⟨fin v.x, fin v.y, fin v.z⟩

/-- The same particle over the extended numbers. -/
def Particle.lift (p : Particle ℝ) : Particle XReal where
  m := fin p.m
  Z := fin p.Z
  E := fin p.E
  Ec := fin p.Ec
  Es := fin p.Es
  Ed := fin p.Ed
  pos := p.pos.lift
  dir := p.dir.lift
  pos_old := p.pos_old.lift
  dir_old := p.dir_old.lift
  pos_origin := p.pos_origin.lift
  energy_origin := fin p.energy_origin
  asymptotic_deflection := fin p.asymptotic_deflection
  stopped := p.stopped
  left := p.left
  incident := p.incident
  first_step := p.first_step
  trajectory := p.trajectory.map fun e => ⟨fin e.E, fin e.x, fin e.y, fin e.z⟩
  energies := p.energies.map fun e => ⟨fin e.En, fin e.Ee, fin e.x, fin e.y, fin e.z⟩
  track_trajectories := p.track_trajectories
  number_collision_events := p.number_collision_events
  backreflected := p.backreflected
  interaction_index := p.interaction_index
  weight := fin p.weight
  tag := p.tag
  tracked_vector := p.tracked_vector.lift

def MeanFreePathModel.lift : MeanFreePathModel ℝ → MeanFreePathModel XReal
  | .LIQUID => .LIQUID
  | .GASEOUS => .GASEOUS
  | .THRESHOLD density => .THRESHOLD (fin density)

def Rootfinder.lift : Rootfinder ℝ → Rootfinder XReal
  | .NEWTON n tolerance => .NEWTON n (fin tolerance)
  | .CPR n0 nmax e c t f i d => .CPR n0 nmax (fin e) (fin c) (fin t) (fin f) (fin i) d
  | .POLYNOMIAL c => .POLYNOMIAL (fin c)
  | .DEFAULTNEWTON => .DEFAULTNEWTON

/-- The same options over the extended numbers. -/
def Options.lift (o : Options ℝ) : Options XReal where
  name := o.name
  track_trajectories := o.track_trajectories
  track_recoils := o.track_recoils
  track_recoil_trajectories := o.track_recoil_trajectories
  write_buffer_size := o.write_buffer_size
  weak_collision_order := o.weak_collision_order
  suppress_deep_recoils := o.suppress_deep_recoils
  high_energy_free_flight_paths := o.high_energy_free_flight_paths
  electronic_stopping_mode := o.electronic_stopping_mode
  mean_free_path_model := o.mean_free_path_model.lift
  interaction_potential := o.interaction_potential.map (·.map (·.lift))
  scattering_integral := o.scattering_integral
  root_finder := o.root_finder.map (·.map (·.lift))
  num_threads := o.num_threads
  num_chunks := o.num_chunks
  use_hdf5 := o.use_hdf5
  track_displacements := o.track_displacements
  track_energy_losses := o.track_energy_losses

/-- The same random numbers. -/
def liftTape (t : Tape ℝ) : Tape XReal := fun n => fin (t n)

namespace Spec

/-- Random numbers strictly between 0 and 1: almost every stream. -/
def OpenUnit (t : Tape ℝ) : Prop := ∀ k, 0 < t k ∧ t k < 1

/-- Asked about points with real coordinates, the geometry `g'` answers as `g` does. -/
structure SameAnswers (g : Geom ℝ) (g' : Geom XReal) : Prop where
  densities : ∀ x y z, g'.get_densities (fin x) (fin y) (fin z) = (g.get_densities x y z).map (·.map fin)
  ck : ∀ x y z, g'.get_ck (fin x) (fin y) (fin z) = (g.get_ck x y z).map fin
  total : ∀ x y z, g'.get_total_density (fin x) (fin y) (fin z) = (g.get_total_density x y z).map fin
  concentrations : ∀ x y z,
    g'.get_concentrations (fin x) (fin y) (fin z) = (g.get_concentrations x y z).map (·.map fin)
  inside : ∀ x y z, g'.inside (fin x) (fin y) (fin z) = g.inside x y z
  boundary : ∀ x y z, g'.inside_simulation_boundary (fin x) (fin y) (fin z) = g.inside_simulation_boundary x y z
  barrier : ∀ x y z, g'.inside_energy_barrier (fin x) (fin y) (fin z) = g.inside_energy_barrier x y z
  closest : ∀ x y z, g'.closest_point (fin x) (fin y) (fin z) =
    (g.closest_point x y z).map fun c => (fin c.1, fin c.2.1, fin c.2.2)

/-- The same target over the extended numbers. -/
structure SameMaterial (mat : Material ℝ) (mat' : Material XReal) : Prop where
  m : mat'.m = mat.m.map fin
  Z : mat'.Z = mat.Z.map fin
  Eb : mat'.Eb = mat.Eb.map fin
  Es : mat'.Es = mat.Es.map fin
  Ec : mat'.Ec = mat.Ec.map fin
  Ed : mat'.Ed = mat.Ed.map fin
  interaction_index : mat'.interaction_index = mat.interaction_index
  surface_binding_model : mat'.surface_binding_model = mat.surface_binding_model
  bulk_binding_model : mat'.bulk_binding_model = mat.bulk_binding_model
  geometry : SameAnswers mat.geometry mat'.geometry

/-- A target with physically meaningful tables (`SoundTarget`), positive cutoff energies and stopping
corrections and, everywhere, a positive density and some atoms. -/
structure RegularTarget (mat : Material ℝ) : Prop where
  sound : SoundTarget mat
  Ec_pos : ∀ E ∈ mat.Ec, 0 < E
  density : ∀ x y z ns, mat.geometry.get_densities x y z = .ok ns → 0 < ns.sum
  atoms : ∀ x y z cs, mat.geometry.get_concentrations x y z = .ok cs →
    0 < (List.zipWith (· * ·) mat.Z cs).sum ∧ 0 < (List.zipWith (· * ·) mat.m cs).sum
  ck_pos : ∀ x y z ck, mat.geometry.get_ck x y z = .ok ck → 0 < ck

/-- Only screened Coulomb potentials. -/
def AllScreened (o : Options ℝ) : Prop :=
  ∀ row ∈ o.interaction_potential, ∀ V ∈ row, Screened V

/-- A particle of positive charge and mass, with no negative energies (`SoundParticle`), a positive cutoff
energy, and a direction of length one. -/
structure RegularParticle (p : Particle ℝ) : Prop where
  sound : SoundParticle p
  Ec_pos : 0 < p.Ec
  unit : Spec.IsUnit p.dir

/-- For the particle `p` and an atom of charge `Z`, mass `m` and interaction index `j` the options name
a screened potential and a scattering integral that handles a collision of the two
(`C93_collision_partial`). -/
def CanMeet (o : Options ℝ) (p : Particle ℝ) (Z m : ℝ) (j : ℕ) : Prop :=
  ∃ row V row' si, o.interaction_potential[p.interaction_index]? = some row ∧ row[j]? = some V ∧
    o.scattering_integral[p.interaction_index]? = some row' ∧ row'[j]? = some si ∧ Screened V ∧
    1e-25*(coulombConstant p.Z Z/screening_length p.Z Z V) ≤ p.E*m/(p.m + m) ∧
    (si = .MENDENHALL_WELLER ∨ si = .GAUSS_LEGENDRE ∨ (∃ n, n ≤ 12 ∧ si = .GAUSS_MEHLER n) ∨
      (si = .MAGIC ∧ V ≠ .LENZ_JENSEN ∧
        p.E*m/(p.m + m) ≤ 5*(coulombConstant p.Z Z/screening_length p.Z Z V)))

/-- The particle can look for a collision partner: it does not move along the x axis and, if it is within the
energy barrier, it can meet every species of the target. -/
def MayCollide (mat : Material ℝ) (o : Options ℝ) (p : Particle ℝ) : Prop :=
  |p.dir.x| ≠ 1 ∧ (mat.geometry.inside_energy_barrier p.pos.x p.pos.y p.pos.z = .ok true →
    ∀ (i : ℕ) (Z m : ℝ) (j : ℕ), mat.Z[i]? = some Z → mat.m[i]? = some m → mat.interaction_index[i]? = some j →
      CanMeet o p Z m j)

/-- The particle has not just crossed the energy barrier to land exactly on the surface. -/
def OffSurface (mat : Material ℝ) (p : Particle ℝ) : Prop :=
  ∀ b b' x y z, mat.geometry.inside_energy_barrier p.pos.x p.pos.y p.pos.z = .ok b →
    mat.geometry.inside_energy_barrier p.pos_old.x p.pos_old.y p.pos_old.z = .ok b' → b ≠ b' →
    mat.geometry.closest_point p.pos.x p.pos.y p.pos.z = .ok (x, y, z) → (x, y, z) ≠ (p.pos.x, p.pos.y, p.pos.z)

/-- A pass of the particle `p`, with the random numbers `t`, that ends as `q`: whenever it looks for a
collision partner it can, and it does not land on the surface. -/
def SafePass (rcpr : Rcpr ℝ) (mat : Material ℝ) (o : Options ℝ) (p : Particle ℝ) (t : Tape ℝ)
    (q : Particle ℝ) : Prop :=
  (∀ p' gs t', determine_mfp_phi_impact_parameter p mat o t = .ok ((p', gs), t') →
    ∀ (k : ℕ) s t'', k ≤ o.weak_collision_order → k < gs.length →
      forFold (collision_step rcpr mat o) (gs.zipIdx.take k) ⟨p', [], 0, 0, 0, 0, 0⟩ t' = .ok (s, t'') → MayCollide mat o s.particle_1) ∧
  OffSurface mat q

section
variable (rcpr : Rcpr ℝ) (mat : Material ℝ) (o : Options ℝ)

/-- `Path`, all of whose passes are safe. -/
inductive SafePath : Particle ℝ → Tape ℝ → Particle ℝ → List (Particle ℝ) → Tape ℝ → Prop
  | finished {p t} : (p.stopped = true ∨ p.left = true) → SafePath p t p [] t
  | step {p t q new t1 r more t2} : p.stopped = false → p.left = false →
      trajectory_step rcpr mat o p [] t = .ok ((q, new), t1) → SafePass rcpr mat o p t q →
      SafePath q t1 r more t2 → SafePath p t r (new ++ more) t2

/-- `Cascades`, all of whose passes are safe. -/
inductive SafeCascades : List (Particle ℝ) → Tape ℝ → List (Particle ℝ) → Tape ℝ → Prop
  | nil {t} : SafeCascades [] t [] t
  | cons {p ps t q recoils t1 sub t2 out t3} : SafePath rcpr mat o p t q recoils t1 →
      SafeCascades recoils.reverse t1 sub t2 → SafeCascades ps t2 out t3 →
      SafeCascades (p :: ps) t (q :: (sub ++ out)) t3

end
end Spec
end RustBCA
