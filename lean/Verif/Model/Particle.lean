import Verif.Model.Interactions

/-!
# Particles (particle.rs)

Methods taking `&mut self` return the new particle.
-/

namespace RustBCA
open Scalar

/-- particle.rs:50-65 `ParticleInput`. -/
structure ParticleInput (F : Type) where
  m : F
  Z : F
  E : F
  Ec : F
  Es : F
  x : F
  y : F
  z : F
  ux : F
  uy : F
  uz : F
  interaction_index : Nat
  weight : F
  tag : Int

/-- particle.rs:69-96 `Particle`. -/
structure Particle (F : Type) where
  m : F
  Z : F
  E : F
  Ec : F
  Es : F
  Ed : F
  pos : Vec3 F
  dir : Vec3 F
  pos_old : Vec3 F
  dir_old : Vec3 F
  pos_origin : Vec3 F
  energy_origin : F
  asymptotic_deflection : F
  stopped : Bool
  left : Bool
  incident : Bool
  first_step : Bool
  trajectory : List (TrajectoryElement F)
  energies : List (EnergyLoss F)
  track_trajectories : Bool
  number_collision_events : Nat
  backreflected : Bool
  interaction_index : Nat
  weight : F
  tag : Int
  tracked_vector : Vec3 F

namespace Particle
variable {F : Type} [Scalar F]

/-- particle.rs:99-137 `Particle::from_input`. -/
def from_input (input : ParticleInput F) (options : Options F) : Res (Particle F) := do
  let dirx := input.ux
  let diry := input.uy
  let dirz := input.uz
  let dir_mag := sqrt (dirx*dirx + diry*diry + dirz*dirz)
  rassert (abs (dirx/dir_mag) <. 1.0 - epsilon)
    "Input error: incident direction cannot round to exactly (1, 0, 0) due to gimbal lock."
  rassert (input.E >. 0.0) "Input error: incident energy; must be greater than zero."
  pure {
    m := input.m
    Z := input.Z
    E := input.E
    Ec := input.Ec
    Es := input.Es
    Ed := 0.0
    pos := ⟨input.x, input.y, input.z⟩
    dir := ⟨dirx/dir_mag, diry/dir_mag, dirz/dir_mag⟩
    pos_old := ⟨input.x, input.y, input.z⟩
    dir_old := ⟨dirx/dir_mag, diry/dir_mag, dirz/dir_mag⟩
    pos_origin := ⟨input.x, input.y, input.z⟩
    energy_origin := input.E
    asymptotic_deflection := 0.0
    stopped := false
    left := false
    incident := true
    first_step := true
    trajectory := [⟨input.E, input.x, input.y, input.z⟩]
    energies := []
    track_trajectories := options.track_trajectories
    number_collision_events := 0
    backreflected := false
    interaction_index := input.interaction_index
    weight := 1.0
    tag := 0
    tracked_vector := ⟨0.0, 0.0, 0.0⟩ }

/-- particle.rs:140-171 `Particle::new`. -/
def new (m Z E Ec Es Ed x y z dirx diry dirz : F) (incident track_trajectories : Bool)
    (interaction_index : Nat) : Particle F :=
  let dir_mag := sqrt (dirx*dirx + diry*diry + dirz*dirz)
  { m := m
    Z := Z
    E := E
    Ec := Ec
    Es := Es
    Ed := Ed
    pos := ⟨x, y, z⟩
    dir := ⟨dirx/dir_mag, diry/dir_mag, dirz/dir_mag⟩
    pos_old := ⟨x, y, z⟩
    dir_old := ⟨dirx/dir_mag, diry/dir_mag, dirz/dir_mag⟩
    pos_origin := ⟨x, y, z⟩
    energy_origin := E
    asymptotic_deflection := 0.0
    stopped := false
    left := false
    incident := incident
    first_step := incident
    trajectory := []
    energies := [⟨0.0, 0.0, x, y, z⟩]
    track_trajectories := track_trajectories
    number_collision_events := 0
    backreflected := false
    interaction_index := interaction_index
    weight := 1.0
    tag := 0
    tracked_vector := ⟨0.0, 0.0, 0.0⟩ }

/-- particle.rs:174-211 `Particle::default_incident`. -/
def default_incident (m_amu Z E_eV Ec_eV Es_eV x dirx diry dirz : F) : Res (Particle F) := do
  let dir_mag := sqrt (dirx*dirx + diry*diry + dirz*dirz)
  let y : F := 0.0
  let z : F := 0.0
  rassert (abs (dirx/dir_mag) <. 1.0 - epsilon)
    "Input error: incident direction cannot round to exactly (1, 0, 0) due to gimbal lock."
  rassert (E_eV >. 0.0) "Input error: incident energy; must be greater than zero."
  pure {
    m := m_amu*AMU F
    Z := Z
    E := E_eV*EV F
    Ec := Ec_eV*EV F
    Es := Es_eV*EV F
    Ed := 0.0
    pos := ⟨x, y, z⟩
    dir := ⟨dirx/dir_mag, diry/dir_mag, dirz/dir_mag⟩
    pos_old := ⟨x, y, z⟩
    dir_old := ⟨dirx/dir_mag, diry/dir_mag, dirz/dir_mag⟩
    pos_origin := ⟨x, y, z⟩
    energy_origin := E_eV
    asymptotic_deflection := 0.0
    stopped := false
    left := false
    incident := true
    first_step := true
    trajectory := []
    energies := [⟨0.0, 0.0, x, y, z⟩]
    track_trajectories := false
    number_collision_events := 0
    backreflected := false
    interaction_index := 0
    weight := 1.0
    tag := 0
    tracked_vector := ⟨0.0, 0.0, 0.0⟩ }

/-- particle.rs:214-218 `update_trajectory_tracker`. -/
def update_trajectory_tracker (p : Particle F) : Particle F :=
  if p.track_trajectories then
    { p with trajectory := p.trajectory ++ [⟨p.E, p.pos.x, p.pos.y, p.pos.z⟩] }
  else p

/-- particle.rs:221-225 `update_energy_loss_tracker`. -/
def update_energy_loss_tracker (p : Particle F) (options : Options F) (En Ee : F) : Particle F :=
  if p.incident && options.track_energy_losses then
    { p with energies := p.energies ++ [{ En := En, Ee := Ee, x := p.pos.x, y := p.pos.y, z := p.pos.z }] }
  else p

/-- particle.rs:228-235 `get_momentum`. -/
def get_momentum (p : Particle F) : Vec3 F :=
  let speed := sqrt (2.0*p.E/p.m)
  ⟨p.m*speed*p.dir.x, p.m*speed*p.dir.y, p.m*speed*p.dir.z⟩

/-- particle.rs:239-253, the direction formulas of `rotate` before normalisation. -/
def rotated_dir (dir : Vec3 F) (psi phi : F) : Vec3 F :=
  let cosx := dir.x
  let cosy := dir.y
  let cosz := dir.z
  let cphi := cos phi
  let sphi := sin phi
  let sa := sqrt (1.0 - cosx*cosx)
  let cpsi := cos psi
  let spsi := sin psi
  let cosx_new := cpsi*cosx + spsi*cphi*sa
  let cosy_new := cpsi*cosy - spsi/sa*(cphi*cosx*cosy - sphi*cosz)
  let cosz_new := cpsi*cosz - spsi/sa*(cphi*cosx*cosz + sphi*cosy)
  ⟨cosx_new, cosy_new, cosz_new⟩

/-- particle.rs:238-257 `rotate`. -/
def rotate (p : Particle F) (psi phi : F) : Particle F :=
  { p with dir := (rotated_dir p.dir psi phi).normalize }

/-- particle.rs:260-286 `advance`; returns the particle and the distance travelled. -/
def advance (p : Particle F) (mfp asymptotic_deflection : F) : Particle F × F :=
  let p := if p.E >. p.Ec then p.update_trajectory_tracker else p
  let distance_traveled := mfp + p.asymptotic_deflection - asymptotic_deflection
  ({ p with
      pos_old := p.pos
      pos := ⟨p.pos.x + p.dir_old.x*distance_traveled, p.pos.y + p.dir_old.y*distance_traveled,
        p.pos.z + p.dir_old.z*distance_traveled⟩
      asymptotic_deflection := asymptotic_deflection
      dir_old := p.dir }, distance_traveled)

end Particle

section
variable {F : Type} [Scalar F]

/-- particle.rs:289-301 `surface_refraction`. -/
def surface_refraction (p : Particle F) (normal : Vec3 F) (Es : F) : Particle F :=
  let E := p.E
  let costheta := p.dir.dot normal
  let u1x := sqrt (E/(E + Es))*p.dir.x
    + ((-(sqrt E)*costheta + sqrt (E*powi costheta 2 + Es))/sqrt (E + Es))*normal.x
  let u1y := sqrt (E/(E + Es))*p.dir.y
    + ((-(sqrt E)*costheta + sqrt (E*powi costheta 2 + Es))/sqrt (E + Es))*normal.y
  let u1z := sqrt (E/(E + Es))*p.dir.z
    + ((-(sqrt E)*costheta + sqrt (E*powi costheta 2 + Es))/sqrt (E + Es))*normal.z
  { p with dir := ⟨u1x, u1y, u1z⟩, E := p.E + Es }

/-- particle.rs:304-312 `refraction_angle`. -/
def refraction_angle (costheta energy_old energy_new : F) : Res F := do
  let costheta := if abs costheta >. 1.0 then signum costheta else costheta
  let sintheta0 := sqrt (1.0 - costheta*costheta)
  let sintheta1 := sintheta0*sqrt (energy_old/energy_new)
  let delta_theta := asin sintheta1 - asin sintheta0
  rassert (!isNaN delta_theta) "Numerical error: refraction returned NaN."
  let sign := -(signum costheta)
  pure (sign*delta_theta)
end

end RustBCA
