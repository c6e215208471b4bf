import Verif.Model.Physics
import Verif.Spec.Run

/-!
# What the output files should contain (C49-C53)

Written without reference to how the program fills its tables: counts of particles, the lines
documented for each list file, and a reader for the trajectory files.
-/

namespace RustBCA.Spec
open Scalar
variable {F : Type}

/-- The particle was an ion that left the target again. -/
def Reflected (p : Particle F) : Bool := p.incident && p.left
/-- The particle is an ion that did not leave. -/
def Deposited (p : Particle F) : Bool := p.incident && !p.left
/-- The particle is a target atom that left the target. -/
def Sputtered (p : Particle F) : Bool := !p.incident && p.left

/-- The particle is finished: it stopped or it left, not both. -/
def Finished (p : Particle F) : Prop :=
  (p.stopped = true ∧ p.left = false) ∨ (p.stopped = false ∧ p.left = true)

variable [Scalar F]

/-- How many of the particles have mass `m` and satisfy `c`. -/
def countMass (c : Particle F → Bool) (ps : List (Particle F)) (m : F) : Nat :=
  ps.countP fun p => (m ==. p.m) && c p

/-- The columns "number reflected", "number sputtered" and "number deposited" of the rows of
summary.output, added up. -/
def columnSums (rows : List (F × Nat × Nat × Nat)) : Nat × Nat × Nat :=
  ((rows.map (·.2.1)).sum, (rows.map (·.2.2.1)).sum, (rows.map (·.2.2.2)).sum)

/-- A line of reflected.output: mass, Z, energy, position, direction, number of collisions. -/
def reflectedLine (fmt : F → String) (u : OutputUnits F) (p : Particle F) : String :=
  csv [fmt (p.m/u.mass_unit), fmt p.Z, fmt (p.E/u.energy_unit),
    fmt (p.pos.x/u.length_unit), fmt (p.pos.y/u.length_unit), fmt (p.pos.z/u.length_unit),
    fmt p.dir.x, fmt p.dir.y, fmt p.dir.z, toString p.number_collision_events]

/-- A line of deposited.output: mass, Z, position, number of collisions. -/
def depositedLine (fmt : F → String) (u : OutputUnits F) (p : Particle F) : String :=
  csv [fmt (p.m/u.mass_unit), fmt p.Z,
    fmt (p.pos.x/u.length_unit), fmt (p.pos.y/u.length_unit), fmt (p.pos.z/u.length_unit),
    toString p.number_collision_events]

/-- A line of sputtered.output: as reflected.output, followed by the place of origin. -/
def sputteredLine (fmt : F → String) (u : OutputUnits F) (p : Particle F) : String :=
  csv [fmt (p.m/u.mass_unit), fmt p.Z, fmt (p.E/u.energy_unit),
    fmt (p.pos.x/u.length_unit), fmt (p.pos.y/u.length_unit), fmt (p.pos.z/u.length_unit),
    fmt p.dir.x, fmt p.dir.y, fmt p.dir.z, toString p.number_collision_events,
    fmt (p.pos_origin.x/u.length_unit), fmt (p.pos_origin.y/u.length_unit),
    fmt (p.pos_origin.z/u.length_unit)]

/-- A line of displacements.output: mass, Z, initial energy, place of origin, final place. -/
def displacementLine (fmt : F → String) (u : OutputUnits F) (p : Particle F) : String :=
  csv [fmt (p.m/u.mass_unit), fmt p.Z, fmt (p.energy_origin/u.energy_unit),
    fmt (p.pos_origin.x/u.length_unit), fmt (p.pos_origin.y/u.length_unit),
    fmt (p.pos_origin.z/u.length_unit),
    fmt (p.pos.x/u.length_unit), fmt (p.pos.y/u.length_unit), fmt (p.pos.z/u.length_unit)]

/-- A line of trajectories.output: mass, Z, energy and position at one point. -/
def trajectoryLine (fmt : F → String) (u : OutputUnits F) (p : Particle F)
    (e : TrajectoryElement F) : String :=
  csv [fmt (p.m/u.mass_unit), fmt p.Z, fmt (e.E/u.energy_unit),
    fmt (e.x/u.length_unit), fmt (e.y/u.length_unit), fmt (e.z/u.length_unit)]

/-- A line of energy_loss.output: mass, Z, nuclear and electronic loss, position. -/
def energyLossLine (fmt : F → String) (u : OutputUnits F) (p : Particle F)
    (e : EnergyLoss F) : String :=
  csv [fmt (p.m/u.mass_unit), fmt p.Z, fmt (e.En/u.energy_unit), fmt (e.Ee/u.energy_unit),
    fmt (e.x/u.length_unit), fmt (e.y/u.length_unit), fmt (e.z/u.length_unit)]

/-- A reader of the two trajectory files: read a count, take so many lines, and go on; fails if a
count is not a number, if lines are missing, or if lines are left over. -/
def decodeTrajectories : List String → List String → Option (List (List String))
  | [], [] => some []
  | [], _ :: _ => none
  | c :: cs, lines =>
    match c.toNat? with
    | none => none
    | some n =>
      if lines.length < n then none
      else (decodeTrajectories cs (lines.drop n)).map (lines.take n :: ·)

end RustBCA.Spec
