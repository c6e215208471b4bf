import Verif.Model.Lib
import Mathlib.Logic.Relation

/-!
# Yields and reflection coefficients (lib.rs:1494-1788)

Each sample is simulated on some thread and its counted particles are added to counters behind
mutexes.  The threads are a transition system: one worker per sample, and an execution is any
interleaving of the workers' elementary steps (take the next particle, lock, load, store,
unlock).  Rayon runs several samples on the same operating-system thread one after the other;
those executions are among the interleavings considered here.
-/

namespace RustBCA
open Scalar
variable {F : Type} [Scalar F]

/-- Where a worker stands in `for particle in output { if … { lock; += 1; lock; += E } }`. -/
inductive Pc (F : Type) where
  /-- at the head of the `for` loop -/
  | scan
  /-- about to `num.lock()` -/
  | wantNum (p : Particle F)
  /-- holds the guard of `num`, about to read `*num` -/
  | haveNum (p : Particle F)
  /-- has read `v`, about to write `*num = v + 1` -/
  | storeNum (p : Particle F) (v : Int)
  /-- about to `energy.lock()`, still holding the guard of `num` -/
  | wantEnergy (p : Particle F)
  /-- holds both guards, about to read `*energy` -/
  | haveEnergy (p : Particle F)
  /-- has read `v`, about to write `*energy = v + particle.E` -/
  | storeEnergy (p : Particle F) (v : F)
  /-- end of the block: the guard of `energy` is dropped first … -/
  | dropEnergy
  /-- … then the guard of `num` -/
  | dropNum

/-- One worker: the particles of its sample it has still to look at, and its program counter. -/
structure Worker (F : Type) where
  todo : List (Particle F)
  pc : Pc F

/-- The shared state: all workers, the two counters, and who holds the two locks. -/
structure Pool (F : Type) where
  workers : Nat → Worker F
  num : Int
  energy : F
  numLock : Option Nat
  energyLock : Option Nat

/-- `i32` addition of a release build (`Mutex::new(0)` is a `Mutex<i32>`): wraps around. -/
def i32_add (a b : Int) : Int := (a + b + 2147483648) % 4294967296 - 2147483648

/-- The new state of worker `i`. -/
def Pool.set (s : Pool F) (i : Nat) (w : Worker F) : Pool F :=
  { s with workers := Function.update s.workers i w }

/-- lib.rs:1571-1579 (without `energy_reflected`) and 1666-1677, 1769-1780 (with it): the next
elementary step of worker `i`, `none` when it is finished or must wait for a lock. -/
def Pool.step (counted : Particle F → Bool) (with_energy : Bool) (s : Pool F) (i : Nat) :
    Option (Pool F) :=
  let w := s.workers i
  match w.pc with
  | .scan => match w.todo with
    | [] => none
    | p :: rest => some (s.set i ⟨rest, if counted p then .wantNum p else .scan⟩)
  | .wantNum p => if s.numLock.isNone then
      some { s.set i ⟨w.todo, .haveNum p⟩ with numLock := some i } else none
  | .haveNum p => some (s.set i ⟨w.todo, .storeNum p s.num⟩)
  | .storeNum p v => some { s.set i ⟨w.todo, if with_energy then .wantEnergy p else .dropNum⟩ with
      num := i32_add v 1 }
  | .wantEnergy p => if s.energyLock.isNone then
      some { s.set i ⟨w.todo, .haveEnergy p⟩ with energyLock := some i } else none
  | .haveEnergy p => some (s.set i ⟨w.todo, .storeEnergy p s.energy⟩)
  | .storeEnergy p v => some { s.set i ⟨w.todo, .dropEnergy⟩ with energy := v + p.E }
  | .dropEnergy => some { s.set i ⟨w.todo, .dropNum⟩ with energyLock := none }
  | .dropNum => some { s.set i ⟨w.todo, .scan⟩ with numLock := none }

/-- Some worker among the first `n` takes a step. -/
def Pool.Step (counted : Particle F → Bool) (with_energy : Bool) (n : Nat) (s s' : Pool F) : Prop :=
  ∃ i, i < n ∧ s.step counted with_energy i = some s'

/-- The states some schedule reaches. -/
def Pool.Reaches (counted : Particle F → Bool) (with_energy : Bool) (n : Nat) :
    Pool F → Pool F → Prop :=
  Relation.ReflTransGen (Pool.Step counted with_energy n)

/-- lib.rs:1553, 1647-1648: counters zero, locks free, each worker at the start of its sample. -/
def Pool.initial (outs : List (List (Particle F))) : Pool F where
  workers i := ⟨outs.getD i [], .scan⟩
  num := 0
  energy := 0.0
  numLock := none
  energyLock := none

/-- All workers have finished (`for_each` returns). -/
def Pool.finished (s : Pool F) (n : Nat) : Prop :=
  ∀ i, i < n → (s.workers i).todo = [] ∧ (s.workers i).pc = .scan

/-- lib.rs:1572 the particles `sputtering_yield` counts. -/
def sputtered_particle (p : Particle F) : Bool :=
  (p.E >. 0.0) && (p.dir.x <. 0.0) && p.left && !p.incident

/-- lib.rs:1669, 1772 the particles the reflection coefficients count. -/
def reflected_particle (p : Particle F) : Bool :=
  (p.E >. 0.0) && (p.dir.x <. 0.0) && p.left && p.incident

/-- `num as f64` for an `i32`. -/
def ofI32 (n : Int) : F := if 0 ≤ n then ofNat n.toNat else -ofNat (-n).toNat

/-- lib.rs:1529-1531 (and 1622-1624, 1725-1727) the direction of incidence. -/
def incidence (angle : F) : F × F × F :=
  let DELTA : F := 1e-6
  (cos (angle/180.0*pi) + DELTA, sin (angle/180.0*pi) - DELTA, 0.0)

/-- lib.rs:1555-1569 (and 1650-1664, 1753-1767): the cascades of the samples `0..num_samples`;
sample `i` consumes the random stream `tapes i`. -/
def run_samples (rcpr : Rcpr F) (fuel : Nat) (m : Material F) (options : Options F)
    (i : IonDict F) (energy x ux uy uz : F) (tapes : Nat → Tape F) (num_samples : Nat) :
    Res (List (List (Particle F))) :=
  collectN (fun k => do
    let p ← Particle.default_incident i.m i.Z energy i.Ec i.Es x ux uy uz
    let (output, _) ← single_ion_bca rcpr fuel p m options (tapes k)
    pure output) num_samples

/-- lib.rs:1508, 1601, 1703 the check of the angle. -/
def check_angle (angle : F) : Res Unit :=
  rassert (abs angle <=. 90.0) "Incident angle w.r.t. surface normal cannot exceed 90 degrees."

/-- lib.rs:1506-1569 `sputtering_yield` up to the counting: the cascades. -/
def sputtering_samples (rcpr : Rcpr F) (fuel : Nat) (ext : Ext F) (ion target : PyDict F)
    (energy angle : F) (num_samples : Nat) (tapes : Nat → Tape F) :
    Res (List (List (Particle F))) := do
  check_angle angle
  let i ← unpack_ion ion
  let t ← unpack_target target
  let (m, mesh) ← mesh0d_material ext
    (compound_parameters [t.Z] [t.m] [t.Ec] [t.Es] [t.Eb] 1 [0] .AVERAGE) "M" [t.n]
  let (ux, uy, uz) := incidence angle
  run_samples rcpr fuel m (Options.default_options true) i energy
    (-mesh.energy_barrier_thickness) ux uy uz tapes num_samples

/-- lib.rs:1506-1584 `sputtering_yield` may return `r`: for the random streams `tapes` and some
schedule. -/
def sputtering_yield (rcpr : Rcpr F) (fuel : Nat) (ext : Ext F) (ion target : PyDict F)
    (energy angle : F) (num_samples : Nat) (tapes : Nat → Tape F) (r : F) : Prop :=
  ∃ outs final,
    sputtering_samples rcpr fuel ext ion target energy angle num_samples tapes = .ok outs ∧
    Pool.Reaches sputtered_particle false num_samples (Pool.initial outs) final ∧
    final.finished num_samples ∧ r = ofI32 final.num / ofNat num_samples

/-- lib.rs:1506-1569 `sputtering_yield` up to the counting, in a build with feature `distributions`
(line 1524 then takes the other `default_options`). -/
def sputtering_samples_distributions (rcpr : Rcpr F) (fuel : Nat) (ext : Ext F) (ion target : PyDict F)
    (energy angle : F) (num_samples : Nat) (tapes : Nat → Tape F) :
    Res (List (List (Particle F))) := do
  check_angle angle
  let i ← unpack_ion ion
  let t ← unpack_target target
  let (m, mesh) ← mesh0d_material ext
    (compound_parameters [t.Z] [t.m] [t.Ec] [t.Es] [t.Eb] 1 [0] .AVERAGE) "M" [t.n]
  let (ux, uy, uz) := incidence angle
  run_samples rcpr fuel m (Options.default_options_distributions true) i energy
    (-mesh.energy_barrier_thickness) ux uy uz tapes num_samples

/-- lib.rs:1506-1584 `sputtering_yield` in a build with feature `distributions` may return `r`. -/
def sputtering_yield_distributions (rcpr : Rcpr F) (fuel : Nat) (ext : Ext F) (ion target : PyDict F)
    (energy angle : F) (num_samples : Nat) (tapes : Nat → Tape F) (r : F) : Prop :=
  ∃ outs final,
    sputtering_samples_distributions rcpr fuel ext ion target energy angle num_samples tapes = .ok outs ∧
    Pool.Reaches sputtered_particle false num_samples (Pool.initial outs) final ∧
    final.finished num_samples ∧ r = ofI32 final.num / ofNat num_samples

/-- lib.rs:1599-1664 `reflection_coefficient` up to the counting: the cascades.  (The normalised
`direction` of lines 1626-1627 is computed and not used.) -/
def reflection_samples (rcpr : Rcpr F) (fuel : Nat) (ext : Ext F) (ion target : PyDict F)
    (energy angle : F) (num_samples : Nat) (tapes : Nat → Tape F) :
    Res (List (List (Particle F))) := do
  check_angle angle
  let i ← unpack_ion ion
  let t ← unpack_target target
  let (m, mesh) ← mesh0d_material ext
    (compound_parameters [t.Z] [t.m] [t.Ec] [t.Es] [t.Eb] 1 [0] .AVERAGE) "M" [t.n]
  let (ux, uy, uz) := incidence angle
  run_samples rcpr fuel m (Options.default_options false) i energy
    (-mesh.energy_barrier_thickness) ux uy uz tapes num_samples

/-- lib.rs:1684, 1787 the pair returned. -/
def coefficients (final : Pool F) (energy : F) (num_samples : Nat) : F × F :=
  (ofI32 final.num / ofNat num_samples, final.energy / EV F / energy / ofNat num_samples)

/-- lib.rs:1599-1685 `reflection_coefficient` may return `r`. -/
def reflection_coefficient (rcpr : Rcpr F) (fuel : Nat) (ext : Ext F) (ion target : PyDict F)
    (energy angle : F) (num_samples : Nat) (tapes : Nat → Tape F) (r : F × F) : Prop :=
  ∃ outs final,
    reflection_samples rcpr fuel ext ion target energy angle num_samples tapes = .ok outs ∧
    Pool.Reaches reflected_particle true num_samples (Pool.initial outs) final ∧
    final.finished num_samples ∧ r = coefficients final energy num_samples

/-- lib.rs:1712-1716 one entry of every target dictionary. -/
def unpack_all (targets : List (PyDict F)) (key : String) : Res (List F) :=
  targets.mapM (fun t => unpack t key)

/-- lib.rs:1701-1767 `compound_reflection_coefficient` up to the counting: the cascades. -/
def compound_reflection_samples (rcpr : Rcpr F) (fuel : Nat) (ext : Ext F) (ion : PyDict F)
    (targets : List (PyDict F)) (target_number_densities : List F)
    (energy angle : F) (num_samples : Nat) (tapes : Nat → Tape F) :
    Res (List (List (Particle F))) := do
  check_angle angle
  let i ← unpack_ion ion
  let Z2 ← unpack_all targets "Z"
  let m2 ← unpack_all targets "m"
  let Ec2 ← unpack_all targets "Ec"
  let Es2 ← unpack_all targets "Es"
  let Eb2 ← unpack_all targets "Eb"
  let (m, mesh) ← mesh0d_material ext
    (compound_parameters Z2 m2 Ec2 Es2 Eb2 Z2.length (List.replicate Z2.length 0) .AVERAGE)
    "M" target_number_densities
  let (ux, uy, uz) := incidence angle
  run_samples rcpr fuel m (Options.default_options false) i energy
    (-mesh.energy_barrier_thickness) ux uy uz tapes num_samples

/-- lib.rs:1701-1788 `compound_reflection_coefficient` may return `r`. -/
def compound_reflection_coefficient (rcpr : Rcpr F) (fuel : Nat) (ext : Ext F) (ion : PyDict F)
    (targets : List (PyDict F)) (target_number_densities : List F)
    (energy angle : F) (num_samples : Nat) (tapes : Nat → Tape F) (r : F × F) : Prop :=
  ∃ outs final,
    compound_reflection_samples rcpr fuel ext ion targets target_number_densities energy angle
      num_samples tapes = .ok outs ∧
    Pool.Reaches reflected_particle true num_samples (Pool.initial outs) final ∧
    final.finished num_samples ∧ r = coefficients final energy num_samples

end RustBCA
