import Verif.Model.Bca

/-!
# Output (output.rs)

The list files are written through seven `BufWriter<File>`s.  `output_lists` is modelled as the
list of write operations it performs, in order; `Stream` models a `BufWriter` over a file down to
the byte level, so that crash points can be stated.  How a number is printed (`Display` of `f64`)
is the parameter `fmt`.
-/

namespace RustBCA
open Scalar

/-- output.rs:4-8 `OutputUnits`. -/
structure OutputUnits (F : Type) where
  length_unit : F
  energy_unit : F
  mass_unit : F

variable {F : Type} [Scalar F]

/-- output.rs:11-21 `energy_angle_from_particle`. -/
def energy_angle_from_particle (particle : Particle F) (units : OutputUnits F) : F × F :=
  let energy := particle.E/units.energy_unit
  let ux := particle.dir.x
  let uy := particle.dir.y
  let uz := particle.dir.z
  let vyz := sqrt (powi uy 2 + powi uz 2)
  let angle := atan2 vyz (-ux) * 180.0 / pi
  (energy, angle)

/-! ## Distributions (feature `distributions`) -/

/-- input.rs:281-335 the grid options of the build with feature `distributions`:
for each axis minimum, maximum and number of points. -/
structure GridOptions (F : Type) where
  energy_min : F
  energy_max : F
  energy_num : Nat
  angle_min : F
  angle_max : F
  angle_num : Nat
  x_min : F
  x_max : F
  x_num : Nat
  y_min : F
  y_max : F
  y_num : Nat
  z_min : F
  z_max : F
  z_num : Nat

/-- output.rs:30-46 `Distributions`. -/
structure Distributions (F : Type) where
  energies : List F
  angles : List F
  x_range : List F
  y_range : List F
  z_range : List F
  reflected_ead : List (List Nat)
  sputtered_ead : List (List Nat)
  implanted_x : List Nat
  implanted_y : List Nat
  implanted_z : List Nat
  electronic_energy_loss_x : List F
  nuclear_energy_loss_x : List F

/-- ndarray `Array::linspace(a, b, n)`: element `i` is `a + step*i` with
`step = (b - a)/(n - 1)` (0 if `n ≤ 1`). -/
def linspace (a b : F) (n : Nat) : List F :=
  let step := if 1 < n then (b - a)/ofNat (n - 1) else 0.0
  (List.range n).map fun i => a + step*ofNat i

/-- `v[i] = g(v[i])`: panics when out of range. -/
def vmodify {α : Type} (v : List α) (i : Nat) (g : α → α) : Res (List α) :=
  match v[i]? with
  | some a => .ok (v.set i (g a))
  | none => rpanic "index out of bounds"

/-- `m[[i, j]] = g(m[[i, j]])`: panics when out of range. -/
def vmodify2 {α : Type} (m : List (List α)) (i j : Nat) (g : α → α) : Res (List (List α)) :=
  match m[i]? with
  | some row => do
    let row ← vmodify row j g
    pure (m.set i row)
  | none => rpanic "index out of bounds"

namespace Distributions

/-- output.rs:50-65 `Distributions::new`. -/
def new (o : GridOptions F) : Distributions F where
  energies := linspace o.energy_min o.energy_max o.energy_num
  angles := linspace o.angle_min o.angle_max o.angle_num
  x_range := linspace o.x_min o.x_max o.x_num
  y_range := linspace o.y_min o.y_max o.y_num
  z_range := linspace o.z_min o.z_max o.z_num
  reflected_ead := List.replicate o.energy_num (List.replicate o.angle_num 0)
  sputtered_ead := List.replicate o.energy_num (List.replicate o.angle_num 0)
  implanted_x := List.replicate o.x_num 0
  implanted_y := List.replicate o.y_num 0
  implanted_z := List.replicate o.z_num 0
  electronic_energy_loss_x := List.replicate o.x_num 0.0
  nuclear_energy_loss_x := List.replicate o.x_num 0.0

/-- output.rs:95-96 `inside_energy`: `(i >= 0) & (i < len as i32)`.  The cast of the length is
exact below 2^31, the largest array the model considers. -/
def index_inside (i : Int) (len : Nat) : Bool := decide (0 ≤ i) && decide (i < (len : Int))

/-- output.rs:86-90 bin of the energy and angle axes: `floor` of the scaled distance. -/
def bin_floor (range : List F) (v : F) : Res Int := do
  let r1 ← vget range 1
  let r0 ← vget range 0
  pure (toI32 (floor ((v - r0)/(r1 - r0))))

/-- output.rs:118-120, 146 bin of the spatial axes: truncation of the scaled distance. -/
def bin_trunc (range : List F) (v : F) : Res Int := do
  let r1 ← vget range 1
  let r0 ← vget range 0
  pure (toI32 ((v - r0)/(r1 - r0)))

/-- output.rs:126-128 `if inside_x { self.implanted_x[x_index_left as usize] += 1; }`. -/
def bump {α : Type} (inside : Bool) (h : List α) (i : Int) (g : α → α) : Res (List α) :=
  if inside then vmodify h i.toNat g else pure h

/-- output.rs:138-156 the energy-loss histograms, one recorded loss. -/
def update_loss (units : OutputUnits F) (num_incident : Nat) (d : Distributions F)
    (loss : EnergyLoss F) : Res (Distributions F) := do
  let x := loss.x/units.length_unit
  let r1 ← vget d.x_range 1
  let r0 ← vget d.x_range 0
  let delta_x := r1 - r0
  let electronic := loss.Ee/units.energy_unit/ofNat num_incident/delta_x
  let nuclear := loss.En/units.energy_unit/ofNat num_incident/delta_x
  let i ← bin_trunc d.x_range x
  let inside_x := index_inside i d.x_range.length
  let e ← bump inside_x d.electronic_energy_loss_x i (· + electronic)
  let n ← bump inside_x d.nuclear_energy_loss_x i (· + nuclear)
  pure { d with electronic_energy_loss_x := e, nuclear_energy_loss_x := n }

/-- output.rs:83-156 `Distributions::update`. -/
def update (d : Distributions F) (particle : Particle F) (units : OutputUnits F)
    (track_energy_losses : Bool) (num_incident : Nat) : Res (Distributions F) := do
  let (energy, angle) := energy_angle_from_particle particle units
  let energy_index ← bin_floor d.energies energy
  let angle_index ← bin_floor d.angles angle
  let inside_energy := index_inside energy_index d.energies.length
  let inside_angle := index_inside angle_index d.angles.length
  let d ← (if particle.incident && particle.left then
      if inside_energy && inside_angle then do
        let m ← vmodify2 d.reflected_ead energy_index.toNat angle_index.toNat (· + 1)
        pure { d with reflected_ead := m }
      else pure d
    else pure d : Res (Distributions F))
  let d ← (if !particle.incident && particle.left then
      if inside_energy && inside_angle then do
        let m ← vmodify2 d.sputtered_ead energy_index.toNat angle_index.toNat (· + 1)
        pure { d with sputtered_ead := m }
      else pure d
    else pure d : Res (Distributions F))
  let d ← (if particle.incident && particle.stopped then do
      let x := particle.pos.x/units.length_unit
      let y := particle.pos.y/units.length_unit
      let z := particle.pos.z/units.length_unit
      let xi ← bin_trunc d.x_range x
      let yi ← bin_trunc d.y_range y
      let zi ← bin_trunc d.z_range z
      let hx ← bump (index_inside xi d.x_range.length) d.implanted_x xi (· + 1)
      let hy ← bump (index_inside yi d.y_range.length) d.implanted_y yi (· + 1)
      let hz ← bump (index_inside zi d.z_range.length) d.implanted_z zi (· + 1)
      pure { d with implanted_x := hx, implanted_y := hy, implanted_z := hz }
    else pure d : Res (Distributions F))
  if track_energy_losses && particle.incident then
    forFold (update_loss units num_incident) particle.energies d
  else pure d

end Distributions

/-! ## Summaries -/

/-- output.rs:168-172 `Summary`. -/
structure Summary where
  num_incident : Nat
  num_sputtered : Nat
  num_reflected : Nat
deriving DecidableEq, Repr

/-- output.rs:176-182 `Summary::new`. -/
def Summary.new (num_incident : Nat) : Summary := ⟨num_incident, 0, 0⟩

/-- output.rs:184-191 `Summary::add`. -/
def Summary.add (s : Summary) (particle : Particle F) : Summary :=
  let s := if particle.incident && particle.left then
    { s with num_reflected := s.num_reflected + 1 } else s
  if !particle.incident && particle.left then
    { s with num_sputtered := s.num_sputtered + 1 } else s

/-- output.rs:194-200 `SummaryPerSpecies` (its file stream is the list of lines it prints). -/
structure SummaryPerSpecies (F : Type) where
  m : List F
  sputtered : List Nat
  reflected : List Nat
  deposited : List Nat

namespace SummaryPerSpecies

/-- output.rs:203-221 `SummaryPerSpecies::new`. -/
def new : SummaryPerSpecies F := ⟨[], [], [], []⟩

/-- output.rs:237, 239 `self.m.contains(&m)` and `position(|x| *x == m)` in one: the first index
of an equal mass. -/
def position (masses : List F) (m : F) : Option Nat := masses.findIdx? (fun x => x ==. m)

/-- output.rs:235-256 `update`. -/
def update (s : SummaryPerSpecies F) (particle : Particle F) : Res (SummaryPerSpecies F) :=
  match position s.m particle.m with
  | some index =>
    match particle.incident, particle.left with
    | true, true => do
      let l ← vmodify s.reflected index (· + 1)
      pure { s with reflected := l }
    | true, false => do
      let l ← vmodify s.deposited index (· + 1)
      pure { s with deposited := l }
    | false, true => do
      let l ← vmodify s.sputtered index (· + 1)
      pure { s with sputtered := l }
    | false, false => pure s
  | none =>
    let s := { s with m := s.m ++ [particle.m] }
    match particle.incident, particle.left with
    | true, true => pure { s with
        reflected := s.reflected ++ [1], deposited := s.deposited ++ [0],
        sputtered := s.sputtered ++ [0] }
    | true, false => pure { s with
        reflected := s.reflected ++ [0], deposited := s.deposited ++ [1],
        sputtered := s.sputtered ++ [0] }
    | false, true => pure { s with
        reflected := s.reflected ++ [0], deposited := s.deposited ++ [0],
        sputtered := s.sputtered ++ [1] }
    | false, false => pure { s with
        reflected := s.reflected ++ [0], deposited := s.deposited ++ [0],
        sputtered := s.sputtered ++ [0] }

/-- output.rs:223-233 the rows printed: `izip!` of the four columns, mass in output units. -/
def rows (s : SummaryPerSpecies F) (units : OutputUnits F) : List (F × Nat × Nat × Nat) :=
  (((s.m.zip s.reflected).zip s.sputtered).zip s.deposited).map fun (((m, r), sp), d) =>
    (m/units.mass_unit, r, sp, d)

end SummaryPerSpecies

/-! ## List output -/

/-- output.rs:157-165 the seven list files. -/
inductive OutFile where
  | reflected
  | sputtered
  | deposited
  | trajectory
  | trajectory_data
  | displacements
  | energy_loss
deriving DecidableEq, Repr

/-- An operation on the streams: write one line (without its newline) or flush. -/
inductive OutOp where
  | write (f : OutFile) (line : String)
  | flush (f : OutFile)
deriving DecidableEq, Repr

/-- output.rs:347-407 `"{},{},…"`: comma separated values. -/
def csv (fields : List String) : String := ",".intercalate fields

/-- output.rs:337-409 `output_lists`: the writes performed, in order.  `fmt` prints an `f64`. -/
def output_lists (fmt : F → String) (particle : Particle F) (options : Options F)
    (units : OutputUnits F) : List OutOp :=
  let length_unit := units.length_unit
  let energy_unit := units.energy_unit
  let mass_unit := units.mass_unit
  (if !particle.incident && options.track_displacements
      && (particle.energy_origin >. particle.Ed) then
    [.write .displacements (csv [fmt (particle.m/mass_unit), fmt particle.Z,
      fmt (particle.energy_origin/energy_unit),
      fmt (particle.pos_origin.x/length_unit), fmt (particle.pos_origin.y/length_unit),
      fmt (particle.pos_origin.z/length_unit),
      fmt (particle.pos.x/length_unit), fmt (particle.pos.y/length_unit),
      fmt (particle.pos.z/length_unit)])] else [])
  ++ (if particle.incident && particle.left then
    [.write .reflected (csv [fmt (particle.m/mass_unit), fmt particle.Z, fmt (particle.E/energy_unit),
      fmt (particle.pos.x/length_unit), fmt (particle.pos.y/length_unit),
      fmt (particle.pos.z/length_unit),
      fmt particle.dir.x, fmt particle.dir.y, fmt particle.dir.z,
      toString particle.number_collision_events])] else [])
  ++ (if particle.incident && particle.stopped then
    [.write .deposited (csv [fmt (particle.m/mass_unit), fmt particle.Z,
      fmt (particle.pos.x/length_unit), fmt (particle.pos.y/length_unit),
      fmt (particle.pos.z/length_unit),
      toString particle.number_collision_events])] else [])
  ++ (if !particle.incident && particle.left then
    [.write .sputtered (csv [fmt (particle.m/mass_unit), fmt particle.Z, fmt (particle.E/energy_unit),
      fmt (particle.pos.x/length_unit), fmt (particle.pos.y/length_unit),
      fmt (particle.pos.z/length_unit),
      fmt particle.dir.x, fmt particle.dir.y, fmt particle.dir.z,
      toString particle.number_collision_events,
      fmt (particle.pos_origin.x/length_unit), fmt (particle.pos_origin.y/length_unit),
      fmt (particle.pos_origin.z/length_unit)])] else [])
  ++ (if particle.track_trajectories then
    .write .trajectory_data (toString particle.trajectory.length)
    :: particle.trajectory.map fun pos =>
      .write .trajectory (csv [fmt (particle.m/mass_unit), fmt particle.Z, fmt (pos.E/energy_unit),
        fmt (pos.x/length_unit), fmt (pos.y/length_unit), fmt (pos.z/length_unit)]) else [])
  ++ (if particle.incident && options.track_energy_losses then
    particle.energies.map fun loss =>
      .write .energy_loss (csv [fmt (particle.m/mass_unit), fmt particle.Z,
        fmt (loss.En/energy_unit), fmt (loss.Ee/energy_unit),
        fmt (loss.x/length_unit), fmt (loss.y/length_unit), fmt (loss.z/length_unit)]) else [])

/-- output.rs:412-419 `output_list_flush`: the streams flushed, in order (the energy-loss stream is
not among them). -/
def output_list_flush : List OutOp :=
  [.flush .displacements, .flush .reflected, .flush .deposited, .flush .sputtered,
    .flush .trajectory_data, .flush .trajectory]

/-! ## Streams at the byte level -/

/-- `BufWriter<File>`: what the operating system has been given, what is still in the buffer, and
the buffer's capacity (`write_buffer_size`, output.rs:269).  The files are opened with
`truncate(true)` and are ASCII, so bytes are characters. -/
structure Stream where
  file : List Char
  buf : List Char
  cap : Nat

namespace Stream

/-- output.rs:262-269 a freshly opened stream. -/
def opened (cap : Nat) : Stream := ⟨[], [], cap⟩

/-- `BufWriter::flush`. -/
def flush (s : Stream) : Stream := { s with file := s.file ++ s.buf, buf := [] }

/-- `BufWriter::write_all` of the Rust standard library: buffer the data if it fits, otherwise
empty the buffer first and write data that is at least as large as the buffer directly. -/
def write_all (s : Stream) (data : List Char) : Stream :=
  if data.length < s.cap - s.buf.length then { s with buf := s.buf ++ data }
  else
    let s := if data.length > s.cap - s.buf.length then s.flush else s
    if data.length ≥ s.cap then { s with file := s.file ++ data }
    else { s with buf := s.buf ++ data }

end Stream

end RustBCA
