import Verif.Model.Geometry

/-!
# Materials and surfaces (material.rs)
-/

namespace RustBCA
open Scalar

/-- material.rs:20-38 `MaterialParameters`. -/
structure MaterialParameters (F : Type) where
  energy_unit : String
  mass_unit : String
  Eb : List F
  Es : List F
  Ec : List F
  Ed : List F
  Z : List F
  m : List F
  interaction_index : List Nat
  surface_binding_model : SurfaceBindingModel
  bulk_binding_model : BulkBindingModel

/-- material.rs:40-52 `Material<T: Geometry>`; the geometry is the record of its queries. -/
structure Material (F : Type) where
  m : List F
  Z : List F
  Eb : List F
  Es : List F
  Ec : List F
  Ed : List F
  interaction_index : List Nat
  geometry : Geom F
  surface_binding_model : SurfaceBindingModel
  bulk_binding_model : BulkBindingModel

/-- What `Material::choose` returns (material.rs:246): (species_index, Z, m, Ec, Es, Ed,
interaction_index). -/
structure Species (F : Type) where
  species_index : Nat
  Z : F
  m : F
  Ec : F
  Es : F
  Ed : F
  interaction_index : Nat

variable {F : Type} [Scalar F]

/-- material.rs:57-66 (and input.rs:584-593): the energy unit named by a string. -/
def energy_unit_of (ext : Ext F) (s : String) : Res F :=
  match s with
  | "EV" => .ok (EV F)
  | "J" => .ok 1.0
  | "KEV" => .ok (EV F*1e3)
  | "MEV" => .ok (EV F*1e6)
  | s => match ext.parse_f64 s with
    | some u => .ok u
    | none => rpanic "Input errror: could nor parse energy unit"

/-- material.rs:68-75 (and input.rs:595-603): the mass unit named by a string. -/
def mass_unit_of (ext : Ext F) (s : String) : Res F :=
  match s with
  | "AMU" => .ok (AMU F)
  | "KG" => .ok 1.0
  | s => match ext.parse_f64 s with
    | some u => .ok u
    | none => rpanic "Input errror: could nor parse mass unit"

namespace Material

/-- material.rs:55-89 `Material::new`; `geometry` is the result of `T::new(geometry_input)`. -/
def new (ext : Ext F) (p : MaterialParameters F) (geometry : Res (Geom F)) : Res (Material F) := do
  let energy_unit ← energy_unit_of ext p.energy_unit
  let mass_unit ← mass_unit_of ext p.mass_unit
  let geometry ← geometry
  pure {
    m := p.m.map (· * mass_unit)
    Z := p.Z
    Eb := p.Eb.map (· * energy_unit)
    Es := p.Es.map (· * energy_unit)
    Ec := p.Ec.map (· * energy_unit)
    Ed := p.Ed.map (· * energy_unit)
    interaction_index := p.interaction_index
    surface_binding_model := p.surface_binding_model
    bulk_binding_model := p.bulk_binding_model
    geometry := geometry }

/-- material.rs:92-97 `get_concentrations`. -/
def get_concentrations (mat : Material F) (x y z : F) : Res (List F) := do
  let total_number_density ← mat.geometry.get_total_density x y z
  let densities ← mat.geometry.get_densities x y z
  pure (densities.map (· / total_number_density))

/-- material.rs:101-110 the running sum in `get_cumulative_concentrations`. -/
def cumulative : F → List F → List F
  | _, [] => []
  | sum, c :: cs => (sum + c) :: cumulative (sum + c) cs

/-- material.rs:101-110 `get_cumulative_concentrations`. -/
def get_cumulative_concentrations (mat : Material F) (x y z : F) : Res (List F) := do
  let concentrations ← mat.geometry.get_concentrations x y z
  pure (cumulative 0.0 concentrations)

/-- material.rs:113-115 `inside`. -/
def inside (mat : Material F) (x y z : F) : Res Bool := mat.geometry.inside x y z

/-- material.rs:118-120 `electronic_stopping_correction_factor`. -/
def electronic_stopping_correction_factor (mat : Material F) (x y z : F) : Res F :=
  mat.geometry.get_ck x y z

/-- material.rs:128-130 `total_number_density`. -/
def total_number_density (mat : Material F) (x y z : F) : Res F :=
  fsum <$> mat.geometry.get_densities x y z

/-- material.rs:123-125 `mfp`. -/
def mfp (mat : Material F) (x y z : F) : Res F :=
  (fun n => powf n (-1.0/3.0)) <$> mat.total_number_density x y z

/-- material.rs:133-135 `number_densities`. -/
def number_densities (mat : Material F) (x y z : F) : Res (List F) :=
  mat.geometry.get_densities x y z

/-- material.rs:138-140 `inside_energy_barrier`. -/
def inside_energy_barrier (mat : Material F) (x y z : F) : Res Bool :=
  mat.geometry.inside_energy_barrier x y z

/-- material.rs:143-145 `inside_simulation_boundary`. -/
def inside_simulation_boundary (mat : Material F) (x y z : F) : Res Bool :=
  mat.geometry.inside_simulation_boundary x y z

/-- material.rs:148-150 `closest_point`. -/
def closest_point (mat : Material F) (x y z : F) : Res (F × F × F) :=
  mat.geometry.closest_point x y z

/-- material.rs:155 `iter().zip(concentrations).map(a*c).sum()`. -/
def weighted_sum (l concentrations : List F) : F :=
  fsum ((l.zip concentrations).map fun (a, c) => a*c)

/-- material.rs:153-156 `average_Z`. -/
def average_Z (mat : Material F) (x y z : F) : Res F :=
  weighted_sum mat.Z <$> mat.geometry.get_concentrations x y z

/-- material.rs:159-162 `average_mass`. -/
def average_mass (mat : Material F) (x y z : F) : Res F :=
  weighted_sum mat.m <$> mat.geometry.get_concentrations x y z

/-- material.rs:165-169 `average_bulk_binding_energy`. -/
def average_bulk_binding_energy (mat : Material F) (x y z : F) : Res F :=
  weighted_sum mat.Eb <$> mat.geometry.get_concentrations x y z

/-- material.rs:171-184 `actual_bulk_binding_energy`. -/
def actual_bulk_binding_energy (mat : Material F) (species_index : Nat) (x y z : F) : Res F :=
  match mat.bulk_binding_model with
  | .INDIVIDUAL => vget mat.Eb species_index
  | .AVERAGE => do
    let eb ← vget mat.Eb species_index
    if eb ==. 0.0 then pure 0.0 else mat.average_bulk_binding_energy x y z

/-- material.rs:191-232 `actual_surface_binding_energy`. -/
def actual_surface_binding_energy (mat : Material F) (particle : Particle F) (x y z : F) :
    Res F := do
  let concentrations ← mat.geometry.get_concentrations x y z
  match mat.surface_binding_model with
  | .TARGET =>
    if particle.Es ==. 0.0 then pure 0.0
    else pure (weighted_sum mat.Es concentrations)
  | .INDIVIDUAL => pure particle.Es
  | .AVERAGE =>
    if (particle.Es ==. 0.0) || (fsum mat.Es ==. 0.0) then pure 0.0
    else pure (0.5*(particle.Es + weighted_sum mat.Es concentrations))
  | .ISOTROPIC calculation | .PLANAR calculation =>
    match calculation with
    | .INDIVIDUAL => pure particle.Es
    | .TARGET =>
      if particle.Es ==. 0.0 then pure 0.0
      else pure (weighted_sum mat.Es concentrations)
    | .AVERAGE =>
      if (particle.Es ==. 0.0) || (fsum mat.Es ==. 0.0) then pure 0.0
      else pure (0.5*(particle.Es + weighted_sum mat.Es concentrations))

/-- material.rs:235-243 `minimum_cutoff_energy`. -/
def minimum_cutoff_energy (mat : Material F) : F :=
  mat.Ec.foldl (fun min_Ec Ec => if min_Ec >. Ec then Ec else min_Ec) (fsum mat.Ec)

/-- material.rs:250 the search of `choose`: the first index whose cumulative concentration
exceeds the random number. -/
def choose_index (random_number : F) : List F → Option Nat
  | [] => none
  | c :: cs => if random_number <. c then some 0 else (choose_index random_number cs).map (· + 1)

/-- material.rs:252 the tuple returned by `choose`. -/
def species (mat : Material F) (i : Nat) : Res (Species F) := do
  let Z ← vget mat.Z i
  let m ← vget mat.m i
  let Ec ← vget mat.Ec i
  let Es ← vget mat.Es i
  let Ed ← vget mat.Ed i
  let interaction_index ← vget mat.interaction_index i
  pure ⟨i, Z, m, Ec, Es, Ed, interaction_index⟩

/-- material.rs:246-256 `choose`. -/
def choose (mat : Material F) (x y z : F) : M F (Species F) := do
  let random_number ← random
  let cumulative_concentrations ← liftM (mat.get_cumulative_concentrations x y z)
  match choose_index random_number cumulative_concentrations with
  | some i => liftM (mat.species i)
  | none => liftM (rpanic (α := Species F)
      "Input error: method choose() operation failed to choose a valid species. Check densities.")

/-- material.rs:279 `beta`. -/
def stopping_beta (E Ma : F) : F := sqrt (1.0 - powf (1.0 + E/Ma/powi (C F) 2) (-2.0))

/-- material.rs:282-296 `S_high`: Bethe stopping modified by Biersack and Varelas. -/
def S_high (E Ma Za Zb : F) : F :=
  let beta := stopping_beta E Ma
  let v := beta*C F
  let I0 := if Zb <. 13.0 then 12.0 + 7.0/Zb else 9.76 + 58.5*powf Zb (-1.19)
  let I := Zb*I0*Q F
  let B := if Zb <. 3.0 then 100.0*Za/Zb else 5.0
  let prefactor := BETHE_BLOCH_PREFACTOR F*Zb*Za*Za/beta/beta
  let eb := 2.0*ME F*v*v/I
  prefactor*ln (eb + 1.0 + B/eb)

/-- material.rs:299 `S_low`: Lindhard-Scharff electronic stopping. -/
def S_low (E Ma Za Zb : F) : F :=
  LINDHARD_SCHARFF_PREFACTOR F*(powf Za (7.0/6.0)*Zb)/
    powf (powf Za (2.0/3.0) + powf Zb (2.0/3.0)) (3.0/2.0)*sqrt (E/Q F/Ma*AMU F)

/-- material.rs:301-310 `stopping_power`. -/
def stopping_power (mode : ElectronicStoppingMode) (ck sHigh sLow : F) : F :=
  match mode with
  | .INTERPOLATED => 1.0/(1.0/sHigh + 1.0/sLow*ck)
  | .LOW_ENERGY_LOCAL => sLow*ck
  | .LOW_ENERGY_NONLOCAL => sLow*ck
  | .LOW_ENERGY_EQUIPARTITION => sLow*ck

/-- material.rs:259-315 `electronic_stopping_cross_sections`. The third coordinate passed to the
geometry is `pos.y`, as in the code (material.rs:272). -/
def electronic_stopping_cross_sections (mat : Material F) (particle_1 : Particle F)
    (mode : ElectronicStoppingMode) : Res (List F) := do
  let E := particle_1.E
  let Ma := particle_1.m
  let Za := particle_1.Z
  let x := particle_1.pos.x
  let y := particle_1.pos.y
  let z := particle_1.pos.y
  let ck ← mat.electronic_stopping_correction_factor x y z
  let densities ← mat.number_densities x y z
  pure ((densities.zip mat.Z).map fun (_, Zb) =>
    stopping_power mode ck (S_high E Ma Za Zb) (S_low E Ma Za Zb))

end Material

/-- material.rs:343-359 a particle entering through the energy barrier: a backreflected particle
only loses its mark, any other gains `Es` (refracted along the direction to the closest surface
point unless ISOTROPIC). -/
def surface_entering (particle_1 : Particle F) (material : Material F) (Es : F) :
    Res (Particle F) :=
  let x := particle_1.pos.x
  let y := particle_1.pos.y
  let z := particle_1.pos.z
  if particle_1.backreflected then
    pure { particle_1 with backreflected := false }
  else do
    let (x2, y2, z2) ← material.closest_point x y z
    let dx := x2 - x
    let dy := y2 - y
    let dz := z2 - z
    let mag := sqrt (dx*dx + dy*dy + dz*dz)
    match material.surface_binding_model with
    | .ISOTROPIC _ => pure { particle_1 with E := particle_1.E + Es }
    | _ => pure (surface_refraction particle_1 ⟨dx/mag, dy/mag, dz/mag⟩ Es)

/-- material.rs:361-393 a particle leaving through the energy barrier. `E` and the direction are
read before the entering branch in the code (material.rs:327-330); the two branches exclude each
other, so they are those of `particle_1`. -/
def surface_leaving (particle_1 : Particle F) (material : Material F) (Es : F) :
    Res (Particle F) := do
  let x := particle_1.pos.x
  let y := particle_1.pos.y
  let z := particle_1.pos.z
  let cosx := particle_1.dir.x
  let cosy := particle_1.dir.y
  let cosz := particle_1.dir.z
  let E := particle_1.E
  let (x2, y2, z2) ← material.closest_point x y z
  let dx := x2 - x
  let dy := y2 - y
  let dz := z2 - z
  let mag := sqrt (dx*dx + dy*dy + dz*dz)
  let costheta := dx*cosx/mag + dy*cosy/mag + dz*cosz/mag
  let leaving_energy := match material.surface_binding_model with
    | .ISOTROPIC _ => E
    | _ => E*costheta*costheta
  if costheta <. 0.0 then
    if leaving_energy >. Es then
      match material.surface_binding_model with
      | .PLANAR _ | .TARGET | .INDIVIDUAL | .AVERAGE =>
        pure (surface_refraction particle_1 ⟨-dx/mag, -dy/mag, -dz/mag⟩ (-Es))
      | _ => pure { particle_1 with E := particle_1.E + -Es }
    else
      pure { particle_1 with
        dir := ⟨-2.0*costheta*dx/mag + cosx, -2.0*costheta*dy/mag + cosy,
          -2.0*costheta*dz/mag + cosz⟩
        backreflected := true }
  else pure particle_1

/-- material.rs:320-394 `surface_binding_energy`. -/
def surface_binding_energy (particle_1 : Particle F) (material : Material F) :
    Res (Particle F) := do
  let x := particle_1.pos.x
  let y := particle_1.pos.y
  let z := particle_1.pos.z
  let x_old := particle_1.pos_old.x
  let y_old := particle_1.pos_old.y
  let z_old := particle_1.pos_old.z
  let Es ← material.actual_surface_binding_energy particle_1 x_old y_old z_old
  let inside_now ← material.inside_energy_barrier x y z
  let inside_old ← material.inside_energy_barrier x_old y_old z_old
  let leaving := !inside_now && inside_old
  let entering := inside_now && !inside_old
  let particle_1 ← (if entering then surface_entering particle_1 material Es
    else pure particle_1 : Res (Particle F))
  if leaving then surface_leaving particle_1 material Es else pure particle_1

/-- material.rs:397-417 `boundary_condition_planar`. -/
def boundary_condition_planar (particle_1 : Particle F) (material : Material F) :
    Res (Particle F) := do
  let x := particle_1.pos.x
  let y := particle_1.pos.y
  let z := particle_1.pos.z
  let E := particle_1.E
  let Ec := particle_1.Ec
  let inside_sim ← material.inside_simulation_boundary x y z
  let particle_1 := if !inside_sim then
      { particle_1 with left := true }.update_trajectory_tracker
    else particle_1
  let inside_barrier ← material.inside_energy_barrier x y z
  let particle_1 := if (E <. Ec) && !particle_1.left && inside_barrier then
      { particle_1 with stopped := true }.update_trajectory_tracker
    else particle_1
  if !particle_1.stopped && !particle_1.left then
    surface_binding_energy particle_1 material
  else pure particle_1

end RustBCA
