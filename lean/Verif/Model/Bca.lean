import Verif.Model.Material

/-!
# The binary collision approximation (bca.rs)

Random numbers are read from a stream (`M F`); `unwrap` of an `anyhow` error is a panic.  The two
`while` loops of `single_ion_bca` take fuel; running out of fuel is the model-only error
`Err.fuel`, so every statement about results holds for every amount of fuel.

Not modelled: the feature `accelerated_ions` (bca.rs:84-90, 179-181), which does not compile at
this commit (`Geometry` has no `get_energy_barrier_thickness`).
-/

namespace RustBCA
open Scalar

/-- bca.rs:7-11 `BinaryCollisionGeometry`. -/
structure BinaryCollisionGeometry (F : Type) where
  phi_azimuthal : F
  impact_parameter : F
  mfp : F

/-- bca.rs:32-39 `BinaryCollisionResult`. -/
structure BinaryCollisionResult (F : Type) where
  theta : F
  psi : F
  psi_recoil : F
  recoil_energy : F
  asymptotic_deflection : F
  normalized_distance_of_closest_approach : F

/-- The external crate `rcpr` and the cargo feature `cpr_rootfinder` that enables it.
`find_roots_*` get the functions and the two interval ends the code passes; the numerical parameters
of CPR are the ones stored in the `Rootfinder` value, passed on unchanged. -/
structure Rcpr (F : Type) where
  enabled : Bool
  real_polynomial_roots : List F → F → Anyhow (List F)
  find_roots_with_secant_polishing : (F → Res F) → (F → Res F) → F → F → Rootfinder F →
    Res (Anyhow (List F))
  find_roots_with_newton_polishing : (F → Res F) → (F → Res F) → (F → Res F) → F → F →
    Rootfinder F → Res (Anyhow (List F))

variable {F : Type} [Scalar F]

/-- bca.rs:592, 657 `iter().cloned().fold(f64::NAN, f64::max)`: the largest entry that is not NaN,
`none` standing for NaN. -/
def max_root (roots : List F) : Option F :=
  roots.foldl (fun acc r => match acc with
    | none => if isNaN r then none else some r
    | some m => if isNaN r then some m else if m <. r then some r else some m) none

/-- bca.rs:570-602 `polynomial_rootfinder`. -/
def polynomial_rootfinder (rcpr : Rcpr F) (Za Zb Ma Mb E0 impact_parameter : F)
    (V : InteractionPotential F) (complex_threshold : F) : Res (Anyhow F) := do
  let a := screening_length Za Zb V
  let relative_energy := E0*Mb/(Ma + Mb)
  let coefficients ← polynomial_coefficients relative_energy impact_parameter V
  let roots ← unwrapA (rcpr.real_polynomial_roots coefficients complex_threshold)
  match max_root roots with
  | none => pure (.error "Numerical error: polynomial rootfinder failed to find root")
  | some r => do
    let t ← inverse_transform r V
    if isNaN t then pure (.error "Numerical error: polynomial rootfinder failed to find root")
    else pure (.ok (t/a))

/-- bca.rs:624-665 `cpr_rootfinder`; `rf` carries the numerical parameters. -/
def cpr_rootfinder (rcpr : Rcpr F) (Za Zb Ma Mb E0 impact_parameter : F)
    (V : InteractionPotential F) (rf : Rootfinder F) (derivative_free : Bool) :
    Res (Anyhow F) := do
  let a := screening_length Za Zb V
  let relative_energy := E0*Mb/(Ma + Mb)
  let f := fun r => distance_of_closest_approach_function r a Za Zb relative_energy
    impact_parameter V
  let g := fun r => do
    let u ← distance_of_closest_approach_function_singularity_free r a Za Zb relative_energy
      impact_parameter V
    let w ← scaling_function r impact_parameter V
    pure (u*w)
  let upper_bound := impact_parameter + crossing_point_doca V
  let res ← (if derivative_free then
      rcpr.find_roots_with_secant_polishing g f 1e-15 upper_bound rf
    else
      rcpr.find_roots_with_newton_polishing g f
        (fun r => diff_distance_of_closest_approach_function r a Za Zb relative_energy
          impact_parameter V) 1e-15 upper_bound rf : Res (Anyhow (List F)))
  let roots ← unwrapA res
  match max_root roots with
  | none => pure (.error "Numerical error: CPR rootfinder failed to find root.")
  | some r =>
    if isNaN (r/a) then pure (.error "Numerical error: CPR rootfinder failed to find root.")
    else pure (.ok (r/a))

/-- bca.rs:690-698 the Newton-Raphson loop; `n` is the number of iterations left. -/
def newton_loop (f df : F → Res F) (a tolerance : F) : Nat → F → Res (Anyhow F)
  | 0, _ => pure (.error "Numerical error: exceeded maximum number of Newton-Raphson iterations")
  | n + 1, x0 => do
    let fx ← f (x0*a)
    let dfx ← df (x0*a)
    let xn := x0 - fx/dfx
    let err := (xn - x0)*(xn - x0)
    if err <. tolerance then pure (.ok xn) else newton_loop f df a tolerance n xn

/-- bca.rs:668-701 `newton_rootfinder`. -/
def newton_rootfinder (Za Zb Ma Mb E0 impact_parameter : F) (V : InteractionPotential F)
    (max_iterations : Nat) (tolerance : F) : Res (Anyhow F) :=
  let a := screening_length Za Zb V
  let reduced_energy := LINDHARD_REDUCED_ENERGY_PREFACTOR F*a*Mb/(Ma+Mb)/Za/Zb*E0
  let relative_energy := E0*Mb/(Ma + Mb)
  let beta := impact_parameter/a
  let f := fun r => distance_of_closest_approach_function r a Za Zb relative_energy
    impact_parameter V
  let df := fun r => diff_distance_of_closest_approach_function r a Za Zb relative_energy
    impact_parameter V
  let x0 := if reduced_energy >. 5.0 then
      let inv_er_2 := 0.5/reduced_energy
      inv_er_2 + sqrt (inv_er_2*inv_er_2 + beta*beta)
    else beta
  newton_loop f df a tolerance max_iterations x0

/-- bca.rs:386-433 `distance_of_closest_approach` (normalised by the screening length). -/
def distance_of_closest_approach (rcpr : Rcpr F) (particle_1 particle_2 : Particle F)
    (binary_collision_geometry : BinaryCollisionGeometry F) (options : Options F) : Res F := do
  let Za := particle_1.Z
  let Zb := particle_2.Z
  let Ma := particle_1.m
  let Mb := particle_2.m
  let E0 := particle_1.E
  let relative_energy := E0*Mb/(Ma + Mb)
  let p := binary_collision_geometry.impact_parameter
  let row ← vget options.interaction_potential particle_1.interaction_index
  let interaction_potential ← vget row particle_2.interaction_index
  match interaction_potential with
  | .COULOMB Z1 Z2 =>
    let doca := Z1*Z2*Q F*Q F/relative_energy/pi/EPS0 F/8.0
      + sqrt (64.0*powi (relative_energy*pi*p*EPS0 F) 2 + powi (Z1*Z2*Q F*Q F) 2)
        /relative_energy/pi/EPS0 F/8.0
    pure (doca/screening_length Z1 Z2 interaction_potential)
  | _ =>
    let root_finder ← (if relative_energy <. energy_threshold_single_root interaction_potential then do
        let row ← vget options.root_finder particle_1.interaction_index
        vget row particle_2.interaction_index
      else pure (Rootfinder.NEWTON 100 1e-6) : Res (Rootfinder F))
    match root_finder with
    | .NEWTON max_iterations tolerance => do
      let r ← newton_rootfinder Za Zb Ma Mb E0 p interaction_potential max_iterations tolerance
      unwrapA r
    | .DEFAULTNEWTON => do
      let r ← newton_rootfinder Za Zb Ma Mb E0 p interaction_potential 100 1e-3
      unwrapA r
    | .POLYNOMIAL complex_threshold =>
      if rcpr.enabled then do
        let r ← polynomial_rootfinder rcpr Za Zb Ma Mb E0 p interaction_potential complex_threshold
        unwrapA r
      else rpanic "Input error: unimplemented root-finder."
    | .CPR n0 nmax eps ct tt fz il derivative_free =>
      if rcpr.enabled then do
        let r ← cpr_rootfinder rcpr Za Zb Ma Mb E0 p interaction_potential
          (.CPR n0 nmax eps ct tt fz il derivative_free) derivative_free
        unwrapA r
      else rpanic "Input error: unimplemented root-finder."

/-- bca.rs:516-519 `scattering_integral_mw`. -/
def scattering_integral_mw (x beta reduced_energy : F) (V : InteractionPotential F) : Res F := do
  let ph ← phi x V
  pure (powf (1.0 - ph/x/reduced_energy - beta*beta/x/x) (-0.5))

/-- bca.rs:522-531 `scattering_function_gl`. -/
def scattering_function_gl (u impact_parameter r0 relative_energy : F) (V : F → Res F) :
    Res (Anyhow F) := do
  let v ← V (r0/(1.0 - u*u))
  let result := 4.0*impact_parameter*u/(r0*sqrt (1.0 - v/relative_energy
    - impact_parameter*impact_parameter*powi (1.0 - u*u) 2/r0/r0))
  if isNaN result then pure (.error "Numerical error: Gauss-Legendre scattering integrand complex.")
  else pure (.ok result)

/-- bca.rs:534-543 `scattering_function_gm`. -/
def scattering_function_gm (u impact_parameter r0 relative_energy : F) (V : F → Res F) :
    Res (Anyhow F) := do
  let v ← V (r0/u)
  let result := impact_parameter/r0/sqrt (1.0 - v/relative_energy
    - powi (impact_parameter*u/r0) 2)
  if isNaN result then pure (.error "Numerical error: Gauss-Mehler scattering integrand complex.")
  else pure (.ok result)

/-- bca.rs:550-553, 561-564 the weighted sum of a quadrature, panicking on the first `Err`. -/
def quadrature (g : F → Res (Anyhow F)) (nodes : List (F × F)) : Res F :=
  forFold (fun acc (xw : F × F) => do
    let r ← g xw.1
    let v ← unwrapA r
    pure (acc + xw.2*v)) nodes 0.0

/-- bca.rs:547-548 nodes and weights of the Gauss-Mehler quadrature. -/
def gm_nodes (n_points : Nat) : List (F × F) :=
  (List.range n_points).map fun j =>
    let i : Nat := j + 1
    (cos ((2.0*ofNat i - 1.0)/4.0/ofNat n_points*pi),
      pi/ofNat n_points*sin ((2.0*ofNat i - 1.0)/4.0/ofNat n_points*pi))

/-- bca.rs:546-554 `scattering_integral_gauss_mehler`. -/
def scattering_integral_gauss_mehler (impact_parameter relative_energy r0 : F) (V : F → Res F)
    (n_points : Nat) : Res F := do
  let s ← quadrature (fun x => scattering_function_gm x impact_parameter r0 relative_energy V)
    (gm_nodes n_points)
  pure (pi - s)

/-- bca.rs:558-559 nodes and weights of the 5-point Gauss-Legendre quadrature. -/
def gl_nodes : List (F × F) :=
  ([0.0, -0.538469, 0.538469, -0.90618, 0.90618].map fun x => x/2.0 + 1.0/2.0).zip
    ([0.568889, 0.478629, 0.478629, 0.236927, 0.236927].map fun w => w/2.0)

/-- bca.rs:557-565 `scattering_integral_gauss_legendre`. -/
def scattering_integral_gauss_legendre (impact_parameter relative_energy r0 : F)
    (V : F → Res F) : Res F := do
  let s ← quadrature (fun x => scattering_function_gl x impact_parameter r0 relative_energy V)
    gl_nodes
  pure (pi - s)

/-- bca.rs:704-710 `gauss_mehler`. -/
def gauss_mehler (Za Zb Ma Mb E0 impact_parameter x0 : F) (V : InteractionPotential F)
    (n_points : Nat) : Res F :=
  let a := screening_length Za Zb V
  let r0 := x0*a
  let relative_energy := E0*Mb/(Ma + Mb)
  scattering_integral_gauss_mehler impact_parameter relative_energy r0
    (fun r => interaction_potential r a Za Zb V) n_points

/-- bca.rs:713-719 `gauss_legendre`. -/
def gauss_legendre (Za Zb Ma Mb E0 impact_parameter x0 : F) (V : InteractionPotential F) : Res F :=
  let a := screening_length Za Zb V
  let r0 := x0*a
  let relative_energy := E0*Mb/(Ma + Mb)
  scattering_integral_gauss_legendre impact_parameter relative_energy r0
    (fun r => interaction_potential r a Za Zb V)

/-- bca.rs:725-731 the MAGIC constants. -/
def magic_constants : InteractionPotential F → Res (F × F × F × F × F)
  | .MOLIERE => .ok (0.6743, 0.009611, 0.005175, 6.314, 10.0)
  | .KR_C => .ok (0.7887, 0.01166, 0.006913, 17.16, 10.79)
  | .ZBL => .ok (0.99229, 0.011615, 0.0071222, 9.3066, 14.813)
  | .TRIDYN => .ok (1.0144, 0.235809, 0.126, 69350.0, 83550.0)
  | _ => rpanic "Input error: unimplemented interaction potential for MAGIC algorithm."

/-- bca.rs:722-746 `magic`. -/
def magic (Za Zb Ma Mb E0 impact_parameter x0 : F) (V : InteractionPotential F) : Res F := do
  let (c0, c1, c2, c3, c4) ← magic_constants V
  let a := screening_length Za Zb V
  let beta := impact_parameter/a
  let V0 := Za*Zb*Q F*Q F/4.0/pi/EPS0 F/a
  let relative_energy := E0*Mb/(Ma + Mb)
  let reduced_energy := relative_energy/V0
  let r0 := a*x0
  let ph ← phi x0 V
  let v := V0*a/r0*ph
  let dph ← dphi x0 V
  let dV := -v/r0 + V0/r0*dph
  let rho := -2.0*(relative_energy - v)/dV
  let D := 2.0*(1.0 + c0/sqrt reduced_energy)*reduced_energy
    *powf beta ((c1 + sqrt reduced_energy)/(c2 + sqrt reduced_energy))
  let G := (c4 + reduced_energy)/(c3 + reduced_energy)*(sqrt (1.0 + D*D) - D)
  let delta := D*G/(1.0 + G)*(x0 - beta)
  pure (2.0*acos ((beta + rho/a + delta)/(x0 + rho/a)))

/-- bca.rs:749-759 `mendenhall_weller`. -/
def mendenhall_weller (Za Zb Ma Mb E0 impact_parameter x0 : F) (V : InteractionPotential F) :
    Res F := do
  let a := screening_length Za Zb V
  let reduced_energy := LINDHARD_REDUCED_ENERGY_PREFACTOR F*a*Mb/(Ma+Mb)/Za/Zb*E0
  let beta := impact_parameter/a
  let dph ← dphi x0 V
  let lambda0 := powf (0.5 + beta*beta/x0/x0/2.0 - dph/2.0/reduced_energy) (-1.0/2.0)
  let g1 ← scattering_integral_mw (x0/0.9072) beta reduced_energy V
  let g2 ← scattering_integral_mw (x0/0.4206) beta reduced_energy V
  let alpha := 1.0/12.0*(1.0 + lambda0 + 5.0*(0.4206*g1 + 0.9072*g2))
  pure (pi*(1.0 - beta*alpha/x0))

/-- bca.rs:762-769 `oen_robinson_loss`. -/
def oen_robinson_loss (Za Zb Se x0 : F) (V : InteractionPotential F) : F :=
  let a := screening_length Za Zb V
  let d1 := first_screening_radius V
  d1*d1/2.0/pi*Se*exp (-d1*x0)/a/a

/-- bca.rs:490-495 the choice of scattering integral. -/
def scattering_angle (si : ScatteringIntegral) (Za Zb Ma Mb E0 impact_parameter x0 : F)
    (V : InteractionPotential F) : Res F :=
  match si with
  | .MENDENHALL_WELLER => mendenhall_weller Za Zb Ma Mb E0 impact_parameter x0 V
  | .GAUSS_MEHLER n_points => gauss_mehler Za Zb Ma Mb E0 impact_parameter x0 V n_points
  | .GAUSS_LEGENDRE => gauss_legendre Za Zb Ma Mb E0 impact_parameter x0 V
  | .MAGIC => magic Za Zb Ma Mb E0 impact_parameter x0 V

/-- bca.rs:501-511 the result assembled from the centre-of-mass angle. -/
def collision_result (Ma Mb E0 a x0 theta : F) (V : InteractionPotential F) :
    BinaryCollisionResult F where
  theta := theta
  psi := abs (atan2 (sin theta) (Ma/Mb + cos theta))
  psi_recoil := abs (atan2 (sin theta) (1.0 - cos theta))
  recoil_energy := 4.0*(Ma*Mb)/powi (Ma + Mb) 2*E0*powi (sin (theta/2.0)) 2
  asymptotic_deflection := match V with
    | .COULOMB .. => 0.0
    | _ => x0*a*sin (theta/2.0)
  normalized_distance_of_closest_approach := x0

/-- bca.rs:477-512 `calculate_binary_collision`. -/
def calculate_binary_collision (rcpr : Rcpr F) (particle_1 particle_2 : Particle F)
    (binary_collision_geometry : BinaryCollisionGeometry F) (options : Options F) :
    Res (Anyhow (BinaryCollisionResult F)) := do
  let Za := particle_1.Z
  let Zb := particle_2.Z
  let Ma := particle_1.m
  let Mb := particle_2.m
  let E0 := particle_1.E
  let row ← vget options.interaction_potential particle_1.interaction_index
  let interaction_potential ← vget row particle_2.interaction_index
  let row ← vget options.scattering_integral particle_1.interaction_index
  let scattering_integral ← vget row particle_2.interaction_index
  let a := screening_length Za Zb interaction_potential
  let x0 ← distance_of_closest_approach rcpr particle_1 particle_2 binary_collision_geometry options
  let theta ← scattering_angle scattering_integral Za Zb Ma Mb E0
    binary_collision_geometry.impact_parameter x0 interaction_potential
  if isNaN theta then pure (.error "Numerical error: CoM deflection angle is NaN.")
  else pure (.ok (collision_result Ma Mb E0 a x0 theta interaction_potential))

/-- bca.rs:262-269, 303-316, 320-323: `-rand::random::<f64>().ln()`. -/
def exponential : M F F := do
  let r ← random
  pure (-(ln r))

/-- bca.rs:220-223 the azimuthal angles. -/
def draw_phis (n : Nat) : M F (List F) := collectN (fun _ => do
  let r ← random
  pure (2.0*pi*r)) n

/-- bca.rs:228-250 the screening-length based maximum impact parameter and free-flight path,
scaled down to 5 percent electronic loss (bca.rs:252-262): returns (pmax, ffp). -/
def ffp_limits (particle_1 : Particle F) (material : Material F) : Res (F × F) := do
  let x := particle_1.pos.x
  let y := particle_1.pos.y
  let z := particle_1.pos.z
  let Ma := particle_1.m
  let Mb ← material.average_mass x y z
  let Za := particle_1.Z
  let Zb ← material.average_Z x y z
  let _n ← material.number_densities x y z
  let ck ← material.electronic_stopping_correction_factor x y z
  let E := particle_1.E
  let Ec := particle_1.Ec
  let a := screening_length Za Zb (.MOLIERE : InteractionPotential F)
  let reduced_energy := LINDHARD_REDUCED_ENERGY_PREFACTOR F*a*Mb/(Ma+Mb)/Za/Zb*E
  let E_min := Ec*(Ma + Mb)*(Ma + Mb)/4.0/Ma/Mb
  let reduced_energy_min := LINDHARD_REDUCED_ENERGY_PREFACTOR F*a*Mb/(Ma+Mb)/Za/Zb*E_min
  let ep := sqrt (reduced_energy*reduced_energy_min)
  let pmax := a/(ep + sqrt ep + 0.125*powf ep 0.1)
  let total ← material.total_number_density x y z
  let ffp := 1.0/(total*pmax*pmax*pi)
  let stopping_powers ← material.electronic_stopping_cross_sections particle_1 .INTERPOLATED
  let densities ← material.number_densities x y z
  let delta_energy_electronic :=
    fsum ((stopping_powers.zip densities).map fun (se, number_density) => se*number_density)*ffp*ck
  if delta_energy_electronic >. 0.05*E then
    let ffp := ffp*(0.05*E/delta_energy_electronic)
    let total ← material.total_number_density x y z
    pure (sqrt (1.0/(total*pi*ffp)), ffp)
  else pure (pmax, ffp)

/-- bca.rs:206-343 `determine_mfp_phi_impact_parameter`; returns the particle (whose `first_step`
may be cleared) and the collision geometries. -/
def determine_mfp_phi_impact_parameter (particle_1 : Particle F) (material : Material F)
    (options : Options F) : M F (Particle F × List (BinaryCollisionGeometry F)) := do
  let x := particle_1.pos.x
  let y := particle_1.pos.y
  let z := particle_1.pos.z
  let mfp ← liftM (material.mfp x y z)
  let phis_azimuthal ← draw_phis (options.weak_collision_order + 1)
  if options.high_energy_free_flight_paths then do
    let (pmax, ffp) ← liftM (ffp_limits particle_1 material)
    if ffp <. mfp then do
      let ffp := mfp
      let pmax := mfp/SQRTPI F
      let random_number ← random
      let p := pmax*sqrt random_number
      let (particle_1, ffp) ← (if particle_1.first_step then do
          let r ← random
          pure ({ particle_1 with first_step := false }, mfp*r)
        else pure (particle_1, ffp) : M F (Particle F × F))
      let factor ← (match options.mean_free_path_model with
        | .GASEOUS => exponential
        | .LIQUID => pure 1.0
        | .THRESHOLD density => do
          let densities ← liftM (material.geometry.get_densities x y z)
          if fsum densities <. density then exponential else pure 1.0 : M F F)
      let ffp := ffp*factor
      let phi ← liftM (vget phis_azimuthal 0)
      pure (particle_1, [⟨phi, p, ffp⟩])
    else do
      let random_number ← random
      let p := pmax*sqrt (-(ln random_number))
      let (particle_1, ffp) ← (if particle_1.first_step then do
          let r ← random
          pure ({ particle_1 with first_step := false }, mfp*r)
        else pure (particle_1, ffp) : M F (Particle F × F))
      let ffp ← (if options.mean_free_path_model.isGaseous then do
          let e ← exponential
          pure (ffp*e)
        else pure ffp : M F F)
      let phi ← liftM (vget phis_azimuthal 0)
      pure (particle_1, [⟨phi, p, ffp⟩])
  else do
    let pmax := mfp/SQRTPI F
    let impact_parameters ← collectN (fun k => do
      let random_number ← random
      pure (pmax*sqrt (random_number + ofNat k))) (options.weak_collision_order + 1)
    let (particle_1, mfp) ← (if particle_1.first_step then do
        let r ← random
        pure ({ particle_1 with first_step := false }, mfp*r)
      else pure (particle_1, mfp) : M F (Particle F × F))
    let mfp ← (if options.mean_free_path_model.isGaseous then do
        let e ← exponential
        pure (mfp*e)
      else pure mfp : M F F)
    pure (particle_1, (phis_azimuthal.zip impact_parameters).map fun (phi, p) => ⟨phi, p, mfp⟩)

/-- bca.rs:355-369 the location of the collision partner. -/
def recoil_position (pos dir : Vec3 F) (g : BinaryCollisionGeometry F) : Vec3 F :=
  let impact_parameter := g.impact_parameter
  let mfp := g.mfp
  let sinphi := sin g.phi_azimuthal
  let cosx := dir.x
  let cosy := dir.y
  let cosz := dir.z
  let sinx := sqrt (1.0 - cosx*cosx)
  let cosphi := cos g.phi_azimuthal
  ⟨pos.x + mfp*cosx - impact_parameter*cosphi*sinx,
   pos.y + mfp*cosy - impact_parameter*(sinphi*cosz - cosphi*cosy*cosx)/sinx,
   pos.z + mfp*cosz + impact_parameter*(sinphi*cosy - cosphi*cosx*cosz)/sinx⟩

/-- bca.rs:346-383 `choose_collision_partner`. -/
def choose_collision_partner (particle_1 : Particle F) (material : Material F)
    (g : BinaryCollisionGeometry F) (options : Options F) : M F (Nat × Particle F) := do
  let r := recoil_position particle_1.pos particle_1.dir g
  let s ← material.choose r.x r.y r.z
  let new_particle := Particle.new s.m s.Z 0.0 s.Ec s.Es s.Ed r.x r.y r.z
    particle_1.dir.x particle_1.dir.y particle_1.dir.z
    false options.track_recoil_trajectories s.interaction_index
  pure (s.species_index, { new_particle with
    weight := particle_1.weight
    tag := particle_1.tag
    tracked_vector := particle_1.tracked_vector })

/-- bca.rs:450-463 `se*number_density` summed over the species. -/
def bragg_sum (stopping_powers densities : List F) : F :=
  fsum ((stopping_powers.zip densities).map fun (se, number_density) => se*number_density)

/-- bca.rs:436-474 `subtract_electronic_stopping_energy`; returns the particle and the energy
loss. -/
def subtract_electronic_stopping_energy (particle_1 : Particle F) (material : Material F)
    (distance_traveled x0 strong_collision_Z : F) (strong_collision_index : Nat)
    (options : Options F) : Res (Particle F × F) := do
  rassert (!isNaN particle_1.E) "Numerical error: particle energy is NaN following collision."
  let x := particle_1.pos.x
  let y := particle_1.pos.y
  let z := particle_1.pos.z
  let inside ← material.inside x y z
  if inside then do
    let row ← vget options.interaction_potential particle_1.interaction_index
    let target_index ← vget material.interaction_index strong_collision_index
    let interaction_potential ← vget row target_index
    let electronic_stopping_powers ← material.electronic_stopping_cross_sections particle_1
      options.electronic_stopping_mode
    let n ← material.number_densities x y z
    let delta_energy_electronic ← (match options.electronic_stopping_mode with
      | .INTERPOLATED => pure (bragg_sum electronic_stopping_powers n*distance_traveled)
      | .LOW_ENERGY_NONLOCAL => pure (bragg_sum electronic_stopping_powers n*distance_traveled)
      | .LOW_ENERGY_LOCAL => do
        let se ← vget electronic_stopping_powers strong_collision_index
        pure (oen_robinson_loss particle_1.Z strong_collision_Z se x0 interaction_potential)
      | .LOW_ENERGY_EQUIPARTITION => do
        let se ← vget electronic_stopping_powers strong_collision_index
        let delta_energy_local :=
          oen_robinson_loss particle_1.Z strong_collision_Z se x0 interaction_potential
        let delta_energy_nonlocal := bragg_sum electronic_stopping_powers n*distance_traveled
        pure (0.5*delta_energy_local + 0.5*delta_energy_nonlocal) : Res F)
    let E := particle_1.E + -delta_energy_electronic
    rassert (!isNaN E) "Numerical error: particle energy is NaN following electronic stopping."
    let E := if E <. 0.0 then 0.0 else E
    pure ({ particle_1 with E := E }, delta_energy_electronic)
  else pure (particle_1, 0.0)

/-- The mutable variables of one pass of the trajectory loop (bca.rs:76-96): the moving particle,
the stack of particles to follow, and the accumulators. -/
structure StepState (F : Type) where
  particle_1 : Particle F
  particles : List (Particle F)
  total_energy_lost_to_recoils : F
  total_asymptotic_deflection : F
  normalized_distance_of_closest_approach : F
  strong_collision_Z : F
  strong_collision_index : Nat

/-- bca.rs:140-170 whether the recoil is put on the stack: deep-recoil suppression and cutoff. -/
def keep_recoil (particle_1 particle_2 : Particle F) (material : Material F)
    (options : Options F) : Res Bool :=
  if options.track_recoils && options.suppress_deep_recoils then do
    let E := particle_1.E
    let Za := particle_1.Z
    let Zb := particle_2.Z
    let Ma := particle_1.m
    let Mb := particle_2.m
    let n ← material.total_number_density particle_2.pos.x particle_2.pos.y particle_2.pos.z
    let a := screening_length Za Zb (.MOLIERE : InteractionPotential F)
    let reduced_energy := LINDHARD_REDUCED_ENERGY_PREFACTOR F*a*Mb/(Ma+Mb)/Za/Zb*E
    let estimated_range_of_recoils := powi (powf reduced_energy 0.3 + 0.1) 3/n/a/a
    let (x2, y2, z2) ← material.closest_point particle_2.pos.x particle_2.pos.y particle_2.pos.z
    let dx := x2 - particle_2.pos.x
    let dy := y2 - particle_2.pos.y
    let dz := z2 - particle_2.pos.z
    let distance_to_surface := sqrt (dx*dx + dy*dy + dz*dz)
    pure ((distance_to_surface <. estimated_range_of_recoils) && (particle_2.E >. particle_2.Ec))
  else pure (options.track_recoils && (particle_2.E >. particle_2.Ec))

/-- bca.rs:105-171 what a collision does once its result is known. -/
def apply_collision (material : Material F) (options : Options F) (k : Nat)
    (g : BinaryCollisionGeometry F) (species_index : Nat) (particle_2 : Particle F)
    (r : BinaryCollisionResult F) (s : StepState F) : Res (StepState F) := do
  let s := if k == 0 then { s with
      normalized_distance_of_closest_approach := r.normalized_distance_of_closest_approach
      strong_collision_Z := particle_2.Z
      strong_collision_index := species_index } else s
  let eb ← material.average_bulk_binding_energy particle_2.pos.x particle_2.pos.y particle_2.pos.z
  let particle_2 := { particle_2 with E := r.recoil_energy - eb }
  let particle_2 := { particle_2 with energy_origin := particle_2.E }
  let particle_1 := { s.particle_1 with E := s.particle_1.E + -r.recoil_energy }
  let total_energy_lost_to_recoils := s.total_energy_lost_to_recoils + r.recoil_energy
  let total_asymptotic_deflection := s.total_asymptotic_deflection + r.asymptotic_deflection
  let particle_1 := particle_1.rotate r.psi g.phi_azimuthal
  let particle_2 := particle_2.rotate (-r.psi_recoil) g.phi_azimuthal
  let particle_2 := { particle_2 with dir_old := particle_2.dir }
  let particle_1 := if (r.psi >. 0.0) && (k == 0) then
    { particle_1 with number_collision_events := particle_1.number_collision_events + 1 }
    else particle_1
  let keep ← keep_recoil particle_1 particle_2 material options
  pure { s with
    particle_1 := particle_1
    particles := if keep then s.particles ++ [particle_2] else s.particles
    total_energy_lost_to_recoils := total_energy_lost_to_recoils
    total_asymptotic_deflection := total_asymptotic_deflection }

/-- bca.rs:99-172 one pass of the collision loop. -/
def collision_step (rcpr : Rcpr F) (material : Material F) (options : Options F)
    (s : StepState F) (gk : BinaryCollisionGeometry F × Nat) : M F (StepState F) := do
  let (g, k) := gk
  let (species_index, particle_2) ← choose_collision_partner s.particle_1 material g options
  let inside ← liftM (material.inside particle_2.pos.x particle_2.pos.y particle_2.pos.z)
  let inside_barrier ← liftM (material.inside_energy_barrier
    s.particle_1.pos.x s.particle_1.pos.y s.particle_1.pos.z)
  if inside && inside_barrier then do
    let res ← liftM (calculate_binary_collision rcpr s.particle_1 particle_2 g options)
    let r ← liftM (unwrapA res)
    liftM (apply_collision material options k g species_index particle_2 r s)
  else pure s

/-- bca.rs:174-196 the end of a pass of the trajectory loop: move, stop, record, boundary. -/
def finish_step (material : Material F) (options : Options F)
    (geometries : List (BinaryCollisionGeometry F)) (s : StepState F) :
    Res (Particle F × List (Particle F)) := do
  let g0 ← vget geometries 0
  let (particle_1, distance_traveled) := s.particle_1.advance g0.mfp s.total_asymptotic_deflection
  let (particle_1, energy_lost) ← subtract_electronic_stopping_energy particle_1 material
    distance_traveled s.normalized_distance_of_closest_approach s.strong_collision_Z
    s.strong_collision_index options
  let particle_1 := particle_1.update_energy_loss_tracker options s.total_energy_lost_to_recoils
    energy_lost
  let particle_1 ← boundary_condition_planar particle_1 material
  pure (particle_1, s.particles)

/-- bca.rs:79-197 one pass of the trajectory loop (`while !stopped & !left`). -/
def trajectory_step (rcpr : Rcpr F) (material : Material F) (options : Options F)
    (particle_1 : Particle F) (particles : List (Particle F)) :
    M F (Particle F × List (Particle F)) := do
  let (particle_1, geometries) ← determine_mfp_phi_impact_parameter particle_1 material options
  let s0 : StepState F := ⟨particle_1, particles, 0.0, 0.0, 0.0, 0.0, 0⟩
  let s ← forFold (collision_step rcpr material options)
    (geometries.zipIdx.take (options.weak_collision_order + 1)) s0
  liftM (finish_step material options geometries s)

/-- Variables of the trajectory loop: the moving particle, the stack, `particle_index`. -/
structure TrajState (F : Type) where
  particle_1 : Particle F
  particles : List (Particle F)
  particle_index : Nat

/-- bca.rs:79 the trajectory loop's condition. -/
def TrajState.running (s : TrajState F) : Bool := !s.particle_1.stopped && !s.particle_1.left

/-- bca.rs:79-197 the body of the trajectory loop. -/
def traj_body (rcpr : Rcpr F) (material : Material F) (options : Options F)
    (s : TrajState F) : M F (TrajState F) := do
  let (particle_1, particles) ← trajectory_step rcpr material options s.particle_1 s.particles
  pure { particle_1 := particle_1, particles := particles, particle_index := particles.length }

/-- Variables of the outer loop of `single_ion_bca`. -/
structure CascadeState (F : Type) where
  particles : List (Particle F)
  particle_output : List (Particle F)
  particle_index : Nat

/-- `particles.pop().unwrap()`: the last element and the rest. -/
def popLast {α : Type} (l : List α) : Res (α × List α) :=
  match l.getLast? with
  | some a => .ok (a, l.dropLast)
  | none => rpanic "called `Option::unwrap()` on a `None` value"

/-- bca.rs:74-200 the body of the outer loop. -/
def cascade_body (rcpr : Rcpr F) (material : Material F) (options : Options F) (fuel : Nat)
    (s : CascadeState F) : M F (CascadeState F) := do
  let (particle_1, particles) ← liftM (popLast s.particles)
  let t ← whileFuel TrajState.running (traj_body rcpr material options) fuel
    ⟨particle_1, particles, s.particle_index⟩
  pure { particles := t.particles
         particle_output := s.particle_output ++ [t.particle_1]
         particle_index := t.particle_index }

/-- bca.rs:65-202 `single_ion_bca`. -/
def single_ion_bca (rcpr : Rcpr F) (fuel : Nat) (particle : Particle F) (material : Material F)
    (options : Options F) : M F (List (Particle F)) := do
  let s ← whileFuel (fun s : CascadeState F => decide (0 < s.particle_index))
    (cascade_body rcpr material options fuel) fuel ⟨[particle], [], 1⟩
  pure s.particle_output

end RustBCA
