import Verif.Model.Basic

/-!
# Interatomic potentials (interactions.rs)

A function that panics for some potentials returns `Res`.
-/

namespace RustBCA
open Scalar

variable {F : Type} [Scalar F]

/-- interactions.rs:4-13 `crossing_point_doca`. -/
def crossing_point_doca : InteractionPotential F → F
  | .LENNARD_JONES_12_6 sigma _ | .LENNARD_JONES_65_6 sigma _ => sigma
  | .MORSE _ alpha r0 => (alpha*r0 - ln 2.0)/alpha
  | .WW => 50.0*ANGSTROM F
  | _ => 10.0*ANGSTROM F

/-- interactions.rs:15-17 `sigmoid`. -/
def sigmoid (x k x0 : F) : F := 1.0/(1.0 + exp (-k*(x - x0)))

/-- interactions.rs:475-477 `moliere`. -/
def moliere (xi : F) : F := 0.35*exp (-0.3*xi) + 0.55*exp (-1.2*xi) + 0.10*exp (-6.0*xi)

/-- interactions.rs:479-481 `kr_c`. -/
def kr_c (xi : F) : F :=
  0.190945*exp (-0.278544*xi) + 0.473674*exp (-0.637174*xi) + 0.335381*exp (-1.919249*xi)

/-- interactions.rs:483-485 `zbl`. -/
def zbl (xi : F) : F :=
  0.02817*exp (-0.20162*xi) + 0.28022*exp (-0.40290*xi) + 0.50986*exp (-0.94229*xi)
    + 0.18175*exp (-3.1998*xi)

/-- interactions.rs:487-489 `lenz_jensen`. -/
def lenz_jensen (xi : F) : F :=
  0.01018*exp (-0.206*xi) + 0.24330*exp (-0.3876*xi) + 0.7466*exp (-1.038*xi)

/-- interactions.rs:491-493 `diff_moliere`. -/
def diff_moliere (xi : F) : F :=
  -0.35*0.3*exp (-0.3*xi) - 0.55*1.2*exp (-1.2*xi) - 0.10*6.0*exp (-6.0*xi)

/-- interactions.rs:495-497 `diff_kr_c`. -/
def diff_kr_c (xi : F) : F :=
  -0.278544*0.190945*exp (-0.278544*xi) - 0.637174*0.473674*exp (-0.637174*xi)
    - 0.335381*1.919249*exp (-1.919249*xi)

/-- interactions.rs:499-501 `diff_zbl`. -/
def diff_zbl (xi : F) : F :=
  -0.20162*0.02817*exp (-0.20162*xi) - 0.40290*0.28022*exp (-0.40290*xi)
    - 0.94229*0.50986*exp (-0.94229*xi) - 3.1998*0.18175*exp (-3.1998*xi)

/-- interactions.rs:503-505 `diff_lenz_jensen`. -/
def diff_lenz_jensen (xi : F) : F :=
  -0.206*0.01018*exp (-0.206*xi) - 0.3876*0.24330*exp (-0.3876*xi)
    - 1.038*0.7466*exp (-1.038*xi)

/-- interactions.rs:240-249 `phi`. -/
def phi (xi : F) : InteractionPotential F → Res F
  | .MOLIERE => .ok (moliere xi)
  | .KR_C => .ok (kr_c xi)
  | .ZBL => .ok (zbl xi)
  | .LENZ_JENSEN => .ok (lenz_jensen xi)
  | .TRIDYN => .ok (kr_c xi)
  | _ => rpanic "Input error: Screened Coulomb cannot be used with this potential"

/-- interactions.rs:252-261 `dphi`. -/
def dphi (xi : F) : InteractionPotential F → Res F
  | .MOLIERE => .ok (diff_moliere xi)
  | .KR_C => .ok (diff_kr_c xi)
  | .ZBL => .ok (diff_zbl xi)
  | .LENZ_JENSEN => .ok (diff_lenz_jensen xi)
  | .TRIDYN => .ok (diff_kr_c xi)
  | _ => rpanic "Input error: Screened Coulomb cannot be used with this potential"

/-- interactions.rs:264-276 `screening_length`. -/
def screening_length (Za Zb : F) : InteractionPotential F → F
  | .ZBL => 0.88534*A0 F/(powf Za 0.23 + powf Zb 0.23)
  | .MOLIERE | .KR_C | .LENZ_JENSEN | .TRIDYN | .WW =>
      0.8853*A0 F*powf (sqrt Za + sqrt Zb) (-2.0/3.0)
  | .LENNARD_JONES_12_6 .. | .LENNARD_JONES_65_6 .. =>
      0.8853*A0 F*powf (sqrt Za + sqrt Zb) (-2.0/3.0)
  | .MORSE _ alpha _ => alpha
  | .COULOMB Z1 Z2 => 0.88534*A0 F/(powf Z1 0.23 + powf Z2 0.23)
  | .KRC_MORSE .. => 0.8853*A0 F*powf (sqrt Za + sqrt Zb) (-2.0/3.0)
  | .FOUR_EIGHT .. => 0.8853*A0 F*powf (sqrt Za + sqrt Zb) (-2.0/3.0)

/-- interactions.rs:230-232 `screened_coulomb`. -/
def screened_coulomb (r a Za Zb : F) (V : InteractionPotential F) : Res F := do
  let ph ← phi (r/a) V
  pure (Za*Zb*Q F*Q F/4.0/pi/EPS0 F/r*ph)

/-- interactions.rs:235-237 `coulomb`. -/
def coulomb (r Za Zb : F) : F := Za*Zb*Q F*Q F/4.0/pi/EPS0 F/r

/-- interactions.rs:328-332 `four_eight`. -/
def four_eight (r alpha beta : F) : F :=
  let a := powf alpha (1.0/4.0)
  let b := powf beta (1.0/8.0);
  -(powi (a/r) 4) + powi (b/r) 8

/-- interactions.rs:335-337 `lennard_jones`. -/
def lennard_jones (r sigma epsilon : F) : F :=
  4.0*epsilon*(powf (sigma/r) 12.0 - powf (sigma/r) 6.0)

/-- interactions.rs:340-342 `lennard_jones_65_6`. -/
def lennard_jones_65_6 (r sigma epsilon : F) : F :=
  4.0*epsilon*(powf (sigma/r) 6.5 - powf (sigma/r) 6.0)

/-- interactions.rs:345-347 `morse`. -/
def morse (r D alpha r0 : F) : F :=
  D*(exp (-2.0*alpha*(r - r0)) - 2.0*exp (-alpha*(r - r0)))

/-- interactions.rs:350-352 `krc_morse`. -/
def krc_morse (r a Za Zb D alpha r0 k x0 : F) : Res F := do
  let sc ← screened_coulomb r a Za Zb .KR_C
  pure (sigmoid r k x0*morse r D alpha r0 + sigmoid r (-k) x0*sc)

/-- interactions.rs:467-473 `heaviside`. -/
def heaviside (x : F) : F := if x >=. 0.0 then 1.0 else 0.0

/-- interactions.rs:398-450 `tungsten_tungsten_cubic_spline`. -/
def tungsten_tungsten_cubic_spline (r : F) : Res F :=
  let x := r/ANGSTROM F
  let x1 : F := 1.10002200044
  let x2 : F := 2.10004200084
  if x <=. x1 then
    let a := screening_length 74.0 74.0 (.ZBL : InteractionPotential F)
    screened_coulomb r a 74.0 74.0 .ZBL
  else if x <=. x2 then
    .ok ((1.389653276380862e4 + (-3.596912431628216e4)*x + 3.739206756369099e4*powi x 2
      + (-1.933748081656593e4)*powi x 3 + 0.495516793802426e4*powf x 4.0
      + (-0.050264585985867e4)*powf x 5.0)*EV F)
  else
    let a : List F := [-0.1036435865158945, -0.2912948318493851, -2.096765499656263,
      19.16045452701010, -41.01619862085917, 46.05205617244703, 26.42203930654883,
      15.35211507804088, 14.12806259323987]
    let delta : List F := [4.268900000000000, 3.985680000000000, 3.702460000000000,
      3.419240000000000, 3.136020000000000, 2.852800000000000, 2.741100000000000,
      2.604045000000000, 2.466990000000000]
    .ok (fsum ((a.zip delta).map
      (fun (a_i, delta_i) => EV F*a_i*powi (delta_i - x) 3*heaviside (delta_i - x))))

/-- interactions.rs:20-48 `interaction_potential`. -/
def interaction_potential (r a Za Zb : F) (V : InteractionPotential F) : Res F :=
  match V with
  | .MOLIERE | .KR_C | .LENZ_JENSEN | .ZBL | .TRIDYN => screened_coulomb r a Za Zb V
  | .LENNARD_JONES_12_6 sigma epsilon => .ok (lennard_jones r sigma epsilon)
  | .LENNARD_JONES_65_6 sigma epsilon => .ok (lennard_jones_65_6 r sigma epsilon)
  | .MORSE D alpha r0 => .ok (morse r D alpha r0)
  | .WW => tungsten_tungsten_cubic_spline r
  | .COULOMB Z1 Z2 => .ok (coulomb r Z1 Z2)
  | .KRC_MORSE D alpha r0 k x0 => krc_morse r a Za Zb D alpha r0 k x0
  | .FOUR_EIGHT alpha beta => .ok (four_eight r alpha beta)

/-- interactions.rs:51-60 `energy_threshold_single_root`. -/
def energy_threshold_single_root : InteractionPotential F → F
  | .LENNARD_JONES_12_6 .. | .LENNARD_JONES_65_6 .. => infinity
  | .MORSE .. | .KRC_MORSE .. => infinity
  | .FOUR_EIGHT .. => infinity
  | .WW => infinity
  | .COULOMB .. => infinity
  | .MOLIERE | .KR_C | .LENZ_JENSEN | .ZBL | .TRIDYN => 0.0

/-- interactions.rs:63-66 `doca_function`. -/
def doca_function (x0 beta reduced_energy : F) (V : InteractionPotential F) : Res F := do
  let ph ← phi x0 V
  pure (x0 - ph/reduced_energy - beta*beta/x0)

/-- interactions.rs:69-72 `diff_doca_function`. -/
def diff_doca_function (x0 beta reduced_energy : F) (V : InteractionPotential F) : Res F := do
  let dph ← dphi x0 V
  pure (beta*beta/x0/x0 - dph/reduced_energy + 1.0)

/-- interactions.rs:75-78 `doca_function_transformed`. -/
def doca_function_transformed (x0 beta reduced_energy : F) (V : InteractionPotential F) : Res F := do
  let ph ← phi x0 V
  pure (x0*x0 - x0*ph/reduced_energy - beta*beta)

/-- interactions.rs:81-84 `diff_doca_function_transformed`. -/
def diff_doca_function_transformed (x0 _beta reduced_energy : F) (V : InteractionPotential F) :
    Res F := do
  let ph ← phi x0 V
  pure (2.0*x0 - ph/reduced_energy)

/-- interactions.rs:355-360 `doca_four_eight`. -/
def doca_four_eight (r impact_parameter relative_energy alpha beta : F) : F :=
  let a := powf alpha (1.0/4.0)
  let b := powf beta (1.0/8.0)
  let b4 := sqrt beta
  powf (r/b) 8.0 - (-(a*r/b/b) + 1.0)/relative_energy - (impact_parameter*powf r 3.0/b4)

/-- interactions.rs:363-365 `doca_morse`. -/
def doca_morse (r impact_parameter relative_energy D alpha r0 : F) : F :=
  powi (r*alpha) 2
    - powi (r*alpha) 2*D/relative_energy*(exp (-2.0*alpha*(r - r0)) - 2.0*exp (-alpha*(r - r0)))
    - powi (impact_parameter*alpha) 2

/-- interactions.rs:368-370 `doca_krc_morse`. -/
def doca_krc_morse (r impact_parameter relative_energy a Za Zb D alpha r0 k x0 : F) : Res F := do
  let v ← krc_morse r a Za Zb D alpha r0 k x0
  pure (powi (r*alpha) 2 - powi (r*alpha) 2/relative_energy*v - powi (impact_parameter*alpha) 2)

/-- interactions.rs:373-375 `diff_doca_morse`. -/
def diff_doca_morse (r _impact_parameter _relative_energy D alpha r0 : F) : F :=
  2.0*powi alpha 2*r - 2.0*powi alpha 2*D*r*exp (-2.0*alpha*(r - r0) - 1.0)
    *(alpha*r*exp (alpha*(r - r0)) - 2.0*exp (alpha*(r - r0)) - r*alpha + 1.0)

/-- interactions.rs:378-380 `doca_lennard_jones_65_6`. -/
def doca_lennard_jones_65_6 (r p relative_energy sigma epsilon : F) : F :=
  powf (r/sigma) 6.5 - 4.0*epsilon/relative_energy*(1.0 - powf (r/sigma) 0.5)
    - powi (p/sigma) 2*powf (r/sigma) 4.5

/-- interactions.rs:383-385 `doca_lennard_jones`. -/
def doca_lennard_jones (r p relative_energy sigma epsilon : F) : F :=
  powf (r/sigma) 12.0 - 4.0*epsilon/relative_energy*(1.0 - powf (r/sigma) 6.0)
    - powi p 2*powf r 10.0/powf sigma 12.0

/-- interactions.rs:388-390 `diff_doca_lennard_jones`. -/
def diff_doca_lennard_jones (r p relative_energy sigma epsilon : F) : F :=
  12.0*powf (r/sigma) 11.0/sigma + 4.0*epsilon/relative_energy*6.0*powf (r/sigma) 5.0/sigma
    - 10.0*powi p 2*powf r 9.0/powf sigma 12.0

/-- interactions.rs:393-395 `diff_doca_lennard_jones_65_6`. -/
def diff_doca_lennard_jones_65_6 (r p relative_energy sigma epsilon : F) : F :=
  6.5*powf (r/sigma) 5.5/sigma + 4.0*epsilon/relative_energy*0.5*powf (sigma*r) (-0.5)
    - powi (p/sigma) 2*4.5*powf (r/sigma) 3.5/sigma

/-- interactions.rs:119-150 `distance_of_closest_approach_function_singularity_free`, in the two
cases other than WW (WW's own function below calls this one with ZBL, so the recursion is split). -/
def screened_doca_singularity_free (r Za Zb relative_energy impact_parameter : F)
    (V : InteractionPotential F) : Res F :=
  let a := screening_length Za Zb V
  let reduced_energy := LINDHARD_REDUCED_ENERGY_PREFACTOR F*a/Za/Zb*relative_energy
  let beta := impact_parameter/a
  doca_function_transformed (r/a) beta reduced_energy V

/-- interactions.rs:453-465 `doca_tungsten_tungsten_cubic_spline`. -/
def doca_tungsten_tungsten_cubic_spline (r p relative_energy : F) : Res F :=
  let x := r/ANGSTROM F
  let x1 : F := 1.10002200044
  if x <=. x1 then
    if isNaN r then
      rpanic "Numerical error: r is NaN in distance of closest approach function."
    else
      screened_doca_singularity_free r 74.0 74.0 relative_energy p .ZBL
  else do
    let v ← tungsten_tungsten_cubic_spline r
    pure (powi (r/ANGSTROM F) 2 - powi (r/ANGSTROM F) 2*v/relative_energy
      - powi p 2/powi (ANGSTROM F) 2)

/-- interactions.rs:87-116 `distance_of_closest_approach_function`. -/
def distance_of_closest_approach_function (r a Za Zb relative_energy impact_parameter : F)
    (V : InteractionPotential F) : Res F :=
  match V with
  | .MOLIERE | .KR_C | .LENZ_JENSEN | .ZBL | .TRIDYN =>
      let a := screening_length Za Zb V
      let reduced_energy := LINDHARD_REDUCED_ENERGY_PREFACTOR F*a/Za/Zb*relative_energy
      let beta := impact_parameter/a
      doca_function (r/a) beta reduced_energy V
  | .LENNARD_JONES_12_6 sigma epsilon =>
      .ok (doca_lennard_jones r impact_parameter relative_energy sigma epsilon)
  | .LENNARD_JONES_65_6 sigma epsilon =>
      .ok (doca_lennard_jones_65_6 r impact_parameter relative_energy sigma epsilon)
  | .MORSE D alpha r0 => .ok (doca_morse r impact_parameter relative_energy D alpha r0)
  | .WW => doca_tungsten_tungsten_cubic_spline r impact_parameter relative_energy
  | .KRC_MORSE D alpha r0 k x0 =>
      doca_krc_morse r impact_parameter relative_energy a Za Zb D alpha r0 k x0
  | .FOUR_EIGHT alpha beta => .ok (doca_four_eight r impact_parameter relative_energy alpha beta)
  | .COULOMB .. => rpanic "Coulombic potential cannot be used with rootfinder."

/-- interactions.rs:119-150 `distance_of_closest_approach_function_singularity_free`. -/
def distance_of_closest_approach_function_singularity_free
    (r a Za Zb relative_energy impact_parameter : F) (V : InteractionPotential F) : Res F :=
  if isNaN r then
    rpanic "Numerical error: r is NaN in distance of closest approach function."
  else match V with
  | .MOLIERE | .KR_C | .LENZ_JENSEN | .ZBL | .TRIDYN =>
      screened_doca_singularity_free r Za Zb relative_energy impact_parameter V
  | .LENNARD_JONES_12_6 sigma epsilon =>
      .ok (doca_lennard_jones r impact_parameter relative_energy sigma epsilon)
  | .LENNARD_JONES_65_6 sigma epsilon =>
      .ok (doca_lennard_jones_65_6 r impact_parameter relative_energy sigma epsilon)
  | .MORSE D alpha r0 => .ok (doca_morse r impact_parameter relative_energy D alpha r0)
  | .KRC_MORSE D alpha r0 k x0 =>
      doca_krc_morse r impact_parameter relative_energy a Za Zb D alpha r0 k x0
  | .FOUR_EIGHT alpha beta => .ok (doca_four_eight r impact_parameter relative_energy alpha beta)
  | .WW => doca_tungsten_tungsten_cubic_spline r impact_parameter relative_energy
  | .COULOMB .. => rpanic "Coulombic potential cannot be used with rootfinder."

/-- interactions.rs:153-181 `scaling_function`. -/
def scaling_function (r a : F) : InteractionPotential F → Res F
  | .MOLIERE | .KR_C | .LENZ_JENSEN | .ZBL | .TRIDYN => .ok (1.0/(1.0 + powi (r/a) 2))
  | .LENNARD_JONES_12_6 sigma _ => .ok (1.0/(1.0 + powf (r/sigma) 11.0))
  | .LENNARD_JONES_65_6 sigma _ => .ok (1.0/(1.0 + powf (r/sigma) 6.0))
  | .FOUR_EIGHT _ beta => .ok (1.0/(1.0 + powi r 8/beta))
  | .MORSE _ alpha _ => .ok (1.0/(1.0 + powi (r*alpha) 2))
  | .WW => .ok 1.0
  | .KRC_MORSE _ alpha _ _ _ => .ok (1.0/(1.0 + powi (r*alpha) 2))
  | .COULOMB .. => rpanic "Coulombic potential cannot be used with rootfinder."

/-- interactions.rs:184-204 `diff_distance_of_closest_approach_function`. -/
def diff_distance_of_closest_approach_function (r _a Za Zb relative_energy impact_parameter : F)
    (V : InteractionPotential F) : Res F :=
  match V with
  | .MOLIERE | .KR_C | .LENZ_JENSEN | .ZBL | .TRIDYN =>
      let a := screening_length Za Zb V
      let reduced_energy := LINDHARD_REDUCED_ENERGY_PREFACTOR F*a/Za/Zb*relative_energy
      let beta := impact_parameter/a
      diff_doca_function (r/a) beta reduced_energy V
  | .LENNARD_JONES_12_6 sigma epsilon =>
      .ok (diff_doca_lennard_jones r impact_parameter relative_energy sigma epsilon)
  | .LENNARD_JONES_65_6 sigma epsilon =>
      .ok (diff_doca_lennard_jones_65_6 r impact_parameter relative_energy sigma epsilon)
  | .MORSE D alpha r0 => .ok (diff_doca_morse r impact_parameter relative_energy D alpha r0)
  | _ => rpanic "Input error: potential does not have an implemented derivative."

/-- interactions.rs:207-227 `diff_distance_of_closest_approach_function_singularity_free`. -/
def diff_distance_of_closest_approach_function_singularity_free
    (r _a Za Zb relative_energy impact_parameter : F) (V : InteractionPotential F) : Res F :=
  match V with
  | .MOLIERE | .KR_C | .LENZ_JENSEN | .ZBL | .TRIDYN =>
      let a := screening_length Za Zb V
      let reduced_energy := LINDHARD_REDUCED_ENERGY_PREFACTOR F*a/Za/Zb*relative_energy
      let beta := impact_parameter/a
      diff_doca_function_transformed (r/a) beta reduced_energy V
  | .LENNARD_JONES_12_6 sigma epsilon =>
      .ok (diff_doca_lennard_jones r impact_parameter relative_energy sigma epsilon)
  | .LENNARD_JONES_65_6 sigma epsilon =>
      .ok (diff_doca_lennard_jones_65_6 r impact_parameter relative_energy sigma epsilon)
  | .MORSE D alpha r0 => .ok (diff_doca_morse r impact_parameter relative_energy D alpha r0)
  | _ => rpanic "Input error: potential does not have an implemented derivative."

/-- interactions.rs:280-307 `polynomial_coefficients`. -/
def polynomial_coefficients (relative_energy impact_parameter : F) :
    InteractionPotential F → Res (List F)
  | .LENNARD_JONES_12_6 sigma epsilon =>
      let epsilon_ev := epsilon/EV F
      let relative_energy_ev := relative_energy/EV F
      .ok [1.0, -(powi impact_parameter 2), 0.0, 4.0*epsilon_ev*powf sigma 6.0/relative_energy_ev,
        0.0, 0.0, -4.0*epsilon_ev*powf sigma 12.0/relative_energy_ev]
  | .LENNARD_JONES_65_6 sigma epsilon =>
      let epsilon_ev := epsilon/EV F
      let relative_energy_ev := relative_energy/EV F
      .ok [1.0, 0.0, 0.0, 0.0, -(powi impact_parameter 2), 0.0, 0.0, 0.0, 0.0, 0.0, 0.0, 0.0,
        4.0*epsilon_ev*powf sigma 6.0/relative_energy_ev,
        -4.0*epsilon_ev*powf sigma 6.5/relative_energy_ev]
  | .FOUR_EIGHT alpha beta =>
      let alpha_angstroms4_joule := alpha/powi (ANGSTROM F) 4
      let beta_angstroms8_joule := beta/powi (ANGSTROM F) 8
      let impact_parameteter_angstroms := impact_parameter/ANGSTROM F
      .ok [1.0, -(powi impact_parameteter_angstroms 2), alpha_angstroms4_joule/relative_energy, 0.0,
        -beta_angstroms8_joule/relative_energy]
  | _ => rpanic "Input error: non-polynomial interaction potential used with polynomial root-finder."

/-- interactions.rs:312-325 `inverse_transform`. -/
def inverse_transform (x : F) : InteractionPotential F → Res F
  | .LENNARD_JONES_12_6 .. => .ok (sqrt x)
  | .LENNARD_JONES_65_6 .. => .ok (x*x)
  | .FOUR_EIGHT .. => .ok (sqrt x*ANGSTROM F)
  | _ => rpanic "Input error: non-polynomial potential used with polynomial root-finder transformation."

/-- interactions.rs:508-522 `first_screening_radius`. -/
def first_screening_radius : InteractionPotential F → F
  | .MOLIERE => 0.3
  | .KR_C => 0.278544
  | .ZBL => 0.20162
  | .LENZ_JENSEN => 0.206
  | .TRIDYN => 0.278544
  | .LENNARD_JONES_12_6 .. => 1.0
  | .LENNARD_JONES_65_6 .. => 1.0
  | .MORSE .. | .KRC_MORSE .. => 1.0
  | .WW => 1.0
  | .COULOMB .. => 0.3
  | .FOUR_EIGHT .. => 1.0

end RustBCA
