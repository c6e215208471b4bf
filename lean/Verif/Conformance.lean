import Verif.Model.Main

/-!
# The project's own tests, run on the model

These are tests, not proofs: the executable model (`F = Float`) runs the assertions of
`/repo/src/tests.rs` when this module is built, and the build fails if one of them fails.  They are
evidence that the translation is faithful (constants, signs, quadrature nodes, unit conversions).
The random numbers of `test_momentum_conservation` are an arbitrary fixed sequence.
Not run: `test_polynom`, the CPR part of `test_quadrature` (external crate `rcpr`) and
`test_parry_cuboid`/`test_parry_sphere` (external crate `parry3d_f64`).
-/

namespace RustBCA.Conformance
open Scalar

/-- `assert!`. -/
def check (name : String) (b : Bool) : IO Unit :=
  unless b do throw (IO.userError s!"conformance test failed: {name}")

/-- The value of a computation that must not panic. -/
def ok {α : Type} (name : String) : Res α → IO α
  | .ok a => pure a
  | .error e => throw (IO.userError s!"conformance test panicked: {name}: {repr e}")

def close (a b eps : Float) : Bool := (a - b).abs ≤ eps

abbrev eV : Float := EV Float
abbrev angstrom : Float := ANGSTROM Float
abbrev amu : Float := AMU Float

/-- Even-odd point-in-polygon test and nearest boundary point, standing for the crate `geo`. -/
def edges (poly : List (Float × Float)) : List ((Float × Float) × (Float × Float)) :=
  match poly with
  | [] => []
  | p :: ps => (poly.zip (ps ++ [p]))

def contains (poly : List (Float × Float)) (p : Float × Float) : Bool :=
  (edges poly).foldl (fun acc (a, b) =>
    if (decide (a.2 > p.2) != decide (b.2 > p.2)) &&
      decide (p.1 < (b.1 - a.1)*(p.2 - a.2)/(b.2 - a.2) + a.1) then !acc else acc) false

def nearest (poly : List (Float × Float)) (p : Float × Float) : Option ((Float × Float) × Bool) :=
  (edges poly).foldl (fun (acc : Option ((Float × Float) × Bool)) (a, b) =>
    let l2 := (b.1 - a.1)*(b.1 - a.1) + (b.2 - a.2)*(b.2 - a.2)
    if l2 == 0.0 then acc else
    let u := ((p.1 - a.1)*(b.1 - a.1) + (p.2 - a.2)*(b.2 - a.2))/l2
    let u := if u < 0.0 then 0.0 else if u > 1.0 then 1.0 else u
    let q := (a.1 + u*(b.1 - a.1), a.2 + u*(b.2 - a.2))
    let d (r : Float × Float) := (r.1 - p.1)*(r.1 - p.1) + (r.2 - p.2)*(r.2 - p.2)
    match acc with
    | none => some (q, false)
    | some (r, _) => if d q ≤ d r then some (q, false) else acc) none

def ext : Ext Float := ⟨fun _ => none, contains, nearest⟩

/-- tests.rs:350-369 the particle and materials the geometry tests share. -/
def particle_1 : Particle Float :=
  let c := 1.0/Float.sqrt 2.0
  Particle.new 1.0 1.0 (10.0*eV) eV (5.76*eV) 0.0 0.0 0.0 0.0 c c 0.0 false false 0

def material_parameters : MaterialParameters Float where
  energy_unit := "EV"
  mass_unit := "AMU"
  Eb := [0.0, 0.0]
  Es := [2.0, 4.0]
  Ec := [1.0, 1.0]
  Ed := [0.0, 0.0]
  Z := [29.0, 1.0]
  m := [63.54, 1.0008]
  interaction_index := [0, 0]
  surface_binding_model := .PLANAR .TARGET
  bulk_binding_model := .INDIVIDUAL

/-- tests.rs:209-340 `test_distributions`. -/
def test_distributions : IO Unit := do
  let grid : GridOptions Float := {
    energy_min := 0.0
    energy_max := 10.0
    energy_num := 11
    angle_min := 0.0
    angle_max := 90.0
    angle_num := 11
    x_min := 0.0
    y_min := -10.0
    z_min := -10.0
    x_max := 10.0
    y_max := 10.0
    z_max := 10.0
    x_num := 11
    y_num := 11
    z_num := 11 }
  let units : OutputUnits Float := ⟨1.0, 1.0, 1.0⟩
  let p := Particle.new 1.0 1.0 1.5 0.0 0.0 0.0 0.0 0.0 0.0 0.0 0.0 0.0 false false 0
  let d := Distributions.new grid
  let upd (d : Distributions Float) (p : Particle Float) : IO (Distributions Float) :=
    ok "distributions.update" (d.update p units true 1)
  let ead (m : List (List Nat)) (i j : Nat) : Nat := (m.getD i []).getD j 99
  check "x_range" (d.x_range.getD 0 9 == 0.0 && d.x_range.getLastD 0 == 10.0 && d.x_range.length == 11)
  check "y_range" (d.y_range.getD 0 9 == -10.0 && d.y_range.getLastD 0 == 10.0 && d.y_range.length == 11)
  check "z_range" (d.z_range.getD 0 9 == -10.0 && d.z_range.getLastD 0 == 10.0 && d.z_range.length == 11)
  let p := { p with incident := true, stopped := true }
  let d ← upd d p
  check "implanted_x[0]" (d.implanted_x.getD 0 9 == 1)
  let p := { p with pos := { p.pos with x := 10.0 } }
  let d ← upd d p
  check "implanted_x[10]" (d.implanted_x.getD 10 9 == 1)
  let d ← upd d p
  check "implanted_y[5]" (d.implanted_y.getD 5 9 == 3)
  check "implanted_z[5]" (d.implanted_z.getD 5 9 == 3)
  let p := { p with incident := false, stopped := false, left := true, E := 0.0,
                    dir := Vec3.normalize ⟨-0.999, 0.001, 0.0⟩ }
  let d ← upd d p
  check "sputtered_ead[0,0]" (ead d.sputtered_ead 0 0 == 1)
  let d ← upd d { p with E := -0.1 }
  check "sputtered_ead[0,0] again" (ead d.sputtered_ead 0 0 == 1)
  let p := { p with E := 10.0 }
  let d ← upd d p
  check "sputtered_ead[10,0]" (ead d.sputtered_ead 10 0 == 1)
  let p := { p with dir := Vec3.normalize ⟨-0.707, 0.707, 0.0⟩ }
  let d ← upd d p
  check "sputtered_ead[10,5]" (ead d.sputtered_ead 10 5 == 1)
  let p := { p with incident := true, E := 0.0, dir := Vec3.normalize ⟨-0.999, 0.001, 0.0⟩ }
  let d ← upd d p
  check "reflected_ead[0,0]" (ead d.reflected_ead 0 0 == 1)
  let d ← upd d { p with E := -0.1 }
  check "reflected_ead[0,0] again" (ead d.reflected_ead 0 0 == 1)
  let p := { p with E := 10.0 }
  let d ← upd d p
  check "reflected_ead[10,0]" (ead d.reflected_ead 10 0 == 1)
  let p := { p with dir := Vec3.normalize ⟨-0.707, 0.707, 0.0⟩ }
  let d ← upd d p
  check "reflected_ead[10,5]" (ead d.reflected_ead 10 5 == 1)

/-- tests.rs:342-440 `test_spherical_geometry`. -/
def test_spherical_geometry : IO Unit := do
  let s ← ok "Sphere::new" (Sphere.new ext ⟨"ANGSTROM", 1000.0, [0.03, 0.03], 1.0⟩)
  let s := { s with energy_barrier_thickness := 10.0*angstrom }
  let m ← ok "Material::new" (Material.new ext material_parameters (.ok s.toGeom))
  let is (name : String) (f : Float → Float → Float → Res Bool) (x y z : Float) (b : Bool) : IO Unit := do
    let r ← ok name (f x y z)
    check s!"{name} {x} {y} {z}" (r == b)
  is "inside" m.inside (500.0*angstrom) 0.0 0.0 true
  is "inside" m.inside (-1500.0*angstrom) 0.0 0.0 false
  let p := { particle_1 with pos := ⟨500.0*angstrom, 0.0, 0.0⟩, pos_old := ⟨-1500.0*angstrom, 0.0, 0.0⟩ }
  let es ← ok "Es" (m.actual_surface_binding_energy p p.pos.x p.pos.y p.pos.z)
  check "Es" (close (es/eV) 3.0 1e-12)
  is "inside_energy_barrier" m.inside_energy_barrier 0.0 0.0 0.0 true
  is "inside_simulation_boundary" m.inside_simulation_boundary 0.0 0.0 0.0 true
  is "inside" m.inside 0.0 0.0 0.0 true
  let (ux, uy, uz) := (1214.0*angstrom, 123123.0*angstrom, 1239.0*angstrom)
  let r := Float.sqrt (ux*ux + uy*uy + uz*uz)
  let R := 1001.0*angstrom
  let u := (ux/r*R, uy/r*R, uz/r*R)
  is "inside" m.inside u.1 u.2.1 u.2.2 false
  is "inside_energy_barrier" m.inside_energy_barrier u.1 u.2.1 u.2.2 true
  is "inside_simulation_boundary" m.inside_simulation_boundary u.1 u.2.1 u.2.2 true
  for (f, name, a, b) in [(m.inside_energy_barrier, "inside_energy_barrier", -1001.0, -1011.0),
      (m.inside, "inside", -999.0, -1001.0)] do
    is name f (a*angstrom) 0.0 0.0 true
    is name f (b*angstrom) 0.0 0.0 false
    is name f 0.0 (a*angstrom) 0.0 true
    is name f 0.0 (b*angstrom) 0.0 false
    is name f 0.0 0.0 (a*angstrom) true
    is name f 0.0 0.0 (b*angstrom) false
  let c ← ok "closest_point" (m.closest_point (-2000.0*angstrom) 0.0 0.0)
  check "closest_point x" (close c.1 (-1000.0*angstrom) 1e-20)
  let c ← ok "closest_point" (m.closest_point 0.0 (-2000.0*angstrom) 0.0)
  check "closest_point y" (close c.2.1 (-1000.0*angstrom) 1e-20)
  let c ← ok "closest_point" (m.closest_point 0.0 0.0 (-2000.0*angstrom))
  check "closest_point z" (close c.2.2 (-1000.0*angstrom) 1e-20)

def thickness : Float := 1000.0
def depth : Float := 1000.0

def points : List (Float × Float) :=
  [(0.0, -thickness/2.0), (depth, -thickness/2.0), (depth, thickness/2.0), (0.0, thickness/2.0)]

def simulation_boundary_points : List (Float × Float) :=
  [(0.0, 1.1*thickness/2.0), (depth, 1.1*thickness/2.0), (depth, -1.1*thickness/2.0),
    (0.0, -1.1*thickness/2.0), (0.0, 1.1*thickness/2.0)]

def geometry_input_2D : Mesh2DInput Float where
  length_unit := "ANGSTROM"
  points := points
  triangles := [(0, 1, 2), (0, 2, 3)]
  densities := [[0.03, 0.03], [0.03, 0.03]]
  boundary := [0, 1, 2, 3]
  simulation_boundary_points := simulation_boundary_points
  energy_barrier_thickness := 10.0
  electronic_stopping_correction_factors := [1.0, 1.0]

/-- tests.rs:442-543 `test_geometry`.  The tests compare the composition at (0, 0, 0), on the
boundary, where `geo` and the stand-in above may differ on containment; both branches give the
same answer. -/
def test_geometry : IO Unit := do
  let m2 ← ok "Mesh2D::new" (Mesh2D.new ext geometry_input_2D)
  let h2 ← ok "HomogeneousMesh2D::new" (HomogeneousMesh2D.new ext
    ⟨"ANGSTROM", points, simulation_boundary_points, [0.03, 0.03], 1.0⟩)
  let m1 ← ok "Mesh1D::new" (Mesh1D.new ext ⟨"ANGSTROM", [thickness/2.0, thickness/2.0],
    [[0.03, 0.03], [0.03, 0.03]], [1.0, 1.0, 1.0]⟩)
  check "two layers" (m1.layers.length == 2)
  let m0 ← ok "Mesh0D::new" (Mesh0D.new ext ⟨"ANGSTROM", [0.03, 0.03], 1.0⟩)
  let m0 := { m0 with energy_barrier_thickness := 10.0*angstrom }
  for g in [m2.toGeom ext, h2.toGeom ext, m0.toGeom] do
    check "inside" ((← ok "inside" (g.inside (500.0*angstrom) 0.0 0.0)) == true)
    check "outside" ((← ok "inside" (g.inside (-500.0*angstrom) 0.0 0.0)) == false)
  let g2 := m2.toGeom ext
  for g in [h2.toGeom ext, m0.toGeom] do
    check "ck" ((← ok "ck" (g2.get_ck 0.0 0.0 0.0)) == (← ok "ck" (g.get_ck 0.0 0.0 0.0)))
    check "densities" ((← ok "n" (g2.get_densities 0.0 0.0 0.0)) == (← ok "n" (g.get_densities 0.0 0.0 0.0)))
    check "density" ((← ok "n" (g2.get_total_density 0.0 0.0 0.0)) ==
      (← ok "n" (g.get_total_density 0.0 0.0 0.0)))
    check "concentrations" ((← ok "c" (g2.get_concentrations 0.0 0.0 0.0)) ==
      (← ok "c" (g.get_concentrations 0.0 0.0 0.0)))
    let a ← ok "p" (g2.closest_point (-10.0) 0.0 5.0)
    let b ← ok "p" (g.closest_point (-10.0) 0.0 5.0)
    check "closest" (close a.1 b.1 1e-20 && close a.2.1 b.2.1 1e-20 && a.2.2 == b.2.2)
    check "densities outside" ((← ok "n" (g2.get_densities (-10.0) 0.0 5.0)) ==
      (← ok "n" (g.get_densities (-10.0) 0.0 5.0)))
    check "ck outside" ((← ok "ck" (g2.get_ck (-10.0) 0.0 5.0)) == (← ok "ck" (g.get_ck (-10.0) 0.0 5.0)))

/-- tests.rs:545-663 `test_surface_binding_energy_barrier`. -/
def test_surface_binding_energy_barrier : IO Unit := do
  let m2 ← ok "Mesh2D::new" (Mesh2D.new ext geometry_input_2D)
  let m0 ← ok "Mesh0D::new" (Mesh0D.new ext ⟨"ANGSTROM", [0.03, 0.03], 1.0⟩)
  let m0 := { m0 with energy_barrier_thickness := 10.0*angstrom }
  let m2 ← ok "Material::new" (Material.new ext material_parameters (.ok (m2.toGeom ext)))
  let m0 ← ok "Material::new" (Material.new ext material_parameters (.ok m0.toGeom))
  let p := { particle_1 with pos := ⟨500.0*angstrom, 0.0, 0.0⟩, pos_old := ⟨-500.0*angstrom, 0.0, 0.0⟩ }
  for m in [m0, m2] do
    check "inside" (← ok "inside" (m.inside p.pos.x p.pos.y p.pos.z))
    check "outside" (!(← ok "inside" (m.inside p.pos_old.x p.pos_old.y p.pos_old.z)))
    let es ← ok "Es" (m.actual_surface_binding_energy p p.pos.x p.pos.y p.pos.z)
    check "Es" (close (es/eV) 3.0 1e-12)
  let expect (m : Material Float) (name : String) (x y : Float) (b : Bool) : IO Unit := do
    let r ← ok name (m.inside_energy_barrier (x*angstrom) (y*angstrom) 0.0)
    check s!"{name} {x} {y}" (r == b)
  for (x, y, b2, b0) in [(500.0, 0.0, true, true), (-5.0, 0.0, true, true), (-15.0, 0.0, false, false),
      (500.0, 505.0, true, true), (500.0, 515.0, false, true), (500.0, -505.0, true, true),
      (500.0, -515.0, false, true), (1005.0, 0.0, true, true), (1015.0, 0.0, false, true)] do
    expect m2 "barrier 2D" x y b2
    expect m0 "barrier 0D" x y b0
  expect m0 "barrier 0D" (-500.0) 0.0 false
  expect m0 "barrier 0D" (-9.0) 0.0 true
  expect m0 "barrier 0D" (-11.0) 0.0 false

/-- tests.rs:665-687 `test_triangle_contains`, `test_triangle_distance_to`. -/
def test_triangle : IO Unit := do
  let t1 : Triangle2D Float := Triangle2D.new 0.0 2.0 0.0 2.0 0.0 0.0
  check "contains" (t1.contains 0.5 0.5)
  check "contains" (!t1.contains 2.0 2.0)
  let t2 : Triangle2D Float := Triangle2D.new (-2.0) 0.0 0.0 0.0 0.0 (-2.0)
  check "contains" (t2.contains (-0.5) (-0.5))
  check "contains" (!t2.contains 0.5 0.5)
  check "contains" (!t2.contains (-2.0) (-2.0))
  for (x, y, d) in [(-2.0, 0.0, 2.0), (2.0, 2.0, Float.sqrt 2.0), (0.0, 0.0, 0.0), (2.0, 0.0, 0.0),
      (0.0, 2.0, 0.0)] do
    check "distance_to" (close (← ok "distance_to" (t1.distance_to x y)) d 1e-12)

/-- tests.rs:689-759 `test_surface_refraction`. -/
def test_surface_refraction : IO Unit := do
  let Es := 5.76*eV
  let E := 10.0*eV
  let p := particle_1
  let c := 1.0/Float.sqrt 2.0
  let cosx_new := Float.sqrt ((E*c*c + Es)/(E + Es))
  let sinx := Float.sqrt (1.0 - c*c)
  let sinx_new := Float.sqrt (1.0 - cosx_new*cosx_new)
  let cosy_new := c*sinx_new/sinx
  let mag := Float.sqrt (cosx_new*cosx_new + cosy_new*cosy_new)
  let normal : Vec3 Float := ⟨1.0, 0.0, 0.0⟩
  let p := surface_refraction p normal Es
  check "refraction x" (close p.dir.x (cosx_new/mag) 1e-12)
  check "refraction y" (close p.dir.y (cosy_new/mag) 1e-12)
  check "refraction z" (close p.dir.z 0.0 1e-12)
  let cosx_new := Float.sqrt ((p.E*p.dir.x*p.dir.x - Es)/(p.E - Es))
  let sinx := Float.sqrt (1.0 - p.dir.x*p.dir.x)
  let sinx_new := Float.sqrt (1.0 - cosx_new*cosx_new)
  let cosy_new := p.dir.y*sinx_new/sinx
  let p := surface_refraction p normal (-Es)
  check "refraction back x" (close p.dir.x cosx_new 1e-9)
  check "refraction back y" (close p.dir.y cosy_new 1e-9)
  check "refraction back z" (close p.dir.z 0.0 1e-9)

def no_rcpr : Rcpr Float where
  enabled := false
  real_polynomial_roots := fun _ _ => .error "not built"
  find_roots_with_secant_polishing := fun _ _ _ _ _ => rpanic "not built"
  find_roots_with_newton_polishing := fun _ _ _ _ _ _ => rpanic "not built"

/-- An arbitrary sequence of numbers in (0, 1). -/
def tape (seed : Nat) : Tape Float := fun n =>
  Float.ofNat ((seed + 1)*(2654435761 + 40503*n*n + 7919*n) % 1000003 + 1)/1000005.0

/-- tests.rs:761-947 `test_momentum_conservation`, without printing. -/
def test_momentum_conservation : IO Unit := do
  for energy_eV in [1.0, 10.0, 100.0, 1000.0, 1000.0] do
    let theta : Float := 0.974194583091052
    let mp : MaterialParameters Float := {
      energy_unit := "EV"
      mass_unit := "AMU"
      Eb := [0.0]
      Es := [1.0]
      Ec := [1.0]
      Ed := [0.0]
      Z := [3.0]
      m := [6.941]
      interaction_index := [0]
      surface_binding_model := .PLANAR .TARGET
      bulk_binding_model := .INDIVIDUAL }
    let g ← ok "Mesh2D::new" (Mesh2D.new ext { geometry_input_2D with
      densities := [[0.06306], [0.06306]]
      electronic_stopping_correction_factors := [0.0, 0.0]
      energy_barrier_thickness := 0.0 })
    let m ← ok "Material::new" (Material.new ext mp (.ok (g.toGeom ext)))
    for ffp in [true, false] do
      for V in ([.KR_C, .MOLIERE, .ZBL, .LENZ_JENSEN] : List (InteractionPotential Float)) do
        for si in ([.MENDENHALL_WELLER, .GAUSS_MEHLER 10, .GAUSS_LEGENDRE] : List ScatteringIntegral) do
          for seed in [1, 2, 3] do
            let options : Options Float := { Options.default_options true with
              high_energy_free_flight_paths := ffp
              electronic_stopping_mode := .INTERPOLATED
              interaction_potential := [[V]]
              scattering_integral := [[si]]
              root_finder := [[.NEWTON 100 1e-3]] }
            let p1 := Particle.new (183.8*amu) 74.0 (energy_eV*eV) eV eV 0.0 0.0 0.0 0.0 theta.cos
              theta.sin 0.0 false false 0
            let ((p1, gs), t) ← ok "mfp" (determine_mfp_phi_impact_parameter p1 m options (tape seed))
            match gs with
            | [] => check "no collision geometry" false
            | bg :: _ =>
              let ((species_index, p2), _) ← ok "partner" (choose_collision_partner p1 m bg options t)
              let p0 := p1.get_momentum.add p2.get_momentum
              let res ← ok "collision" (calculate_binary_collision no_rcpr p1 p2 bg options)
              let res ← ok "collision" (unwrapA res)
              let eb ← ok "Eb" (m.average_bulk_binding_energy p2.pos.x p2.pos.y p2.pos.z)
              let p2 := { p2 with E := res.recoil_energy - eb }
              let p1 := p1.rotate res.psi bg.phi_azimuthal
              let p2 := p2.rotate (-res.psi_recoil) bg.phi_azimuthal
              let p1 := { p1 with E := p1.E - res.recoil_energy }
              let (p1, _) ← ok "stopping" (subtract_electronic_stopping_energy p1 m 0.0 0.0 p2.Z
                species_index options)
              let p := p1.get_momentum.add p2.get_momentum
              -- tests.rs compares with epsilon 1e-12 in units in which every momentum is below
              -- 1e-18; here the difference is compared with the momentum itself
              let scale := p0.magnitude
              check s!"momentum x {p.x/scale} {p0.x/scale}" (close (p.x/scale) (p0.x/scale) 1e-6)
              check s!"momentum y {p.y/scale} {p0.y/scale}" (close (p.y/scale) (p0.y/scale) 1e-6)
              check s!"momentum z {p.z/scale} {p0.z/scale}" (close (p.z/scale) (p0.z/scale) 1e-6)
              check "not NaN" (!p1.E.isNaN && !p2.E.isNaN)

/-- tests.rs:949-987 `test_rotate`. -/
def test_rotate : IO Unit := do
  let c := Float.cos (pi/4.0)
  let s := Float.sin (pi/4.0)
  let psi : Float := -pi/4.0
  let p := Particle.new 1.0 1.0 1.0 1.0 1.0 0.0 0.0 0.0 0.0 c s 0.0 false false 0
  let p := p.rotate psi 0.0
  check "rotate 1" (close p.dir.x 0.0 1e-12 && close p.dir.y 1.0 1e-12)
  let p := p.rotate (-psi) 0.0
  check "rotate 2" (close p.dir.x c 1e-12 && close p.dir.y s 1e-12)
  let p := p.rotate psi pi
  check "rotate 3" (close p.dir.x 1.0 1e-12 && close p.dir.y 0.0 1e-12)
  check "rotate 4" (close (p.dir.x*p.dir.x + p.dir.y*p.dir.y + p.dir.z*p.dir.z) 1.0 1e-12)

/-- tests.rs:989-1014 `test_particle_advance`. -/
def test_particle_advance : IO Unit := do
  let c := Float.cos (pi/4.0)
  let s := Float.sin (pi/4.0)
  let p := Particle.new 1.0 1.0 1.0 1.0 1.0 0.0 0.0 0.0 0.0 c s 0.0 false false 0
  let (p, d) := p.advance 1.0 0.5
  check "advance x" (close p.pos.x ((1.0 - 0.5)*c) 1e-15)
  check "advance y" (close p.pos.y ((1.0 - 0.5)*s) 1e-15)
  check "advance z" (p.pos.z == 0.0)
  check "advance distance" (d == 0.5)

/-- tests.rs:1016-1106 `test_quadrature`. -/
def test_quadrature : IO Unit := do
  let Za := 1.0
  let Zb := 13.0
  let Ma := 1.008
  let Mb := 26.9815385
  let E0 := 10.0*eV
  let p := angstrom
  let V : InteractionPotential Float := .KR_C
  let x0 ← ok "newton" (newton_rootfinder Za Zb Ma Mb E0 p V 100 1e-12)
  let x0 ← ok "newton" (unwrapA x0)
  let gm ← ok "gm" (gauss_mehler Za Zb Ma Mb E0 p x0 V 10)
  let gl ← ok "gl" (gauss_legendre Za Zb Ma Mb E0 p x0 V)
  let mw ← ok "mw" (mendenhall_weller Za Zb Ma Mb E0 p x0 V)
  let magic ← ok "magic" (magic Za Zb Ma Mb E0 p x0 V)
  check s!"gm {gm} gl {gl}" (close gm gl 0.001)
  check s!"gm {gm} mw {mw}" (close gm mw 0.001)
  check s!"gm {gm} magic {magic}" (close gm magic 0.15)

#eval test_distributions
#eval test_spherical_geometry
#eval test_geometry
#eval test_surface_binding_energy_barrier
#eval test_triangle
#eval test_surface_refraction
#eval test_momentum_conservation
#eval test_rotate
#eval test_particle_advance
#eval test_quadrature

end RustBCA.Conformance
