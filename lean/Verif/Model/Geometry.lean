import Verif.Model.Particle

/-!
# Geometries (geometry.rs, sphere.rs)

The trait `Geometry` is the record `Geom` of its query functions; each geometry of the code is a
structure with a constructor `new` and a map `toGeom`.  Every query may panic, hence `Res`.

External code that enters as parameters: parsing a float (`str::parse::<f64>`), and the polygon
operations `contains` and `closest_point` of the crate `geo` (`PolygonOps`).
-/

namespace RustBCA
open Scalar

/-- geometry.rs:8-21 trait `Geometry`: the queries the simulation makes. -/
structure Geom (F : Type) where
  get_densities : F → F → F → Res (List F)
  get_ck : F → F → F → Res F
  get_total_density : F → F → F → Res F
  get_concentrations : F → F → F → Res (List F)
  inside : F → F → F → Res Bool
  inside_simulation_boundary : F → F → F → Res Bool
  inside_energy_barrier : F → F → F → Res Bool
  closest_point : F → F → F → Res (F × F × F)

/-- The parts of Rust's standard library and of the crate `geo` used by the geometries.
`closest_point` is `none` for `Closest::Indeterminate`; the two other variants of `Closest`
carry a point and a flag telling whether it is `Closest::Intersection`. -/
structure Ext (F : Type) where
  parse_f64 : String → Option F
  polygon_contains : List (F × F) → F × F → Bool
  polygon_closest_point : List (F × F) → F × F → Option ((F × F) × Bool)

variable {F : Type} [Scalar F]

/-- geometry.rs:52-64 (and the same `match` at 145-156, 291-303, 441-452, sphere.rs:60-72,
input.rs:605-617): the length unit named by a string. -/
def length_unit_of (ext : Ext F) (s : String) : Res F :=
  match s with
  | "MICRON" => .ok (MICRON F)
  | "CM" => .ok (CM F)
  | "MM" => .ok (MM F)
  | "ANGSTROM" => .ok (ANGSTROM F)
  | "NM" => .ok (NM F)
  | "M" => .ok 1.0
  | s => match ext.parse_f64 s with
    | some u => .ok u
    | none => rpanic "Input errror: could nor parse length unit"

/-- geometry.rs:68 `densities`: element/length_unit^3. -/
def convert_densities (length_unit : F) (l : List F) : List F := l.map (· / powi length_unit 3)

/-- geometry.rs:74 `concentrations`. -/
def concentrations_of (densities : List F) : List F :=
  let total_density := fsum densities
  densities.map (· / total_density)

/-- geometry.rs:72 `total_density.powf(-1./3.)/SQRTPI*2.`. -/
def barrier_thickness (total_density : F) : F :=
  powf total_density (-1.0/3.0) / SQRTPI F * 2.0

/-! ## Mesh0D -/

/-- geometry.rs:31-36 `Mesh0DInput`. -/
structure Mesh0DInput (F : Type) where
  length_unit : String
  densities : List F
  electronic_stopping_correction_factor : F

/-- geometry.rs:38-44 `Mesh0D`. -/
structure Mesh0D (F : Type) where
  densities : List F
  concentrations : List F
  electronic_stopping_correction_factor : F
  energy_barrier_thickness : F

namespace Mesh0D

/-- geometry.rs:50-82 `Mesh0D::new`. -/
def new (ext : Ext F) (input : Mesh0DInput F) : Res (Mesh0D F) := do
  let length_unit ← length_unit_of ext input.length_unit
  let densities := convert_densities length_unit input.densities
  let total_density := fsum densities
  pure {
    densities := densities
    concentrations := concentrations_of densities
    electronic_stopping_correction_factor := input.electronic_stopping_correction_factor
    energy_barrier_thickness := barrier_thickness total_density }

/-- geometry.rs:84-110 the queries of `Mesh0D`. -/
def toGeom (g : Mesh0D F) : Geom F where
  get_densities _ _ _ := .ok g.densities
  get_ck _ _ _ := .ok g.electronic_stopping_correction_factor
  get_total_density _ _ _ := .ok (fsum g.densities)
  get_concentrations _ _ _ := .ok g.concentrations
  inside x _ _ := .ok (x >. 0.0)
  inside_simulation_boundary x _ _ := .ok (x >. -10.0*g.energy_barrier_thickness)
  inside_energy_barrier x _ _ := .ok (x >. -g.energy_barrier_thickness)
  closest_point _ y z := .ok (0.0, y, z)

end Mesh0D

/-! ## Mesh1D -/

/-- geometry.rs:664-671 `Layer1D`. -/
structure Layer1D (F : Type) where
  top : F
  bottom : F
  densities : List F
  concentrations : List F
  electronic_stopping_correction_factor : F

namespace Layer1D

/-- geometry.rs:674-685 `Layer1D::new`. -/
def new (top bottom : F) (densities concentrations : List F) (ck : F) : Res (Layer1D F) := do
  rassert (top <. bottom) "Layer cannot have negative thickness."
  pure ⟨top, bottom, densities, concentrations, ck⟩

/-- geometry.rs:689-691 `Layer1D::contains`. -/
def contains (l : Layer1D F) (x _y _z : F) : Bool := (x >. l.top) && (x <=. l.bottom)

/-- geometry.rs:692-700 `Layer1D::distance_to`. -/
def distance_to (l : Layer1D F) (x _y _z : F) : F :=
  let distance_to_top := abs (x - l.top)
  let distance_to_bottom := abs (x - l.bottom)
  if distance_to_top <. distance_to_bottom then distance_to_top else distance_to_bottom

end Layer1D

/-- geometry.rs:113-119 `Mesh1DInput`. -/
structure Mesh1DInput (F : Type) where
  length_unit : String
  layer_thicknesses : List F
  densities : List (List F)
  electronic_stopping_correction_factors : List F

/-- geometry.rs:121-128 `Mesh1D`. -/
structure Mesh1D (F : Type) where
  layers : List (Layer1D F)
  top : F
  bottom : F
  top_energy_barrier_thickness : F
  bottom_energy_barrier_thickness : F

namespace Mesh1D

/-- geometry.rs:170-182, one pass of the layer loop: the state is
(layers, layer_top, layer_bottom). -/
def layerStep (length_unit : F) (s : List (Layer1D F) × F × F) (row : (F × List F) × F) :
    Res (List (Layer1D F) × F × F) := do
  let (layers, layer_top, layer_bottom) := s
  let ((layer_thickness, densities), ck) := row
  let layer_bottom := layer_bottom + layer_thickness*length_unit
  let concentrations := concentrations_of densities
  let layer ← Layer1D.new layer_top layer_bottom densities concentrations ck
  pure (layers ++ [layer], layer_bottom, layer_bottom)

/-- geometry.rs:134-194 `Mesh1D::new`. -/
def new (ext : Ext F) (input : Mesh1DInput F) : Res (Mesh1D F) := do
  let length_unit ← length_unit_of ext input.length_unit
  let densities := input.densities.map (convert_densities length_unit)
  rassert (densities.all fun row => row.length == (densities.headD []).length)
    "Input error: all layer density lists must be the same size."
  rassert (input.layer_thicknesses.length == densities.length)
    "Input error: coordinates and data of unequal length."
  let rows := (input.layer_thicknesses.zip densities).zip
    input.electronic_stopping_correction_factors
  let (layers, _, layer_bottom) ← forFold (layerStep length_unit) rows ([], 0.0, 0.0)
  let first ← vget layers 0
  let last ← vget layers (layers.length - 1)
  pure {
    layers := layers
    top := 0.0
    bottom := layer_bottom
    top_energy_barrier_thickness := barrier_thickness (fsum first.densities)
    bottom_energy_barrier_thickness := barrier_thickness (fsum last.densities) }

/-- geometry.rs:251-253 `Mesh1D::inside`. -/
def inside (g : Mesh1D F) (x : F) : Bool := (x >. g.top) && (x <. g.bottom)

/-- geometry.rs:195-208 the search shared by `get_densities`, `get_ck`, `get_total_density` and
`get_concentrations` (geometry.rs:195-250 repeats it four times, returning a different field of
the layer found). -/
def find_layer (g : Mesh1D F) (x y z : F) : Res (Layer1D F) :=
  if g.inside x then
    match g.layers.find? (fun l => l.contains x y z) with
    | some l => .ok l
    | none => rpanic "Geometry error: method inside() is returning true for points outside all layers. Check geometry."
  else if x <. g.top then vget g.layers 0
  else vget g.layers (g.layers.length - 1)

/-- geometry.rs:254-256 `inside_simulation_boundary`. -/
def inside_simulation_boundary (g : Mesh1D F) (x : F) : Bool :=
  (x >. g.top - 10.0*g.top_energy_barrier_thickness) &&
    (x <. g.bottom + 10.0*g.bottom_energy_barrier_thickness)

/-- geometry.rs:257-259 `inside_energy_barrier`. -/
def inside_energy_barrier (g : Mesh1D F) (x : F) : Bool :=
  (x >. g.top - g.top_energy_barrier_thickness) &&
    (x <. g.bottom + g.bottom_energy_barrier_thickness)

/-- geometry.rs:260-268 `closest_point`. -/
def closest_point (g : Mesh1D F) (x y z : F) : F × F × F :=
  let distance_from_bottom := abs (x - g.bottom)
  let distance_from_top := abs (x - g.top)
  if distance_from_bottom <. distance_from_top then (g.bottom, y, z) else (g.top, y, z)

/-- geometry.rs:195-268 the queries of `Mesh1D`. -/
def toGeom (g : Mesh1D F) : Geom F where
  get_densities x y z := (·.densities) <$> g.find_layer x y z
  get_ck x y z := (·.electronic_stopping_correction_factor) <$> g.find_layer x y z
  get_total_density x y z := (fun l => fsum l.densities) <$> g.find_layer x y z
  get_concentrations x y z := (·.concentrations) <$> g.find_layer x y z
  inside x _ _ := .ok (g.inside x)
  inside_simulation_boundary x _ _ := .ok (g.inside_simulation_boundary x)
  inside_energy_barrier x _ _ := .ok (g.inside_energy_barrier x)
  closest_point x y z := .ok (g.closest_point x y z)

end Mesh1D

/-! ## Triangles and cells -/

/-- geometry.rs:713-722 `Triangle2D`. -/
structure Triangle2D (F : Type) where
  x1 : F
  x2 : F
  x3 : F
  y1 : F
  y2 : F
  y3 : F
  segments : List (F × F × F × F)

namespace Triangle2D

/-- geometry.rs:725-744 `Triangle2D::new`. -/
def new (x1 x2 x3 y1 y2 y3 : F) : Triangle2D F where
  x1 := x1
  x2 := x2
  x3 := x3
  y1 := y1
  y2 := y2
  y3 := y3
  segments := [(x1, y1, x2, y2), (x2, y2, x3, y3), (x3, y3, x1, y1)]

/-- geometry.rs:747-760 `contains`. -/
def contains (t : Triangle2D F) (x y : F) : Bool :=
  let x1 := t.x1
  let x2 := t.x2
  let x3 := t.x3
  let y1 := t.y1
  let y2 := t.y2
  let y3 := t.y3
  let a := ((y2 - y3)*(x - x3) + (x3 - x2)*(y - y3)) / ((y2 - y3)*(x1 - x3) + (x3 - x2)*(y1 - y3))
  let b := ((y3 - y1)*(x - x3) + (x1 - x3)*(y - y3)) / ((y2 - y3)*(x1 - x3) + (x3 - x2)*(y1 - y3))
  let c := 1.0 - a - b
  (0.0 <=. a) && (a <=. 1.0) && (0.0 <=. b) && (b <=. 1.0) && (0.0 <=. c) && (c <=. 1.0)

/-- geometry.rs:763-765 `centroid`. -/
def centroid (t : Triangle2D F) : F × F :=
  ((t.x1 + t.x2 + t.x3)/3.0, (t.y1 + t.y2 + t.y3)/3.0)

/-- geometry.rs:772-787 the distance to one segment, in the body of the loop. -/
def segment_distance (segment : F × F × F × F) (x y : F) : Res F := do
  let (s0, s1, s2, s3) := segment
  let length_2 := (s2 - s0)*(s2 - s0) + (s3 - s1)*(s3 - s1)
  rassert (!(length_2 ==. 0.0)) "Geometry error: mesh contains triangle with zero-length side."
  let u := ((x - s0)*(s2 - s0) + (y - s1)*(s3 - s1))/length_2
  pure (if u <. 0.0 then
      sqrt ((x - s0)*(x - s0) + (y - s1)*(y - s1))
    else if u >. 1.0 then
      sqrt ((x - s2)*(x - s2) + (y - s3)*(y - s3))
    else
      let x_intersect := s0 + u*(s2 - s0)
      let y_intersect := s1 + u*(s3 - s1)
      sqrt ((x - x_intersect)*(x - x_intersect) + (y - y_intersect)*(y - y_intersect)))

/-- geometry.rs:768-794 `distance_to`. -/
def distance_to (t : Triangle2D F) (x y : F) : Res F :=
  forFold (fun distance_to segment => do
    let distance ← segment_distance segment x y
    pure (if distance <. distance_to then distance else distance_to)) t.segments maxVal

/-- geometry.rs:797-800 `distance_to_center`. -/
def distance_to_center (t : Triangle2D F) (x y : F) : F :=
  let centroid := t.centroid
  sqrt ((x - centroid.1)*(x - centroid.1) + (y - centroid.2)*(y - centroid.2))

end Triangle2D

/-- geometry.rs:621-628 `Cell2D`. -/
structure Cell2D (F : Type) where
  triangle : Triangle2D F
  densities : List F
  concentrations : List F
  electronic_stopping_correction_factor : F

/-- geometry.rs:642-645 `Cell2D::contains`. -/
def Cell2D.contains (c : Cell2D F) (x y _z : F) : Bool := c.triangle.contains x y

/-- geometry.rs:648-650 `Cell2D::distance_to`. -/
def Cell2D.distance_to (c : Cell2D F) (x y _z : F) : Res F := c.triangle.distance_to x y

/-! ## Mesh2D -/

/-- geometry.rs:383-393 `Mesh2DInput`. -/
structure Mesh2DInput (F : Type) where
  length_unit : String
  triangles : List (Nat × Nat × Nat)
  points : List (F × F)
  boundary : List Nat
  simulation_boundary_points : List (F × F)
  densities : List (List F)
  electronic_stopping_correction_factors : List F
  energy_barrier_thickness : F

/-- geometry.rs:395-402 `Mesh2D`; a polygon is its list of corner points. -/
structure Mesh2D (F : Type) where
  mesh : List (Cell2D F)
  boundary : List (F × F)
  simulation_boundary : List (F × F)
  energy_barrier_thickness : F

namespace Mesh2D

/-- geometry.rs:409-415 one pass of the loop of `nearest_to`; the state is (min_distance, index). -/
def nearestStep (x y z : F) (s : F × Nat) (ic : Cell2D F × Nat) : Res (F × Nat) := do
  let (min_distance, index) := s
  let (cell, cell_index) := ic
  let distance_to ← cell.distance_to x y z
  pure (if distance_to <. min_distance then (distance_to, cell_index) else (min_distance, index))

/-- geometry.rs:406-420 `nearest_to`. -/
def nearest_to (g : Mesh2D F) (x y z : F) : Res (Cell2D F) := do
  let (_, index) ← forFold (nearestStep x y z) g.mesh.zipIdx (maxVal, 0)
  vget g.mesh index

/-- geometry.rs:468-490 one pass of the cell loop. -/
def cellStep (length_unit : F) (points : List (F × F)) (cells : List (Cell2D F))
    (row : ((Nat × Nat × Nat) × List F) × F) : Res (List (Cell2D F)) := do
  let ((triangle, densities), ck) := row
  let p1 ← vget points triangle.1
  let p2 ← vget points triangle.2.1
  let p3 ← vget points triangle.2.2
  let concentrations := concentrations_of densities
  pure (cells ++ [{
    triangle := Triangle2D.new (p1.1*length_unit) (p2.1*length_unit) (p3.1*length_unit)
      (p1.2*length_unit) (p2.2*length_unit) (p3.2*length_unit)
    densities := densities
    concentrations := concentrations
    electronic_stopping_correction_factor := ck }])

/-- geometry.rs:428-531 `Mesh2D::new`. -/
def new (ext : Ext F) (input : Mesh2DInput F) : Res (Mesh2D F) := do
  let length_unit ← length_unit_of ext input.length_unit
  let densities := input.densities.map (convert_densities length_unit)
  rassert (densities.all fun row => row.length == (densities.headD []).length)
    "Input error: all triangle density lists must be the same size."
  rassert (input.triangles.length == densities.length)
    "Input error: coordinates and data of unequal length."
  let rows := (input.triangles.zip densities).zip input.electronic_stopping_correction_factors
  let cells ← forFold (cellStep length_unit input.points) rows []
  let boundary ← forFold (fun acc index => do
    let p ← vget input.points index
    pure (acc ++ [(p.1*length_unit, p.2*length_unit)])) input.boundary []
  pure {
    mesh := cells
    boundary := boundary
    simulation_boundary :=
      input.simulation_boundary_points.map fun p => (p.1*length_unit, p.2*length_unit)
    energy_barrier_thickness := input.energy_barrier_thickness*length_unit }

/-- geometry.rs:615-617 `inside`. -/
def inside (g : Mesh2D F) (ext : Ext F) (x y : F) : Bool := ext.polygon_contains g.boundary (x, y)

/-- geometry.rs:559-612 the search shared by the four getters (repeated four times in the code,
returning a different field of the cell found). -/
def find_cell (g : Mesh2D F) (ext : Ext F) (x y z : F) : Res (Cell2D F) :=
  if g.inside ext x y then
    match g.mesh.find? (fun c => c.contains x y z) with
    | some c => .ok c
    | none => rpanic "Geometry error: point not found in any cell of the mesh."
  else g.nearest_to x y z

/-- geometry.rs:534-542 `inside_energy_barrier`. -/
def inside_energy_barrier (g : Mesh2D F) (ext : Ext F) (x y z : F) : Res Bool :=
  if g.inside ext x y then .ok true
  else do
    let nearest_cell ← g.nearest_to x y z
    let distance ← nearest_cell.distance_to x y z
    pure (distance <. g.energy_barrier_thickness)

/-- geometry.rs:534-617 the queries of `Mesh2D`. -/
def toGeom (g : Mesh2D F) (ext : Ext F) : Geom F where
  get_densities x y z := (·.densities) <$> g.find_cell ext x y z
  get_ck x y z := (·.electronic_stopping_correction_factor) <$> g.find_cell ext x y z
  get_total_density x y z := (fun c => fsum c.densities) <$> g.find_cell ext x y z
  get_concentrations x y z := (·.concentrations) <$> g.find_cell ext x y z
  inside x y _ := .ok (g.inside ext x y)
  inside_simulation_boundary x y _ := .ok (ext.polygon_contains g.simulation_boundary (x, y))
  inside_energy_barrier x y z := g.inside_energy_barrier ext x y z
  closest_point x y z := match ext.polygon_closest_point g.boundary (x, y) with
    | some (p, _) => .ok (p.1, p.2, z)
    | none => rpanic "Geometry error: closest point routine failed to find single closest point"

end Mesh2D

/-! ## HomogeneousMesh2D -/

/-- geometry.rs:268-275 `HomogeneousMesh2DInput`. -/
structure HomogeneousMesh2DInput (F : Type) where
  length_unit : String
  points : List (F × F)
  simulation_boundary_points : List (F × F)
  densities : List F
  electronic_stopping_correction_factor : F

/-- geometry.rs:277-285 `HomogeneousMesh2D`. -/
structure HomogeneousMesh2D (F : Type) where
  boundary : List (F × F)
  simulation_boundary : List (F × F)
  energy_barrier_thickness : F
  densities : List F
  electronic_stopping_correction_factor : F
  concentrations : List F

namespace HomogeneousMesh2D

/-- geometry.rs:291-329 `HomogeneousMesh2D::new`. -/
def new (ext : Ext F) (input : HomogeneousMesh2DInput F) : Res (HomogeneousMesh2D F) := do
  let length_unit ← length_unit_of ext input.length_unit
  let densities := convert_densities length_unit input.densities
  let total_density := fsum densities
  pure {
    boundary := input.points.map fun p => (p.1*length_unit, p.2*length_unit)
    simulation_boundary :=
      input.simulation_boundary_points.map fun p => (p.1*length_unit, p.2*length_unit)
    energy_barrier_thickness := barrier_thickness total_density
    densities := densities
    electronic_stopping_correction_factor := input.electronic_stopping_correction_factor
    concentrations := concentrations_of densities }

/-- geometry.rs:354-367 `inside_energy_barrier`. -/
def inside_energy_barrier (g : HomogeneousMesh2D F) (ext : Ext F) (x y : F) : Res Bool :=
  if ext.polygon_contains g.boundary (x, y) then .ok true
  else match ext.polygon_closest_point g.boundary (x, y) with
    | some (p, false) =>
      let distance := sqrt (powf (x - p.1) 2.0 + powf (y - p.2) 2.0)
      .ok (distance <. g.energy_barrier_thickness)
    | some (_, true) => .ok true
    | none => rpanic "Geometry error: closest point routine failed to find single closest point"

/-- geometry.rs:331-380 the queries of `HomogeneousMesh2D`. -/
def toGeom (g : HomogeneousMesh2D F) (ext : Ext F) : Geom F where
  get_densities _ _ _ := .ok g.densities
  get_ck _ _ _ := .ok g.electronic_stopping_correction_factor
  get_total_density _ _ _ := .ok (fsum g.densities)
  get_concentrations _ _ _ := .ok g.concentrations
  inside x y _ := .ok (ext.polygon_contains g.boundary (x, y))
  inside_simulation_boundary x y _ := .ok (ext.polygon_contains g.simulation_boundary (x, y))
  inside_energy_barrier x y _ := g.inside_energy_barrier ext x y
  closest_point x y z := match ext.polygon_closest_point g.boundary (x, y) with
    | some (p, _) => .ok (p.1, p.2, z)
    | none => rpanic "Geometry error: closest point routine failed to find single closest point"

end HomogeneousMesh2D

/-! ## Sphere -/

/-- sphere.rs:31-37 `SphereInput`. -/
structure SphereInput (F : Type) where
  length_unit : String
  radius : F
  densities : List F
  electronic_stopping_correction_factor : F

/-- sphere.rs:39-46 `Sphere`. -/
structure Sphere (F : Type) where
  densities : List F
  concentrations : List F
  radius : F
  electronic_stopping_correction_factor : F
  energy_barrier_thickness : F

namespace Sphere

/-- sphere.rs:56-86 `Sphere::new`. -/
def new (ext : Ext F) (input : SphereInput F) : Res (Sphere F) := do
  let length_unit ← length_unit_of ext input.length_unit
  let densities := convert_densities length_unit input.densities
  let total_density := fsum densities
  pure {
    densities := densities
    concentrations := concentrations_of densities
    radius := input.radius*length_unit
    electronic_stopping_correction_factor := input.electronic_stopping_correction_factor
    energy_barrier_thickness := barrier_thickness total_density }

/-- sphere.rs:101 the distance from the centre. -/
def rad (x y z : F) : F := sqrt (powi x 2 + powi y 2 + powi z 2)

/-- sphere.rs:88-122 the queries of `Sphere`. -/
def toGeom (g : Sphere F) : Geom F where
  get_densities _ _ _ := .ok g.densities
  get_ck _ _ _ := .ok g.electronic_stopping_correction_factor
  get_total_density _ _ _ := .ok (fsum g.densities)
  get_concentrations _ _ _ := .ok g.concentrations
  inside x y z := .ok (rad x y z <. g.radius)
  inside_simulation_boundary x y z :=
    .ok (rad x y z <. 10.0*g.energy_barrier_thickness + g.radius)
  inside_energy_barrier x y z := .ok (rad x y z <. g.energy_barrier_thickness + g.radius)
  closest_point x y z :=
    let r := rad x y z
    let R := g.radius
    let ux := x/r
    let uy := y/r
    let uz := z/r
    .ok (ux*R, uy*R, uz*R)

end Sphere

end RustBCA
