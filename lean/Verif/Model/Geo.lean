import Verif.Model.Geometry

/-!
# Polygons (crate `geo` 0.25, as used by geometry.rs:305-380 and 505-617)

The source of `geo` is not part of /repo; this is a translation of the algorithms published with that
version: `Polygon::new`, `Contains<Point> for Polygon`, `ClosestPoint for Polygon`, for polygons without
holes (geometry.rs passes `vec![]` as interiors).
-/

namespace RustBCA
open Scalar
variable {F : Type} [Scalar F]

namespace Geo

/-- `LineString::close`, called by `Polygon::new` (geometry.rs:315, 317): repeats the first point at the end
unless it is there already. -/
def close (points : List (F × F)) : List (F × F) :=
  match points.head?, points.getLast? with
  | some a, some b => if (a.1 ==. b.1) && (a.2 ==. b.2) then points else points ++ [a]
  | _, _ => points

/-- `LineString::lines`: consecutive pairs of points. -/
def lines (ring : List (F × F)) : List ((F × F) × (F × F)) := ring.zip ring.tail

/-- `Kernel::orient2d`: positive if `c` is on the left of the line from `a` to `b`, zero if on the line.  (The
crate `robust` computes the sign of this number exactly.) -/
def orient2d (a b c : F × F) : F := (b.1 - a.1)*(c.2 - a.2) - (b.2 - a.2)*(c.1 - a.1)

/-- `value_in_between`. -/
def value_in_between (value bound_1 bound_2 : F) : Bool :=
  if bound_1 <. bound_2 then (value >=. bound_1) && (value <=. bound_2)
  else (value >=. bound_2) && (value <=. bound_1)

/-- `CoordPos`. -/
inductive CoordPos where
  | OnBoundary
  | Inside
  | Outside
  deriving DecidableEq

/-- `coord_pos_relative_to_ring`, one pass of the loop over the lines: `none` once the point was found on the
boundary, else the winding number so far. -/
def windingStep (coord : F × F) (winding_number : Option Int) (line : (F × F) × (F × F)) : Option Int :=
  match winding_number with
  | none => none
  | some w =>
    let o := orient2d line.1 line.2 coord
    if line.1.2 <=. coord.2 then
      if line.2.2 >=. coord.2 then
        if (o >. 0.0) && !(line.2.2 ==. coord.2) then some (w + 1)
        else if (o ==. 0.0) && value_in_between coord.1 line.1.1 line.2.1 then none
        else some w
      else some w
    else if line.2.2 <=. coord.2 then
      if o <. 0.0 then some (w - 1)
      else if (o ==. 0.0) && value_in_between coord.1 line.1.1 line.2.1 then none
      else some w
    else some w

/-- `coord_pos_relative_to_ring`. -/
def coord_pos_relative_to_ring (coord : F × F) (ring : List (F × F)) : CoordPos :=
  match ring with
  | [] => .Outside
  | [p] => if (coord.1 ==. p.1) && (coord.2 ==. p.2) then .OnBoundary else .Outside
  | ring => match (lines ring).foldl (windingStep coord) (some 0) with
    | none => .OnBoundary
    | some w => if w == 0 then .Outside else .Inside

/-- `Polygon::contains(&Point)` (geometry.rs:347, 351, 545, 616). -/
def polygon_contains (points : List (F × F)) (p : F × F) : Bool :=
  coord_pos_relative_to_ring p (close points) == .Inside

/-- `Closest`: `none` is `Indeterminate`, the flag tells `Intersection` from `SinglePoint`. -/
abbrev Closest (F : Type) := Option ((F × F) × Bool)

/-- `f64::hypot` (with exact arithmetic the square root of the sum of squares; the library function avoids
overflow and double rounding). -/
def hypot (x y : F) : F := sqrt (x*x + y*y)

/-- `Line: Intersects<Coord>`. -/
def line_intersects (line : (F × F) × (F × F)) (p : F × F) : Bool :=
  (orient2d line.1 line.2 p ==. 0.0) && value_in_between p.1 line.1.1 line.2.1 &&
    value_in_between p.2 line.1.2 line.2.2

/-- `ClosestPoint for Line`. -/
def line_closest_point (line : (F × F) × (F × F)) (p : F × F) : Closest F :=
  let dx := line.2.1 - line.1.1
  let dy := line.2.2 - line.1.2
  if hypot dx dy ==. 0.0 then none
  else
    let t := ((p.1 - line.1.1)*dx + (p.2 - line.1.2)*dy)/(dx*dx + dy*dy)
    if t <. 0.0 then some (line.1, false)
    else if t >. 1.0 then some (line.2, false)
    else some ((line.1.1 + t*dx, line.1.2 + t*dy), line_intersects line p)

/-- `Point::euclidean_distance`. -/
def euclidean_distance (a b : F × F) : F := hypot (a.1 - b.1) (a.2 - b.2)

/-- `Closest::best_of_two`. -/
def best_of_two (a b : Closest F) (p : F × F) : Closest F :=
  match a with
  | none => b
  | some (_, true) => a
  | some (left, false) => match b with
    | none => a
    | some (_, true) => b
    | some (right, false) => if euclidean_distance left p <=. euclidean_distance right p then a else b

/-- `closest_of`, one pass of the loop. -/
def closestStep (p : F × F) (best : Closest F) (line : (F × F) × (F × F)) : Closest F :=
  match best with
  | some (_, true) => best
  | _ => best_of_two (line_closest_point line p) best p

/-- `ClosestPoint for Polygon` (geometry.rs:361, 364, 372, 374, 549, 551). -/
def polygon_closest_point (points : List (F × F)) (p : F × F) : Closest F :=
  let ring := close points
  if coord_pos_relative_to_ring p ring == .Outside then
    (lines ring).foldl (closestStep p) none
  else some (p, true)

/-- The external functions with `geo`'s. -/
def ext (parse_f64 : String → Option F) : Ext F where
  parse_f64 := parse_f64
  polygon_contains := polygon_contains
  polygon_closest_point := polygon_closest_point

end Geo
end RustBCA
