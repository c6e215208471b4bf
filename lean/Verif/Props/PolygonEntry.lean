import Verif.Props.Polygon
import Verif.Props.SpecialRefuted
import Verif.Proofs.SpecialTarget
import Verif.Proofs.SpecialFlight

/-!
# C99: entering a 2D target past its energy barrier
-/

set_option linter.unusedVariables false
set_option linter.unusedSimpArgs false

namespace RustBCA
open Spec Scalar
open XReal

/-- A particle that is inside the energy barrier after a step that began outside it, at a place that the geometry
names as its own nearest surface point, is refracted at a surface without normal: its direction is not a number. -/
theorem C99_entry_direction (mat : Material XReal) (p q : Particle XReal) (x y z : ℝ)
    (hpos : p.pos = ⟨fin x, fin y, fin z⟩) (hback : p.backreflected = false)
    (hnow : mat.inside_energy_barrier (fin x) (fin y) (fin z) = .ok true)
    (hold : mat.inside_energy_barrier p.pos_old.x p.pos_old.y p.pos_old.z = .ok false)
    (hclosest : mat.closest_point (fin x) (fin y) (fin z) = .ok (fin x, fin y, fin z))
    (hmodel : ∀ c, mat.surface_binding_model ≠ .ISOTROPIC c) (hq : surface_binding_energy p mat = .ok q) :
    q.dir = ⟨nan, nan, nan⟩ := by
  have hsub : ∀ a : ℝ, fin a - fin a = (fin 0 : XReal) := by intro a; rw [fin_sub, sub_self]
  have hmag : Scalar.sqrt (fin 0*fin 0 + fin 0*fin 0 + fin 0*fin 0 : XReal) = fin 0 := by
    rw [fin_mul, fin_add, fin_add, fin_sqrt (by norm_num)]
    norm_num
  have hent : ∀ Es, ∃ q', surface_entering p mat Es = .ok q' ∧ q'.dir = ⟨nan, nan, nan⟩ := by
    intro Es
    unfold surface_entering
    rw [hpos, hback]
    simp only [Bool.false_eq_true, if_false, hclosest, bind, Except.bind, hsub, hmag, zero_div_zero]
    have key : ∀ P : Particle XReal, (surface_refraction P ⟨nan, nan, nan⟩ Es).dir = ⟨nan, nan, nan⟩ := by
      intro P
      unfold surface_refraction
      simp only [mul_nan]
      have : ∀ a : XReal, a + nan = nan := by intro a; cases a <;> rfl
      simp only [this]
    cases hm : mat.surface_binding_model with
    | ISOTROPIC c => exact absurd hm (hmodel c)
    | TARGET => exact ⟨_, rfl, key p⟩
    | INDIVIDUAL => exact ⟨_, rfl, key p⟩
    | AVERAGE => exact ⟨_, rfl, key p⟩
    | PLANAR c => exact ⟨_, rfl, key p⟩
  unfold surface_binding_energy at hq
  cases hEs : mat.actual_surface_binding_energy p p.pos_old.x p.pos_old.y p.pos_old.z with
  | error e => simp only [hEs, bind, Except.bind] at hq; cases hq
  | ok Es =>
    obtain ⟨q', hq', hd⟩ := hent Es
    rw [hpos] at hq
    simp only [hEs, hnow, hold, bind, Except.bind, Bool.not_false, Bool.not_true, Bool.and_self, Bool.and_false,
      Bool.false_and, Bool.true_and, Bool.false_eq_true, if_true, if_false, hq', pure, Except.pure] at hq
    cases hq
    exact hd

/-! ## Polygons with coordinates that are numbers -/

/-- A point of the plane as a pair of special-valued numbers. -/
def liftPoint (P : ℝ × ℝ) : XReal × XReal := (fin P.1, fin P.2)

theorem eq_lift (a b : ℝ) : (fin a ==. fin b) = (a ==. b) := by
  show decide (a = b) = _
  by_cases hab : a = b
  · rw [decide_eq_true hab]
    exact ((eq_real _ _).2 hab).symm
  · rw [decide_eq_false hab]
    exact ((eq_real_false _ _).2 hab).symm

theorem le_lift (a b : ℝ) : (fin a <=. fin b) = (a <=. b) := by
  show (decide (a < b) || decide (a = b)) = _
  by_cases h : a ≤ b
  · rw [(le_real _ _).2 h]
    rcases h.lt_or_eq with h | h
    · rw [decide_eq_true h]; rfl
    · rw [decide_eq_true h, Bool.or_true]
  · rw [decide_eq_false (fun h2 => h (le_of_lt h2)), decide_eq_false (fun h2 => h (le_of_eq h2))]
    exact (Bool.eq_false_iff.2 fun h2 => h ((le_real _ _).1 h2)).symm

theorem orient2d_fin (A B P : ℝ × ℝ) : Geo.orient2d (liftPoint A) (liftPoint B) (liftPoint P) = fin (Geo.orient2d A B P) := rfl

theorem value_in_between_fin (v a b : ℝ) : Geo.value_in_between (fin v) (fin a) (fin b) = Geo.value_in_between v a b := by
  unfold Geo.value_in_between
  simp only [fin_lt', le_lift]

theorem windingStep_fin (P : ℝ × ℝ) (w : Option ℤ) (l : (ℝ × ℝ) × (ℝ × ℝ)) :
    Geo.windingStep (liftPoint P) w (liftPoint l.1, liftPoint l.2) = Geo.windingStep P w l := by
  cases w with
  | none => rfl
  | some w =>
    have hlit : (0.0 : XReal) = fin 0.0 := fin_lit _ _ _
    simp only [Geo.windingStep, orient2d_fin, hlit]
    simp only [liftPoint, fin_lt', le_lift, eq_lift, value_in_between_fin]

theorem close_fin (pts : List (ℝ × ℝ)) : Geo.close (pts.map liftPoint) = (Geo.close pts).map liftPoint := by
  unfold Geo.close
  rw [List.head?_map, List.getLast?_map]
  cases hh : pts.head? with
  | none => rfl
  | some a =>
    cases hl : pts.getLast? with
    | none => rfl
    | some b =>
      simp only [Option.map_some, liftPoint, eq_lift]
      by_cases hc : ((a.1 ==. b.1) && (a.2 ==. b.2)) = true
      · rw [if_pos hc, if_pos hc]
      · rw [if_neg hc, if_neg hc, List.map_append]
        rfl

theorem lines_fin (r : List (ℝ × ℝ)) :
    Geo.lines (r.map liftPoint) = (Geo.lines r).map fun l => (liftPoint l.1, liftPoint l.2) := by
  unfold Geo.lines
  rw [← List.map_tail, List.zip_map]
  rfl

theorem coord_pos_fin (P : ℝ × ℝ) (ring : List (ℝ × ℝ)) :
    Geo.coord_pos_relative_to_ring (liftPoint P) (ring.map liftPoint) = Geo.coord_pos_relative_to_ring P ring := by
  have hfold : ∀ (ls : List ((ℝ × ℝ) × (ℝ × ℝ))) w,
      (ls.map fun l => (liftPoint l.1, liftPoint l.2)).foldl (Geo.windingStep (liftPoint P)) w =
        ls.foldl (Geo.windingStep P) w := by
    intro ls
    induction ls with
    | nil => intro w; rfl
    | cons l ls ih =>
      intro w
      rw [List.map_cons, List.foldl_cons, List.foldl_cons, windingStep_fin, ih]
  match ring with
  | [] => rfl
  | [p] =>
    simp only [List.map_cons, List.map_nil, Geo.coord_pos_relative_to_ring, liftPoint, eq_lift]
  | a :: b :: r =>
    have h := lines_fin (a :: b :: r)
    simp only [List.map_cons] at h
    simp only [List.map_cons, Geo.coord_pos_relative_to_ring, h]
    have h2 := hfold (Geo.lines (a :: b :: r)) (some 0)
    rw [h2]

theorem contains_fin (pts : List (ℝ × ℝ)) (P : ℝ × ℝ) :
    Geo.polygon_contains (pts.map liftPoint) (liftPoint P) = Geo.polygon_contains pts P := by
  unfold Geo.polygon_contains
  rw [close_fin, coord_pos_fin]

/-- What a query about the nearest point returned, with special-valued coordinates. -/
def liftClosest (c : Geo.Closest ℝ) : Geo.Closest XReal := c.map fun r => (liftPoint r.1, r.2)

theorem hypot_fin (a b : ℝ) : Geo.hypot (fin a) (fin b) = fin (Geo.hypot a b) := by
  unfold Geo.hypot
  rw [fin_mul, fin_mul, fin_add, fin_sqrt (add_nonneg (mul_self_nonneg a) (mul_self_nonneg b)), sqrt_real]

theorem line_closest_fin (A B P : ℝ × ℝ) : Geo.line_closest_point (liftPoint A, liftPoint B) (liftPoint P) =
    liftClosest (Geo.line_closest_point (A, B) P) := by
  have hlit : (0.0 : XReal) = fin 0.0 := fin_lit _ _ _
  have hlit1 : (1.0 : XReal) = fin 1.0 := fin_lit _ _ _
  have hint : Geo.line_intersects (liftPoint A, liftPoint B) (liftPoint P) = Geo.line_intersects (A, B) P := by
    unfold Geo.line_intersects
    simp only [orient2d_fin, hlit, eq_lift]
    simp only [liftPoint, value_in_between_fin]
  by_cases hd : (Geo.hypot (B.1 - A.1) (B.2 - A.2) ==. 0.0) = true
  · have e1 : Geo.line_closest_point (A, B) P = none := by
      unfold Geo.line_closest_point
      dsimp only
      rw [if_pos hd]
    have e2 : Geo.line_closest_point (liftPoint A, liftPoint B) (liftPoint P) = none := by
      unfold Geo.line_closest_point
      simp only [liftPoint, fin_sub, hypot_fin, hlit, eq_lift]
      rw [if_pos hd]
    rw [e1, e2]
    rfl
  · have hne : (B.1 - A.1)*(B.1 - A.1) + (B.2 - A.2)*(B.2 - A.2) ≠ 0 := by
      intro h0
      apply hd
      rw [eq_real]
      unfold Geo.hypot
      rw [h0, sqrt_real, Real.sqrt_zero]
      norm_num
    unfold Geo.line_closest_point
    rw [hint]
    simp only [liftPoint, fin_sub, hypot_fin, hlit, hlit1, eq_lift, fin_mul, fin_add, fin_div hne, fin_lt', le_lift]
    rw [if_neg hd, if_neg hd]
    generalize ((P.1 - A.1)*(B.1 - A.1) + (P.2 - A.2)*(B.2 - A.2))/((B.1 - A.1)*(B.1 - A.1) + (B.2 - A.2)*(B.2 - A.2)) = t
    by_cases h1 : (t <. 0.0) = true
    · rw [if_pos h1, if_pos h1]
      rfl
    · rw [if_neg h1, if_neg h1]
      by_cases h2 : (1.0 <. t) = true
      · rw [if_pos h2, if_pos h2]
        rfl
      · rw [if_neg h2, if_neg h2]
        rfl

theorem best_fin (a b : Geo.Closest ℝ) (P : ℝ × ℝ) : Geo.best_of_two (liftClosest a) (liftClosest b) (liftPoint P) =
    liftClosest (Geo.best_of_two a b P) := by
  match a, b with
  | none, _ => rfl
  | some (_, true), _ => rfl
  | some (_, false), none => rfl
  | some (_, false), some (_, true) => rfl
  | some (l, false), some (r, false) =>
    have hd : ∀ q : ℝ × ℝ, Geo.euclidean_distance (liftPoint q) (liftPoint P) = fin (Geo.euclidean_distance q P) := by
      intro q
      unfold Geo.euclidean_distance liftPoint
      rw [fin_sub, fin_sub, hypot_fin]
    have e : ∀ {G : Type} [Scalar G] (l r P : G × G), Geo.best_of_two (some (l, false)) (some (r, false)) P =
        if (Geo.euclidean_distance l P <=. Geo.euclidean_distance r P) = true then some (l, false)
        else some (r, false) := fun l r P => rfl
    have e1 := e (liftPoint l) (liftPoint r) (liftPoint P)
    rw [hd, hd, le_lift] at e1
    show Geo.best_of_two (some (liftPoint l, false)) (some (liftPoint r, false)) (liftPoint P) = _
    rw [e1, e]
    by_cases h : (Geo.euclidean_distance l P <=. Geo.euclidean_distance r P) = true
    · rw [if_pos h, if_pos h]; rfl
    · rw [if_neg h, if_neg h]; rfl

theorem closest_fin (pts : List (ℝ × ℝ)) (P : ℝ × ℝ) :
    Geo.polygon_closest_point (pts.map liftPoint) (liftPoint P) = liftClosest (Geo.polygon_closest_point pts P) := by
  have e : ∀ {G : Type} [Scalar G] (pts : List (G × G)) (P : G × G), Geo.polygon_closest_point pts P =
      if (Geo.coord_pos_relative_to_ring P (Geo.close pts) == .Outside) = true then
        (Geo.lines (Geo.close pts)).foldl (Geo.closestStep P) none
      else some (P, true) := fun pts P => rfl
  rw [e, e, close_fin, coord_pos_fin, lines_fin]
  by_cases h : (Geo.coord_pos_relative_to_ring P (Geo.close pts) == .Outside) = true
  · rw [if_pos h, if_pos h]
    have : ∀ (ls : List ((ℝ × ℝ) × (ℝ × ℝ))) (b : Geo.Closest ℝ),
        (ls.map fun l => (liftPoint l.1, liftPoint l.2)).foldl (Geo.closestStep (liftPoint P)) (liftClosest b) =
          liftClosest (ls.foldl (Geo.closestStep P) b) := by
      intro ls
      induction ls with
      | nil => intro b; rfl
      | cons l ls ih =>
        intro b
        rw [List.map_cons, List.foldl_cons, List.foldl_cons, ← ih]
        congr 1
        match b with
        | some (_, true) => rfl
        | some (q, false) =>
          show Geo.best_of_two (Geo.line_closest_point (liftPoint l.1, liftPoint l.2) (liftPoint P))
            (liftClosest (some (q, false))) (liftPoint P) = _
          rw [line_closest_fin, best_fin]
          rfl
        | none =>
          show Geo.best_of_two (Geo.line_closest_point (liftPoint l.1, liftPoint l.2) (liftPoint P))
            (liftClosest none) (liftPoint P) = _
          rw [line_closest_fin, best_fin]
          rfl
    exact this _ none
  · rw [if_neg h, if_neg h]
    rfl

/-- The nearest point the polygon query returns for a point inside is the point itself. -/
theorem closest_inside_fin (pts : List (ℝ × ℝ)) (P : ℝ × ℝ) (h : Geo.polygon_contains pts P = true) :
    Geo.polygon_closest_point (pts.map liftPoint) (liftPoint P) = some (liftPoint P, true) := by
  have e : Geo.polygon_closest_point (pts.map liftPoint) (liftPoint P) =
      if (Geo.coord_pos_relative_to_ring (liftPoint P) (Geo.close (pts.map liftPoint)) == .Outside) = true then
        (Geo.lines (Geo.close (pts.map liftPoint))).foldl (Geo.closestStep (liftPoint P)) none
      else some (liftPoint P, true) := rfl
  rw [e, if_neg]
  rw [close_fin, coord_pos_fin, outside_iff]
  rintro ⟨_, h2⟩
  rw [h] at h2
  cases h2

/-- **C99**, entering past the barrier: a particle that comes from outside the energy barrier of a homogeneous 2D
target straight into the material has lost its direction: all three components are not a number — unless the
surface is isotropic or the particle was just reflected back. -/
theorem C99_entry_homogeneous (parse : String → Option XReal) (g : HomogeneousMesh2D XReal) (corners : List (ℝ × ℝ))
    (hg : g.boundary = corners.map liftPoint) (mat : Material XReal)
    (hmat : mat.geometry = g.toGeom (Geo.ext parse)) (p q : Particle XReal) (x y z : ℝ)
    (hpos : p.pos = ⟨fin x, fin y, fin z⟩) (hback : p.backreflected = false)
    (hin : Geo.polygon_contains corners (x, y) = true)
    (hold : mat.inside_energy_barrier p.pos_old.x p.pos_old.y p.pos_old.z = .ok false)
    (hmodel : ∀ c, mat.surface_binding_model ≠ .ISOTROPIC c) (hq : surface_binding_energy p mat = .ok q) :
    q.dir = ⟨nan, nan, nan⟩ := by
  have hc : Geo.polygon_contains g.boundary (fin x, fin y) = true := by
    rw [hg]; exact (contains_fin corners (x, y)).trans hin
  have hn : Geo.polygon_closest_point g.boundary (fin x, fin y) = some ((fin x, fin y), true) := by
    rw [hg]; exact closest_inside_fin corners (x, y) hin
  refine C99_entry_direction mat p q x y z hpos hback ?_ hold ?_ hmodel hq
  · unfold Material.inside_energy_barrier
    rw [hmat]
    have : ∀ ext : Ext XReal, ext.polygon_contains g.boundary (fin x, fin y) = true →
        g.inside_energy_barrier ext (fin x) (fin y) = .ok true := by
      intro ext h
      unfold HomogeneousMesh2D.inside_energy_barrier
      exact if_pos h
    exact this (Geo.ext parse) hc
  · unfold Material.closest_point
    rw [hmat]
    simp only [HomogeneousMesh2D.toGeom, Geo.ext, hn]

/-- The same for a 2D mesh of triangles. -/
theorem C99_entry_mesh (parse : String → Option XReal) (g : Mesh2D XReal) (corners : List (ℝ × ℝ))
    (hg : g.boundary = corners.map liftPoint) (mat : Material XReal)
    (hmat : mat.geometry = g.toGeom (Geo.ext parse)) (p q : Particle XReal) (x y z : ℝ)
    (hpos : p.pos = ⟨fin x, fin y, fin z⟩) (hback : p.backreflected = false)
    (hin : Geo.polygon_contains corners (x, y) = true)
    (hold : mat.inside_energy_barrier p.pos_old.x p.pos_old.y p.pos_old.z = .ok false)
    (hmodel : ∀ c, mat.surface_binding_model ≠ .ISOTROPIC c) (hq : surface_binding_energy p mat = .ok q) :
    q.dir = ⟨nan, nan, nan⟩ := by
  have hc : Geo.polygon_contains g.boundary (fin x, fin y) = true := by
    rw [hg]; exact (contains_fin corners (x, y)).trans hin
  have hn : Geo.polygon_closest_point g.boundary (fin x, fin y) = some ((fin x, fin y), true) := by
    rw [hg]; exact closest_inside_fin corners (x, y) hin
  refine C99_entry_direction mat p q x y z hpos hback ?_ hold ?_ hmodel hq
  · unfold Material.inside_energy_barrier
    rw [hmat]
    have : ∀ ext : Ext XReal, ext.polygon_contains g.boundary (fin x, fin y) = true →
        g.inside_energy_barrier ext (fin x) (fin y) (fin z) = .ok true := by
      intro ext h
      unfold Mesh2D.inside_energy_barrier
      exact if_pos h
    exact this (Geo.ext parse) hc
  · unfold Material.closest_point
    rw [hmat]
    simp only [Mesh2D.toGeom, Geo.ext, hn]

end RustBCA
