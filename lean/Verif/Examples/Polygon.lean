import Verif.Props.MeshLift
import Verif.Props.PolygonEntry
import Verif.Props.GeometryLift
import Verif.Examples.Cascade
import Verif.Examples.Geometry

/-!
# C99 at work: the unit square
-/

set_option linter.unusedSimpArgs false
set_option linter.unusedVariables false

namespace RustBCA.PolygonExample
open Scalar Spec
open XReal (fin nan)

/-- The corners of the unit square, counterclockwise. -/
noncomputable def square : List (ℝ × ℝ) := [(0, 0), (1, 0), (1, 1), (0, 1)]

theorem edges {A B : ℝ × ℝ} (h : Edge square A B) : (A = (0, 0) ∧ B = (1, 0)) ∨ (A = (1, 0) ∧ B = (1, 1)) ∨
    (A = (1, 1) ∧ B = (0, 1)) ∨ (A = (0, 1) ∧ B = (0, 0)) := by
  obtain ⟨i, h1, h2⟩ := h
  match i, h1, h2 with
  | 0, h1, h2 =>
    injection h1 with h1; injection h2 with h2
    exact .inl ⟨h1.symm, h2.symm⟩
  | 1, h1, h2 =>
    injection h1 with h1; injection h2 with h2
    exact .inr (.inl ⟨h1.symm, h2.symm⟩)
  | 2, h1, h2 =>
    injection h1 with h1; injection h2 with h2
    exact .inr (.inr (.inl ⟨h1.symm, h2.symm⟩))
  | 3, h1, h2 =>
    injection h1 with h1; injection h2 with h2
    exact .inr (.inr (.inr ⟨h1.symm, h2.symm⟩))
  | n + 4, h1, h2 => cases h1

theorem square_convex : ConvexPolygon square 1 := by
  intro A B X hE hX
  simp only [square, List.mem_cons, List.not_mem_nil, or_false] at hX
  rcases edges hE with ⟨rfl, rfl⟩ | ⟨rfl, rfl⟩ | ⟨rfl, rfl⟩ | ⟨rfl, rfl⟩ <;>
    rcases hX with rfl | rfl | rfl | rfl <;> norm_num [leftOf]

theorem square_corners : TwoCorners square :=
  ⟨(0, 0), by simp [square], (1, 0), by simp [square], by simp⟩

/-- The middle of the square is inside. -/
theorem middle_inside : Geo.polygon_contains square (1/2, 1/2) = true := by
  rw [C99_convex square 1 (.inl rfl) square_convex square_corners]
  intro A B hE _
  rcases edges hE with ⟨rfl, rfl⟩ | ⟨rfl, rfl⟩ | ⟨rfl, rfl⟩ | ⟨rfl, rfl⟩ <;> norm_num [leftOf]

/-- A point left of it is not. -/
theorem left_outside : Geo.polygon_contains square (-1, 1/2) = false := by
  rw [← Bool.not_eq_true, C99_convex square 1 (.inl rfl) square_convex square_corners]
  intro h
  have := h (0, 1) (0, 0) ⟨3, rfl, rfl⟩ (by simp)
  norm_num [leftOf] at this

/-- On the polygon, the first coordinate is not negative. -/
theorem on_square {X : ℝ × ℝ} (h : OnPolygon square X) : 0 ≤ X.1 := by
  obtain ⟨i, A, B, h1, h2, t, t0, t1, hx, hy⟩ := h
  rw [hx]
  rcases edges ⟨i, h1, h2⟩ with ⟨rfl, rfl⟩ | ⟨rfl, rfl⟩ | ⟨rfl, rfl⟩ | ⟨rfl, rfl⟩ <;> simp <;> linarith

/-- A corner is not inside. -/
example : Geo.polygon_contains square (1, 1) = false :=
  C99_boundary square (1, 1) ⟨1, (1, 0), (1, 1), rfl, rfl, 1, zero_le_one, le_rfl, by norm_num, by norm_num⟩

/-- All points left of the square get the answer of one of them. -/
example (P : ℝ × ℝ) (h : P.1 < 0) : Geo.polygon_contains square P = false := by
  rw [← left_outside]
  refine C99_regions square {X | X.1 < 0} ?_ (fun X hX h2 => absurd (on_square h2) (not_le.2 hX)) P (-1, 1/2) h
    (by norm_num)
  exact (convex_halfSpace_lt (f := fun X : ℝ × ℝ => X.1) ⟨fun _ _ => rfl, fun _ _ => rfl⟩ 0).isPreconnected

/-- And without the walk: they are outside the convex hull. -/
example : Geo.polygon_contains square (-1, 1/2) = false := by
  refine C99_hull square _ fun h => ?_
  have : convexHull ℝ {X | X ∈ square} ⊆ {X : ℝ × ℝ | 0 ≤ X.1} := by
    refine convexHull_min ?_ (convex_halfSpace_ge (f := fun X : ℝ × ℝ => X.1) ⟨fun _ _ => rfl, fun _ _ => rfl⟩ 0)
    intro X hX
    simp only [square, List.mem_cons, List.not_mem_nil, or_false, Set.mem_ofPred_eq] at hX
    rcases hX with rfl | rfl | rfl | rfl <;> norm_num
  have := this h
  norm_num at this

/-- Crossing the left edge from outside one comes inside, without using that the square is convex. -/
example : Geo.polygon_contains square (1/2, 1/2) = true := by
  refine C99_crossing square (-1, 1/2) (1/2, 1/2) (0, 1) (0, 0) 3 rfl rfl ⟨by norm_num [leftOf], by norm_num [leftOf]⟩
    ?_ ?_ ?_ left_outside
  · intro h
    have := on_square h
    norm_num at this
  · rintro ⟨i, A, B, h1, h2, t, t0, t1, hx, hy⟩
    rcases edges ⟨i, h1, h2⟩ with ⟨rfl, rfl⟩ | ⟨rfl, rfl⟩ | ⟨rfl, rfl⟩ | ⟨rfl, rfl⟩ <;>
      first | (norm_num at hx; done) | (norm_num at hy; done)
  · rintro j C D hj h1 h2 X ⟨s, s0, s1, hsx, hsy⟩ ⟨t, t0, t1, hx, hy⟩
    match j, h1, h2 with
    | 0, h1, h2 =>
      injection h1 with h1; injection h2 with h2
      subst h1; subst h2
      norm_num at hsx hsy hx hy
      linarith
    | 1, h1, h2 =>
      injection h1 with h1; injection h2 with h2
      subst h1; subst h2
      norm_num at hsx hsy hx hy
      linarith
    | 2, h1, h2 =>
      injection h1 with h1; injection h2 with h2
      subst h1; subst h2
      norm_num at hsx hsy hx hy
      linarith
    | 3, h1, h2 => exact hj rfl
    | n + 4, h1, h2 => cases h1

/-! ## A homogeneous 2D target -/

/-- The unit square as a target with a barrier of thickness 1/10. -/
noncomputable def target : HomogeneousMesh2D ℝ := ⟨square, [(-2, -2), (2, -2), (2, 2), (-2, 2)], 1/10, [1], 1, [1]⟩

noncomputable def parse : String → Option ℝ := fun _ => none

theorem near_zero (y : ℝ) : planeDist (-1, y) (0, y) = 1 := by
  norm_num [planeDist]

/-- The place (−1, 1/2) is outside the barrier; (−1/20, 1/2) is inside it, but not in the material. -/
theorem outside_barrier : (target.toGeom (Geo.ext parse)).inside_energy_barrier (-1) (1/2) 0 = .ok false := by
  obtain ⟨b, hb, h⟩ := C99_homogeneous_barrier parse target square_corners (by norm_num [target]) (-1) (1/2) 0
  rw [hb]
  congr 1
  rw [← Bool.not_eq_true, h]
  rintro (h1 | ⟨X, hX, h1⟩)
  · rw [show target.boundary = square from rfl, left_outside] at h1
    cases h1
  · have h2 := on_square hX
    unfold planeDist at h1
    rw [show target.energy_barrier_thickness = 1/10 from rfl, Real.sqrt_lt' (by norm_num)] at h1
    nlinarith [sq_nonneg (1/2 - X.2)]

example : (target.toGeom (Geo.ext parse)).inside_energy_barrier (-1/20) (1/2) 0 = .ok true := by
  obtain ⟨b, hb, h⟩ := C99_homogeneous_barrier parse target square_corners (by norm_num [target]) (-1/20) (1/2) 0
  rw [hb, h.2]
  refine .inr ⟨(0, 1/2), ⟨3, (0, 1), (0, 0), rfl, rfl, 1/2, by norm_num, by norm_num, by norm_num, by norm_num⟩, ?_⟩
  unfold planeDist
  rw [show target.energy_barrier_thickness = 1/10 from rfl, Real.sqrt_lt' (by norm_num)]
  norm_num

/-- The nearest surface point of (−1, 1/2, 7) is (0, 1/2, 7): the only place of the surface at distance 1. -/
example : ∃ q, (target.toGeom (Geo.ext parse)).closest_point (-1) (1/2) 7 = .ok q ∧ 0 ≤ q.1 := by
  obtain ⟨q, hq, h⟩ := ((C99_closest_point parse (-1) (1/2) 7).1 target square_corners).1 (by
    rw [((C99_queries parse (-1) (1/2) 7).1 target).1, show target.boundary = square from rfl, left_outside])
  exact ⟨q, hq, on_square h.1⟩

/-- The target with special-valued numbers. -/
noncomputable def mat : Material XReal where
  m := [fin 1]
  Z := [fin 1]
  Eb := [fin 0]
  Es := [fin 1]
  Ec := [fin 1]
  Ed := [fin 0]
  interaction_index := [0]
  geometry := target.lift.toGeom (Geo.ext fun _ => none)
  surface_binding_model := .INDIVIDUAL
  bulk_binding_model := .INDIVIDUAL

/-- A particle that moved from (−1, 1/2) to (1/2, 1/2) in one step. -/
noncomputable def entered : Particle ℝ :=
  { CascadeExample.ion with
    pos_old := ⟨-1, 1/2, 0⟩
    pos := ⟨1/2, 1/2, 0⟩
    dir := ⟨1, 0, 0⟩ }

theorem old_outside : mat.inside_energy_barrier (fin (-1)) (fin (1/2)) (fin 0) = .ok false := by
  have h := homogeneous_barrier_fin parse (fun _ => none) target (-1) (1/2)
  exact h.trans outside_barrier

/-- Its direction after the surface is not a number. -/
example : ∃ q, surface_binding_energy entered.lift mat = .ok q ∧ q.dir = ⟨nan, nan, nan⟩ := by
  have hc : mat.closest_point (fin (1/2)) (fin (1/2)) (fin 0) = .ok (fin (1/2), fin (1/2), fin 0) := by
    have hn : Geo.polygon_closest_point target.lift.boundary (fin (1/2), fin (1/2)) =
        some ((fin (1/2), fin (1/2)), true) := closest_inside_fin square (1/2, 1/2) middle_inside
    unfold Material.closest_point
    rw [show mat.geometry = target.lift.toGeom (Geo.ext fun _ => none) from rfl]
    simp only [HomogeneousMesh2D.toGeom, Geo.ext, hn]
  have hb : ∃ b, mat.inside_energy_barrier (fin (1/2)) (fin (1/2)) (fin 0) = .ok b := by
    have h := homogeneous_barrier_fin parse (fun _ => none) target (1/2) (1/2)
    obtain ⟨b, hb, _⟩ := C99_homogeneous_barrier parse target square_corners (by norm_num [target]) (1/2) (1/2) 0
    exact ⟨b, h.trans hb⟩
  obtain ⟨b, hb⟩ := hb
  have hEs : mat.actual_surface_binding_energy entered.lift (fin (-1)) (fin (1/2)) (fin 0) = .ok (fin 0) := rfl
  have hent : ∃ q, surface_entering entered.lift mat (fin 0) = .ok q := by
    unfold surface_entering
    rw [show entered.lift.backreflected = false from rfl]
    rw [if_neg (by simp)]
    simp only [show entered.lift.pos = ⟨fin (1/2), fin (1/2), fin 0⟩ from rfl, hc, bind, Except.bind,
      show mat.surface_binding_model = .INDIVIDUAL from rfl]
    exact ⟨_, rfl⟩
  have hok : ∃ q, surface_binding_energy entered.lift mat = .ok q := by
    obtain ⟨q, hq⟩ := hent
    unfold surface_binding_energy
    simp only [show entered.lift.pos = ⟨fin (1/2), fin (1/2), fin 0⟩ from rfl,
      show entered.lift.pos_old = ⟨fin (-1), fin (1/2), fin 0⟩ from rfl, hEs, hb, old_outside, bind, Except.bind,
      Bool.not_false, Bool.and_false, Bool.and_true, Bool.false_eq_true, if_false]
    cases b
    · exact ⟨_, rfl⟩
    · simp only [if_true, hq]
      exact ⟨_, rfl⟩
  obtain ⟨q, hq⟩ := hok
  refine ⟨q, hq, C99_entry_homogeneous (fun _ => none) target.lift square rfl mat rfl entered.lift q (1/2) (1/2) 0 rfl rfl
    middle_inside old_outside (fun c h => ?_) hq⟩
  cases h

/-- C99, the barrier of a mesh: the point (2, 2) is farther than 1 from the triangle. -/
example : ∃ b, (GeometryExample.mesh.toGeom (Geo.ext parse)).inside_energy_barrier 2 2 0 = .ok b ∧
    (b = true ↔ Geo.polygon_contains GeometryExample.mesh.boundary (2, 2) = true ∨
      ∃ c ∈ GeometryExample.mesh.mesh, ∃ A B C X : ℝ × ℝ, c.triangle = triangle A B C ∧ OnEdges A B C X ∧
        planeDist (2, 2) X < GeometryExample.mesh.energy_barrier_thickness) := by
  refine C99_mesh_barrier parse GeometryExample.mesh 2 2 0 (by simp [GeometryExample.mesh]) ?_
  intro c hc
  simp only [GeometryExample.mesh, List.mem_singleton] at hc
  subst hc
  exact ⟨(0, 0), (1, 0), (0, 1), rfl, by norm_num, by norm_num, by norm_num, GeometryExample.near_enough⟩

/-- C96: the square is a target that is ready for every particle. -/
example (m : Material ℝ) (hm : m.geometry = target.toGeom (Geo.ext parse)) (ht : Tabulated m 1) : ReadyTarget m 1 :=
  C96_homogeneous parse target m 1 hm ht square_corners (by norm_num [target]) rfl rfl
    ⟨by simp [target], by simp [target]⟩

/-! ## C95, C96: the unit triangle as a mesh of one triangle, and a target of two layers -/

noncomputable def corners : List (ℝ × ℝ) := [(0, 0), (1, 0), (0, 1)]

noncomputable def tri : Mesh2D ℝ :=
  ⟨[⟨triangle (0, 0) (1, 0) (0, 1), [1], [1], 1⟩], corners, [(-2, -2), (2, -2), (2, 2), (-2, 2)], 1/10⟩

theorem tri_edges {A B : ℝ × ℝ} (h : Edge corners A B) : (A = (0, 0) ∧ B = (1, 0)) ∨ (A = (1, 0) ∧ B = (0, 1)) ∨
    (A = (0, 1) ∧ B = (0, 0)) := by
  obtain ⟨i, h1, h2⟩ := h
  match i, h1, h2 with
  | 0, h1, h2 =>
    injection h1 with h1; injection h2 with h2
    exact .inl ⟨h1.symm, h2.symm⟩
  | 1, h1, h2 =>
    injection h1 with h1; injection h2 with h2
    exact .inr (.inl ⟨h1.symm, h2.symm⟩)
  | 2, h1, h2 =>
    injection h1 with h1; injection h2 with h2
    exact .inr (.inr ⟨h1.symm, h2.symm⟩)
  | n + 3, h1, h2 => cases h1

theorem tri_convex : ConvexPolygon corners 1 := by
  intro A B X hE hX
  simp only [corners, List.mem_cons, List.not_mem_nil, or_false] at hX
  rcases tri_edges hE with ⟨rfl, rfl⟩ | ⟨rfl, rfl⟩ | ⟨rfl, rfl⟩ <;>
    rcases hX with rfl | rfl | rfl <;> norm_num [leftOf]

theorem tri_corners : TwoCorners corners :=
  ⟨(0, 0), by simp [corners], (1, 0), by simp [corners], by simp⟩

theorem tri_proper : ∀ c ∈ tri.mesh, ProperCell c := by
  intro c hc
  simp only [tri, List.mem_singleton] at hc
  subst hc
  exact ⟨_, _, _, rfl, GeometryExample.unit_triangle⟩

/-- The triangle covers its polygon. -/
theorem tri_cover (X : ℝ × ℝ) (h : Geo.polygon_contains tri.boundary X = true) :
    ∃ c ∈ tri.mesh, ∃ A B C, c.triangle = triangle A B C ∧ InTriangle A B C X := by
  have h := (C99_convex corners 1 (.inl rfl) tri_convex tri_corners X).1 h
  have h1 := h (0, 0) (1, 0) ⟨0, rfl, rfl⟩ (by simp)
  have h2 := h (1, 0) (0, 1) ⟨1, rfl, rfl⟩ (by simp)
  have h3 := h (0, 1) (0, 0) ⟨2, rfl, rfl⟩ (by simp)
  simp only [leftOf] at h1 h2 h3
  refine ⟨_, List.mem_singleton_self _, (0, 0), (1, 0), (0, 1), rfl, 1 - X.1 - X.2, X.1, X.2, ?_, ?_, ?_, ?_, ?_, ?_⟩ <;>
    linarith

/-- C96: it is a target that is ready for every particle. -/
example (m : Material ℝ) (hm : m.geometry = tri.toGeom (Geo.ext parse)) (ht : Tabulated m 1) : ReadyTarget m 1 :=
  C96_mesh2d parse tri m 1 hm ht tri_corners (by simp [tri]) tri_proper tri_cover (by
    intro c hc
    simp only [tri, List.mem_singleton] at hc
    subst hc
    exact ⟨rfl, rfl, by simp, by simp⟩)

/-- C95: and has the same answers over the extended numbers. -/
example (parse' : String → Option XReal) : SameAnswers (tri.toGeom (Geo.ext parse)) (tri.lift.toGeom (Geo.ext parse')) :=
  C95_mesh2d parse parse' tri tri_proper

/-- C96: the target of two layers is ready, too. -/
example : ∃ g, Mesh1D.new GeometryExample.ext GeometryExample.layered = .ok g ∧
    ∀ m : Material ℝ, m.geometry = g.toGeom → Tabulated m 2 → ReadyTarget m 2 := by
  obtain ⟨g, hg⟩ := GeometryExample.layered_built
  refine ⟨g, hg, fun m hm ht => C96_mesh1d _ _ g 1 GeometryExample.metre one_pos hg m 2 hm ht ?_⟩
  intro ds hds
  simp only [GeometryExample.layered, List.mem_cons, List.not_mem_nil, or_false] at hds
  rcases hds with rfl | rfl
  · exact ⟨rfl, by simp, by norm_num⟩
  · exact ⟨rfl, by simp, by norm_num⟩

/-- C68: the start in front of the target of two layers. -/
example : ∃ g, Mesh1D.new GeometryExample.ext GeometryExample.layered = .ok g ∧
    g.toGeom.inside_energy_barrier (-g.top_energy_barrier_thickness/2.0) 0 0 = .ok true ∧
    g.toGeom.inside (-g.top_energy_barrier_thickness/2.0) 0 0 = .ok false := by
  obtain ⟨g, hg⟩ := GeometryExample.layered_built
  refine ⟨g, hg, C68_layered_start _ _ 1 g GeometryExample.metre zero_le_one ?_ hg ?_ 0 0⟩
  · intro d hd
    simp only [GeometryExample.layered, List.mem_cons, List.not_mem_nil, or_false] at hd
    rcases hd with rfl | rfl <;> norm_num
  · intro l hl
    obtain ⟨k, hk, rfl⟩ := List.getElem_of_mem hl
    obtain ⟨-, -, -, -, -, h⟩ := C36_layers _ _ 1 g GeometryExample.metre hg
    obtain ⟨-, ⟨ds, h1, h2⟩, -⟩ := h k _ (List.getElem?_eq_getElem hk)
    have hds := List.mem_of_getElem? h1
    rw [h2]
    simp only [GeometryExample.layered, List.mem_cons, List.not_mem_nil, or_false] at hds
    rcases hds with rfl | rfl <;> simp [convert_densities] <;> norm_num

/-- C39: the distance from a point above a layer. -/
example : (⟨0, 1, [1], [1], 1⟩ : Layer1D ℝ).distance_to (-2) 0 0 ≤ 2 := by
  have h := (C39_layer (⟨0, 1, [1], [1], 1⟩ : Layer1D ℝ) (-2) 0 0).2.1
  norm_num at h
  exact h

end RustBCA.PolygonExample
