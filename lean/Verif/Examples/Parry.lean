import Verif.Props.Parry

/-!
# Non-vacuity of C76, C77

A reference implementation of the shape operations over the reals that meets the contracts, a
tetrahedron, and the two cases of C77 on it (edge 1 metre: right; edge 4 metres: wrong).
-/

namespace RustBCA.ParryExample
open Scalar Spec
open Classical in
/-- Shape operations that do exactly what the contracts say; a mesh is its list of triangles. -/
noncomputable def parry : Parry ℝ where
  ball_contains r p := decide (Real.sqrt (p.1^2 + p.2.1^2 + p.2.2^2) ≤ r)
  ball_distance r p _ := max 0 (Real.sqrt (p.1^2 + p.2.1^2 + p.2.2^2) - r)
  ball_project r p _ := (p.1*(r/Real.sqrt (p.1^2 + p.2.1^2 + p.2.2^2)),
    p.2.1*(r/Real.sqrt (p.1^2 + p.2.1^2 + p.2.2^2)), p.2.2*(r/Real.sqrt (p.1^2 + p.2.1^2 + p.2.2^2)))
  Mesh := List Tri
  Feature := Tri
  trimesh_new ps is := do
    let corner (i : Nat) : Res (ℝ × ℝ × ℝ) := vget ps i
    forFold (fun acc (i : Nat × Nat × Nat) => do
      let a ← corner i.1
      let b ← corner i.2.1
      let c ← corner i.2.2
      pure (acc ++ [(a, b, c)])) is []
  aabb_contains m p := decide (
    ∀ coord ∈ [(fun q : Point => q.1), (fun q => q.2.1), (fun q => q.2.2)],
      (∃ t ∈ m, ∃ v ∈ [t.1, t.2.1, t.2.2], coord v ≤ coord p) ∧
      (∃ t ∈ m, ∃ v ∈ [t.1, t.2.1, t.2.2], coord p ≤ coord v))
  aabb_distance _ _ _ := 0
  trimesh_distance _ _ _ := 0
  trimesh_project _ p _ := p
  trimesh_cast_ray m p _ L _ :=
    if h : ∃ t ∈ m, ∃ s, s ≤ L ∧ Crosses t p s ∧ ∀ t' ∈ m, ∀ s', Crosses t' p s' → s ≤ s'
    then some h.choose else none
  trimesh_is_backface _ t := decide (0 < (normal t).1)

theorem ballContract : BallContract parry :=
  ⟨fun r x y z => by simp [parry], fun r x y z => rfl, fun r x y z _ => rfl⟩

/-- Where a triangle is crossed. -/
theorem crosses_at {t : Tri} {p : Point} {s : ℝ} (h : Crosses t p s) :
    s = (dot (normal t) t.1 - dot (normal t) p)/(normal t).1 := by
  have := onTri_plane h.2.2
  rw [dot_alongX] at this
  rw [eq_div_iff h.2.1]; linarith

theorem meshContract (tris : List Tri) : MeshContract parry tris tris := by
  refine ⟨fun p => by simp [parry], ?_, ?_⟩
  · intro p L f h
    simp only [parry] at h
    split at h
    · rename_i hex
      obtain rfl := Option.some.inj h
      obtain ⟨h1, s, h2, h3, h4⟩ := hex.choose_spec
      exact ⟨_, h1, s, h2, h3, by simp [parry], h4⟩
    · cases h
  · intro p L h t ht s hcr
    simp only [parry] at h
    split at h
    · cases h
    · rename_i hno
      by_contra hle
      have hle := not_lt.1 hle
      obtain ⟨t1, ht1, ⟨s1, hc1⟩, hmin⟩ := exists_least tris (fun t => ∃ s, Crosses t p s)
        (fun t => (dot (normal t) t.1 - dot (normal t) p)/(normal t).1) ⟨t, ht, s, hcr⟩
      refine hno ⟨t1, ht1, s1, ?_, hc1, fun t' ht' s' hc' => ?_⟩
      · have := hmin t ht ⟨s, hcr⟩
        rw [← crosses_at hc1, ← crosses_at hcr] at this
        linarith
      · have := hmin t' ht' ⟨s', hc'⟩
        rwa [← crosses_at hc1, ← crosses_at hc'] at this

/-- The tetrahedron with corners at the origin and at distance `a` on the axes, oriented outwards. -/
def tetrahedron (a : ℝ) : List Tri :=
  [((0, 0, 0), (0, 0, a), (0, a, 0)), ((0, 0, 0), (a, 0, 0), (0, 0, a)),
   ((0, 0, 0), (0, a, 0), (a, 0, 0)), ((a, 0, 0), (0, a, 0), (0, 0, a))]

theorem enclosed_iff {a : ℝ} (ha : 0 < a) (x y z : ℝ) :
    Enclosed (tetrahedron a) (x, y, z) ↔ 0 ≤ x ∧ 0 ≤ y ∧ 0 ≤ z ∧ x + y + z ≤ a := by
  have h2 : 0 < a*a := mul_pos ha ha
  simp only [Enclosed, tetrahedron, List.mem_cons, List.not_mem_nil, or_false, forall_eq_or_imp,
    forall_eq, Behind, dot, normal]
  constructor
  · rintro ⟨h3, h4, h5, h6⟩
    refine ⟨?_, ?_, ?_, ?_⟩ <;> by_contra hh <;> nlinarith [mul_pos h2 (sub_pos.2 (not_le.1 hh))]
  · rintro ⟨h3, h4, h5, h6⟩
    refine ⟨?_, ?_, ?_, ?_⟩
    · nlinarith [mul_nonneg h2.le h3]
    · nlinarith [mul_nonneg h2.le h4]
    · nlinarith [mul_nonneg h2.le h5]
    · nlinarith [mul_nonneg h2.le (sub_nonneg.2 h6)]

theorem strict_iff {a : ℝ} (ha : 0 < a) (x y z : ℝ) :
    StrictlyEnclosed (tetrahedron a) (x, y, z) ↔ 0 < x ∧ 0 < y ∧ 0 < z ∧ x + y + z < a := by
  have h2 : 0 < a*a := mul_pos ha ha
  simp only [StrictlyEnclosed, tetrahedron, List.mem_cons, List.not_mem_nil, or_false,
    forall_eq_or_imp, forall_eq, StrictlyBehind, dot, normal]
  constructor
  · rintro ⟨h3, h4, h5, h6⟩
    refine ⟨?_, ?_, ?_, ?_⟩ <;> by_contra hh <;> nlinarith [mul_nonneg h2.le (sub_nonneg.2 (not_lt.1 hh))]
  · rintro ⟨h3, h4, h5, h6⟩
    refine ⟨?_, ?_, ?_, ?_⟩
    · nlinarith [mul_pos h2 h3]
    · nlinarith [mul_pos h2 h4]
    · nlinarith [mul_pos h2 h5]
    · nlinarith [mul_pos h2 (sub_pos.2 h6)]

theorem convex {a : ℝ} (ha : 0 < a) : ConvexSurface (tetrahedron a) := by
  have h2 : 0 < a*a := mul_pos ha ha
  refine ⟨?_, ?_, a, ?_⟩
  · have key : ∀ t' ∈ tetrahedron a, ∀ v ∈ [t'.1, t'.2.1, t'.2.2], Enclosed (tetrahedron a) v := by
      intro t' ht' v hv
      simp only [tetrahedron, List.mem_cons, List.not_mem_nil, or_false] at ht'
      rcases ht' with rfl | rfl | rfl | rfl <;>
        simp only [List.mem_cons, List.not_mem_nil, or_false] at hv <;>
        rcases hv with rfl | rfl | rfl <;> rw [enclosed_iff ha] <;>
        refine ⟨?_, ?_, ?_, ?_⟩ <;> linarith
    intro t ht t' ht'
    exact ⟨key t' ht' _ (by simp) t ht, key t' ht' _ (by simp) t ht, key t' ht' _ (by simp) t ht⟩
  · rintro ⟨x, y, z⟩ henc ⟨t, ht, hpl⟩
    obtain ⟨h3, h4, h5, h6⟩ := (enclosed_iff ha x y z).1 henc
    refine ⟨t, ht, ?_⟩
    simp only [tetrahedron, List.mem_cons, List.not_mem_nil, or_false] at ht
    have hane := ha.ne'
    rcases ht with rfl | rfl | rfl | rfl
    · have hx : x = 0 := by
        have : a*a*x = 0 := by simp only [dot, normal] at hpl; nlinarith
        rcases mul_eq_zero.1 this with h | h
        · exact absurd h h2.ne'
        · exact h
      subst hx
      refine ⟨1 - z/a - y/a, z/a, y/a, ?_, div_nonneg h5 ha.le, div_nonneg h4 ha.le, by ring, ?_⟩
      · rw [show 1 - z/a - y/a = (a - z - y)/a by field_simp]
        exact div_nonneg (by linarith) ha.le
      · ext <;> simp only <;> field_simp <;> ring
    · have hx : y = 0 := by
        have : a*a*y = 0 := by simp only [dot, normal] at hpl; nlinarith
        rcases mul_eq_zero.1 this with h | h
        · exact absurd h h2.ne'
        · exact h
      subst hx
      refine ⟨1 - x/a - z/a, x/a, z/a, ?_, div_nonneg h3 ha.le, div_nonneg h5 ha.le, by ring, ?_⟩
      · rw [show 1 - x/a - z/a = (a - x - z)/a by field_simp]
        exact div_nonneg (by linarith) ha.le
      · ext <;> simp only <;> field_simp <;> ring
    · have hx : z = 0 := by
        have : a*a*z = 0 := by simp only [dot, normal] at hpl; nlinarith
        rcases mul_eq_zero.1 this with h | h
        · exact absurd h h2.ne'
        · exact h
      subst hx
      refine ⟨1 - y/a - x/a, y/a, x/a, ?_, div_nonneg h4 ha.le, div_nonneg h3 ha.le, by ring, ?_⟩
      · rw [show 1 - y/a - x/a = (a - y - x)/a by field_simp]
        exact div_nonneg (by linarith) ha.le
      · ext <;> simp only <;> field_simp <;> ring
    · have hx : z = a - x - y := by
        have : a*a*(x + y + z - a) = 0 := by simp only [dot, normal] at hpl; nlinarith
        rcases mul_eq_zero.1 this with h | h
        · exact absurd h h2.ne'
        · linarith
      subst hx
      refine ⟨x/a, y/a, (a - x - y)/a, div_nonneg h3 ha.le, div_nonneg h4 ha.le,
        div_nonneg h5 ha.le, ?_, ?_⟩
      · field_simp; ring
      · ext <;> simp only <;> field_simp <;> ring
  · rintro ⟨x, y, z⟩ henc
    obtain ⟨h3, h4, h5, h6⟩ := (enclosed_iff ha x y z).1 henc
    simp only
    constructor <;> linarith

/-- A tetrahedral target of edge `a`. -/
noncomputable def target (a : ℝ) : ParryTriMesh ℝ parry := ⟨[1], [1], 1, 1, tetrahedron a⟩

/-- C77 on a tetrahedron of edge 1: an interior point, a point beside it from which the ray enters
it, and a point from which the ray misses it. -/
example : (target 1).toGeom.inside (1/4) (1/4) (1/4) = .ok true ∧
    (target 1).toGeom.inside (-1/4) (1/4) (1/4) = .ok false ∧
    (target 1).toGeom.inside (3/4) (1/4) (1/4) = .ok false := by
  have hm := meshContract (tetrahedron 1)
  have hc := convex one_pos
  have key := fun x y z => C77_trimesh_inside_partial (target 1) hm hc x y z
  refine ⟨(key _ _ _).1 ?_ ?_, (key _ _ _).2 ?_ (Or.inr ⟨1/2, by norm_num, ?_⟩),
    (key _ _ _).2 ?_ (Or.inl fun s hs => ?_)⟩
  · rw [strict_iff one_pos]; norm_num
  · rw [strict_iff one_pos]; norm_num
  · rw [enclosed_iff one_pos]; norm_num
  · rw [strict_iff one_pos]; norm_num
  · rw [enclosed_iff one_pos]; norm_num
  · rw [enclosed_iff one_pos]
    rintro ⟨-, -, -, h⟩
    linarith

/-- **C77 refuted**: in a tetrahedron of edge 4 metres the point (1, 1/2, 1/2), at least half a metre
from every face, is reported outside. -/
theorem C77_refuted : StrictlyEnclosed (tetrahedron 4) (1, 1/2, 1/2) ∧
    (target 4).toGeom.inside 1 (1/2) (1/2) = .ok false := by
  have h4 : (0:ℝ) < 4 := by norm_num
  have h1 : StrictlyEnclosed (tetrahedron 4) (1, 1/2, 1/2) := by
    rw [strict_iff h4]; norm_num
  refine ⟨h1, C77_one_metre (target 4) (tris := tetrahedron 4) (meshContract _) (convex h4) _ _ _ h1 ?_⟩
  rw [strict_iff h4]; norm_num

/-- C77: the nesting theorem applies. -/
example : Nested (target 1).toGeom :=
  C77_trimesh_nested _ (by norm_num [target]) fun p => le_rfl

/-- C76: a ball of radius 1; its centre region and surface. -/
example : (ParryBall.toGeom parry ⟨[1], [1], 1, 1, 1⟩).inside 1 0 0 = .ok true ∧
    (ParryBall.toGeom parry ⟨[1], [1], 1, 1, 1⟩).inside_energy_barrier 1 0 0 =
      (Sphere.toGeom ⟨[1], [1], 1, 1, 1⟩ : Geom ℝ).inside_energy_barrier 1 0 0 := by
  have h := C76_ball_is_sphere parry ballContract ⟨[1], [1], 1, 1, 1⟩ one_pos 1 0 0
  exact ⟨(h.2.2.2.2.2 (by norm_num)).1, h.2.1⟩

end RustBCA.ParryExample
