import Verif.Spec.Parry
import Verif.Props.Meshes

/-!
# C76, C77: ball and triangle-mesh targets
-/

set_option linter.unusedSectionVars false
set_option linter.unusedSimpArgs false
set_option linter.unusedVariables false

namespace RustBCA
open Scalar Spec

/-! ## C76: BALL is SPHERE -/

/-- The sphere described by the same numbers. -/
def asSphere {F : Type} (g : ParryBall F) : Sphere F :=
  ⟨g.densities, g.concentrations, g.radius, g.electronic_stopping_correction_factor,
    g.energy_barrier_thickness⟩

/-- **C76** (construction) BALL and SPHERE inputs with the same entries give the same target data,
or fail alike. -/
theorem C76_same_construction {F : Type} [Scalar F] (ext : Ext F) (unit : String) (r ck : F)
    (ds : List F) :
    Sphere.new ext ⟨unit, r, ds, ck⟩ = asSphere <$> ParryBall.new ext ⟨unit, r, ds, ck⟩ := by
  unfold Sphere.new ParryBall.new
  cases length_unit_of ext unit <;> rfl

theorem rad_real (x y z : ℝ) : Sphere.rad x y z = Real.sqrt (x^2 + y^2 + z^2) := by
  unfold Sphere.rad
  simp only [powi_real, sqrt_real]
  rw [show (2:ℤ) = ((2:ℕ):ℤ) from rfl, zpow_natCast, zpow_natCast, zpow_natCast]

/-- **C76** BALL and SPHERE are the same target: same composition everywhere, same energy barrier
and simulation volume, same nearest surface point except at the centre, and same inside except
exactly on the surface, which belongs to BALL and not to SPHERE. -/
theorem C76_ball_is_sphere (parry : Parry ℝ) (hp : BallContract parry) (g : ParryBall ℝ)
    (hb : 0 < g.energy_barrier_thickness) (x y z : ℝ) :
    (∀ ds cs ck, AnswersFrom (g.toGeom parry) x y z ds cs ck ↔
      AnswersFrom (asSphere g).toGeom x y z ds cs ck) ∧
    (g.toGeom parry).inside_energy_barrier x y z =
      (asSphere g).toGeom.inside_energy_barrier x y z ∧
    (g.toGeom parry).inside_simulation_boundary x y z =
      (asSphere g).toGeom.inside_simulation_boundary x y z ∧
    (x^2 + y^2 + z^2 ≠ 0 →
      (g.toGeom parry).closest_point x y z = (asSphere g).toGeom.closest_point x y z) ∧
    (Real.sqrt (x^2 + y^2 + z^2) ≠ g.radius →
      (g.toGeom parry).inside x y z = (asSphere g).toGeom.inside x y z) ∧
    (Real.sqrt (x^2 + y^2 + z^2) = g.radius →
      (g.toGeom parry).inside x y z = .ok true ∧ (asSphere g).toGeom.inside x y z = .ok false) := by
  have key : ∀ c : ℝ, 0 < c → ((parry.ball_distance g.radius (x, y, z) true <. c) =
      (Sphere.rad x y z <. c + g.radius)) := by
    intro c hc
    rw [Bool.eq_iff_iff, lt_real, lt_real, hp.distance, rad_real, max_lt_iff]
    constructor
    · rintro ⟨-, h⟩; linarith
    · intro h; exact ⟨hc, by linarith⟩
  refine ⟨fun _ _ _ => Iff.rfl, ?_, ?_, ?_, ?_, ?_⟩
  · show Except.ok _ = Except.ok _
    rw [key _ hb]; rfl
  · show Except.ok _ = Except.ok _
    rw [key _ (by norm_num; exact hb)]; rfl
  · intro hne
    show Except.ok _ = Except.ok _
    rw [hp.project _ _ _ _ hne]
    simp only [asSphere, rad_real]
    congr 1
    ext <;> simp only <;> ring
  · intro hne
    show Except.ok _ = Except.ok _
    congr 1
    rw [Bool.eq_iff_iff, hp.contains, lt_real, rad_real]
    exact ⟨fun h => lt_of_le_of_ne h hne, le_of_lt⟩
  · intro he
    refine ⟨?_, ?_⟩
    · show Except.ok _ = Except.ok _
      rw [(hp.contains _ _ _ _).2 he.le]
    · show Except.ok _ = Except.ok _
      congr 1
      rw [lt_real_false, rad_real, he]
      exact le_rfl

/-! ## C77: nested regions of a triangle mesh, and its inside -/

/-- **C77** (nesting) If the distance to the bounding box never exceeds the distance to the mesh (the
mesh lies in its box) and the barrier has non-negative thickness, the regions of a triangle-mesh
target are nested. -/
theorem C77_trimesh_nested {parry : Parry ℝ} (g : ParryTriMesh ℝ parry)
    (hb : 0 ≤ g.energy_barrier_thickness)
    (hbox : ∀ p, parry.aabb_distance g.trimesh p true ≤ parry.trimesh_distance g.trimesh p true) :
    Nested g.toGeom := by
  intro x y z
  constructor
  · intro h
    have h : inside_trimesh parry g.trimesh x y z = true := Except.ok.inj h
    simp only [ParryTriMesh.toGeom, h, if_true]
  · intro h
    cases hi : inside_trimesh parry g.trimesh x y z with
    | true => simp only [ParryTriMesh.toGeom, hi, if_true]
    | false =>
      simp only [ParryTriMesh.toGeom, hi, Bool.false_eq_true, if_false] at h ⊢
      have h := (lt_real _ _).1 (Except.ok.inj h)
      congr 1
      rw [lt_real]
      have := hbox (x, y, z)
      norm_num
      linarith

theorem dot_alongX (n p : Point) (s : ℝ) : dot n (alongX p s) = dot n p + s*n.1 := by
  simp only [dot, alongX]; ring

/-- A point of a triangle lies in its plane. -/
theorem onTri_plane {t : Tri} {q : Point} (h : OnTri t q) :
    dot (normal t) q = dot (normal t) t.1 := by
  obtain ⟨a, b, c, -, -, -, hs, rfl⟩ := h
  obtain ⟨⟨x1, y1, z1⟩, ⟨x2, y2, z2⟩, ⟨x3, y3, z3⟩⟩ := t
  obtain rfl : a = 1 - b - c := by linarith
  simp only [dot, normal]; ring

/-- Triangles of a convex surface lie in the body. -/
theorem onTri_enclosed {tris : List Tri} (hc : ConvexSurface tris) {t' : Tri} (ht' : t' ∈ tris)
    {q : Point} (h : OnTri t' q) : Enclosed tris q := by
  intro t ht
  obtain ⟨a, b, c, ha, hb, hcc, hs, rfl⟩ := h
  obtain ⟨h1, h2, h3⟩ := hc.outward t ht t' ht'
  unfold Behind at *
  generalize normal t = n at *
  generalize dot n t.1 = d at *
  obtain ⟨⟨x1, y1, z1⟩, ⟨x2, y2, z2⟩, ⟨x3, y3, z3⟩⟩ := t'
  simp only [dot] at *
  have e : n.1*(a*x1 + b*x2 + c*x3) + n.2.1*(a*y1 + b*y2 + c*y3) + n.2.2*(a*z1 + b*z2 + c*z3)
      = a*(n.1*x1 + n.2.1*y1 + n.2.2*z1) + b*(n.1*x2 + n.2.1*y2 + n.2.2*z2)
        + c*(n.1*x3 + n.2.1*y3 + n.2.2*z3) := by ring
  rw [e]
  have hd : d = a*d + b*d + c*d := by rw [← add_mul, ← add_mul, hs, one_mul]
  rw [hd]
  have := mul_le_mul_of_nonneg_left h1 ha
  have := mul_le_mul_of_nonneg_left h2 hb
  have := mul_le_mul_of_nonneg_left h3 hcc
  linarith

/-- Among finitely many bounds the least one. -/
theorem exists_least {α : Type} (l : List α) (P : α → Prop) (f : α → ℝ) (h : ∃ a ∈ l, P a) :
    ∃ a ∈ l, P a ∧ ∀ b ∈ l, P b → f a ≤ f b := by
  classical
  induction l with
  | nil => obtain ⟨a, ha, -⟩ := h; simp at ha
  | cons x l ih =>
    by_cases hl : ∃ a ∈ l, P a
    · obtain ⟨a, ha, hPa, hmin⟩ := ih hl
      by_cases hx : P x ∧ f x ≤ f a
      · refine ⟨x, by simp, hx.1, fun b hb hPb => ?_⟩
        rcases List.mem_cons.1 hb with rfl | hb
        · exact le_rfl
        · exact hx.2.trans (hmin b hb hPb)
      · refine ⟨a, by simp [ha], hPa, fun b hb hPb => ?_⟩
        rcases List.mem_cons.1 hb with rfl | hb
        · by_contra hcon
          exact hx ⟨hPb, (not_le.1 hcon).le⟩
        · exact hmin b hb hPb
    · obtain ⟨a, ha, hPa⟩ := h
      rcases List.mem_cons.1 ha with rfl | ha
      · refine ⟨a, by simp, hPa, fun b hb hPb => ?_⟩
        rcases List.mem_cons.1 hb with rfl | hb
        · exact le_rfl
        · exact absurd ⟨b, hb, hPb⟩ hl
      · exact absurd ⟨a, ha, hPa⟩ hl

/-- From a point of the body, going in direction `sgn` along x, one reaches the surface: there is a
point of the body ahead that lies in the plane of one of the triangles whose normal points ahead. -/
theorem exit_point {tris : List Tri} (hc : ConvexSurface tris) {p : Point}
    (hp : Enclosed tris p) (sgn : ℝ) (hsgn : sgn = 1 ∨ sgn = -1) :
    ∃ s, 0 ≤ s ∧ Enclosed tris (alongX p (sgn*s)) ∧
      ∃ t ∈ tris, 0 < sgn*(normal t).1 ∧
        dot (normal t) (alongX p (sgn*s)) = dot (normal t) t.1 := by
  obtain ⟨B, hB⟩ := hc.bounded
  have hex : ∃ t ∈ tris, 0 < sgn*(normal t).1 := by
    by_contra hno
    have hno : ∀ t ∈ tris, sgn*(normal t).1 ≤ 0 := by
      intro t ht
      by_contra hh
      exact hno ⟨t, ht, not_le.1 hh⟩
    have hall : ∀ s, 0 ≤ s → Enclosed tris (alongX p (sgn*s)) := by
      intro s hs t ht
      have h1 := hp t ht
      unfold Behind at *
      rw [dot_alongX]
      have := mul_nonneg hs (neg_nonneg.2 (hno t ht))
      nlinarith
    have hB0 := hB p hp
    have h1 := hB _ (hall (2*|B| + 1) (by positivity))
    simp only [alongX] at h1
    have hab := neg_abs_le B
    have hab' := le_abs_self B
    rcases hsgn with rfl | rfl
    · linarith [h1.2, hB0.1]
    · linarith [h1.1, hB0.2]
  obtain ⟨t, ht, hn, hmin⟩ := exists_least tris (fun t => 0 < sgn*(normal t).1)
    (fun t => (dot (normal t) t.1 - dot (normal t) p)/(sgn*(normal t).1)) hex
  refine ⟨(dot (normal t) t.1 - dot (normal t) p)/(sgn*(normal t).1),
    div_nonneg (sub_nonneg.2 (hp t ht)) hn.le, ?_, t, ht, hn, ?_⟩
  · intro t' ht'
    unfold Behind
    rw [dot_alongX]
    by_cases hn' : 0 < sgn*(normal t').1
    · have := hmin t' ht' hn'
      rw [le_div_iff₀ hn'] at this
      nlinarith
    · have h1 := hp t' ht'
      unfold Behind at h1
      have h2 : 0 ≤ (dot (normal t) t.1 - dot (normal t) p)/(sgn*(normal t).1) :=
        div_nonneg (sub_nonneg.2 (hp t ht)) hn.le
      have := mul_nonneg h2 (neg_nonneg.2 (not_lt.1 hn'))
      nlinarith
  · rw [dot_alongX]
    have : sgn*((dot (normal t) t.1 - dot (normal t) p)/(sgn*(normal t).1))*(normal t).1
        = dot (normal t) t.1 - dot (normal t) p := by
      rw [show sgn*((dot (normal t) t.1 - dot (normal t) p)/(sgn*(normal t).1))*(normal t).1
        = ((dot (normal t) t.1 - dot (normal t) p)/(sgn*(normal t).1))*(sgn*(normal t).1) by ring]
      exact div_mul_cancel₀ _ hn.ne'
    linarith

/-- Going ahead from a point strictly inside one crosses a triangle, from its inner side. -/
theorem exit_crossing {tris : List Tri} (hc : ConvexSurface tris) {p : Point}
    (hp : StrictlyEnclosed tris p) :
    ∃ t ∈ tris, ∃ s, 0 < s ∧ Crosses t p s ∧ ∃ t' ∈ tris,
      dot (normal t') (alongX p s) = dot (normal t') t'.1 := by
  obtain ⟨s, hs, henc, t0, ht0, hn0, hpl⟩ := exit_point hc (fun t ht => (hp t ht).le) 1 (Or.inl rfl)
  rw [one_mul] at henc hpl hn0
  obtain ⟨t, ht, hon⟩ := hc.covered _ henc ⟨t0, ht0, hpl⟩
  have hpl' := onTri_plane hon
  rw [dot_alongX] at hpl'
  have hlt := hp t ht
  unfold StrictlyBehind at hlt
  have hne : (normal t).1 ≠ 0 := by
    intro h0; rw [h0] at hpl'; linarith
  have hs0 : 0 < s := by
    rcases hs.lt_or_eq with h | h
    · exact h
    · rw [← h] at hpl'; linarith
  exact ⟨t, ht, s, hs0, ⟨hs, hne, hon⟩, t0, ht0, hpl⟩

theorem avg_ge {a b c u v w : ℝ} (ha : 0 ≤ a) (hb : 0 ≤ b) (hc : 0 ≤ c) (hs : a + b + c = 1) :
    u ≤ a*u + b*v + c*w ∨ v ≤ a*u + b*v + c*w ∨ w ≤ a*u + b*v + c*w := by
  obtain rfl : a = 1 - b - c := by linarith
  rcases le_total u v with h1 | h1
  · rcases le_total u w with h2 | h2
    · left; nlinarith [mul_nonneg hb (sub_nonneg.2 h1), mul_nonneg hc (sub_nonneg.2 h2)]
    · right; right
      nlinarith [mul_nonneg ha (sub_nonneg.2 h2), mul_nonneg hb (sub_nonneg.2 (h2.trans h1))]
  · rcases le_total v w with h2 | h2
    · right; left
      nlinarith [mul_nonneg ha (sub_nonneg.2 h1), mul_nonneg hc (sub_nonneg.2 h2)]
    · right; right
      nlinarith [mul_nonneg ha (sub_nonneg.2 (h2.trans h1)), mul_nonneg hb (sub_nonneg.2 h2)]

/-- A coordinate of a point of a triangle lies between those of its corners. -/
theorem onTri_coord {t : Tri} {q : Point} (h : OnTri t q) (coord : Point → ℝ)
    (hlin : coord ∈ [(fun q : Point => q.1), (fun q => q.2.1), (fun q => q.2.2)]) :
    (∃ v ∈ [t.1, t.2.1, t.2.2], coord v ≤ coord q) ∧
    (∃ v ∈ [t.1, t.2.1, t.2.2], coord q ≤ coord v) := by
  obtain ⟨a, b, c, ha, hb, hc, hs, rfl⟩ := h
  have hq : coord (a*t.1.1 + b*t.2.1.1 + c*t.2.2.1, a*t.1.2.1 + b*t.2.1.2.1 + c*t.2.2.2.1,
      a*t.1.2.2 + b*t.2.1.2.2 + c*t.2.2.2.2) = a*coord t.1 + b*coord t.2.1 + c*coord t.2.2 := by
    simp only [List.mem_cons, List.not_mem_nil, or_false] at hlin
    rcases hlin with rfl | rfl | rfl <;> rfl
  rw [hq]
  constructor
  · rcases avg_ge (u := coord t.1) (v := coord t.2.1) (w := coord t.2.2) ha hb hc hs with h | h | h
    · exact ⟨t.1, by simp, h⟩
    · exact ⟨t.2.1, by simp, h⟩
    · exact ⟨t.2.2, by simp, h⟩
  · rcases avg_ge (u := -coord t.1) (v := -coord t.2.1) (w := -coord t.2.2) ha hb hc hs with
      h | h | h
    · exact ⟨t.1, by simp, by linarith⟩
    · exact ⟨t.2.1, by simp, by linarith⟩
    · exact ⟨t.2.2, by simp, by linarith⟩

/-- Every point of the body is in the bounding box. -/
theorem enclosed_in_box {parry : Parry ℝ} {mesh : parry.Mesh} {tris : List Tri}
    (hm : MeshContract parry mesh tris) (hc : ConvexSurface tris) {p : Point}
    (hp : Enclosed tris p) : parry.aabb_contains mesh p = true := by
  obtain ⟨s, hs, henc, t0, ht0, -, hpl⟩ := exit_point hc hp 1 (Or.inl rfl)
  obtain ⟨t, ht, hon⟩ := hc.covered _ henc ⟨t0, ht0, hpl⟩
  obtain ⟨s', hs', henc', t0', ht0', -, hpl'⟩ := exit_point hc hp (-1) (Or.inr rfl)
  obtain ⟨t', ht', hon'⟩ := hc.covered _ henc' ⟨t0', ht0', hpl'⟩
  rw [hm.box]
  intro coord hcoord
  obtain ⟨-, v, hv, hvle⟩ := onTri_coord hon coord hcoord
  obtain ⟨⟨v', hv', hvle'⟩, -⟩ := onTri_coord hon' coord hcoord
  have h1 : coord p ≤ coord (alongX p (1*s)) ∧ coord (alongX p (-1*s')) ≤ coord p := by
    simp only [List.mem_cons, List.not_mem_nil, or_false] at hcoord
    rcases hcoord with rfl | rfl | rfl
    · simp only [alongX]; constructor <;> linarith
    · exact ⟨le_rfl, le_rfl⟩
    · exact ⟨le_rfl, le_rfl⟩
  exact ⟨⟨t', ht', v', hv', hvle'.trans h1.2⟩, ⟨t, ht, v, hv, h1.1.trans hvle⟩⟩

theorem ray_dir : ((1.0, 0.0, 0.0) : ℝ × ℝ × ℝ) = (1, 0, 0) := by norm_num

/-- **C77** (partial: convex bodies, generic rays, bodies of less than a metre) For a closed convex
triangle mesh oriented outwards: a point in the interior is reported inside, provided the surface is
at most 1 metre away in direction +x; a point outside is reported outside, provided the ray from it
in direction +x does not just graze the body.
Missing: non-convex meshes, grazing rays, and interior points further than 1 metre from the surface,
where it fails (`C77_one_metre`). -/
theorem C77_trimesh_inside_partial {parry : Parry ℝ} (g : ParryTriMesh ℝ parry) {tris : List Tri}
    (hm : MeshContract parry g.trimesh tris) (hc : ConvexSurface tris) (x y z : ℝ) :
    (StrictlyEnclosed tris (x, y, z) → ¬ StrictlyEnclosed tris (x + 1, y, z) →
      g.toGeom.inside x y z = .ok true) ∧
    (¬ Enclosed tris (x, y, z) →
      ((∀ s, 0 ≤ s → ¬ Enclosed tris (x + s, y, z)) ∨
        ∃ s, 0 ≤ s ∧ StrictlyEnclosed tris (x + s, y, z)) →
      g.toGeom.inside x y z = .ok false) := by
  have hin : ∀ b, g.toGeom.inside x y z = .ok b ↔ inside_trimesh parry g.trimesh x y z = b :=
    fun b => ⟨fun h => Except.ok.inj h, fun h => congrArg Except.ok h⟩
  constructor
  · intro hp h1
    rw [hin]
    obtain ⟨t, ht, s, hs, hcr, t0, ht0, hpl⟩ := exit_crossing hc hp
    have hbox := enclosed_in_box hm hc (p := (x, y, z)) fun t ht => (hp t ht).le
    have hs1 : s ≤ 1 := by
      by_contra hlt
      have hlt := not_le.1 hlt
      refine h1 fun t' ht' => ?_
      have e1 := hp t' ht'
      have e2 := onTri_enclosed hc ht hcr.2.2 t' ht'
      have e3 : ((x + 1, y, z) : Point) = alongX (x, y, z) 1 := rfl
      rw [e3]
      unfold StrictlyBehind Behind at *
      rw [dot_alongX] at e2 ⊢
      by_cases hn : (normal t').1 ≤ 0
      · linarith
      · have hn := not_le.1 hn
        nlinarith [mul_pos (sub_pos.2 hlt) hn]
    unfold inside_trimesh
    rw [hbox, ray_dir, show ((1.0:ℝ)) = 1 by norm_num]
    cases hcast : parry.trimesh_cast_ray g.trimesh (x, y, z) (1, 0, 0) 1 false with
    | none => exact absurd (hm.miss _ _ hcast t ht s hcr) (not_lt.2 hs1)
    | some f =>
      obtain ⟨t', ht', s', -, hcr', hback, -⟩ := hm.hit _ _ _ hcast
      have hpl' := onTri_plane hcr'.2.2
      rw [dot_alongX] at hpl'
      have hlt := hp t' ht'
      unfold StrictlyBehind at hlt
      have hpos : 0 < (normal t').1 := by
        by_contra hn
        have := mul_nonneg hcr'.1 (neg_nonneg.2 (not_lt.1 hn))
        nlinarith
      simpa using hback.2 hpos
  · intro hp hgen
    rw [hin]
    unfold inside_trimesh
    by_cases hbox : parry.aabb_contains g.trimesh (x, y, z) = true
    swap
    · simp [hbox]
    rw [hbox, ray_dir, show ((1.0:ℝ)) = 1 by norm_num]
    cases hcast : parry.trimesh_cast_ray g.trimesh (x, y, z) (1, 0, 0) 1 false with
    | none => simp
    | some f =>
      obtain ⟨t, ht, s, hs1, hcr, hback, hfirst⟩ := hm.hit _ _ _ hcast
      rcases hgen with hmiss | ⟨s2, hs2, hstrict⟩
      · exact absurd (onTri_enclosed hc ht hcr.2.2) (hmiss s hcr.1)
      · -- the place where the ray enters
        have hex : ∃ t' ∈ tris, dot (normal t') t'.1 < dot (normal t') (x, y, z) := by
          by_contra hno
          exact hp fun t' ht' => not_lt.1 fun hh => hno ⟨t', ht', hh⟩
        have hstr : ∀ t' ∈ tris, dot (normal t') (x, y, z) + s2*(normal t').1
            < dot (normal t') t'.1 := by
          intro t' ht'
          have := hstrict t' ht'
          unfold StrictlyBehind at this
          rwa [show ((x + s2, y, z) : Point) = alongX (x, y, z) s2 from rfl, dot_alongX] at this
        have hneg : ∀ t' ∈ tris, dot (normal t') t'.1 < dot (normal t') (x, y, z) →
            (normal t').1 < 0 := by
          intro t' ht' hgt
          by_contra hn
          have := hstr t' ht'
          have := mul_nonneg hs2 (not_lt.1 hn)
          linarith
        obtain ⟨te, hte, hgte, hmax⟩ := exists_least tris
          (fun t' => dot (normal t') t'.1 < dot (normal t') (x, y, z))
          (fun t' => -((dot (normal t') t'.1 - dot (normal t') (x, y, z))/(normal t').1)) hex
        obtain ⟨s1, hs1d⟩ : ∃ s1, s1 = (dot (normal te) te.1 - dot (normal te) (x, y, z))/
          (normal te).1 := ⟨_, rfl⟩
        have hne := hneg te hte hgte
        have hs1e : s1*(normal te).1 = dot (normal te) te.1 - dot (normal te) (x, y, z) := by
          rw [hs1d]; exact div_mul_cancel₀ _ hne.ne
        have hs1p : 0 < s1 := by
          rw [hs1d]; exact div_pos_of_neg_of_neg (by linarith) hne
        have hs12 : s1 < s2 := by
          have := hstr te hte
          by_contra hge
          have hge := not_lt.1 hge
          nlinarith [mul_nonneg (sub_nonneg.2 hge) (neg_nonneg.2 hne.le)]
        have henc : Enclosed tris (alongX (x, y, z) s1) := by
          intro t' ht'
          unfold Behind
          rw [dot_alongX]
          have h2 := hstr t' ht'
          by_cases hgt : dot (normal t') t'.1 < dot (normal t') (x, y, z)
          · have hn := hneg t' ht' hgt
            have h3 := hmax t' ht' hgt
            rw [← hs1d] at h3
            have h4 : (dot (normal t') t'.1 - dot (normal t') (x, y, z))/(normal t').1 ≤ s1 := by
              linarith
            rw [div_le_iff_of_neg hn] at h4
            linarith
          · have hle := not_lt.1 hgt
            by_cases hn : (normal t').1 ≤ 0
            · have := mul_nonneg hs1p.le (neg_nonneg.2 hn)
              nlinarith
            · have hn := not_le.1 hn
              nlinarith [mul_pos (sub_pos.2 hs12) hn]
        obtain ⟨tc, htc, honc⟩ := hc.covered _ henc ⟨te, hte, by rw [dot_alongX]; linarith⟩
        have hplc := onTri_plane honc
        rw [dot_alongX] at hplc
        have hnc : (normal tc).1 ≠ 0 := by
          intro h0
          have := hstr tc htc
          rw [h0] at this hplc
          linarith
        have hle : s ≤ s1 := hfirst tc htc s1 ⟨hs1p.le, hnc, honc⟩
        have hpl := onTri_plane hcr.2.2
        rw [dot_alongX] at hpl
        have h5 := hstr t ht
        have : ¬ 0 < (normal t).1 := by
          intro hpos
          nlinarith [mul_pos (sub_pos.2 (lt_of_le_of_lt hle hs12)) hpos]
        have hb : ¬ parry.trimesh_is_backface g.trimesh f = true := fun h => this (hback.1 h)
        simpa using hb

/-- **C77 is false of the code** for targets larger than a metre: every interior point from which
one can go a metre in direction +x without leaving the interior is reported outside. -/
theorem C77_one_metre {parry : Parry ℝ} (g : ParryTriMesh ℝ parry) {tris : List Tri}
    (hm : MeshContract parry g.trimesh tris) (hc : ConvexSurface tris) (x y z : ℝ)
    (h0 : StrictlyEnclosed tris (x, y, z)) (h1 : StrictlyEnclosed tris (x + 1, y, z)) :
    g.toGeom.inside x y z = .ok false := by
  show Except.ok _ = Except.ok _
  congr 1
  unfold inside_trimesh
  by_cases hbox : parry.aabb_contains g.trimesh (x, y, z) = true
  swap
  · simp [hbox]
  rw [hbox, ray_dir, show ((1.0:ℝ)) = 1 by norm_num]
  cases hcast : parry.trimesh_cast_ray g.trimesh (x, y, z) (1, 0, 0) 1 false with
  | none => simp
  | some f =>
    exfalso
    obtain ⟨t, ht, s, hs1, hcr, -, -⟩ := hm.hit _ _ _ hcast
    have hpl := onTri_plane hcr.2.2
    rw [dot_alongX] at hpl
    have e0 := h0 t ht
    have e1 := h1 t ht
    unfold StrictlyBehind at e0 e1
    rw [show ((x + 1, y, z) : Point) = alongX (x, y, z) 1 from rfl, dot_alongX] at e1
    have hs := hcr.1
    have := mul_nonneg (sub_nonneg.2 hs1) (sub_nonneg.2 e0.le)
    by_cases hn : 0 ≤ (normal t).1
    · nlinarith [mul_nonneg (sub_nonneg.2 hs1) hn]
    · nlinarith [mul_nonneg hs (neg_nonneg.2 (not_le.1 hn).le)]

end RustBCA
