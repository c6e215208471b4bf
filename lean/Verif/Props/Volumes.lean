import Verif.Spec.Volumes
import Verif.Props.ParryInput
import Verif.Props.FreePaths
import Verif.Props.Polygon

/-!
# C109: the energy barrier and the simulation volume
-/

set_option linter.unusedSectionVars false
set_option linter.unusedSimpArgs false
set_option linter.unusedVariables false

namespace RustBCA
open Scalar Spec

theorem thickness_is (n : ℝ) (hn : 0 < n) : IsThickness n (barrier_thickness n) := by
  obtain ⟨h1, h2⟩ := spacing_exists n hn
  refine ⟨_, h1, h2, ?_⟩
  unfold barrier_thickness
  rw [SQRTPI_real, powf_real, show (2.0:ℝ) = 2 by norm_num]
  ring

theorem converted_sum (u : ℝ) (ds : List ℝ) :
    fsum (convert_densities u ds) = ds.sum/u^3 := by
  rw [fsum_real, convert_sum]

/-- Nearer than `d` to the half-space `x > a`. -/
theorem around_above (a d x y z : ℝ) (hd : 0 < d) :
    (x, y, z) ∈ Around {p | a < p.1} d ↔ a - d < x := by
  constructor
  · rintro ⟨q, hq, h⟩
    have hq : a < q.1 := hq
    have h1 : |x - q.1| ≤ Real.sqrt (sqDist x y z q) := by
      apply Real.abs_le_sqrt
      unfold sqDist
      nlinarith [sq_nonneg (y - q.2.1), sq_nonneg (z - q.2.2)]
    have := (abs_le.mp h1).1
    have h : Real.sqrt (sqDist x y z q) < d := h
    linarith
  · intro h
    rcases lt_or_ge a x with hx | hx
    · refine ⟨(x, y, z), hx, ?_⟩
      simpa [sqDist] using hd
    · refine ⟨(a + (x - (a - d))/2, y, z), ?_, ?_⟩
      · show a < a + (x - (a - d))/2
        linarith
      · have e : sqDist x y z (a + (x - (a - d))/2, y, z) = (a + (x - (a - d))/2 - x)^2 := by
          unfold sqDist; ring
        show Real.sqrt (sqDist x y z _) < d
        rw [e, Real.sqrt_sq (by linarith)]
        linarith

/-- Nearer than `d` to the half-space `x < a`. -/
theorem around_below (a d x y z : ℝ) (hd : 0 < d) :
    (x, y, z) ∈ Around {p | p.1 < a} d ↔ x < a + d := by
  constructor
  · rintro ⟨q, hq, h⟩
    have hq : q.1 < a := hq
    have h1 : |x - q.1| ≤ Real.sqrt (sqDist x y z q) := by
      apply Real.abs_le_sqrt
      unfold sqDist
      nlinarith [sq_nonneg (y - q.2.1), sq_nonneg (z - q.2.2)]
    have := (abs_le.mp h1).2
    have h : Real.sqrt (sqDist x y z q) < d := h
    linarith
  · intro h
    rcases lt_or_ge x a with hx | hx
    · refine ⟨(x, y, z), hx, ?_⟩
      simpa [sqDist] using hd
    · refine ⟨(a - (a + d - x)/2, y, z), ?_, ?_⟩
      · show a - (a + d - x)/2 < a
        linarith
      · have e : sqDist x y z (a - (a + d - x)/2, y, z) = (x - (a - (a + d - x)/2))^2 := by
          unfold sqDist; ring
        show Real.sqrt (sqDist x y z _) < d
        rw [e, Real.sqrt_sq (by linarith)]
        linarith

/-- **C109** for a homogeneous half-space (0D): the barrier is the half-space and all points nearer to
it than `2/√π` interatomic spacings, the simulation volume reaches ten times as far. -/
theorem C109_mesh0d (ext : Ext ℝ) (input : Mesh0DInput ℝ) (u : ℝ) (g : Mesh0D ℝ)
    (hu : length_unit_of ext input.length_unit = .ok u) (hu0 : 0 < u)
    (hd : 0 < input.densities.sum) (run : Mesh0D.new ext input = .ok g) :
    ∃ d, IsThickness (input.densities.sum/u^3) d ∧ SurroundedBy g.toGeom {p | 0 < p.1} d := by
  unfold Mesh0D.new at run
  simp only [hu, bind, Except.bind, pure, Except.pure, Except.ok.injEq] at run
  have hn : 0 < input.densities.sum/u^3 := by positivity
  have ht := barrier_pos _ hn
  refine ⟨_, thickness_is _ hn, ?_⟩
  subst run
  intro x y z
  rw [around_above _ _ _ _ _ ht, around_above _ _ _ _ _ (by linarith)]
  simp only [Mesh0D.toGeom, Except.ok.injEq, lt_real, converted_sum]
  have h10 : (-10.0:ℝ) = -10 := by norm_num
  rw [h10]
  constructor <;> constructor <;> intro h <;> linarith

/-- **C109** for layers (1D): in front the thickness is that for the first layer, behind that for the
last; in between lies the material, as thick as the layers together. -/
theorem C109_mesh1d (ext : Ext ℝ) (input : Mesh1DInput ℝ) (u : ℝ) (g : Mesh1D ℝ)
    (hu : length_unit_of ext input.length_unit = .ok u) (hu0 : 0 < u)
    (hlen : input.electronic_stopping_correction_factors.length = input.layer_thicknesses.length)
    (hd : ∀ ds ∈ input.densities, 0 < ds.sum) (run : Mesh1D.new ext input = .ok g) :
    ∃ first last d d', input.densities[0]? = some first ∧
      input.densities[input.layer_thicknesses.length - 1]? = some last ∧
      IsThickness (first.sum/u^3) d ∧ IsThickness (last.sum/u^3) d' ∧ ∀ x y z,
      (g.toGeom.inside_energy_barrier x y z = .ok true ↔ (x, y, z) ∈ Around {p | 0 < p.1} d ∧
        (x, y, z) ∈ Around {p | p.1 < input.layer_thicknesses.sum*u} d') ∧
      (g.toGeom.inside_simulation_boundary x y z = .ok true ↔
        (x, y, z) ∈ Around {p | 0 < p.1} (10*d) ∧
        (x, y, z) ∈ Around {p | p.1 < input.layer_thicknesses.sum*u} (10*d')) := by
  obtain ⟨htop, hne, -, hll, hbot, hlay⟩ := C36_layers ext input u g hu run
  rw [hlen, min_self] at hll
  have hpos : 0 < g.layers.length := List.length_pos_iff.mpr hne
  have key : RSat (Mesh1D.new ext input) (fun g => ∃ a b, g.layers[0]? = some a ∧
      g.layers[g.layers.length - 1]? = some b ∧
      g.top_energy_barrier_thickness = barrier_thickness (fsum a.densities) ∧
      g.bottom_energy_barrier_thickness = barrier_thickness (fsum b.densities)) (fun _ => True) := by
    unfold Mesh1D.new
    simp only [hu, rsat_bind, rsat_ok, rsat_pure, rsat_assert, implies_true, and_true]
    intro _ _
    refine rsat_mono (rsat_trivial _) (fun s _ => ?_) (fun _ _ => trivial)
    refine rsat_mono (rsat_vget_some _ _) (fun a ha => ?_) (fun _ _ => trivial)
    refine rsat_mono (rsat_vget_some _ _) (fun b hb => ?_) (fun _ _ => trivial)
    exact ⟨a, b, ha, hb, rfl, rfl⟩
  obtain ⟨a, b, ha, hb, ht, ht'⟩ := rsat_of_ok key run
  obtain ⟨-, ⟨first, hf, haf⟩, -, -⟩ := hlay 0 a ha
  obtain ⟨-, ⟨last, hl, hbl⟩, -, -⟩ := hlay _ b hb
  have n1 : 0 < first.sum/u^3 := div_pos (hd _ (List.mem_of_getElem? hf)) (by positivity)
  have n2 : 0 < last.sum/u^3 := div_pos (hd _ (List.mem_of_getElem? hl)) (by positivity)
  rw [haf, converted_sum] at ht
  rw [hbl, converted_sum] at ht'
  have hL : g.bottom = input.layer_thicknesses.sum*u := by
    rw [hbot, hll, List.take_length, fsum_real]
    exact (List.sum_map_mul_right input.layer_thicknesses (fun x => x) u).trans (by rw [List.map_id'])
  have p1 := barrier_pos _ n1
  have p2 := barrier_pos _ n2
  refine ⟨first, last, _, _, hf, by rw [← hll]; exact hl, thickness_is _ n1, thickness_is _ n2, ?_⟩
  intro x y z
  rw [around_above _ _ _ _ _ p1, around_above _ _ _ _ _ (by linarith), around_below _ _ _ _ _ p2,
    around_below _ _ _ _ _ (by linarith)]
  simp only [Mesh1D.toGeom, Except.ok.injEq, Mesh1D.inside_energy_barrier,
    Mesh1D.inside_simulation_boundary, Bool.and_eq_true, lt_real, htop, hL, ht, ht']
  have h10 : (10.0:ℝ) = 10 := by norm_num
  have h0 : (0.0:ℝ) = 0 := by norm_num
  rw [h10, h0]
  exact ⟨Iff.rfl, Iff.rfl⟩

theorem sqrt_triangle (x y z : ℝ) (q : Point) :
    Real.sqrt (x^2 + y^2 + z^2) ≤
      Real.sqrt (q.1^2 + q.2.1^2 + q.2.2^2) + Real.sqrt (sqDist x y z q) := by
  obtain ⟨a, b, c⟩ := q
  simp only [sqDist]
  obtain ⟨A, hA⟩ : ∃ A, A = a^2 + b^2 + c^2 := ⟨_, rfl⟩
  obtain ⟨B, hB⟩ : ∃ B, B = (x - a)^2 + (y - b)^2 + (z - c)^2 := ⟨_, rfl⟩
  rw [← hA, ← hB]
  have hA0 : 0 ≤ A := by rw [hA]; positivity
  have hB0 : 0 ≤ B := by rw [hB]; positivity
  rw [Real.sqrt_le_left (by positivity)]
  have h1 := Real.sq_sqrt hA0
  have h2 := Real.sq_sqrt hB0
  have h3 : a*(x - a) + b*(y - b) + c*(z - c) ≤ Real.sqrt A*Real.sqrt B := by
    rw [← Real.sqrt_mul hA0]
    refine (le_abs_self _).trans (Real.abs_le_sqrt ?_)
    rw [hA, hB]
    nlinarith [sq_nonneg (a*(y - b) - b*(x - a)), sq_nonneg (a*(z - c) - c*(x - a)),
      sq_nonneg (b*(z - c) - c*(y - b))]
  have h4 : x^2 + y^2 + z^2 = A + B + 2*(a*(x - a) + b*(y - b) + c*(z - c)) := by
    rw [hA, hB]; ring
  nlinarith

/-- Nearer than `d` to the ball of radius `R`. -/
theorem around_ball (R d x y z : ℝ) (hR : 0 < R) (hd : 0 < d) :
    (x, y, z) ∈ Around {p | Real.sqrt (p.1^2 + p.2.1^2 + p.2.2^2) < R} d ↔
      Real.sqrt (x^2 + y^2 + z^2) < d + R := by
  constructor
  · rintro ⟨q, hq, h⟩
    have hq : Real.sqrt (q.1^2 + q.2.1^2 + q.2.2^2) < R := hq
    have h : Real.sqrt (sqDist x y z q) < d := h
    have := sqrt_triangle x y z q
    linarith
  · intro h
    obtain ⟨r, hr⟩ : ∃ r, r = Real.sqrt (x^2 + y^2 + z^2) := ⟨_, rfl⟩
    have hr2 : r^2 = x^2 + y^2 + z^2 := by rw [hr, Real.sq_sqrt (by positivity)]
    rw [← hr] at h
    have hr0 : 0 ≤ r := by rw [hr]; exact Real.sqrt_nonneg _
    rcases lt_or_ge r R with hx | hx
    · refine ⟨(x, y, z), by rw [hr] at hx; exact hx, ?_⟩
      simpa [sqDist] using hd
    · obtain ⟨s, hs1, hs2⟩ := exists_between (show max 0 (r - d) < R by
        rw [max_lt_iff]; constructor <;> linarith)
      have hs0 : 0 ≤ s := (le_max_left _ _).trans hs1.le
      have hsd : r - d < s := lt_of_le_of_lt (le_max_right _ _) hs1
      have hrpos : 0 < r := by linarith
      refine ⟨(x*(s/r), y*(s/r), z*(s/r)), ?_, ?_⟩
      · show Real.sqrt ((x*(s/r))^2 + (y*(s/r))^2 + (z*(s/r))^2) < R
        have e : (x*(s/r))^2 + (y*(s/r))^2 + (z*(s/r))^2 = s^2 := by
          have : (x*(s/r))^2 + (y*(s/r))^2 + (z*(s/r))^2 = (x^2 + y^2 + z^2)*(s/r)^2 := by ring
          rw [this, ← hr2]; field_simp
        rw [e, Real.sqrt_sq hs0]; exact hs2
      · show Real.sqrt (sqDist x y z _) < d
        have e : sqDist x y z (x*(s/r), y*(s/r), z*(s/r)) = (r - s)^2 := by
          have : sqDist x y z (x*(s/r), y*(s/r), z*(s/r)) = (x^2 + y^2 + z^2)*(1 - s/r)^2 := by
            unfold sqDist; ring
          rw [this, ← hr2]; field_simp
        rw [e, Real.sqrt_sq (by linarith)]; linarith

/-- **C109** for a sphere. -/
theorem C109_sphere (ext : Ext ℝ) (input : SphereInput ℝ) (u : ℝ) (g : Sphere ℝ)
    (hu : length_unit_of ext input.length_unit = .ok u) (hu0 : 0 < u) (hR : 0 < input.radius)
    (hd : 0 < input.densities.sum) (run : Sphere.new ext input = .ok g) :
    ∃ d, IsThickness (input.densities.sum/u^3) d ∧ SurroundedBy g.toGeom
      {p | Real.sqrt (p.1^2 + p.2.1^2 + p.2.2^2) < input.radius*u} d := by
  unfold Sphere.new at run
  simp only [hu, bind, Except.bind, pure, Except.pure, Except.ok.injEq] at run
  have hn : 0 < input.densities.sum/u^3 := by positivity
  have ht := barrier_pos _ hn
  refine ⟨_, thickness_is _ hn, ?_⟩
  subst run
  intro x y z
  rw [around_ball _ _ _ _ _ (mul_pos hR hu0) ht, around_ball _ _ _ _ _ (mul_pos hR hu0) (by linarith)]
  simp only [Sphere.toGeom, Except.ok.injEq, lt_real, converted_sum, rad_real]
  have h10 : (10.0:ℝ) = 10 := by norm_num
  rw [h10]
  exact ⟨by trivial, by trivial⟩

/-- **C109** for a ball (parry3d). -/
theorem C109_ball (ext : Ext ℝ) (parry : Parry ℝ) (hp : BallContract parry) (input : ParryBallInput ℝ)
    (u : ℝ) (g : ParryBall ℝ) (hu : length_unit_of ext input.length_unit = .ok u) (hu0 : 0 < u)
    (hR : 0 < input.radius) (hd : 0 < input.densities.sum) (run : ParryBall.new ext input = .ok g) :
    ∃ d, IsThickness (input.densities.sum/u^3) d ∧ SurroundedBy (g.toGeom parry)
      {p | Real.sqrt (p.1^2 + p.2.1^2 + p.2.2^2) < input.radius*u} d := by
  have hs : Sphere.new ext ⟨input.length_unit, input.radius, input.densities,
      input.electronic_stopping_correction_factor⟩ = .ok (asSphere g) := by
    rw [C76_same_construction ext input.length_unit input.radius
      input.electronic_stopping_correction_factor input.densities]
    have : ParryBall.new ext ⟨input.length_unit, input.radius, input.densities,
      input.electronic_stopping_correction_factor⟩ = .ok g := run
    rw [this]; rfl
  obtain ⟨d, h1, h2⟩ := C109_sphere ext _ u _ hu hu0 hR hd hs
  refine ⟨d, h1, fun x y z => ?_⟩
  have hb : 0 < g.energy_barrier_thickness := by
    unfold ParryBall.new at run
    simp only [hu, bind, Except.bind, pure, Except.pure, Except.ok.injEq] at run
    subst run
    simp only [converted_sum]
    exact barrier_pos _ (by positivity)
  obtain ⟨-, e1, e2, -⟩ := C76_ball_is_sphere parry hp g hb x y z
  rw [e1, e2]
  exact h2 x y z

/-- Nearer than `c` to a set, by the distance to the set. -/
theorem around_distance {T : Set Point} {p : Point} {r c : ℝ} (h : IsDistance T p r) :
    p ∈ Around T c ↔ r < c := by
  constructor
  · rintro ⟨q, hq, hlt⟩; exact lt_of_le_of_lt (h.2 q hq) hlt
  · intro hlt
    obtain ⟨q, hq, e⟩ := h.1
    exact ⟨q, hq, e ▸ hlt⟩

/-- **C109** for a triangle mesh: the barrier is the points reported inside and those nearer than the
thickness to a triangle; the simulation volume is the points reported inside and those nearer than ten
times that to the bounding box; the nearest surface point is on the triangles, and none is nearer. -/
theorem C109_trimesh (ext : Ext ℝ) (parry : Parry ℝ) (hparry : MeasuresMeshes parry)
    (input : ParryTriMeshInput ℝ) (u : ℝ) (g : ParryTriMesh ℝ parry)
    (hu : length_unit_of ext input.length_unit = .ok u) (hu0 : 0 < u)
    (hd : 0 < input.densities.sum) (run : ParryTriMesh.new ext parry input = .ok g)
    (tris : List Tri) (hne : tris ≠ []) (ht : TrianglesOf input.vertices input.indices tris) :
    ∃ d, IsThickness (input.densities.sum/u^3) d ∧ ∀ x y z,
      (g.toGeom.inside_energy_barrier x y z = .ok true ↔ g.toGeom.inside x y z = .ok true ∨
        (x, y, z) ∈ Around (surfaceOf (tris.map (triInMetres u))) d) ∧
      (g.toGeom.inside_simulation_boundary x y z = .ok true ↔ g.toGeom.inside x y z = .ok true ∨
        (x, y, z) ∈ Around (boxOf (tris.map (triInMetres u))) (10*d)) ∧
      ∃ q, g.toGeom.closest_point x y z = .ok q ∧
        NearestOn (surfaceOf (tris.map (triInMetres u))) x y z q := by
  obtain ⟨h1, -, -, -, hb⟩ := trimesh_new_ok hu run
  have hmesh : DistanceContract parry g.trimesh (tris.map (triInMetres u)) := by
    refine hparry _ _ _ _ h1 ?_ (by simpa using hne)
    unfold TrianglesOf at ht ⊢
    rw [List.forall₂_map_right_iff]
    refine ht.imp ?_
    rintro i t ⟨a, b, c⟩
    simp only [List.getElem?_map, a, b, c, Option.map_some, triInMetres, and_self]
  have hn : 0 < input.densities.sum/u^3 := by positivity
  rw [converted_sum] at hb
  refine ⟨_, thickness_is _ hn, fun x y z => ⟨?_, ?_, _, rfl, hmesh.project (x, y, z)⟩⟩
  · rw [around_distance (hmesh.surface (x, y, z))]
    simp only [ParryTriMesh.toGeom, hb]
    cases inside_trimesh parry g.trimesh x y z <;> simp [lt_real]
  · rw [around_distance (hmesh.box (x, y, z))]
    simp only [ParryTriMesh.toGeom, hb]
    have h10 : (10.0:ℝ) = 10 := by norm_num
    cases inside_trimesh parry g.trimesh x y z <;> simp [lt_real, h10]

/-- **C109** for a homogeneous 2D target: the thickness of its barrier (which points are in it says
`C99_homogeneous_barrier`). -/
theorem C109_homogeneous2d (ext : Ext ℝ) (input : HomogeneousMesh2DInput ℝ)
    (g : HomogeneousMesh2D ℝ) (u : ℝ) (hu : length_unit_of ext input.length_unit = .ok u)
    (hu0 : 0 < u) (hn : 0 < input.densities.sum) (h : HomogeneousMesh2D.new ext input = .ok g) :
    IsThickness (input.densities.sum/u^3) g.energy_barrier_thickness := by
  unfold HomogeneousMesh2D.new at h
  simp only [hu, bind, Except.bind, pure, Except.pure] at h
  cases h
  simp only [converted_sum]
  exact thickness_is _ (by positivity)

end RustBCA
