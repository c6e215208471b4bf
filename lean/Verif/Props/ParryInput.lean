import Verif.Spec.ParryInput
import Verif.Props.ParrySolid
import Verif.Props.Meshes

/-!
# C41, C77 for ball and triangle-mesh targets, from the input file
-/

namespace RustBCA
open Scalar Spec

/-- **C41** for the ball. -/
theorem C41_ball (ext : Ext ℝ) (i j : ParryBallInput ℝ) (u c : ℝ) (hu : 0 < u) (hc : 0 < c)
    (hi : length_unit_of ext i.length_unit = .ok u)
    (hj : length_unit_of ext j.length_unit = .ok (u/c))
    (hd : j.densities = i.densities.map (· / c^3)) (hr : j.radius = i.radius*c)
    (hk : j.electronic_stopping_correction_factor = i.electronic_stopping_correction_factor) :
    ParryBall.new ext j = ParryBall.new ext i := by
  unfold ParryBall.new
  simp only [hi, hj, hd, hk, hr, bind, Except.bind, convert_unit u c hu hc, length_unit u c _ hc]

/-- **C41** for the triangle mesh. -/
theorem C41_trimesh (ext : Ext ℝ) (parry : Parry ℝ) (i j : ParryTriMeshInput ℝ) (u c : ℝ) (hu : 0 < u) (hc : 0 < c)
    (hi : length_unit_of ext i.length_unit = .ok u)
    (hj : length_unit_of ext j.length_unit = .ok (u/c))
    (hd : j.densities = i.densities.map (· / c^3))
    (hv : j.vertices = i.vertices.map fun p => (p.1*c, p.2.1*c, p.2.2*c)) (hx : j.indices = i.indices)
    (hk : j.electronic_stopping_correction_factor = i.electronic_stopping_correction_factor) :
    ParryTriMesh.new ext parry j = ParryTriMesh.new ext parry i := by
  have hp : (i.vertices.map fun p => (p.1*c, p.2.1*c, p.2.2*c)).map (fun p => (p.1*(u/c), p.2.1*(u/c), p.2.2*(u/c))) =
      i.vertices.map fun p => (p.1*u, p.2.1*u, p.2.2*u) := by
    rw [List.map_map]
    apply List.map_congr_left
    intro p _
    simp only [Function.comp, length_unit u c _ hc]
  unfold ParryTriMesh.new
  simp only [hi, hj, hd, hk, hv, hx, hp, bind, Except.bind, convert_unit u c hu hc]

/-- The corners in metres. -/
def Spec.triInMetres (u : ℝ) (t : Tri) : Tri := (inMetres u t.1, inMetres u t.2.1, inMetres u t.2.2)

theorem onTri_metres {u : ℝ} (hu : 0 < u) {t : Tri} {q : Point} :
    OnTri (triInMetres u t) (inMetres u q) ↔ OnTri t q := by
  constructor
  · rintro ⟨a, b, c, ha, hb, hc, hs, he⟩
    refine ⟨a, b, c, ha, hb, hc, hs, ?_⟩
    have h1 := congrArg Prod.fst he
    have h2 := congrArg (fun q : Point => q.2.1) he
    have h3 := congrArg (fun q : Point => q.2.2) he
    simp only [inMetres, triInMetres] at h1 h2 h3
    refine Prod.ext ?_ (Prod.ext ?_ ?_)
    · exact mul_right_cancel₀ hu.ne' (h1.trans (by ring))
    · exact mul_right_cancel₀ hu.ne' (h2.trans (by ring))
    · exact mul_right_cancel₀ hu.ne' (h3.trans (by ring))
  · rintro ⟨a, b, c, ha, hb, hc, hs, he⟩
    refine ⟨a, b, c, ha, hb, hc, hs, ?_⟩
    rw [he]
    simp only [inMetres, triInMetres]
    refine Prod.ext ?_ (Prod.ext ?_ ?_) <;> simp only <;> ring

theorem inTri_metres {u : ℝ} (hu : 0 < u) {t : Tri} {q : Point} :
    InTri (triInMetres u t) (inMetres u q) ↔ InTri t q := by
  constructor
  · rintro ⟨a, b, c, ha, hb, hc, hs, he⟩
    refine ⟨a, b, c, ha, hb, hc, hs, ?_⟩
    have h1 := congrArg Prod.fst he
    have h2 := congrArg (fun q : Point => q.2.1) he
    have h3 := congrArg (fun q : Point => q.2.2) he
    simp only [inMetres, triInMetres] at h1 h2 h3
    refine Prod.ext ?_ (Prod.ext ?_ ?_)
    · exact mul_right_cancel₀ hu.ne' (h1.trans (by ring))
    · exact mul_right_cancel₀ hu.ne' (h2.trans (by ring))
    · exact mul_right_cancel₀ hu.ne' (h3.trans (by ring))
  · rintro ⟨a, b, c, ha, hb, hc, hs, he⟩
    refine ⟨a, b, c, ha, hb, hc, hs, ?_⟩
    rw [he]
    simp only [inMetres, triInMetres]
    refine Prod.ext ?_ (Prod.ext ?_ ?_) <;> simp only <;> ring

theorem metres_surj {u : ℝ} (hu : 0 < u) (q : Point) : ∃ p, q = inMetres u p :=
  ⟨inMetres u⁻¹ q, by
    unfold inMetres
    refine Prod.ext ?_ (Prod.ext ?_ ?_) <;> simp only <;> field_simp⟩

theorem metres_inj {u : ℝ} (hu : 0 < u) {p q : Point} (h : inMetres u p = inMetres u q) : p = q := by
  have h1 := congrArg Prod.fst h
  have h2 := congrArg (fun q : Point => q.2.1) h
  have h3 := congrArg (fun q : Point => q.2.2) h
  simp only [inMetres] at h1 h2 h3
  exact Prod.ext (mul_right_cancel₀ hu.ne' h1) (Prod.ext (mul_right_cancel₀ hu.ne' h2) (mul_right_cancel₀ hu.ne' h3))

theorem normal_metres (u : ℝ) (t : Tri) : normal (triInMetres u t) = (u^2*(normal t).1, u^2*(normal t).2.1, u^2*(normal t).2.2) := by
  unfold normal triInMetres inMetres
  refine Prod.ext ?_ (Prod.ext ?_ ?_) <;> simp only <;> ring

theorem dot_metres (u : ℝ) (t : Tri) (q : Point) :
    dot (normal (triInMetres u t)) (inMetres u q) = u^3*dot (normal t) q := by
  rw [normal_metres]
  unfold dot inMetres
  simp only
  ring

theorem metres_smul (u : ℝ) : inMetres u = fun q => u • q := by
  funext q
  unfold inMetres
  refine Prod.ext ?_ (Prod.ext ?_ ?_) <;> simp [mul_comm]

/-- The same body in metres. -/
theorem solid_metres {u : ℝ} (hu : 0 < u) {tris : List Tri} {body : Set Point} (hs : SolidSurface tris body) :
    SolidSurface (tris.map (triInMetres u)) (inMetres u '' body) := by
  have hmem : ∀ p, inMetres u p ∈ inMetres u '' body ↔ p ∈ body := fun p =>
    ⟨fun ⟨q, hq, h⟩ => metres_inj hu h ▸ hq, fun h => ⟨p, h, rfl⟩⟩
  refine ⟨?_, ?_, ?_⟩
  · rw [metres_smul]
    exact hs.bounded.smul₀ u
  · intro q hq
    obtain ⟨p, rfl⟩ := metres_surj hu q
    have hf : p ∈ frontier body := by
      rw [metres_smul] at hq
      have := (Homeomorph.smulOfNeZero (α := Point) u hu.ne').image_frontier body
      rw [show (fun q : Point => u • q) = Homeomorph.smulOfNeZero (α := Point) u hu.ne' from rfl, ← this] at hq
      obtain ⟨r, hr, he⟩ := hq
      rwa [← (Homeomorph.smulOfNeZero (α := Point) u hu.ne').injective he]
    obtain ⟨t, ht, hon⟩ := hs.covered p hf
    exact ⟨_, List.mem_map_of_mem ht, (onTri_metres hu).2 hon⟩
  · intro t' ht' q hq
    obtain ⟨t, ht, rfl⟩ := List.mem_map.1 ht'
    obtain ⟨q, rfl⟩ := metres_surj hu q
    obtain ⟨ε, hε, hn⟩ := hs.sides t ht q ((inTri_metres hu).1 hq)
    refine ⟨u*ε, mul_pos hu hε, fun p hp => ?_⟩
    obtain ⟨p, rfl⟩ := metres_surj hu p
    have hd : dist p q < ε := by
      rw [metres_smul] at hp
      simp only [dist_smul₀, Real.norm_eq_abs, abs_of_pos hu] at hp
      exact lt_of_mul_lt_mul_left hp hu.le
    have h3 : 0 < u^3 := by positivity
    obtain ⟨h1, h2⟩ := hn p hd
    constructor
    · intro hb
      rw [hmem]
      apply h1
      unfold StrictlyBehind at hb ⊢
      rw [show (triInMetres u t).1 = inMetres u t.1 from rfl, dot_metres, dot_metres] at hb
      exact lt_of_mul_lt_mul_left hb h3.le
    · intro hb
      rw [hmem]
      apply h2
      rw [show (triInMetres u t).1 = inMetres u t.1 from rfl, dot_metres, dot_metres] at hb
      exact lt_of_mul_lt_mul_left hb h3.le

theorem along_metres {u : ℝ} (hu : 0 < u) (p : Point) (s : ℝ) :
    alongX (inMetres u p) s = inMetres u (alongX p (s/u)) := by
  unfold alongX inMetres
  refine Prod.ext ?_ rfl
  simp only
  field_simp

theorem clear_metres {u : ℝ} (hu : 0 < u) {tris : List Tri} {p : Point} (h : ClearRay tris p) :
    ClearRay (tris.map (triInMetres u)) (inMetres u p) := by
  intro t' ht' s hs hon
  obtain ⟨t, ht, rfl⟩ := List.mem_map.1 ht'
  rw [along_metres hu, onTri_metres hu] at hon
  obtain ⟨h1, h2, h3⟩ := h t ht (s/u) (div_nonneg hs hu.le) hon
  refine ⟨?_, ?_, ?_⟩
  · by_contra hc
    rw [le_antisymm (not_lt.1 hc) hs, zero_div] at h1
    exact lt_irrefl _ h1
  · rw [normal_metres]
    exact mul_ne_zero (by positivity) h2
  · rw [along_metres hu, inTri_metres hu]
    exact h3

/-- What `ParryTriMesh::new` makes of an input file: the mesh of the listed triangles, in metres; densities per
cubic metre; their shares; and the energy barrier of the total density. -/
theorem trimesh_new_ok {ext : Ext ℝ} {parry : Parry ℝ} {input : ParryTriMeshInput ℝ} {u : ℝ} {g : ParryTriMesh ℝ parry}
    (hu : length_unit_of ext input.length_unit = .ok u) (run : ParryTriMesh.new ext parry input = .ok g) :
    parry.trimesh_new (input.vertices.map (inMetres u)) input.indices = .ok g.trimesh ∧
    g.densities = convert_densities u input.densities ∧
    g.concentrations = concentrations_of (convert_densities u input.densities) ∧
    g.electronic_stopping_correction_factor = input.electronic_stopping_correction_factor ∧
    g.energy_barrier_thickness = barrier_thickness (fsum (convert_densities u input.densities)) := by
  unfold ParryTriMesh.new at run
  rw [hu] at run
  cases hm : parry.trimesh_new (input.vertices.map (inMetres u)) input.indices with
  | error e =>
    have : (input.vertices.map fun p => (p.1*u, p.2.1*u, p.2.2*u)) = input.vertices.map (inMetres u) := rfl
    simp only [bind, Except.bind, pure, Except.pure, this, hm] at run
    cases run
  | ok mesh =>
    have : (input.vertices.map fun p => (p.1*u, p.2.1*u, p.2.2*u)) = input.vertices.map (inMetres u) := rfl
    simp only [bind, Except.bind, pure, Except.pure, this, hm] at run
    cases run
    exact ⟨rfl, rfl, rfl, rfl, rfl⟩

/-- **C77**, from the input file. If the triangles listed in the file (lengths in units of `u` metres) are the
outward-oriented surface of a body, then a point (given in the same units) whose ray in direction +x is clear is
reported inside exactly if it belongs to the body and the surface is at most 1 metre away in direction +x. -/
theorem C77_from_input (ext : Ext ℝ) (parry : Parry ℝ) (hparry : MakesMeshes parry) (input : ParryTriMeshInput ℝ) (u : ℝ)
    (g : ParryTriMesh ℝ parry) (hu : length_unit_of ext input.length_unit = .ok u) (hu0 : 0 < u)
    (run : ParryTriMesh.new ext parry input = .ok g) (tris : List Tri)
    (ht : TrianglesOf input.vertices input.indices tris) (body : Set Point) (hs : SolidSurface tris body)
    (x y z : ℝ) (hr : ClearRay tris (x, y, z)) :
    ∃ b, g.toGeom.inside (x*u) (y*u) (z*u) = .ok b ∧
      (b = true ↔ (x, y, z) ∈ body ∧ ∃ t ∈ tris, ∃ s, 0 ≤ s ∧ s*u ≤ 1 ∧ OnTri t (x + s, y, z)) := by
  obtain ⟨h1, -⟩ := trimesh_new_ok hu run
  have hmesh : MeshContract parry g.trimesh (tris.map (triInMetres u)) := by
    refine hparry _ _ _ _ h1 ?_
    unfold TrianglesOf at ht ⊢
    rw [List.forall₂_map_right_iff]
    refine ht.imp ?_
    rintro i t ⟨a, b, c⟩
    simp only [List.getElem?_map, a, b, c, Option.map_some, triInMetres, and_self]
  obtain ⟨b, hb, hiff⟩ := C77_any_shape g hmesh (solid_metres hu0 hs) (x*u) (y*u) (z*u) (clear_metres hu0 hr)
  refine ⟨b, hb, hiff.trans (and_congr ⟨fun ⟨q, hq, h⟩ => ?_, fun h => ⟨_, h, rfl⟩⟩ ?_)⟩
  · have := metres_inj hu0 (h.trans (show (x*u, y*u, z*u) = inMetres u (x, y, z) from rfl))
    exact this ▸ hq
  · constructor
    · rintro ⟨t', ht', s, hs0, hs1, hon⟩
      obtain ⟨t, htm, rfl⟩ := List.mem_map.1 ht'
      refine ⟨t, htm, s/u, div_nonneg hs0 hu0.le, by rwa [div_mul_cancel₀ _ hu0.ne'], ?_⟩
      have e : (x*u + s, y*u, z*u) = inMetres u (x + s/u, y, z) := by
        unfold inMetres
        refine Prod.ext ?_ rfl
        simp only
        field_simp
      rw [e, onTri_metres hu0] at hon
      exact hon
    · rintro ⟨t, htm, s, hs0, hs1, hon⟩
      refine ⟨_, List.mem_map_of_mem htm, s*u, mul_nonneg hs0 hu0.le, hs1, ?_⟩
      have e : (x*u + s*u, y*u, z*u) = inMetres u (x + s, y, z) := by
        unfold inMetres
        refine Prod.ext ?_ rfl
        simp only
        ring
      rw [e, onTri_metres hu0]
      exact hon

/-- **C77** (nesting), from the input file: with positive total density the regions are nested. -/
theorem C77_nested_from_input (ext : Ext ℝ) (parry : Parry ℝ) (input : ParryTriMeshInput ℝ) (u : ℝ)
    (g : ParryTriMesh ℝ parry) (hu : length_unit_of ext input.length_unit = .ok u) (hu0 : 0 < u)
    (run : ParryTriMesh.new ext parry input = .ok g) (hd : 0 < input.densities.sum)
    (hbox : ∀ mesh p, parry.aabb_distance mesh p true ≤ parry.trimesh_distance mesh p true) :
    Nested g.toGeom := by
  obtain ⟨-, -, -, -, hb⟩ := trimesh_new_ok hu run
  refine C77_trimesh_nested g ?_ (hbox _)
  rw [hb]
  exact (barrier_pos _ (convert_pos u hu0 _ hd)).le

end RustBCA
