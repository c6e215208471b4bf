import Verif.Props.Meshes

/-! # Non-vacuity of C35-C41, C63 -/

set_option linter.unusedSimpArgs false

namespace RustBCA.GeometryExample
open Scalar Spec

/-- An environment that parses no numbers, with a polygon test that is always negative. -/
noncomputable def ext : Ext ℝ := ⟨fun _ => some (1/2), fun _ _ => false, fun _ _ => none⟩

theorem metre : length_unit_of ext "M" = .ok 1 := by
  simp only [length_unit_of]; norm_num

theorem half : length_unit_of ext "0.5" = .ok (1/2) := by simp [length_unit_of, ext]

/-- C35: a 0D mesh of two species. -/
example : ∃ g, Mesh0D.new ext ⟨"M", [1, 2], 1⟩ = .ok g ∧ Nested g.toGeom := by
  have hr : ∃ g, Mesh0D.new ext ⟨"M", [1, 2], 1⟩ = .ok g := by
    unfold Mesh0D.new
    simp only [metre, bind, Except.bind]
    exact ⟨_, rfl⟩
  obtain ⟨g, hg⟩ := hr
  exact ⟨g, hg, C35_mesh0D ext _ 1 g metre one_pos (by norm_num) hg⟩

/-- C35: a sphere of radius 3. -/
example : ∃ g, Sphere.new ext ⟨"M", 3, [1, 2], 1⟩ = .ok g ∧ Nested g.toGeom := by
  have hr : ∃ g, Sphere.new ext ⟨"M", 3, [1, 2], 1⟩ = .ok g := by
    unfold Sphere.new
    simp only [metre, bind, Except.bind]
    exact ⟨_, rfl⟩
  obtain ⟨g, hg⟩ := hr
  exact ⟨g, hg, C35_sphere ext _ 1 g metre one_pos (by norm_num) hg⟩

/-- A target of two layers. -/
def layered : Mesh1DInput ℝ := ⟨"M", [1, 2], [[1, 3], [2, 2]], [1, 1]⟩

/-- C35, C36, C63: the target is built. -/
theorem layered_built : ∃ g, Mesh1D.new ext layered = .ok g := by
  have h0 : (0.0:ℝ) = 0 := by norm_num
  unfold Mesh1D.new
  simp [layered, metre, bind, Except.bind, convert_densities, rassert, forFold, Mesh1D.layerStep,
    Layer1D.new, Scalar.lt, vget, pure, Except.pure, h0]

/-- C36: the point 3/2 is in the second layer only. -/
example : ∃ g, Mesh1D.new ext layered = .ok g ∧ g.layers.length = 2 ∧ g.bottom = 3 ∧
    g.toGeom.get_densities (3/2) 0 0 = .ok [2, 2] := by
  obtain ⟨g, hg⟩ := layered_built
  obtain ⟨h1, h2, h3, h4, h5, h6⟩ := C36_layers ext layered 1 g metre hg
  have hlen : g.layers.length = 2 := by rw [h4]; rfl
  have hb : g.bottom = 3 := by
    rw [h5, hlen]; simp [layered, fsum]; norm_num
  have h0 : (0.0:ℝ) = 0 := by norm_num
  refine ⟨g, hg, hlen, hb, ?_⟩
  obtain ⟨k, l, k1, k2, k3, _, _⟩ := C36_lookup ext layered g hg (3/2) 0 0
  have hin : g.toGeom.inside (3/2) 0 0 = .ok true := by
    simp only [Mesh1D.toGeom, Mesh1D.inside, h1, hb, Scalar.lt, h0]; norm_num
  have hk : k < 2 := by
    have := (List.getElem?_eq_some_iff.mp k1).1; omega
  obtain ⟨e1, ⟨ds, e2, e3⟩, _⟩ := h6 k l k1
  have hk1 : k = 1 := by
    by_contra hne
    have : k = 0 := by omega
    subst this
    have := ((k3 hin 0 l k1).mpr rfl).2
    rw [le_real, e1] at this
    simp [layered, fsum] at this
    norm_num at this
  subst hk1
  have : ds = [2, 2] := by simp [layered] at e2; exact e2.symm
  rw [k2.1, e3, this]
  simp [convert_densities]

/-- C37: a point above the unit sphere. -/
example : ∃ q, (⟨[1], [1], 1, 1, 1⟩ : Sphere ℝ).toGeom.closest_point 0 0 5 = .ok q ∧
    NearestOn {p | p.1^2 + p.2.1^2 + p.2.2^2 = 1^2} 0 0 5 q :=
  C37_sphere ⟨[1], [1], 1, 1, 1⟩ 0 0 5 (by norm_num) (by norm_num)

/-- C38, C39: the unit triangle and a point outside it. -/
theorem unit_triangle : NotCollinear (0, 0) (1, 0) (0, 1) := by norm_num [NotCollinear]

theorem outside_point : ¬ InTriangle (0, 0) (1, 0) (0, 1) (2, 2) := by
  rintro ⟨a, b, c, ha, hb, hc, hs, hx, hy⟩
  simp only at hx hy
  linarith

theorem maxVal_large : (4:ℝ) < maxVal := by
  show (4:ℝ) < (2 - 2 ^ (-52 : ℤ))*2 ^ (1023 : ℤ)
  have h1 : (2:ℝ) ^ (-52 : ℤ) ≤ 1 := zpow_le_one_of_nonpos₀ (by norm_num) (by norm_num)
  have h2 : (2:ℝ) ^ (3 : ℤ) ≤ 2 ^ (1023 : ℤ) := zpow_le_zpow_right₀ (by norm_num) (by norm_num)
  have h3 : (2:ℝ) ^ (3 : ℤ) = 8 := by norm_num
  rw [h3] at h2
  generalize (2:ℝ) ^ (-52 : ℤ) = a at *
  generalize (2:ℝ) ^ (1023 : ℤ) = b at *
  nlinarith [mul_nonneg (sub_nonneg.2 h1) (sub_nonneg.2 h2)]

theorem near_enough : planeDist (2, 2) (0, 0) < maxVal := by
  refine lt_trans ?_ maxVal_large
  rw [planeDist, Real.sqrt_lt' (by norm_num)]
  norm_num

example : (triangle (0, 0) (1, 0) (0, 1) : Triangle2D ℝ).contains 2 2 = false := by
  rw [← Bool.not_eq_true, C38_contains (0, 0) (1, 0) (0, 1) (2, 2) unit_triangle]
  exact outside_point

example : ∃ d, (triangle (0, 0) (1, 0) (0, 1)).distance_to (2:ℝ) 2 = .ok d ∧
    ∀ P, InTriangle (0, 0) (1, 0) (0, 1) P → d ≤ planeDist (2, 2) P := by
  obtain ⟨d, h1, _, h2⟩ := C39_outside (0, 0) (1, 0) (0, 1) (2, 2) unit_triangle near_enough
    outside_point
  exact ⟨d, h1, h2⟩

/-- A mesh of one cell; the polygon test says that every point is outside. -/
noncomputable def mesh : Mesh2D ℝ :=
  ⟨[⟨triangle (0, 0) (1, 0) (0, 1), [1], [1], 1⟩], [], [], 1⟩

/-- C40: the cell of the mesh answers for the point (2, 2). -/
example : (mesh.toGeom ext).get_densities 2 2 0 = .ok [1] := by
  obtain ⟨d, h1, ⟨P, _, hP⟩, h2⟩ := C39_edge_distance (0, 0) (1, 0) (0, 1) (2, 2) (by norm_num)
    (by norm_num) (by norm_num) near_enough
  have hlt : d < maxVal := lt_of_le_of_lt (h2 (0, 0) (Or.inl ⟨0, le_rfl, zero_le_one, by simp, by simp⟩))
    near_enough
  obtain ⟨_, _, h⟩ := C40_one_cell mesh ext 2 2 0
    (by simp only [mesh, List.mem_singleton, forall_eq]; exact ⟨d, h1⟩)
    ⟨⟨triangle (0, 0) (1, 0) (0, 1), [1], [1], 1⟩, by simp [mesh], d, h1, (lt_real _ _).mpr hlt⟩
  obtain ⟨i, c, hn, ha⟩ := h rfl
  have : c = ⟨triangle (0, 0) (1, 0) (0, 1), [1], [1], 1⟩ := by
    have := List.mem_of_getElem? hn.1
    simpa [mesh] using this
  rw [ha.1, this]

/-- C41: the same target in metres and in half metres. -/
example : Mesh0D.new ext ⟨"0.5", [1/8, 2/8], 1⟩ = Mesh0D.new ext ⟨"M", [1, 2], 1⟩ :=
  C41_mesh0D ext ⟨"M", [1, 2], 1⟩ ⟨"0.5", [1/8, 2/8], 1⟩ 1 2 one_pos (by norm_num) metre half
    (by simp; norm_num) rfl

end RustBCA.GeometryExample
