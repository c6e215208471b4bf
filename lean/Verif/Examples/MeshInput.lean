import Verif.Props.MeshInput
import Verif.Examples.PolygonScale

/-! # C99, C130 from the input of a target of triangles: the unit square in half metres, cut along a diagonal -/

set_option linter.unusedSimpArgs false
set_option linter.unusedVariables false

namespace RustBCA.MeshInputExample
open Scalar Spec SpecialExample PolygonExample BulkPolygonExample


noncomputable def target : Mesh2DInput ℝ :=
  ⟨"0.5", [(0, 1, 2), (0, 2, 3)], [(0, 0), (1, 0), (1, 1), (0, 1)], [0, 1, 2, 3], inner, [[1], [2]], [3, 1], 1/10⟩

theorem half : length_unit_of (Geo.ext PolygonScaleExample.parse) target.length_unit = .ok (1/2) := by
  simp [length_unit_of, target, Geo.ext, PolygonScaleExample.parse]

/-- The program accepts it. -/
theorem built : ∃ g, Mesh2D.new (Geo.ext PolygonScaleExample.parse) target = .ok g := by
  unfold Mesh2D.new
  rw [half]
  simp only [target]
  exact ⟨_, rfl⟩

theorem corners : List.Forall₂ (fun i p => target.points[i]? = some p) target.boundary square :=
  .cons rfl (.cons rfl (.cons rfl (.cons rfl .nil)))

theorem proper : ∀ t ∈ target.triangles, ∀ A B C, target.points[t.1]? = some A → target.points[t.2.1]? = some B →
    target.points[t.2.2]? = some C → NotCollinear A B C := by
  intro t ht A B C hA hB hC
  simp only [target, List.mem_cons, List.not_mem_nil, or_false] at ht
  rcases ht with rfl | rfl
  all_goals
    obtain rfl := Option.some.inj hA
    obtain rfl := Option.some.inj hB
    obtain rfl := Option.some.inj hC
    norm_num [NotCollinear]

theorem cover (X : ℝ × ℝ) (hX : Geo.polygon_contains square X = true) : ∃ t ∈ target.triangles, ∃ A B C, target.points[t.1]? = some A ∧
    target.points[t.2.1]? = some B ∧ target.points[t.2.2]? = some C ∧ InTriangle A B C X := by
  have h := (C99_convex square 1 (.inl rfl) square_convex square_corners X).1 hX
  have h1 := h (0, 0) (1, 0) ⟨0, rfl, rfl⟩ (by norm_num)
  have h2 := h (1, 0) (1, 1) ⟨1, rfl, rfl⟩ (by norm_num)
  have h3 := h (1, 1) (0, 1) ⟨2, rfl, rfl⟩ (by norm_num)
  have h4 := h (0, 1) (0, 0) ⟨3, rfl, rfl⟩ (by norm_num)
  simp only [leftOf] at h1 h2 h3 h4
  rcases le_total X.2 X.1 with hd | hd
  · refine ⟨_, List.mem_cons_self, (0, 0), (1, 0), (1, 1), rfl, rfl, rfl, 1 - X.1, X.1 - X.2, X.2, ?_, ?_, ?_, ?_, ?_, ?_⟩ <;> linarith
  · refine ⟨_, List.mem_cons_of_mem _ List.mem_cons_self, (0, 0), (1, 1), (0, 1), rfl, rfl, rfl, 1 - X.2, X.1, X.2 - X.1, ?_, ?_, ?_, ?_, ?_, ?_⟩ <;>
      linarith

noncomputable def mat (g : Mesh2D ℝ) : Material ℝ := { LocalEndsExample.mat with geometry := g.toGeom (Geo.ext PolygonScaleExample.parse) }

theorem cut_out {g : Mesh2D ℝ} (hg : Mesh2D.new (Geo.ext PolygonScaleExample.parse) target = .ok g) : CutOutMesh PolygonScaleExample.parse g (mat g) 1 (1/(1/2)^3) 1 :=
  cut_out_mesh_of_input (u := 1/2) (by norm_num) PolygonScaleExample.parse target g (mat g) 1 1 1 one_pos half hg rfl
    (by constructor <;> simp [mat, LocalEndsExample.mat, BulkScreenedExample.mat, SpecialRunExample.mat, CascadeExample.mat])
    (by simp [mat, LocalEndsExample.mat, BulkScreenedExample.mat, SpecialRunExample.mat, CascadeExample.mat])
    square corners square_corners (by simp [target]) (by simp [target]) proper cover
    (by
      intro ds hds
      simp only [target, List.mem_cons, List.not_mem_nil, or_false] at hds
      rcases hds with rfl | rfl <;> simp)
    (by
      intro k hk
      simp only [target, List.mem_cons, List.not_mem_nil, or_false] at hk
      rcases hk with rfl | rfl <;> norm_num)
    LocalEndsExample.target_sound.m LocalEndsExample.target_sound.Z SpecialRunExample.target_regular.Ec_pos
    LocalEndsExample.target_sound.Es LocalEndsExample.target_sound.Eb inner_within

/-- C130 from the input: a thousand ions, of all energies above the cutoff. -/
example (rcpr : Rcpr ℝ) (E : ℕ → ℝ) (hE : ∀ i, unit ≤ E i) : ∃ g, Mesh2D.new (Geo.ext PolygonScaleExample.parse) target = .ok g ∧
    ∃ N, ∀ fuel, N ≤ fuel → ∀ cfg splits tapes, (∀ i, OpenUnit (tapes i)) →
      physics_loop_run rcpr fuel cfg (mat g) { LocalEndsExample.options with track_recoils := false } splits tapes
        ((List.range 1000).map fun i => PolygonScaleExample.input (E i)) ≠ .error .fuel := by
  obtain ⟨g, hg⟩ := built
  refine ⟨g, hg, C130_mesh2D (eb := 1) rcpr { LocalEndsExample.options with track_recoils := false } (cut_out hg) (by norm_num) one_pos
    rfl rfl (SpecialRunExample.screened false) (Or.inl rfl) BulkScreenedExample.tables' _ fun q hq => ?_⟩
  obtain ⟨i, -, rfl⟩ := List.mem_map.1 hq
  refine ⟨one_pos, one_pos, unit_pos, hE i, le_rfl, ?_, BulkScreenedExample.tables⟩
  obtain ⟨-, ⟨cs, hcs, hb⟩, -⟩ := C99_built_mesh _ _ _ _ half hg
  have e : cs = square := by
    have : cs.length = square.length := hcs.length_eq.symm.trans corners.length_eq
    refine List.ext_getElem this fun k h1 h2 => ?_
    have hk : k < target.boundary.length := by simpa [corners.length_eq] using h2
    exact Option.some.inj ((hcs.get hk h1).symm.trans (corners.get hk h2))
  have ep : ((1/4, 1/4) : ℝ × ℝ) = scaled (1/2) (1/2, 1/2) := by norm_num [scaled]
  show Geo.polygon_contains g.boundary (1/4, 1/4) = true
  rw [hb, e, scaled_fun, ep, C99_scaled (by norm_num)]
  exact middle_inside

end RustBCA.MeshInputExample
