import Verif.Props.BulkPolygon
import Verif.Examples.Polygon
import Verif.Examples.LocalEnds
import Verif.Examples.AlmostSurely

/-! # C125, C127 in a 2D target: a unit square of hydrogen, simulated in a smaller square -/

set_option linter.unusedSimpArgs false
set_option linter.unusedVariables false

namespace RustBCA.BulkPolygonExample
open Scalar Spec SpecialExample PolygonExample MeasureTheory

/-- The square from 1/4 to 3/4, counterclockwise. -/
noncomputable def inner : List (ℝ × ℝ) := [(1/4, 1/4), (3/4, 1/4), (3/4, 3/4), (1/4, 3/4)]

theorem inner_edges {A B : ℝ × ℝ} (h : Edge inner A B) : (A = (1/4, 1/4) ∧ B = (3/4, 1/4)) ∨ (A = (3/4, 1/4) ∧ B = (3/4, 3/4)) ∨
    (A = (3/4, 3/4) ∧ B = (1/4, 3/4)) ∨ (A = (1/4, 3/4) ∧ B = (1/4, 1/4)) := by
  obtain ⟨i, h1, h2⟩ := h
  match i, h1, h2 with
  | 0, h1, h2 => injection h1 with h1; injection h2 with h2; exact .inl ⟨h1.symm, h2.symm⟩
  | 1, h1, h2 => injection h1 with h1; injection h2 with h2; exact .inr (.inl ⟨h1.symm, h2.symm⟩)
  | 2, h1, h2 => injection h1 with h1; injection h2 with h2; exact .inr (.inr (.inl ⟨h1.symm, h2.symm⟩))
  | 3, h1, h2 => injection h1 with h1; injection h2 with h2; exact .inr (.inr (.inr ⟨h1.symm, h2.symm⟩))
  | n + 4, h1, h2 => cases h1

theorem inner_convex : ConvexPolygon inner 1 := by
  intro A B X hE hX
  simp only [inner, List.mem_cons, List.not_mem_nil, or_false] at hX
  rcases inner_edges hE with ⟨rfl, rfl⟩ | ⟨rfl, rfl⟩ | ⟨rfl, rfl⟩ | ⟨rfl, rfl⟩ <;>
    rcases hX with rfl | rfl | rfl | rfl <;> norm_num [leftOf]

theorem inner_corners : TwoCorners inner :=
  ⟨(1/4, 1/4), by simp [inner], (3/4, 1/4), by simp [inner], by norm_num⟩

theorem inner_within (P : ℝ × ℝ) (h : Geo.polygon_contains inner P = true) : Geo.polygon_contains square P = true := by
  rw [C99_convex inner 1 (.inl rfl) inner_convex inner_corners] at h
  rw [C99_convex square 1 (.inl rfl) square_convex square_corners]
  have h1 := h (1/4, 1/4) (3/4, 1/4) ⟨0, rfl, rfl⟩ (by norm_num)
  have h2 := h (3/4, 1/4) (3/4, 3/4) ⟨1, rfl, rfl⟩ (by norm_num)
  have h3 := h (3/4, 3/4) (1/4, 3/4) ⟨2, rfl, rfl⟩ (by norm_num)
  have h4 := h (1/4, 3/4) (1/4, 1/4) ⟨3, rfl, rfl⟩ (by norm_num)
  norm_num [leftOf] at h1 h2 h3 h4
  intro A B hE _
  rcases edges hE with ⟨rfl, rfl⟩ | ⟨rfl, rfl⟩ | ⟨rfl, rfl⟩ | ⟨rfl, rfl⟩ <;> norm_num [leftOf] <;> linarith

/-- The target: one species of density 1, the simulation in the inner square. -/
noncomputable def target : HomogeneousMesh2D ℝ where
  boundary := square
  simulation_boundary := inner
  energy_barrier_thickness := 1/10
  densities := [1]
  electronic_stopping_correction_factor := 1
  concentrations := [1]

noncomputable def mat (parse : String → Option ℝ) : Material ℝ := { LocalEndsExample.mat with geometry := target.toGeom (Geo.ext parse) }

variable (parse : String → Option ℝ)

theorem cut_out : CutOut parse target (mat parse) 1 where
  geometry := rfl
  tabulated := by constructor <;> simp [mat, LocalEndsExample.mat, BulkScreenedExample.mat, SpecialRunExample.mat, CascadeExample.mat]
  species := by simp [mat, LocalEndsExample.mat, BulkScreenedExample.mat, SpecialRunExample.mat, CascadeExample.mat]
  corners := square_corners
  thick := by norm_num [target]
  densities := by simp [target]
  concentrations := by simp [target, Concentrations]
  ck := one_pos
  m := LocalEndsExample.target_sound.m
  Z := LocalEndsExample.target_sound.Z
  Ec := SpecialRunExample.target_regular.Ec_pos
  Es := LocalEndsExample.target_sound.Es
  Eb := LocalEndsExample.target_sound.Eb
  within := inner_within

theorem bound : BoundBy (mat parse) 1 := by
  intro x y z cs h
  obtain rfl := Except.ok.inj h
  simp [mat, LocalEndsExample.mat, target]

/-- The hydrogen ion of `BulkScreenedExample` in the middle of the square. -/
noncomputable def ion (E : ℝ) : Particle ℝ := { BulkScreenedExample.ion E with pos := ⟨1/2, 1/2, 0⟩ }

theorem ion_sound (E : ℝ) (hE : unit ≤ E) : SoundParticle (ion E) :=
  let h := (BulkScreenedExample.ion_regular E hE).sound
  ⟨h.m, h.Z, h.E, h.Es, h.dir⟩

/-- C127: with local stopping every run in the square ends. -/
example (rcpr : Rcpr ℝ) (E : ℝ) (hE : unit ≤ E) : ∃ N, ∀ fuel, N ≤ fuel → ∀ tape, OpenUnit tape →
    single_ion_bca rcpr fuel (ion E) (mat parse) LocalEndsExample.options tape ≠ .error .fuel :=
  C127_homogeneous2D (ion := ion E) (eb := 1) rcpr LocalEndsExample.options (cut_out parse) rfl rfl (SpecialRunExample.screened false)
    (Or.inr ⟨bound parse, one_pos⟩) BulkScreenedExample.tables BulkScreenedExample.tables' (ion_sound E hE) unit_pos hE
    middle_inside rfl rfl

/-- C125: with nonlocal stopping and a screened potential the run ends with probability one. -/
example (rcpr : Rcpr ℝ) (E : ℝ) (hE : unit ≤ E) : ∀ᵐ tape ∂randomTape, ∃ fuel,
    single_ion_bca rcpr fuel (ion E) (mat parse) BulkScreenedExample.options tape ≠ .error .fuel :=
  C125_homogeneous2D_screened (ion := ion E) rcpr BulkScreenedExample.options (cut_out parse) rfl rfl rfl (Or.inl rfl)
    (SpecialRunExample.screened false) unit_pos BulkScreenedExample.tables (ion_sound E hE) hE middle_inside rfl rfl

/-- C125 with a Coulomb potential, as a gas with all recoils: the run returns a result with probability one. -/
example (rcpr : Rcpr ℝ) (E : ℝ) (hE : unit ≤ E) : ∀ᵐ tape ∂randomTape, ∃ fuel out tape',
    single_ion_bca rcpr fuel (ion E) (mat parse) AlmostSurelyExample.options tape = .ok (out, tape') := by
  refine C125_homogeneous2D (ion := ion E) (eb := 1) rcpr AlmostSurelyExample.options (cut_out parse) (Or.inr (bound parse)) one_pos
    (by simp [AlmostSurelyExample.options]) ?_ unit_pos AlmostSurelyExample.tables ?_ (ion_sound E hE) middle_inside rfl rfl rfl
  · intro row hrow V hV
    simp only [AlmostSurelyExample.options, BulkExample.options, List.mem_singleton] at hrow
    subst hrow
    exact ⟨1, 1, by simpa using hV⟩
  · intro j hj
    have : j = 0 := by
      simpa [mat, LocalEndsExample.mat, BulkScreenedExample.mat, SpecialRunExample.mat, CascadeExample.mat] using hj
    subst this
    exact AlmostSurelyExample.tables

/-! ## The same square as two triangles of different densities -/

noncomputable def halves : Mesh2D ℝ where
  mesh := [⟨triangle (0, 0) (1, 0) (1, 1), [1], [1], 3⟩, ⟨triangle (0, 0) (1, 1) (0, 1), [2], [1], 1⟩]
  boundary := square
  simulation_boundary := inner
  energy_barrier_thickness := 1/10

noncomputable def mat2 (parse : String → Option ℝ) : Material ℝ := { LocalEndsExample.mat with geometry := halves.toGeom (Geo.ext parse) }

theorem halves_cover (X : ℝ × ℝ) (h : Geo.polygon_contains halves.boundary X = true) :
    ∃ c ∈ halves.mesh, ∃ A B C, c.triangle = triangle A B C ∧ InTriangle A B C X := by
  have h := (C99_convex square 1 (.inl rfl) square_convex square_corners X).1 h
  have h1 := h (0, 0) (1, 0) ⟨0, rfl, rfl⟩ (by norm_num)
  have h2 := h (1, 0) (1, 1) ⟨1, rfl, rfl⟩ (by norm_num)
  have h3 := h (1, 1) (0, 1) ⟨2, rfl, rfl⟩ (by norm_num)
  have h4 := h (0, 1) (0, 0) ⟨3, rfl, rfl⟩ (by norm_num)
  simp only [leftOf] at h1 h2 h3 h4
  rcases le_total X.2 X.1 with hd | hd
  · refine ⟨_, List.mem_cons_self, (0, 0), (1, 0), (1, 1), rfl, 1 - X.1, X.1 - X.2, X.2, ?_, ?_, ?_, ?_, ?_, ?_⟩ <;> linarith
  · refine ⟨_, List.mem_cons_of_mem _ List.mem_cons_self, (0, 0), (1, 1), (0, 1), rfl, 1 - X.2, X.1, X.2 - X.1, ?_, ?_, ?_, ?_, ?_, ?_⟩ <;>
      linarith

theorem cut_out_mesh : CutOutMesh parse halves (mat2 parse) 1 1 1 where
  geometry := rfl
  tabulated := by constructor <;> simp [mat2, LocalEndsExample.mat, BulkScreenedExample.mat, SpecialRunExample.mat, CascadeExample.mat]
  species := by simp [mat2, LocalEndsExample.mat, BulkScreenedExample.mat, SpecialRunExample.mat, CascadeExample.mat]
  corners := square_corners
  cells := by simp [halves]
  proper := by
    intro c hc
    simp only [halves, List.mem_cons, List.not_mem_nil, or_false] at hc
    rcases hc with rfl | rfl
    · exact ⟨_, _, _, rfl, by norm_num [NotCollinear]⟩
    · exact ⟨_, _, _, rfl, by norm_num [NotCollinear]⟩
  cover := halves_cover
  densities := by
    intro c hc
    simp only [halves, List.mem_cons, List.not_mem_nil, or_false] at hc
    rcases hc with rfl | rfl <;> simp
  concentrations := by
    intro c hc
    simp only [halves, List.mem_cons, List.not_mem_nil, or_false] at hc
    rcases hc with rfl | rfl <;> simp [Concentrations]
  factor := by
    intro c hc
    simp only [halves, List.mem_cons, List.not_mem_nil, or_false] at hc
    rcases hc with rfl | rfl <;> norm_num
  m := LocalEndsExample.target_sound.m
  Z := LocalEndsExample.target_sound.Z
  Ec := SpecialRunExample.target_regular.Ec_pos
  Es := LocalEndsExample.target_sound.Es
  Eb := LocalEndsExample.target_sound.Eb
  within := inner_within

/-- C127: with local stopping every run in the two triangles ends. -/
example (rcpr : Rcpr ℝ) (E : ℝ) (hE : unit ≤ E) : ∃ N, ∀ fuel, N ≤ fuel → ∀ tape, OpenUnit tape →
    single_ion_bca rcpr fuel (ion E) (mat2 parse) LocalEndsExample.options tape ≠ .error .fuel := by
  refine C127_mesh2D (ion := ion E) (eb := 1) rcpr LocalEndsExample.options (cut_out_mesh parse) one_pos one_pos rfl rfl
    (SpecialRunExample.screened false) (Or.inr ⟨?_, one_pos⟩) BulkScreenedExample.tables BulkScreenedExample.tables' (ion_sound E hE)
    unit_pos hE middle_inside rfl rfl
  intro x y z cs h
  obtain ⟨c, hc, rfl⟩ := answer_mem h
  simp only [halves, List.mem_cons, List.not_mem_nil, or_false] at hc
  rcases hc with rfl | rfl <;> simp [mat2, LocalEndsExample.mat]

end RustBCA.BulkPolygonExample
