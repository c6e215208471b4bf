import Verif.Props.ParryInput
import Verif.Examples.Solid

/-!
# C77 from the input file: the hypotheses are met
-/

namespace RustBCA.ParryInputExample
open Scalar Spec SolidExample

/-- The reference implementation of `Examples.Parry` makes the meshes it is asked for. -/
theorem makes : MakesMeshes ParryExample.parry := by
  intro vertices indices mesh tris hnew ht
  have key : ∀ (is : List (ℕ × ℕ × ℕ)) (ts acc : List Tri) (r : List Tri), TrianglesOf vertices is ts →
      forFold (m := Res) (fun acc (i : Nat × Nat × Nat) => do
        let a ← vget vertices i.1
        let b ← vget vertices i.2.1
        let c ← vget vertices i.2.2
        pure (acc ++ [(a, b, c)])) is acc = .ok r → r = acc ++ ts := by
    intro is
    induction is with
    | nil =>
      intro ts acc r h1 h2
      cases h1
      cases h2
      simp
    | cons i is ih =>
      intro ts acc r h1 h2
      cases h1 with
      | @cons _ t _ ts' hit hrest =>
        obtain ⟨ha, hb, hc⟩ := hit
        simp only [forFold, vget, ha, hb, hc, bind, Except.bind, pure, Except.pure] at h2
        have := ih ts' _ r hrest h2
        rw [this, List.append_assoc]
        rfl
  have h := key indices tris [] mesh ht hnew
  rw [List.nil_append] at h
  subst h
  exact ParryExample.meshContract mesh

/-- No unit names besides the built-in ones, no polygons. -/
noncomputable def ext : Ext ℝ := ⟨fun _ => none, fun _ _ => false, fun _ _ => none⟩

/-- The tetrahedron with edges of 1/4 Å, as a file describes it. -/
noncomputable def input : ParryTriMeshInput ℝ where
  length_unit := "ANGSTROM"
  densities := [1]
  electronic_stopping_correction_factor := 1
  vertices := [(0, 0, 0), (0 + 1/4, 0, 0), (0, 1/4, 0), (0, 0, 1/4)]
  indices := [(0, 3, 2), (0, 1, 3), (0, 2, 1), (1, 2, 3)]

theorem triangles : TrianglesOf input.vertices input.indices (faces 0 (1/4)) := by
  unfold TrianglesOf input faces
  simp

/-- The file is accepted, and a point in the tetrahedron is inside, one beside it is not. -/
example : ∃ g, ParryTriMesh.new ext ParryExample.parry input = .ok g ∧
    g.toGeom.inside (1/10*ANGSTROM ℝ) (1/20*ANGSTROM ℝ) (1/25*ANGSTROM ℝ) = .ok true ∧
    g.toGeom.inside (1/5*ANGSTROM ℝ) (1/20*ANGSTROM ℝ) (1/25*ANGSTROM ℝ) = .ok false ∧ Nested g.toGeom := by
  have hu : length_unit_of ext input.length_unit = .ok (ANGSTROM ℝ) := rfl
  have hu0 : (0:ℝ) < ANGSTROM ℝ := by unfold ANGSTROM; norm_num
  obtain ⟨g, hg⟩ : ∃ g, ParryTriMesh.new ext ParryExample.parry input = .ok g := ⟨_, rfl⟩
  refine ⟨g, hg, ?_, ?_, ?_⟩
  · obtain ⟨b, hb, h⟩ := C77_from_input ext _ makes input _ g hu hu0 hg _ triangles (body 0 (1/4)) (solid (by norm_num))
      (1/10) (1/20) (1/25) (faces_clear (by norm_num) (by norm_num))
    rw [hb, h.2]
    refine ⟨?_, ((0 + 1/4, 0, 0), (0, 1/4, 0), (0, 0, 1/4)), by simp [faces], 3/50, by norm_num, ?_, 16/25, 1/5, 4/25,
      by norm_num, by norm_num, by norm_num, by norm_num, ?_⟩
    · simp only [body, Set.mem_ofPred_eq]
      norm_num
    · unfold ANGSTROM; norm_num
    · refine Prod.ext ?_ (Prod.ext ?_ ?_) <;> norm_num
  · obtain ⟨b, hb, h⟩ := C77_from_input ext _ makes input _ g hu hu0 hg _ triangles (body 0 (1/4)) (solid (by norm_num))
      (1/5) (1/20) (1/25) (faces_clear (by norm_num) (by norm_num))
    rw [hb]
    cases b with
    | false => rfl
    | true =>
      have := (h.1 rfl).1
      simp only [body, Set.mem_ofPred_eq] at this
      norm_num at this
  · exact C77_nested_from_input ext _ input _ g hu hu0 hg (by simp [input]) (fun _ _ => le_rfl)

/-- C41: the same tetrahedron in metres. -/
example : ParryTriMesh.new ext ParryExample.parry { input with
      length_unit := "M"
      densities := [1/(ANGSTROM ℝ)^3]
      vertices := input.vertices.map fun p => (p.1*ANGSTROM ℝ, p.2.1*ANGSTROM ℝ, p.2.2*ANGSTROM ℝ) } =
    ParryTriMesh.new ext ParryExample.parry input := by
  have hu0 : (0:ℝ) < ANGSTROM ℝ := by unfold ANGSTROM; norm_num
  refine C41_trimesh ext _ input _ (ANGSTROM ℝ) (ANGSTROM ℝ) hu0 hu0 rfl ?_ ?_ rfl rfl rfl
  · rw [div_self hu0.ne']
    show Except.ok (1.0:ℝ) = .ok 1
    norm_num
  · simp only [input, List.map_cons, List.map_nil]


end RustBCA.ParryInputExample
