import Verif.Props.Volumes
import Verif.Examples.ParryInput
import Verif.Examples.Geometry
import Mathlib.Topology.Order.Compact
import Mathlib.Analysis.Real.Pi.Bounds

/-!
# C109: the hypotheses are met
-/

namespace RustBCA.VolumesExample
open Scalar Spec SolidExample ParryInputExample

theorem angstrom_pos : (0:ℝ) < ANGSTROM ℝ := by unfold ANGSTROM; norm_num

/-! ## Distances to meshes exist -/

theorem tri_compact (t : Tri) : IsCompact {q | OnTri t q} := by
  have hK : IsCompact (Set.Icc (0:ℝ × ℝ × ℝ) (1, 1, 1) ∩ {w | w.1 + w.2.1 + w.2.2 = 1}) :=
    isCompact_Icc.inter_right (isClosed_eq (by fun_prop) (by fun_prop))
  have := hK.image (f := fun w : ℝ × ℝ × ℝ =>
    (w.1*t.1.1 + w.2.1*t.2.1.1 + w.2.2*t.2.2.1, w.1*t.1.2.1 + w.2.1*t.2.1.2.1 + w.2.2*t.2.2.2.1,
    w.1*t.1.2.2 + w.2.1*t.2.1.2.2 + w.2.2*t.2.2.2.2)) (by fun_prop)
  convert this using 1
  ext q
  constructor
  · rintro ⟨a, b, c, ha, hb, hc, hs, hq⟩
    exact ⟨(a, b, c), ⟨⟨⟨ha, hb, hc⟩, ⟨by show a ≤ 1; linarith, by show b ≤ 1; linarith,
      by show c ≤ 1; linarith⟩⟩, hs⟩, hq.symm⟩
  · rintro ⟨⟨a, b, c⟩, ⟨⟨⟨ha, hb, hc⟩, -⟩, hs⟩, hq⟩
    exact ⟨a, b, c, ha, hb, hc, hs, hq.symm⟩

theorem surface_compact (tris : List Tri) : IsCompact (surfaceOf tris) := by
  have := (List.finite_toSet tris).isCompact_biUnion (fun t _ => tri_compact t)
  convert this using 1
  ext q
  simp [surfaceOf]

theorem box_compact (tris : List Tri) : IsCompact (boxOf tris) := by
  obtain ⟨V, hV⟩ : ∃ V : List Point, V = tris.flatMap fun t => [t.1, t.2.1, t.2.2] := ⟨_, rfl⟩
  have hmem : ∀ f : Point → Prop, (∃ t ∈ tris, ∃ v ∈ [t.1, t.2.1, t.2.2], f v) ↔ ∃ v ∈ V, f v := by
    intro f
    rw [hV]
    simp only [List.mem_flatMap]
    constructor
    · rintro ⟨t, ht, v, hv, h⟩; exact ⟨v, ⟨t, ht, hv⟩, h⟩
    · rintro ⟨v, ⟨t, ht, hv⟩, h⟩; exact ⟨t, ht, v, hv, h⟩
  have hf := List.finite_toSet V
  have := ((hf.prod (hf.prod hf)).prod (hf.prod (hf.prod hf))).isCompact_biUnion
    (f := fun w : (Point × Point × Point) × Point × Point × Point =>
      Set.Icc ((w.1.1.1, w.1.2.1.2.1, w.1.2.2.2.2) : Point) (w.2.1.1, w.2.2.1.2.1, w.2.2.2.2.2))
    (fun _ _ => isCompact_Icc)
  convert this using 1
  ext p
  simp only [boxOf, List.mem_cons, List.not_mem_nil, or_false, forall_eq_or_imp, forall_eq,
    Set.mem_ofPred_eq, Set.mem_iUnion]
  have e : ∀ (f : Point → Prop), (∃ t ∈ tris, ∃ v, (v = t.1 ∨ v = t.2.1 ∨ v = t.2.2) ∧ f v) ↔
      ∃ v ∈ V, f v := by
    intro f
    rw [← hmem]
    simp
  rw [e, e, e, e, e, e]
  constructor
  · rintro ⟨⟨⟨a, ha, h1⟩, ⟨d, hd, h2⟩⟩, ⟨⟨b, hb, h3⟩, ⟨e, he, h4⟩⟩, ⟨⟨c, hc, h5⟩, ⟨f, hf, h6⟩⟩⟩
    exact ⟨((a, b, c), (d, e, f)), ⟨⟨ha, hb, hc⟩, hd, he, hf⟩, ⟨h1, h3, h5⟩, ⟨h2, h4, h6⟩⟩
  · rintro ⟨⟨⟨a, b, c⟩, ⟨d, e, f⟩⟩, ⟨⟨ha, hb, hc⟩, hd, he, hf⟩, ⟨h1, h3, h5⟩, ⟨h2, h4, h6⟩⟩
    exact ⟨⟨⟨a, ha, h1⟩, ⟨d, hd, h2⟩⟩, ⟨⟨b, hb, h3⟩, ⟨e, he, h4⟩⟩, ⟨⟨c, hc, h5⟩, ⟨f, hf, h6⟩⟩⟩

theorem nearest_exists {T : Set Point} (hc : IsCompact T) (hne : T.Nonempty) (p : Point) :
    ∃ q ∈ T, ∀ q' ∈ T, sqDist p.1 p.2.1 p.2.2 q ≤ sqDist p.1 p.2.1 p.2.2 q' := by
  obtain ⟨q, hq, h⟩ := hc.exists_isMinOn hne
    (f := fun q => sqDist p.1 p.2.1 p.2.2 q) (by unfold sqDist; fun_prop)
  exact ⟨q, hq, fun q' hq' => h hq'⟩

open Classical in
/-- A nearest point of a set, where there is one. -/
noncomputable def nearest (T : Set Point) (p : Point) : Point :=
  if h : ∃ q ∈ T, ∀ q' ∈ T, sqDist p.1 p.2.1 p.2.2 q ≤ sqDist p.1 p.2.1 p.2.2 q' then h.choose else p

theorem nearest_spec {T : Set Point} (hc : IsCompact T) (hne : T.Nonempty) (p : Point) :
    nearest T p ∈ T ∧ ∀ q' ∈ T, sqDist p.1 p.2.1 p.2.2 (nearest T p) ≤ sqDist p.1 p.2.1 p.2.2 q' := by
  have h := nearest_exists hc hne p
  unfold nearest
  rw [dif_pos h]
  exact h.choose_spec

theorem nearest_distance {T : Set Point} (hc : IsCompact T) (hne : T.Nonempty) (p : Point) :
    IsDistance T p (Real.sqrt (sqDist p.1 p.2.1 p.2.2 (nearest T p))) := by
  obtain ⟨h1, h2⟩ := nearest_spec hc hne p
  exact ⟨⟨_, h1, rfl⟩, fun q hq => Real.sqrt_le_sqrt (h2 q hq)⟩

/-- The reference implementation of `Examples.Parry`, with distances. -/
noncomputable def parry : Parry ℝ := { ParryExample.parry with
  aabb_distance := fun (tris : List Tri) p _ =>
    Real.sqrt (sqDist p.1 p.2.1 p.2.2 (nearest (boxOf tris) p))
  trimesh_distance := fun (tris : List Tri) p _ =>
    Real.sqrt (sqDist p.1 p.2.1 p.2.2 (nearest (surfaceOf tris) p))
  trimesh_project := fun (tris : List Tri) p _ => nearest (surfaceOf tris) p }

theorem surface_nonempty {tris : List Tri} (h : tris ≠ []) : (surfaceOf tris).Nonempty := by
  obtain ⟨t, ht⟩ := List.exists_mem_of_ne_nil _ h
  exact ⟨t.1, t, ht, 1, 0, 0, by norm_num, le_rfl, le_rfl, by norm_num, by simp⟩

theorem box_nonempty {tris : List Tri} (h : tris ≠ []) : (boxOf tris).Nonempty := by
  obtain ⟨t, ht⟩ := List.exists_mem_of_ne_nil _ h
  exact ⟨t.1, fun coord _ => ⟨⟨t, ht, t.1, by simp, le_rfl⟩, ⟨t, ht, t.1, by simp, le_rfl⟩⟩⟩

theorem measures : MeasuresMeshes parry := by
  intro vertices indices mesh tris hnew ht hne
  have h : mesh = tris := by
    have key : ∀ (is : List (ℕ × ℕ × ℕ)) (ts acc : List Tri) (r : List Tri), TrianglesOf vertices is ts →
        forFold (m := Res) (fun acc (i : Nat × Nat × Nat) => do
          let a ← vget vertices i.1
          let b ← vget vertices i.2.1
          let c ← vget vertices i.2.2
          pure (acc ++ [(a, b, c)])) is acc = .ok r → r = acc ++ ts := by
      intro is
      induction is with
      | nil =>
        intro ts acc r h1 h2
        cases h1
        cases h2
        simp
      | cons i is ih =>
        intro ts acc r h1 h2
        cases h1 with
        | @cons _ t _ ts' hit hrest =>
          obtain ⟨ha, hb, hc⟩ := hit
          simp only [forFold, vget, ha, hb, hc, bind, Except.bind, pure, Except.pure] at h2
          have := ih ts' _ r hrest h2
          rw [this, List.append_assoc]
          rfl
    exact key indices tris [] mesh ht hnew
  subst h
  exact ⟨fun p => nearest_distance (surface_compact _) (surface_nonempty hne) p,
    fun p => nearest_distance (box_compact _) (box_nonempty hne) p,
    fun p => nearest_spec (surface_compact _) (surface_nonempty hne) p⟩

/-- The tetrahedron with edges of 1/4 Å and one atom per cubic Ångström: a point 3/4 Å above its tip is
in the energy barrier. -/
example : ∃ g : ParryTriMesh ℝ parry, ParryTriMesh.new ext parry input = .ok g ∧
    g.toGeom.inside_energy_barrier 0 0 (1*ANGSTROM ℝ) = .ok true := by
  have hu : length_unit_of ext input.length_unit = .ok (ANGSTROM ℝ) := rfl
  obtain ⟨g, hg⟩ : ∃ g, ParryTriMesh.new ext parry input = .ok g := ⟨_, rfl⟩
  refine ⟨g, hg, ?_⟩
  have hA := angstrom_pos
  obtain ⟨d, hd, h⟩ := C109_trimesh ext parry measures input _ g hu hA (by norm_num [input]) hg
    (faces 0 (1/4)) (by simp [faces]) triangles
  rw [(h 0 0 (1*ANGSTROM ℝ)).1]
  refine .inr ⟨(0, 0, 1/4*ANGSTROM ℝ), ?_, ?_⟩
  · refine ⟨triInMetres (ANGSTROM ℝ) ((0, 0, 0), (0, 0, 1/4), (0, 1/4, 0)), ?_, 0, 1, 0, le_rfl,
      by norm_num, le_rfl, by norm_num, ?_⟩
    · rw [List.mem_map]
      exact ⟨_, by simp [faces], rfl⟩
    · simp [triInMetres, inMetres]
  · obtain ⟨s, hs, hs3, e⟩ := hd
    have hsA : s = ANGSTROM ℝ := by
      have : s^3 = (ANGSTROM ℝ)^3 := by
        simp only [input, List.sum_cons, List.sum_nil, add_zero] at hs3
        field_simp at hs3
        linarith
      exact (pow_left_inj₀ hs.le hA.le (by norm_num)).mp this
    have e2 : sqDist 0 0 (1*ANGSTROM ℝ) (0, 0, 1/4*ANGSTROM ℝ) = (3/4*ANGSTROM ℝ)^2 := by
      unfold sqDist; ring
    show Real.sqrt (sqDist 0 0 (1*ANGSTROM ℝ) _) < d
    rw [e2, Real.sqrt_sq (by positivity), e, hsA]
    have hp : Real.sqrt Real.pi < 2 := by
      rw [Real.sqrt_lt' (by norm_num)]
      linarith [Real.pi_lt_d2]
    have : 1 < 2/Real.sqrt Real.pi := by
      rw [lt_div_iff₀ (Real.sqrt_pos.mpr Real.pi_pos)]; linarith
    nlinarith

/-! ## The other targets -/

/-- The two layers of `Examples.Geometry`: both have four atoms per cubic metre. -/
example : ∃ g d d', Mesh1D.new GeometryExample.ext GeometryExample.layered = .ok g ∧
    IsThickness 4 d ∧ IsThickness 4 d' ∧ ∀ x y z,
      g.toGeom.inside_energy_barrier x y z = .ok true ↔ (x, y, z) ∈ Around {p | 0 < p.1} d ∧
        (x, y, z) ∈ Around {p | p.1 < 3} d' := by
  obtain ⟨g, hg⟩ := GeometryExample.layered_built
  obtain ⟨first, last, d, d', hf, hl, h1, h2, h3⟩ := C109_mesh1d _ _ 1 g GeometryExample.metre one_pos
    rfl (by intro ds h; simp [GeometryExample.layered] at h; rcases h with h | h <;> rw [h] <;> norm_num) hg
  have e1 : first = [1, 3] := by simpa [GeometryExample.layered] using hf.symm
  have e2 : last = [2, 2] := by simpa [GeometryExample.layered] using hl.symm
  rw [e1] at h1
  rw [e2] at h2
  norm_num at h1 h2
  refine ⟨g, d, d', hg, h1, h2, fun x y z => ?_⟩
  have := (h3 x y z).1
  have e3 : GeometryExample.layered.layer_thicknesses.sum*1 = 3 := by
    simp [GeometryExample.layered]; norm_num
  rwa [e3] at this

example : ∃ g, Mesh0D.new ext ⟨"ANGSTROM", [1/20, 1/30], 1⟩ = .ok g ∧
    ∃ d, IsThickness ((1/12)/(ANGSTROM ℝ)^3) d ∧ SurroundedBy g.toGeom {p | 0 < p.1} d := by
  refine ⟨_, rfl, ?_⟩
  have := C109_mesh0d ext ⟨"ANGSTROM", [1/20, 1/30], 1⟩ _ _ rfl angstrom_pos (by norm_num) rfl
  norm_num at this ⊢
  exact this

example : ∃ g, Sphere.new ext ⟨"ANGSTROM", 5, [1/20], 1⟩ = .ok g ∧
    ∃ d, IsThickness ((1/20)/(ANGSTROM ℝ)^3) d ∧ SurroundedBy g.toGeom
      {p | Real.sqrt (p.1^2 + p.2.1^2 + p.2.2^2) < 5*ANGSTROM ℝ} d := by
  refine ⟨_, rfl, ?_⟩
  have := C109_sphere ext ⟨"ANGSTROM", 5, [1/20], 1⟩ _ _ rfl angstrom_pos (by norm_num) (by norm_num) rfl
  simpa using this

example : ∃ g, ParryBall.new ext ⟨"ANGSTROM", 5, [1/20], 1⟩ = .ok g ∧
    ∃ d, IsThickness ((1/20)/(ANGSTROM ℝ)^3) d ∧ SurroundedBy (g.toGeom ParryExample.parry)
      {p | Real.sqrt (p.1^2 + p.2.1^2 + p.2.2^2) < 5*ANGSTROM ℝ} d := by
  refine ⟨_, rfl, ?_⟩
  have := C109_ball ext ParryExample.parry ParryExample.ballContract ⟨"ANGSTROM", 5, [1/20], 1⟩ _ _ rfl
    angstrom_pos (by norm_num) (by norm_num) rfl
  simpa using this

end RustBCA.VolumesExample
