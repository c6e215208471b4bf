import Verif.Props.PolygonScale

/-!
# C99, C130 from the input of a target of triangles
-/

namespace RustBCA
open Scalar Spec

/-- The cell made of a row of the input: the triangle whose corners have the numbers given, in metres, with the densities
of the row, their concentrations and the stopping factor of the row. -/
def CellOf (u : ℝ) (points : List (ℝ × ℝ)) (row : ((ℕ × ℕ × ℕ) × List ℝ) × ℝ) (c : Cell2D ℝ) : Prop :=
  ∃ A B C, points[row.1.1.1]? = some A ∧ points[row.1.1.2.1]? = some B ∧ points[row.1.1.2.2]? = some C ∧
    c.triangle = triangle (A.1*u, A.2*u) (B.1*u, B.2*u) (C.1*u, C.2*u) ∧ c.densities = row.1.2 ∧
    c.concentrations = concentrations_of row.1.2 ∧ c.electronic_stopping_correction_factor = row.2

theorem vget_gives {α : Type} {l : List α} {i : ℕ} {a : α} (h : vget l i = .ok a) : l[i]? = some a := by
  unfold vget at h
  cases hi : l[i]? with
  | none => rw [hi] at h; cases h
  | some b => rw [hi] at h; cases h; rfl

theorem cells_built (u : ℝ) (points : List (ℝ × ℝ)) (rows : List (((ℕ × ℕ × ℕ) × List ℝ) × ℝ)) :
    ∀ cells out, forFold (Mesh2D.cellStep u points) rows cells = .ok out →
      ∃ new, out = cells ++ new ∧ List.Forall₂ (CellOf u points) rows new := by
  induction rows with
  | nil =>
    intro cells out h
    exact ⟨[], by rw [List.append_nil]; exact (Except.ok.inj h).symm, .nil⟩
  | cons row rows ih =>
    intro cells out h
    obtain ⟨m, h1, h2⟩ := forFold_ok_cons.1 h
    obtain ⟨new, e, hn⟩ := ih m out h2
    unfold Mesh2D.cellStep at h1
    simp only [bind, Except.bind, pure, Except.pure] at h1
    cases hA : vget points row.1.1.1 with
    | error e => rw [hA] at h1; cases h1
    | ok A =>
      cases hB : vget points row.1.1.2.1 with
      | error e => rw [hA, hB] at h1; cases h1
      | ok B =>
        cases hC : vget points row.1.1.2.2 with
        | error e => rw [hA, hB, hC] at h1; cases h1
        | ok C =>
          rw [hA, hB, hC] at h1
          have h1 := Except.ok.inj h1
          subst h1
          refine ⟨_ :: new, by rw [e, List.append_assoc]; rfl, .cons ?_ hn⟩
          exact ⟨A, B, C, vget_gives hA, vget_gives hB, vget_gives hC, rfl, rfl, rfl, rfl⟩

theorem corners_built (u : ℝ) (points : List (ℝ × ℝ)) (idx : List ℕ) :
    ∀ acc out, forFold (fun acc index => do
        let p ← vget points index
        pure (acc ++ [(p.1*u, p.2*u)]) : List (ℝ × ℝ) → ℕ → Res (List (ℝ × ℝ))) idx acc = .ok out →
      ∃ corners, List.Forall₂ (fun i p => points[i]? = some p) idx corners ∧ out = acc ++ corners.map (fun p => (p.1*u, p.2*u)) := by
  induction idx with
  | nil =>
    intro acc out h
    exact ⟨[], .nil, by rw [List.map_nil, List.append_nil]; exact (Except.ok.inj h).symm⟩
  | cons i idx ih =>
    intro acc out h
    obtain ⟨m, h1, h2⟩ := forFold_ok_cons.1 h
    obtain ⟨corners, hc, e⟩ := ih m out h2
    simp only [bind, Except.bind, pure, Except.pure] at h1
    cases hA : vget points i with
    | error e => rw [hA] at h1; cases h1
    | ok A =>
      rw [hA] at h1
      have h1 := Except.ok.inj h1
      subst h1
      exact ⟨A :: corners, .cons (vget_gives hA) hc, by rw [e, List.append_assoc]; rfl⟩

/-- **C99**, what is built from the input of a target of triangles: for each row of the input the triangle with the corners
given, in metres, its densities per cubic metre and its stopping factor; the boundary through the points given; the
simulation boundary; the thickness of the barrier in metres. -/
theorem C99_built_mesh (ext : Ext ℝ) (input : Mesh2DInput ℝ) (g : Mesh2D ℝ) (u : ℝ)
    (hu : length_unit_of ext input.length_unit = .ok u) (run : Mesh2D.new ext input = .ok g) :
    List.Forall₂ (CellOf u input.points)
      ((input.triangles.zip (input.densities.map fun ds => ds.map (· / u^3))).zip input.electronic_stopping_correction_factors) g.mesh ∧
    (∃ corners, List.Forall₂ (fun i p => input.points[i]? = some p) input.boundary corners ∧
      g.boundary = corners.map (fun p => (p.1*u, p.2*u))) ∧
    g.simulation_boundary = input.simulation_boundary_points.map (fun p => (p.1*u, p.2*u)) ∧
    g.energy_barrier_thickness = input.energy_barrier_thickness*u ∧
    input.triangles.length = input.densities.length := by
  have hd : input.densities.map (fun ds => ds.map (· / u^3)) = input.densities.map (convert_densities u) :=
    List.map_congr_left fun ds _ => (C41_densities u ds).symm
  rw [hd]
  unfold Mesh2D.new at run
  simp only [hu, bind, Except.bind] at run
  split at run
  · cases run
  · split at run
    · cases run
    · rename_i v2 h2
      split at run
      · cases run
      · rename_i cells hcells
        split at run
        · cases run
        · rename_i bd hbd
          have run := Except.ok.inj run
          subst run
          obtain ⟨new, e, hn⟩ := cells_built _ _ _ _ _ hcells
          obtain ⟨corners, hc, e2⟩ := corners_built u input.points input.boundary [] bd hbd
          simp only [List.nil_append] at e e2
          refine ⟨e ▸ hn, ⟨corners, hc, e2⟩, rfl, rfl, ?_⟩
          unfold rassert at h2
          split at h2
          · rename_i hh
            simpa using hh
          · cases h2

/-- A target of triangles built from an accepted input is one in which runs can be followed, if in the input: the triangles
are proper and cover the polygon of the material; each has one non-negative density per species, adding up to at least `d`,
and a stopping factor of at least `ck`; and the simulation boundary lies in the material. -/
theorem cut_out_mesh_of_input {u : ℝ} (hu : 0 < u) (parse : String → Option ℝ) (input : Mesh2DInput ℝ) (g : Mesh2D ℝ)
    (mat : Material ℝ) (n : ℕ) (d ck : ℝ) (hd0 : 0 < d)
    (hlen : length_unit_of (Geo.ext parse) input.length_unit = .ok u)
    (run : Mesh2D.new (Geo.ext parse) input = .ok g)
    (hg : mat.geometry = g.toGeom (Geo.ext parse)) (htab : Tabulated mat n) (hZ : mat.Z.length = n)
    (corners : List (ℝ × ℝ)) (hcorners : List.Forall₂ (fun i p => input.points[i]? = some p) input.boundary corners)
    (h2 : TwoCorners corners) (hne : input.triangles ≠ [])
    (hfac : input.electronic_stopping_correction_factors.length = input.triangles.length)
    (hproper : ∀ t ∈ input.triangles, ∀ A B C, input.points[t.1]? = some A → input.points[t.2.1]? = some B →
      input.points[t.2.2]? = some C → NotCollinear A B C)
    (hcover : ∀ X, Geo.polygon_contains corners X = true → ∃ t ∈ input.triangles, ∃ A B C, input.points[t.1]? = some A ∧
      input.points[t.2.1]? = some B ∧ input.points[t.2.2]? = some C ∧ InTriangle A B C X)
    (hd : ∀ ds ∈ input.densities, ds.length = n ∧ (∀ d ∈ ds, 0 ≤ d) ∧ d ≤ ds.sum)
    (hck : ∀ k ∈ input.electronic_stopping_correction_factors, ck ≤ k)
    (hm : ∀ m ∈ mat.m, 0 < m) (hZp : ∀ Z ∈ mat.Z, 0 < Z) (hEc : ∀ E ∈ mat.Ec, 0 < E) (hEs : ∀ E ∈ mat.Es, 0 ≤ E)
    (hEb : ∀ E ∈ mat.Eb, 0 ≤ E)
    (hwithin : ∀ P, Geo.polygon_contains input.simulation_boundary_points P = true → Geo.polygon_contains corners P = true) :
    CutOutMesh parse g mat n (d/u^3) ck := by
  obtain ⟨hcells, ⟨corners', hc', hb⟩, hs, -, hl⟩ := C99_built_mesh (Geo.ext parse) input g u hlen run
  have hcc : corners' = corners := by
    clear hb hcover hwithin h2 hproper hcells
    generalize input.boundary = b at *
    induction hcorners generalizing corners' with
    | nil => cases hc'; rfl
    | cons h1 _ ih =>
      cases hc' with
      | cons h3 h4 => rw [Option.some.inj (h3.symm.trans h1), ih _ h4]
  subst hcc
  rw [scaled_fun] at hb hs
  -- a cell comes from a row
  have one : ∀ c ∈ g.mesh, ∃ t ∈ input.triangles, ∃ ds ∈ input.densities, ∃ k ∈ input.electronic_stopping_correction_factors,
      CellOf u input.points ((t, ds.map (· / u^3)), k) c := by
    intro c hc
    obtain ⟨i, hi, rfl⟩ := List.getElem_of_mem hc
    have hi' : i < ((input.triangles.zip (input.densities.map fun ds => ds.map (· / u^3))).zip
        input.electronic_stopping_correction_factors).length := hcells.length_eq ▸ hi
    have h := hcells.get hi' hi
    simp only [List.get_eq_getElem, List.getElem_zip, List.getElem_map] at h
    exact ⟨_, List.getElem_mem _, _, List.getElem_mem _, _, List.getElem_mem _, h⟩
  -- a triangle gives a cell
  have all : ∀ t ∈ input.triangles, ∃ c ∈ g.mesh, ∃ ds k, CellOf u input.points ((t, ds), k) c := by
    intro t ht
    obtain ⟨i, hi, rfl⟩ := List.getElem_of_mem ht
    have hi' : i < ((input.triangles.zip (input.densities.map fun ds => ds.map (· / u^3))).zip
        input.electronic_stopping_correction_factors).length := by
      simp only [List.length_zip, List.length_map]
      omega
    have hi2 : i < g.mesh.length := hcells.length_eq ▸ hi'
    have h := hcells.get hi' hi2
    simp only [List.get_eq_getElem, List.getElem_zip, List.getElem_map] at h
    exact ⟨_, List.getElem_mem _, _, _, h⟩
  have u3 : 0 < u^3 := by positivity
  have e : ∀ P : ℝ × ℝ, P = scaled u (P.1/u, P.2/u) := fun P => by
    ext <;> simp [scaled, div_mul_cancel₀ _ hu.ne']
  have hsum : ∀ ds : List ℝ, (ds.map (· / u^3)).sum = ds.sum/u^3 := fun ds => by rw [sum_map_quot]
  refine ⟨hg, htab, hZ, ?_, ?_, ?_, ?_, ?_, ?_, ?_, hm, hZp, hEc, hEs, hEb, ?_⟩
  · obtain ⟨A, hA, B, hB, hne⟩ := h2
    rw [hb]
    refine ⟨_, List.mem_map_of_mem hA, _, List.mem_map_of_mem hB, fun e => hne ?_⟩
    obtain ⟨e1, e2⟩ := Prod.mk.inj e
    exact Prod.ext (mul_right_cancel₀ hu.ne' e1) (mul_right_cancel₀ hu.ne' e2)
  · intro h
    obtain ⟨t, ht⟩ := List.exists_mem_of_ne_nil _ hne
    obtain ⟨c, hc, -⟩ := all t ht
    rw [h] at hc
    cases hc
  · intro c hc
    obtain ⟨t, ht, ds, -, k, -, A, B, C, hA, hB, hC, htri, -⟩ := one c hc
    refine ⟨_, _, _, htri, ?_⟩
    have h := hproper t ht A B C hA hB hC
    unfold NotCollinear at h ⊢
    simp only
    have e : (B.1*u - A.1*u)*(C.2*u - A.2*u) - (B.2*u - A.2*u)*(C.1*u - A.1*u) =
        ((B.1 - A.1)*(C.2 - A.2) - (B.2 - A.2)*(C.1 - A.1))*(u*u) := by ring
    rw [e]
    exact mul_ne_zero h (by positivity)
  · intro X hX
    rw [hb, e X, C99_scaled hu] at hX
    obtain ⟨t, ht, A, B, C, hA, hB, hC, a, b, c, h1, h3, h4, h5, h6, h7⟩ := hcover _ hX
    obtain ⟨cell, hcell, ds, k, A', B', C', hA', hB', hC', htri, -⟩ := all t ht
    obtain rfl := Option.some.inj (hA.symm.trans hA')
    obtain rfl := Option.some.inj (hB.symm.trans hB')
    obtain rfl := Option.some.inj (hC.symm.trans hC')
    refine ⟨cell, hcell, _, _, _, htri, a, b, c, h1, h3, h4, h5, ?_, ?_⟩
    · rw [div_eq_iff hu.ne'] at h6
      simp only at h6 ⊢
      rw [h6]; ring
    · rw [div_eq_iff hu.ne'] at h7
      simp only at h7 ⊢
      rw [h7]; ring
  · intro c hc
    obtain ⟨t, -, ds, hds, k, -, A, B, C, -, -, -, -, e1, -, -⟩ := one c hc
    obtain ⟨h1, h3, h4⟩ := hd ds hds
    rw [e1]
    refine ⟨by simpa using h1, ?_, ?_⟩
    · intro x hx
      obtain ⟨y, hy, rfl⟩ := List.mem_map.1 hx
      exact div_nonneg (h3 y hy) u3.le
    · simp only [hsum]
      exact (div_le_div_iff_of_pos_right u3).2 h4
  · intro c hc
    obtain ⟨t, -, ds, hds, k, -, A, B, C, -, -, -, -, -, e1, -⟩ := one c hc
    obtain ⟨h1, h3, h4⟩ := hd ds hds
    have e2 : ds.map (· / u^3) = convert_densities u ds := (C41_densities u ds).symm
    simp only [e2] at e1
    rw [e1]
    exact ⟨by simp [concentrations_of, convert_densities, h1], converted_concentrations u hu ds h3 (hd0.trans_le h4)⟩
  · intro c hc
    obtain ⟨t, -, ds, -, k, hk, A, B, C, -, -, -, -, -, -, e1⟩ := one c hc
    rw [e1]
    exact hck k hk
  · intro P h
    rw [hs, e P, C99_scaled hu] at h
    rw [hb, e P, C99_scaled hu]
    exact hwithin _ h

end RustBCA
