import Verif.Props.RelistedShapes

/-!
# C112: listing the species in another way, in targets of triangles
-/

set_option linter.unusedVariables false
set_option linter.unusedSimpArgs false

namespace RustBCA
open Scalar Spec

variable {rows rows' : List Row} {mat mat' : Material ℝ}

/-- the two descriptions of one triangle -/
structure CellSame (rows rows' : List Row) (a b : Cell2D ℝ) : Prop where
  triangle : b.triangle = a.triangle
  ck : b.electronic_stopping_correction_factor = a.electronic_stopping_correction_factor
  densities : SameDensities rows rows' a.densities b.densities
  concentrations : SameDensities rows rows' a.concentrations b.concentrations

theorem cells_rel {u : ℝ} {points : List (ℝ × ℝ)} :
    ∀ (rs rs' : List (((ℕ × ℕ × ℕ) × List ℝ) × ℝ)), List.Forall₂ (fun r r' : ((ℕ × ℕ × ℕ) × List ℝ) × ℝ =>
        r'.1.1 = r.1.1 ∧ SameDensities rows rows' r.1.2 r'.1.2 ∧ r'.2 = r.2) rs rs' →
      ∀ s s' : List (Cell2D ℝ), List.Forall₂ (CellSame rows rows') s s' →
      RRel (List.Forall₂ (CellSame rows rows'))
        (forFold (Mesh2D.cellStep u points) rs s) (forFold (Mesh2D.cellStep u points) rs' s') := by
  intro rs rs' h
  induction h with
  | nil => intro s s' h1; exact h1
  | cons hr h ih =>
    intro s s' h1
    rename_i r r' rs rs'
    obtain ⟨⟨t, d⟩, ck⟩ := r
    obtain ⟨⟨t', d'⟩, ck'⟩ := r'
    obtain ⟨rfl, hd, rfl⟩ := hr
    simp only [forFold]
    refine RRel.bind (R := List.Forall₂ (CellSame rows rows')) ?_ fun t t' ht => ih t t' ht
    simp only [Mesh2D.cellStep]
    exact RRel.bind_same rfl fun _ => RRel.bind_same rfl fun _ => RRel.bind_same rfl fun _ =>
      RRel.pure (List.rel_append h1 (.cons ⟨rfl, rfl, hd, concentrations_same hd⟩ .nil))

theorem find_cell_rel {l l' : List (Cell2D ℝ)} (h : List.Forall₂ (CellSame rows rows') l l') (x y z : ℝ) :
    (∃ a b, l.find? (fun q => q.contains x y z) = some a ∧ l'.find? (fun q => q.contains x y z) = some b ∧
      CellSame rows rows' a b) ∨
    (l.find? (fun q => q.contains x y z) = none ∧ l'.find? (fun q => q.contains x y z) = none) := by
  induction h with
  | nil => exact .inr ⟨rfl, rfl⟩
  | cons hr h ih =>
    rename_i a b l l'
    have hc : b.contains x y z = a.contains x y z := by simp only [Cell2D.contains, hr.triangle]
    simp only [List.find?_cons, hc]
    cases a.contains x y z
    · exact ih
    · exact .inl ⟨a, b, rfl, rfl, hr⟩

theorem nearest_index {l l' : List (Cell2D ℝ)} (h : List.Forall₂ (CellSame rows rows') l l') (x y z : ℝ) :
    ∀ (k : ℕ) (s : ℝ × ℕ), forFold (Mesh2D.nearestStep x y z) (l'.zipIdx k) s =
      forFold (Mesh2D.nearestStep x y z) (l.zipIdx k) s := by
  induction h with
  | nil => intro k s; rfl
  | cons hr h ih =>
    intro k s
    rename_i a b l l'
    have hc : Mesh2D.nearestStep x y z s (b, k) = Mesh2D.nearestStep x y z s (a, k) := by
      simp only [Mesh2D.nearestStep, Cell2D.distance_to, hr.triangle]
    simp only [List.zipIdx_cons, forFold, hc]
    exact congrArg _ (funext (ih (k + 1)))

/-- the two descriptions of a target of triangles -/
structure Mesh2DSame (rows rows' : List Row) (g g' : Mesh2D ℝ) : Prop where
  cells : List.Forall₂ (CellSame rows rows') g.mesh g'.mesh
  rest : g' = { g with mesh := g'.mesh }

theorem nearest_rel {g g' : Mesh2D ℝ} (h : Mesh2DSame rows rows' g g') (x y z : ℝ) :
    RRel (CellSame rows rows') (g.nearest_to x y z) (g'.nearest_to x y z) := by
  unfold Mesh2D.nearest_to
  exact RRel.bind_same (nearest_index h.cells x y z 0 _).symm fun r => vget_rel h.cells r.2

theorem mesh2d_geom {ext : Ext ℝ} {g g' : Mesh2D ℝ} (h : Mesh2DSame rows rows' g g') :
    GeomSame (g.toGeom ext) (g'.toGeom ext) rows rows' := by
  have hb : g'.boundary = g.boundary := by rw [h.rest]
  have hs : g'.simulation_boundary = g.simulation_boundary := by rw [h.rest]
  have ht : g'.energy_barrier_thickness = g.energy_barrier_thickness := by rw [h.rest]
  have hi : ∀ x y, g'.inside ext x y = g.inside ext x y := by intro x y; simp only [Mesh2D.inside, hb]
  have hl : ∀ x y z, RRel (CellSame rows rows') (g.find_cell ext x y z) (g'.find_cell ext x y z) := by
    intro x y z
    simp only [Mesh2D.find_cell]
    refine RRel.ite (hi x y).symm ?_ (nearest_rel h x y z)
    rcases find_cell_rel h.cells x y z with ⟨a, b, e1, e2, e3⟩ | ⟨e1, e2⟩
    · rw [e1, e2]; exact e3
    · rw [e1, e2]; simp [RRel, rpanic]
  have amounts : ∀ (q : Cell2D ℝ → List ℝ), (∀ a b, CellSame rows rows' a b → SameDensities rows rows' (q a) (q b)) →
      ∀ x y z, SameAmounts rows rows' (q <$> g.find_cell ext x y z) (q <$> g'.find_cell ext x y z) := by
    intro q hq x y z
    have := hl x y z
    cases e1 : g.find_cell ext x y z with
    | error e =>
      cases e2 : g'.find_cell ext x y z with
      | error e' =>
        rw [e1, e2] at this
        have : e = e' := this
        subst this
        exact .inr ⟨e, rfl, rfl⟩
      | ok b => rw [e1, e2] at this; exact this.elim
    | ok a =>
      cases e2 : g'.find_cell ext x y z with
      | error e' => rw [e1, e2] at this; exact this.elim
      | ok b =>
        rw [e1, e2] at this
        exact .inl ⟨_, _, rfl, rfl, hq a b this⟩
  refine {
    densities := amounts _ fun a b h => h.densities
    concentrations := amounts _ fun a b h => h.concentrations
    ck := ?_
    inside := ?_
    boundary := ?_
    barrier := ?_
    closest := ?_ }
  · intro x y z
    refine (RRel.eq ?_).symm
    exact RRel.bind (hl x y z) fun a b hab => hab.ck.symm
  · intro x y z
    simp only [Mesh2D.toGeom, hi]
  · intro x y z
    simp only [Mesh2D.toGeom, hs]
  · intro x y z
    simp only [Mesh2D.toGeom, Mesh2D.inside_energy_barrier, hi, ht]
    refine (RRel.eq (RRel.ite rfl (RRel.refl (fun _ => rfl) _) ?_)).symm
    exact RRel.bind (nearest_rel h x y z) fun a b hab =>
      RRel.bind_same (by simp only [Cell2D.distance_to, hab.triangle]) fun d => RRel.pure rfl
  · intro x y z
    simp only [Mesh2D.toGeom, hb]

/-- lists of the same mixtures have the lengths of their tables -/
theorem same_lengths {D D' : List (List ℝ)} (h : List.Forall₂ (SameDensities rows rows') D D') :
    (D.all fun row => row.length == (D.headD []).length) = true ∧
    (D'.all fun row => row.length == (D'.headD []).length) = true := by
  have l1 : ∀ d ∈ D, d.length = rows.length := by
    intro d hd
    obtain ⟨i, hi, rfl⟩ := List.getElem_of_mem hd
    exact ((List.forall₂_iff_get.1 h).2 i hi (by rw [← h.length_eq]; exact hi)).1
  have l2 : ∀ d ∈ D', d.length = rows'.length := by
    intro d hd
    obtain ⟨i, hi, rfl⟩ := List.getElem_of_mem hd
    exact ((List.forall₂_iff_get.1 h).2 i (by rw [h.length_eq]; exact hi) hi).2.1
  constructor
  · cases D with
    | nil => rfl
    | cons a l =>
      refine List.all_eq_true.2 fun d hd => ?_
      simp only [List.headD_cons, beq_iff_eq]
      rw [l1 d hd, l1 a List.mem_cons_self]
  · cases D' with
    | nil => rfl
    | cons a l =>
      refine List.all_eq_true.2 fun d hd => ?_
      simp only [List.headD_cons, beq_iff_eq]
      rw [l2 d hd, l2 a List.mem_cons_self]

theorem mesh2d_rel (ext : Ext ℝ) (input : Mesh2DInput ℝ) (ds : List (List ℝ)) (f : Row → Row)
    (hd : List.Forall₂ (SameDensities rows rows') input.densities ds)
    (unit : ∀ u, length_unit_of ext input.length_unit = .ok u → 0 < u) :
    RRel (Mesh2DSame (rows.map f) (rows'.map f)) (Mesh2D.new ext input)
      (Mesh2D.new ext { input with densities := ds }) := by
  unfold Mesh2D.new
  simp only
  cases hu : length_unit_of ext input.length_unit with
  | error e => exact (rfl : e = e)
  | ok u =>
    have hpos := unit u hu
    simp only [bind, Except.bind]
    have hc : List.Forall₂ (SameDensities (rows.map f) (rows'.map f))
        (input.densities.map (convert_densities u)) (ds.map (convert_densities u)) := by
      rw [List.forall₂_map_left_iff, List.forall₂_map_right_iff]
      exact hd.imp fun a b h => densities_converted h f hpos
    generalize input.densities.map (convert_densities u) = D at *
    generalize ds.map (convert_densities u) = D' at *
    obtain ⟨a1, a2⟩ := same_lengths hc
    refine RRel.bind_same (by rw [a1, a2]) fun _ => ?_
    refine RRel.bind_same (by rw [hc.length_eq]) fun _ => ?_
    have hz : List.Forall₂ (fun r r' : ((ℕ × ℕ × ℕ) × List ℝ) × ℝ => r'.1.1 = r.1.1 ∧
        SameDensities (rows.map f) (rows'.map f) r.1.2 r'.1.2 ∧ r'.2 = r.2)
        ((input.triangles.zip D).zip input.electronic_stopping_correction_factors)
        ((input.triangles.zip D').zip input.electronic_stopping_correction_factors) := by
      generalize input.triangles = T
      generalize input.electronic_stopping_correction_factors = K
      clear a1 a2
      induction hc generalizing T K with
      | nil => simp
      | cons hr h ih =>
        cases T with
        | nil => simp
        | cons t T =>
          cases K with
          | nil => simp
          | cons k K =>
            simp only [List.zip_cons_cons]
            exact .cons ⟨rfl, hr, rfl⟩ (ih T K)
    refine RRel.bind (cells_rel _ _ hz _ _ .nil) fun t t' ht => ?_
    exact RRel.bind_same rfl fun b => RRel.pure ⟨ht, rfl⟩

/-- **C112, from the input file, targets of triangles.** -/
theorem C112_mesh2d (ext : Ext ℝ) (p p' : MaterialParameters ℝ) (hp : SameParametersRelisted p p' rows rows')
    (input : Mesh2DInput ℝ) (ds : List (List ℝ)) (hd : List.Forall₂ (SameDensities rows rows') input.densities ds)
    (unit : ∀ u, length_unit_of ext input.length_unit = .ok u → 0 < u)
    (h : Material.new ext p ((·.toGeom ext) <$> Mesh2D.new ext input) = .ok mat)
    (h' : Material.new ext p' ((·.toGeom ext) <$> Mesh2D.new ext { input with densities := ds }) = .ok mat')
    (rcpr : Rcpr ℝ) (fuel : Nat) (ion : Particle ℝ) (o : Options ℝ) (tape : Tape ℝ) :
    single_ion_bca rcpr fuel ion mat' o tape = single_ion_bca rcpr fuel ion mat o tape := by
  have hr := fun f => mesh2d_rel ext input ds f hd unit
  obtain ⟨G, hG⟩ := material_geometry h
  obtain ⟨G', hG'⟩ := material_geometry h'
  cases e1 : Mesh2D.new ext input with
  | error e => rw [e1] at hG; cases hG
  | ok g =>
    cases e2 : Mesh2D.new ext { input with densities := ds } with
    | error e => rw [e2] at hG'; cases hG'
    | ok g' =>
      rw [e1] at h
      rw [e2] at h'
      obtain ⟨f, hf⟩ := material_mixture hp (fun f => mesh2d_geom (ext := ext) (by
        have := hr f
        rw [e1, e2] at this
        exact this)) h h'
      exact C112_same_run hf rcpr fuel ion o tape

end RustBCA
