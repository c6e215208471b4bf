import Verif.Props.LayersReady

/-!
# C95 and C96: targets of triangles
-/

set_option linter.unusedSimpArgs false
set_option linter.unusedVariables false

namespace RustBCA
open Scalar Spec XReal

/-- The same triangle over the extended numbers. -/
def Triangle2D.lift (t : Triangle2D ℝ) : Triangle2D XReal :=
  ⟨fin t.x1, fin t.x2, fin t.x3, fin t.y1, fin t.y2, fin t.y3,
    t.segments.map fun s => (fin s.1, fin s.2.1, fin s.2.2.1, fin s.2.2.2)⟩

/-- The same cell over the extended numbers. -/
def Cell2D.lift (c : Cell2D ℝ) : Cell2D XReal :=
  ⟨c.triangle.lift, c.densities.map fin, c.concentrations.map fin, fin c.electronic_stopping_correction_factor⟩

/-- The same mesh over the extended numbers. -/
def Mesh2D.lift (g : Mesh2D ℝ) : Mesh2D XReal :=
  ⟨g.mesh.map Cell2D.lift, g.boundary.map liftPoint, g.simulation_boundary.map liftPoint, fin g.energy_barrier_thickness⟩

/-- A cell that is a triangle with an area. -/
def ProperCell (c : Cell2D ℝ) : Prop := ∃ A B C : ℝ × ℝ, c.triangle = triangle A B C ∧ NotCollinear A B C

theorem contains_lift {c : Cell2D ℝ} (h : ProperCell c) (x y z : ℝ) :
    c.lift.contains (fin x) (fin y) (fin z) = c.contains x y z := by
  obtain ⟨A, B, C, e, hn⟩ := h
  have h0 : (0.0 : XReal) = fin 0.0 := fin_lit _ _ _
  have h1 : (1.0 : XReal) = fin 1.0 := fin_lit _ _ _
  have hD : (B.2 - C.2)*(A.1 - C.1) + (C.1 - B.1)*(A.2 - C.2) ≠ 0 := by
    intro h0; apply hn; linarith
  unfold Cell2D.contains Cell2D.lift
  simp only [e]
  unfold Triangle2D.contains Triangle2D.lift
  simp only [triangle, Triangle2D.new, fin_sub, fin_mul, fin_add, fin_div hD, h0, h1, le_lift]

theorem segment_distance_lift (s : ℝ × ℝ × ℝ × ℝ) (x y : ℝ) :
    Triangle2D.segment_distance (fin s.1, fin s.2.1, fin s.2.2.1, fin s.2.2.2) (fin x) (fin y) =
      (Triangle2D.segment_distance s x y).map fin := by
  obtain ⟨s0, s1, s2, s3⟩ := s
  have h0 : (0.0 : XReal) = fin 0.0 := fin_lit _ _ _
  have h1 : (1.0 : XReal) = fin 1.0 := fin_lit _ _ _
  unfold Triangle2D.segment_distance
  simp only [fin_sub, fin_mul, fin_add, h0, h1, eq_lift]
  by_cases hl : (((s2 - s0)*(s2 - s0) + (s3 - s1)*(s3 - s1)) ==. 0.0) = true
  · rw [hl]
    rfl
  · have hz : (s2 - s0)*(s2 - s0) + (s3 - s1)*(s3 - s1) ≠ 0 := by
      intro h; apply hl; rw [eq_real, h]; norm_num
    rw [Bool.not_eq_true] at hl
    have hsq : ∀ a b : ℝ, Scalar.sqrt (fin (a*a + b*b)) = fin (Real.sqrt (a*a + b*b)) := fun a b =>
      fin_sqrt (add_nonneg (mul_self_nonneg a) (mul_self_nonneg b))
    simp only [hl, fin_div hz, fin_lt', fin_mul, fin_add, fin_sub, hsq, rassert, Bool.not_false, if_true, bind, Except.bind, pure, Except.pure,
      sqrt_real]
    generalize ((x - s0)*(s2 - s0) + (y - s1)*(s3 - s1))/((s2 - s0)*(s2 - s0) + (s3 - s1)*(s3 - s1)) = t
    by_cases h1 : (t <. 0.0) = true
    · rw [if_pos h1, if_pos h1]; rfl
    · rw [if_neg h1, if_neg h1]
      by_cases h2 : (1.0 <. t) = true
      · rw [if_pos h2, if_pos h2]; rfl
      · rw [if_neg h2, if_neg h2]; rfl

theorem forFold_lift {α β σ τ : Type} (f : σ → α → Res σ) (f' : τ → β → Res τ) (g : α → β) (k : σ → τ)
    (h : ∀ s a, f' (k s) (g a) = (f s a).map k) :
    ∀ (l : List α) (s : σ), forFold f' (l.map g) (k s) = (forFold f l s).map k := by
  intro l
  induction l with
  | nil => intro s; rfl
  | cons a l ih =>
    intro s
    simp only [List.map_cons, forFold, h]
    cases f s a with
    | error e => rfl
    | ok s' => exact ih s'

theorem maxVal_lift : (maxVal : XReal) = fin maxVal := rfl

theorem distance_lift (c : Cell2D ℝ) (x y z : ℝ) :
    c.lift.distance_to (fin x) (fin y) (fin z) = (c.distance_to x y z).map fin := by
  unfold Cell2D.distance_to Triangle2D.distance_to
  rw [maxVal_lift]
  refine forFold_lift _ _ (fun s : ℝ × ℝ × ℝ × ℝ => (fin s.1, fin s.2.1, fin s.2.2.1, fin s.2.2.2)) fin ?_ _ _
  intro d s
  simp only [segment_distance_lift]
  cases Triangle2D.segment_distance s x y with
  | error e => rfl
  | ok r =>
    simp only [Except.map, bind, Except.bind, pure, Except.pure, fin_lt']
    by_cases h : (r <. d) = true
    · rw [if_pos h, if_pos h]
    · rw [if_neg h, if_neg h]

theorem nearest_lift (g : Mesh2D ℝ) (x y z : ℝ) :
    g.lift.nearest_to (fin x) (fin y) (fin z) = (g.nearest_to x y z).map Cell2D.lift := by
  unfold Mesh2D.nearest_to
  have e : g.lift.mesh.zipIdx = g.mesh.zipIdx.map fun p => (p.1.lift, p.2) := by
    show (g.mesh.map Cell2D.lift).zipIdx = _
    rw [List.zipIdx_map]
    rfl
  have key := forFold_lift (Mesh2D.nearestStep x y z) (Mesh2D.nearestStep (fin x) (fin y) (fin z))
    (fun p : Cell2D ℝ × ℕ => (p.1.lift, p.2)) (fun s : ℝ × ℕ => (fin s.1, s.2)) (by
      rintro ⟨d, i⟩ ⟨c, j⟩
      unfold Mesh2D.nearestStep
      simp only [distance_lift]
      cases c.distance_to x y z with
      | error e => rfl
      | ok r =>
        simp only [Except.map, bind, Except.bind, pure, Except.pure, fin_lt']
        by_cases h : (r <. d) = true
        · rw [if_pos h, if_pos h]
        · rw [if_neg h, if_neg h]) g.mesh.zipIdx (maxVal, 0)
  rw [e, maxVal_lift]
  rw [show (fin maxVal, 0) = (fun s : ℝ × ℕ => (fin s.1, s.2)) (maxVal, 0) from rfl, key]
  cases forFold (Mesh2D.nearestStep x y z) g.mesh.zipIdx (maxVal, 0) with
  | error e => rfl
  | ok r => exact vget_map Cell2D.lift g.mesh r.2

theorem find_cell_lift (parse : String → Option ℝ) (parse' : String → Option XReal) (g : Mesh2D ℝ)
    (hp : ∀ c ∈ g.mesh, ProperCell c) (x y z : ℝ) :
    g.lift.find_cell (Geo.ext parse') (fin x) (fin y) (fin z) = (g.find_cell (Geo.ext parse) x y z).map Cell2D.lift := by
  have hin : g.lift.inside (Geo.ext parse') (fin x) (fin y) = g.inside (Geo.ext parse) x y := contains_fin g.boundary (x, y)
  have find : ∀ l : List (Cell2D ℝ), (∀ c ∈ l, ProperCell c) →
      (l.map Cell2D.lift).find? (fun c => c.contains (fin x) (fin y) (fin z)) =
        (l.find? fun c => c.contains x y z).map Cell2D.lift := by
    intro l
    induction l with
    | nil => intro _; rfl
    | cons a l ih =>
      intro h
      rw [List.map_cons, List.find?_cons, List.find?_cons, contains_lift (h a List.mem_cons_self),
        ih fun c hc => h c (List.mem_cons_of_mem _ hc)]
      cases a.contains x y z <;> rfl
  unfold Mesh2D.find_cell
  rw [hin, nearest_lift]
  cases g.inside (Geo.ext parse) x y
  · rfl
  · simp only [if_true]
    have hf : g.lift.mesh.find? (fun c => c.contains (fin x) (fin y) (fin z)) =
        (g.mesh.find? fun c => c.contains x y z).map Cell2D.lift := find g.mesh hp
    rw [hf]
    cases g.mesh.find? (fun c => c.contains x y z) <;> rfl

/-- **C95, targets of triangles.** -/
theorem C95_mesh2d (parse : String → Option ℝ) (parse' : String → Option XReal) (g : Mesh2D ℝ)
    (hp : ∀ c ∈ g.mesh, ProperCell c) : SameAnswers (g.toGeom (Geo.ext parse)) (g.lift.toGeom (Geo.ext parse')) where
  densities x y z := by
    simp only [Mesh2D.toGeom, find_cell_lift parse parse' g hp]
    cases g.find_cell (Geo.ext parse) x y z <;> rfl
  ck x y z := by
    simp only [Mesh2D.toGeom, find_cell_lift parse parse' g hp]
    cases g.find_cell (Geo.ext parse) x y z <;> rfl
  total x y z := by
    simp only [Mesh2D.toGeom, find_cell_lift parse parse' g hp]
    cases g.find_cell (Geo.ext parse) x y z with
    | error e => rfl
    | ok c =>
      show Except.ok (fsum (c.densities.map fin)) = Except.ok (fin (fsum c.densities))
      rw [fsum_fin]
  concentrations x y z := by
    simp only [Mesh2D.toGeom, find_cell_lift parse parse' g hp]
    cases g.find_cell (Geo.ext parse) x y z <;> rfl
  inside x y _ := congrArg Except.ok (contains_fin g.boundary (x, y))
  boundary x y _ := congrArg Except.ok (contains_fin g.simulation_boundary (x, y))
  barrier x y z := by
    have hin : g.lift.inside (Geo.ext parse') (fin x) (fin y) = g.inside (Geo.ext parse) x y := contains_fin g.boundary (x, y)
    show g.lift.inside_energy_barrier (Geo.ext parse') (fin x) (fin y) (fin z) = g.inside_energy_barrier (Geo.ext parse) x y z
    unfold Mesh2D.inside_energy_barrier
    rw [hin, nearest_lift]
    cases g.inside (Geo.ext parse) x y
    · simp only [Bool.false_eq_true, if_false]
      cases g.nearest_to x y z with
      | error e => rfl
      | ok c =>
        simp only [Except.map, bind, Except.bind, distance_lift]
        cases c.distance_to x y z with
        | error e => rfl
        | ok d =>
          simp only [Except.map, pure, Except.pure]
          exact congrArg Except.ok (fin_lt' _ _)
    · rfl
  closest x y z := by
    have h := closest_fin g.boundary (x, y)
    have gen : ∀ {G : Type} [Scalar G] (g : Mesh2D G) (ext : Ext G) (x y z : G),
        (ext.polygon_closest_point g.boundary (x, y) = none → (g.toGeom ext).closest_point x y z =
          rpanic "Geometry error: closest point routine failed to find single closest point") ∧
        (∀ p f, ext.polygon_closest_point g.boundary (x, y) = some (p, f) →
          (g.toGeom ext).closest_point x y z = .ok (p.1, p.2, z)) := by
      intro G _ g ext x y z
      unfold Mesh2D.toGeom
      exact ⟨fun h5 => by simp only [h5], fun p f h5 => by simp only [h5]⟩
    obtain ⟨a1, a2⟩ := gen g (Geo.ext parse) x y z
    obtain ⟨b1, b2⟩ := gen g.lift (Geo.ext parse') (fin x) (fin y) (fin z)
    cases hc : Geo.polygon_closest_point g.boundary (x, y) with
    | none =>
      rw [a1 hc, b1 (h.trans (by rw [hc]; rfl))]
      rfl
    | some r =>
      obtain ⟨p, f⟩ := r
      rw [a2 p f hc, b2 (liftPoint p) f (h.trans (by rw [hc]; rfl))]
      rfl

/-! ## Answers everywhere -/

theorem proper_distance {c : Cell2D ℝ} (h : ProperCell c) (x y z : ℝ) : ∃ d, c.distance_to x y z = .ok d := by
  obtain ⟨A, B, C, e, hn⟩ := h
  have hAB : A ≠ B := by rintro rfl; apply hn; ring
  have hBC : B ≠ C := by rintro rfl; apply hn; ring
  have hCA : C ≠ A := by rintro rfl; apply hn; ring
  obtain ⟨d1, h1, _⟩ := segment_distance_eq A B (x, y) hAB
  obtain ⟨d2, h2, _⟩ := segment_distance_eq B C (x, y) hBC
  obtain ⟨d3, h3, _⟩ := segment_distance_eq C A (x, y) hCA
  unfold Cell2D.distance_to Triangle2D.distance_to
  rw [e]
  simp only [triangle, Triangle2D.new, forFold, h1, h2, h3, bind, Except.bind, pure, Except.pure]
  exact ⟨_, rfl⟩

theorem nearest_total {g : Mesh2D ℝ} (hne : g.mesh ≠ []) (hp : ∀ c ∈ g.mesh, ProperCell c) (x y z : ℝ) :
    ∃ c ∈ g.mesh, g.nearest_to x y z = .ok c := by
  have loop : ∀ (l : List (Cell2D ℝ × ℕ)) (s : ℝ × ℕ), (∀ p ∈ l, ProperCell p.1 ∧ p.2 < g.mesh.length) →
      s.2 < g.mesh.length → ∃ r, forFold (Mesh2D.nearestStep x y z) l s = .ok r ∧ r.2 < g.mesh.length := by
    intro l
    induction l with
    | nil => intro s _ hs; exact ⟨s, rfl, hs⟩
    | cons a l ih =>
      intro s h hs
      obtain ⟨h1, h2⟩ := h a List.mem_cons_self
      obtain ⟨d, hd⟩ := proper_distance h1 x y z
      simp only [forFold, Mesh2D.nearestStep, hd, bind, Except.bind, pure, Except.pure]
      refine ih _ (fun p hp => h p (List.mem_cons_of_mem _ hp)) ?_
      by_cases hc : (d <. s.1) = true
      · rw [if_pos hc]; exact h2
      · rw [if_neg hc]; exact hs
  obtain ⟨r, hr, hlt⟩ := loop g.mesh.zipIdx (maxVal, 0) (by
    rintro ⟨c, i⟩ hm
    obtain ⟨h1, h2⟩ := List.mem_zipIdx' hm
    exact ⟨hp c (h2 ▸ List.getElem_mem _), h1⟩) (List.length_pos_iff.2 hne)
  refine ⟨g.mesh[r.2], List.getElem_mem _, ?_⟩
  unfold Mesh2D.nearest_to
  simp only [hr, bind, Except.bind]
  unfold vget
  rw [List.getElem?_eq_getElem hlt]

/-- **C96, targets of triangles.** A mesh of triangles with areas that cover the polygon of the boundary, with one
density and one concentration per tabulated species in every triangle, has an answer to every question about every
point. -/
theorem C96_mesh2d (parse : String → Option ℝ) (g : Mesh2D ℝ) (mat : Material ℝ) (n : ℕ)
    (hg : mat.geometry = g.toGeom (Geo.ext parse)) (htab : Tabulated mat n) (h2 : TwoCorners g.boundary) (hne : g.mesh ≠ [])
    (hp : ∀ c ∈ g.mesh, ProperCell c)
    (hcover : ∀ X : ℝ × ℝ, Geo.polygon_contains g.boundary X = true →
      ∃ c ∈ g.mesh, ∃ A B C, c.triangle = triangle A B C ∧ InTriangle A B C X)
    (hd : ∀ c ∈ g.mesh, c.densities.length = n ∧ c.concentrations.length = n ∧ Concentrations c.concentrations) :
    ReadyTarget mat n := by
  have one : ∀ x y z, ∃ c ∈ g.mesh, g.find_cell (Geo.ext parse) x y z = .ok c := by
    intro x y z
    unfold Mesh2D.find_cell
    by_cases hin : g.inside (Geo.ext parse) x y = true
    · rw [if_pos hin]
      obtain ⟨c, hc, A, B, C, e, hX⟩ := hcover (x, y) hin
      have hcon : c.contains x y z = true := by
        obtain ⟨A', B', C', e', hn⟩ := hp c hc
        have e2 : triangle A B C = triangle A' B' C' := e.symm.trans e'
        have hn2 : NotCollinear A B C := by
          simp only [triangle, Triangle2D.new, Triangle2D.mk.injEq] at e2
          obtain ⟨a1, a2, a3, a4, a5, a6, _⟩ := e2
          unfold NotCollinear at hn ⊢
          rw [a1, a2, a3, a4, a5, a6]
          exact hn
        unfold Cell2D.contains
        rw [e]
        exact (C38_contains A B C (x, y) hn2).2 hX
      cases hf : g.mesh.find? (fun c => c.contains x y z) with
      | none =>
        rw [List.find?_eq_none] at hf
        exact absurd hcon (hf c hc)
      | some c' => exact ⟨c', List.mem_of_find?_eq_some hf, rfl⟩
    · rw [if_neg hin]
      exact nearest_total hne hp x y z
  refine ⟨htab, ?_, ?_, ?_, ?_, ?_, ?_, ?_⟩
  · intro x y z
    obtain ⟨c, hc, h⟩ := one x y z
    rw [hg]
    refine ⟨c.densities, ?_, (hd c hc).1⟩
    simp only [Mesh2D.toGeom, h]
    rfl
  · intro x y z
    obtain ⟨c, hc, h⟩ := one x y z
    rw [hg]
    refine ⟨c.concentrations, ?_, (hd c hc).2⟩
    simp only [Mesh2D.toGeom, h]
    rfl
  · intro x y z
    obtain ⟨c, hc, h⟩ := one x y z
    rw [hg]
    refine ⟨c.electronic_stopping_correction_factor, ?_⟩
    simp only [Mesh2D.toGeom, h]
    rfl
  · intro x y z; rw [hg]; exact ⟨_, rfl⟩
  · intro x y z; rw [hg]; exact ⟨_, rfl⟩
  · intro x y z
    rw [hg]
    show ∃ b, g.inside_energy_barrier (Geo.ext parse) x y z = .ok b
    unfold Mesh2D.inside_energy_barrier
    by_cases hin : g.inside (Geo.ext parse) x y = true
    · rw [if_pos hin]; exact ⟨_, rfl⟩
    · rw [if_neg hin]
      obtain ⟨c, hc, h⟩ := nearest_total hne hp x y z
      obtain ⟨d, hd⟩ := proper_distance (hp c hc) x y z
      simp only [h, hd, bind, Except.bind, pure, Except.pure]
      exact ⟨_, rfl⟩
  · intro x y z
    rw [hg]
    obtain ⟨h3, h4⟩ := (C99_closest_point parse x y z).2 g h2
    cases hin : Geo.polygon_contains g.boundary (x, y) with
    | true => exact ⟨_, h4 (congrArg Except.ok hin)⟩
    | false =>
      obtain ⟨q, hq, _⟩ := h3 (congrArg Except.ok hin)
      exact ⟨q, hq⟩

end RustBCA
