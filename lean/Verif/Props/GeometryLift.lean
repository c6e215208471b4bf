import Verif.Props.PolygonEntry
import Verif.Props.NoPanicMesh

/-!
# C95 and C96: layered, polygonal and triangulated targets
-/

set_option linter.unusedSimpArgs false
set_option linter.unusedVariables false

namespace RustBCA
open Scalar Spec XReal

/-! ## Layers -/

/-- The same layer over the extended numbers. -/
def Layer1D.lift (l : Layer1D ℝ) : Layer1D XReal :=
  ⟨fin l.top, fin l.bottom, l.densities.map fin, l.concentrations.map fin, fin l.electronic_stopping_correction_factor⟩

/-- The same layered target over the extended numbers. -/
def Mesh1D.lift (g : Mesh1D ℝ) : Mesh1D XReal :=
  ⟨g.layers.map Layer1D.lift, fin g.top, fin g.bottom, fin g.top_energy_barrier_thickness,
    fin g.bottom_energy_barrier_thickness⟩

theorem find_map {α β : Type} (f : α → β) (p : β → Bool) (q : α → Bool) (h : ∀ a, p (f a) = q a) :
    ∀ l : List α, (l.map f).find? p = (l.find? q).map f := by
  intro l
  induction l with
  | nil => rfl
  | cons a l ih =>
    rw [List.map_cons, List.find?_cons, List.find?_cons, h, ih]
    cases q a <;> rfl

theorem vget_map {α β : Type} (f : α → β) (l : List α) (i : ℕ) : vget (l.map f) i = (vget l i).map f := by
  unfold vget
  rw [List.getElem?_map]
  cases l[i]? <;> rfl

theorem find_layer_fin (g : Mesh1D ℝ) (x y z : ℝ) :
    g.lift.find_layer (fin x) (fin y) (fin z) = (g.find_layer x y z).map Layer1D.lift := by
  have hin : g.lift.inside (fin x) = g.inside x := by
    unfold Mesh1D.inside
    simp only [Mesh1D.lift, fin_lt']
  unfold Mesh1D.find_layer
  rw [hin]
  cases g.inside x
  · simp only [Bool.false_eq_true, if_false]
    simp only [Mesh1D.lift, fin_lt', List.length_map, vget_map]
    by_cases h : (x <. g.top) = true
    · rw [if_pos h, if_pos h]
    · rw [if_neg h, if_neg h]
  · simp only [if_true]
    have := find_map Layer1D.lift (fun l => l.contains (fin x) (fin y) (fin z)) (fun l => l.contains x y z) (by
      intro l
      unfold Layer1D.contains
      simp only [Layer1D.lift, fin_lt', le_lift]) g.layers
    simp only [Mesh1D.lift, this]
    cases g.layers.find? (fun l => l.contains x y z) <;> rfl

/-- **C95, layered targets.** -/
theorem C95_mesh1d (g : Mesh1D ℝ) : SameAnswers g.toGeom g.lift.toGeom where
  densities x y z := by
    simp only [Mesh1D.toGeom, find_layer_fin]
    cases g.find_layer x y z <;> rfl
  ck x y z := by
    simp only [Mesh1D.toGeom, find_layer_fin]
    cases g.find_layer x y z <;> rfl
  total x y z := by
    simp only [Mesh1D.toGeom, find_layer_fin]
    cases g.find_layer x y z with
    | error e => rfl
    | ok l =>
      show Except.ok (fsum (l.densities.map fin)) = Except.ok (fin (fsum l.densities))
      rw [fsum_fin]
  concentrations x y z := by
    simp only [Mesh1D.toGeom, find_layer_fin]
    cases g.find_layer x y z <;> rfl
  inside x _ _ := by
    simp only [Mesh1D.toGeom, Mesh1D.inside, Mesh1D.lift, fin_lt']
  boundary x _ _ := by
    have h : (10.0 : XReal) = fin 10.0 := fin_lit _ _ _
    simp only [Mesh1D.toGeom, Mesh1D.inside_simulation_boundary, Mesh1D.lift, h, fin_mul, fin_sub, fin_add, fin_lt']
  barrier x _ _ := by
    simp only [Mesh1D.toGeom, Mesh1D.inside_energy_barrier, Mesh1D.lift, fin_sub, fin_add, fin_lt']
  closest x y z := by
    simp only [Mesh1D.toGeom, Mesh1D.closest_point, Mesh1D.lift, fin_sub, fin_abs, fin_lt', abs_real]
    by_cases h : (|x - g.bottom| <. |x - g.top|) = true
    · rw [if_pos h, if_pos h]; rfl
    · rw [if_neg h, if_neg h]; rfl

/-! ## Polygons -/

/-- The same polygonal target over the extended numbers. -/
def HomogeneousMesh2D.lift (g : HomogeneousMesh2D ℝ) : HomogeneousMesh2D XReal :=
  ⟨g.boundary.map liftPoint, g.simulation_boundary.map liftPoint, fin g.energy_barrier_thickness, g.densities.map fin,
    fin g.electronic_stopping_correction_factor, g.concentrations.map fin⟩

theorem square_fin (a : ℝ) : Scalar.powf (fin a) (fin 2.0) = fin (a^2) := by
  have h2 : (2.0:ℝ) = 2 := by norm_num
  rcases lt_trichotomy a 0 with h | h | h
  · show (if 0 < a then _ else _) = _
    rw [if_neg (not_lt.2 h.le), if_neg h.ne, h2]
    have : ⌊(2:ℝ)⌋ = 2 := by norm_num
    rw [this, if_pos (by norm_num)]
    rw [show ∀ b : XReal, XReal.powi b 2 = Scalar.powi b 2 from fun _ => rfl, fin_powi (Or.inr h.ne)]
    congr 1
  · subst h
    rw [fin_powf' le_rfl (by norm_num), h2]
    norm_num
  · rw [fin_powf h, h2]
    congr 1
    exact_mod_cast Real.rpow_natCast a 2

theorem homogeneous_barrier_fin (parse : String → Option ℝ) (parse' : String → Option XReal) (g : HomogeneousMesh2D ℝ)
    (x y : ℝ) :
    g.lift.inside_energy_barrier (Geo.ext parse') (fin x) (fin y) = g.inside_energy_barrier (Geo.ext parse) x y := by
  have gen : ∀ {G : Type} [Scalar G] (g : HomogeneousMesh2D G) (ext : Ext G) (x y : G),
      (ext.polygon_contains g.boundary (x, y) = true → g.inside_energy_barrier ext x y = .ok true) ∧
      (ext.polygon_contains g.boundary (x, y) = false →
        (ext.polygon_closest_point g.boundary (x, y) = none → g.inside_energy_barrier ext x y =
          rpanic "Geometry error: closest point routine failed to find single closest point") ∧
        (∀ p, ext.polygon_closest_point g.boundary (x, y) = some (p, true) →
          g.inside_energy_barrier ext x y = .ok true) ∧
        (∀ p, ext.polygon_closest_point g.boundary (x, y) = some (p, false) → g.inside_energy_barrier ext x y =
          .ok (Scalar.sqrt (Scalar.powf (x - p.1) 2.0 + Scalar.powf (y - p.2) 2.0) <. g.energy_barrier_thickness))) := by
    intro G _ g ext x y
    unfold HomogeneousMesh2D.inside_energy_barrier
    refine ⟨fun h => if_pos h, fun h => ?_⟩
    rw [if_neg (by rw [h]; exact Bool.false_ne_true)]
    exact ⟨fun h5 => by rw [h5], fun p h5 => by rw [h5], fun p h5 => by rw [h5]⟩
  obtain ⟨a1, a2⟩ := gen g (Geo.ext parse) x y
  obtain ⟨b1, b2⟩ := gen g.lift (Geo.ext parse') (fin x) (fin y)
  have hcon := contains_fin g.boundary (x, y)
  have hclo := closest_fin g.boundary (x, y)
  cases h : Geo.polygon_contains g.boundary (x, y) with
  | true =>
    rw [a1 h, b1 (hcon.trans h)]
  | false =>
    obtain ⟨a3, a4, a5⟩ := a2 h
    obtain ⟨b3, b4, b5⟩ := b2 (hcon.trans h)
    cases hc : Geo.polygon_closest_point g.boundary (x, y) with
    | none =>
      rw [a3 hc, b3 (hclo.trans (by rw [hc]; rfl))]
    | some r =>
      obtain ⟨p, f⟩ := r
      cases f with
      | true => rw [a4 p hc, b4 (liftPoint p) (hclo.trans (by rw [hc]; rfl))]
      | false =>
        rw [a5 p hc, b5 (liftPoint p) (hclo.trans (by rw [hc]; rfl))]
        have hlit : (2.0 : XReal) = fin 2.0 := fin_lit _ _ _
        have e1 : Scalar.sqrt (Scalar.powf (fin x - fin p.1) 2.0 + Scalar.powf (fin y - fin p.2) 2.0) =
            fin (Real.sqrt ((x - p.1)^2 + (y - p.2)^2)) := by
          rw [fin_sub, fin_sub, hlit, square_fin, square_fin, fin_add, fin_sqrt (by positivity)]
        have e2 : Scalar.sqrt (Scalar.powf (x - p.1) 2.0 + Scalar.powf (y - p.2) 2.0) =
            Real.sqrt ((x - p.1)^2 + (y - p.2)^2) := by
          rw [sqrt_real, powf_real, powf_real, show (2.0:ℝ) = ((2:ℕ):ℝ) by norm_num, Real.rpow_natCast, Real.rpow_natCast]
        show Except.ok (Scalar.sqrt (Scalar.powf (fin x - fin p.1) 2.0 + Scalar.powf (fin y - fin p.2) 2.0) <.
          fin g.energy_barrier_thickness) = _
        rw [e1, e2, fin_lt']

/-- **C95, polygonal targets.** -/
theorem C95_homogeneous (parse : String → Option ℝ) (parse' : String → Option XReal) (g : HomogeneousMesh2D ℝ) :
    SameAnswers (g.toGeom (Geo.ext parse)) (g.lift.toGeom (Geo.ext parse')) where
  densities _ _ _ := rfl
  ck _ _ _ := rfl
  total _ _ _ := by
    show Except.ok (fsum (g.densities.map fin)) = Except.ok (fin (fsum g.densities))
    rw [fsum_fin]
  concentrations _ _ _ := rfl
  inside x y _ := congrArg Except.ok (contains_fin g.boundary (x, y))
  boundary x y _ := congrArg Except.ok (contains_fin g.simulation_boundary (x, y))
  barrier x y _ := homogeneous_barrier_fin parse parse' g x y
  closest x y z := by
    have h := closest_fin g.boundary (x, y)
    have gen : ∀ {G : Type} [Scalar G] (g : HomogeneousMesh2D G) (ext : Ext G) (x y z : G),
        (ext.polygon_closest_point g.boundary (x, y) = none → (g.toGeom ext).closest_point x y z =
          rpanic "Geometry error: closest point routine failed to find single closest point") ∧
        (∀ p f, ext.polygon_closest_point g.boundary (x, y) = some (p, f) →
          (g.toGeom ext).closest_point x y z = .ok (p.1, p.2, z)) := by
      intro G _ g ext x y z
      unfold HomogeneousMesh2D.toGeom
      exact ⟨fun h5 => by simp only [h5], fun p f h5 => by simp only [h5]⟩
    obtain ⟨a1, a2⟩ := gen g (Geo.ext parse) x y z
    obtain ⟨b1, b2⟩ := gen g.lift (Geo.ext parse') (fin x) (fin y) (fin z)
    cases hc : Geo.polygon_closest_point g.boundary (x, y) with
    | none =>
      rw [a1 hc, b1 (h.trans (by rw [hc]; rfl))]
      rfl
    | some r =>
      obtain ⟨p, f⟩ := r
      rw [a2 p f hc, b2 (liftPoint p) f (h.trans (by rw [hc]; rfl))]
      rfl

/-- **C96, polygonal targets.** A homogeneous 2D target with two different corners and a barrier of positive thickness
has an answer to every question about every point. -/
theorem C96_homogeneous (parse : String → Option ℝ) (g : HomogeneousMesh2D ℝ) (mat : Material ℝ) (n : ℕ)
    (hg : mat.geometry = g.toGeom (Geo.ext parse)) (htab : Tabulated mat n) (h2 : TwoCorners g.boundary)
    (ht : 0 < g.energy_barrier_thickness) (hd : g.densities.length = n) (hc : g.concentrations.length = n)
    (hcs : Concentrations g.concentrations) : ReadyTarget mat n where
  tabulated := htab
  densities _ _ _ := by rw [hg]; exact ⟨_, rfl, hd⟩
  concentrations _ _ _ := by rw [hg]; exact ⟨_, rfl, hc, hcs⟩
  ck _ _ _ := by rw [hg]; exact ⟨_, rfl⟩
  inside _ _ _ := by rw [hg]; exact ⟨_, rfl⟩
  boundary _ _ _ := by rw [hg]; exact ⟨_, rfl⟩
  barrier x y z := by
    rw [hg]
    obtain ⟨b, hb, _⟩ := C99_homogeneous_barrier parse g h2 ht x y z
    exact ⟨b, hb⟩
  closest x y z := by
    rw [hg]
    obtain ⟨h3, h4⟩ := (C99_closest_point parse x y z).1 g h2
    cases hin : Geo.polygon_contains g.boundary (x, y) with
    | true => exact ⟨_, h4 (congrArg Except.ok hin)⟩
    | false =>
      obtain ⟨q, hq, _⟩ := h3 (congrArg Except.ok hin)
      exact ⟨q, hq⟩

end RustBCA
