import Verif.Props.RunEnds
import Verif.Props.LayersReady
import Verif.Props.Polygon
import Mathlib.Tactic.Ring
import Mathlib.Tactic.Positivity

/-!
# C99, C130 from the input of a 2D target: polygons in other units
-/

namespace RustBCA
open Scalar Spec

/-- A point in units of which `u` make one. -/
def scaled (u : ℝ) (p : ℝ × ℝ) : ℝ × ℝ := (p.1*u, p.2*u)

variable {u : ℝ} (hu : 0 < u)
include hu

theorem lt_scaled (a b : ℝ) : (a*u <. b*u) = (a <. b) := by
  rw [Bool.eq_iff_iff, lt_real, lt_real]; exact mul_lt_mul_iff_left₀ hu

theorem le_scaled (a b : ℝ) : (a*u <=. b*u) = (a <=. b) := by
  rw [Bool.eq_iff_iff, le_real, le_real]; exact mul_le_mul_iff_left₀ hu

theorem eq_scaled (a b : ℝ) : (a*u ==. b*u) = (a ==. b) := by
  rw [Bool.eq_iff_iff, eq_real, eq_real]; exact mul_left_inj' hu.ne'

theorem orient_scaled (a b c : ℝ × ℝ) : Geo.orient2d (scaled u a) (scaled u b) (scaled u c) = Geo.orient2d a b c*u*u := by
  unfold Geo.orient2d scaled; ring

theorem zero_scaled (a : ℝ) : ((a*u*u <. 0.0) = (a <. 0.0)) ∧ ((0.0 <. a*u*u) = (0.0 <. a)) ∧ ((a*u*u ==. 0.0) = (a ==. 0.0)) := by
  have e : (0.0:ℝ) = 0.0*u*u := by norm_num
  refine ⟨?_, ?_, ?_⟩
  · conv_lhs => rw [e]
    rw [lt_scaled hu, lt_scaled hu]
  · conv_lhs => rw [e]
    rw [lt_scaled hu, lt_scaled hu]
  · conv_lhs => rw [e]
    rw [eq_scaled hu, eq_scaled hu]

theorem between_scaled (a b c : ℝ) : Geo.value_in_between (a*u) (b*u) (c*u) = Geo.value_in_between a b c := by
  unfold Geo.value_in_between
  simp only [lt_scaled hu, le_scaled hu]

theorem winding_scaled (c : ℝ × ℝ) (w : Option Int) (l : (ℝ × ℝ) × (ℝ × ℝ)) :
    Geo.windingStep (scaled u c) w (scaled u l.1, scaled u l.2) = Geo.windingStep c w l := by
  unfold Geo.windingStep
  cases w with
  | none => rfl
  | some w =>
    simp only [orient_scaled hu]
    simp only [scaled, lt_scaled hu, le_scaled hu, eq_scaled hu, between_scaled hu, (zero_scaled hu _).1, (zero_scaled hu _).2.1,
      (zero_scaled hu _).2.2]

theorem close_scaled (l : List (ℝ × ℝ)) : Geo.close (l.map (scaled u)) = (Geo.close l).map (scaled u) := by
  unfold Geo.close
  rw [List.head?_map, List.getLast?_map]
  cases l.head? with
  | none => cases l.getLast? <;> rfl
  | some a =>
    cases l.getLast? with
    | none => rfl
    | some b =>
      simp only [Option.map_some, scaled, eq_scaled hu]
      split <;> simp [scaled]

/-- **C99**, units: what is inside a polygon does not depend on the unit of length. -/
theorem C99_scaled (l : List (ℝ × ℝ)) (P : ℝ × ℝ) :
    Geo.polygon_contains (l.map (scaled u)) (scaled u P) = Geo.polygon_contains l P := by
  unfold Geo.polygon_contains
  rw [close_scaled hu]
  have h : Geo.coord_pos_relative_to_ring (scaled u P) ((Geo.close l).map (scaled u)) = Geo.coord_pos_relative_to_ring P (Geo.close l) := by
    generalize Geo.close l = r
    match r with
    | [] => rfl
    | [p] =>
      simp only [List.map_cons, List.map_nil, Geo.coord_pos_relative_to_ring, scaled, eq_scaled hu]
    | a :: b :: r =>
      have e : Geo.lines ((a :: b :: r).map (scaled u)) = (Geo.lines (a :: b :: r)).map fun l => (scaled u l.1, scaled u l.2) := by
        unfold Geo.lines
        rw [← List.map_tail, List.zip_map]
        rfl
      show (match (Geo.lines ((a :: b :: r).map (scaled u))).foldl (Geo.windingStep (scaled u P)) (some 0) with
        | none => Geo.CoordPos.OnBoundary
        | some w => if w == 0 then .Outside else .Inside) = _
      rw [e, List.foldl_map]
      simp only [winding_scaled hu]
      rfl
  rw [h]

omit hu in
theorem scaled_fun : (fun p : ℝ × ℝ => (p.1*u, p.2*u)) = scaled u := rfl

/-- A 2D target built from an accepted input whose simulation boundary, as written in the input file, lies in the material
as written there, is one in which runs can be followed. -/
theorem cut_out_of_input (parse : String → Option ℝ) (input : HomogeneousMesh2DInput ℝ) (g : HomogeneousMesh2D ℝ)
    (mat : Material ℝ) (n : ℕ)
    (hlen : length_unit_of (Geo.ext parse) input.length_unit = .ok u)
    (run : HomogeneousMesh2D.new (Geo.ext parse) input = .ok g)
    (hg : mat.geometry = g.toGeom (Geo.ext parse)) (htab : Tabulated mat n) (hZ : mat.Z.length = n)
    (h2 : TwoCorners input.points)
    (hd : input.densities.length = n ∧ (∀ d ∈ input.densities, 0 ≤ d) ∧ 0 < input.densities.sum)
    (hck : 0 < input.electronic_stopping_correction_factor)
    (hm : ∀ m ∈ mat.m, 0 < m) (hZp : ∀ Z ∈ mat.Z, 0 < Z) (hEc : ∀ E ∈ mat.Ec, 0 < E) (hEs : ∀ E ∈ mat.Es, 0 ≤ E)
    (hEb : ∀ E ∈ mat.Eb, 0 ≤ E)
    (hwithin : ∀ P, Geo.polygon_contains input.simulation_boundary_points P = true → Geo.polygon_contains input.points P = true) :
    CutOut parse g mat n := by
  unfold HomogeneousMesh2D.new at run
  simp only [hlen, bind, Except.bind, pure, Except.pure] at run
  obtain rfl := Except.ok.inj run
  refine ⟨hg, htab, hZ, ?_, barrier_pos _ (convert_pos u hu _ hd.2.2), ⟨?_, ?_, ?_⟩, ⟨?_, converted_concentrations u hu _ hd.2.1 hd.2.2⟩,
    hck, hm, hZp, hEc, hEs, hEb, ?_⟩
  · obtain ⟨A, hA, B, hB, hne⟩ := h2
    refine ⟨_, List.mem_map_of_mem hA, _, List.mem_map_of_mem hB, fun e => hne ?_⟩
    obtain ⟨e1, e2⟩ := Prod.mk.inj e
    exact Prod.ext (mul_right_cancel₀ hu.ne' e1) (mul_right_cancel₀ hu.ne' e2)
  · simp [convert_densities, hd.1]
  · intro d h
    obtain ⟨e, he, rfl⟩ := List.mem_map.1 h
    refine div_nonneg (hd.2.1 e he) ?_
    rw [powi_real]; positivity
  · have := convert_pos u hu _ hd.2.2
    rwa [fsum_real] at this
  · simp [concentrations_of, convert_densities, hd.1]
  · intro P h
    have e : P = scaled u (P.1/u, P.2/u) := by
      ext <;> simp [scaled, div_mul_cancel₀ _ hu.ne']
    simp only [scaled_fun] at h ⊢
    rw [e, C99_scaled hu] at h ⊢
    exact hwithin _ h

/-- **C130, from the input.** Runs in a homogeneous 2D target built from its input end, if the simulation boundary written
in the input file lies in the polygon of the material written there: local stopping, screened potentials, no free-flight
paths. -/
theorem C130_from_input (parse : String → Option ℝ) (input : HomogeneousMesh2DInput ℝ) (g : HomogeneousMesh2D ℝ)
    (mat : Material ℝ) (n : ℕ) (rcpr : Rcpr ℝ) (o : Options ℝ) {eb : ℝ}
    (hlen : length_unit_of (Geo.ext parse) input.length_unit = .ok u)
    (run : HomogeneousMesh2D.new (Geo.ext parse) input = .ok g)
    (hg : mat.geometry = g.toGeom (Geo.ext parse)) (htab : Tabulated mat n) (hZ : mat.Z.length = n)
    (h2 : TwoCorners input.points)
    (hd : input.densities.length = n ∧ (∀ d ∈ input.densities, 0 ≤ d) ∧ 0 < input.densities.sum)
    (hck : 0 < input.electronic_stopping_correction_factor)
    (hm : ∀ m ∈ mat.m, 0 < m) (hZp : ∀ Z ∈ mat.Z, 0 < Z) (hEc : ∀ E ∈ mat.Ec, 0 < E) (hEs : ∀ E ∈ mat.Es, 0 ≤ E)
    (hEb : ∀ E ∈ mat.Eb, 0 ≤ E)
    (hwithin : ∀ P, Geo.polygon_contains input.simulation_boundary_points P = true → Geo.polygon_contains input.points P = true)
    (hff : o.high_energy_free_flight_paths = false) (hmode : o.electronic_stopping_mode = .LOW_ENERGY_LOCAL) (hV : AllScreened o)
    (hrec : o.track_recoils = false ∨ (BoundBy mat eb ∧ 0 < eb)) (htabs : ∀ j ∈ mat.interaction_index, ScreenedWithAll mat o j)
    (inputs : List (ParticleInput ℝ))
    (hq : ∀ q ∈ inputs, Followable (fun x y => Geo.polygon_contains input.points (x/u, y/u) = true) mat o q) :
    ∃ N, ∀ fuel, N ≤ fuel → ∀ cfg splits tapes, (∀ i, OpenUnit (tapes i)) →
      physics_loop_run rcpr fuel cfg mat o splits tapes inputs ≠ .error .fuel := by
  have hb : g.boundary = input.points.map (scaled u) := (C99_built (Geo.ext parse) input g u hlen hu hd.2.2 run).1
  refine C130_homogeneous2D rcpr o
    (cut_out_of_input hu parse input g mat n hlen run hg htab hZ h2 hd hck hm hZp hEc hEs hEb hwithin) hff hmode hV hrec htabs inputs ?_
  intro q hqi
  have h := hq q hqi
  refine { h with inside := ?_ }
  have e : ∀ x y : ℝ, (x, y) = scaled u (x/u, y/u) := fun x y => by
    ext <;> simp [scaled, div_mul_cancel₀ _ hu.ne']
  rw [e, hb, C99_scaled hu]
  exact h.inside

end RustBCA
