import Verif.Props.Relisted
import Verif.Examples.Geometry

/-!
# Non-vacuity for C112, and what relisting may not do
-/

namespace RustBCA.RelistedExample
open Scalar Spec GeometryExample

noncomputable def a : Row := ⟨74, 184, 0, 9, 1, 40, 0⟩
noncomputable def b : Row := ⟨6, 12, 3, 8, 1, 20, 1⟩
noncomputable def c : Row := ⟨2, 4, 0, 0, 1/10, 5, 2⟩

/-- The section of the input file with these species. -/
noncomputable def section' (rows : List Row) : MaterialParameters ℝ where
  energy_unit := "EV"
  mass_unit := "AMU"
  Eb := rows.map Row.Eb
  Es := rows.map Row.Es
  Ec := rows.map Row.Ec
  Ed := rows.map Row.Ed
  Z := rows.map Row.Z
  m := rows.map Row.m
  interaction_index := rows.map Row.interaction_index
  surface_binding_model := .AVERAGE
  bulk_binding_model := .INDIVIDUAL

theorem lists (rows : List Row) : ListsSpecies (section' rows) rows := ⟨rfl, rfl, rfl, rfl, rfl, rfl, rfl⟩

/-- Tungsten is listed twice, and helium is listed although there is none. -/
theorem parameters : SameParametersRelisted (section' [a, b]) (section' [a, a, c, b]) [a, b] [a, a, c, b] where
  lists := lists _
  lists' := lists _
  energy_unit := rfl
  mass_unit := rfl
  surface_binding_model := rfl
  first := rfl
  no_binding := by
    simp only [List.map_cons, List.map_nil, List.sum_cons, List.sum_nil, a, b, c]
    norm_num

theorem amounts : SameDensities [a, b] [a, a, c, b] [3, 2] [1, 2, 0, 2] := by
  refine ⟨rfl, rfl, ?_⟩
  have h : Relisted [(a, 1 + 2), (b, 2)] [(a, 1), (a, 2), (c, 0), (b, 2)] :=
    .part a 1 2 (by norm_num) (by norm_num)
      (.same a 2 (by norm_num) (.nothing c (.same b 2 (by norm_num) .nil)))
  rw [show (1:ℝ) + 2 = 3 by norm_num] at h
  exact h

theorem amounts2 : SameDensities [a, b] [a, a, c, b] [0, 5] [0, 0, 0, 5] := by
  refine ⟨rfl, rfl, ?_⟩
  have h : Relisted [(a, 0 + 0), (b, 5)] [(a, 0), (a, 0), (c, 0), (b, 5)] :=
    .part a 0 0 le_rfl le_rfl (.same a 0 le_rfl (.nothing c (.same b 5 (by norm_num) .nil)))
  rw [add_zero] at h
  exact h

theorem made (rows : List Row) (g : Geom ℝ) : ∃ mat, Material.new ext (section' rows) (.ok g) = .ok mat :=
  ⟨_, rfl⟩

theorem unit : ∀ u, length_unit_of ext "M" = .ok u → 0 < u := by
  intro u h
  rw [metre] at h
  cases h
  norm_num

/-- C112, homogeneous target: both targets are made, and every ion does the same in them. -/
example : ∃ mat mat', Material.new ext (section' [a, b]) (Mesh0D.toGeom <$> Mesh0D.new ext ⟨"M", [3, 2], 1⟩) = .ok mat ∧
    Material.new ext (section' [a, a, c, b]) (Mesh0D.toGeom <$> Mesh0D.new ext ⟨"M", [1, 2, 0, 2], 1⟩) = .ok mat' ∧
    mat.Z.length = 2 ∧ mat'.Z.length = 4 ∧
    ∀ rcpr fuel ion o tape, single_ion_bca rcpr fuel ion mat' o tape = single_ion_bca rcpr fuel ion mat o tape := by
  have e : ∀ d, ∃ g : Mesh0D ℝ, Mesh0D.new ext ⟨"M", d, 1⟩ = .ok g := by
    intro d
    unfold Mesh0D.new
    simp only [metre, bind, Except.bind]
    exact ⟨_, rfl⟩
  obtain ⟨g, hg⟩ := e [3, 2]
  obtain ⟨g', hg'⟩ := e [1, 2, 0, 2]
  rw [hg, hg']
  refine ⟨_, _, rfl, rfl, rfl, rfl, ?_⟩
  intro rcpr fuel ion o tape
  refine C112_mesh0d ext _ _ parameters ⟨"M", [3, 2], 1⟩ [1, 2, 0, 2] amounts unit ?_ ?_ rcpr fuel ion o tape
  · rw [hg]; rfl
  · show Material.new ext _ (Mesh0D.toGeom <$> Mesh0D.new ext ⟨"M", [1, 2, 0, 2], 1⟩) = _
    rw [hg']; rfl

/-- C112, layered target: the densities of two layers. -/
example : List.Forall₂ (SameDensities [a, b] [a, a, c, b]) [[3, 2], [0, 5]] [[1, 2, 0, 2], [0, 0, 0, 5]] :=
  .cons amounts (.cons amounts2 .nil)

/-- **Why the condition on the surface binding energies is there.** With the AVERAGE model, adding a
species of which there is nothing changes the surface binding energy when it is the only one with a
binding energy of its own: 0 before, half the ion's own value after. -/
theorem C112_refuted_average (g g' : Geom ℝ) (p : Particle ℝ) (hp : p.Es = 4)
    (h : g.get_concentrations 0 0 0 = .ok [1]) (h' : g'.get_concentrations 0 0 0 = .ok [1, 0]) :
    Relisted [(c, 1)] [(c, 1), (b, 0)] ∧
    ({ m := [4], Z := [2], Eb := [0], Es := [0], Ec := [1], Ed := [5], interaction_index := [0], geometry := g,
       surface_binding_model := .AVERAGE, bulk_binding_model := .INDIVIDUAL } : Material ℝ).actual_surface_binding_energy
      p 0 0 0 = .ok 0 ∧
    ({ m := [4, 12], Z := [2, 6], Eb := [0, 3], Es := [0, 8], Ec := [1, 1], Ed := [5, 20],
       interaction_index := [0, 1], geometry := g',
       surface_binding_model := .AVERAGE, bulk_binding_model := .INDIVIDUAL } : Material ℝ).actual_surface_binding_energy
      p 0 0 0 = .ok 2 := by
  have e0 : ((0:ℝ) ==. 0.0) = true := by rw [eq_real]; norm_num
  have e4 : ((4:ℝ) ==. 0.0) = false := by rw [eq_real_false]; norm_num
  have e8 : ((8:ℝ) ==. 0.0) = false := by rw [eq_real_false]; norm_num
  have s0 : fsum [(0:ℝ)] = 0 := by rw [fsum_real]; norm_num
  have s8 : fsum [(0:ℝ), 8] = 8 := by rw [fsum_real]; norm_num
  have w : Material.weighted_sum [(0:ℝ), 8] [1, 0] = 0 := by
    rw [Material.weighted_sum, fsum_real]; norm_num
  refine ⟨.same _ _ (by norm_num) (.nothing _ .nil), ?_, ?_⟩
  · simp only [Material.actual_surface_binding_energy, h, bind, Except.bind, hp, s0, e0, e4, Bool.or_true, if_true,
      pure, Except.pure]
    norm_num
  · simp only [Material.actual_surface_binding_energy, h', bind, Except.bind, hp, s8, e8, e4, Bool.or_self,
      Bool.false_eq_true, if_false, pure, Except.pure, w]
    norm_num

end RustBCA.RelistedExample
