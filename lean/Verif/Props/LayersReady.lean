import Verif.Props.GeometryLift

/-!
# C96: layered targets
-/

set_option linter.unusedSimpArgs false
set_option linter.unusedVariables false

namespace RustBCA
open Scalar Spec

theorem sum_map_quot (l : List ℝ) (a : ℝ) : (l.map (· / a)).sum = l.sum/a := by
  induction l with
  | nil => simp
  | cons b l ih => rw [List.map_cons, List.sum_cons, List.sum_cons, ih, add_div]

/-- Converted densities give concentrations: non-negative and adding up to one. -/
theorem converted_concentrations (u : ℝ) (hu : 0 < u) (ds : List ℝ) (h0 : ∀ d ∈ ds, 0 ≤ d) (hs : 0 < ds.sum) :
    Concentrations (concentrations_of (convert_densities u ds)) := by
  have hpos := convert_pos u hu ds hs
  rw [fsum_real] at hpos
  have hnn : ∀ d ∈ convert_densities u ds, 0 ≤ d := by
    intro d hd
    unfold convert_densities at hd
    obtain ⟨e, he, rfl⟩ := List.mem_map.1 hd
    refine div_nonneg (h0 e he) ?_
    rw [powi_real]
    positivity
  refine ⟨?_, ?_⟩
  · intro c hc
    unfold concentrations_of at hc
    obtain ⟨e, he, rfl⟩ := List.mem_map.1 hc
    rw [fsum_real]
    exact div_nonneg (hnn e he) hpos.le
  · unfold concentrations_of
    dsimp only
    rw [fsum_real, sum_map_quot, div_self hpos.ne']

/-- **C96, layered targets.** A layered target built from an accepted input, in which every layer has one density per
tabulated species, none negative and not all zero, has an answer to every question about every point. -/
theorem C96_mesh1d (ext : Ext ℝ) (input : Mesh1DInput ℝ) (g : Mesh1D ℝ) (u : ℝ)
    (hu : length_unit_of ext input.length_unit = .ok u) (hu0 : 0 < u) (run : Mesh1D.new ext input = .ok g)
    (mat : Material ℝ) (n : ℕ) (hg : mat.geometry = g.toGeom) (htab : Tabulated mat n)
    (hd : ∀ ds ∈ input.densities, ds.length = n ∧ (∀ d ∈ ds, 0 ≤ d) ∧ 0 < ds.sum) : ReadyTarget mat n := by
  obtain ⟨_, _, _, _, _, hlayers⟩ := C36_layers ext input u g hu run
  have one : ∀ x y z, ∃ l : Layer1D ℝ, AnswersFrom g.toGeom x y z l.densities l.concentrations
      l.electronic_stopping_correction_factor ∧ l.densities.length = n ∧ l.concentrations.length = n ∧
        Concentrations l.concentrations := by
    intro x y z
    obtain ⟨k, l, hk, ha, _⟩ := C36_lookup ext input g run x y z
    obtain ⟨_, ⟨ds, hds, e1⟩, e2, _⟩ := hlayers k l hk
    obtain ⟨h1, h2, h3⟩ := hd ds (List.mem_of_getElem? hds)
    refine ⟨l, ha, ?_, ?_, ?_⟩
    · rw [e1]; unfold convert_densities; rw [List.length_map, h1]
    · rw [e2, e1]; unfold concentrations_of convert_densities; rw [List.length_map, List.length_map, h1]
    · rw [e2, e1]; exact converted_concentrations u hu0 ds h2 h3
  refine ⟨htab, ?_, ?_, ?_, ?_, ?_, ?_, ?_⟩
  · intro x y z
    obtain ⟨l, ⟨h1, _⟩, h2, _⟩ := one x y z
    rw [hg]; exact ⟨_, h1, h2⟩
  · intro x y z
    obtain ⟨l, ⟨_, h1, _⟩, _, h2, h3⟩ := one x y z
    rw [hg]; exact ⟨_, h1, h2, h3⟩
  · intro x y z
    obtain ⟨l, ⟨_, _, h1, _⟩, _⟩ := one x y z
    rw [hg]; exact ⟨_, h1⟩
  · intro x y z; rw [hg]; exact ⟨_, rfl⟩
  · intro x y z; rw [hg]; exact ⟨_, rfl⟩
  · intro x y z; rw [hg]; exact ⟨_, rfl⟩
  · intro x y z; rw [hg]; exact ⟨_, rfl⟩

/-- **C39** for layers: the distance to a layer is the distance to the nearer of its two faces. -/
theorem C39_layer (l : Layer1D ℝ) (x y z : ℝ) :
    (l.distance_to x y z = |x - l.top| ∨ l.distance_to x y z = |x - l.bottom|) ∧
    l.distance_to x y z ≤ |x - l.top| ∧ l.distance_to x y z ≤ |x - l.bottom| := by
  have e : l.distance_to x y z = min |x - l.top| |x - l.bottom| := by
    unfold Layer1D.distance_to
    simp only [abs_real, lt_real]
    by_cases h : |x - l.top| < |x - l.bottom|
    · rw [if_pos h, min_eq_left h.le]
    · rw [if_neg h, min_eq_right (not_lt.1 h)]
  rw [e]
  exact ⟨min_choice _ _, min_le_left _ _, min_le_right _ _⟩

/-- **C68** for layered targets: the ions of `compound_bca_list_1D_py` start half a barrier thickness
in front of the first layer, inside the energy barrier and outside the material. -/
theorem C68_layered_start (ext : Ext ℝ) (input : Mesh1DInput ℝ) (u : ℝ) (g : Mesh1D ℝ)
    (hu : length_unit_of ext input.length_unit = .ok u) (hA : 0 ≤ u)
    (hdx : ∀ d ∈ input.layer_thicknesses, 0 ≤ d) (run : Mesh1D.new ext input = .ok g)
    (hd : ∀ l ∈ g.layers, 0 < l.densities.sum) (y z : ℝ) :
    g.toGeom.inside_energy_barrier (-g.top_energy_barrier_thickness/2.0) y z = .ok true ∧
    g.toGeom.inside (-g.top_energy_barrier_thickness/2.0) y z = .ok false := by
  obtain ⟨h1, h2⟩ := mesh1D_barriers ext _ g run hd
  obtain ⟨ht, -, -, -, hb, -⟩ := C36_layers ext _ u g hu run
  have h00 : (0.0:ℝ) = 0 := by norm_num
  have h20 : (2.0:ℝ) = 2 := by norm_num
  have hb0 : 0 ≤ g.bottom := by
    rw [hb, fsum_real]
    refine List.sum_nonneg fun x hx => ?_
    obtain ⟨d, hd, rfl⟩ := List.mem_map.1 hx
    exact mul_nonneg (hdx d (List.mem_of_mem_take hd)) hA
  simp only [Mesh1D.toGeom, Mesh1D.inside, Mesh1D.inside_energy_barrier, Except.ok.injEq,
    Bool.and_eq_true, Bool.and_eq_false_iff, lt_real, lt_real_false, ht, h00, h20]
  exact ⟨⟨by linarith, by linarith⟩, .inl (by linarith)⟩

end RustBCA
