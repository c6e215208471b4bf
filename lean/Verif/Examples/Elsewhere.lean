import Verif.Props.Elsewhere
import Verif.Examples.Symmetry

/-!
Example for C120: an ion that starts half a metre below the surface of a target 100 metres thick and ends above
it, in the surface barrier.
-/

namespace RustBCA.ElsewhereExample
open Spec CascadeExample SymmetryExample

noncomputable def row : LayerRow := ⟨100, [1], 1⟩
noncomputable def below : List LayerRow := [⟨20, [3], 2⟩]

theorem unit_ok (ext : Ext ℝ) : length_unit_of ext "M" = .ok 1 := by
  unfold length_unit_of
  norm_num

theorem sensible : SensibleLayers (row :: below) := by
  intro r hr
  simp only [below, List.mem_cons, List.not_mem_nil, or_false] at hr
  rcases hr with rfl | rfl <;> norm_num [row]

/-- The homogeneous target. -/
noncomputable def bulk : Mesh0D ℝ := ⟨[1], [1], 1, barrier_thickness 1⟩

theorem bulk_ok (ext : Ext ℝ) : Mesh0D.new ext ⟨"M", row.densities, row.correction⟩ = .ok bulk := by
  unfold Mesh0D.new
  rw [unit_ok]
  have h00 : (0.0:ℝ) = 0 := by norm_num
  simp [bulk, row, bind, Except.bind, convert_densities, concentrations_of, fsum, pure, Except.pure, h00]

theorem layered_ok (ext : Ext ℝ) : ∃ g, Mesh1D.new ext (layersInput "M" (row :: below)) = .ok g := by
  rw [new_layers ext "M" (row :: below) 1 one_pos (unit_ok ext) (fun r hr => (sensible r hr).1)]
  exact ⟨_, rfl⟩

/-- The ion, moving straight up, with less than the cutoff energy. -/
noncomputable def rising : Particle ℝ := ion_literal 1 1 1 2 1 0.5 1 2 (-1) 0 0 1 0 ⟨0, 0, 0⟩

theorem thick : 1/2 < barrier_thickness (1:ℝ) := by
  unfold barrier_thickness SQRTPI FRAC_2_SQRT_PI
  have h2 : (2.0:ℝ) = 2 := by norm_num
  rw [powf_real, Real.one_rpow, sqrt_real, pi_real, h2]
  have hpi : 0 < √Real.pi := Real.sqrt_pos.2 Real.pi_pos
  have : √Real.pi < 2 := by
    rw [Real.sqrt_lt' (by norm_num)]
    linarith [Real.pi_le_four, Real.pi_lt_d2]
  field_simp
  linarith

/-- Its simulation in the homogeneous target asks about no place outside the upper half. -/
theorem rising_run : ∃ q, single_ion_bca rcpr 2 rising { mat with geometry := onlyAt (UpperHalf 100) bulk.toGeom }
    (Options.default_options true) draws = .ok ([q], fun k => draws (k + 4)) ∧ q.stopped = true := by
  have ha : UpperHalf 100 (0.5:ℝ) 1 2 := by unfold UpperHalf; norm_num
  have hb : UpperHalf 100 (-0.5:ℝ) 1 2 := by unfold UpperHalf; norm_num
  have ht := thick
  obtain ⟨q, h1, -, -, h2, -⟩ := LibExample.one_pass_at rcpr rising { mat with geometry := onlyAt (UpperHalf 100) bulk.toGeom } true draws 1 1 ⟨0, 1, 1, 1/2, 0, 0, 0⟩
    ⟨-0.5, 1, 2⟩ true true rfl rfl (by simp [rising, ion_literal]; norm_num)
    ⟨_, if_pos ha⟩ rfl rfl (if_pos ha) (if_pos hb)
    (by simp [draws]) (by rfl) (by simp [draws])
    (by simp [rising, ion_literal, draws]; norm_num)
    ((if_pos hb).trans (by simp [bulk, Mesh0D.toGeom]; norm_num))
    ((if_pos hb).trans (by simp [bulk, Mesh0D.toGeom]; norm_num; linarith))
    ((if_pos hb).trans (by simp [bulk, Mesh0D.toGeom]; norm_num; linarith))
    (.inr ⟨rfl, rfl, by simp [rising, ion_literal]⟩)
  exact ⟨q, h1, h2⟩

/-- Hence it is the same in the layered target. -/
example (ext : Ext ℝ) : ∃ (g : Mesh1D ℝ) (q : Particle ℝ) (rest : Tape ℝ),
    Mesh1D.new ext (layersInput "M" (row :: below)) = .ok g ∧ g.toGeom ≠ bulk.toGeom ∧
    single_ion_bca rcpr 2 rising { mat with geometry := bulk.toGeom } (Options.default_options true) draws = .ok ([q], rest) ∧
    single_ion_bca rcpr 2 rising { mat with geometry := g.toGeom } (Options.default_options true) draws = .ok ([q], rest) := by
  obtain ⟨g, hg⟩ := layered_ok ext
  obtain ⟨q, hq, -⟩ := rising_run
  have alike := C120_thick_layer one_pos (unit_ok ext) sensible (bulk_ok ext) hg
  rw [show row.thickness*1 = 100 by simp [row]] at alike
  obtain ⟨h1, h2⟩ := C120_elsewhere alike rcpr 2 rising mat _ draws _ hq
  refine ⟨g, q, _, hg, fun h => ?_, h1, h2⟩
  obtain ⟨-, h2, h3, -⟩ := built_layers one_pos (unit_ok ext) sensible hg
  have : g.toGeom.inside 1000 0 0 = bulk.toGeom.inside 1000 0 0 := by rw [h]
  simp only [Mesh1D.toGeom, Mesh0D.toGeom, Mesh1D.inside, bulk, h2, h3, Except.ok.injEq] at this
  norm_num [row, below] at this

end RustBCA.ElsewhereExample
