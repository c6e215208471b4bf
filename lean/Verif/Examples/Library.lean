import Verif.Props.Library
import Verif.Examples.Lib
import Mathlib.Analysis.Real.Pi.Bounds

/-!
# C110: the hypotheses are met
-/

namespace RustBCA.LibraryExample
open Scalar Spec

/-- A hydrogen ion of 1 keV. -/
noncomputable def ion : Particle ℝ := ion_literal (AMU ℝ) 1 (1000*EV ℝ) (EV ℝ) (EV ℝ) 0 0 0 1 0 0 1 0 ⟨0, 0, 0⟩

/-- An indium atom. -/
noncomputable def atom : Particle ℝ := { ion with Z := 49, m := 115*AMU ℝ, E := 0 }

/-- The collision at half an Ångström. -/
example (rcpr : Rcpr ℝ) : ∃ r : BinaryCollisionResult ℝ,
    calculate_binary_collision rcpr ion atom ⟨0, 5e-11, 1e-10⟩ (Options.default_options true) = .ok (.ok r) := by
  have hA : (0:ℝ) < AMU ℝ := by unfold AMU; norm_num
  obtain ⟨a, r0, r, -, h, -⟩ := C110_collision rcpr true ion atom ⟨0, 5e-11, 1e-10⟩ rfl rfl
    (by norm_num [ion, ion_literal]) (by norm_num [atom]) hA (by simp only [atom]; positivity) (by norm_num) (by
      have e1 : firsovLength ion.Z atom.Z = 0.8853*(5.29177210903e-11)/4 := by
        show 0.8853*(5.29177210903e-11)/(Real.sqrt 1 + Real.sqrt 49)^((2:ℝ)/3) = _
        rw [Real.sqrt_one, show (49:ℝ) = 7^2 by norm_num, Real.sqrt_sq (by norm_num),
          show (1 + 7:ℝ) = 2^(3:ℝ) by norm_num, ← Real.rpow_mul (by norm_num)]
        norm_num
      have e2 : ion.E*atom.m/(ion.m + atom.m) = 1000*EV ℝ*(115/116) := by
        show 1000*EV ℝ*(115*AMU ℝ)/(AMU ℝ + 115*AMU ℝ) = _
        field_simp
        norm_num
      rw [e1, e2]
      have e3 : coulombConstant ion.Z atom.Z ≤ 1e-25 := by
        show 1*49*1.602176634e-19^2/(4*Real.pi*8.8541878128e-12) ≤ _
        rw [div_le_iff₀ (by have := Real.pi_pos; positivity)]
        nlinarith [Real.pi_gt_three]
      have e4 : (1.6e-19:ℝ) ≤ EV ℝ := by unfold EV Q; norm_num
      calc 1e-25*(coulombConstant ion.Z atom.Z/(0.8853*(5.29177210903e-11)/4))
          ≤ 1e-25*(1e-25/(0.8853*(5.29177210903e-11)/4)) := by gcongr
        _ ≤ 1000*1.6e-19*(115/116) := by norm_num
        _ ≤ 1000*EV ℝ*(115/116) := by gcongr)
  exact ⟨r, h⟩

/-- The target of a library call: the path of an ion and its electronic loss. -/
example (ext : Ext ℝ) : ∃ mat mesh, mesh0d_material ext (compound_parameters [49] [115] [1] [1] [1] 1 [0]
      .AVERAGE) "ANGSTROM" [1/20] = .ok (mat, mesh) ∧
    (∃ g t', determine_mfp_phi_impact_parameter ion mat (Options.default_options true) LibExample.zeros
      = .ok (({ ion with first_step := false }, [g]), t')) ∧
    ∀ x, 0 < x → ∃ loss, subtract_electronic_stopping_energy { ion with pos := ⟨x, 0, 0⟩ } mat 1e-10 1 49 0
        (Options.default_options true)
      = .ok ({ ion with pos := ⟨x, 0, 0⟩, E := max 0 (1000*EV ℝ - loss) }, loss) := by
  obtain ⟨mat, mesh, hm⟩ := mesh0d_material_total ext [49] [115] [1] [1] [1] [1/20] 1 [0] .AVERAGE
    (unit := "ANGSTROM") (u := ANGSTROM ℝ) rfl
  obtain ⟨ht, hidx, -, -⟩ := mesh0d_material_ok (u := ANGSTROM ℝ) rfl hm
  have hA : (0:ℝ) < ANGSTROM ℝ := by unfold ANGSTROM; norm_num
  refine ⟨mat, mesh, hm, ?_, ?_⟩
  · have hn : (0:ℝ) < (1/20)/(ANGSTROM ℝ)^3 := by positivity
    obtain ⟨s1, s2⟩ := spacing_exists _ hn
    obtain ⟨g, t', h, -⟩ := C110_path ion mat true LibExample.zeros [(1/20)/(ANGSTROM ℝ)^3] _ (by
      rw [ht.densities]
      simp only [List.map_cons, List.map_nil, powi_real]
      rw [show (3:ℤ) = ((3:ℕ):ℤ) from rfl, zpow_natCast]) (by simpa using hn) s1 (by simpa using s2)
      (fun i => by constructor <;> norm_num [LibExample.zeros])
    exact ⟨g, t', h⟩
  · intro x hx
    obtain ⟨loss, -, h⟩ := C110_stopping { ion with pos := ⟨x, 0, 0⟩ } mat _ _ _ _ _ _ _ _ true 1e-10 1 49 0 ht rfl
      (by rw [hidx]; rfl) rfl (by simp) hx
    exact ⟨loss, h⟩

end RustBCA.LibraryExample
