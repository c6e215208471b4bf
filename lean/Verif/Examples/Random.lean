import Verif.Props.Random
import Verif.Examples.Materials

/-!
# Concrete cases for C94
-/

namespace RustBCA.MaterialExample
open Scalar Spec MeasureTheory

/-- C94, one step: in the target of spacing 1 the probability of an azimuth below `pi` and an impact
parameter within half of the area, of three annuli each, is one half to the sixth. -/
example : randomTape (StepEvent { inside with first_step := false } mat nearOptions
    (fun _ => Real.pi) (fun k => Real.sqrt ((k + 1/2)/Real.pi)) (1/2) 0 (fun _ => ∅)) =
      ENNReal.ofReal (1/2)^6 := by
  have hpi := Real.pi_pos
  have e : ∀ k : Nat, Real.pi*Real.sqrt ((k + 1/2)/Real.pi)^2 = k + 1/2 := fun k => by
    rw [Real.sq_sqrt (by positivity)]; field_simp
  have h := C94_step { inside with first_step := false } mat nearOptions [1/4, 3/4] 1 rfl
    (by norm_num) spacing rfl (fun _ => Real.pi) (fun k => Real.sqrt ((k + 1/2)/Real.pi)) (1/2) 0
    (fun _ => ∅) (fun k _ => ⟨hpi.le, by linarith⟩)
    (fun k _ => ⟨Real.sqrt_nonneg _, by rw [e]; linarith, by rw [e]; linarith⟩) (by norm_num) (by simp)
  rw [h]
  have h2 : ∀ k : Nat, (Real.pi*Real.sqrt ((k + 1/2)/Real.pi)^2 - k*1^2)/1^2 = 1/2 := fun k => by
    rw [e]; ring
  have h1 : Real.pi/(2*Real.pi) = 1/2 := by field_simp
  simp only [h2, h1, Finset.prod_const, Finset.card_range]
  have h3 : pathSurvival false nearOptions.mean_free_path_model.isGaseous 1 (1/2) = 1 := by
    have : nearOptions.mean_free_path_model.isGaseous = false := rfl
    rw [this, pathSurvival, if_pos (by norm_num)]
  rw [h3]
  have h5 : nearOptions.weak_collision_order = 2 := rfl
  simp only [h5, ENNReal.ofReal_one, Finset.range_zero, Finset.prod_empty, mul_one, ← pow_add,
    pow_zero]

/-- C94, species: the second species, of concentration 3/4, is met with probability 3/4. -/
example : randomTape {t | ∃ atom t', mat.choose 1 0 0 t = .ok (atom, t') ∧ atom.species_index = 1 ∧
    ∀ j < 0, t' j ∈ (∅ : Set ℝ)} = ENNReal.ofReal (3/4) := by
  have h := C94_species mat 1 0 0 _ rfl concentrations tabulated 1 (by show 1 < 2; norm_num) 0 (fun _ => ∅) (by simp)
  rw [h]
  have e : mesh.concentrations = [1/4, 3/4] := rfl
  simp [e]

/-- C94, free flights. -/
example : ∃ pmax ffp, ffp_limits inside mat = .ok (pmax, ffp) ∧ 0 < ffp := by
  obtain ⟨S, h⟩ := flightData
  obtain ⟨pmax, ffp, h1, h2, -⟩ := C94_free_flight mat inside flightOptions _ _ S 1 1 h spacing rfl
  exact ⟨pmax, ffp, h1, h2⟩

end RustBCA.MaterialExample
