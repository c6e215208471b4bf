import Verif.Props.NoPanic
import Verif.Spec.Vacuum
import Verif.Proofs.Random

/-!
# C95 and C96: uniform targets and random numbers
-/

set_option linter.unusedSimpArgs false

namespace RustBCA
open Scalar Spec XReal MeasureTheory ProbabilityTheory

/-- The same uniform target over the extended numbers. -/
def Mesh0D.lift (g : Mesh0D ℝ) : Mesh0D XReal where
  densities := g.densities.map fin
  concentrations := g.concentrations.map fin
  electronic_stopping_correction_factor := fin g.electronic_stopping_correction_factor
  energy_barrier_thickness := fin g.energy_barrier_thickness

/-- **C95, uniform targets.** Asked about a point with real coordinates, the code of `Mesh0D` computes the same
over the extended numbers as over the reals. -/
theorem C95_mesh0d (g : Mesh0D ℝ) : SameAnswers g.toGeom g.lift.toGeom where
  densities _ _ _ := rfl
  ck _ _ _ := rfl
  total _ _ _ := by
    show Except.ok (fsum (g.densities.map fin)) = Except.ok (fin (fsum g.densities))
    rw [fsum_fin]
  concentrations _ _ _ := rfl
  inside x _ _ := by
    show Except.ok ((0.0 : XReal) <. fin x) = Except.ok ((0.0:ℝ) <. x)
    rw [fin_lit, fin_lt']
  boundary x _ _ := by
    show Except.ok ((-10.0*fin g.energy_barrier_thickness : XReal) <. fin x)
      = Except.ok ((-10.0*g.energy_barrier_thickness:ℝ) <. x)
    rw [fin_lit, fin_neg, fin_mul, fin_lt']
  barrier x _ _ := by
    show Except.ok ((-fin g.energy_barrier_thickness : XReal) <. fin x)
      = Except.ok ((-g.energy_barrier_thickness:ℝ) <. x)
    rw [fin_neg, fin_lt']
  closest x y z := by
    show Except.ok ((0.0 : XReal), fin y, fin z) = Except.ok (fin (0.0:ℝ), fin y, fin z)
    rw [fin_lit]

/-- **C96, uniform targets.** A uniform target with one density for each of its species, all of them
tabulated, has an answer to every question about every point. -/
theorem C96_mesh0d (mat : Material ℝ) (g : Mesh0D ℝ) (s : ℝ) (h : UniformTarget mat g s)
    (hd : g.densities.length = g.concentrations.length) : ReadyTarget mat g.concentrations.length where
  tabulated := h.tabulated
  densities _ _ _ := by rw [h.geometry]; exact ⟨_, rfl, hd⟩
  concentrations _ _ _ := by rw [h.geometry]; exact ⟨_, rfl, rfl, h.concentrations⟩
  ck _ _ _ := by rw [h.geometry]; exact ⟨_, rfl⟩
  inside _ _ _ := by rw [h.geometry]; exact ⟨_, rfl⟩
  boundary _ _ _ := by rw [h.geometry]; exact ⟨_, rfl⟩
  barrier _ _ _ := by rw [h.geometry]; exact ⟨_, rfl⟩
  closest _ _ _ := by rw [h.geometry]; exact ⟨_, rfl⟩

/-- **C96, random numbers.** Almost every stream of uniformly distributed random numbers lies strictly
between 0 and 1. -/
theorem C96_random_numbers : ∀ᵐ t ∂randomTape, OpenUnit t := by
  unfold OpenUnit
  rw [ae_all_iff]
  intro k
  have h : ∀ᵐ x ∂uniform01, 0 < x ∧ x < 1 := by
    unfold uniform01
    have h1 : ∀ᵐ x ∂(volume.restrict (Set.Ico (0:ℝ) 1)), x ∈ Set.Ico (0:ℝ) 1 := ae_restrict_mem measurableSet_Ico
    have h2 : ∀ᵐ x ∂(volume.restrict (Set.Ico (0:ℝ) 1)), x ≠ 0 := by
      apply ae_restrict_of_ae
      rw [ae_iff]
      simp
    filter_upwards [h1, h2] with x hx hx0
    exact ⟨lt_of_le_of_ne hx.1 (Ne.symm hx0), hx.2⟩
  have hm := (measurePreserving_eval_infinitePi (fun _ : Nat => uniform01) k)
  exact hm.quasiMeasurePreserving.ae h

end RustBCA
