import Verif.Spec.Threshold
import Verif.Props.FreePaths
import Verif.Examples.Cascade

/-!
# C75: the THRESHOLD model of the mean free path
-/

set_option linter.unusedSectionVars false
set_option linter.unusedSimpArgs false

namespace RustBCA
open Scalar Spec
variable {F : Type} [Scalar F]

theorem collision_step_mfp_model (rcpr : Rcpr F) (mat : Material F) (o : Options F)
    (m : MeanFreePathModel F) :
    collision_step rcpr mat (withModel o m) = collision_step rcpr mat o := by
  funext s g
  unfold collision_step choose_collision_partner calculate_binary_collision apply_collision
  rfl

theorem finish_step_mfp_model (mat : Material F) (o : Options F) (m : MeanFreePathModel F) :
    finish_step mat (withModel o m) = finish_step mat o := by
  funext s g
  rfl

/-- The model of the mean free path matters only when path lengths are drawn. -/
theorem cascade_mfp_model (rcpr : Rcpr F) (fuel : Nat) (ion : Particle F) (mat : Material F)
    (o : Options F) (m m' : MeanFreePathModel F)
    (h : ∀ p, determine_mfp_phi_impact_parameter p mat (withModel o m) =
      determine_mfp_phi_impact_parameter p mat (withModel o m')) :
    single_ion_bca rcpr fuel ion mat (withModel o m) =
      single_ion_bca rcpr fuel ion mat (withModel o m') := by
  have e : trajectory_step rcpr mat (withModel o m) = trajectory_step rcpr mat (withModel o m') := by
    funext p ps
    unfold trajectory_step
    simp only [h, collision_step_mfp_model, finish_step_mfp_model]
    rfl
  unfold single_ion_bca cascade_body traj_body
  rw [e]

/-- **C75** (partial) Where the number density is not below the threshold, or free-flight paths are
on and shorter than the interatomic spacing, a step under THRESHOLD draws the path the
documentation states: that of GASEOUS below the threshold and of LIQUID elsewhere.
Missing: below the threshold, without free-flight paths or with longer ones, where it fails
(`C75_threshold_ignored`, `C75_refuted`). -/
theorem C75_threshold_partial (p : Particle F) (mat : Material F) (o : Options F) (density : F)
    (ns : List F) (hd : mat.geometry.get_densities p.pos.x p.pos.y p.pos.z = .ok ns)
    (h : (fsum ns <. density) = false ∨ (o.high_energy_free_flight_paths = true ∧
      ∃ pmax ffp s, ffp_limits p mat = .ok (pmax, ffp) ∧
        mat.mfp p.pos.x p.pos.y p.pos.z = .ok s ∧ (ffp <. s) = true)) :
    determine_mfp_phi_impact_parameter p mat (withModel o (.THRESHOLD density)) =
      determine_mfp_phi_impact_parameter p mat
        (withModel o (documentedModel density (fsum ns))) := by
  rcases h with h | ⟨hf, pmax, ffp, s, h1, h2, h3⟩
  · rw [documentedModel, h]
    have e : (do
        let densities ← liftM (mat.geometry.get_densities p.pos.x p.pos.y p.pos.z)
        if fsum densities <. density then exponential else pure 1.0 : M F F) = pure 1.0 := by
      funext t
      simp only [hd, bind, StateT.bind, Except.bind, liftM, monadLift, MonadLift.monadLift,
        StateT.lift, pure, Except.pure, StateT.pure, h]
      rfl
    unfold determine_mfp_phi_impact_parameter withModel
    simp only [e]
    rfl
  · funext t
    unfold determine_mfp_phi_impact_parameter withModel
    simp only [hf, h1, h2, h3, hd, bind, StateT.bind, Except.bind, liftM, monadLift,
      MonadLift.monadLift, StateT.lift, pure, Except.pure, StateT.pure, if_true]
    cases hn : fsum ns <. density <;> simp only [documentedModel, hn, if_true, if_false,
      Bool.false_eq_true] <;> rfl

/-- **C75 is false of the code**: without free-flight paths THRESHOLD has no effect.  Whatever the
threshold and the target, every cascade is the cascade of LIQUID. -/
theorem C75_threshold_ignored (rcpr : Rcpr F) (fuel : Nat) (ion : Particle F) (mat : Material F)
    (o : Options F) (density : F) (h : o.high_energy_free_flight_paths = false) :
    single_ion_bca rcpr fuel ion mat (withModel o (.THRESHOLD density)) =
      single_ion_bca rcpr fuel ion mat (withModel o .LIQUID) := by
  refine cascade_mfp_model rcpr fuel ion mat o _ _ fun p => ?_
  unfold determine_mfp_phi_impact_parameter withModel
  simp only [h]
  rfl

/-- **C75 is false of the code**, in numbers: in a target of density 1, with the threshold at 2 and
all random numbers 1/2, the documented model draws the path length `log 2`; the program uses 1. -/
theorem C75_refuted : ∃ (p : Particle ℝ) (t : Tape ℝ) (g g' : BinaryCollisionGeometry ℝ)
    (t1 t2 : Tape ℝ) (p' : Particle ℝ),
    documentedModel (2:ℝ) (fsum [1]) = .GASEOUS ∧
    CascadeExample.mat.geometry.get_densities p.pos.x p.pos.y p.pos.z = .ok [1] ∧
    determine_mfp_phi_impact_parameter p CascadeExample.mat
      (withModel CascadeExample.options (.THRESHOLD 2)) t = .ok ((p', [g]), t1) ∧ g.mfp = 1 ∧
    determine_mfp_phi_impact_parameter p CascadeExample.mat
      (withModel CascadeExample.options .GASEOUS) t = .ok ((p', [g']), t2) ∧
      g'.mfp = Real.log 2 ∧ g.mfp ≠ g'.mfp := by
  have hsp : IsSpacing ([1]:List ℝ).sum 1 := by constructor <;> norm_num
  have hu : UnitInterval fun _ => 1/2 := fun k => by norm_num
  have one : ∀ {l : List (BinaryCollisionGeometry ℝ)}, l.length = 0 + 1 → ∃ a, l = [a] := by
    intro l hl; exact List.length_eq_one_iff.1 hl
  obtain ⟨gs, t1, h1, h2, ⟨f, e, h3, hf, he⟩, -⟩ := C16_annuli
    { CascadeExample.ion with first_step := false } CascadeExample.mat
    (withModel CascadeExample.options (.THRESHOLD 2)) (fun _ => 1/2) [1] 1 rfl (by norm_num) hsp rfl hu
  obtain ⟨gs', t2, h1', h2', ⟨f', e', h3', hf', he'⟩, -⟩ := C16_annuli
    { CascadeExample.ion with first_step := false } CascadeExample.mat
    (withModel CascadeExample.options .GASEOUS) (fun _ => 1/2) [1] 1 rfl (by norm_num) hsp rfl hu
  have hf : f = 1 := hf
  have he : e = 1 := he
  have hf' : f' = 1 := hf'
  have he' : e' = -Real.log (1/2) := he'
  obtain ⟨g, rfl⟩ := one h2
  obtain ⟨g', rfl⟩ := one h2'
  have k1 : g.mfp = 1 := by rw [h3 g (by simp), hf, he]; norm_num
  have k2 : g'.mfp = Real.log 2 := by
    rw [h3' g' (by simp), hf', he', one_div, Real.log_inv]; ring
  refine ⟨_, _, g, g', t1, t2, _, ?_, rfl, h1, k1, h1', k2, ?_⟩
  · simp only [documentedModel]
    rw [if_pos]
    rw [lt_real, fsum_real]; norm_num
  · rw [k1, k2]
    have := Real.log_two_lt_d9
    intro h
    rw [← h] at this
    norm_num at this

end RustBCA
