import Verif.Props.Threshold
import Verif.Examples.Materials

/-!
# Non-vacuity of C75

Both cases of `C75_threshold_partial` occur: a target denser than the threshold, and a target so
dense that free-flight paths are shorter than the atomic spacing.
-/

namespace RustBCA.ThresholdExample
open Scalar Spec

/-- A half space of density `N` of one species. -/
noncomputable def mat (N : ℝ) : Material ℝ where
  m := [1]
  Z := [1]
  Eb := [0]
  Es := [0]
  Ec := [1]
  Ed := [0]
  interaction_index := [0]
  geometry := (⟨[N], [1], 1, 1⟩ : Mesh0D ℝ).toGeom
  surface_binding_model := .INDIVIDUAL
  bulk_binding_model := .INDIVIDUAL

theorem physical (N : ℝ) : Physical (mat N) MaterialExample.inside :=
  ⟨by simp [mat], by norm_num [MaterialExample.inside, CascadeExample.ion],
    by norm_num [MaterialExample.inside, CascadeExample.ion],
    by norm_num [MaterialExample.inside, CascadeExample.ion]⟩

/-- Density 1, threshold 1/2: as LIQUID, whatever the other options. -/
example (o : Options ℝ) :
    determine_mfp_phi_impact_parameter MaterialExample.inside (mat 1) (withModel o (.THRESHOLD (1/2)))
      = determine_mfp_phi_impact_parameter MaterialExample.inside (mat 1) (withModel o .LIQUID) := by
  have h : (fsum [(1:ℝ)] <. 1/2) = false := by rw [lt_real_false, fsum_real]; norm_num
  have := C75_threshold_partial MaterialExample.inside (mat 1) o (1/2) [1] rfl (Or.inl h)
  rwa [documentedModel, h] at this

/-- There is a density at which free-flight paths are shorter than the spacing; with the threshold
above it, the step is that of GASEOUS. -/
example : ∃ N : ℝ, 0 < N ∧ determine_mfp_phi_impact_parameter MaterialExample.inside (mat N)
      (withModel MaterialExample.flightOptions (.THRESHOLD (2*N)))
    = determine_mfp_phi_impact_parameter MaterialExample.inside (mat N)
      (withModel MaterialExample.flightOptions .GASEOUS) := by
  obtain ⟨S, h1, h2, h3⟩ := C34_positive (mat 1) MaterialExample.inside .INTERPOLATED 1 [1]
    (physical 1) one_pos rfl rfl
  obtain ⟨S0, rfl⟩ : ∃ S0, S = [S0] := List.length_eq_one_iff.1 (by rw [h2]; rfl)
  have hS0 : 0 < S0 := h3 S0 (by simp)
  obtain ⟨x, hx⟩ : ∃ x, x = 1 + 0.05/S0 := ⟨_, rfl⟩
  have hq : 0 < 0.05/S0 := by positivity
  have hx1 : 1 < x := by linarith
  have hx0 : 0 < x := by linarith
  have hN : 0 < x^3 := by positivity
  refine ⟨x^3, hN, ?_⟩
  have hd : FlightData (mat (x^3)) MaterialExample.inside [x^3] [1] [S0] 1 := by
    refine ⟨rfl, by simpa using hN, rfl, ⟨by simp, by simp⟩, rfl, one_pos, h1, ?_, ⟨le_rfl, le_rfl⟩,
      by simp [mat], physical _, by norm_num [MaterialExample.inside, CascadeExample.ion]⟩
    simp [electronicLoss]; positivity
  obtain ⟨pmax, ffp, hl, -, hf0, -, hb⟩ := ffp_limits_bounds _ _ _ _ _ _ hd
  have hs : IsSpacing ([x^3]:List ℝ).sum (1/x) := by
    refine ⟨by positivity, ?_⟩
    simp only [List.sum_cons, List.sum_nil, add_zero]
    field_simp
  have hm := mfp_eq (mat (x^3)) MaterialExample.inside.pos.x MaterialExample.inside.pos.y
    MaterialExample.inside.pos.z (1/x) [x^3] rfl (by simpa using hN) hs
  have hlt : ffp < 1/x := by
    have hE : MaterialExample.inside.E = 1 := rfl
    have e : electronicLoss [S0] [x^3] ffp*1 = S0*x^3*ffp := by simp [electronicLoss]
    rw [e, hE, mul_one] at hb
    have h5 : 0.05 < S0*x := by
      have : S0*x = S0 + 0.05 := by rw [hx]; field_simp
      linarith
    rw [lt_div_iff₀ hx0]
    by_contra hcon
    have hcon := not_lt.1 hcon
    have h6 : S0*x^3*ffp = S0*x*x*(ffp*x) := by ring
    have h7 : S0*x*x*1 ≤ S0*x*x*(ffp*x) := mul_le_mul_of_nonneg_left hcon (by positivity)
    have h8 : S0*x*1 < S0*x*x := mul_lt_mul_of_pos_left hx1 (by positivity)
    linarith
  have hthr : (fsum [x^3] <. 2*x^3) = true := by
    rw [lt_real, fsum_real]; simp only [List.sum_cons, List.sum_nil, add_zero]; linarith
  have := C75_threshold_partial MaterialExample.inside (mat (x^3)) MaterialExample.flightOptions
    (2*x^3) [x^3] rfl (Or.inr ⟨rfl, pmax, ffp, 1/x, hl, hm, (lt_real _ _).2 hlt⟩)
  rwa [documentedModel, hthr] at this

end RustBCA.ThresholdExample
