import Verif.Props.Deflection
import Verif.Examples.Cascade

/-!
# Non-vacuity for C84
-/

namespace RustBCA
open Scalar Spec Topology
open Filter (Tendsto atTop)

/-- In the potential `3/(2r)` at energy 1 and impact parameter 1 the closest approach is 2 and the
deflection angle `2 arctan (3/4)`; the Gauss-Mehler angles tend to it. -/
theorem coulomb_closest : ClosestApproach (fun r => (3/2:ℝ)/r) 1 1 2 ∧
    deflection (fun r => (3/2:ℝ)/r) 1 1 2 = 2*Real.arctan (3/4) := by
  have h := rutherford_angle (3/2) 1 1 2 (by norm_num) (by norm_num) (by norm_num) (by norm_num)
    (by unfold radial; norm_num)
  refine ⟨h.1, ?_⟩
  rw [h.2]
  norm_num

example : ∃ θ : ℕ → ℝ,
    (∀ n, scattering_integral_gauss_mehler (1:ℝ) 1 2 (fun r => .ok ((3/2)/r)) n = .ok (θ n)) ∧
      Tendsto θ atTop (𝓝 (2*Real.arctan (3/4))) := by
  have h := (C84_gauss_mehler_converges (fun r => .ok ((3/2:ℝ)/r)) _ 1 1 2 (fun _ _ => rfl)
    coulomb_closest.1).2
  rwa [coulomb_closest.2] at h

/-- Gauss-Legendre there: the integrand is `2/sqrt(5/4 - u^2/4)`, within 0.11 of 1.89, so the angle
returned is within 0.23 of the exact one. -/
example : ∃ θ, scattering_integral_gauss_legendre (1:ℝ) 1 2 (fun r => .ok ((3/2)/r)) = .ok θ ∧
    |θ - 2*Real.arctan (3/4)| ≤ 0.23 := by
  obtain ⟨θ, h1, h2⟩ := C84_gauss_legendre_accuracy (fun r => .ok ((3/2:ℝ)/r)) _ 1 1 2
    (fun _ _ => rfl) coulomb_closest.1
  refine ⟨θ, h1, ?_⟩
  have h3 := h2 (fun i => if i = 0 then 1.89 else 0) 0.111 ?_
  · rw [coulomb_closest.2] at h3
    refine h3.trans ?_
    simp [Finset.sum_range_succ]
    norm_num
  · intro u hu y hy
    rw [gl_value u 1 2 1 ((3/2)/(2/(1 - u^2))) (fun r => .ok ((3/2:ℝ)/r)) rfl] at hy
    have hy' := (Except.ok.inj (Except.ok.inj hy)).symm
    have hu0 := hu.1
    have hu1 := hu.2
    have hq : 0 < 1 - u^2 := by nlinarith
    have e : 1 - (3/2:ℝ)/(2/(1 - u^2))/1 - 1^2*(1 - u^2)^2/2^2 = u^2*(5/4 - u^2/4) := by
      field_simp
      ring
    rw [e, Real.sqrt_mul (by positivity), Real.sqrt_sq hu0.le] at hy'
    obtain ⟨R, hR⟩ : ∃ R, R = Real.sqrt (5/4 - u^2/4) := ⟨_, rfl⟩
    have hR1 : 1 < R := by
      rw [hR]
      refine Real.lt_sqrt_of_sq_lt ?_
      nlinarith
    have hR2 : R < 1.1181 := by
      rw [hR, Real.sqrt_lt' (by norm_num)]
      nlinarith
    rw [← hR] at hy'
    have hy2 : y = 2/R := by rw [hy']; field_simp; norm_num
    have b1 : y < 2 := by
      rw [hy2, div_lt_iff₀ (by linarith)]; linarith
    have b2 : 1.78 < y := by
      rw [hy2, lt_div_iff₀ (by linarith)]; nlinarith
    simp [Finset.sum_range_succ]
    rw [abs_le]
    constructor <;> linarith

/-- Screened potentials: every pair of atoms has a closest approach, so the hypothesis of
`C84_screened_converges` and `C84_mendenhall_weller` can be met for every energy and impact
parameter. -/
theorem closest_exists (V : InteractionPotential ℝ) (hV : Screened V)
    (Za Zb Ma Mb E0 p : ℝ) (hA : 0 < Za) (hB : 0 < Zb) (hMa : 0 < Ma) (hMb : 0 < Mb)
    (hE : 0 < E0) (hp : 0 < p) : ∃ x0, 0 < x0 ∧
      distance_of_closest_approach_function (x0*screening_length Za Zb V)
      (screening_length Za Zb V) Za Zb (E0*Mb/(Ma + Mb)) p V = .ok 0 := by
  have ha := screening_length_pos V hV hA hB
  obtain ⟨f, hf, -, r, hr, h0, -⟩ := C20_unique_turning_point V hV (screening_length Za Zb V) Za Zb
    (E0*Mb/(Ma + Mb)) p hA hB (by positivity) hp
  refine ⟨r/screening_length Za Zb V, by positivity, ?_⟩
  rw [div_mul_cancel₀ _ ha.ne', hf, h0]

example : ∃ x0 : ℝ, 0 < x0 ∧ ∃ θ : ℕ → ℝ, ∃ l,
    (∀ n, scattering_angle (.GAUSS_MEHLER n) 18 29 40 63 1e-16 1e-11 x0 .ZBL = .ok (θ n)) ∧
      Tendsto θ atTop (𝓝 l) := by
  obtain ⟨x0, hx, hz⟩ := closest_exists .ZBL .zbl 18 29 40 63 1e-16 1e-11 (by norm_num) (by norm_num)
    (by norm_num) (by norm_num) (by norm_num) (by norm_num)
  obtain ⟨U, -, -, θ, h1, h2⟩ := C84_screened_converges .ZBL .zbl 18 29 40 63 1e-16 1e-11 x0
    (by norm_num) (by norm_num) (by norm_num) (by norm_num) (by norm_num) hx hz
  exact ⟨x0, hx, θ, _, h1, h2⟩

example : ∃ x0 θ : ℝ, 0 < x0 ∧
    scattering_angle .MENDENHALL_WELLER 18 29 40 63 1e-16 1e-11 x0 .KR_C = .ok θ := by
  obtain ⟨x0, hx, hz⟩ := closest_exists .KR_C .kr_c 18 29 40 63 1e-16 1e-11 (by norm_num)
    (by norm_num) (by norm_num) (by norm_num) (by norm_num) (by norm_num)
  obtain ⟨U, -, h⟩ := C84_mendenhall_weller .KR_C .kr_c 18 29 40 63 1e-16 1e-11 x0
    (by norm_num) (by norm_num) (by norm_num) (by norm_num) (by norm_num) hx hz
  obtain ⟨-, G0, G1, -, -, h3⟩ := h _ _ rfl rfl
  exact ⟨x0, _, hx, h3⟩

example : ∃ x0 θ : ℝ, 0 < x0 ∧
    scattering_angle .GAUSS_LEGENDRE 18 29 40 63 1e-16 1e-11 x0 .KR_C = .ok θ := by
  obtain ⟨x0, hx, hz⟩ := closest_exists .KR_C .kr_c 18 29 40 63 1e-16 1e-11 (by norm_num)
    (by norm_num) (by norm_num) (by norm_num) (by norm_num) (by norm_num)
  obtain ⟨U, -, h⟩ := C84_gauss_legendre_screened .KR_C .kr_c 18 29 40 63 1e-16 1e-11 x0
    (by norm_num) (by norm_num) (by norm_num) (by norm_num) (by norm_num) hx hz
  obtain ⟨-, θ, h3, -⟩ := h _ _ rfl rfl
  exact ⟨x0, θ, hx, h3⟩

/-- Rutherford scattering of the ion of the cascade example. -/
example : ∃ c : ℕ → BinaryCollisionResult ℝ,
    (∀ n, calculate_binary_collision CascadeExample.rcpr CascadeExample.ion CascadeExample.ion
      { phi_azimuthal := 0, impact_parameter := 1, mfp := 1 }
      { CascadeExample.options with scattering_integral := [[.GAUSS_MEHLER n]] }
      = .ok (.ok (c n))) ∧
    Tendsto (fun n => (c n).theta) atTop
      (𝓝 (2*Real.arctan (coulombConstant 1 1/(2*(1*1/(1 + 1))*1)))) := by
  obtain ⟨c, h1, h2, -⟩ := C84_rutherford CascadeExample.rcpr CascadeExample.ion CascadeExample.ion
    { phi_azimuthal := 0, impact_parameter := 1, mfp := 1 }
    (fun n => { CascadeExample.options with scattering_integral := [[.GAUSS_MEHLER n]] }) 1 1
    (fun n => ⟨[.COULOMB 1 1], rfl, rfl⟩) (fun n => ⟨[.GAUSS_MEHLER n], rfl, rfl⟩)
    (by norm_num) (by norm_num) (by norm_num [CascadeExample.ion]) (by norm_num [CascadeExample.ion])
    (by norm_num [CascadeExample.ion]) (by norm_num)
  exact ⟨c, h1, h2⟩

end RustBCA
