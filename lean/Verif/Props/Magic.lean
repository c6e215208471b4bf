import Verif.Spec.Magic
import Verif.Props.Deflection
import Mathlib.Analysis.Real.Pi.Bounds
import Mathlib.Analysis.Complex.ExponentialBounds
import Mathlib.Analysis.Calculus.Deriv.MeanValue

/-!
# C86: the MAGIC formula
-/

namespace RustBCA
open Scalar Spec Topology MeasureTheory
open Filter (Tendsto atTop)

set_option linter.unusedSimpArgs false

/-- the code's way of writing the correction term -/
theorem magic_delta (A g c4 c5 : ℝ) (h4 : 0 < c4) (h5 : 0 < c5) :
    A*(c5/c4*(Real.sqrt (1 + A*A) - A))/(1 + c5/c4*(Real.sqrt (1 + A*A) - A))*g =
      A*g/(1 + c4/c5/(Real.sqrt (1 + A^2) - A)) := by
  have hs : 0 < Real.sqrt (1 + A*A) - A := by
    have : A < Real.sqrt (1 + A*A) := by
      refine lt_of_le_of_lt (le_abs_self A) ?_
      rw [← Real.sqrt_sq_eq_abs]
      exact Real.sqrt_lt_sqrt (sq_nonneg A) (by nlinarith)
    linarith
  rw [pow_two]
  generalize Real.sqrt (1 + A*A) - A = s at hs
  field_simp
  ring

/-- What MAGIC computes, in reduced units: the formula with the table's last two numbers as `C4` and
`C5`. -/
theorem magic_value (V : InteractionPotential ℝ) (hV : Screened V) (c0 c1 c2 c3 c4 : ℝ)
    (hc : magic_constants V = .ok (c0, c1, c2, c3, c4)) (h3 : 0 < c3) (h4 : 0 < c4)
    (Za Zb Ma Mb E0 p x0 : ℝ) (hA : 0 < Za) (hB : 0 < Zb) (hMa : 0 < Ma) (hMb : 0 < Mb)
    (hE : 0 < E0) (hx : 0 < x0) :
    scattering_angle .MAGIC Za Zb Ma Mb E0 p x0 V = .ok (magicAngle ⟨c0, c1, c2, c3, c4⟩
      (E0*Mb/(Ma + Mb)/(coulombConstant Za Zb/screening_length Za Zb V))
      (p/screening_length Za Zb V) x0
      (-2*(E0*Mb/(Ma + Mb)/(coulombConstant Za Zb/screening_length Za Zb V)
          - expsum (screening_terms V) x0/x0)
        /(-expsum (screening_terms V) x0/x0^2 + dexpsum (screening_terms V) x0/x0))) := by
  have ha := screening_length_pos V hV hA hB
  have hpi := Real.pi_pos
  have hQ := Q_pos
  have hE0 := EPS0_pos
  have hk : coulombConstant Za Zb = Za*Zb*Q ℝ*Q ℝ/4.0/Real.pi/EPS0 ℝ := by
    unfold coulombConstant Q EPS0
    rw [pow_two, show (4.0:ℝ) = 4 by norm_num]
    field_simp
  have hk0 : 0 < coulombConstant Za Zb := by
    rw [hk, show (4.0:ℝ) = 4 by norm_num]; positivity
  show magic Za Zb Ma Mb E0 p x0 V = _
  unfold magic
  rw [hc, phi_expsum V hV, dphi_dexpsum V hV]
  simp only [bind, Except.bind, pure, Except.pure, acos_real, pi_real, sqrt_real, powf_real, ← hk]
  rw [show (2.0:ℝ) = 2 by norm_num, show (1.0:ℝ) = 1 by norm_num]
  generalize screening_length Za Zb V = a at *
  generalize coulombConstant Za Zb = k at *
  have hEr : 0 < E0*Mb/(Ma + Mb) := by positivity
  generalize E0*Mb/(Ma + Mb) = Er at *
  generalize expsum (screening_terms V) x0 = ph
  generalize dexpsum (screening_terms V) x0 = dph
  have hrho : -2*(Er - k/a*a/(a*x0)*ph)/(-(k/a*a/(a*x0)*ph)/(a*x0) + k/a/(a*x0)*dph)/a =
      -2*(Er/(k/a) - ph/x0)/(-ph/x0^2 + dph/x0) := by
    have e1 : Er - k/a*a/(a*x0)*ph = k/a*(Er/(k/a) - ph/x0) := by field_simp
    have e2 : -(k/a*a/(a*x0)*ph)/(a*x0) + k/a/(a*x0)*dph = k/a/a*(-ph/x0^2 + dph/x0) := by
      field_simp
    rw [e1, e2]
    generalize -ph/x0^2 + dph/x0 = u
    by_cases hu : u = 0
    · simp [hu]
    · field_simp
  have he : 0 < Er/(k/a) := by positivity
  rw [hrho]
  generalize -2*(Er/(k/a) - ph/x0)/(-ph/x0^2 + dph/x0) = R
  generalize Er/(k/a) = ε at *
  unfold magicAngle
  simp only
  rw [magic_delta _ _ _ _ (by positivity) (by positivity)]

/-- the reduced derivative is the derivative of the potential -/
theorem screened_deriv (V : InteractionPotential ℝ) (hV : Screened V) (Za Zb x0 dU : ℝ)
    (hA : 0 < Za) (hB : 0 < Zb) (hx : 0 < x0) (U : ℝ → ℝ)
    (hU : ∀ r, interaction_potential r (screening_length Za Zb V) Za Zb V = .ok (U r))
    (hd : HasDerivAt U dU (x0*screening_length Za Zb V)) :
    U (x0*screening_length Za Zb V) =
      coulombConstant Za Zb/screening_length Za Zb V*(expsum (screening_terms V) x0/x0) ∧
    dU = coulombConstant Za Zb/screening_length Za Zb V^2
      *(-expsum (screening_terms V) x0/x0^2 + dexpsum (screening_terms V) x0/x0) := by
  have ha := screening_length_pos V hV hA hB
  have hpi := Real.pi_pos
  have hQ := Q_pos
  have hE0 := EPS0_pos
  have hk : Za*Zb*Q ℝ*Q ℝ/4/Real.pi/EPS0 ℝ = coulombConstant Za Zb := by
    unfold coulombConstant Q EPS0
    rw [pow_two]
    field_simp
  have hUe : U = fun r => coulombConstant Za Zb/r
      *expsum (screening_terms V) (r/screening_length Za Zb V) := by
    funext r
    have := hU r
    rw [potential_screened V hV, hk] at this
    exact (Except.ok.inj this).symm
  generalize screening_length Za Zb V = s at *
  generalize coulombConstant Za Zb = k at *
  have hr : 0 < x0*s := by positivity
  have e : x0*s/s = x0 := by field_simp
  have h1 : HasDerivAt (fun r : ℝ => k/r) (-k/(x0*s)^2) (x0*s) := by
    have := (hasDerivAt_const (x0*s) k).fun_div (hasDerivAt_id' (x0*s)) hr.ne'
    simpa using this
  have h2 : HasDerivAt (fun r : ℝ => expsum (screening_terms V) (r/s))
      (dexpsum (screening_terms V) (x0*s/s)*(1/s)) (x0*s) :=
    HasDerivAt.comp (x0*s) (h := fun r : ℝ => r/s) (h₂ := expsum (screening_terms V))
      (expsum_hasDerivAt (screening_terms V) (x0*s/s)) ((hasDerivAt_id (x0*s)).div_const s)
  have h3 := h1.fun_mul h2
  rw [← hUe] at h3
  have h4 := hd.unique h3
  rw [e] at h4
  constructor
  · rw [hUe]
    simp only [e]
    field_simp
  · rw [h4]
    field_simp

/-- MAGIC is the published formula, with the constants of the code's table. -/
theorem magic_formula (V : InteractionPotential ℝ) (hS : Screened V) (c0 c1 c2 c3 c4 : ℝ)
    (hc : magic_constants V = .ok (c0, c1, c2, c3, c4)) (h3 : 0 < c3) (h4 : 0 < c4)
    (Za Zb Ma Mb E0 p x0 dU : ℝ) (hA : 0 < Za) (hB : 0 < Zb) (hMa : 0 < Ma) (hMb : 0 < Mb)
    (hE : 0 < E0) (hx : 0 < x0) (U : ℝ → ℝ)
    (hU : ∀ r, interaction_potential r (screening_length Za Zb V) Za Zb V = .ok (U r))
    (hd : HasDerivAt U dU (x0*screening_length Za Zb V)) (a Er : ℝ)
    (ha : a = screening_length Za Zb V) (hEr : Er = E0*Mb/(Ma + Mb)) :
    scattering_angle .MAGIC Za Zb Ma Mb E0 p x0 V = .ok (magicAngle ⟨c0, c1, c2, c3, c4⟩
      (Er/(coulombConstant Za Zb/a)) (p/a) x0 (-2*(Er - U (x0*a))/dU/a)) := by
  subst ha hEr
  have h0 := screening_length_pos V hS hA hB
  obtain ⟨e1, e2⟩ := screened_deriv V hS Za Zb x0 dU hA hB hx U hU hd
  have hk0 : 0 < coulombConstant Za Zb := by
    unfold coulombConstant
    have := Real.pi_pos
    positivity
  have key : -2*(E0*Mb/(Ma + Mb) - U (x0*screening_length Za Zb V))/dU/screening_length Za Zb V =
      -2*(E0*Mb/(Ma + Mb)/(coulombConstant Za Zb/screening_length Za Zb V)
          - expsum (screening_terms V) x0/x0)
        /(-expsum (screening_terms V) x0/x0^2 + dexpsum (screening_terms V) x0/x0) := by
    rw [e1, e2]
    generalize -expsum (screening_terms V) x0/x0^2 + dexpsum (screening_terms V) x0/x0 = u
    generalize screening_length Za Zb V = a at *
    generalize coulombConstant Za Zb = k at *
    generalize E0*Mb/(Ma + Mb) = Er
    generalize expsum (screening_terms V) x0/x0 = w
    by_cases hu : u = 0
    · simp [hu]
    · field_simp
  rw [key]
  exact magic_value _ hS _ _ _ _ _ hc h3 h4 _ _ _ _ _ _ _ hA hB hMa hMb hE hx

/-- **C86** (the part that holds) With the potentials KR_C and TRIDYN the scattering angle MAGIC
returns is the one of the published formula: `ε` is the centre-of-mass energy in units of
`Za Zb e^2/(4 pi eps0 a)`, lengths are in units of the screening length `a`, and the sum of the radii
of curvature at closest approach is `-2 (E - U)/U'`. -/
theorem C86_magic_partial (V : InteractionPotential ℝ) (hV : V = .KR_C ∨ V = .TRIDYN)
    (C : MagicConstants) (hC : MagicFor V C)
    (Za Zb Ma Mb E0 p x0 dU : ℝ) (hA : 0 < Za) (hB : 0 < Zb) (hMa : 0 < Ma) (hMb : 0 < Mb)
    (hE : 0 < E0) (hx : 0 < x0) (U : ℝ → ℝ)
    (hU : ∀ r, interaction_potential r (screening_length Za Zb V) Za Zb V = .ok (U r))
    (hd : HasDerivAt U dU (x0*screening_length Za Zb V)) (a Er : ℝ)
    (ha : a = screening_length Za Zb V) (hEr : Er = E0*Mb/(Ma + Mb)) :
    scattering_angle .MAGIC Za Zb Ma Mb E0 p x0 V = .ok (magicAngle C
      (Er/(coulombConstant Za Zb/a)) (p/a) x0 (-2*(Er - U (x0*a))/dU/a)) := by
  rcases hV with rfl | rfl <;> cases hC
  · exact magic_formula _ .kr_c _ _ _ _ _ rfl (by norm_num) (by norm_num) _ _ _ _ _ _ _ _ hA hB hMa hMb
      hE hx U hU hd a Er ha hEr
  · rw [show (69350:ℝ) = 69350.0 by norm_num, show (83550:ℝ) = 83550.0 by norm_num]
    exact magic_formula _ .tridyn _ _ _ _ _ rfl (by norm_num) (by norm_num) _ _ _ _ _ _ _ _ hA hB hMa hMb
      hE hx U hU hd a Er ha hEr

/-- **C86** (where it fails) With MOLIERE and ZBL the last two constants are exchanged. -/
theorem C86_constants_exchanged (V : InteractionPotential ℝ) (hV : V = .MOLIERE ∨ V = .ZBL)
    (C : MagicConstants) (hC : MagicFor V C)
    (Za Zb Ma Mb E0 p x0 dU : ℝ) (hA : 0 < Za) (hB : 0 < Zb) (hMa : 0 < Ma) (hMb : 0 < Mb)
    (hE : 0 < E0) (hx : 0 < x0) (U : ℝ → ℝ)
    (hU : ∀ r, interaction_potential r (screening_length Za Zb V) Za Zb V = .ok (U r))
    (hd : HasDerivAt U dU (x0*screening_length Za Zb V)) (a Er : ℝ)
    (ha : a = screening_length Za Zb V) (hEr : Er = E0*Mb/(Ma + Mb)) :
    scattering_angle .MAGIC Za Zb Ma Mb E0 p x0 V = .ok (magicAngle C.exchanged
      (Er/(coulombConstant Za Zb/a)) (p/a) x0 (-2*(Er - U (x0*a))/dU/a)) := by
  rcases hV with rfl | rfl <;> cases hC
  · exact magic_formula _ .moliere _ _ _ _ _ rfl (by norm_num) (by norm_num) _ _ _ _ _ _ _ _ hA hB hMa
      hMb hE hx U hU hd a Er ha hEr
  · exact magic_formula _ .zbl _ _ _ _ _ rfl (by norm_num) (by norm_num) _ _ _ _ _ _ _ _ hA hB hMa
      hMb hE hx U hU hd a Er ha hEr

/-! ### How far off the angle is -/

/-- If the potential falls off at least as fast as `1/r^2` beyond the closest approach, the
deflection is at least `pi (1 - p/r0)`. -/
theorem deflection_ge (U : ℝ → ℝ) (E p r0 : ℝ) (h : ClosestApproach U E p r0) (hE : 0 < E)
    (hp : 0 ≤ p) (hU : ∀ r, r0 ≤ r → U r*r^2 ≤ U r0*r0^2) :
    Real.pi*(1 - p/r0) ≤ deflection U E p r0 := by
  obtain ⟨G, hG, hGe⟩ := integrand_extends h
  obtain ⟨-, hd⟩ := deflection_eq h G hG hGe
  have hr := h.pos
  have hpi := Real.pi_pos
  have hle : ∀ t ∈ Set.Ioo 0 (Real.pi/2), G t ≤ 1 := by
    intro t ht
    rw [hGe t ht]
    unfold gmIntegrand
    have hc : 0 < Real.cos t := Real.cos_pos_of_mem_Ioo ⟨by linarith [ht.1], ht.2⟩
    have hc1 : Real.cos t ≤ 1 := Real.cos_le_one t
    have hs : 0 < Real.sin t := Real.sin_pos_of_pos_of_lt_pi ht.1 (by linarith [ht.2])
    have hr1 : r0 ≤ r0/Real.cos t := by rw [le_div_iff₀ hc]; nlinarith
    have h1 := hU _ hr1
    have h2 : U (r0/Real.cos t) ≤ U r0*Real.cos t^2 := by
      have e : U (r0/Real.cos t)*(r0/Real.cos t)^2 = U (r0/Real.cos t)*r0^2/Real.cos t^2 := by
        field_simp
      rw [e, div_le_iff₀ (by positivity)] at h1
      have : 0 < r0^2 := by positivity
      nlinarith
    have hz := h.zero
    unfold radial at hz
    have h3 : Real.sin t^2 ≤ radial U E p (r0/Real.cos t) := by
      unfold radial
      have e : p^2/(r0/Real.cos t)^2 = p^2/r0^2*Real.cos t^2 := by field_simp
      have e2 : U (r0/Real.cos t)/E ≤ U r0/E*Real.cos t^2 := by
        rw [div_mul_eq_mul_div]; gcongr
      rw [e]
      have e3 := Real.sin_sq_add_cos_sq t
      nlinarith
    rw [div_le_one (Real.sqrt_pos.2 (lt_of_lt_of_le (by positivity) h3))]
    calc Real.sin t = Real.sqrt (Real.sin t^2) := (Real.sqrt_sq hs.le).symm
      _ ≤ _ := Real.sqrt_le_sqrt h3
  have hint : ∫ t in (0:ℝ)..(Real.pi/2), G t ≤ ∫ t in (0:ℝ)..(Real.pi/2), (1:ℝ) := by
    refine intervalIntegral.integral_mono_on_of_le_Ioo (by positivity) ?_ (by simp) hle
    exact (hG.mono (by rw [Set.uIcc_of_le (by positivity)])).intervalIntegrable
  rw [intervalIntegral.integral_const, smul_eq_mul, mul_one, sub_zero] at hint
  rw [hd]
  have h5 : 2*p/r0*∫ t in (0:ℝ)..(Real.pi/2), G t ≤ 2*p/r0*(Real.pi/2) := by gcongr
  have e : 2*p/r0*(Real.pi/2) = Real.pi*(p/r0) := by ring
  linarith

/-- lower bound for the correction term -/
theorem magic_delta_ge (A A0 γ γ1 : ℝ) (h0 : 0 < A0) (hA : A0 ≤ A) (hγ : 0 < γ) (h1 : γ ≤ γ1) :
    1/(1/A0 + γ1*(2 + 1/(2*A0^2))) ≤ A/(1 + γ/(Real.sqrt (1 + A^2) - A)) := by
  have hA0 : 0 < A := lt_of_lt_of_le h0 hA
  have hq : Real.sqrt (1 + A^2)^2 = 1 + A^2 := Real.sq_sqrt (by positivity)
  have hs0 : 0 ≤ Real.sqrt (1 + A^2) := Real.sqrt_nonneg _
  have hs : Real.sqrt (1 + A^2) ≤ A + 1/(2*A) := by
    rw [Real.sqrt_le_left (by positivity)]
    have : (A + 1/(2*A))^2 = A^2 + 1 + 1/(4*A^2) := by field_simp; ring
    rw [this]
    have : 0 < 1/(4*A^2) := by positivity
    linarith
  have hinv : γ/(Real.sqrt (1 + A^2) - A) = γ*(Real.sqrt (1 + A^2) + A) := by
    have h2 : Real.sqrt (1 + A^2) - A ≠ 0 := by
      intro h
      have : Real.sqrt (1 + A^2) = A := by linarith
      rw [this] at hq
      linarith
    rw [div_eq_iff h2]
    linear_combination -γ*hq
  rw [hinv, div_le_div_iff₀ (by have : 0 < γ1 := lt_of_lt_of_le hγ h1; positivity) (by positivity),
    one_mul]
  have e1 : A*(1/A0) ≥ 1 := by rw [mul_one_div, ge_iff_le, le_div_iff₀ h0]; linarith
  have e2 : A*(1/(2*A0^2)) ≥ 1/(2*A) := by
    rw [mul_one_div, ge_iff_le, div_le_div_iff₀ (by positivity) (by positivity)]
    nlinarith
  have e3 : γ*(Real.sqrt (1 + A^2) + A) ≤ γ1*(2*A + 1/(2*A)) := by
    refine mul_le_mul h1 (by linarith) (by positivity) (hγ.le.trans h1)
  have e4 : A*(γ1*(2 + 1/(2*A0^2))) ≥ γ1*(2*A + 1/(2*A)) := by
    have : 0 < γ1 := lt_of_lt_of_le hγ h1
    have : A*(γ1*(2 + 1/(2*A0^2))) = γ1*(2*A + A*(1/(2*A0^2))) := by ring
    rw [this]
    gcongr
  nlinarith

/-- upper bound for the angle -/
theorem magicAngle_le (C : MagicConstants) (ε B R0 Rc y Q A0 γ1 : ℝ) (he : 0 < ε) (hB : 1 ≤ B)
    (hR : B < R0) (hRc : 0 ≤ Rc) (h1 : 0 ≤ C.C1) (h3 : 0 < C.C3) (h23 : C.C3 ≤ C.C2)
    (h4 : 0 < C.C4) (h5 : 0 < C.C5) (hA0 : 0 < A0) (hA : A0 ≤ 2*(ε + C.C1*Real.sqrt ε)*B)
    (hγ : (C.C4 + ε)/(C.C5 + ε) ≤ γ1) (hy0 : 0 ≤ y) (hy1 : y ≤ 1)
    (hQ : 1 - y^2/2 + y^4*(5/96) ≤ Q)
    (hfin : Q*(R0 + Rc) ≤ B + Rc + (R0 - B)*(1/(1/A0 + γ1*(2 + 1/(2*A0^2))))) :
    magicAngle C ε B R0 Rc ≤ 2*y := by
  have hs : 0 < Real.sqrt ε := Real.sqrt_pos.2 he
  have hss : Real.sqrt ε*Real.sqrt ε = ε := Real.mul_self_sqrt he.le
  obtain ⟨A, hAd⟩ : ∃ A, A = 2*(1 + C.C1/Real.sqrt ε)*ε
      *B^((C.C2 + Real.sqrt ε)/(C.C3 + Real.sqrt ε)) := ⟨_, rfl⟩
  have hAA : A0 ≤ A := by
    refine hA.trans ?_
    rw [hAd]
    have e1 : (1 + C.C1/Real.sqrt ε)*ε = ε + C.C1*Real.sqrt ε := by
      have : C.C1/Real.sqrt ε*ε = C.C1*Real.sqrt ε := by
        rw [div_mul_eq_mul_div, div_eq_iff hs.ne', mul_assoc, hss]
      rw [add_mul, one_mul, this]
    rw [mul_assoc 2 (1 + C.C1/Real.sqrt ε) ε, e1]
    have e2 : B^(1:ℝ) ≤ B^((C.C2 + Real.sqrt ε)/(C.C3 + Real.sqrt ε)) := by
      refine Real.rpow_le_rpow_of_exponent_le hB ?_
      rw [le_div_iff₀ (by positivity)]
      linarith
    rw [Real.rpow_one] at e2
    gcongr
  have hd := magic_delta_ge A A0 _ γ1 hA0 hAA (by positivity) hγ
  unfold magicAngle
  simp only
  rw [← hAd]
  have hcos : Real.cos y ≤ Q := by
    have := Real.cos_bound (x := y) (by rw [abs_of_nonneg hy0]; exact hy1)
    rw [abs_of_nonneg hy0] at this
    have := (abs_le.1 this).2
    linarith
  have hq : Real.cos y ≤ (B + Rc + A*(R0 - B)/(1 + (C.C4 + ε)/(C.C5 + ε)
      /(Real.sqrt (1 + A^2) - A)))/(R0 + Rc) := by
    rw [le_div_iff₀ (by linarith)]
    have e : A*(R0 - B)/(1 + (C.C4 + ε)/(C.C5 + ε)/(Real.sqrt (1 + A^2) - A)) =
        (R0 - B)*(A/(1 + (C.C4 + ε)/(C.C5 + ε)/(Real.sqrt (1 + A^2) - A))) := by ring
    rw [e]
    have e1 : Real.cos y*(R0 + Rc) ≤ Q*(R0 + Rc) := by
      have : 0 ≤ R0 + Rc := by linarith
      gcongr
    have e2 : (R0 - B)*(1/(1/A0 + γ1*(2 + 1/(2*A0^2)))) ≤
        (R0 - B)*(A/(1 + (C.C4 + ε)/(C.C5 + ε)/(Real.sqrt (1 + A^2) - A))) := by
      have : 0 ≤ R0 - B := by linarith
      gcongr
    linarith
  have := Real.arccos_le_arccos hq
  rw [Real.arccos_cos hy0 (by linarith [Real.pi_gt_d2])] at this
  linarith

/-- A collision in which MAGIC is off, from a calculation in reduced units. -/
theorem magic_off (V : InteractionPotential ℝ) (hS : Screened V) (c0 c1 c2 c3 c4 : ℝ)
    (hc : magic_constants V = .ok (c0, c1, c2, c3, c4)) (h3 : 0 < c3) (h4 : 0 < c4) (x0 b ε : ℝ)
    (hb : 0 < b) (hbx : b < x0)
    (hdec : ∀ x, x0 ≤ x → x*expsum (screening_terms V) x ≤ x0*expsum (screening_terms V) x0)
    (hε : ε = expsum (screening_terms V) x0/x0/(1 - b^2/x0^2)) (f : ℝ)
    (hnum : magicAngle ⟨c0, c1, c2, c3, c4⟩ ε b x0 (-2*(ε - expsum (screening_terms V) x0/x0)
        /(-expsum (screening_terms V) x0/x0^2 + dexpsum (screening_terms V) x0/x0)) <
      f*(Real.pi*(1 - b/x0))) (hf : 0 < f)
    (Za Zb Ma Mb : ℝ) (hA : 0 < Za) (hB : 0 < Zb) (hMa : 0 < Ma) (hMb : 0 < Mb) :
    ∃ (E0 p r0 θ : ℝ) (U : ℝ → ℝ), 0 < E0 ∧ 0 < p ∧
      (∀ r, interaction_potential r (screening_length Za Zb V) Za Zb V = .ok (U r)) ∧
      ClosestApproach U (E0*Mb/(Ma + Mb)) p r0 ∧
      scattering_angle .MAGIC Za Zb Ma Mb E0 p (r0/screening_length Za Zb V) V = .ok θ ∧
      θ < f*deflection U (E0*Mb/(Ma + Mb)) p r0 := by
  have ha := screening_length_pos V hS hA hB
  have hx : 0 < x0 := hb.trans hbx
  have hpos := screening_terms_pos V
  have hne := screening_terms_ne V hS
  have hph := expsum_pos _ hpos hne x0
  have hk0 : 0 < coulombConstant Za Zb := by
    unfold coulombConstant
    have := Real.pi_pos
    positivity
  have hb2 : 0 < 1 - b^2/x0^2 := by
    rw [sub_pos, div_lt_one (by positivity)]
    gcongr
  have he : 0 < ε := by rw [hε]; positivity
  have hQ := Q_pos
  have hE0 := EPS0_pos
  have hpi := Real.pi_pos
  have hk : Za*Zb*Q ℝ*Q ℝ/4/Real.pi/EPS0 ℝ = coulombConstant Za Zb := by
    unfold coulombConstant Q EPS0
    rw [pow_two]
    field_simp
  obtain ⟨U, hU, -, -⟩ := C19_repulsive V hS (screening_length Za Zb V) Za Zb ha hA hB
  have hUe : U = fun r => coulombConstant Za Zb/r
      *expsum (screening_terms V) (r/screening_length Za Zb V) := by
    funext r
    have := hU r
    rw [potential_screened V hS, hk] at this
    exact (Except.ok.inj this).symm
  have hmv := magic_value V hS c0 c1 c2 c3 c4 hc h3 h4 Za Zb Ma Mb
    (ε*(coulombConstant Za Zb/screening_length Za Zb V)*(Ma + Mb)/Mb)
    (b*screening_length Za Zb V) x0 hA hB hMa hMb (by positivity) hx
  have hEr : ε*(coulombConstant Za Zb/screening_length Za Zb V)*(Ma + Mb)/Mb*Mb/(Ma + Mb) =
      ε*(coulombConstant Za Zb/screening_length Za Zb V) := by field_simp
  rw [hEr] at hmv
  have hca : ClosestApproach U (ε*(coulombConstant Za Zb/screening_length Za Zb V))
      (b*screening_length Za Zb V) (x0*screening_length Za Zb V) := by
    refine closest_approach_screened V hS 0 Za Zb _ _ _ hA hB (by positivity) (by positivity) ?_ U hU
    rw [doca_screened V hS, closest_eq V hS hA hB (by positivity) (by positivity), hk]
    congr 1
    rw [mul_div_assoc x0, div_self ha.ne', mul_one]
    refine mul_eq_zero_of_right _ ?_
    rw [hε]
    generalize screening_length Za Zb V = a at *
    generalize coulombConstant Za Zb = k at *
    generalize expsum (screening_terms V) x0 = ph at *
    have hb3 : x0^2 - b^2 ≠ 0 := by nlinarith
    have hb4 : 1 - b^2/x0^2 ≠ 0 := hb2.ne'
    field_simp
    ring
  refine ⟨ε*(coulombConstant Za Zb/screening_length Za Zb V)*(Ma + Mb)/Mb,
    b*screening_length Za Zb V, x0*screening_length Za Zb V, _, U, by positivity, by positivity, hU,
    by rw [hEr]; exact hca, by
      rw [mul_div_assoc x0, div_self ha.ne', mul_one]
      exact hmv, ?_⟩
  rw [hEr]
  have hge := deflection_ge U _ _ _ hca (by positivity) (by positivity) (by
    intro r hr
    have hr0 : 0 < r := lt_of_lt_of_le (by positivity) hr
    rw [hUe]
    simp only
    rw [mul_div_assoc x0, div_self ha.ne', mul_one]
    have h1 := hdec (r/screening_length Za Zb V) (by rw [le_div_iff₀ ha]; exact hr)
    have e1 : coulombConstant Za Zb/r*expsum (screening_terms V) (r/screening_length Za Zb V)*r^2 =
        coulombConstant Za Zb*screening_length Za Zb V*(r/screening_length Za Zb V
          *expsum (screening_terms V) (r/screening_length Za Zb V)) := by field_simp
    have e2 : coulombConstant Za Zb/(x0*screening_length Za Zb V)*expsum (screening_terms V) x0
        *(x0*screening_length Za Zb V)^2 =
        coulombConstant Za Zb*screening_length Za Zb V*(x0*expsum (screening_terms V) x0) := by
      field_simp
    rw [e1, e2]
    gcongr)
  have e1 : b*screening_length Za Zb V/(x0*screening_length Za Zb V) = b/x0 := by field_simp
  have e2 : ε*(coulombConstant Za Zb/screening_length Za Zb V)
      /(coulombConstant Za Zb/screening_length Za Zb V) = ε := by field_simp
  have e3 : b*screening_length Za Zb V/screening_length Za Zb V = b := by field_simp
  rw [e1] at hge
  rw [e2, e3]
  refine lt_of_lt_of_le hnum ?_
  gcongr

theorem term_dec (k x0 x : ℝ) (hk : 1 ≤ k*x0) (hx0 : 0 < x0) (hx : x0 ≤ x) :
    x*Real.exp (-k*x) ≤ x0*Real.exp (-k*x0) := by
  have h1 : x*Real.exp (-k*x) = Real.exp (-k*x0)*(x*Real.exp (-(k*(x - x0)))) := by
    rw [show -k*x = -k*x0 + -(k*(x - x0)) by ring, Real.exp_add]; ring
  rw [h1, mul_comm x0]
  refine mul_le_mul_of_nonneg_left ?_ (Real.exp_pos _).le
  rw [Real.exp_neg, ← div_eq_mul_inv, div_le_iff₀ (Real.exp_pos _)]
  have := Real.add_one_le_exp (k*(x - x0))
  have h2 : x ≤ x0*(k*(x - x0) + 1) := by nlinarith
  exact h2.trans (mul_le_mul_of_nonneg_left this hx0.le)

set_option maxHeartbeats 1000000 in
/-- **C86** (refuted for MOLIERE) For every pair of atoms there is a collision, with the distance of
closest approach exactly right, in which MAGIC with the Molière potential gives less than 85 % of the
classical deflection angle of the very potential it is meant for. -/
theorem C86_refuted_moliere (Za Zb Ma Mb : ℝ) (hA : 0 < Za) (hB : 0 < Zb) (hMa : 0 < Ma)
    (hMb : 0 < Mb) :
    ∃ (E0 p r0 θ : ℝ) (U : ℝ → ℝ), 0 < E0 ∧ 0 < p ∧
      (∀ r, interaction_potential r (screening_length Za Zb .MOLIERE) Za Zb .MOLIERE = .ok (U r)) ∧
      ClosestApproach U (E0*Mb/(Ma + Mb)) p r0 ∧
      scattering_angle .MAGIC Za Zb Ma Mb E0 p (r0/screening_length Za Zb .MOLIERE) .MOLIERE =
        .ok θ ∧
      θ < 0.85*deflection U (E0*Mb/(Ma + Mb)) p r0 := by
  have hpi := Real.pi_gt_d4
  have hpi2 := Real.pi_lt_d4
  obtain ⟨x, hx⟩ : ∃ x, x = Real.exp (-1) := ⟨_, rfl⟩
  have x1 : 0.367879 < x := by rw [hx]; linarith [Real.exp_neg_one_gt_d9]
  have x2 : x < 0.367880 := by rw [hx]; linarith [Real.exp_neg_one_lt_d9]
  have hp : ∀ n : ℕ, Real.exp (-(n:ℝ)) = x^n := by
    intro n
    rw [hx, ← Real.exp_nat_mul]
    congr 1; ring
  have e1 : Real.exp (-0.3*(10/3)) = x := by rw [hx]; norm_num
  have e4 : Real.exp (-1.2*(10/3)) = x^4 := by rw [← hp 4]; norm_num
  have h60 : (6.0:ℝ) = 6 := by norm_num
  have h100 : (10.0:ℝ) = 10 := by norm_num
  have e20 : Real.exp (-6*(10/3)) = x^20 := by rw [← hp 20]; norm_num
  have hph : expsum (screening_terms .MOLIERE) (10/3) = 0.35*x + 0.55*x^4 + 0.10*x^20 := by
    simp only [screening_terms, expsum_cons, expsum_nil, e1, e4, h60, e20]; ring
  have hdph : dexpsum (screening_terms .MOLIERE) (10/3) =
      -(0.3*0.35*x + 1.2*0.55*x^4 + 6*0.10*x^20) := by
    simp only [screening_terms, dexpsum_cons, dexpsum_nil, e1, e4, h60, e20]; ring
  have p4l : (0.0183:ℝ) ≤ x^4 := by
    calc (0.0183:ℝ) ≤ 0.367879^4 := by norm_num
      _ ≤ x^4 := by gcongr
  have p4u : x^4 ≤ 0.01832 := by
    calc x^4 ≤ 0.367880^4 := by gcongr
      _ ≤ 0.01832 := by norm_num
  have p20l : 0 ≤ x^20 := by positivity
  have p20u : x^20 ≤ 0.00001 := by
    calc x^20 ≤ 0.367880^20 := by gcongr
      _ ≤ 0.00001 := by norm_num
  refine magic_off .MOLIERE .moliere _ _ _ _ _ rfl (by norm_num) (by norm_num) (10/3) 3
    (expsum (screening_terms .MOLIERE) (10/3)/(10/3)/(1 - 3^2/(10/3)^2)) (by norm_num) (by norm_num)
    ?_ rfl 0.85 ?_ (by norm_num) Za Zb Ma Mb hA hB hMa hMb
  · intro y hy
    have h1 := term_dec 0.3 (10/3) y (by norm_num) (by norm_num) hy
    have h2 := term_dec 1.2 (10/3) y (by norm_num) (by norm_num) hy
    have h3 := term_dec 6 (10/3) y (by norm_num) (by norm_num) hy
    simp only [screening_terms, expsum_cons, expsum_nil, h60]
    linarith
  · rw [hdph, hph, h100]
    obtain ⟨ph, hphd⟩ : ∃ ph, ph = 0.35*x + 0.55*x^4 + 0.10*x^20 := ⟨_, rfl⟩
    obtain ⟨d, hdd⟩ : ∃ d, d = 0.3*0.35*x + 1.2*0.55*x^4 + 6*0.10*x^20 := ⟨_, rfl⟩
    rw [← hphd, ← hdd]
    have q1 : 0.1388 ≤ ph := by rw [hphd]; linarith
    have q2 : ph ≤ 0.1389 := by rw [hphd]; linarith
    have q3 : d ≤ 0.0508 := by rw [hdd]; linarith
    have q4 : 0 ≤ d := by rw [hdd]; linarith
    obtain ⟨ε, he⟩ : ∃ ε, ε = ph/(10/3)/(1 - 3^2/(10/3)^2) := ⟨_, rfl⟩
    rw [← he]
    have he' : ph = ε*(19/30) := by rw [he]; ring
    have r1 : 0.2191 ≤ ε := by linarith
    have r2 : ε ≤ 0.2194 := by linarith
    have r3 : 0.468 ≤ Real.sqrt ε := Real.le_sqrt_of_sq_le (by norm_num; linarith)
    obtain ⟨R, hR⟩ : ∃ R, R = -2*(ε - ph/(10/3))/(-ph/(10/3)^2 + -d/(10/3)) := ⟨_, rfl⟩
    rw [← hR]
    have r4 : 12.7 ≤ R := by
      have : R = 1.62*ε/(ph*(9/100) + d*(3/10)) := by
        rw [hR, he']
        have hne : -(ε*(19/30))/(10/3)^2 + -d/(10/3) < 0 := by
          rw [show -(ε*(19/30))/(10/3)^2 + -d/(10/3) = -(ε*(57/1000) + d*(3/10)) by ring]
          linarith
        rw [div_eq_div_iff hne.ne (by nlinarith)]
        ring
      rw [this, le_div_iff₀ (by nlinarith)]
      linarith
    have := magicAngle_le ⟨0.6743, 0.009611, 0.005175, 6.314, 10⟩ ε 3 (10/3) R (0.0425*3.1415)
      0.99112 3.2 0.6395 (by linarith) (by norm_num) (by norm_num) (by linarith) (by norm_num)
      (by norm_num) (by norm_num) (by norm_num) (by norm_num) (by norm_num)
      (by simp only; linarith)
      (by simp only; rw [div_le_iff₀ (by linarith)]; linarith) (by norm_num) (by norm_num) (by norm_num)
      (by norm_num; linarith)
    refine lt_of_le_of_lt this ?_
    norm_num
    linarith

theorem exp_bounds (t : ℝ) (h0 : 0 ≤ t) (h1 : t ≤ 1) :
    1 + t + t^2/2 + t^3/6 + t^4/24 ≤ Real.exp t ∧
      Real.exp t ≤ 1 + t + t^2/2 + t^3/6 + t^4/24 + t^5/100 := by
  constructor
  · have := Real.sum_le_exp_of_nonneg h0 5
    simp only [Finset.sum_range_succ, Finset.sum_range_zero, Nat.factorial] at this
    norm_num at this
    linarith
  · have := Real.exp_bound' h0 h1 (n := 5) (by norm_num)
    simp only [Finset.sum_range_succ, Finset.sum_range_zero, Nat.factorial] at this
    norm_num at this
    linarith

/-- beyond 3 screening lengths the ZBL potential falls off faster than `1/r^2` -/
theorem zbl_dec (x : ℝ) (hx : 3 ≤ x) : x*expsum (screening_terms .ZBL) x ≤
    3*expsum (screening_terms .ZBL) 3 := by
  have hd : ∀ y : ℝ, HasDerivAt (fun y => 0.02817*(y*Real.exp (-0.20162*y))
      + 0.28022*(y*Real.exp (-0.40290*y)))
      (0.02817*((1 - 0.20162*y)*Real.exp (-0.20162*y))
        + 0.28022*((1 - 0.40290*y)*Real.exp (-0.40290*y))) y := by
    intro y
    have he : ∀ k : ℝ, HasDerivAt (fun y => Real.exp (-k*y)) (Real.exp (-k*y)*(-k)) y := fun k =>
      (((hasDerivAt_id' y).const_mul (-k)).exp).congr_deriv (by ring)
    have h1 := ((hasDerivAt_id' y).fun_mul (he 0.20162)).const_mul 0.02817
    have h2 := ((hasDerivAt_id' y).fun_mul (he 0.40290)).const_mul 0.28022
    exact (h1.fun_add h2).congr_deriv (by ring)
  have hanti : AntitoneOn (fun y : ℝ => 0.02817*(y*Real.exp (-0.20162*y))
      + 0.28022*(y*Real.exp (-0.40290*y))) (Set.Ici 3) := by
    refine antitoneOn_of_deriv_nonpos (convex_Ici 3)
      (fun y _ => (hd y).continuousAt.continuousWithinAt)
      (fun y _ => (hd y).differentiableAt.differentiableWithinAt) ?_
    intro y hy
    rw [interior_Ici] at hy
    have hy : 3 < y := hy
    rw [(hd y).deriv]
    have hp1 := Real.exp_pos (-0.20162*y)
    have hp2 := Real.exp_pos (-0.40290*y)
    by_cases h5 : y < 5
    · have hq : Real.exp (-0.20162*y) ≤ 3*Real.exp (-0.40290*y) := by
        have e : Real.exp (-0.20162*y) = Real.exp (-0.40290*y)*Real.exp (0.20128*y) := by
          rw [← Real.exp_add]; congr 1; ring
        have h3 : Real.exp (0.20128*y) ≤ 3 := by
          have h6 : Real.exp (0.20128*y) ≤ Real.exp (1 + 0.0064) := Real.exp_le_exp.2 (by linarith)
          rw [Real.exp_add] at h6
          have h7 := Real.exp_one_lt_d9
          have h8 := (exp_bounds 0.0064 (by norm_num) (by norm_num)).2
          have h9 : Real.exp 0.0064 ≤ 1.01 := h8.trans (by norm_num)
          have := Real.exp_pos (1:ℝ)
          nlinarith [Real.exp_pos (0.0064:ℝ)]
        rw [e, mul_comm]
        gcongr
      have e1 : (1 - 0.20162*y)*Real.exp (-0.20162*y) ≤ 0.39514*(3*Real.exp (-0.40290*y)) := by
        have : 1 - 0.20162*y ≤ 0.39514 := by linarith
        calc (1 - 0.20162*y)*Real.exp (-0.20162*y) ≤ 0.39514*Real.exp (-0.20162*y) := by gcongr
          _ ≤ _ := by gcongr
      have e2 : (1 - 0.40290*y)*Real.exp (-0.40290*y) ≤ -0.2087*Real.exp (-0.40290*y) := by
        have : 1 - 0.40290*y ≤ -0.2087 := by linarith
        gcongr
      linarith
    · have e1 : (1 - 0.20162*y)*Real.exp (-0.20162*y) ≤ 0 :=
        mul_nonpos_of_nonpos_of_nonneg (by linarith) hp1.le
      have e2 : (1 - 0.40290*y)*Real.exp (-0.40290*y) ≤ 0 :=
        mul_nonpos_of_nonpos_of_nonneg (by linarith) hp2.le
      linarith
  have h1 := hanti (Set.mem_Ici.2 le_rfl) (Set.mem_Ici.2 hx) hx
  have h2 := term_dec 0.94229 3 x (by norm_num) (by norm_num) hx
  have h3 := term_dec 3.1998 3 x (by norm_num) (by norm_num) hx
  simp only at h1
  simp only [screening_terms, expsum_cons, expsum_nil]
  linarith

set_option maxHeartbeats 1000000 in
/-- **C86** (refuted for ZBL) The same with the ZBL potential. -/
theorem C86_refuted_zbl (Za Zb Ma Mb : ℝ) (hA : 0 < Za) (hB : 0 < Zb) (hMa : 0 < Ma)
    (hMb : 0 < Mb) :
    ∃ (E0 p r0 θ : ℝ) (U : ℝ → ℝ), 0 < E0 ∧ 0 < p ∧
      (∀ r, interaction_potential r (screening_length Za Zb .ZBL) Za Zb .ZBL = .ok (U r)) ∧
      ClosestApproach U (E0*Mb/(Ma + Mb)) p r0 ∧
      scattering_angle .MAGIC Za Zb Ma Mb E0 p (r0/screening_length Za Zb .ZBL) .ZBL = .ok θ ∧
      θ < 0.85*deflection U (E0*Mb/(Ma + Mb)) p r0 := by
  have hpi := Real.pi_gt_d4
  have inv : ∀ t l u : ℝ, 0 ≤ t → t ≤ 1 → 0 < l → l*(1 + t + t^2/2 + t^3/6 + t^4/24 + t^5/100) ≤ 1 →
      1 ≤ u*(1 + t + t^2/2 + t^3/6 + t^4/24) → l ≤ Real.exp (-t) ∧ Real.exp (-t) ≤ u := by
    intro t l u h0 h1 hl h2 h3
    obtain ⟨b1, b2⟩ := exp_bounds t h0 h1
    have hpos := Real.exp_pos t
    have hu : 0 < u := by
      by_contra hu
      have : 0 ≤ 1 + t + t^2/2 + t^3/6 + t^4/24 := by positivity
      nlinarith
    rw [Real.exp_neg]
    constructor
    · rw [le_inv_comm₀ hl hpos, inv_eq_one_div, le_div_iff₀ hl]
      nlinarith
    · rw [inv_le_comm₀ hpos hu, inv_eq_one_div, div_le_iff₀ hu]
      nlinarith
  obtain ⟨a1, a2⟩ := inv 0.60486 0.545 0.547 (by norm_num) (by norm_num) (by norm_num) (by norm_num)
    (by norm_num)
  obtain ⟨b1, b2⟩ := inv 0.60435 0.546 0.547 (by norm_num) (by norm_num) (by norm_num) (by norm_num)
    (by norm_num)
  obtain ⟨c1, c2⟩ := inv 0.94229 0.3895 0.391 (by norm_num) (by norm_num) (by norm_num) (by norm_num)
    (by norm_num)
  have d2 : Real.exp (-9.5994) ≤ 0.0005 := by
    calc Real.exp (-9.5994) ≤ Real.exp ((9:ℕ)*(-1)) := Real.exp_le_exp.2 (by norm_num)
      _ = Real.exp (-1)^9 := Real.exp_nat_mul _ _
      _ ≤ 0.367880^9 := by
        have := Real.exp_neg_one_lt_d9
        have := Real.exp_pos (-1:ℝ)
        gcongr
        linarith
      _ ≤ _ := by norm_num
  have d1 := Real.exp_pos (-9.5994:ℝ)
  have e1 : Real.exp (-0.20162*3) = Real.exp (-0.60486) := by norm_num
  have e2 : Real.exp (-0.40290*3) = Real.exp (-0.60435)^2 := by
    rw [← Real.exp_nat_mul]; norm_num
  have e3 : Real.exp (-0.94229*3) = Real.exp (-0.94229)^3 := by
    rw [← Real.exp_nat_mul]; congr 1; norm_num
  have e4 : Real.exp (-3.1998*3) = Real.exp (-9.5994) := by norm_num
  have b3 : 0.2981 ≤ Real.exp (-0.60435)^2 := by
    calc (0.2981:ℝ) ≤ 0.546^2 := by norm_num
      _ ≤ _ := by gcongr
  have b4 : Real.exp (-0.60435)^2 ≤ 0.2993 := by
    calc Real.exp (-0.60435)^2 ≤ 0.547^2 := by gcongr
      _ ≤ _ := by norm_num
  have c3 : 0.059 ≤ Real.exp (-0.94229)^3 := by
    calc (0.059:ℝ) ≤ 0.3895^3 := by norm_num
      _ ≤ _ := by gcongr
  have c4 : Real.exp (-0.94229)^3 ≤ 0.0598 := by
    calc Real.exp (-0.94229)^3 ≤ 0.391^3 := by gcongr
      _ ≤ _ := by norm_num
  generalize Real.exp (-0.60486) = y1 at *
  generalize Real.exp (-0.60435) = y2 at *
  generalize Real.exp (-0.94229) = y3 at *
  generalize Real.exp (-9.5994) = y4 at *
  have hph : expsum (screening_terms .ZBL) 3 = 0.02817*y1 + 0.28022*y2^2 + 0.50986*y3^3
      + 0.18175*y4 := by
    simp only [screening_terms, expsum_cons, expsum_nil, e1, e2, e3, e4]; ring
  have hdph : dexpsum (screening_terms .ZBL) 3 = -(0.20162*0.02817*y1 + 0.40290*0.28022*y2^2
      + 0.94229*0.50986*y3^3 + 3.1998*0.18175*y4) := by
    simp only [screening_terms, dexpsum_cons, dexpsum_nil, e1, e2, e3, e4]; ring
  refine magic_off .ZBL .zbl _ _ _ _ _ rfl (by norm_num) (by norm_num) 3 2.7
    (expsum (screening_terms .ZBL) 3/3/(1 - 2.7^2/3^2)) (by norm_num) (by norm_num)
    zbl_dec rfl 0.85 ?_ (by norm_num) Za Zb Ma Mb hA hB hMa hMb
  rw [hdph, hph]
  obtain ⟨ph, hphd⟩ : ∃ ph, ph = 0.02817*y1 + 0.28022*y2^2 + 0.50986*y3^3 + 0.18175*y4 := ⟨_, rfl⟩
  obtain ⟨d, hdd⟩ : ∃ d, d = 0.20162*0.02817*y1 + 0.40290*0.28022*y2^2
      + 0.94229*0.50986*y3^3 + 3.1998*0.18175*y4 := ⟨_, rfl⟩
  rw [← hphd, ← hdd]
  have q1 : 0.1286 ≤ ph := by rw [hphd]; linarith
  have q2 : ph ≤ 0.13 := by rw [hphd]; linarith
  have q3 : d ≤ 0.066 := by rw [hdd]; linarith
  have q4 : 0.06 ≤ d := by rw [hdd]; linarith
  obtain ⟨ε, he⟩ : ∃ ε, ε = ph/3/(1 - 2.7^2/3^2) := ⟨_, rfl⟩
  rw [← he]
  have he' : ph = ε*0.57 := by rw [he]; norm_num; ring
  have r1 : 0.2256 ≤ ε := by linarith
  have r2 : ε ≤ 0.2282 := by linarith
  have r3 : 0.4749 ≤ Real.sqrt ε := Real.le_sqrt_of_sq_le (by norm_num; linarith)
  obtain ⟨R, hR⟩ : ∃ R, R = -2*(ε - ph/3)/(-ph/3^2 + -d/3) := ⟨_, rfl⟩
  rw [← hR]
  have r4 : 10.04 ≤ R := by
    have : R = 1.62*ε/(ph*(1/9) + d*(1/3)) := by
      rw [hR, he']
      have hne : -(ε*0.57)/3^2 + -d/3 < 0 := by
        rw [show -(ε*0.57)/3^2 + -d/3 = -(ε*(0.57/9) + d*(1/3)) by ring]
        linarith
      rw [div_eq_div_iff hne.ne (by nlinarith)]
      ring
    rw [this, le_div_iff₀ (by nlinarith)]
    linarith
  have := magicAngle_le ⟨0.99229, 0.011615, 0.0071222, 9.3066, 14.813⟩ ε 2.7 3 R (0.0425*3.1415)
    0.99112 3.76 0.6345 (by linarith) (by norm_num) (by norm_num) (by linarith) (by norm_num)
    (by norm_num) (by norm_num) (by norm_num) (by norm_num) (by norm_num)
    (by simp only; linarith)
    (by simp only; rw [div_le_iff₀ (by linarith)]; linarith) (by norm_num) (by norm_num) (by norm_num)
    (by norm_num; linarith)
  refine lt_of_le_of_lt this ?_
  norm_num
  linarith

end RustBCA
