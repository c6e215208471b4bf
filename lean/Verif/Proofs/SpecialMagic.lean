import Verif.Proofs.SpecialAngles
import Verif.Props.Magic

/-! # MAGIC over numbers with special values (helper lemmas) -/

namespace RustBCA
open Scalar Spec

set_option linter.unusedSimpArgs false

namespace XReal

/-- what MAGIC uses as `A`, in reduced units -/
noncomputable def magicA (c0 c1 c2 e B : ℝ) : ℝ :=
  2.0*(1.0 + c0/Real.sqrt e)*e*B^((c1 + Real.sqrt e)/(c2 + Real.sqrt e))

/-- the factor of `R0 - B` in MAGIC's correction -/
noncomputable def magicK (c0 c1 c2 c3 c4 e B : ℝ) : ℝ :=
  magicA c0 c1 c2 e B*((c4 + e)/(c3 + e)*(Real.sqrt (1.0 + magicA c0 c1 c2 e B*magicA c0 c1 c2 e B) - magicA c0 c1 c2 e B))
    /(1.0 + (c4 + e)/(c3 + e)*(Real.sqrt (1.0 + magicA c0 c1 c2 e B*magicA c0 c1 c2 e B) - magicA c0 c1 c2 e B))

/-- radius of curvature at distance `x0` -/
noncomputable def magicR (V : InteractionPotential ℝ) (e x0 : ℝ) : ℝ :=
  -2*(e - expsum (screening_terms V) x0/x0)/(-expsum (screening_terms V) x0/x0^2 + dexpsum (screening_terms V) x0/x0)

theorem magic_s_pos (A : ℝ) : 0 < Real.sqrt (1.0 + A*A) - A := by
  have : A < Real.sqrt (1.0 + A*A) := by
    refine lt_of_le_of_lt (le_abs_self A) ?_
    rw [← Real.sqrt_sq_eq_abs]
    exact Real.sqrt_lt_sqrt (sq_nonneg A) (by norm_num; nlinarith)
  linarith

theorem magic_As (A : ℝ) : A*(Real.sqrt (1.0 + A*A) - A) < 1/2 := by
  have h1 : Real.sqrt (1.0 + A*A)^2 = 1 + A*A := by
    rw [show (1.0:ℝ) = 1 by norm_num]; exact Real.sq_sqrt (by nlinarith)
  generalize Real.sqrt (1.0 + A*A) = s at *
  nlinarith [sq_nonneg (s - A)]

theorem magicK_lt_one (c0 c1 c2 c3 c4 e B : ℝ) (h3 : 0 < c3) (h4 : 0 < c4) (h : c4 ≤ 1.6*c3) (he : 0 < e)
    : magicK c0 c1 c2 c3 c4 e B < 1 := by
  have hs := magic_s_pos (magicA c0 c1 c2 e B)
  have hA := magic_As (magicA c0 c1 c2 e B)
  have hg : 0 < (c4 + e)/(c3 + e) := by positivity
  have hg' : (c4 + e)/(c3 + e) ≤ 1.6 := by rw [div_le_iff₀ (by positivity)]; linarith
  unfold magicK
  generalize magicA c0 c1 c2 e B = A at *
  generalize Real.sqrt (1.0 + A*A) - A = s at *
  generalize (c4 + e)/(c3 + e) = g at *
  rw [show (1.0:ℝ) = 1 by norm_num, div_lt_one (by positivity)]
  nlinarith

theorem magicK_nonneg (c0 c1 c2 c3 c4 e B : ℝ) (h0 : 0 ≤ c0) (h3 : 0 < c3) (h4 : 0 < c4) (he : 0 < e)
    (hB : 0 < B) : 0 ≤ magicK c0 c1 c2 c3 c4 e B := by
  have hs := magic_s_pos (magicA c0 c1 c2 e B)
  have hg : 0 < (c4 + e)/(c3 + e) := by positivity
  have hA : 0 ≤ magicA c0 c1 c2 e B := by unfold magicA; positivity
  unfold magicK
  positivity

theorem magic_denominator (V : InteractionPotential ℝ) (hV : Screened V) {x0 : ℝ} (hx : 0 < x0) :
    -expsum (screening_terms V) x0/x0^2 + dexpsum (screening_terms V) x0/x0 < 0 := by
  have h1 := expsum_pos (screening_terms V) (screening_terms_pos V) (screening_terms_ne V hV) x0
  have h2 := dexpsum_nonpos (screening_terms V) (screening_terms_pos V) x0
  have h3 : 0 < expsum (screening_terms V) x0/x0^2 := by positivity
  have h4 : dexpsum (screening_terms V) x0/x0 ≤ 0 := div_nonpos_of_nonpos_of_nonneg h2 hx.le
  rw [neg_div]
  linarith

/-- MAGIC's last line over extended numbers -/
theorem magic_last (V : InteractionPotential ℝ) (hV : Screened V) (c0 c1 c2 c3 c4 : ℝ)
    (hc : magic_constants V = .ok (c0, c1, c2, c3, c4))
    (hc' : magic_constants V.lift = .ok (fin c0, fin c1, fin c2, fin c3, fin c4))
    (h2 : 0 < c2) (h3 : 0 < c3) (h4 : 0 < c4) {Za Zb Ma Mb E0 p x0 : ℝ} (hA : 0 < Za) (hB : 0 < Zb)
    (hMa : 0 < Ma) (hMb : 0 < Mb) (hE : 0 < E0) (hp : 0 < p) (hx : 0 < x0)
    (e B K R : ℝ) (he : e = E0*Mb/(Ma + Mb)/(coulombConstant Za Zb/screening_length Za Zb V))
    (hBd : B = p/screening_length Za Zb V) (hK : K = magicK c0 c1 c2 c3 c4 e B) (hRd : R = magicR V e x0)
    (hR : x0 + R ≠ 0) :
    scattering_angle .MAGIC Za Zb Ma Mb E0 p x0 V = .ok (2.0*Real.arccos ((B + R + K*(x0 - B))/(x0 + R))) ∧
    scattering_angle .MAGIC (fin Za) (fin Zb) (fin Ma) (fin Mb) (fin E0) (fin p) (fin x0) V.lift
      = .ok (fin 2.0*acos (fin ((B + R + K*(x0 - B))/(x0 + R)))) := by
  have ha := screening_length_pos V hV hA hB
  have hpi := Real.pi_pos
  have hQ := Q_pos
  have hE0 := EPS0_pos
  have h40 : (4.0:ℝ) ≠ 0 := by norm_num
  have hk : coulombConstant Za Zb = Za*Zb*Q ℝ*Q ℝ/4.0/Real.pi/EPS0 ℝ := by
    unfold coulombConstant Q EPS0
    rw [pow_two, show (4.0:ℝ) = 4 by norm_num]
    field_simp
  have hk0 : 0 < coulombConstant Za Zb := by
    rw [hk, show (4.0:ℝ) = 4 by norm_num]; positivity
  have hkE : 0 < coulombConstant Za Zb/screening_length Za Zb V := by positivity
  have hEr : 0 < E0*Mb/(Ma + Mb) := by positivity
  have hM : Ma + Mb ≠ 0 := by positivity
  have hden := magic_denominator V hV hx
  have hax : screening_length Za Zb V*x0 ≠ 0 := by positivity
  have he0 : 0 < e := by rw [he]; positivity
  have hse := Real.sqrt_pos.2 he0
  have hB0 : 0 < B := by rw [hBd]; positivity
  have hc2 : c2 + Real.sqrt e ≠ 0 := by positivity
  have hc3 : c3 + e ≠ 0 := by positivity
  have hs := magic_s_pos (magicA c0 c1 c2 e B)
  have hq : 0 ≤ 1.0 + magicA c0 c1 c2 e B*magicA c0 c1 c2 e B :=
    add_nonneg (by norm_num) (mul_self_nonneg _)
  have hG : 1.0 + (c4 + e)/(c3 + e)*(Real.sqrt (1.0 + magicA c0 c1 c2 e B*magicA c0 c1 c2 e B)
      - magicA c0 c1 c2 e B) ≠ 0 := by positivity
  have e2 : -(coulombConstant Za Zb/screening_length Za Zb V*screening_length Za Zb V
        /(screening_length Za Zb V*x0)*expsum (screening_terms V) x0)/(screening_length Za Zb V*x0)
      + coulombConstant Za Zb/screening_length Za Zb V/(screening_length Za Zb V*x0)*dexpsum (screening_terms V) x0
      = coulombConstant Za Zb/screening_length Za Zb V/screening_length Za Zb V
        *(-expsum (screening_terms V) x0/x0^2 + dexpsum (screening_terms V) x0/x0) := by
    field_simp
  have hdV : -(coulombConstant Za Zb/screening_length Za Zb V*screening_length Za Zb V
        /(screening_length Za Zb V*x0)*expsum (screening_terms V) x0)/(screening_length Za Zb V*x0)
      + coulombConstant Za Zb/screening_length Za Zb V/(screening_length Za Zb V*x0)*dexpsum (screening_terms V) x0
      ≠ 0 := by
    rw [e2]
    exact mul_ne_zero (by positivity) hden.ne
  have hrho : -2.0*(E0*Mb/(Ma + Mb) - coulombConstant Za Zb/screening_length Za Zb V*screening_length Za Zb V
        /(screening_length Za Zb V*x0)*expsum (screening_terms V) x0)
        /(-(coulombConstant Za Zb/screening_length Za Zb V*screening_length Za Zb V
        /(screening_length Za Zb V*x0)*expsum (screening_terms V) x0)/(screening_length Za Zb V*x0)
      + coulombConstant Za Zb/screening_length Za Zb V/(screening_length Za Zb V*x0)*dexpsum (screening_terms V) x0)
      /screening_length Za Zb V = R := by
    have e1 : E0*Mb/(Ma + Mb) - coulombConstant Za Zb/screening_length Za Zb V*screening_length Za Zb V
        /(screening_length Za Zb V*x0)*expsum (screening_terms V) x0
        = coulombConstant Za Zb/screening_length Za Zb V*(e - expsum (screening_terms V) x0/x0) := by
      rw [he]; field_simp
    rw [e1, e2, hRd, magicR, show (2.0:ℝ) = 2 by norm_num]
    generalize -expsum (screening_terms V) x0/x0^2 + dexpsum (screening_terms V) x0/x0 = u at *
    have := hden.ne
    field_simp
  show magic Za Zb Ma Mb E0 p x0 V = _ ∧ magic (fin Za) (fin Zb) (fin Ma) (fin Mb) (fin E0) (fin p) (fin x0) V.lift
    = _
  unfold magic
  rw [hc, hc', phi_expsum V hV, dphi_dexpsum V hV, phi_fin V hV, dphi_fin V hV]
  constructor
  · simp only [bind, Except.bind, pure, Except.pure, acos_real, pi_real, sqrt_real, powf_real, ← hk, hrho, ← he, ← hBd]
    rw [hK, magicK, magicA]
  · simp only [bind, Except.bind, pure, Except.pure, screening_length_fin V hV hA hB, Q_fin, EPS0_fin, fin_pi, fin_lit,
      fin_mul, fin_div h40, fin_div hpi.ne', fin_div hE0.ne', ← hk, fin_div ha.ne', fin_div hkE.ne', fin_div hax,
      fin_add, fin_div hM, fin_sub, fin_neg, fin_div hdV]
    simp only [hrho, ← he, ← hBd, fin_sqrt he0.le, fin_div hse.ne', fin_div hc2, fin_div hc3, fin_add, fin_mul,
      fin_powf hB0]
    rw [show 2.0*(1.0 + c0/Real.sqrt e)*e*B^((c1 + Real.sqrt e)/(c2 + Real.sqrt e)) = magicA c0 c1 c2 e B from rfl]
    simp only [fin_sqrt hq, fin_sub, fin_mul, fin_add, fin_div hG]
    rw [show magicA c0 c1 c2 e B*((c4 + e)/(c3 + e)*(Real.sqrt (1.0 + magicA c0 c1 c2 e B*magicA c0 c1 c2 e B)
        - magicA c0 c1 c2 e B))/(1.0 + (c4 + e)/(c3 + e)*(Real.sqrt (1.0 + magicA c0 c1 c2 e B*magicA c0 c1 c2 e B)
        - magicA c0 c1 c2 e B)) = K by rw [hK, magicK]]
    rw [fin_div hR]

/-- near the turning point the radius of curvature is not very negative -/
theorem magicR_ge (V : InteractionPotential ℝ) (hV : Screened V) {eps beta x r : ℝ} (he : 0 < eps) (hx : 0 < x)
    (hroot : closest (expsum (screening_terms V)) eps beta r = 0) (hxr : x ≤ r) (hrx : 0.998*r ≤ x) :
    -(x/2) ≤ magicR V eps x := by
  have h := screening_terms_pos V
  have hr : 0 < r := lt_of_lt_of_le hx hxr
  have h1 := expsum_pos (screening_terms V) h (screening_terms_ne V hV) x
  have h2 := dexpsum_nonpos (screening_terms V) h x
  have ht := closest_tangent h he beta hx hr
  rw [hroot] at ht
  have hden := magic_denominator V hV hx
  unfold magicR
  rw [le_div_iff_of_neg hden]
  unfold closest dclosest at ht
  generalize expsum (screening_terms V) x = f at *
  generalize dexpsum (screening_terms V) x = d at *
  -- `f/x - eps` is at most a small multiple of `eps - d`
  have k1 : f/x - eps ≤ 0.003*(eps - d) := by
    have e1 : 0 ≤ x - f/eps - beta^2/x + (1 + beta^2/x^2 - d/eps)*(r - x) := by linarith
    have e2 : r - x ≤ 0.003*x := by linarith
    have e3 : 0 ≤ 1 + beta^2/x^2 - d/eps := by
      have : d/eps ≤ 0 := div_nonpos_of_nonpos_of_nonneg h2 he.le
      have : 0 ≤ beta^2/x^2 := by positivity
      linarith
    have e4 := mul_le_mul_of_nonneg_left e2 e3
    have e5 : beta^2/x^2*(0.003*x) = 0.003*(beta^2/x) := by field_simp
    have e6 : 0 ≤ beta^2/x := by positivity
    have e7 : 0 ≤ x - f/eps + 0.003*x - d/eps*(0.003*x) := by linarith
    have e8 := mul_nonneg e7 (by positivity : 0 ≤ eps/x)
    have e9 : (x - f/eps + 0.003*x - d/eps*(0.003*x))*(eps/x) = eps - f/x + 0.003*eps - 0.003*d := by
      field_simp
    linarith
  have e : -(x/2)*(-f/x^2 + d/x) = f/x/2 - d/2 := by field_simp; ring
  rw [e]
  have : 0 < f/x := by positivity
  linarith

end XReal
end RustBCA
