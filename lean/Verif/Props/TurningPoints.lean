import Verif.Proofs.Screened
import Mathlib.Analysis.SpecialFunctions.Pow.Deriv

/-!
# C23-C25: turning points of every potential
-/

set_option linter.unusedVariables false

namespace RustBCA
open Scalar Spec

/-! ## C23 -/

/-- Parameters for which a potential makes sense. -/
def GoodParameters : InteractionPotential ℝ → Prop
  | .LENNARD_JONES_12_6 sigma _ => 0 < sigma
  | .LENNARD_JONES_65_6 sigma _ => 0 < sigma
  | .MORSE _ alpha _ => alpha ≠ 0
  | .KRC_MORSE _ alpha _ _ _ => alpha ≠ 0
  | _ => True

theorem rpow_split {s : ℝ} (hs : 0 < s) (x y : ℝ) : s ^ (x + y) = s ^ x * s ^ y :=
  Real.rpow_add hs x y

theorem lj_factor (r p E sigma epsilon : ℝ) (hr : 0 < r) (hE : 0 < E) (hs : 0 < sigma) :
    doca_lennard_jones r p E sigma epsilon
      = (r/sigma)^12*(1 - lennard_jones r sigma epsilon/E - p^2/r^2) := by
  have e12 : (12.0 : ℝ) = ((12 : ℕ) : ℝ) := by norm_num
  have e6 : (6.0 : ℝ) = ((6 : ℕ) : ℝ) := by norm_num
  have e10 : (10.0 : ℝ) = ((10 : ℕ) : ℝ) := by norm_num
  have e2 : (2 : ℤ) = ((2 : ℕ) : ℤ) := rfl
  unfold doca_lennard_jones lennard_jones
  simp only [powf_real, powi_real]
  rw [e12, e6, e10, e2]
  simp only [Real.rpow_natCast, zpow_natCast]
  rw [show (4.0 : ℝ) = 4 by norm_num, show (1.0 : ℝ) = 1 by norm_num]
  field_simp

theorem lj65_factor (r p E sigma epsilon : ℝ) (hr : 0 < r) (hE : 0 < E) (hs : 0 < sigma) :
    doca_lennard_jones_65_6 r p E sigma epsilon
      = (r/sigma)^(6.5 : ℝ)*(1 - lennard_jones_65_6 r sigma epsilon/E - p^2/r^2) := by
  have hq : 0 < r/sigma := by positivity
  have e2 : (2 : ℤ) = ((2 : ℕ) : ℤ) := rfl
  unfold doca_lennard_jones_65_6 lennard_jones_65_6
  simp only [powf_real, powi_real]
  rw [e2, zpow_natCast, show (4.0 : ℝ) = 4 by norm_num, show (1.0 : ℝ) = 1 by norm_num]
  rw [show (6.0 : ℝ) = 6 by norm_num]
  have hinv : ∀ y : ℝ, (sigma/r)^y = ((r/sigma)^y)⁻¹ := by
    intro y
    rw [← Real.inv_rpow hq.le]; congr 1; rw [inv_div]
  have h1 : (r/sigma)^(6.5 : ℝ) = (r/sigma)^(6 : ℝ)*(r/sigma)^(0.5 : ℝ) := by
    rw [← Real.rpow_add hq]; norm_num
  have h2 : (r/sigma)^(6.5 : ℝ) = (r/sigma)^(4.5 : ℝ)*(r/sigma)^2 := by
    rw [← Real.rpow_natCast, ← Real.rpow_add hq]; norm_num
  have hp1 : 0 < (r/sigma)^(6.5 : ℝ) := Real.rpow_pos_of_pos hq _
  have hp2 : 0 < (r/sigma)^(6 : ℝ) := Real.rpow_pos_of_pos hq _
  have h5 : (r/sigma)^(6.5 : ℝ)*(4*epsilon*((sigma/r)^(6.5 : ℝ) - (sigma/r)^(6 : ℝ))/E)
      = 4*epsilon/E*(1 - (r/sigma)^(0.5 : ℝ)) := by
    rw [hinv, hinv]
    have : (r/sigma)^(6.5 : ℝ)*((r/sigma)^(6 : ℝ))⁻¹ = (r/sigma)^(0.5 : ℝ) := by
      rw [h1]; field_simp
    calc _ = 4*epsilon/E*((r/sigma)^(6.5 : ℝ)*((r/sigma)^(6.5 : ℝ))⁻¹
          - (r/sigma)^(6.5 : ℝ)*((r/sigma)^(6 : ℝ))⁻¹) := by ring
      _ = _ := by rw [this, mul_inv_cancel₀ hp1.ne']
  have h6 : (r/sigma)^(6.5 : ℝ)*(p^2/r^2) = (p/sigma)^2*(r/sigma)^(4.5 : ℝ) := by
    rw [h2]; field_simp
  have h7 : (r/sigma)^(6.5 : ℝ)*(1 - 4*epsilon*((sigma/r)^(6.5 : ℝ) - (sigma/r)^(6 : ℝ))/E
      - p^2/r^2) = (r/sigma)^(6.5 : ℝ)
      - (r/sigma)^(6.5 : ℝ)*(4*epsilon*((sigma/r)^(6.5 : ℝ) - (sigma/r)^(6 : ℝ))/E)
      - (r/sigma)^(6.5 : ℝ)*(p^2/r^2) := by ring
  rw [h7, h5, h6]

theorem morse_factor (r p E D alpha r0 : ℝ) (hr : 0 < r) (hE : 0 < E) :
    doca_morse r p E D alpha r0 = (r*alpha)^2*(1 - morse r D alpha r0/E - p^2/r^2) := by
  have e2 : (2 : ℤ) = ((2 : ℕ) : ℤ) := rfl
  unfold doca_morse morse
  simp only [powi_real, exp_real]
  rw [e2]
  simp only [zpow_natCast]
  field_simp

/-- A turning-point function that is a non-zero factor times the radial kinetic energy. -/
theorem zero_iff_turning {c U E p r : ℝ} (hc : c ≠ 0) :
    c*(1 - U/E - p^2/r^2) = 0 ↔ TurningPoint U E p r := by
  unfold TurningPoint
  constructor
  · intro h; exact (mul_eq_zero.mp h).resolve_left hc
  · intro h; rw [h, mul_zero]

/-- The three parts of the tungsten-tungsten turning-point function. -/
theorem ww_zero_iff (r p E U F : ℝ) (hr : 0 < r) (hE : 0 < E)
    (hU : tungsten_tungsten_cubic_spline r = .ok U)
    (hF : doca_tungsten_tungsten_cubic_spline r p E = .ok F) :
    F = 0 ↔ TurningPoint U E p r := by
  have e2 : (2 : ℤ) = ((2 : ℕ) : ℤ) := rfl
  have hA := ANGSTROM_pos
  unfold doca_tungsten_tungsten_cubic_spline at hF
  have h74 : (0 : ℝ) < (74.0 : ℝ) := by norm_num
  by_cases hx : (r/ANGSTROM ℝ <=. (1.10002200044 : ℝ)) = true
  · unfold tungsten_tungsten_cubic_spline at hU
    simp only [hx, if_true, isNaN_real, Bool.false_eq_true, if_false] at hF hU
    have h1 := potential_screened .ZBL .zbl r (screening_length 74.0 74.0 .ZBL) 74.0 74.0
    have h2 : interaction_potential r (screening_length 74.0 74.0 .ZBL) 74.0 74.0 .ZBL
      = screened_coulomb r (screening_length 74.0 74.0 .ZBL) 74.0 74.0 .ZBL := rfl
    rw [h2] at h1
    rw [h1] at hU
    have hU' := Except.ok.inj hU
    have h3 : screened_doca_singularity_free r 74.0 74.0 E p .ZBL
        = .ok (r/screening_length 74.0 74.0 .ZBL *
          closest (expsum (screening_terms .ZBL)) (reduced_energy 74.0 74.0 E .ZBL)
          (p/screening_length 74.0 74.0 .ZBL) (r/screening_length 74.0 74.0 .ZBL)) := by
      have hs := screening_length_pos .ZBL .zbl h74 h74
      have h := phi_expsum .ZBL .zbl (r/screening_length 74.0 74.0 .ZBL)
      simp only [screened_doca_singularity_free, doca_function_transformed, h, bind, Except.bind,
        pure, Except.pure, Except.ok.injEq, closest, reduced_energy]
      field_simp
    rw [h3] at hF
    have hs := screening_length_pos .ZBL .zbl h74 h74
    rw [← Except.ok.inj hF, closest_eq .ZBL .zbl h74 h74 hE hr, hU', ← mul_assoc]
    exact zero_iff_turning (by positivity)
  · simp only [hx] at hF
    rw [hU] at hF
    simp only [bind, Except.bind, pure, Except.pure, Except.ok.injEq, powi_real,
      Bool.false_eq_true, if_false] at hF
    rw [e2] at hF
    simp only [zpow_natCast] at hF
    rw [← hF]
    have : (r/ANGSTROM ℝ)^2 - (r/ANGSTROM ℝ)^2*U/E - p^2/(ANGSTROM ℝ)^2
        = (r/ANGSTROM ℝ)^2*(1 - U/E - p^2/r^2) := by field_simp
    rw [this]
    exact zero_iff_turning (by positivity)

/-- **C23 (partial).** For every potential except FOUR_EIGHT (and COULOMB, which has no such
function) the distance-of-closest-approach function vanishes exactly at the turning points of the
potential's own energy, both in the plain and in the singularity-free form.
Missing from C23: FOUR_EIGHT, for which it is false (`C23_refuted_four_eight`). -/
theorem C23_zeros_are_turning_points_partial (V : InteractionPotential ℝ) (Za Zb E p r U F F' : ℝ)
    (hV : ∀ al be, V ≠ .FOUR_EIGHT al be) (hg : GoodParameters V)
    (hA : 0 < Za) (hB : 0 < Zb) (hE : 0 < E) (hr : 0 < r)
    (hU : interaction_potential r (screening_length Za Zb V) Za Zb V = .ok U)
    (hF : distance_of_closest_approach_function r (screening_length Za Zb V) Za Zb E p V = .ok F)
    (hF' : distance_of_closest_approach_function_singularity_free r (screening_length Za Zb V)
      Za Zb E p V = .ok F') :
    (F = 0 ↔ TurningPoint U E p r) ∧ (F' = 0 ↔ TurningPoint U E p r) := by
  have hscr : Screened V → (F = 0 ↔ TurningPoint U E p r) ∧ (F' = 0 ↔ TurningPoint U E p r) := by
    intro hS
    have hs := screening_length_pos V hS hA hB
    have h1 := potential_screened V hS r (screening_length Za Zb V) Za Zb
    rw [h1] at hU
    have h2 := doca_screened V hS r (screening_length Za Zb V) Za Zb E p
    rw [h2, closest_eq V hS hA hB hE hr, Except.ok.inj hU] at hF
    have h3 : screened_doca_singularity_free r Za Zb E p V
        = .ok (r/screening_length Za Zb V *
          closest (expsum (screening_terms V)) (reduced_energy Za Zb E V)
          (p/screening_length Za Zb V) (r/screening_length Za Zb V)) := by
      have h := phi_expsum V hS (r/screening_length Za Zb V)
      simp only [screened_doca_singularity_free, doca_function_transformed, h, bind, Except.bind,
        pure, Except.pure, Except.ok.injEq, closest, reduced_energy]
      field_simp
    have h4 : distance_of_closest_approach_function_singularity_free r (screening_length Za Zb V)
        Za Zb E p V = screened_doca_singularity_free r Za Zb E p V := by
      cases hS <;> rfl
    rw [h4, h3, closest_eq V hS hA hB hE hr, Except.ok.inj hU, ← mul_assoc] at hF'
    rw [← Except.ok.inj hF, ← Except.ok.inj hF']
    exact ⟨zero_iff_turning (by positivity), zero_iff_turning (by positivity)⟩
  cases V with
  | TRIDYN => exact hscr .tridyn
  | MOLIERE => exact hscr .moliere
  | KR_C => exact hscr .kr_c
  | ZBL => exact hscr .zbl
  | LENZ_JENSEN => exact hscr .lenz_jensen
  | LENNARD_JONES_12_6 sigma epsilon =>
    have hs : 0 < sigma := hg
    have h := lj_factor r p E sigma epsilon hr hE hs
    rw [← Except.ok.inj hU, ← Except.ok.inj hF, ← Except.ok.inj hF', h]
    exact ⟨zero_iff_turning (by positivity), zero_iff_turning (by positivity)⟩
  | LENNARD_JONES_65_6 sigma epsilon =>
    have hs : 0 < sigma := hg
    have h := lj65_factor r p E sigma epsilon hr hE hs
    rw [← Except.ok.inj hU, ← Except.ok.inj hF, ← Except.ok.inj hF', h]
    have : 0 < (r/sigma)^(6.5 : ℝ) := Real.rpow_pos_of_pos (by positivity) _
    exact ⟨zero_iff_turning this.ne', zero_iff_turning this.ne'⟩
  | MORSE D alpha r0 =>
    have ha : alpha ≠ 0 := hg
    have h := morse_factor r p E D alpha r0 hr hE
    rw [← Except.ok.inj hU, ← Except.ok.inj hF, ← Except.ok.inj hF', h]
    have : (r*alpha)^2 ≠ 0 := by positivity
    exact ⟨zero_iff_turning this, zero_iff_turning this⟩
  | WW => exact ⟨ww_zero_iff r p E U F hr hE hU hF, ww_zero_iff r p E U F' hr hE hU hF'⟩
  | COULOMB Z1 Z2 => simp [distance_of_closest_approach_function, rpanic] at hF
  | KRC_MORSE D alpha r0 k x0 =>
    have ha : alpha ≠ 0 := hg
    have e2 : (2 : ℤ) = ((2 : ℕ) : ℤ) := rfl
    have key : ∀ G, doca_krc_morse r p E (screening_length Za Zb (.KRC_MORSE D alpha r0 k x0))
        Za Zb D alpha r0 k x0 = .ok G → (G = 0 ↔ TurningPoint U E p r) := by
      intro G hG
      have hU' : krc_morse r (screening_length Za Zb (.KRC_MORSE D alpha r0 k x0)) Za Zb D alpha r0
        k x0 = .ok U := hU
      unfold doca_krc_morse at hG
      rw [hU'] at hG
      simp only [bind, Except.bind, pure, Except.pure, Except.ok.injEq, powi_real] at hG
      rw [e2] at hG
      simp only [zpow_natCast] at hG
      rw [← hG]
      have : (r*alpha)^2 - (r*alpha)^2/E*U - (p*alpha)^2
          = (r*alpha)^2*(1 - U/E - p^2/r^2) := by field_simp
      rw [this]
      exact zero_iff_turning (by positivity)
    exact ⟨key F hF, key F' hF'⟩
  | FOUR_EIGHT al be => exact absurd rfl (hV al be)

/-- **C23 is false for FOUR_EIGHT.** With alpha = beta = 1, energy 240 and impact parameter 0 the
distance 1/2 is a turning point, but not a zero of the code's function. -/
theorem C23_refuted_four_eight : ∃ (U F : ℝ),
    interaction_potential (1/2) 1 1 1 (.FOUR_EIGHT 1 1) = .ok U ∧
    distance_of_closest_approach_function (1/2) 1 1 1 240 0 (.FOUR_EIGHT 1 1) = .ok F ∧
    TurningPoint U 240 0 (1/2) ∧ F ≠ 0 := by
  refine ⟨_, _, rfl, rfl, ?_, ?_⟩
  · unfold TurningPoint four_eight
    have e4 : (4 : ℤ) = ((4 : ℕ) : ℤ) := rfl
    have e8 : (8 : ℤ) = ((8 : ℕ) : ℤ) := rfl
    simp only [powf_real, powi_real, Real.one_rpow]
    rw [e4, e8]
    simp only [zpow_natCast]
    norm_num
  · unfold doca_four_eight
    have e3 : (3.0 : ℝ) = ((3 : ℕ) : ℝ) := by norm_num
    have e8 : (8.0 : ℝ) = ((8 : ℕ) : ℝ) := by norm_num
    simp only [powf_real, sqrt_real, Real.one_rpow, Real.sqrt_one]
    rw [e8, e3]
    simp only [Real.rpow_natCast]
    norm_num

/-- **C23, derivatives (partial).** The reported derivative is the derivative with respect to
`r/a` for screened potentials and with respect to `r` for the two Lennard-Jones forms.
Missing: MORSE, for which it is false (`C23_refuted_morse_derivative`); the others have none. -/
theorem C23_derivative_screened (V : InteractionPotential ℝ) (hV : Screened V)
    (Za Zb E p : ℝ) (hA : 0 < Za) (hB : 0 < Zb) :
    ∃ F dF : ℝ → ℝ,
      (∀ x, distance_of_closest_approach_function (x*screening_length Za Zb V)
        (screening_length Za Zb V) Za Zb E p V = .ok (F x)) ∧
      (∀ x, diff_distance_of_closest_approach_function (x*screening_length Za Zb V)
        (screening_length Za Zb V) Za Zb E p V = .ok (dF x)) ∧
      ∀ x, 0 < x → HasDerivAt F (dF x) x := by
  have hs := screening_length_pos V hV hA hB
  have hys : ∀ y : ℝ, y*screening_length Za Zb V/screening_length Za Zb V = y :=
    fun y => by field_simp
  refine ⟨_, _, fun x => ?_, fun x => ?_, fun x hx => closest_hasDerivAt (screening_terms V)
    (reduced_energy Za Zb E V) (p/screening_length Za Zb V) hx⟩
  · rw [doca_screened V hV, hys]
  · rw [ddoca_screened V hV, hys]

theorem C23_derivative_lennard_jones_partial (a Za Zb E p sigma epsilon r : ℝ) (hr : 0 < r)
    (hs : 0 < sigma) :
    HasDerivAt (fun r => doca_lennard_jones r p E sigma epsilon)
      (diff_doca_lennard_jones r p E sigma epsilon) r ∧
    HasDerivAt (fun r => doca_lennard_jones_65_6 r p E sigma epsilon)
      (diff_doca_lennard_jones_65_6 r p E sigma epsilon) r ∧
    diff_distance_of_closest_approach_function r a Za Zb E p (.LENNARD_JONES_12_6 sigma epsilon)
      = .ok (diff_doca_lennard_jones r p E sigma epsilon) ∧
    diff_distance_of_closest_approach_function r a Za Zb E p (.LENNARD_JONES_65_6 sigma epsilon)
      = .ok (diff_doca_lennard_jones_65_6 r p E sigma epsilon) := by
  have hq : 0 < r/sigma := by positivity
  have hpow : ∀ (y : ℝ), HasDerivAt (fun t => (t/sigma)^y) (y*(r/sigma)^(y - 1)/sigma) r := by
    intro y
    have h1 : HasDerivAt (fun t : ℝ => t/sigma) (1/sigma) r := (hasDerivAt_id r).div_const sigma
    have h2 := h1.rpow_const (p := y) (Or.inl hq.ne')
    rw [show y*(r/sigma)^(y - 1)/sigma = 1/sigma*y*(r/sigma)^(y - 1) by ring]
    exact h2
  have hpow2 : ∀ (y : ℝ), HasDerivAt (fun t => t^y) (y*r^(y - 1)) r := by
    intro y
    exact Real.hasDerivAt_rpow_const (Or.inl hr.ne')
  refine ⟨?_, ?_, rfl, rfl⟩
  · unfold doca_lennard_jones diff_doca_lennard_jones
    simp only [powf_real, powi_real]
    have h := ((hpow 12.0).sub (((hpow 6.0).const_sub 1.0).const_mul (4.0*epsilon/E))).sub
      (((hpow2 10.0).const_mul (p^(2:ℤ))).div_const (sigma^(12.0:ℝ)))
    refine h.congr_deriv ?_
    rw [show (12.0 - 1 : ℝ) = 11.0 by norm_num, show (6.0 - 1 : ℝ) = 5.0 by norm_num,
      show (10.0 - 1 : ℝ) = 9.0 by norm_num]
    generalize (r/sigma)^(11.0 : ℝ) = a1
    generalize (r/sigma)^(5.0 : ℝ) = a2
    generalize r^(9.0 : ℝ) = a3
    generalize sigma^(12.0 : ℝ) = a4
    rw [show (12.0 : ℝ) = 12 by norm_num, show (4.0 : ℝ) = 4 by norm_num,
      show (6.0 : ℝ) = 6 by norm_num, show (10.0 : ℝ) = 10 by norm_num]
    ring
  · unfold doca_lennard_jones_65_6 diff_doca_lennard_jones_65_6
    simp only [powf_real, powi_real]
    have h := ((hpow 6.5).sub (((hpow 0.5).const_sub 1.0).const_mul (4.0*epsilon/E))).sub
      ((hpow 4.5).const_mul ((p/sigma)^(2:ℤ)))
    refine h.congr_deriv ?_
    have e : (sigma*r)^(-0.5 : ℝ) = (r/sigma)^(-0.5 : ℝ)/sigma := by
      rw [Real.mul_rpow hs.le hr.le, Real.div_rpow hr.le hs.le]
      have hss : sigma^(0.5 : ℝ)*sigma^(0.5 : ℝ) = sigma := by
        rw [← Real.rpow_add hs]; norm_num
      rw [show (-0.5 : ℝ) = -(0.5 : ℝ) from rfl, Real.rpow_neg hs.le]
      have : 0 < sigma^(0.5 : ℝ) := Real.rpow_pos_of_pos hs _
      generalize r^(-(0.5 : ℝ)) = R
      generalize sigma^(0.5 : ℝ) = h0 at *
      rw [← hss]
      field_simp
    rw [e, show (6.5 - 1 : ℝ) = 5.5 by norm_num, show (0.5 - 1 : ℝ) = -0.5 by norm_num,
      show (4.5 - 1 : ℝ) = 3.5 by norm_num, show (4.0 : ℝ) = 4 by norm_num]
    ring

/-- **C23 is false for MORSE's derivative.** With D = alpha = r0 = E = 1 at r = 1 the function has
derivative 4, the code reports `2 + 2/e`. -/
theorem C23_refuted_morse_derivative (p : ℝ) :
    HasDerivAt (fun r => doca_morse r p 1 1 1 1) 4 1 ∧
    diff_doca_morse 1 p 1 1 1 1 = 2 + 2*Real.exp (-1) ∧
    (4 : ℝ) ≠ 2 + 2*Real.exp (-1) := by
  have e2 : (2 : ℤ) = ((2 : ℕ) : ℤ) := rfl
  refine ⟨?_, ?_, ?_⟩
  · unfold doca_morse
    simp only [exp_real, powi_real]
    rw [e2]
    simp only [zpow_natCast]
    have hid : HasDerivAt (fun r : ℝ => (r*1)^2) 2 1 := by
      simpa using (hasDerivAt_pow 2 (1:ℝ))
    have hlin : ∀ c : ℝ, HasDerivAt (fun r : ℝ => c*1*(r - 1)) c 1 := by
      intro c
      simpa using ((hasDerivAt_id (1:ℝ)).sub_const 1).const_mul (c*1)
    have hx1 : HasDerivAt (fun r : ℝ => Real.exp (-2.0*1*(r - 1))) (-2) 1 := by
      have := (hlin (-2.0)).exp
      norm_num at this
      norm_num
      exact this
    have hx2 : HasDerivAt (fun r : ℝ => Real.exp (-1*(r - 1))) (-1) 1 := by
      have := (hlin (-1)).exp
      norm_num at this
      norm_num
      exact this
    have h := (hid.sub (((hid.mul_const (1:ℝ)).div_const 1).mul
      (hx1.sub (hx2.const_mul 2.0)))).sub_const ((p*1)^2)
    norm_num at h
    norm_num
    exact h
  · unfold diff_doca_morse
    simp only [exp_real, powi_real]
    norm_num
  · have : Real.exp (-1) < 1 := by
      rw [Real.exp_lt_one_iff]; norm_num
    intro h
    linarith

/-- **C23 is false for the derivative of the singularity-free form of screened potentials** (which the
program does not use): the term with the derivative of the screening function is missing, at every
distance. -/
theorem C23_refuted_singularity_free_derivative (V : InteractionPotential ℝ) (hV : Screened V)
    (Za Zb E p : ℝ) (hA : 0 < Za) (hB : 0 < Zb) (hE : 0 < E) :
    ∃ F dF : ℝ → ℝ,
      (∀ x, distance_of_closest_approach_function_singularity_free (x*screening_length Za Zb V)
        (screening_length Za Zb V) Za Zb E p V = .ok (F x)) ∧
      (∀ x, diff_distance_of_closest_approach_function_singularity_free (x*screening_length Za Zb V)
        (screening_length Za Zb V) Za Zb E p V = .ok (dF x)) ∧
      ∀ x, 0 < x → ∀ d, HasDerivAt F d x → dF x < d := by
  have hs := screening_length_pos V hV hA hB
  have hys : ∀ y : ℝ, y*screening_length Za Zb V/screening_length Za Zb V = y :=
    fun y => by field_simp
  have hps := screening_terms_pos V
  have hns := screening_terms_ne V hV
  have hre := reduced_energy_pos V hV hA hB hE
  generalize hG : expsum (screening_terms V) = f
  have hf : ∀ x, HasDerivAt f (dexpsum (screening_terms V) x) x := by
    rw [← hG]; exact expsum_hasDerivAt _
  have hphi : ∀ x, phi x V = .ok (f x) := by rw [← hG]; exact phi_expsum V hV
  refine ⟨fun x => x*x - x*f x/reduced_energy Za Zb E V
      - p/screening_length Za Zb V*(p/screening_length Za Zb V),
    fun x => 2*x - f x/reduced_energy Za Zb E V, fun x => ?_, fun x => ?_, fun x hx d hd => ?_⟩
  · have h4 : ∀ r, distance_of_closest_approach_function_singularity_free r (screening_length Za Zb V)
        Za Zb E p V = screened_doca_singularity_free r Za Zb E p V := by
      intro r; cases hV <;> rfl
    rw [h4]
    simp only [screened_doca_singularity_free, doca_function_transformed, hys, hphi, bind, Except.bind,
      pure, Except.pure, reduced_energy]
  · have h4 : ∀ r, diff_distance_of_closest_approach_function_singularity_free r
        (screening_length Za Zb V) Za Zb E p V
        = diff_doca_function_transformed (r/screening_length Za Zb V) (p/screening_length Za Zb V)
          (LINDHARD_REDUCED_ENERGY_PREFACTOR ℝ*screening_length Za Zb V/Za/Zb*E) V := by
      intro r; cases hV <;> rfl
    rw [h4]
    simp only [diff_doca_function_transformed, hys, hphi, bind, Except.bind, pure, Except.pure,
      reduced_energy]
    rw [show (2.0:ℝ) = 2 by norm_num]
  · have h1 : HasDerivAt (fun x : ℝ => x*x) (1*x + x*1) x := (hasDerivAt_id' x).fun_mul (hasDerivAt_id' x)
    have h2 : HasDerivAt (fun x : ℝ => x*f x) (1*f x + x*dexpsum (screening_terms V) x) x :=
      (hasDerivAt_id' x).fun_mul (hf x)
    have h3 := (h1.fun_sub (h2.div_const (reduced_energy Za Zb E V))).sub_const
      (p/screening_length Za Zb V*(p/screening_length Za Zb V))
    have e := hd.unique h3
    rw [e]
    have hn := dexpsum_neg _ hps hns x
    have : x*dexpsum (screening_terms V) x/reduced_energy Za Zb E V < 0 :=
      div_neg_of_neg_of_pos (mul_neg_of_pos_of_neg hx hn) hre
    rw [add_div, one_mul, one_mul, mul_one]
    show 2*x - f x/reduced_energy Za Zb E V < _
    linarith

end RustBCA
