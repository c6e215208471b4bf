import Verif.Props.RootFinding
import Verif.Props.Materials
import Mathlib.Algebra.Order.Ring.Pow

/-!
# C19 (published constants), C83: the interaction energies
-/

set_option linter.unusedVariables false
set_option linter.unusedSimpArgs false

namespace RustBCA
open Scalar Spec

/-- **C19, published constants.** The screening functions are the published sums of exponentials,
with their derivatives. -/
theorem C19_published (V : InteractionPotential ℝ) (h : Screened V) (x : ℝ) :
    phi x V = .ok ((published V).map fun cd => cd.1*Real.exp (-(cd.2*x))).sum ∧
    dphi x V = .ok ((published V).map fun cd => -(cd.1*cd.2)*Real.exp (-(cd.2*x))).sum := by
  have e : published V = screening_terms V := by cases h <;> rfl
  rw [phi_expsum V h, dphi_dexpsum V h, e]
  unfold expsum dexpsum
  refine ⟨by simp only [neg_mul], ?_⟩
  congr 3
  funext cd
  ring_nf

/-- **C19** The screening length, which scales distances and reduced energies: the universal one for
`ZBL` and for `COULOMB` (with that potential's own charges), the range parameter for `MORSE`, Firsov's
for all others. -/
theorem C19_screening_length (Za Zb : ℝ) (hA : 0 < Za) (hB : 0 < Zb) (V : InteractionPotential ℝ) :
    (V = .ZBL → screening_length Za Zb V = universalLength Za Zb) ∧
    (∀ Z1 Z2, V = .COULOMB Z1 Z2 → screening_length Za Zb V = universalLength Z1 Z2) ∧
    (∀ D alpha r0, V = .MORSE D alpha r0 → screening_length Za Zb V = alpha) ∧
    ((V ≠ .ZBL ∧ (∀ Z1 Z2, V ≠ .COULOMB Z1 Z2) ∧ ∀ D alpha r0, V ≠ .MORSE D alpha r0) →
      screening_length Za Zb V = firsovLength Za Zb) := by
  have key : 0.8853*A0 ℝ*powf (sqrt Za + sqrt Zb) (-2.0/3.0) = firsovLength Za Zb := by
    have h0 : 0 ≤ Real.sqrt Za + Real.sqrt Zb := by positivity
    rw [powf_real, sqrt_real, sqrt_real, firsovLength, show (-2.0/3.0:ℝ) = -((2:ℝ)/3) by norm_num,
      Real.rpow_neg h0, A0]
    exact (div_eq_mul_inv _ _).symm
  refine ⟨?_, ?_, ?_, ?_⟩
  · rintro rfl
    simp only [screening_length, universalLength, powf_real, A0]
  · rintro Z1 Z2 rfl
    simp only [screening_length, universalLength, powf_real, A0]
  · rintro D alpha r0 rfl
    rfl
  · rintro ⟨h1, h2, h3⟩
    cases V with
    | ZBL => exact absurd rfl h1
    | COULOMB Z1 Z2 => exact absurd rfl (h2 Z1 Z2)
    | MORSE D alpha r0 => exact absurd rfl (h3 D alpha r0)
    | _ => exact key

example : screening_length (F := ℝ) 1 74 .KR_C = firsovLength 1 74 :=
  (C19_screening_length 1 74 (by norm_num) (by norm_num) .KR_C).2.2.2 ⟨nofun, nofun, nofun⟩

/-- **C83, Lennard-Jones 12-6.** Repulsive exactly inside `sigma`; the well is `epsilon` deep, and
its bottom is exactly where `r^6 = 2 sigma^6`. -/
theorem C83_lennard_jones (r sigma epsilon : ℝ) (hr : 0 < r) (hs : 0 < sigma) (he : 0 < epsilon) :
    ∃ U, (∀ a Za Zb, interaction_potential r a Za Zb (.LENNARD_JONES_12_6 sigma epsilon) = .ok U) ∧
      U = 4*epsilon*((sigma/r)^12 - (sigma/r)^6) ∧
      (0 < U ↔ r < sigma) ∧ -epsilon ≤ U ∧ (U = -epsilon ↔ r^6 = 2*sigma^6) := by
  refine ⟨4*epsilon*((sigma/r)^12 - (sigma/r)^6), fun _ _ _ => ?_, rfl, ?_, ?_, ?_⟩
  · simp only [interaction_potential, lennard_jones, powf_real, Except.ok.injEq]
    have h12 : (12.0:ℝ) = ((12:ℕ):ℝ) := by norm_num
    have h6 : (6.0:ℝ) = ((6:ℕ):ℝ) := by norm_num
    have h4 : (4.0:ℝ) = 4 := by norm_num
    rw [h12, h6, h4, Real.rpow_natCast, Real.rpow_natCast]
  all_goals obtain ⟨s, hse⟩ : ∃ s, s = (sigma/r)^6 := ⟨_, rfl⟩
  all_goals have hsp : 0 < s := by rw [hse]; positivity
  all_goals have h12 : (sigma/r)^12 = s^2 := by rw [hse]; ring
  all_goals rw [h12, ← hse]
  · have h1 : r < sigma ↔ 1 < s := by
      rw [hse, one_lt_pow_iff_of_nonneg (by positivity) (by norm_num), one_lt_div hr]
    rw [h1]
    constructor
    · intro h
      by_contra hc
      push Not at hc
      nlinarith [mul_nonneg he.le (mul_nonneg hsp.le (sub_nonneg.2 hc))]
    · intro h
      have : 0 < s*(s - 1) := mul_pos hsp (by linarith)
      have : 0 < epsilon*(s*(s-1)) := mul_pos he this
      linarith
  · nlinarith [mul_nonneg he.le (sq_nonneg (2*s - 1))]
  · have h1 : r^6 = 2*sigma^6 ↔ 2*s = 1 := by
      rw [hse, div_pow, eq_comm, ← mul_div_assoc, div_eq_one_iff_eq (by positivity)]
    rw [h1]
    constructor
    · intro h
      have : epsilon*(2*s - 1)^2 = 0 := by linarith [h]
      have := (mul_eq_zero.1 this).resolve_left he.ne'
      have := pow_eq_zero_iff (two_ne_zero) |>.1 this
      linarith
    · intro h
      have : s = 1/2 := by linarith
      rw [this]; ring

/-- **C83, Lennard-Jones 6.5-6.** Repulsive exactly inside `sigma`; the well is
`4 (12/13)^12/13 epsilon` deep, with its bottom exactly at `r = (13/12)^2 sigma`. -/
theorem C83_lennard_jones_65_6 (r sigma epsilon : ℝ) (hr : 0 < r) (hs : 0 < sigma)
    (he : 0 < epsilon) :
    ∃ U, (∀ a Za Zb, interaction_potential r a Za Zb (.LENNARD_JONES_65_6 sigma epsilon) = .ok U) ∧
      U = 4*epsilon*((sigma/r)^(13/2 : ℝ) - (sigma/r)^6) ∧
      (0 < U ↔ r < sigma) ∧ -(4*(12/13)^12/13*epsilon) ≤ U ∧
      (U = -(4*(12/13)^12/13*epsilon) ↔ r = (13/12)^2*sigma) := by
  obtain ⟨u, hue⟩ : ∃ u, u = Real.sqrt (sigma/r) := ⟨_, rfl⟩
  have hsr : 0 < sigma/r := by positivity
  have hu : 0 < u := by rw [hue]; exact Real.sqrt_pos.2 hsr
  have hu2 : u^2 = sigma/r := by rw [hue]; exact Real.sq_sqrt hsr.le
  have h13 : (sigma/r)^(13/2 : ℝ) = u^13 := by
    rw [hue, Real.sqrt_eq_rpow, ← Real.rpow_natCast, ← Real.rpow_mul hsr.le]
    norm_num
  have h6 : (sigma/r)^6 = u^12 := by rw [← hu2]; ring
  refine ⟨4*epsilon*((sigma/r)^(13/2 : ℝ) - (sigma/r)^6), fun _ _ _ => ?_, rfl, ?_, ?_, ?_⟩
  · simp only [interaction_potential, lennard_jones_65_6, powf_real, Except.ok.injEq]
    have h65 : (6.5:ℝ) = 13/2 := by norm_num
    have h6 : (6.0:ℝ) = ((6:ℕ):ℝ) := by norm_num
    have h4 : (4.0:ℝ) = 4 := by norm_num
    rw [h65, h6, h4, Real.rpow_natCast]
  all_goals rw [h13, h6]
  · have h1 : r < sigma ↔ 1 < u := by
      rw [← one_lt_div hr, ← hu2, one_lt_pow_iff_of_nonneg hu.le (by norm_num)]
    rw [h1]
    have e : 4*epsilon*(u^13 - u^12) = 4*epsilon*u^12*(u - 1) := by ring
    rw [e, mul_pos_iff_of_pos_left (by positivity)]
    constructor <;> intro h <;> linarith
  · -- Bernoulli: w^13 ≥ 13 w - 12 with w = 12/(13 u)
    have hw : (-2:ℝ) ≤ 12/(13*u) - 1 := by have : 0 < 12/(13*u) := by positivity
                                           linarith
    have hB := one_add_mul_le_pow hw 13
    have hp : 0 < (13*u)^13 := by positivity
    have hB2 : (1 + ((13:ℕ):ℝ)*(12/(13*u) - 1))*(13*u)^13 ≤ (1 + (12/(13*u) - 1))^13*(13*u)^13 :=
      mul_le_mul_of_nonneg_right hB hp.le
    have e1 : (1 + (12/(13*u) - 1))^13*(13*u)^13 = 12^13 := by
      rw [← mul_pow]
      congr 1
      field_simp
      ring
    have e2 : (1 + ((13:ℕ):ℝ)*(12/(13*u) - 1))*(13*u)^13 = 12*(13^13*u^12) - 12*(13^13*u^13) := by
      push_cast
      field_simp
      ring
    rw [e1, e2] at hB2
    have : -(12^12/13^13) ≤ u^13 - u^12 := by
      have h3 : (0:ℝ) < 13^13 := by positivity
      rw [neg_le, ← sub_nonneg]
      have : (12:ℝ)^12/13^13 - -(u^13 - u^12) = (12^12 - (13^13*u^12 - 13^13*u^13))/13^13 := by
        field_simp
        ring
      rw [this]
      apply div_nonneg _ h3.le
      have : (12:ℝ)^13 = 12*12^12 := by ring
      rw [this] at hB2
      linarith
    have e3 : -(4*(12/13 : ℝ)^12/13*epsilon) = 4*epsilon*(-(12^12/13^13)) := by
      rw [div_pow]; ring
    rw [e3]
    exact mul_le_mul_of_nonneg_left this (by positivity)
  · constructor
    · intro h
      obtain ⟨v, hv⟩ : ∃ v, v = 13*u/12 := ⟨_, rfl⟩
      have hv0 : 0 < v := by rw [hv]; positivity
      have huv : u = 12*v/13 := by rw [hv]; ring
      rw [huv] at h
      have hfac : 4*epsilon*(12^12/13^13)*((v - 1)^2*(12*v^11 + 11*v^10 + 10*v^9 + 9*v^8 + 8*v^7 + 7*v^6
          + 6*v^5 + 5*v^4 + 4*v^3 + 3*v^2 + 2*v + 1)) = 0 := by
        linear_combination h
      have hq : 0 < 12*v^11 + 11*v^10 + 10*v^9 + 9*v^8 + 8*v^7 + 7*v^6
          + 6*v^5 + 5*v^4 + 4*v^3 + 3*v^2 + 2*v + 1 := by positivity
      have hc : 4*epsilon*(12^12/13^13) ≠ 0 := by positivity
      have h1 : (v - 1)^2 = 0 := by
        rcases mul_eq_zero.1 hfac with h' | h'
        · exact absurd h' hc
        · rcases mul_eq_zero.1 h' with h' | h'
          · exact h'
          · exact absurd h' hq.ne'
      have hv1 : v = 1 := by
        have := pow_eq_zero_iff (two_ne_zero) |>.1 h1
        linarith
      have hu1 : (12/13)^2 = sigma/r := by rw [← hu2, huv, hv1]; norm_num
      rw [eq_div_iff hr.ne'] at hu1
      rw [← hu1]; ring
    · intro h
      have : u = 12/13 := by
        have h1 : u^2 = (12/13)^2 := by rw [hu2, h]; field_simp
        exact (pow_left_inj₀ hu.le (by norm_num) two_ne_zero).1 h1
      rw [this]; ring

/-- **C83, Morse.** The well is `D` deep, its bottom exactly at `r0`, and the energy vanishes at
large distances. -/
theorem C83_morse (D alpha r0 : ℝ) (hD : 0 < D) (ha : 0 < alpha) :
    ∃ U : ℝ → ℝ, (∀ r a Za Zb, interaction_potential r a Za Zb (.MORSE D alpha r0) = .ok (U r)) ∧
      (∀ r, U r = D*((1 - Real.exp (-(alpha*(r - r0))))^2 - 1)) ∧
      (∀ r, -D ≤ U r) ∧ (∀ r, U r = -D ↔ r = r0) ∧ Filter.Tendsto U Filter.atTop (nhds 0) := by
  have hU : ∀ r, morse r D alpha r0 = D*((1 - Real.exp (-(alpha*(r - r0))))^2 - 1) := by
    intro r
    unfold morse
    simp only [exp_real]
    have h2 : (-2.0:ℝ) = -2 := by norm_num
    have h2' : (2.0:ℝ) = 2 := by norm_num
    have e : Real.exp (-2*alpha*(r - r0)) = Real.exp (-(alpha*(r - r0)))^2 := by
      rw [← Real.exp_nat_mul]; congr 1; push_cast; ring
    rw [h2, h2', e, neg_mul]
    ring
  refine ⟨fun r => morse r D alpha r0, fun _ _ _ _ => rfl, hU, fun r => ?_, fun r => ?_, ?_⟩
  · simp only [hU]
    nlinarith [mul_nonneg hD.le (sq_nonneg (1 - Real.exp (-(alpha*(r - r0)))))]
  · simp only [hU]
    constructor
    · intro h
      have : D*(1 - Real.exp (-(alpha*(r - r0))))^2 = 0 := by linarith
      have := (mul_eq_zero.1 this).resolve_left hD.ne'
      have := (pow_eq_zero_iff two_ne_zero).1 this
      have : Real.exp (-(alpha*(r - r0))) = 1 := by linarith
      rw [Real.exp_eq_one_iff, neg_eq_zero] at this
      have := (mul_eq_zero.1 this).resolve_left ha.ne'
      linarith
    · rintro rfl; simp
  · simp only [hU]
    have h1 : Filter.Tendsto (fun r : ℝ => alpha*(r - r0)) Filter.atTop Filter.atTop :=
      (Filter.tendsto_atTop_add_const_right _ (-r0) Filter.tendsto_id).const_mul_atTop ha
    have h2 := Real.tendsto_exp_neg_atTop_nhds_zero.comp h1
    have h3 := (((h2.const_sub 1).pow 2).sub_const 1).const_mul D
    simpa using h3

/-- **C83, four-eight.** `beta/r^8 - alpha/r^4`: repulsive exactly where `alpha r^4 < beta`, with a
well of depth `alpha^2/(4 beta)` whose bottom is exactly where `alpha r^4 = 2 beta`. -/
theorem C83_four_eight (r alpha beta : ℝ) (hr : 0 < r) (ha : 0 < alpha) (hb : 0 < beta) :
    ∃ U, (∀ a Za Zb, interaction_potential r a Za Zb (.FOUR_EIGHT alpha beta) = .ok U) ∧
      U = beta/r^8 - alpha/r^4 ∧ (0 < U ↔ alpha*r^4 < beta) ∧ -(alpha^2/(4*beta)) ≤ U ∧
      (U = -(alpha^2/(4*beta)) ↔ alpha*r^4 = 2*beta) := by
  refine ⟨beta/r^8 - alpha/r^4, fun _ _ _ => ?_, rfl, ?_, ?_, ?_⟩
  · simp only [interaction_potential, four_eight, powf_real, Except.ok.injEq]
    rw [powi_real, powi_real, show (4:ℤ) = ((4:ℕ):ℤ) from rfl, show (8:ℤ) = ((8:ℕ):ℤ) from rfl,
      zpow_natCast, zpow_natCast, div_pow, div_pow, ← Real.rpow_natCast (alpha^(_:ℝ)),
      ← Real.rpow_natCast (beta^(_:ℝ)), ← Real.rpow_mul ha.le, ← Real.rpow_mul hb.le]
    norm_num
    ring
  all_goals obtain ⟨t, hte⟩ : ∃ t, t = r^4 := ⟨_, rfl⟩
  all_goals have ht : 0 < t := by rw [hte]; positivity
  all_goals have h8 : r^8 = t^2 := by rw [hte]; ring
  all_goals rw [h8, ← hte]
  · have e : beta/t^2 - alpha/t = (beta - alpha*t)/t^2 := by field_simp
    rw [e, div_pos_iff_of_pos_right (by positivity), sub_pos]
  · have e : beta/t^2 - alpha/t - -(alpha^2/(4*beta)) = (2*beta - alpha*t)^2/(4*beta*t^2) := by
      field_simp; ring
    have : 0 ≤ (2*beta - alpha*t)^2/(4*beta*t^2) := by positivity
    linarith
  · have e : beta/t^2 - alpha/t - -(alpha^2/(4*beta)) = (2*beta - alpha*t)^2/(4*beta*t^2) := by
      field_simp; ring
    rw [← sub_eq_zero, e, div_eq_zero_iff]
    constructor
    · rintro (h | h)
      · have := (pow_eq_zero_iff two_ne_zero).1 h; linarith
      · exact absurd h (by positivity)
    · intro h; left; rw [h]; ring

/-- **C83, KRC_MORSE** lies between the Kr-C and the Morse energy and is
their mean at `x0`. -/
theorem C83_krc_morse (a Za Zb D alpha r0 k x0 : ℝ) :
    ∃ U K : ℝ → ℝ, (∀ r, interaction_potential r a Za Zb (.KRC_MORSE D alpha r0 k x0) = .ok (U r)) ∧
      (∀ r, interaction_potential r a Za Zb .KR_C = .ok (K r)) ∧
      (∀ r, ∃ w, 0 < w ∧ w < 1 ∧ w = 1/(1 + Real.exp (-(k*(r - x0)))) ∧
        U r = w*morse r D alpha r0 + (1 - w)*K r) ∧
      U x0 = (morse x0 D alpha r0 + K x0)/2 := by
  obtain ⟨f, _, hf, _⟩ := C19_screening_functions .KR_C .kr_c
  obtain ⟨K, hK⟩ : ∃ K : ℝ → ℝ, ∀ r, screened_coulomb r a Za Zb .KR_C = .ok (K r) :=
    ⟨_, fun r => by unfold screened_coulomb; rw [hf]; rfl⟩
  have h1 : (1.0:ℝ) = 1 := by norm_num
  have hw : ∀ r, sigmoid r (-k) x0 = 1 - sigmoid r k x0 := by
    intro r
    unfold sigmoid
    simp only [exp_real, h1, neg_neg, neg_mul]
    rw [Real.exp_neg]
    have := Real.exp_pos (k*(r - x0))
    field_simp
    ring
  have hU : ∀ r, interaction_potential r a Za Zb (.KRC_MORSE D alpha r0 k x0)
      = .ok (sigmoid r k x0*morse r D alpha r0 + (1 - sigmoid r k x0)*K r) := by
    intro r
    simp only [interaction_potential, krc_morse, hK, bind, Except.bind, pure, Except.pure, hw]
  refine ⟨fun r => sigmoid r k x0*morse r D alpha r0 + (1 - sigmoid r k x0)*K r, K, hU,
    fun r => hK r, fun r => ⟨sigmoid r k x0, ?_, ?_, ?_, rfl⟩, ?_⟩
  · unfold sigmoid; simp only [exp_real, h1]
    have := Real.exp_pos (-k*(r - x0)); positivity
  · unfold sigmoid; simp only [exp_real, h1]
    have := Real.exp_pos (-k*(r - x0))
    rw [div_lt_one (by positivity)]; linarith
  · unfold sigmoid; simp only [exp_real, h1, neg_mul]
  · have : sigmoid x0 k x0 = 1/2 := by
      unfold sigmoid; simp only [exp_real, h1, sub_self, mul_zero, Real.exp_zero]; norm_num
    simp only [this]; ring

/-- **C83, tungsten.** Beyond 2.1 Angstrom the W-W energy is a cubic spline that ends continuously at
4.2689 Angstrom: the sum of `a max(0, d - x)^3` (eV, `x` in Angstrom); in particular it is zero
from there on. Up to 1.1 Angstrom it is the ZBL energy of two tungsten atoms. -/
theorem C83_tungsten (r a Za Zb : ℝ) :
    (r/ANGSTROM ℝ ≤ 1.10002200044 → interaction_potential r a Za Zb .WW
      = interaction_potential r (screening_length 74 74 .ZBL) 74 74 .ZBL) ∧
    (2.10004200084 < r/ANGSTROM ℝ → interaction_potential r a Za Zb .WW = .ok
      (EV ℝ*(tungstenSpline.map fun ad => ad.1*max 0 (ad.2 - r/ANGSTROM ℝ)^3).sum)) ∧
    (4.2689 ≤ r/ANGSTROM ℝ → interaction_potential r a Za Zb .WW = .ok 0) := by
  have hsp : 2.10004200084 < r/ANGSTROM ℝ → interaction_potential r a Za Zb .WW = .ok
      (EV ℝ*(tungstenSpline.map fun ad => ad.1*max 0 (ad.2 - r/ANGSTROM ℝ)^3).sum) := by
    intro h
    have hh : ∀ x c : ℝ, c*powi x 3*heaviside x = c*max 0 x^3 := by
      intro x c
      rw [powi_real, show (3:ℤ) = ((3:ℕ):ℤ) from rfl, zpow_natCast]
      unfold heaviside
      have h0 : (0.0:ℝ) = 0 := by norm_num
      have h1 : (1.0:ℝ) = 1 := by norm_num
      rw [h0, h1]
      by_cases hx : 0 ≤ x
      · rw [if_pos ((le_real _ _).2 hx), max_eq_right hx, mul_one]
      · rw [if_neg (by rw [le_real]; exact hx), max_eq_left (by linarith)]; simp
    simp only [interaction_potential, tungsten_tungsten_cubic_spline]
    rw [if_neg (by rw [le_real]; linarith), if_neg (by rw [le_real]; linarith)]
    simp only [hh, fsum_real, tungstenSpline, List.zip, List.zipWith_cons_cons, List.zipWith_nil_left,
      List.map_cons, List.map_nil, List.sum_cons, List.sum_nil, Except.ok.injEq, mul_add, mul_zero,
      mul_assoc]
    norm_num
  refine ⟨fun h => ?_, hsp, fun h => ?_⟩
  · simp only [interaction_potential, tungsten_tungsten_cubic_spline]
    rw [if_pos ((le_real _ _).2 h)]
    have h74 : (74.0:ℝ) = 74 := by norm_num
    rw [h74]
  · rw [hsp (by linarith)]
    have hz : ∀ d : ℝ, d ≤ 4.2689 → max 0 (d - r/ANGSTROM ℝ) = 0 := fun d hd =>
      max_eq_left (by linarith)
    simp only [tungstenSpline, List.map_cons, List.map_nil, List.sum_cons, List.sum_nil]
    rw [hz _ (by norm_num), hz _ (by norm_num), hz _ (by norm_num), hz _ (by norm_num),
      hz _ (by norm_num), hz _ (by norm_num), hz _ (by norm_num), hz _ (by norm_num),
      hz _ (by norm_num)]
    simp

end RustBCA
