import Verif.Proofs.Newton
import Verif.Proofs.Screened

/-! # How fast Newton's method is for the screened turning-point equation (helper lemmas) -/

namespace RustBCA
open Scalar Spec

section
variable {l : List (ℝ × ℝ)} {eps beta : ℝ}

/-- one step from below: what is left of the function is traded against its slope -/
theorem nstep_trade (h : PosTerms l) (hl : l ≠ []) (he : 0 < eps) (beta : ℝ) {x : ℝ} (hx : 0 < x) :
    -closest (expsum l) eps beta (nstep l eps beta x)*dclosest (dexpsum l) eps beta x ≤
      -closest (expsum l) eps beta x*(dclosest (dexpsum l) eps beta x
        - dclosest (dexpsum l) eps beta (nstep l eps beta x)) := by
  have hy := nstep_pos h hl he beta hx
  have h1 := closest_tangent h he beta hy hx
  have hd := dclosest_ge_one h he beta x
  have e : x - nstep l eps beta x = closest (expsum l) eps beta x/dclosest (dexpsum l) eps beta x := by
    unfold nstep; ring
  rw [e] at h1
  generalize closest (expsum l) eps beta (nstep l eps beta x) = c' at *
  generalize dclosest (dexpsum l) eps beta (nstep l eps beta x) = d' at *
  generalize closest (expsum l) eps beta x = c at *
  generalize dclosest (dexpsum l) eps beta x = d at *
  have hd0 : 0 < d := by linarith
  have h2 := mul_le_mul_of_nonneg_right h1 hd0.le
  have e2 : (c' + d'*(c/d))*d = c'*d + d'*c := by field_simp
  rw [e2] at h2
  nlinarith

/-- every step from below divides the product of value and slope by at least four -/
theorem nstep_quarter (h : PosTerms l) (hl : l ≠ []) (he : 0 < eps) (beta : ℝ) {x r : ℝ} (hx : 0 < x)
    (hxr : x ≤ r) (hroot : closest (expsum l) eps beta r = 0) :
    -closest (expsum l) eps beta (nstep l eps beta x)*dclosest (dexpsum l) eps beta (nstep l eps beta x)
      ≤ -closest (expsum l) eps beta x*dclosest (dexpsum l) eps beta x/4 := by
  have h1 := nstep_trade h hl he beta hx
  have h2 := closest_nonpos_of_le_root h he beta hx hxr hroot
  have hd := dclosest_ge_one h he beta x
  have hd' := dclosest_ge_one h he beta (nstep l eps beta x)
  generalize closest (expsum l) eps beta (nstep l eps beta x) = c' at *
  generalize dclosest (dexpsum l) eps beta (nstep l eps beta x) = d' at *
  generalize closest (expsum l) eps beta x = c at *
  generalize dclosest (dexpsum l) eps beta x = d at *
  have hd0 : 0 < d := by linarith
  have h3 := mul_le_mul_of_nonneg_right h1 (by linarith : 0 ≤ d')
  have h4 : -c*((d - d')*d') ≤ -c*(d^2/4) :=
    mul_le_mul_of_nonneg_left (by nlinarith [sq_nonneg (d - 2*d')]) (by linarith)
  have h5 : -c'*d'*d ≤ -c*d/4*d := by nlinarith
  exact le_of_mul_le_mul_right h5 hd0

/-- the step is at most that product -/
theorem nstep_step (h : PosTerms l) (he : 0 < eps) (beta : ℝ) {x r : ℝ} (hx : 0 < x)
    (hxr : x ≤ r) (hroot : closest (expsum l) eps beta r = 0) :
    0 ≤ nstep l eps beta x - x ∧
      nstep l eps beta x - x ≤ -closest (expsum l) eps beta x*dclosest (dexpsum l) eps beta x := by
  refine ⟨by linarith [nstep_ge h he beta hx hxr hroot], ?_⟩
  have h2 := closest_nonpos_of_le_root h he beta hx hxr hroot
  have hd := dclosest_ge_one h he beta x
  have e : nstep l eps beta x - x = -closest (expsum l) eps beta x/dclosest (dexpsum l) eps beta x := by
    unfold nstep; ring
  rw [e]
  generalize closest (expsum l) eps beta x = c at *
  generalize dclosest (dexpsum l) eps beta x = d at *
  have hd0 : 0 < d := by linarith
  rw [div_le_iff₀ hd0]
  have h5 : 1 ≤ d*d := by nlinarith
  nlinarith [mul_le_mul_of_nonneg_left h5 (by linarith : 0 ≤ -c)]

theorem nseq_shift (l : List (ℝ × ℝ)) (eps beta x0 : ℝ) (i : ℕ) :
    nseq l eps beta (nstep l eps beta x0) i = nseq l eps beta x0 (i + 1) := by
  induction i with
  | zero => rfl
  | succ i ih => simp only [nseq, ih]

/-- from a starting point below the root, the step number `m` is small -/
theorem nseq_fast (h : PosTerms l) (hl : l ≠ []) (he : 0 < eps) (beta : ℝ) {x0 r P : ℝ} (hx : 0 < x0)
    (hxr : x0 ≤ r) (hr : 0 < r) (hroot : closest (expsum l) eps beta r = 0)
    (hP : -closest (expsum l) eps beta x0*dclosest (dexpsum l) eps beta x0 ≤ P) (m : ℕ) :
    0 ≤ nseq l eps beta x0 (m + 1) - nseq l eps beta x0 m ∧
      nseq l eps beta x0 (m + 1) - nseq l eps beta x0 m ≤ P/4^m := by
  have hpos := nseq_pos h hl he beta hx
  have hle : ∀ n, nseq l eps beta x0 n ≤ r := by
    intro n
    cases n with
    | zero => exact hxr
    | succ n => exact nseq_le_root h hl he beta hx hr hroot n
  have hprod : ∀ n, -closest (expsum l) eps beta (nseq l eps beta x0 n)
      *dclosest (dexpsum l) eps beta (nseq l eps beta x0 n) ≤ P/4^n := by
    intro n
    induction n with
    | zero => rw [pow_zero, div_one]; exact hP
    | succ n ih =>
      have := nstep_quarter h hl he beta (hpos n) (hle n) hroot
      refine this.trans ?_
      rw [pow_succ, ← div_div]
      exact div_le_div_of_nonneg_right ih (by norm_num)
  obtain ⟨h1, h2⟩ := nstep_step h he beta (hpos m) (hle m) hroot
  exact ⟨h1, h2.trans (hprod m)⟩

/-- hence some step not later than number `m` is below the tolerance -/
theorem nseq_fast_small (h : PosTerms l) (hl : l ≠ []) (he : 0 < eps) (beta : ℝ) {x0 r P t : ℝ}
    (hx : 0 < x0) (hxr : x0 ≤ r) (hr : 0 < r) (hroot : closest (expsum l) eps beta r = 0)
    (hP : -closest (expsum l) eps beta x0*dclosest (dexpsum l) eps beta x0 ≤ P) (m : ℕ)
    (hm : P < t*4^m) :
    (nseq l eps beta x0 (m + 1) - nseq l eps beta x0 m)^2 < t^2 := by
  obtain ⟨h1, h2⟩ := nseq_fast h hl he beta hx hxr hr hroot hP m
  have h3 : P/4^m < t := by rwa [div_lt_iff₀ (by positivity)]
  have h4 : nseq l eps beta x0 (m + 1) - nseq l eps beta x0 m < t := lt_of_le_of_lt h2 h3
  nlinarith

end

/-! ### The starting points of the code -/

theorem screening_at_zero (V : InteractionPotential ℝ) (hV : Screened V) :
    expsum (screening_terms V) 0 ≤ 1.0001 ∧ 1 ≤ expsum (screening_terms V) 0
      ∧ -1.4 ≤ dexpsum (screening_terms V) 0 := by
  cases hV <;> simp only [screening_terms, expsum_cons, expsum_nil, dexpsum_cons, dexpsum_nil, mul_zero,
    Real.exp_zero] <;> norm_num

theorem screening_bounds (V : InteractionPotential ℝ) (hV : Screened V) {x : ℝ} (hx : 0 ≤ x) :
    0 < expsum (screening_terms V) x ∧ expsum (screening_terms V) x ≤ 1.0001
      ∧ 1 - 1.4*x ≤ expsum (screening_terms V) x
      ∧ dexpsum (screening_terms V) x ≤ 0 ∧ -1.4 ≤ dexpsum (screening_terms V) x := by
  have hp := screening_terms_pos V
  have hn := screening_terms_ne V hV
  obtain ⟨h1, h2, h3⟩ := screening_at_zero V hV
  refine ⟨expsum_pos _ hp hn x, ((expsum_strictAnti _ hp hn).antitone hx).trans h1, ?_,
    dexpsum_nonpos _ hp x, h3.trans (dexpsum_mono _ hp hx)⟩
  have := expsum_tangent (screening_terms V) hp 0 x
  nlinarith

/-- low energy: the search starts at the impact parameter -/
theorem start_low (V : InteractionPotential ℝ) (hV : Screened V) {eps beta : ℝ} (he : 0 < eps)
    (hb : 0 < beta) :
    -closest (expsum (screening_terms V)) eps beta beta*dclosest (dexpsum (screening_terms V)) eps beta beta
      ≤ 1.0001/eps*(2 + 1.4/eps) := by
  obtain ⟨h1, h2, _, h4, h5⟩ := screening_bounds V hV hb.le
  unfold closest dclosest
  generalize expsum (screening_terms V) beta = f at *
  generalize dexpsum (screening_terms V) beta = d at *
  have e1 : -(beta - f/eps - beta^2/beta) = f/eps := by field_simp; ring
  have e2 : beta^2/beta^2 = 1 := by field_simp
  rw [e1, e2]
  have h6 : f/eps ≤ 1.0001/eps := div_le_div_of_nonneg_right h2 he.le
  have h7 : -(d/eps) ≤ 1.4/eps := by
    rw [← neg_div]; exact div_le_div_of_nonneg_right (by linarith) he.le
  have h8 : 0 < f/eps := by positivity
  have h9 : 0 ≤ -(d/eps) := by rw [← neg_div]; exact div_nonneg (by linarith) he.le
  exact mul_le_mul h6 (by linarith) (by linarith) (by positivity)

/-- high energy: the search starts at the Coulomb distance of closest approach -/
theorem start_high_facts {eps beta x0 : ℝ} (he : 5 < eps) (hb : 0 ≤ beta)
    (hx0 : x0 = 0.5/eps + Real.sqrt (0.5/eps*(0.5/eps) + beta*beta)) :
    1/eps ≤ x0 ∧ beta ≤ x0 ∧ x0 - 1/eps - beta^2/x0 = 0 := by
  have he0 : 0 < eps := by linarith
  obtain ⟨q, hq⟩ : ∃ q, q = 0.5/eps := ⟨_, rfl⟩
  have hq0 : 0 < q := by rw [hq]; positivity
  have hq1 : 1/eps = 2*q := by rw [hq]; field_simp; norm_num
  rw [← hq] at hx0
  have hs := Real.sq_sqrt (by positivity : 0 ≤ q*q + beta*beta)
  have hs0 := Real.sqrt_nonneg (q*q + beta*beta)
  have hs1 : q ≤ Real.sqrt (q*q + beta*beta) := Real.le_sqrt_of_sq_le (by nlinarith)
  have hs2 : beta ≤ Real.sqrt (q*q + beta*beta) := Real.le_sqrt_of_sq_le (by nlinarith)
  generalize Real.sqrt (q*q + beta*beta) = s at *
  have hx1 : 0 < x0 := by linarith
  refine ⟨by linarith, by linarith, ?_⟩
  rw [hq1]
  field_simp
  rw [hx0]
  nlinarith

/-- the first iterate is not too close to the nucleus -/
theorem first_iterate (V : InteractionPotential ℝ) (hV : Screened V) {eps beta x0 : ℝ} (he : 5 < eps)
    (hb : 0 ≤ beta) (h1 : 1/eps ≤ x0) (h2 : beta ≤ x0) (h3 : x0 - 1/eps - beta^2/x0 = 0) :
    0 < nstep (screening_terms V) eps beta x0 ∧ 
    beta ≤ 4.5*nstep (screening_terms V) eps beta x0 := by
  have he0 : 0 < eps := by linarith
  have hi : 0 < 1/eps := by positivity
  have hi5 : 1/eps < 0.2 := by
    rw [div_lt_iff₀ he0]; linarith
  have hx0 : 0 < x0 := by linarith
  have hp := screening_terms_pos V
  have hn := screening_terms_ne V hV
  have hx1 := nstep_pos hp hn he0 beta hx0
  refine ⟨hx1, ?_⟩
  obtain ⟨g1, g2, g3, g4, g5⟩ := screening_bounds V hV hx0.le
  have hd := dclosest_ge_one hp he0 beta x0
  have hd0 : 0 < dclosest (dexpsum (screening_terms V)) eps beta x0 := by linarith
  have e : nstep (screening_terms V) eps beta x0*dclosest (dexpsum (screening_terms V)) eps beta x0
      = 2*(beta^2/x0) - x0*(dexpsum (screening_terms V) x0/eps) + expsum (screening_terms V) x0/eps := by
    unfold nstep
    rw [sub_mul, div_mul_cancel₀ _ hd0.ne']
    unfold closest dclosest
    field_simp; ring
  have hd2 : dclosest (dexpsum (screening_terms V)) eps beta x0 ≤ 2.28 := by
    unfold dclosest
    have k1 : beta^2/x0^2 ≤ 1 := by
      rw [div_le_one (by positivity)]; exact pow_le_pow_left₀ hb h2 2
    have k2 : -(dexpsum (screening_terms V) x0/eps) ≤ 0.28 := by
      rw [← neg_div, div_le_iff₀ he0]; nlinarith
    linarith
  generalize nstep (screening_terms V) eps beta x0 = x1 at *
  generalize dclosest (dexpsum (screening_terms V)) eps beta x0 = d at *
  generalize expsum (screening_terms V) x0 = f at *
  generalize dexpsum (screening_terms V) x0 = df at *
  have k3 : 0 ≤ -(x0*(df/eps)) := by
    rw [← mul_neg, ← neg_div]; exact mul_nonneg hx0.le (div_nonneg (by linarith) he0.le)
  have k4 : x1*d ≤ x1*2.28 := mul_le_mul_of_nonneg_left hd2 hx1.le
  have k5 : f/eps = f*(1/eps) := by ring
  generalize 1/eps = i at *
  have k6 : 2*(beta^2/x0) + f*i ≤ 2.28*x1 := by rw [k5] at e; linarith
  have k7 : beta^2/x0 = x0 - i := by linarith
  have k8 : 0 ≤ beta^2/x0 := by positivity
  have k9 : beta^2 = (x0 - i)*x0 := by rw [← k7]; field_simp
  have k10 : 0 < f*i := by positivity
  rcases le_total i beta with hib | hib
  · -- `x0 ≤ 1.62 β`
    have m1 : x0 ≤ 1.62*beta := by
      by_contra hc
      push Not at hc
      nlinarith
    have m2 : beta/1.62 ≤ beta^2/x0 := by
      rw [div_le_div_iff₀ (by norm_num) hx0]; nlinarith
    have m3 : beta/1.62 = beta*(1/1.62) := by ring
    have m4 : (0.6:ℝ) ≤ 1/1.62 := by norm_num
    nlinarith
  · have m1 : x0 ≤ 1.62*i := by
      by_contra hc
      push Not at hc
      nlinarith
    have m2 : 0.53 ≤ f := by nlinarith
    nlinarith

theorem start_high (V : InteractionPotential ℝ) (hV : Screened V) {eps beta x0 : ℝ} (he : 5 < eps)
    (hb : 0 ≤ beta) (h1 : 1/eps ≤ x0) (h2 : beta ≤ x0) (h3 : x0 - 1/eps - beta^2/x0 = 0) :
    -closest (expsum (screening_terms V)) eps beta (nstep (screening_terms V) eps beta x0)
      *dclosest (dexpsum (screening_terms V)) eps beta (nstep (screening_terms V) eps beta x0)
      ≤ 100 := by
  have he0 : 0 < eps := by linarith
  have hi : 0 < 1/eps := by positivity
  have hi5 : 1/eps < 0.2 := by
    rw [div_lt_iff₀ he0]; linarith
  have hx0 : 0 < x0 := by linarith
  have hp := screening_terms_pos V
  have hn := screening_terms_ne V hV
  obtain ⟨hx1, hb1⟩ := first_iterate V hV he hb h1 h2 h3
  have ht := nstep_trade hp hn he0 beta hx0
  obtain ⟨g1, g2, _, g4, g5⟩ := screening_bounds V hV hx0.le
  obtain ⟨_, _, _, g4', g5'⟩ := screening_bounds V hV hx1.le
  have hd := dclosest_ge_one hp he0 beta x0
  have hd' := dclosest_ge_one hp he0 beta (nstep (screening_terms V) eps beta x0)
  have hd2 : dclosest (dexpsum (screening_terms V)) eps beta (nstep (screening_terms V) eps beta x0)
      ≤ 21.6 := by
    unfold dclosest
    have k1 : beta^2/(nstep (screening_terms V) eps beta x0)^2 ≤ 20.25 := by
      rw [div_le_iff₀ (by positivity)]
      have := pow_le_pow_left₀ hb hb1 2
      nlinarith
    have k2 : -(dexpsum (screening_terms V) (nstep (screening_terms V) eps beta x0)/eps) ≤ 0.28 := by
      rw [← neg_div, div_le_iff₀ he0]; nlinarith
    linarith
  have hc : closest (expsum (screening_terms V)) eps beta x0 = (1 - expsum (screening_terms V) x0)*(1/eps) := by
    unfold closest
    linear_combination h3
  have hc1 : closest (expsum (screening_terms V)) eps beta x0 ≤ 0.2 := by
    rw [hc]; nlinarith
  have hc2 : -0.0001 ≤ closest (expsum (screening_terms V)) eps beta x0 := by
    rw [hc]; nlinarith
  generalize closest (expsum (screening_terms V)) eps beta (nstep (screening_terms V) eps beta x0) = c' at *
  generalize dclosest (dexpsum (screening_terms V)) eps beta (nstep (screening_terms V) eps beta x0) = d' at *
  generalize closest (expsum (screening_terms V)) eps beta x0 = c at *
  generalize dclosest (dexpsum (screening_terms V)) eps beta x0 = d at *
  have hcc : -c' ≤ 0.2*d' + 0.0001 := by
    have hd0 : 0 < d := by linarith
    have : -c'*d ≤ (0.2*d' + 0.0001)*d := by
      rcases le_total 0 c with h | h
      · nlinarith [mul_nonneg h hd0.le, mul_le_mul_of_nonneg_right hc1 (by linarith : 0 ≤ d'),
          mul_le_mul_of_nonneg_left hd (by linarith : 0 ≤ d')]
      · nlinarith [mul_nonneg (by linarith : 0 ≤ -c) (by linarith : 0 ≤ d'),
          mul_nonneg (by linarith : 0 ≤ d') hd0.le]
    exact le_of_mul_le_mul_right this hd0
  nlinarith

end RustBCA
