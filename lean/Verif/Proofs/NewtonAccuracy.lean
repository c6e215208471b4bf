import Verif.Proofs.NewtonSpeed

/-! # How accurate the result of Newton's method is (helper lemmas) -/

namespace RustBCA
open Scalar Spec

/-- the slope of the screening function changes slowly -/
theorem dexpsum_slow (l : List (ℝ × ℝ)) (h : PosTerms l) (h6 : ∀ cd ∈ l, cd.2 ≤ 6) {x y : ℝ}
    (hxy : x ≤ y) : -dexpsum l x*(1 - 6*(y - x)) ≤ -dexpsum l y := by
  induction l with
  | nil => simp
  | cons cd l ih =>
    have h1 := h cd (by simp)
    have h2 := h6 cd (by simp)
    have h3 := ih (fun c hc => h c (by simp [hc])) (fun c hc => h6 c (by simp [hc]))
    simp only [dexpsum_cons]
    have h4 : Real.exp (-cd.2*y) = Real.exp (-cd.2*x)*Real.exp (-cd.2*(y - x)) := by
      rw [← Real.exp_add]; ring_nf
    have h5 := Real.add_one_le_exp (-cd.2*(y - x))
    have h7 : 1 - 6*(y - x) ≤ Real.exp (-cd.2*(y - x)) := by nlinarith
    have h8 := mul_le_mul_of_nonneg_left h7 (mul_pos (mul_pos h1.2 h1.1) (Real.exp_pos (-cd.2*x))).le
    rw [h4]
    nlinarith

theorem screening_rates (V : InteractionPotential ℝ) : ∀ cd ∈ screening_terms V, cd.2 ≤ 6 := by
  intro cd h
  cases V <;> simp only [screening_terms, List.mem_cons, List.not_mem_nil, or_false] at h <;>
    (try rcases h with h | h | h | h) <;> (try rcases h with h | h | h) <;>
    (try subst h) <;> (try norm_num) <;> exact h.elim

section
variable {l : List (ℝ × ℝ)} {eps beta : ℝ}

/-- a chord of the (concave) function -/
theorem closest_chord (h : PosTerms l) (he : 0 < eps) (beta : ℝ) {x y r : ℝ} (hx : 0 < x) (hxy : x ≤ y)
    (hyr : y ≤ r) (hroot : closest (expsum l) eps beta r = 0) :
    dclosest (dexpsum l) eps beta y*(y - x) ≤ -closest (expsum l) eps beta x := by
  have hy : 0 < y := lt_of_lt_of_le hx hxy
  have h1 := closest_tangent h he beta hy hx
  have h2 := closest_nonpos_of_le_root h he beta hy hyr hroot
  linarith

theorem step_eq (h : PosTerms l) (he : 0 < eps) (beta x : ℝ) :
    (nstep l eps beta x - x)*dclosest (dexpsum l) eps beta x = -closest (expsum l) eps beta x := by
  have hd := dclosest_ge_one h he beta x
  have hd0 : dclosest (dexpsum l) eps beta x ≠ 0 := by linarith
  unfold nstep; field_simp; ring

end

/-- the turning point of a slow collision is not close to the nucleus -/
theorem root_low (V : InteractionPotential ℝ) (hV : Screened V) {eps beta r : ℝ} (he : 0 < eps) (h5 : eps ≤ 5)
    (hr : 0 < r) (hroot : closest (expsum (screening_terms V)) eps beta r = 0) : 0.1 ≤ r := by
  by_contra hc
  push Not at hc
  obtain ⟨g1, _, g3, _⟩ := screening_bounds V hV hr.le
  unfold closest at hroot
  have k1 : 0 ≤ beta^2/r := by positivity
  have k2 : expsum (screening_terms V) r/5 ≤ expsum (screening_terms V) r/eps :=
    div_le_div_of_nonneg_left g1.le he h5
  linarith

/-- low energies -/
theorem accurate_low (V : InteractionPotential ℝ) (hV : Screened V) {eps beta x r : ℝ} (he : 0 < eps)
    (h5 : eps ≤ 5) (hb : 0 ≤ beta) (hx : 0 < x) (hbx : beta ≤ x) (hxr : x ≤ r)
    (hroot : closest (expsum (screening_terms V)) eps beta r = 0)
    (hs : (nstep (screening_terms V) eps beta x - x)^2 < 1e-6) :
    0.998*r ≤ nstep (screening_terms V) eps beta x := by
  have h := screening_terms_pos V
  have hr : 0 < r := lt_of_lt_of_le hx hxr
  have hr1 := root_low V hV he h5 hr hroot
  have hge := nstep_ge h he beta hx hxr hroot
  have hs' : nstep (screening_terms V) eps beta x - x < 1e-3 := by
    by_contra hc
    push Not at hc
    nlinarith
  have hse := step_eq h he beta x
  have hd := dclosest_ge_one h he beta x
  obtain ⟨y, hy⟩ : ∃ y, y = min r (x + 0.1) := ⟨_, rfl⟩
  have hxy : x ≤ y := by rw [hy]; exact le_min hxr (by linarith)
  have hyr : y ≤ r := by rw [hy]; exact min_le_left _ _
  have hy1 : y ≤ x + 0.1 := by rw [hy]; exact min_le_right _ _
  have hch := closest_chord h he beta hx hxy hyr hroot
  have hratio : 0.4*dclosest (dexpsum (screening_terms V)) eps beta x
      ≤ dclosest (dexpsum (screening_terms V)) eps beta y := by
    have k1 := dexpsum_slow (screening_terms V) h (screening_rates V) hxy
    have k2 := dexpsum_nonpos (screening_terms V) h x
    have k3 : 0.4*(-dexpsum (screening_terms V) x) ≤ -dexpsum (screening_terms V) y := by nlinarith
    have k4 : 0.4*(-dexpsum (screening_terms V) x/eps) ≤ -dexpsum (screening_terms V) y/eps := by
      rw [← mul_div_assoc]; exact div_le_div_of_nonneg_right k3 he.le
    have k5 : beta^2/x^2 ≤ 1 := by
      rw [div_le_one (by positivity)]; exact pow_le_pow_left₀ hb hbx 2
    have k6 : 0 ≤ beta^2/y^2 := by positivity
    unfold dclosest
    have e1 : -dexpsum (screening_terms V) x/eps = -(dexpsum (screening_terms V) x/eps) := by ring
    have e2 : -dexpsum (screening_terms V) y/eps = -(dexpsum (screening_terms V) y/eps) := by ring
    rw [e1, e2] at k4
    linarith
  have k7 : 0.4*(y - x) ≤ nstep (screening_terms V) eps beta x - x := by
    have : 0.4*(y - x)*dclosest (dexpsum (screening_terms V)) eps beta x
        ≤ (nstep (screening_terms V) eps beta x - x)*dclosest (dexpsum (screening_terms V)) eps beta x := by
      rw [hse]
      have := mul_le_mul_of_nonneg_right hratio (by linarith : 0 ≤ y - x)
      linarith
    exact le_of_mul_le_mul_right this (by linarith)
  have k8 : y = r := by
    rcases min_choice r (x + 0.1) with hm | hm
    · rw [hy, hm]
    · exfalso
      rw [hm] at hy
      rw [hy] at k7
      linarith
  rw [k8] at k7 hch hxy
  have k9 : r - x ≤ 0.0025 := by linarith
  have k10 : 0.95*dclosest (dexpsum (screening_terms V)) eps beta x
      ≤ dclosest (dexpsum (screening_terms V)) eps beta r := by
    have m1 := dexpsum_slow (screening_terms V) h (screening_rates V) hxr
    have m2 := dexpsum_nonpos (screening_terms V) h x
    have m3 : 0.95*(-dexpsum (screening_terms V) x) ≤ -dexpsum (screening_terms V) r := by nlinarith
    have m4 : 0.95*(-dexpsum (screening_terms V) x/eps) ≤ -dexpsum (screening_terms V) r/eps := by
      rw [← mul_div_assoc]; exact div_le_div_of_nonneg_right m3 he.le
    have m5 : 0.95*(beta^2/x^2) ≤ beta^2/r^2 := by
      rw [← mul_div_assoc, div_le_div_iff₀ (by positivity) (by positivity)]
      have : (0.975*r)^2 ≤ x^2 := pow_le_pow_left₀ (by positivity) (by linarith) 2
      nlinarith [mul_le_mul_of_nonneg_left this (sq_nonneg beta), mul_nonneg (sq_nonneg beta) (sq_nonneg r)]
    unfold dclosest
    have e1 : -dexpsum (screening_terms V) x/eps = -(dexpsum (screening_terms V) x/eps) := by ring
    have e2 : -dexpsum (screening_terms V) r/eps = -(dexpsum (screening_terms V) r/eps) := by ring
    rw [e1, e2] at m4
    linarith
  have k11 : 0.95*(r - x) ≤ nstep (screening_terms V) eps beta x - x := by
    have : 0.95*(r - x)*dclosest (dexpsum (screening_terms V)) eps beta x
        ≤ (nstep (screening_terms V) eps beta x - x)*dclosest (dexpsum (screening_terms V)) eps beta x := by
      rw [hse]
      have := mul_le_mul_of_nonneg_right k10 (by linarith : 0 ≤ r - x)
      linarith
    exact le_of_mul_le_mul_right this (by linarith)
  linarith

/-- the slopes at two distances -/
theorem slope_difference (V : InteractionPotential ℝ) (hV : Screened V) {eps beta x y : ℝ} (he : 5 < eps)
    (hx : 0 < x) (hxy : x ≤ y) :
    dclosest (dexpsum (screening_terms V)) eps beta x - dclosest (dexpsum (screening_terms V)) eps beta y
      ≤ beta^2/x^2 - beta^2/y^2 + 8.4*(y - x)*(1/eps) := by
  have he0 : 0 < eps := by linarith
  have h := screening_terms_pos V
  obtain ⟨_, _, _, g4, g5⟩ := screening_bounds V hV hx.le
  have m1 := dexpsum_slow (screening_terms V) h (screening_rates V) hxy
  have m2 : -dexpsum (screening_terms V) x + dexpsum (screening_terms V) y ≤ 8.4*(y - x) := by nlinarith
  have m3 : (-dexpsum (screening_terms V) x + dexpsum (screening_terms V) y)*(1/eps) ≤ 8.4*(y - x)*(1/eps) :=
    mul_le_mul_of_nonneg_right m2 (by positivity)
  unfold dclosest
  have e1 : dexpsum (screening_terms V) x/eps = dexpsum (screening_terms V) x*(1/eps) := by ring
  have e2 : dexpsum (screening_terms V) y/eps = dexpsum (screening_terms V) y*(1/eps) := by ring
  rw [e1, e2]
  linarith

/-- high energies: what the first step does, when the search starts beyond the turning point -/
theorem first_step (V : InteractionPotential ℝ) (hV : Screened V) {eps beta x0 r : ℝ} (he : 5 < eps)
    (hr : 0 < r) (hroot : closest (expsum (screening_terms V)) eps beta r = 0)
    (h1 : 1/eps ≤ x0) (h3 : x0 - 1/eps - beta^2/x0 = 0) (hxr : r ≤ x0) :
    0 ≤ x0 - nstep (screening_terms V) eps beta x0 ∧
    x0 - nstep (screening_terms V) eps beta x0 ≤ 1.4*x0*(1/eps) ∧
    dclosest (dexpsum (screening_terms V)) eps beta r*(r - nstep (screening_terms V) eps beta x0) ≤
      (x0 - nstep (screening_terms V) eps beta x0)*(beta^2/(nstep (screening_terms V) eps beta x0)^2
        - beta^2/x0^2 + 8.4*(x0 - nstep (screening_terms V) eps beta x0)*(1/eps)) := by
  have he0 : 0 < eps := by linarith
  have hi : 0 < 1/eps := by positivity
  have hx0 : 0 < x0 := by linarith
  have h := screening_terms_pos V
  have hl := screening_terms_ne V hV
  obtain ⟨g1, g2, g3, g4, g5⟩ := screening_bounds V hV hx0.le
  have hc : closest (expsum (screening_terms V)) eps beta x0 = (1 - expsum (screening_terms V) x0)*(1/eps) := by
    unfold closest
    linear_combination h3
  have hx1 := nstep_pos h hl he0 beta hx0
  have hx1r := nstep_le_root h he0 beta hx0 hr hroot
  have hse := step_eq h he0 beta x0
  have hd := dclosest_ge_one h he0 beta x0
  have hnn := closest_slope h he0 beta hr hxr
  rw [hroot] at hnn
  have c0nn : 0 ≤ closest (expsum (screening_terms V)) eps beta x0 := by linarith
  have e1 : (x0 - nstep (screening_terms V) eps beta x0)*dclosest (dexpsum (screening_terms V)) eps beta x0
      = closest (expsum (screening_terms V)) eps beta x0 := by linear_combination -hse
  have hs0 : 0 ≤ x0 - nstep (screening_terms V) eps beta x0 := by linarith
  refine ⟨hs0, ?_, ?_⟩
  · have k1 : (1 - expsum (screening_terms V) x0)*(1/eps) ≤ 1.4*x0*(1/eps) :=
      mul_le_mul_of_nonneg_right (by linarith) hi.le
    have k2 := le_mul_of_one_le_right hs0 hd
    linarith
  · have ht := nstep_trade h hl he0 beta hx0
    have hch := closest_chord h he0 beta hx1 hx1r le_rfl hroot
    have hsd := slope_difference V hV (beta := beta) he hx1 (by linarith : nstep (screening_terms V) eps beta x0 ≤ x0)
    refine hch.trans ?_
    refine le_trans ?_ (mul_le_mul_of_nonneg_left hsd hs0)
    rw [← e1] at ht
    have : -closest (expsum (screening_terms V)) eps beta (nstep (screening_terms V) eps beta x0)
        *dclosest (dexpsum (screening_terms V)) eps beta x0 ≤
        (x0 - nstep (screening_terms V) eps beta x0)*
          (dclosest (dexpsum (screening_terms V)) eps beta (nstep (screening_terms V) eps beta x0)
          - dclosest (dexpsum (screening_terms V)) eps beta x0)
          *dclosest (dexpsum (screening_terms V)) eps beta x0 := by linarith
    exact le_of_mul_le_mul_right this (by linarith)

theorem inverse_square_difference {beta x y k : ℝ} (hx : 0 < x) (hk : 0 < k) (hxy : x ≤ y) (hky : k*y ≤ x) :
    beta^2/x^2 - beta^2/y^2 ≤ beta^2/y^2*(2*(y - x)/(k^2*y)) := by
  have hy : 0 < y := by linarith
  have e : beta^2/x^2 - beta^2/y^2 = beta^2/y^2*((y - x)*(y + x)/x^2) := by field_simp; ring
  rw [e]
  apply mul_le_mul_of_nonneg_left _ (by positivity)
  rw [div_le_div_iff₀ (by positivity) (by positivity)]
  have h1 : (k*y)^2 ≤ x^2 := pow_le_pow_left₀ (by positivity) hky 2
  have h2 : (y - x)*(y + x) ≤ 2*(y - x)*y := by nlinarith
  calc (y - x)*(y + x)*(k^2*y) ≤ 2*(y - x)*y*(k^2*y) := mul_le_mul_of_nonneg_right h2 (by positivity)
    _ = 2*(y - x)*(k*y)^2 := by ring
    _ ≤ 2*(y - x)*x^2 := mul_le_mul_of_nonneg_left h1 (by linarith)

/-- high energies: the search ends after the first step -/
theorem accurate_high_first (V : InteractionPotential ℝ) (hV : Screened V) {eps beta x0 r : ℝ} (he : 5 < eps)
    (hb : 0 ≤ beta) (hr : 0 < r) (hroot : closest (expsum (screening_terms V)) eps beta r = 0)
    (h1 : 1/eps ≤ x0) (h2 : beta ≤ x0) (h3 : x0 - 1/eps - beta^2/x0 = 0)
    (hs : (nstep (screening_terms V) eps beta x0 - x0)^2 < 1e-6) :
    0.998*r ≤ nstep (screening_terms V) eps beta x0 := by
  have he0 : 0 < eps := by linarith
  have hi : 0 < 1/eps := by positivity
  have hi5 : 1/eps < 0.2 := by
    rw [div_lt_iff₀ he0]; linarith
  have hx0 : 0 < x0 := by linarith
  have h := screening_terms_pos V
  rcases le_total x0 r with hxr | hxr
  · obtain ⟨g1, g2, g3, g4, g5⟩ := screening_bounds V hV hx0.le
    have hc : closest (expsum (screening_terms V)) eps beta x0 = (1 - expsum (screening_terms V) x0)*(1/eps) := by
      unfold closest
      linear_combination h3
    have k1 := nstep_ge h he0 beta hx0 hxr hroot
    have k2 := closest_slope h he0 beta hx0 hxr
    rw [hroot, hc] at k2
    nlinarith
  · obtain ⟨f1, f2, f3⟩ := first_step V hV he hr hroot h1 h3 hxr
    have hd : 1 + beta^2/x0^2 ≤ dclosest (dexpsum (screening_terms V)) eps beta r := by
      have k1 := dexpsum_nonpos (screening_terms V) h r
      have k2 : dexpsum (screening_terms V) r/eps ≤ 0 := div_nonpos_of_nonpos_of_nonneg k1 he0.le
      have k3 : beta^2/x0^2 ≤ beta^2/r^2 :=
        div_le_div_of_nonneg_left (by positivity) (by positivity) (pow_le_pow_left₀ hr.le hxr 2)
      unfold dclosest
      linarith
    have hx1r := nstep_le_root h he0 beta hx0 hr hroot
    have hx1 := nstep_pos h (screening_terms_ne V hV) he0 beta hx0
    have b0 : beta^2/x0^2 ≤ 1 := by
      rw [div_le_one (by positivity)]; exact pow_le_pow_left₀ hb h2 2
    have bb : 0 ≤ beta^2/x0^2 := by positivity
    have s1 : x0 - nstep (screening_terms V) eps beta x0 < 1e-3 := by
      by_contra hcc
      push Not at hcc
      nlinarith
    have s2 : x0 - nstep (screening_terms V) eps beta x0 ≤ 1.4*x0*x0 :=
      f2.trans (mul_le_mul_of_nonneg_left h1 (by positivity))
    have s3 : x0 - nstep (screening_terms V) eps beta x0 ≤ 0.04*x0 := by
      rcases le_total x0 0.0285 with hx | hx
      · nlinarith
      · linarith
    have isd := inverse_square_difference (beta := beta) (k := 0.96) hx1 (by norm_num)
      (by linarith : nstep (screening_terms V) eps beta x0 ≤ x0) (by linarith)
    generalize nstep (screening_terms V) eps beta x0 = x1 at *
    generalize dclosest (dexpsum (screening_terms V)) eps beta r = D at *
    generalize 1/eps = i at *
    generalize hsd : x0 - x1 = s at *
    generalize htd : beta^2/x0^2 = t at *
    have u1 : s*s ≤ 1e-3*(1.4*x0*x0) := mul_le_mul s1.le s2 f1 (by norm_num)
    have u2 : s*(t*(2*s/(0.96^2*x0))) ≤ 0.00304*t*x0 := by
      have e : s*(t*(2*s/(0.96^2*x0))) = t*(2/0.96^2)*(s*s/x0) := by field_simp
      rw [e]
      have : s*s/x0 ≤ 0.0014*x0 := by
        rw [div_le_iff₀ hx0]; linarith
      have h4 : t*(2/0.96^2) ≤ t*2.1702 := mul_le_mul_of_nonneg_left (by norm_num) bb
      calc t*(2/0.96^2)*(s*s/x0) ≤ t*2.1702*(0.0014*x0) :=
            mul_le_mul h4 this (by positivity) (by positivity)
        _ ≤ 0.00304*t*x0 := by nlinarith [mul_nonneg bb hx0.le]
    have u3 : s*(8.4*s*i) ≤ 0.000068*x0 := by
      have a1 : s*i ≤ 0.0002 := by nlinarith
      have a2 : s*(8.4*s*i) = 8.4*s*(s*i) := by ring
      rw [a2]
      have : 8.4*s*(s*i) ≤ 8.4*s*0.0002 := mul_le_mul_of_nonneg_left a1 (by positivity)
      linarith
    have u4 : D*(r - x1) ≤ 0.00304*t*x0 + 0.000068*x0 := by
      have : s*(beta^2/x1^2 - t + 8.4*s*i) ≤ s*(t*(2*s/(0.96^2*x0))) + s*(8.4*s*i) := by
        rw [← mul_add]
        exact mul_le_mul_of_nonneg_left (by linarith) f1
      linarith
    have u5 : (1 + t)*(r - x1) ≤ D*(r - x1) := mul_le_mul_of_nonneg_right hd (by linarith)
    have u6 : (1 + t)*(r - x1) ≤ (1 + t)*(0.0016*x0) := by nlinarith
    have u7 : r - x1 ≤ 0.0016*x0 := le_of_mul_le_mul_left u6 (by linarith)
    linarith

set_option maxHeartbeats 1000000 in
/-- high energies: the first iterate -/
theorem first_accurate (V : InteractionPotential ℝ) (hV : Screened V) {eps beta x0 r : ℝ} (he : 5 < eps)
    (hb : 0 ≤ beta) (hr : 0 < r) (hroot : closest (expsum (screening_terms V)) eps beta r = 0)
    (h1 : 1/eps ≤ x0) (h2 : beta ≤ x0) (h3 : x0 - 1/eps - beta^2/x0 = 0) :
    0.76*r ≤ nstep (screening_terms V) eps beta x0 ∧
    (r < 0.04 → 0.98*r ≤ nstep (screening_terms V) eps beta x0) := by
  have he0 : 0 < eps := by linarith
  have hi : 0 < 1/eps := by positivity
  have hi5 : 1/eps < 0.2 := by
    rw [div_lt_iff₀ he0]; linarith
  have hx0 : 0 < x0 := by linarith
  have h := screening_terms_pos V
  rcases le_total x0 r with hxr | hxr
  · obtain ⟨g1, g2, g3, g4, g5⟩ := screening_bounds V hV hx0.le
    have hc : closest (expsum (screening_terms V)) eps beta x0 = (1 - expsum (screening_terms V) x0)*(1/eps) := by
      unfold closest
      linear_combination h3
    have k1 := nstep_ge h he0 beta hx0 hxr hroot
    have k2 := closest_slope h he0 beta hx0 hxr
    rw [hroot, hc] at k2
    have k3 : 0.98*r ≤ nstep (screening_terms V) eps beta x0 := by nlinarith
    exact ⟨by linarith, fun _ => k3⟩
  · obtain ⟨f1, f2, f3⟩ := first_step V hV he hr hroot h1 h3 hxr
    have hd : 1 + beta^2/x0^2 ≤ dclosest (dexpsum (screening_terms V)) eps beta r := by
      have k1 := dexpsum_nonpos (screening_terms V) h r
      have k2 : dexpsum (screening_terms V) r/eps ≤ 0 := div_nonpos_of_nonpos_of_nonneg k1 he0.le
      have k3 : beta^2/x0^2 ≤ beta^2/r^2 :=
        div_le_div_of_nonneg_left (by positivity) (by positivity) (pow_le_pow_left₀ hr.le hxr 2)
      unfold dclosest
      linarith
    have hx1r := nstep_le_root h he0 beta hx0 hr hroot
    have hx1 := nstep_pos h (screening_terms_ne V hV) he0 beta hx0
    have b0 : beta^2/x0^2 ≤ 1 := by
      rw [div_le_one (by positivity)]; exact pow_le_pow_left₀ hb h2 2
    have bb : 0 ≤ beta^2/x0^2 := by positivity
    have s2 : x0 - nstep (screening_terms V) eps beta x0 ≤ 1.4*x0*x0 :=
      f2.trans (mul_le_mul_of_nonneg_left h1 (by positivity))
    have s3 : x0 - nstep (screening_terms V) eps beta x0 ≤ 0.28*x0 :=
      f2.trans (by nlinarith)
    have key : ∀ k : ℝ, 0 < k → k*x0 ≤ nstep (screening_terms V) eps beta x0 →
        r - nstep (screening_terms V) eps beta x0 ≤ (x0 - nstep (screening_terms V) eps beta x0)
          *((1/k^2 - 1)/2 + 8.4*(x0 - nstep (screening_terms V) eps beta x0)*(1/eps)) := by
      intro k hk hkx
      have a1 : beta^2/(nstep (screening_terms V) eps beta x0)^2 ≤ 1/k^2*(beta^2/x0^2) := by
        rw [div_mul_div_comm, one_mul]
        apply div_le_div_of_nonneg_left (by positivity) (by positivity)
        rw [← mul_pow]
        exact pow_le_pow_left₀ (by positivity) hkx 2
      have hk1 : k ≤ 1 := by
        by_contra hc
        push Not at hc
        nlinarith
      have a2 : 0 ≤ 1/k^2 - 1 := by
        rw [sub_nonneg, le_div_iff₀ (by positivity)]
        nlinarith
      have hw : 0 ≤ 8.4*(x0 - nstep (screening_terms V) eps beta x0)*(1/eps) := by positivity
      generalize 8.4*(x0 - nstep (screening_terms V) eps beta x0)*(1/eps) = w at *
      generalize beta^2/(nstep (screening_terms V) eps beta x0)^2 = q at *
      generalize beta^2/x0^2 = t at *
      generalize 1/k^2 = kk at *
      generalize nstep (screening_terms V) eps beta x0 = x1 at *
      generalize dclosest (dexpsum (screening_terms V)) eps beta r = D at *
      generalize hsd : x0 - x1 = s at *
      have u5 : (1 + t)*(r - x1) ≤ D*(r - x1) := mul_le_mul_of_nonneg_right hd (by linarith)
      have u6 : q - t + w ≤ (1 + t)*((kk - 1)/2 + w) := by nlinarith
      have u7 : (1 + t)*(r - x1) ≤ (1 + t)*(s*((kk - 1)/2 + w)) := by
        have := mul_le_mul_of_nonneg_left u6 f1
        linarith
      exact le_of_mul_le_mul_left u7 (by linarith)
    have w0 : x0 - nstep (screening_terms V) eps beta x0 ≤ 0.2 := by
      have g1 := (screening_bounds V hV hx0.le).1
      have hse := step_eq h he0 beta x0
      have hd := dclosest_ge_one h he0 beta x0
      have hc : closest (expsum (screening_terms V)) eps beta x0
          = (1 - expsum (screening_terms V) x0)*(1/eps) := by
        unfold closest
        linear_combination h3
      have e1 : (x0 - nstep (screening_terms V) eps beta x0)*dclosest (dexpsum (screening_terms V)) eps beta x0
          = (1 - expsum (screening_terms V) x0)*(1/eps) := by rw [← hc]; linear_combination -hse
      have k1 : (1 - expsum (screening_terms V) x0)*(1/eps) ≤ 1*(1/eps) :=
        mul_le_mul_of_nonneg_right (by linarith) hi.le
      have k2 := le_mul_of_one_le_right f1 hd
      linarith
    constructor
    · have := key 0.72 (by norm_num) (by linarith)
      have e : ((1/0.72^2 - 1)/2 : ℝ) ≤ 0.465 := by norm_num
      generalize nstep (screening_terms V) eps beta x0 = x1 at *
      generalize hsd : x0 - x1 = s at *
      -- the slope of the screening function differs by at most 1.4 in all
      have hx1r' := hx1r
      rcases le_total x0 0.5 with hx | hx
      · have w1 : 8.4*s*(1/eps) ≤ 0.24 := by
          have : s*(1/eps) ≤ 0.14*0.2 := mul_le_mul (by linarith) hi5.le hi.le (by norm_num)
          linarith
        have : r - x1 ≤ s*0.705 := this.trans (mul_le_mul_of_nonneg_left (by linarith) f1)
        linarith
      · have w1 : 8.4*s*(1/eps) ≤ 0.336 := by
          have : s*(1/eps) ≤ 0.2*0.2 := mul_le_mul w0 hi5.le hi.le (by norm_num)
          linarith
        have : r - x1 ≤ s*0.801 := this.trans (mul_le_mul_of_nonneg_left (by linarith) f1)
        linarith
    · intro hr4
      have hx4 : x0 ≤ 0.0556 := by linarith
      have s4 : x0 - nstep (screening_terms V) eps beta x0 ≤ 0.078*x0 := by nlinarith
      have := key 0.922 (by norm_num) (by linarith)
      have e : ((1/0.922^2 - 1)/2 : ℝ) ≤ 0.0883 := by norm_num
      generalize nstep (screening_terms V) eps beta x0 = x1 at *
      generalize hsd : x0 - x1 = s at *
      have w1 : 8.4*s*(1/eps) ≤ 0.0075 := by
        have : s*(1/eps) ≤ 0.00434*0.2 := mul_le_mul (by linarith) hi5.le hi.le (by norm_num)
        linarith
      have : r - x1 ≤ s*0.0958 := this.trans (mul_le_mul_of_nonneg_left (by linarith) f1)
      linarith

/-- high energies: the search ends at a later step -/
theorem accurate_high_later (V : InteractionPotential ℝ) (hV : Screened V) {eps beta x r : ℝ} (he : 5 < eps)
    (hb : 0 ≤ beta) (hr : 0 < r) (hbr : beta ≤ r) (hroot : closest (expsum (screening_terms V)) eps beta r = 0)
    (hx : 0.76*r ≤ x) (hx4 : r < 0.04 → 0.98*r ≤ x) (hxr : x ≤ r)
    (hs : (nstep (screening_terms V) eps beta x - x)^2 < 1e-6) :
    0.998*r ≤ nstep (screening_terms V) eps beta x := by
  have he0 : 0 < eps := by linarith
  have hi : 0 < 1/eps := by positivity
  have hi5 : 1/eps < 0.2 := by
    rw [div_lt_iff₀ he0]; linarith
  have h := screening_terms_pos V
  have hx0 : 0 < x := lt_of_lt_of_le (by positivity) hx
  have hge := nstep_ge h he0 beta hx0 hxr hroot
  have hs' : nstep (screening_terms V) eps beta x - x < 1e-3 := by
    by_contra hc
    push Not at hc
    nlinarith
  have hse := step_eq h he0 beta x
  have hd := dclosest_ge_one h he0 beta x
  have hdr := dclosest_ge_one h he0 beta r
  have hch := closest_chord h he0 beta hx0 hxr le_rfl hroot
  obtain ⟨_, _, _, g4, g5⟩ := screening_bounds V hV hx0.le
  have a1 : -(dexpsum (screening_terms V) x/eps) ≤ 0.28 := by
    rw [← neg_div, div_le_iff₀ he0]; nlinarith
  have ar : 0 ≤ -(dexpsum (screening_terms V) r/eps) := by
    rw [← neg_div]; exact div_nonneg (by linarith [dexpsum_nonpos (screening_terms V) h r]) he0.le
  have dr : beta^2/r^2 ≤ 1 := by
    rw [div_le_one (by positivity)]; exact pow_le_pow_left₀ hb hbr 2
  have drr : 0 ≤ beta^2/r^2 := by positivity
  have kk : ∀ k : ℝ, 0 < k → k*r ≤ x → beta^2/x^2 ≤ 1/k^2*(beta^2/r^2) := by
    intro k hk hkx
    rw [div_mul_div_comm, one_mul]
    apply div_le_div_of_nonneg_left (by positivity) (by positivity)
    rw [← mul_pow]
    exact pow_le_pow_left₀ (by positivity) hkx 2
  have f1 : 0.65*dclosest (dexpsum (screening_terms V)) eps beta x
      ≤ dclosest (dexpsum (screening_terms V)) eps beta r := by
    have := kk 0.76 (by norm_num) hx
    have e : (1/0.76^2 : ℝ) ≤ 1.732 := by norm_num
    have := this.trans (mul_le_mul_of_nonneg_right e drr)
    unfold dclosest
    linarith
  have f2 : 0.65*(r - x) ≤ nstep (screening_terms V) eps beta x - x := by
    have : 0.65*(r - x)*dclosest (dexpsum (screening_terms V)) eps beta x
        ≤ (nstep (screening_terms V) eps beta x - x)*dclosest (dexpsum (screening_terms V)) eps beta x := by
      rw [hse]
      have := mul_le_mul_of_nonneg_right f1 (by linarith : 0 ≤ r - x)
      linarith
    exact le_of_mul_le_mul_right this (by linarith)
  have f3 : r - x ≤ 0.00154 := by linarith
  have f4 : 0.9615*r ≤ x := by
    rcases lt_or_ge r 0.04 with h4 | h4
    · have := hx4 h4; linarith
    · linarith
  have f5 : dclosest (dexpsum (screening_terms V)) eps beta x
      ≤ 1.045*dclosest (dexpsum (screening_terms V)) eps beta r := by
    have m1 := slope_difference V hV (beta := beta) he hx0 hxr
    have m2 := kk 0.9615 (by norm_num) f4
    have e : (1/0.9615^2 : ℝ) ≤ 1.0817 := by norm_num
    have m3 := m2.trans (mul_le_mul_of_nonneg_right e drr)
    have m4 : 8.4*(r - x)*(1/eps) ≤ 0.0026 := by
      have : (r - x)*(1/eps) ≤ 0.00154*0.2 := mul_le_mul f3 hi5.le hi.le (by norm_num)
      linarith
    have m5 : 1 + beta^2/r^2 ≤ dclosest (dexpsum (screening_terms V)) eps beta r := by
      unfold dclosest; linarith
    linarith
  have f6 : r - x ≤ 1.045*(nstep (screening_terms V) eps beta x - x) := by
    have m1 := mul_le_mul_of_nonneg_left f5 (by linarith : 0 ≤ nstep (screening_terms V) eps beta x - x)
    rw [hse] at m1
    have : (r - x)*dclosest (dexpsum (screening_terms V)) eps beta r ≤
        1.045*(nstep (screening_terms V) eps beta x - x)*dclosest (dexpsum (screening_terms V)) eps beta r := by
      linarith
    exact le_of_mul_le_mul_right this (by linarith)
  have f7 := nstep_le_root h he0 beta hx0 hr hroot
  rcases lt_or_ge r 0.04 with h4 | h4
  · have := hx4 h4; linarith
  · linarith

end RustBCA
