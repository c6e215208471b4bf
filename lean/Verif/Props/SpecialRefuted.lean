import Verif.Props.Special

/-!
# C93: collisions that do not produce numbers
-/

namespace RustBCA
open Scalar Spec

set_option linter.unusedSimpArgs false

namespace XReal

/-! ### Head-on collisions -/

theorem nan_sub (a : XReal) : nan - a = nan := by cases a <;> rfl
theorem nan_mul (a : XReal) : nan*a = nan := by cases a <;> rfl
theorem nan_div (a : XReal) : nan/a = nan := by cases a <;> rfl
theorem sub_nan (a : XReal) : a - nan = nan := by cases a <;> rfl
theorem div_nan (a : XReal) : a/nan = nan := by cases a <;> rfl
theorem nan_add (a : XReal) : nan + a = nan := by cases a <;> rfl
theorem mul_nan (a : XReal) : a*nan = nan := by cases a <;> rfl
theorem nan_lt (a : XReal) : (nan <. a) = false := by cases a <;> rfl
theorem zero_div_zero : (fin 0 : XReal)/fin 0 = nan := by
  show div (fin 0) (fin 0) = nan
  simp [div, signInf]

theorem phi_nan (V : InteractionPotential ℝ) (hV : Screened V) : phi nan V.lift = .ok nan := by
  cases hV <;> rfl
theorem dphi_nan (V : InteractionPotential ℝ) (hV : Screened V) : dphi nan V.lift = .ok nan := by
  cases hV <;> rfl

/-- once NaN, always NaN -/
theorem newton_loop_nan (f df : XReal → Res XReal) (a tol : XReal) (hf : f nan = .ok nan) (hdf : df nan = .ok nan) :
    ∀ n, newton_loop f df a tol n nan
      = .ok (.error "Numerical error: exceeded maximum number of Newton-Raphson iterations") := by
  intro n
  induction n with
  | zero => rfl
  | succ n ih =>
    unfold newton_loop
    simp only [nan_mul, hf, hdf, bind, Except.bind, nan_div, nan_sub, nan_lt, Bool.false_eq_true, if_false]
    exact ih

end XReal
open XReal

/-- **C93, refuted for head-on collisions.** The random number from which an impact parameter is made may be
zero; the impact parameter is then zero.  For every screened potential, all atoms and every energy up to five
times `Z1 Z2 e²/(4 π ε0 a)`, whatever the options, such a collision ends the program: Newton's method starts at
0, where `beta²/x` is 0/0, and never leaves NaN. -/
theorem C93_refuted_head_on (rcpr : Rcpr XReal) (p1 p2 : Particle XReal) (g : BinaryCollisionGeometry XReal)
    (o : Options XReal) (V : InteractionPotential ℝ) (hV : Screened V) (si : ScatteringIntegral)
    (Z1 Z2 m1 m2 E : ℝ) (h : Encounter fin V.lift si Z1 Z2 m1 m2 E 0 p1 p2 g o)
    (hZ1 : 0 < Z1) (hZ2 : 0 < Z2) (hm1 : 0 < m1) (hm2 : 0 < m2) (hE : 0 < E)
    (h5 : E*m2/(m1 + m2) ≤ 5*(coulombConstant Z1 Z2/screening_length Z1 Z2 V)) :
    calculate_binary_collision rcpr p1 p2 g o
      = .error (.panic "Numerical error: exceeded maximum number of Newton-Raphson iterations") := by
  have hs := screening_length_pos V hV hZ1 hZ2
  have hk0 : 0 < coulombConstant Z1 Z2 := by
    unfold coulombConstant
    have := Real.pi_pos
    positivity
  have hEr : 0 < E*m2/(m1 + m2) := by positivity
  have he := reduced_energy_pos V hV hZ1 hZ2 hEr
  have hM : m1 + m2 ≠ 0 := by positivity
  have he5 : reduced_energy Z1 Z2 (E*m2/(m1 + m2)) V ≤ 5 := by
    rw [reduced_energy_eq V hV Z1 Z2 _ hZ1 hZ2, div_le_iff₀ (by positivity)]
    exact h5
  have hn : newton_rootfinder (fin Z1) (fin Z2) (fin m1) (fin m2) (fin E) (fin 0) V.lift 100 (fin 1e-6)
      = .ok (.error "Numerical error: exceeded maximum number of Newton-Raphson iterations") := by
    have hre := reduced_energy_fin V hV (Er := E*m2/(m1 + m2)) hZ1 hZ2
    have hl := screening_length_fin V hV hZ1 hZ2
    unfold newton_rootfinder
    simp only [hl, lindhard_fin, fin_mul, fin_add, fin_div hM, fin_div hZ1.ne',
      fin_div hZ2.ne', fin_div hs.ne', reduced_energy_fin' V hV hZ1 hZ2 hm1 hm2, fin_lit]
    have hc : ¬ ((fin 5.0 <. fin (reduced_energy Z1 Z2 (E*m2/(m1 + m2)) V)) = true) := by
      rw [fin_lt, decide_eq_true_iff]
      norm_num
      exact he5
    rw [if_neg hc, zero_div]
    have f0 : ∀ r a, (r = fin 0 ∨ r = nan) → distance_of_closest_approach_function r a (fin Z1) (fin Z2)
        (fin (E*m2/(m1 + m2))) (fin 0) V.lift = .ok nan := by
      intro r a hr
      have key : doca_function (r/fin (screening_length Z1 Z2 V)) (fin 0)
          (fin (reduced_energy Z1 Z2 (E*m2/(m1 + m2)) V)) V.lift = .ok nan := by
        rcases hr with rfl | rfl
        · rw [fin_div hs.ne', zero_div]
          unfold doca_function
          simp only [phi_fin V hV, bind, Except.bind, pure, Except.pure, fin_mul, mul_zero, zero_div_zero, sub_nan]
        · rw [nan_div]
          unfold doca_function
          simp only [phi_nan V hV, bind, Except.bind, pure, Except.pure, nan_sub]
      cases hV <;> simp only [InteractionPotential.lift, distance_of_closest_approach_function] at key hre hl ⊢ <;>
        rw [hre, hl, fin_div hs.ne', zero_div, key]
    have d0 : ∀ r a, (r = fin 0 ∨ r = nan) → diff_distance_of_closest_approach_function r a (fin Z1) (fin Z2)
        (fin (E*m2/(m1 + m2))) (fin 0) V.lift = .ok nan := by
      intro r a hr
      have key : diff_doca_function (r/fin (screening_length Z1 Z2 V)) (fin 0)
          (fin (reduced_energy Z1 Z2 (E*m2/(m1 + m2)) V)) V.lift = .ok nan := by
        rcases hr with rfl | rfl
        · rw [fin_div hs.ne', zero_div]
          unfold diff_doca_function
          simp only [dphi_fin V hV, bind, Except.bind, pure, Except.pure, fin_mul, mul_zero, zero_div_zero, nan_div,
            nan_sub, nan_add]
        · rw [nan_div]
          unfold diff_doca_function
          simp only [dphi_nan V hV, bind, Except.bind, pure, Except.pure, nan_div, sub_nan, div_nan, nan_add]
      cases hV <;> simp only [InteractionPotential.lift, diff_distance_of_closest_approach_function] at key hre hl ⊢ <;>
        rw [hre, hl, fin_div hs.ne', zero_div, key]
    rw [show (100:ℕ) = 99 + 1 from rfl]
    unfold newton_loop
    have z : (fin 0 : XReal)*fin (screening_length Z1 Z2 V) = fin 0 := by rw [fin_mul, zero_mul]
    simp only [z, f0 _ _ (Or.inl rfl), d0 _ _ (Or.inl rfl), bind, Except.bind, nan_div, sub_nan, nan_sub, nan_mul,
      nan_lt, Bool.false_eq_true, if_false]
    exact newton_loop_nan _ _ _ _ (f0 _ _ (Or.inr rfl)) (d0 _ _ (Or.inr rfl)) 99
  have hd : distance_of_closest_approach rcpr p1 p2 g o
      = .error (.panic "Numerical error: exceeded maximum number of Newton-Raphson iterations") := by
    rw [distance_fin rcpr p1 p2 g o V hV si h hm1 hm2 hE.le, hn]
    rfl
  obtain ⟨row, hrow, hcell⟩ := h.potential
  obtain ⟨row', hrow', hcell'⟩ := h.integral
  unfold calculate_binary_collision
  simp only [vget, hrow, hcell, hrow', hcell', hd, bind, Except.bind]

/-! ### Gauss-Mehler with many points -/

theorem expsum_tangent_strict (l : List (ℝ × ℝ)) (h : PosTerms l) (hl : l ≠ []) {x y : ℝ} (hxy : x ≠ y) :
    expsum l x + dexpsum l x*(y - x) < expsum l y := by
  cases l with
  | nil => exact absurd rfl hl
  | cons cd l =>
    have h1 := h cd (by simp)
    have h2 := expsum_tangent l (fun c hc => h c (by simp [hc])) x y
    simp only [expsum_cons, dexpsum_cons]
    have h3 : -cd.2*(y - x) + 1 < Real.exp (-cd.2*(y - x)) :=
      Real.add_one_lt_exp (mul_ne_zero (neg_ne_zero.2 h1.2.ne') (sub_ne_zero.2 hxy.symm))
    have h4 : Real.exp (-cd.2*y) = Real.exp (-cd.2*x)*Real.exp (-cd.2*(y - x)) := by
      rw [← Real.exp_add]; ring_nf
    have h5 := mul_lt_mul_of_pos_left h3 (mul_pos h1.1 (Real.exp_pos (-cd.2*x)))
    rw [h4]
    nlinarith

theorem nstep_lt_root {l : List (ℝ × ℝ)} {eps : ℝ} (h : PosTerms l) (hl : l ≠ []) (he : 0 < eps) (beta : ℝ)
    {x r : ℝ} (hx : 0 < x) (hr : 0 < r) (hroot : closest (expsum l) eps beta r = 0) (hne : x ≠ r) :
    nstep l eps beta x < r := by
  have hd := dclosest_ge_one h he beta x
  have hd0 : 0 < dclosest (dexpsum l) eps beta x := by linarith
  have h1 : 0 < closest (expsum l) eps beta x + dclosest (dexpsum l) eps beta x*(r - x) := by
    rw [← hroot]
    unfold closest dclosest
    have h1 := div_lt_div_of_pos_right (expsum_tangent_strict l h hl hne) he
    have h2 : -(beta^2/r) ≤ -(beta^2/x) + beta^2/x^2*(r - x) := by
      rw [← sub_nonneg]
      have : -(beta^2/x) + beta^2/x^2*(r - x) - -(beta^2/r) = beta^2*(r - x)^2/(x^2*r) := by
        field_simp; ring
      rw [this]; positivity
    have e : (expsum l x + dexpsum l x*(r - x))/eps = expsum l x/eps + dexpsum l x/eps*(r - x) := by
      field_simp
    rw [e] at h1
    linarith
  unfold nstep
  rw [sub_lt_iff_lt_add, ← sub_lt_iff_lt_add', lt_div_iff₀ hd0]
  linarith

theorem nseq_lt_root {l : List (ℝ × ℝ)} {eps : ℝ} (h : PosTerms l) (hl : l ≠ []) (he : 0 < eps) (beta : ℝ)
    {x0 r : ℝ} (hx : 0 < x0) (hr : 0 < r) (hroot : closest (expsum l) eps beta r = 0) (hne : x0 ≠ r) (n : ℕ) :
    nseq l eps beta x0 (n + 1) < r := by
  induction n with
  | zero => exact nstep_lt_root h hl he beta hx hr hroot hne
  | succ n ih => exact nstep_lt_root h hl he beta (nseq_pos h hl he beta hx (n + 1)) hr hroot ih.ne

theorem screening_lt_one (V : InteractionPotential ℝ) (hV : Screened V) (hj : V ≠ .LENZ_JENSEN) {x : ℝ}
    (hx : 0 < x) : expsum (screening_terms V) x < 1 := by
  have h := screening_terms_pos V
  have h0 : expsum (screening_terms V) 0 = 1 := by
    cases hV with
    | lenz_jensen => exact absurd rfl hj
    | _ => simp [screening_terms, expsum]; norm_num
  have h1 := expsum_tangent_strict _ h (screening_terms_ne V hV) (x := x) (y := 0) hx.ne'
  have h2 := dexpsum_nonpos _ h x
  rw [h0] at h1
  nlinarith

/-- Newton's method stops strictly before the turning point. -/
theorem newton_strict (V : InteractionPotential ℝ) (hV : Screened V) (Za Zb Ma Mb E0 p : ℝ)
    (hA : 0 < Za) (hB : 0 < Zb) (hMa : 0 < Ma) (hMb : 0 < Mb) (hE : 0 < E0) (n : ℕ) (tol x : ℝ)
    (hp : 0 < p) (run : newton_rootfinder Za Zb Ma Mb E0 p V n tol = .ok (.ok x)) (r : ℝ)
    (hr : 0 < r) (hroot : closest (expsum (screening_terms V)) (reduced_energy Za Zb (E0*Mb/(Ma + Mb)) V)
      (p/screening_length Za Zb V) r = 0)
    (hj : V ≠ .LENZ_JENSEN ∨ reduced_energy Za Zb (E0*Mb/(Ma + Mb)) V ≤ 5) : x < r := by
  have hs := screening_length_pos V hV hA hB
  have h := screening_terms_pos V
  have hl := screening_terms_ne V hV
  have he := reduced_energy_pos V hV hA hB (by positivity : 0 < E0*Mb/(Ma + Mb))
  have hb : 0 < p/screening_length Za Zb V := div_pos hp hs
  obtain ⟨x0, hx0⟩ : ∃ x0, x0 = newton_start (reduced_energy Za Zb (E0*Mb/(Ma + Mb)) V)
    (p/screening_length Za Zb V) := ⟨_, rfl⟩
  obtain ⟨k, rfl, hsm⟩ := newton_result V hV Za Zb Ma Mb E0 p hA hB hMa hMb n tol x run x0 hx0
  have hx0p : 0 < x0 := by rw [hx0]; exact newton_start_pos he hb
  refine nseq_lt_root h hl he _ hx0p hr hroot ?_ k
  intro heq
  rcases le_or_gt (reduced_energy Za Zb (E0*Mb/(Ma + Mb)) V) 5 with h5 | h5
  · obtain ⟨r', hr', hbr, hroot'⟩ := closest_root' V hV he hb.le
    have err : r' = r := (closest_strictMono h he (p/screening_length Za Zb V)).injOn hr' hr
      (hroot'.trans hroot.symm)
    rw [newton_start, if_neg (not_lt.2 h5)] at hx0
    rw [err, ← heq, hx0] at hbr
    exact lt_irrefl _ hbr
  · have hj' := hj.resolve_right (not_le.2 h5)
    rw [newton_start, if_pos h5] at hx0
    obtain ⟨g1, g2, g3⟩ := start_high_facts h5 hb.le hx0
    have hlt := screening_lt_one V hV hj' hx0p
    have hi : 0 < 1/reduced_energy Za Zb (E0*Mb/(Ma + Mb)) V := by positivity
    have hc : closest (expsum (screening_terms V)) (reduced_energy Za Zb (E0*Mb/(Ma + Mb)) V)
        (p/screening_length Za Zb V) x0
        = (1 - expsum (screening_terms V) x0)*(1/reduced_energy Za Zb (E0*Mb/(Ma + Mb)) V) := by
      unfold closest
      linear_combination g3
    rw [heq, hroot] at hc
    rw [← heq] at hc
    have := mul_pos (by linarith : 0 < 1 - expsum (screening_terms V) x0) hi
    linarith

theorem fine_nodes {t : ℝ} (ht : t < 1) : ∃ N : ℕ, 1 ≤ N ∧ ∀ n : ℕ, N ≤ n → t < Real.cos (Real.pi/(4*n)) := by
  obtain ⟨N, hN⟩ := exists_nat_gt (1/(1 - t))
  have h0 : 0 < 1 - t := by linarith
  have hpos : (0:ℝ) < N := lt_trans (by positivity) hN
  have hN1 : 1 ≤ N := by exact_mod_cast hpos
  refine ⟨N, hN1, fun n hn => ?_⟩
  have hn' : (N:ℝ) ≤ n := by exact_mod_cast hn
  have hn1 : (1:ℝ) ≤ n := by exact_mod_cast hN1.trans hn
  have h1 := Real.one_sub_sq_div_two_le_cos (x := Real.pi/(4*n))
  have h2 : Real.pi/(4*n) ≤ 1/n := by
    rw [div_le_div_iff₀ (by positivity) (by positivity)]
    have := Real.pi_lt_four
    nlinarith
  have h3 : (Real.pi/(4*n))^2 ≤ (1/n)^2 := pow_le_pow_left₀ (by have := Real.pi_pos; positivity) h2 2
  have h4 : (1/(n:ℝ))^2 ≤ 1/n := by
    have a : 0 ≤ 1/(n:ℝ) := by positivity
    have b : 1/(n:ℝ) ≤ 1 := by rw [div_le_one (by linarith)]; exact hn1
    nlinarith
  have h5 : 1/(n:ℝ) < 1 - t := by
    rw [div_lt_iff₀ (by linarith)]
    rw [div_lt_iff₀ h0] at hN
    nlinarith
  have h6 : 0 ≤ 1/(n:ℝ) := by positivity
  linarith

/-- **C93, refuted for Gauss-Mehler with many points.** More points do not mean a better angle: for every
collision, of a screened potential, that C93 covers (with Lenz-Jensen below five times the unit of energy)
there is a number of points from which on Gauss-Mehler quadrature ends the program.  Newton's method stops
before the turning point, and the first node is on the wrong side of it. -/
theorem C93_refuted_gauss_mehler (V : InteractionPotential ℝ) (hV : Screened V) (Z1 Z2 m1 m2 E p : ℝ)
    (hZ1 : 0 < Z1) (hZ2 : 0 < Z2) (hm1 : 0 < m1) (hm2 : 0 < m2) (hp : 0 < p)
    (hE : 1e-25*(coulombConstant Z1 Z2/screening_length Z1 Z2 V) ≤ E*m2/(m1 + m2))
    (hj : V ≠ .LENZ_JENSEN ∨ E*m2/(m1 + m2) ≤ 5*(coulombConstant Z1 Z2/screening_length Z1 Z2 V)) :
    ∃ N : ℕ, ∀ n, N ≤ n → ∀ (rcpr : Rcpr XReal) (p1 p2 : Particle XReal) (g : BinaryCollisionGeometry XReal)
      (o : Options XReal), Encounter fin V.lift (.GAUSS_MEHLER n) Z1 Z2 m1 m2 E p p1 p2 g o →
      calculate_binary_collision rcpr p1 p2 g o
        = .error (.panic "Numerical error: Gauss-Mehler scattering integrand complex.") := by
  have hs := screening_length_pos V hV hZ1 hZ2
  have hk0 : 0 < coulombConstant Z1 Z2 := by
    unfold coulombConstant
    have := Real.pi_pos
    positivity
  have hEr : 0 < E*m2/(m1 + m2) := lt_of_lt_of_le (by positivity) hE
  have hE0 : 0 < E := by
    by_contra hc
    push Not at hc
    have : E*m2/(m1 + m2) ≤ 0 := by
      apply div_nonpos_of_nonpos_of_nonneg _ (by positivity)
      exact mul_nonpos_of_nonpos_of_nonneg hc hm2.le
    linarith
  have hM : m1 + m2 ≠ 0 := by positivity
  have he := reduced_energy_pos V hV hZ1 hZ2 hEr
  have hb : 0 < p/screening_length Z1 Z2 V := div_pos hp hs
  obtain ⟨x, run⟩ := (C92_newton_succeeds V hV Z1 Z2 m1 m2 E p hZ1 hZ2 hm1 hm2 1e-6 le_rfl 100).1 hp hE le_rfl
  obtain ⟨r, hr, hbr, hroot⟩ := closest_root' V hV he hb.le
  obtain ⟨a1, a2⟩ := newton_accurate V hV Z1 Z2 m1 m2 E p hZ1 hZ2 hm1 hm2 hE0 100 1e-6 x le_rfl hp run r hr hroot
  have hx : 0 < x := lt_of_lt_of_le (by positivity) a1
  have hxr : x < r := newton_strict V hV Z1 Z2 m1 m2 E p hZ1 hZ2 hm1 hm2 hE0 100 1e-6 x hp run r hr hroot (by
    rcases hj with hj | hj
    · exact Or.inl hj
    · refine Or.inr ?_
      rw [reduced_energy_eq V hV Z1 Z2 _ hZ1 hZ2, div_le_iff₀ (by positivity)]
      exact hj)
  obtain ⟨N, hN1, hN⟩ := fine_nodes ((div_lt_one hr).2 hxr)
  refine ⟨N, fun n hn rcpr p1 p2 g o h => ?_⟩
  have hdist : distance_of_closest_approach rcpr p1 p2 g o = .ok (fin x) := by
    rw [distance_fin rcpr p1 p2 g o V hV _ h hm1 hm2 hE0.le, newton_fin V hV hZ1 hZ2 hm1 hm2 hE0 hp run]
    rfl
  have hang : scattering_angle (.GAUSS_MEHLER n) (fin Z1) (fin Z2) (fin m1) (fin m2) (fin E) (fin p) (fin x) V.lift
      = .error (.panic "Numerical error: Gauss-Mehler scattering integrand complex.") := by
    have hu := hN n hn
    obtain ⟨m, rfl⟩ : ∃ m, n = m + 1 := ⟨n - 1, by omega⟩
    have hang0 := gm_angle (n := m + 1) (j := 0) (by omega)
    have hn0 : (0:ℝ) < ((m + 1 : ℕ) : ℝ) := by exact_mod_cast Nat.succ_pos m
    have ecos : Real.cos ((2.0*((0 + 1 : ℕ) : ℝ) - 1.0)/4.0/((m + 1 : ℕ) : ℝ)*Real.pi)
        = Real.cos (Real.pi/(4*((m + 1 : ℕ) : ℝ))) := by
      rw [hang0]
      congr 1
      push_cast
      field_simp
      ring
    have hu0 : 0 < Real.cos (Real.pi/(4*((m + 1 : ℕ) : ℝ))) := lt_trans (by positivity) hu
    show gauss_mehler (fin Z1) (fin Z2) (fin m1) (fin m2) (fin E) (fin p) (fin x) V.lift (m + 1) = _
    unfold gauss_mehler scattering_integral_gauss_mehler
    simp only [screening_length_fin V hV hZ1 hZ2, fin_mul, fin_add, fin_div hM, gm_nodes_fin]
    have hnodes : ∃ w rest, (gm_nodes (m + 1) : List (ℝ × ℝ))
        = (Real.cos (Real.pi/(4*((m + 1 : ℕ) : ℝ))), w) :: rest := by
      unfold gm_nodes
      rw [List.range_succ_eq_map, List.map_cons]
      simp only [cos_real, ofNat_real, pi_real]
      rw [ecos]
      exact ⟨_, _, rfl⟩
    obtain ⟨w, rest, hnodes⟩ := hnodes
    rw [hnodes]
    generalize Real.cos (Real.pi/(4*((m + 1 : ℕ) : ℝ))) = u at *
    have hR0 : 0 < x*screening_length Z1 Z2 V/u := by positivity
    have hR : x*screening_length Z1 Z2 V/u < r*screening_length Z1 Z2 V := by
      rw [div_lt_iff₀ hu0]
      rw [div_lt_iff₀ hr] at hu
      have := mul_lt_mul_of_pos_right hu hs
      linarith
    have hrad := radial_neg V hV hZ1 hZ2 hEr hR0 hroot hR
    have hrs : 0 < x*screening_length Z1 Z2 V := by positivity
    have e : (p*u/(x*screening_length Z1 Z2 V))^2 = p^2/(x*screening_length Z1 Z2 V/u)^2 := by
      field_simp
    have hneg : (1.0:ℝ) - screenedEnergy V Z1 Z2 (screening_length Z1 Z2 V) (x*screening_length Z1 Z2 V/u)
        /(E*m2/(m1 + m2)) - (p*u/(x*screening_length Z1 Z2 V))^(2:ℤ) < 0 := by
      rw [show (2 : ℤ) = ((2 : ℕ) : ℤ) from rfl, zpow_natCast, show (1.0 : ℝ) = 1 by norm_num, e]
      exact hrad
    have hsq : ∀ a : ℝ, a < 0 → Scalar.sqrt (fin a) = nan := fun a ha => by
      show XReal.sqrt (fin a) = nan
      simp [XReal.sqrt, ha]
    have hfirst : scattering_function_gm (fin u) (fin p) (fin (x*screening_length Z1 Z2 V)) (fin (E*m2/(m1 + m2)))
        (fun r => interaction_potential r (fin (screening_length Z1 Z2 V)) (fin Z1) (fin Z2) V.lift)
        = .ok (.error "Numerical error: Gauss-Mehler scattering integrand complex.") := by
      unfold scattering_function_gm
      simp only [fin_div hu0.ne', potential_fin V hV hR0.ne' hs.ne', bind, Except.bind, pure, Except.pure]
      simp only [fin_lit, fin_div hEr.ne', fin_mul, fin_div hrs.ne', fin_powi (Or.inl (by norm_num : (0:ℤ) ≤ 2)),
        fin_sub]
      rw [hsq _ hneg, div_nan]
      rfl
    unfold quadrature
    simp only [List.map_cons, forFold, hfirst, bind, Except.bind, unwrapA]
  obtain ⟨row, hrow, hcell⟩ := h.potential
  obtain ⟨row', hrow', hcell'⟩ := h.integral
  unfold calculate_binary_collision
  simp only [vget, hrow, hcell, hrow', hcell', hdist, bind, Except.bind, h.Z1_eq, h.Z2_eq, h.m1_eq, h.m2_eq, h.E_eq,
    h.p_eq, hang]

/-! ### MAGIC for fast, distant collisions -/

theorem expsum_decay (l : List (ℝ × ℝ)) (h : PosTerms l) :
    ∃ K, 0 < K ∧ ∀ x, 0 < x → expsum l x*x^2 ≤ K ∧ -dexpsum l x*x^2 ≤ K := by
  induction l with
  | nil => exact ⟨1, one_pos, fun x _ => by simp⟩
  | cons cd l ih =>
    have h1 := h cd (by simp)
    obtain ⟨K, hK, hk⟩ := ih (fun c hc => h c (by simp [hc]))
    have hc : 0 < 2/cd.2^2 := by have := h1.2; positivity
    have a1 : 0 ≤ cd.1*(2/cd.2^2) := (mul_pos h1.1 hc).le
    have a2 : 0 ≤ cd.2*cd.1*(2/cd.2^2) := (mul_pos (mul_pos h1.2 h1.1) hc).le
    refine ⟨K + cd.1*(2/cd.2^2) + cd.2*cd.1*(2/cd.2^2), by linarith, fun x hx => ?_⟩
    obtain ⟨k1, k2⟩ := hk x hx
    have hy : 0 < cd.2*x := mul_pos h1.2 hx
    have h3 : Real.exp (-cd.2*x)*x^2 ≤ 2/cd.2^2 := by
      have h4 := Real.quadratic_le_exp_of_nonneg hy.le
      rw [neg_mul, Real.exp_neg, le_div_iff₀ (by have := h1.2; positivity), mul_assoc, inv_mul_le_iff₀ (Real.exp_pos _)]
      have : x^2*cd.2^2 = (cd.2*x)^2 := by ring
      rw [this]
      linarith
    simp only [expsum_cons, dexpsum_cons]
    have h5 := mul_le_mul_of_nonneg_left h3 h1.1.le
    have h6 := mul_le_mul_of_nonneg_left h3 (mul_pos h1.2 h1.1).le
    constructor
    · have : (cd.1*Real.exp (-cd.2*x) + expsum l x)*x^2 = cd.1*(Real.exp (-cd.2*x)*x^2) + expsum l x*x^2 := by ring
      rw [this]; linarith
    · have : -(-cd.2*cd.1*Real.exp (-cd.2*x) + dexpsum l x)*x^2
        = cd.2*cd.1*(Real.exp (-cd.2*x)*x^2) + -dexpsum l x*x^2 := by ring
      rw [this]; linarith

theorem gap_arith {K i eps beta x0 f d : ℝ} (hi : 0 < i) (hK : 0 < K) (hie : i*eps = 1)
    (hbeta : 9*K*eps + 6*K + 1 ≤ beta) (h2 : beta ≤ x0) (hx0 : 0 < x0) (hle : x0 ≤ 2*beta)
    (e3 : x0^2 - beta^2 = x0*i) (hq : 0 ≤ f) (hdq : d ≤ 0) (k1 : f*x0^2 ≤ K) (k2 : -d*x0^2 ≤ K) :
    2*x0 - i - d*i*x0 < (1 - f)*(x0 + beta) := by
  have hb0 : 0 < beta := by linarith
  have hsum : 0 < x0 + beta := by linarith
  have m1 : x0 - beta = x0*i/(x0 + beta) := by
    rw [eq_div_iff hsum.ne', ← e3]; ring
  have m2 : i - (x0 - beta) = i*beta/(x0 + beta) := by
    rw [m1]; field_simp; ring
  have m3 : i/3 ≤ i*beta/(x0 + beta) := by
    rw [div_le_div_iff₀ (by norm_num) hsum, mul_assoc]
    exact mul_le_mul_of_nonneg_left (by linarith) hi.le
  have n1 : f*x0 ≤ K/x0 := by
    rw [le_div_iff₀ hx0, mul_assoc, ← pow_two]; exact k1
  have n2 : -d*x0 ≤ K/x0 := by
    rw [le_div_iff₀ hx0, mul_assoc, ← pow_two]; exact k2
  have n3 : f*beta ≤ f*x0 := mul_le_mul_of_nonneg_left h2 hq
  have n4 := mul_le_mul_of_nonneg_left n2 hi.le
  have n5 : K/x0 ≤ K/beta := div_le_div_of_nonneg_left hK.le hb0 h2
  have n5' := mul_le_mul_of_nonneg_left n5 hi.le
  have n6 : (2 + i)*(K/beta) < i/3 := by
    rw [mul_div_assoc', div_lt_iff₀ hb0]
    have := mul_le_mul_of_nonneg_left hbeta (by linarith : 0 ≤ i/3)
    have e : i/3*(9*K*eps + 6*K + 1) = 3*K*(i*eps) + 2*(i*K) + i/3 := by ring
    rw [e, hie] at this
    have := mul_pos hi hK
    linarith
  linarith

/-- the first Newton step of a fast, distant collision goes below the impact parameter -/
theorem first_step_below (V : InteractionPotential ℝ) (hV : Screened V) {eps : ℝ} (he : 5 < eps) :
    ∃ B, 0 < B ∧ ∀ beta, B ≤ beta → ∀ x0, 1/eps ≤ x0 → beta ≤ x0 → x0 - 1/eps - beta^2/x0 = 0 →
      nstep (screening_terms V) eps beta x0 < beta := by
  have h := screening_terms_pos V
  obtain ⟨K, hK, hk⟩ := expsum_decay _ h
  have he0 : 0 < eps := by linarith
  refine ⟨9*K*eps + 6*K + 1, by positivity, fun beta hbeta x0 h1 h2 h3 => ?_⟩
  have hb1 : 1 ≤ beta := by
    have : 0 < 9*K*eps + 6*K := by positivity
    linarith
  have hx0 : 0 < x0 := by linarith
  obtain ⟨k1, k2⟩ := hk x0 hx0
  have hi : 0 < 1/eps := by positivity
  have hi5 : 1/eps < 0.2 := by rw [div_lt_iff₀ he0]; linarith
  have hd := dclosest_ge_one h he0 beta x0
  have hc : closest (expsum (screening_terms V)) eps beta x0 = (1 - expsum (screening_terms V) x0)*(1/eps) := by
    unfold closest
    linear_combination h3
  have e3 : x0^2 - beta^2 = x0*(1/eps) := by
    have : beta^2 = (x0 - 1/eps)*x0 := by
      rw [sub_eq_zero] at h3
      rw [h3]; field_simp
    rw [this]; ring
  have hq := expsum_nonneg _ h x0
  have hdq := dexpsum_nonpos _ h x0
  generalize hf : expsum (screening_terms V) x0 = f at *
  generalize hdf : dexpsum (screening_terms V) x0 = d at *
  -- `x0 - beta` against the step
  have hle : x0 ≤ 2*beta := by
    by_contra hc
    push Not at hc
    have h4 : x0*(1/eps) ≤ x0*0.2 := mul_le_mul_of_nonneg_left hi5.le hx0.le
    nlinarith
  have hgap : (x0 - beta)*dclosest (dexpsum (screening_terms V)) eps beta x0 < (1 - f)*(1/eps) := by
    have hdd : dclosest (dexpsum (screening_terms V)) eps beta x0 = 2 - 1/eps/x0 - d*(1/eps) := by
      unfold dclosest
      rw [hdf]
      have : beta^2/x0^2 = 1 - 1/eps/x0 := by
        have e4 : beta^2 = x0^2 - x0*(1/eps) := by linarith
        rw [e4, sub_div, div_self (by positivity)]
        congr 1
        field_simp
      rw [this]
      ring
    rw [hdd]
    have hie : 1/eps*eps = 1 := by field_simp
    generalize 1/eps = i at *
    -- multiply by `x0 + beta`
    have hsum : 0 < x0 + beta := by linarith
    have goal1 : (x0 - beta)*(2 - i/x0 - d*i)*(x0 + beta) < (1 - f)*i*(x0 + beta) := by
      have l1 : (x0 - beta)*(2 - i/x0 - d*i)*(x0 + beta) = x0*i*(2 - i/x0 - d*i) := by
        rw [← e3]; ring
      have l2 : x0*i*(2 - i/x0 - d*i) = i*(2*x0 - i - d*i*x0) := by field_simp
      rw [l1, l2]
      have l3 : (1 - f)*i*(x0 + beta) = i*((1 - f)*(x0 + beta)) := by ring
      rw [l3]
      apply mul_lt_mul_of_pos_left _ hi
      exact gap_arith hi hK hie hbeta h2 hx0 hle e3 hq hdq k1 k2
    exact lt_of_mul_lt_mul_right goal1 hsum.le
  rw [← hc] at hgap
  unfold nstep
  have : x0 - beta < closest (expsum (screening_terms V)) eps beta x0/dclosest (dexpsum (screening_terms V)) eps beta x0 := by
    rw [lt_div_iff₀ (by linarith)]; exact hgap
  linarith

/-- **C93, refuted for MAGIC.** For every energy above a thousand times `Z1 Z2 e²/(4 π ε0 a)` (120 keV for hydrogen
on hydrogen), every potential MAGIC supports and all atoms there is a distance such that every collision with
a larger impact parameter fails: Newton's method stops below the impact parameter, MAGIC takes the arc cosine of a
number above 1 and the program reports that the angle is NaN. -/
theorem C93_refuted_magic (V : InteractionPotential ℝ) (hV : Screened V) (hj : V ≠ .LENZ_JENSEN)
    (Z1 Z2 m1 m2 E : ℝ) (hZ1 : 0 < Z1) (hZ2 : 0 < Z2) (hm1 : 0 < m1) (hm2 : 0 < m2)
    (hE : 1000*(coulombConstant Z1 Z2/screening_length Z1 Z2 V) ≤ E*m2/(m1 + m2)) :
    ∃ B : ℝ, ∀ p, B ≤ p → ∀ (rcpr : Rcpr XReal) (p1 p2 : Particle XReal) (g : BinaryCollisionGeometry XReal)
      (o : Options XReal), Encounter fin V.lift .MAGIC Z1 Z2 m1 m2 E p p1 p2 g o →
      calculate_binary_collision rcpr p1 p2 g o = .ok (.error "Numerical error: CoM deflection angle is NaN.") := by
  have hs := screening_length_pos V hV hZ1 hZ2
  have hk0 : 0 < coulombConstant Z1 Z2 := by
    unfold coulombConstant
    have := Real.pi_pos
    positivity
  have hEr : 0 < E*m2/(m1 + m2) := lt_of_lt_of_le (by positivity) hE
  have hE0 : 0 < E := by
    by_contra hc
    push Not at hc
    have : E*m2/(m1 + m2) ≤ 0 := by
      apply div_nonpos_of_nonpos_of_nonneg _ (by positivity)
      exact mul_nonpos_of_nonpos_of_nonneg hc hm2.le
    linarith
  have he := reduced_energy_pos V hV hZ1 hZ2 hEr
  have hre := reduced_energy_eq V hV Z1 Z2 (E*m2/(m1 + m2)) hZ1 hZ2
  have he1000 : 1000 ≤ reduced_energy Z1 Z2 (E*m2/(m1 + m2)) V := by
    rw [hre, le_div_iff₀ (by positivity)]; exact hE
  have h5 : 5 < reduced_energy Z1 Z2 (E*m2/(m1 + m2)) V := by linarith
  obtain ⟨B, hB0, hB⟩ := first_step_below V hV h5
  refine ⟨B*screening_length Z1 Z2 V, fun p hpB rcpr p1 p2 g o h => ?_⟩
  have hp : 0 < p := lt_of_lt_of_le (by positivity) hpB
  have hb : 0 < p/screening_length Z1 Z2 V := div_pos hp hs
  have hBb : B ≤ p/screening_length Z1 Z2 V := (le_div_iff₀ hs).2 hpB
  obtain ⟨x0, hx0⟩ : ∃ x0, x0 = newton_start (reduced_energy Z1 Z2 (E*m2/(m1 + m2)) V)
    (p/screening_length Z1 Z2 V) := ⟨_, rfl⟩
  have hx0p : 0 < x0 := by rw [hx0]; exact newton_start_pos he hb
  have hx0' := hx0
  rw [newton_start, if_pos h5] at hx0'
  obtain ⟨g1, g2, g3⟩ := start_high_facts h5 hb.le hx0'
  have hlow := hB _ hBb x0 g1 g2 g3
  obtain ⟨r, hr, hbr, hroot⟩ := closest_root' V hV he hb.le
  -- the first step is the last
  have hT := screening_terms_pos V
  have hsmall : (nstep (screening_terms V) (reduced_energy Z1 Z2 (E*m2/(m1 + m2)) V) (p/screening_length Z1 Z2 V) x0
      - x0)^2 < 1e-6 := by
    have hse := step_eq hT he (p/screening_length Z1 Z2 V) x0
    have hd := dclosest_ge_one hT he (p/screening_length Z1 Z2 V) x0
    have hi : 1/reduced_energy Z1 Z2 (E*m2/(m1 + m2)) V ≤ 1e-3 := by
      rw [div_le_iff₀ he]; linarith
    have hi0 : 0 < 1/reduced_energy Z1 Z2 (E*m2/(m1 + m2)) V := by positivity
    have hc : closest (expsum (screening_terms V)) (reduced_energy Z1 Z2 (E*m2/(m1 + m2)) V)
        (p/screening_length Z1 Z2 V) x0
        = (1 - expsum (screening_terms V) x0)*(1/reduced_energy Z1 Z2 (E*m2/(m1 + m2)) V) := by
      unfold closest
      linear_combination g3
    have hf := expsum_pos _ hT (screening_terms_ne V hV) x0
    have hf0 : 0 < expsum (screening_terms V) x0*(1/reduced_energy Z1 Z2 (E*m2/(m1 + m2)) V) := by positivity
    have hlt : closest (expsum (screening_terms V)) (reduced_energy Z1 Z2 (E*m2/(m1 + m2)) V)
        (p/screening_length Z1 Z2 V) x0 < 1e-3 := by rw [hc]; linarith
    have hnn : 0 ≤ x0 - nstep (screening_terms V) (reduced_energy Z1 Z2 (E*m2/(m1 + m2)) V)
        (p/screening_length Z1 Z2 V) x0 := by linarith
    have k := le_mul_of_one_le_right hnn hd
    have k2 : x0 - nstep (screening_terms V) (reduced_energy Z1 Z2 (E*m2/(m1 + m2)) V)
        (p/screening_length Z1 Z2 V) x0 < 1e-3 := by linarith
    have := mul_self_lt_mul_self hnn k2
    have e : (nstep (screening_terms V) (reduced_energy Z1 Z2 (E*m2/(m1 + m2)) V) (p/screening_length Z1 Z2 V) x0
      - x0)^2 = (x0 - nstep (screening_terms V) (reduced_energy Z1 Z2 (E*m2/(m1 + m2)) V)
        (p/screening_length Z1 Z2 V) x0)*(x0 - nstep (screening_terms V) (reduced_energy Z1 Z2 (E*m2/(m1 + m2)) V)
        (p/screening_length Z1 Z2 V) x0) := by ring
    rw [e]
    linarith
  obtain ⟨k, hk, run, _⟩ := newton_finds V hV Z1 Z2 m1 m2 E p hZ1 hZ2 hm1 hm2 100 0 1e-6 (by norm_num) x0 hx0 hsmall
  obtain rfl : k = 0 := by omega
  have ex : nseq (screening_terms V) (reduced_energy Z1 Z2 (E*m2/(m1 + m2)) V)
          (p/screening_length Z1 Z2 V) x0 (0 + 1) = nstep (screening_terms V)
          (reduced_energy Z1 Z2 (E*m2/(m1 + m2)) V) (p/screening_length Z1 Z2 V) x0 := rfl
  rw [ex] at run
  generalize nstep (screening_terms V) (reduced_energy Z1 Z2 (E*m2/(m1 + m2)) V) (p/screening_length Z1 Z2 V) x0 = x
    at run hlow
  obtain ⟨a1, a2⟩ := newton_accurate V hV Z1 Z2 m1 m2 E p hZ1 hZ2 hm1 hm2 hE0 100 1e-6 x le_rfl hp run r hr hroot
  have hx : 0 < x := lt_of_lt_of_le (by positivity) a1
  have hdist : distance_of_closest_approach rcpr p1 p2 g o = .ok (fin x) := by
    rw [distance_fin rcpr p1 p2 g o V hV _ h hm1 hm2 hE0.le, newton_fin V hV hZ1 hZ2 hm1 hm2 hE0 hp run]
    rfl
  have hang : scattering_angle .MAGIC (fin Z1) (fin Z2) (fin m1) (fin m2) (fin E) (fin p) (fin x) V.lift
      = .ok nan := by
    obtain ⟨c0, c1, c2, c3, c4, hc, hc', h0, h2, h3, h4, h34⟩ := magic_table V hV hj
    have hR := magicR_ge V hV he hx hroot a2 a1
    have hK1 := magicK_lt_one c0 c1 c2 c3 c4 _ (p/screening_length Z1 Z2 V) h3 h4 h34 he
    have hRx : x + magicR V (reduced_energy Z1 Z2 (E*m2/(m1 + m2)) V) x ≠ 0 := by linarith
    obtain ⟨_, q2⟩ := magic_last V hV c0 c1 c2 c3 c4 hc hc' h2 h3 h4 hZ1 hZ2 hm1 hm2 hE0 hp hx _ _ _ _ hre rfl rfl
      rfl hRx
    rw [q2]
    generalize magicR V (reduced_energy Z1 Z2 (E*m2/(m1 + m2)) V) x = R at *
    generalize magicK c0 c1 c2 c3 c4 (reduced_energy Z1 Z2 (E*m2/(m1 + m2)) V) (p/screening_length Z1 Z2 V) = K at *
    generalize p/screening_length Z1 Z2 V = b at *
    have hd : 0 < x + R := by linarith
    have b1 : ¬ (-1 ≤ (b + R + K*(x - b))/(x + R) ∧ (b + R + K*(x - b))/(x + R) ≤ 1) := by
      rintro ⟨_, hle⟩
      rw [div_le_one hd] at hle
      nlinarith
    have : Scalar.acos (fin ((b + R + K*(x - b))/(x + R))) = nan := if_neg b1
    rw [this, mul_nan]
  obtain ⟨row, hrow, hcell⟩ := h.potential
  obtain ⟨row', hrow', hcell'⟩ := h.integral
  unfold calculate_binary_collision
  simp only [vget, hrow, hcell, hrow', hcell', hdist, bind, Except.bind, h.Z1_eq, h.Z2_eq, h.m1_eq, h.m2_eq, h.E_eq,
    h.p_eq, hang]
  rfl

end RustBCA
