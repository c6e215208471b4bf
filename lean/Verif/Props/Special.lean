import Verif.Proofs.SpecialMagic

/-!
# C93: collisions produce numbers
-/

namespace RustBCA
open Scalar Spec

set_option linter.unusedSimpArgs false

namespace XReal

theorem distance_fin (rcpr : Rcpr XReal) (p1 p2 : Particle XReal) (g : BinaryCollisionGeometry XReal)
    (o : Options XReal) (V : InteractionPotential ℝ) (hV : Screened V) (si : ScatteringIntegral)
    {Z1 Z2 m1 m2 E p : ℝ} (h : Encounter fin V.lift si Z1 Z2 m1 m2 E p p1 p2 g o)
    (hm1 : 0 < m1) (hm2 : 0 < m2) (hE : 0 ≤ E) :
    distance_of_closest_approach rcpr p1 p2 g o =
      (newton_rootfinder (fin Z1) (fin Z2) (fin m1) (fin m2) (fin E) (fin p) V.lift 100 (fin 1e-6) >>= unwrapA) := by
  obtain ⟨row, hrow, hcell⟩ := h.potential
  have hM : m1 + m2 ≠ 0 := by positivity
  have hEr : 0 ≤ E*m2/(m1 + m2) := by positivity
  have hb : (fin E*fin m2/(fin m1 + fin m2) <. energy_threshold_single_root V.lift) = false := by
    have h0 : energy_threshold_single_root V.lift = fin 0.0 := by cases hV <;> rfl
    rw [h0, fin_mul, fin_add, fin_div hM, fin_lt, decide_eq_false_iff_not]
    norm_num
    exact hEr
  unfold distance_of_closest_approach
  simp only [vget, hrow, hcell, bind, Except.bind, h.Z1_eq, h.Z2_eq, h.m1_eq, h.m2_eq, h.E_eq, h.p_eq]
  simp only [hb, Bool.false_eq_true, if_false]
  cases hV <;> rfl

theorem cos_twelve {n : ℕ} (h0 : 0 < n) (hn : n ≤ 12) : Real.cos (Real.pi/(4*n)) < 0.998 := by
  have hpi := Real.pi_gt_d4
  have hpi' := Real.pi_lt_d2
  have hn0 : (0:ℝ) < n := by exact_mod_cast h0
  have hn' : (n:ℝ) ≤ 12 := by exact_mod_cast hn
  have h1 : 0.0654 ≤ Real.pi/(4*n) := by
    rw [le_div_iff₀ (by positivity)]; nlinarith
  have h2 : Real.pi/(4*n) ≤ Real.pi := div_le_self Real.pi_pos.le (by
    have : (1:ℝ) ≤ n := by exact_mod_cast h0
    linarith)
  have h3 := Real.cos_le_cos_of_nonneg_of_le_pi (by norm_num) h2 h1
  have h4 := Real.cos_bound (x := 0.0654) (by rw [abs_of_nonneg] <;> norm_num)
  have h5 := (abs_le.1 h4).2
  rw [abs_of_nonneg (by norm_num)] at h5
  norm_num at h5 ⊢
  linarith

/-- the constants of MAGIC -/
theorem magic_table (V : InteractionPotential ℝ) (hV : Screened V) (hl : V ≠ .LENZ_JENSEN) :
    ∃ c0 c1 c2 c3 c4 : ℝ, magic_constants V = .ok (c0, c1, c2, c3, c4) ∧
      magic_constants V.lift = .ok (fin c0, fin c1, fin c2, fin c3, fin c4) ∧
      0 ≤ c0 ∧ 0 < c2 ∧ 0 < c3 ∧ 0 < c4 ∧ c4 ≤ 1.6*c3 := by
  cases hV with
  | lenz_jensen => exact absurd rfl hl
  | _ => exact ⟨_, _, _, _, _, rfl, rfl, by norm_num, by norm_num, by norm_num, by norm_num, by norm_num⟩

/-- MAGIC, from a point between the impact parameter and the turning point -/
theorem magic_fin (V : InteractionPotential ℝ) (hV : Screened V) (hl : V ≠ .LENZ_JENSEN)
    {Za Zb Ma Mb E0 p x0 r : ℝ} (hA : 0 < Za) (hB : 0 < Zb) (hMa : 0 < Ma) (hMb : 0 < Mb) (hE : 0 < E0) (hp : 0 < p)
    (hroot : closest (expsum (screening_terms V)) (reduced_energy Za Zb (E0*Mb/(Ma + Mb)) V)
      (p/screening_length Za Zb V) r = 0) (hx0 : 0 < x0) (hxr : x0 ≤ r) (hrx : 0.998*r ≤ x0)
    (hb : p/screening_length Za Zb V ≤ x0) :
    ∃ theta, scattering_angle .MAGIC Za Zb Ma Mb E0 p x0 V = .ok theta ∧
      scattering_angle .MAGIC (fin Za) (fin Zb) (fin Ma) (fin Mb) (fin E0) (fin p) (fin x0) V.lift
        = .ok (fin theta) := by
  obtain ⟨c0, c1, c2, c3, c4, hc, hc', h0, h2, h3, h4, h34⟩ := magic_table V hV hl
  have hs := screening_length_pos V hV hA hB
  have hre := reduced_energy_eq V hV Za Zb (E0*Mb/(Ma + Mb)) hA hB
  have hEr : 0 < E0*Mb/(Ma + Mb) := by positivity
  have he := reduced_energy_pos V hV hA hB hEr
  have hR := magicR_ge V hV he hx0 hroot hxr hrx
  have hB0 : 0 < p/screening_length Za Zb V := by positivity
  have hK1 := magicK_lt_one c0 c1 c2 c3 c4 _ (p/screening_length Za Zb V) h3 h4 h34 he
  have hK0 := magicK_nonneg c0 c1 c2 c3 c4 _ (p/screening_length Za Zb V) h0 h3 h4 he hB0
  have hRx : x0 + magicR V (reduced_energy Za Zb (E0*Mb/(Ma + Mb)) V) x0 ≠ 0 := by linarith
  obtain ⟨g1, g2⟩ := magic_last V hV c0 c1 c2 c3 c4 hc hc' h2 h3 h4 hA hB hMa hMb hE hp hx0 _ _ _ _ hre rfl rfl rfl hRx
  rw [g1, g2]
  generalize magicR V (reduced_energy Za Zb (E0*Mb/(Ma + Mb)) V) x0 = R at *
  generalize magicK c0 c1 c2 c3 c4 (reduced_energy Za Zb (E0*Mb/(Ma + Mb)) V) (p/screening_length Za Zb V) = K at *
  generalize p/screening_length Za Zb V = B at *
  have hd : 0 < x0 + R := by linarith
  have b1 : (B + R + K*(x0 - B))/(x0 + R) ≤ 1 := by
    rw [div_le_one hd]; nlinarith
  have b2 : -1 ≤ (B + R + K*(x0 - B))/(x0 + R) := by
    rw [le_div_iff₀ hd]; nlinarith [mul_nonneg hK0 (by linarith : 0 ≤ x0 - B)]
  rw [fin_acos b2 b1]
  exact ⟨_, rfl, rfl⟩

/-- the result record -/
theorem result_fin (V : InteractionPotential ℝ) (hV : Screened V) {Ma Mb : ℝ} (E0 a x0 theta : ℝ) (hMa : 0 < Ma)
    (hMb : 0 < Mb) : collision_result (fin Ma) (fin Mb) (fin E0) (fin a) (fin x0) (fin theta) V.lift =
      { theta := fin (collision_result Ma Mb E0 a x0 theta V).theta
        psi := fin (collision_result Ma Mb E0 a x0 theta V).psi
        psi_recoil := fin (collision_result Ma Mb E0 a x0 theta V).psi_recoil
        recoil_energy := fin (collision_result Ma Mb E0 a x0 theta V).recoil_energy
        asymptotic_deflection := fin (collision_result Ma Mb E0 a x0 theta V).asymptotic_deflection
        normalized_distance_of_closest_approach :=
          fin (collision_result Ma Mb E0 a x0 theta V).normalized_distance_of_closest_approach } := by
  have h2 : (2.0:ℝ) ≠ 0 := by norm_num
  have hM : (Ma + Mb)^(2:ℤ) ≠ 0 := zpow_ne_zero _ (by positivity)
  cases hV <;> simp only [collision_result, InteractionPotential.lift, fin_lit, fin_sin, fin_cos, fin_div hMb.ne',
    fin_add, fin_sub, fin_mul, fin_atan2, fin_abs, fin_div h2, fin_powi (Or.inl (by norm_num : (0:ℤ) ≤ 2)),
    fin_div hM] <;> rfl

/-- assembling a collision -/
theorem collision_fin (rcpr : Rcpr XReal) (p1 p2 : Particle XReal) (g : BinaryCollisionGeometry XReal)
    (o : Options XReal) (V : InteractionPotential ℝ) (hV : Screened V) (si : ScatteringIntegral)
    {Z1 Z2 m1 m2 E p x theta : ℝ} (h : Encounter fin V.lift si Z1 Z2 m1 m2 E p p1 p2 g o)
    (hZ1 : 0 < Z1) (hZ2 : 0 < Z2) (hm1 : 0 < m1) (hm2 : 0 < m2)
    (hx : distance_of_closest_approach rcpr p1 p2 g o = .ok (fin x))
    (ht : scattering_angle si (fin Z1) (fin Z2) (fin m1) (fin m2) (fin E) (fin p) (fin x) V.lift = .ok (fin theta)) :
    calculate_binary_collision rcpr p1 p2 g o = .ok (.ok (collision_result (fin m1) (fin m2) (fin E)
      (fin (screening_length Z1 Z2 V)) (fin x) (fin theta) V.lift)) := by
  obtain ⟨row, hrow, hcell⟩ := h.potential
  obtain ⟨row', hrow', hcell'⟩ := h.integral
  unfold calculate_binary_collision
  simp only [vget, hrow, hcell, hrow', hcell', hx, bind, Except.bind, h.Z1_eq, h.Z2_eq, h.m1_eq, h.m2_eq, h.E_eq,
    h.p_eq, ht, fin_isNaN, Bool.false_eq_true, if_false, screening_length_fin V hV hZ1 hZ2]
  rfl

theorem collision_real (rcpr : Rcpr ℝ) (p1 p2 : Particle ℝ) (g : BinaryCollisionGeometry ℝ)
    (o : Options ℝ) (V : InteractionPotential ℝ) (si : ScatteringIntegral)
    {Z1 Z2 m1 m2 E p x theta : ℝ} (h : Encounter id V si Z1 Z2 m1 m2 E p p1 p2 g o)
    (hx : distance_of_closest_approach rcpr p1 p2 g o = .ok x)
    (ht : scattering_angle si Z1 Z2 m1 m2 E p x V = .ok theta) :
    calculate_binary_collision rcpr p1 p2 g o = .ok (.ok (collision_result m1 m2 E
      (screening_length Z1 Z2 V) x theta V)) := by
  obtain ⟨row, hrow, hcell⟩ := h.potential
  obtain ⟨row', hrow', hcell'⟩ := h.integral
  unfold calculate_binary_collision
  simp only [vget, hrow, hcell, hrow', hcell', hx, bind, Except.bind, h.Z1_eq, h.Z2_eq, h.m1_eq, h.m2_eq, h.E_eq,
    h.p_eq, id, ht, isNaN_real, Bool.false_eq_true, if_false]
  rfl

end XReal

open XReal

/-- For a slow collision the result of the root finder is not below the impact parameter. -/
theorem newton_above_impact (V : InteractionPotential ℝ) (hV : Screened V) (Za Zb Ma Mb E0 p : ℝ)
    (hA : 0 < Za) (hB : 0 < Zb) (hMa : 0 < Ma) (hMb : 0 < Mb) (hE : 0 < E0) (hp : 0 < p) (n : ℕ) (tol x : ℝ)
    (h5 : reduced_energy Za Zb (E0*Mb/(Ma + Mb)) V ≤ 5)
    (run : newton_rootfinder Za Zb Ma Mb E0 p V n tol = .ok (.ok x)) : p/screening_length Za Zb V ≤ x := by
  have hs := screening_length_pos V hV hA hB
  have h := screening_terms_pos V
  have hl := screening_terms_ne V hV
  have he := reduced_energy_pos V hV hA hB (by positivity : 0 < E0*Mb/(Ma + Mb))
  have hb : 0 < p/screening_length Za Zb V := div_pos hp hs
  obtain ⟨x0, hx0⟩ : ∃ x0, x0 = newton_start (reduced_energy Za Zb (E0*Mb/(Ma + Mb)) V)
    (p/screening_length Za Zb V) := ⟨_, rfl⟩
  obtain ⟨k, rfl, hsm⟩ := newton_result V hV Za Zb Ma Mb E0 p hA hB hMa hMb n tol x run x0 hx0
  have hx0p : 0 < x0 := by rw [hx0]; exact newton_start_pos he hb
  obtain ⟨r, hr, hbr, hroot⟩ := closest_root' V hV he hb.le
  rw [newton_start, if_neg (not_lt.2 h5)] at hx0
  have hle : ∀ n, nseq (screening_terms V) (reduced_energy Za Zb (E0*Mb/(Ma + Mb)) V)
      (p/screening_length Za Zb V) x0 n ≤ r := by
    intro n
    cases n with
    | zero => rw [hx0] at *; exact hbr.le
    | succ n => exact nseq_le_root h hl he _ hx0p hr hroot n
  have hge : ∀ n, p/screening_length Za Zb V ≤ nseq (screening_terms V)
      (reduced_energy Za Zb (E0*Mb/(Ma + Mb)) V) (p/screening_length Za Zb V) x0 n := by
    intro n
    induction n with
    | zero => exact hx0.ge
    | succ n ih => exact ih.trans (nstep_ge h he _ (lt_of_lt_of_le hb ih) (hle n) hroot)
  exact hge (k + 1)

/-- **C93.** In a collision with a screened potential no infinity and no NaN appears, and nothing panics.
For all positive charges and masses, every positive impact parameter, every centre-of-mass energy of
at least `10^-25 Z1 Z2 e²/(4 π ε0 a)`, and whatever root finder the options name, `calculate_binary_collision`
over numbers with the special values of IEEE 754 returns six real numbers.  The distance is at most the
turning point and within 0.2 per cent of it, the angles in the laboratory lie between 0 and pi, the transferred
energy between 0 and its kinematic maximum, and the model over the real numbers computes the same six
numbers.  This holds for Mendenhall-Weller, Gauss-Legendre, Gauss-Mehler with up to twelve points and, up to
five times the unit of energy, for MAGIC. -/
theorem C93_collision_partial (rcpr : Rcpr XReal) (p1 p2 : Particle XReal) (g : BinaryCollisionGeometry XReal)
    (o : Options XReal) (V : InteractionPotential ℝ) (hV : Screened V) (si : ScatteringIntegral)
    (Z1 Z2 m1 m2 E p : ℝ) (h : Encounter fin V.lift si Z1 Z2 m1 m2 E p p1 p2 g o)
    (hZ1 : 0 < Z1) (hZ2 : 0 < Z2) (hm1 : 0 < m1) (hm2 : 0 < m2) (hp : 0 < p)
    (hE : 1e-25*(coulombConstant Z1 Z2/screening_length Z1 Z2 V) ≤ E*m2/(m1 + m2))
    (hsi : si = .MENDENHALL_WELLER ∨ si = .GAUSS_LEGENDRE ∨ (∃ n, n ≤ 12 ∧ si = .GAUSS_MEHLER n) ∨
      (si = .MAGIC ∧ V ≠ .LENZ_JENSEN ∧ E*m2/(m1 + m2) ≤ 5*(coulombConstant Z1 Z2/screening_length Z1 Z2 V))) :
    ∃ theta psi psi' T d x : ℝ, calculate_binary_collision rcpr p1 p2 g o = .ok (.ok
        { theta := fin theta
          psi := fin psi
          psi_recoil := fin psi'
          recoil_energy := fin T
          asymptotic_deflection := fin d
          normalized_distance_of_closest_approach := fin x }) ∧
      0 < x ∧ (∀ U : ℝ → ℝ, (∀ r, interaction_potential r (screening_length Z1 Z2 V) Z1 Z2 V = .ok (U r)) →
        ∀ r, 0 < r → TurningPoint (U r) (E*m2/(m1 + m2)) p r →
          0.998*r ≤ x*screening_length Z1 Z2 V ∧ x*screening_length Z1 Z2 V ≤ r) ∧
      0 ≤ psi ∧ psi ≤ Real.pi ∧ 0 ≤ psi' ∧ psi' ≤ Real.pi ∧
      0 ≤ T ∧ T ≤ 4*m1*m2/(m1 + m2)^2*E ∧
      ∀ (rcpr : Rcpr ℝ) (q1 q2 : Particle ℝ) (g : BinaryCollisionGeometry ℝ) (o : Options ℝ),
        Encounter id V si Z1 Z2 m1 m2 E p q1 q2 g o →
        calculate_binary_collision rcpr q1 q2 g o = .ok (.ok
          { theta := theta
            psi := psi
            psi_recoil := psi'
            recoil_energy := T
            asymptotic_deflection := d
            normalized_distance_of_closest_approach := x }) := by
  have hs := screening_length_pos V hV hZ1 hZ2
  have hk0 : 0 < coulombConstant Z1 Z2 := by
    unfold coulombConstant
    have := Real.pi_pos
    positivity
  have hEr : 0 < E*m2/(m1 + m2) := lt_of_lt_of_le (by positivity) hE
  have hE0 : 0 < E := by
    by_contra hc
    push Not at hc
    have : E*m2/(m1 + m2) ≤ 0 := by
      apply div_nonpos_of_nonpos_of_nonneg _ (by positivity)
      exact mul_nonpos_of_nonpos_of_nonneg hc hm2.le
    linarith
  have he := reduced_energy_pos V hV hZ1 hZ2 hEr
  have hb : 0 < p/screening_length Z1 Z2 V := div_pos hp hs
  obtain ⟨x, run⟩ := (C92_newton_succeeds V hV Z1 Z2 m1 m2 E p hZ1 hZ2 hm1 hm2 1e-6 le_rfl 100).1 hp hE le_rfl
  obtain ⟨r, hr, hbr, hroot⟩ := closest_root' V hV he hb.le
  obtain ⟨a1, a2⟩ := newton_accurate V hV Z1 Z2 m1 m2 E p hZ1 hZ2 hm1 hm2 hE0 100 1e-6 x le_rfl hp run r hr hroot
  have hx : 0 < x := lt_of_lt_of_le (by positivity) a1
  have hdist : distance_of_closest_approach rcpr p1 p2 g o = .ok (fin x) := by
    rw [distance_fin rcpr p1 p2 g o V hV si h hm1 hm2 hE0.le, newton_fin V hV hZ1 hZ2 hm1 hm2 hE0 hp run]
    rfl
  obtain ⟨theta, ht, ht'⟩ : ∃ theta, scattering_angle si Z1 Z2 m1 m2 E p x V = .ok theta ∧
      scattering_angle si (fin Z1) (fin Z2) (fin m1) (fin m2) (fin E) (fin p) (fin x) V.lift = .ok (fin theta) := by
    rcases hsi with rfl | rfl | ⟨n, hn, rfl⟩ | ⟨rfl, hl, h5⟩
    · exact mw_fin V hV hZ1 hZ2 hm1 hm2 hE0 hr hroot (by linarith)
    · exact gl_fin V hV hZ1 hZ2 hm1 hm2 hE0 hr hroot (by linarith)
    · exact gm_fin V hV hZ1 hZ2 hm1 hm2 hE0 hr hroot hx
        (fun h0 => lt_of_lt_of_le (mul_lt_mul_of_pos_right (cos_twelve h0 hn) hr) a1)
    · refine magic_fin V hV hl hZ1 hZ2 hm1 hm2 hE0 hp hroot hx a2 a1
        (newton_above_impact V hV Z1 Z2 m1 m2 E p hZ1 hZ2 hm1 hm2 hE0 hp 100 1e-6 x ?_ run)
      rw [reduced_energy_eq V hV Z1 Z2 _ hZ1 hZ2, div_le_iff₀ (by positivity)]
      exact h5
  refine ⟨_, _, _, _, _, _, (collision_fin rcpr p1 p2 g o V hV si h hZ1 hZ2 hm1 hm2 hdist ht').trans
    (congrArg (fun r => Except.ok (Except.ok r)) (result_fin V hV E (screening_length Z1 Z2 V) x theta hm1 hm2)),
    hx, ?_, abs_nonneg _, Complex.abs_arg_le_pi _, abs_nonneg _, Complex.abs_arg_le_pi _, ?_, ?_, ?_⟩
  · intro U hU r hr ht
    exact C92_accuracy V hV Z1 Z2 m1 m2 E p hZ1 hZ2 hm1 hm2 hE0 hp 100 1e-6 x le_rfl run U hU r hr ht
  · show 0 ≤ 4.0*(m1*m2)/(m1 + m2)^(2:ℤ)*E*(Real.sin (theta/2.0))^(2:ℤ)
    rw [show (2 : ℤ) = ((2 : ℕ) : ℤ) from rfl, zpow_natCast, zpow_natCast]
    positivity
  · show 4.0*(m1*m2)/(m1 + m2)^(2:ℤ)*E*(Real.sin (theta/2.0))^(2:ℤ) ≤ _
    rw [show (2 : ℤ) = ((2 : ℕ) : ℤ) from rfl, zpow_natCast, zpow_natCast, show (4.0:ℝ) = 4 by norm_num,
      mul_assoc (4:ℝ) m1 m2]
    exact mul_le_of_le_one_right (by positivity) (Real.sin_sq_le_one _)
  · intro rcpr q1 q2 g o h'
    obtain ⟨row, hrow, hcell⟩ := h'.potential
    refine collision_real rcpr q1 q2 g o V si h' ?_ ht
    have e1 : q1.Z = Z1 := h'.Z1_eq
    have e2 : q2.Z = Z2 := h'.Z2_eq
    have e3 : q1.m = m1 := h'.m1_eq
    have e4 : q2.m = m2 := h'.m2_eq
    have e5 : q1.E = E := h'.E_eq
    have e6 : g.impact_parameter = p := h'.p_eq
    rw [C21_distance_of_closest_approach rcpr q1 q2 g o row V hV hrow hcell (by rw [e5]; exact hE0.le)
      (by rw [e3]; exact hm1) (by rw [e4]; exact hm2), e1, e2, e3, e4, e5, e6, run]
    rfl

end RustBCA
