import Verif.Proofs.SpecialCollision
import Verif.Props.Deflection

/-! # Quadratures over numbers with special values (helper lemmas) -/

namespace RustBCA
open Scalar Spec

set_option linter.unusedSimpArgs false

namespace XReal

/-- the screened potential, as a function of the distance -/
noncomputable def screenedEnergy (V : InteractionPotential ℝ) (Za Zb a r : ℝ) : ℝ :=
  Za*Zb*Q ℝ*Q ℝ/4.0/Real.pi/EPS0 ℝ/r*expsum (screening_terms V) (r/a)

theorem potential_fin (V : InteractionPotential ℝ) (hV : Screened V) {r a Za Zb : ℝ} (hr : r ≠ 0) (ha : a ≠ 0) :
    interaction_potential (fin r) (fin a) (fin Za) (fin Zb) V.lift = .ok (fin (screenedEnergy V Za Zb a r)) := by
  have h := phi_fin V hV (r/a)
  have h4 : (4.0:ℝ) ≠ 0 := by norm_num
  have hpi := Real.pi_ne_zero
  have he := EPS0_pos.ne'
  cases hV <;> simp only [InteractionPotential.lift, interaction_potential, screened_coulomb] at h ⊢ <;>
    simp only [fin_div ha, h, bind, Except.bind, pure, Except.pure] <;>
    simp only [Q_fin, EPS0_fin, fin_lit, fin_pi, fin_mul, fin_div h4, fin_div hpi, fin_div he, fin_div hr] <;>
    rfl

theorem potential_real (V : InteractionPotential ℝ) (hV : Screened V) (r a Za Zb : ℝ) :
    interaction_potential r a Za Zb V = .ok (screenedEnergy V Za Zb a r) := by
  rw [potential_screened V hV, screenedEnergy, show (4.0:ℝ) = 4 by norm_num]

/-- beyond the turning point there is kinetic energy left, in physical units -/
theorem radial_pos (V : InteractionPotential ℝ) (hV : Screened V) {Za Zb Er p R r : ℝ} (hA : 0 < Za) (hB : 0 < Zb)
    (hE : 0 < Er) (hr : 0 < r)
    (hroot : closest (expsum (screening_terms V)) (reduced_energy Za Zb Er V) (p/screening_length Za Zb V) r = 0)
    (hR : r*screening_length Za Zb V < R) :
    0 < 1 - screenedEnergy V Za Zb (screening_length Za Zb V) R/Er - p^2/R^2 := by
  have hs := screening_length_pos V hV hA hB
  have hR0 : 0 < R := lt_trans (by positivity) hR
  have he := reduced_energy_pos V hV hA hB hE
  have h1 : r < R/screening_length Za Zb V := (lt_div_iff₀ hs).2 hR
  have h2 := closest_strictMono (screening_terms_pos V) he (p/screening_length Za Zb V) hr (hr.trans h1) h1
  rw [hroot, closest_eq V hV hA hB hE hR0] at h2
  rw [screenedEnergy, show (4.0:ℝ) = 4 by norm_num]
  exact (mul_pos_iff_of_pos_left (by positivity)).1 h2

theorem radial_neg (V : InteractionPotential ℝ) (hV : Screened V) {Za Zb Er p R r : ℝ} (hA : 0 < Za) (hB : 0 < Zb)
    (hE : 0 < Er) (hR0 : 0 < R)
    (hroot : closest (expsum (screening_terms V)) (reduced_energy Za Zb Er V) (p/screening_length Za Zb V) r = 0)
    (hR : R < r*screening_length Za Zb V) :
    1 - screenedEnergy V Za Zb (screening_length Za Zb V) R/Er - p^2/R^2 < 0 := by
  have hs := screening_length_pos V hV hA hB
  have he := reduced_energy_pos V hV hA hB hE
  have h1 : R/screening_length Za Zb V < r := (div_lt_iff₀ hs).2 hR
  have h0 : 0 < R/screening_length Za Zb V := by positivity
  have h2 := closest_strictMono (screening_terms_pos V) he (p/screening_length Za Zb V) h0 (h0.trans h1) h1
  rw [hroot, closest_eq V hV hA hB hE hR0] at h2
  rw [screenedEnergy, show (4.0:ℝ) = 4 by norm_num]
  exact neg_of_mul_neg_right h2 h0.le

theorem gm_term_fin {u p r0 E v : ℝ} (hr : 0 < r0) (hu : u ≠ 0) (hE : E ≠ 0)
    (U : ℝ → Res ℝ) (U' : XReal → Res XReal) (hU : U (r0/u) = .ok v) (hU' : U' (fin (r0/u)) = .ok (fin v))
    (h : 0 < 1 - v/E - (p*u/r0)^2) :
    ∃ g, scattering_function_gm u p r0 E U = .ok (.ok g) ∧
      scattering_function_gm (fin u) (fin p) (fin r0) (fin E) U' = .ok (.ok (fin g)) := by
  have hz : (1.0:ℝ) - v/E - (p*u/r0)^(2:ℤ) = 1 - v/E - (p*u/r0)^2 := by
    rw [show (2 : ℤ) = ((2 : ℕ) : ℤ) from rfl, zpow_natCast, show (1.0 : ℝ) = 1 by norm_num]
  have hq : 0 ≤ (1.0:ℝ) - v/E - (p*u/r0)^(2:ℤ) := by rw [hz]; exact h.le
  have hq' : Real.sqrt (1.0 - v/E - (p*u/r0)^(2:ℤ)) ≠ 0 := by rw [hz]; exact (Real.sqrt_pos.2 h).ne'
  unfold scattering_function_gm
  simp only [hU, fin_div hu, hU', bind, Except.bind, pure, Except.pure]
  simp only [fin_lit, fin_div hE, fin_mul, fin_div hr.ne', fin_powi (Or.inl (by norm_num : (0:ℤ) ≤ 2)), fin_sub,
    fin_sqrt hq, fin_div hq', fin_isNaN, isNaN_real, Bool.false_eq_true, if_false]
  exact ⟨_, rfl, rfl⟩

theorem gl_term_fin {u p r0 E v : ℝ} (hr : 0 < r0) (hu : 1 - u*u ≠ 0) (hE : E ≠ 0)
    (U : ℝ → Res ℝ) (U' : XReal → Res XReal) (hU : U (r0/(1 - u*u)) = .ok v)
    (hU' : U' (fin (r0/(1 - u*u))) = .ok (fin v)) (h : 0 < 1 - v/E - p^2/(r0/(1 - u*u))^2) :
    ∃ g, scattering_function_gl u p r0 E U = .ok (.ok g) ∧
      scattering_function_gl (fin u) (fin p) (fin r0) (fin E) U' = .ok (.ok (fin g)) := by
  have e1 : (1.0:ℝ) - u*u = 1 - u*u := by norm_num
  have hz : (1.0:ℝ) - v/E - p*p*(1.0 - u*u)^(2:ℤ)/r0/r0 = 1 - v/E - p^2/(r0/(1 - u*u))^2 := by
    rw [show (2 : ℤ) = ((2 : ℕ) : ℤ) from rfl, zpow_natCast, show (1.0 : ℝ) = 1 by norm_num]
    field_simp
  have hq : 0 ≤ (1.0:ℝ) - v/E - p*p*(1.0 - u*u)^(2:ℤ)/r0/r0 := by rw [hz]; exact h.le
  have hq' : r0*Real.sqrt (1.0 - v/E - p*p*(1.0 - u*u)^(2:ℤ)/r0/r0) ≠ 0 := by
    rw [hz]; exact (mul_pos hr (Real.sqrt_pos.2 h)).ne'
  unfold scattering_function_gl
  rw [← e1] at hU hU' hu
  simp only [hU, fin_lit, fin_mul, fin_sub, fin_div hu, hU', bind, Except.bind, pure, Except.pure]
  simp only [fin_lit, fin_div hE, fin_mul, fin_div hr.ne', fin_powi (Or.inl (by norm_num : (0:ℤ) ≤ 2)), fin_sub,
    fin_sqrt hq, fin_div hq', fin_isNaN, isNaN_real, Bool.false_eq_true, if_false]
  exact ⟨_, rfl, rfl⟩

theorem quadrature_fin (g : ℝ → Res (Anyhow ℝ)) (g' : XReal → Res (Anyhow XReal)) (nodes : List (ℝ × ℝ))
    (h : ∀ xw ∈ nodes, ∃ v, g xw.1 = .ok (.ok v) ∧ g' (fin xw.1) = .ok (.ok (fin v))) :
    ∃ s, quadrature g nodes = .ok s ∧
      quadrature g' (nodes.map fun xw => (fin xw.1, fin xw.2)) = .ok (fin s) := by
  unfold quadrature
  have key : ∀ (nodes : List (ℝ × ℝ)) (acc : ℝ),
      (∀ xw ∈ nodes, ∃ v, g xw.1 = .ok (.ok v) ∧ g' (fin xw.1) = .ok (.ok (fin v))) →
      ∃ s, forFold (fun acc (xw : ℝ × ℝ) => do
        let r ← g xw.1
        let v ← unwrapA r
        pure (acc + xw.2*v)) nodes acc = (.ok s : Res ℝ) ∧
        forFold (fun acc (xw : XReal × XReal) => do
        let r ← g' xw.1
        let v ← unwrapA r
        pure (acc + xw.2*v)) (nodes.map fun xw => (fin xw.1, fin xw.2)) (fin acc) = (.ok (fin s) : Res XReal) := by
    intro nodes
    induction nodes with
    | nil => intro acc _; exact ⟨acc, rfl, rfl⟩
    | cons xw nodes ih =>
      intro acc h
      obtain ⟨v, h1, h2⟩ := h xw (by simp)
      obtain ⟨s, h3, h4⟩ := ih (acc + xw.2*v) (fun xw' h' => h xw' (by simp [h']))
      refine ⟨s, ?_, ?_⟩
      · rw [← h3]
        simp only [forFold, h1, bind, Except.bind, unwrapA, pure, Except.pure]
      · rw [← h4]
        simp only [List.map_cons, forFold, h2, bind, Except.bind, unwrapA, pure, Except.pure, fin_mul, fin_add]
  exact key nodes 0.0 h

theorem gm_nodes_fin (n : ℕ) : (gm_nodes n : List (XReal × XReal))
    = (gm_nodes n : List (ℝ × ℝ)).map fun xw => (fin xw.1, fin xw.2) := by
  unfold gm_nodes
  rw [List.map_map]
  apply List.map_congr_left
  intro j hj
  have hn : (n:ℝ) ≠ 0 := by
    have := List.mem_range.1 hj
    exact_mod_cast (by omega : n ≠ 0)
  have h4 : (4.0:ℝ) ≠ 0 := by norm_num
  simp only [Function.comp, fin_lit, fin_ofNat, fin_mul, fin_sub, fin_div h4, fin_div hn, fin_pi, fin_cos, fin_sin]
  rfl

theorem gl_nodes_fin : (gl_nodes : List (XReal × XReal))
    = (gl_nodes : List (ℝ × ℝ)).map fun xw => (fin xw.1, fin xw.2) := by
  have h2 : (2.0:ℝ) ≠ 0 := by norm_num
  unfold gl_nodes
  simp only [List.map_cons, List.map_nil, List.zip_cons_cons, List.zip_nil_right, fin_lit, fin_neg, fin_div h2, fin_add]

/-- Gauss-Mehler, when the starting point is close enough to the turning point -/
theorem gm_fin (V : InteractionPotential ℝ) (hV : Screened V) {Za Zb Ma Mb E0 p x0 r : ℝ} {n : ℕ}
    (hA : 0 < Za) (hB : 0 < Zb) (hMa : 0 < Ma) (hMb : 0 < Mb) (hE : 0 < E0) (hr : 0 < r)
    (hroot : closest (expsum (screening_terms V)) (reduced_energy Za Zb (E0*Mb/(Ma + Mb)) V)
      (p/screening_length Za Zb V) r = 0) (hx0 : 0 < x0) (hx : 0 < n → Real.cos (Real.pi/(4*n))*r < x0) :
    ∃ theta, scattering_angle (.GAUSS_MEHLER n) Za Zb Ma Mb E0 p x0 V = .ok theta ∧
      scattering_angle (.GAUSS_MEHLER n) (fin Za) (fin Zb) (fin Ma) (fin Mb) (fin E0) (fin p) (fin x0) V.lift
        = .ok (fin theta) := by
  have hs := screening_length_pos V hV hA hB
  have hEr : 0 < E0*Mb/(Ma + Mb) := by positivity
  have hM : Ma + Mb ≠ 0 := by positivity
  have hr0 : 0 < x0*screening_length Za Zb V := by positivity
  have hq := quadrature_fin
    (fun u => scattering_function_gm u p (x0*screening_length Za Zb V) (E0*Mb/(Ma + Mb))
      (fun r => interaction_potential r (screening_length Za Zb V) Za Zb V))
    (fun u => scattering_function_gm u (fin p) (fin (x0*screening_length Za Zb V)) (fin (E0*Mb/(Ma + Mb)))
      (fun r => interaction_potential r (fin (screening_length Za Zb V)) (fin Za) (fin Zb) V.lift))
    (gm_nodes n) (by
      intro xw h
      unfold gm_nodes at h
      obtain ⟨j, hj, rfl⟩ := List.mem_map.1 h
      replace hj := List.mem_range.1 hj
      simp only [cos_real, pi_real, ofNat_real]
      rw [gm_angle hj]
      obtain ⟨i1, i2⟩ := gm_inside hj
      have hn : (0:ℝ) < n := by exact_mod_cast (by omega : 0 < n)
      have hu : 0 < Real.cos ((2*(j:ℝ) + 1)*(Real.pi/2)/(2*n)) := Real.cos_pos_of_mem_Ioo ⟨by linarith, i2⟩
      have hu' : Real.cos ((2*(j:ℝ) + 1)*(Real.pi/2)/(2*n)) ≤ Real.cos (Real.pi/(4*n)) := by
        apply Real.cos_le_cos_of_nonneg_of_le_pi (by have := Real.pi_pos; positivity)
          (by linarith [Real.pi_pos])
        rw [div_le_div_iff₀ (by positivity) (by positivity)]
        have : (0:ℝ) ≤ j := by positivity
        nlinarith [mul_nonneg (mul_nonneg this Real.pi_pos.le) hn.le]
      generalize Real.cos ((2*(j:ℝ) + 1)*(Real.pi/2)/(2*n)) = u at *
      have hR : r*screening_length Za Zb V < x0*screening_length Za Zb V/u := by
        rw [lt_div_iff₀ hu]
        have h1 : u*r < x0 := lt_of_le_of_lt (mul_le_mul_of_nonneg_right hu' hr.le) (hx (by omega))
        have := mul_lt_mul_of_pos_right h1 hs
        linarith
      have hR0 : 0 < x0*screening_length Za Zb V/u := by positivity
      have hrad := radial_pos V hV hA hB hEr hr hroot hR
      refine gm_term_fin hr0 hu.ne' hEr.ne' _ _ (potential_real V hV _ _ _ _) (potential_fin V hV hR0.ne' hs.ne') ?_
      have e : (p*u/(x0*screening_length Za Zb V))^2 = p^2/(x0*screening_length Za Zb V/u)^2 := by
        field_simp
      rw [e]
      exact hrad)
  obtain ⟨s, h1, h2⟩ := hq
  show ∃ theta, gauss_mehler Za Zb Ma Mb E0 p x0 V n = .ok theta ∧
    gauss_mehler (fin Za) (fin Zb) (fin Ma) (fin Mb) (fin E0) (fin p) (fin x0) V.lift n = .ok (fin theta)
  unfold gauss_mehler scattering_integral_gauss_mehler
  simp only [screening_length_fin V hV hA hB, fin_mul, fin_add, fin_div hM, gm_nodes_fin]
  rw [h1, h2]
  simp only [bind, Except.bind, pure, Except.pure, fin_pi, fin_sub]
  exact ⟨_, rfl, rfl⟩

theorem gl_nodes_inside : ∀ xw ∈ (gl_nodes : List (ℝ × ℝ)), 0 < 1 - xw.1*xw.1 ∧ 1 - xw.1*xw.1 < 0.9978 := by
  intro xw h
  simp only [gl_nodes, List.map_cons, List.map_nil, List.zip_cons_cons, List.zip_nil_right, List.mem_cons,
    List.not_mem_nil, or_false] at h
  rcases h with rfl | rfl | rfl | rfl | rfl <;> constructor <;> norm_num

/-- Gauss-Legendre, when the starting point is close enough to the turning point -/
theorem gl_fin (V : InteractionPotential ℝ) (hV : Screened V) {Za Zb Ma Mb E0 p x0 r : ℝ}
    (hA : 0 < Za) (hB : 0 < Zb) (hMa : 0 < Ma) (hMb : 0 < Mb) (hE : 0 < E0) (hr : 0 < r)
    (hroot : closest (expsum (screening_terms V)) (reduced_energy Za Zb (E0*Mb/(Ma + Mb)) V)
      (p/screening_length Za Zb V) r = 0) (hx : 0.9978*r ≤ x0) :
    ∃ theta, scattering_angle .GAUSS_LEGENDRE Za Zb Ma Mb E0 p x0 V = .ok theta ∧
      scattering_angle .GAUSS_LEGENDRE (fin Za) (fin Zb) (fin Ma) (fin Mb) (fin E0) (fin p) (fin x0) V.lift
        = .ok (fin theta) := by
  have hs := screening_length_pos V hV hA hB
  have hEr : 0 < E0*Mb/(Ma + Mb) := by positivity
  have hM : Ma + Mb ≠ 0 := by positivity
  have hx0 : 0 < x0 := lt_of_lt_of_le (by positivity) hx
  have hr0 : 0 < x0*screening_length Za Zb V := by positivity
  have hq := quadrature_fin
    (fun u => scattering_function_gl u p (x0*screening_length Za Zb V) (E0*Mb/(Ma + Mb))
      (fun r => interaction_potential r (screening_length Za Zb V) Za Zb V))
    (fun u => scattering_function_gl u (fin p) (fin (x0*screening_length Za Zb V)) (fin (E0*Mb/(Ma + Mb)))
      (fun r => interaction_potential r (fin (screening_length Za Zb V)) (fin Za) (fin Zb) V.lift))
    gl_nodes (by
      intro xw h
      obtain ⟨hu, hu'⟩ := gl_nodes_inside xw h
      have hR : r*screening_length Za Zb V < x0*screening_length Za Zb V/(1 - xw.1*xw.1) := by
        rw [lt_div_iff₀ hu]
        have h1 : (1 - xw.1*xw.1)*r < x0 := lt_of_lt_of_le (mul_lt_mul_of_pos_right hu' hr) hx
        have := mul_lt_mul_of_pos_right h1 hs
        linarith
      have hR0 : 0 < x0*screening_length Za Zb V/(1 - xw.1*xw.1) := by positivity
      have hrad := radial_pos V hV hA hB hEr hr hroot hR
      exact gl_term_fin hr0 hu.ne' hEr.ne' _ _ (potential_real V hV _ _ _ _)
        (potential_fin V hV hR0.ne' hs.ne') hrad)
  obtain ⟨s, h1, h2⟩ := hq
  show ∃ theta, gauss_legendre Za Zb Ma Mb E0 p x0 V = .ok theta ∧
    gauss_legendre (fin Za) (fin Zb) (fin Ma) (fin Mb) (fin E0) (fin p) (fin x0) V.lift = .ok (fin theta)
  unfold gauss_legendre scattering_integral_gauss_legendre
  simp only [screening_length_fin V hV hA hB, fin_mul, fin_add, fin_div hM, gl_nodes_fin]
  rw [h1, h2]
  simp only [bind, Except.bind, pure, Except.pure, fin_pi, fin_sub]
  exact ⟨_, rfl, rfl⟩

end XReal
end RustBCA
