import Verif.Proofs.Special
import Verif.Props.NewtonSpeed

/-! # Collisions over numbers with special values (helper lemmas) -/

namespace RustBCA
open Scalar Spec

namespace XReal

theorem newton_fin (V : InteractionPotential ℝ) (hV : Screened V) {Za Zb Ma Mb E0 p tol y : ℝ} {n : ℕ}
    (hA : 0 < Za) (hB : 0 < Zb) (hMa : 0 < Ma) (hMb : 0 < Mb) (hE : 0 < E0) (hp : 0 < p)
    (run : newton_rootfinder Za Zb Ma Mb E0 p V n tol = .ok (.ok y)) :
    newton_rootfinder (fin Za) (fin Zb) (fin Ma) (fin Mb) (fin E0) (fin p) V.lift n (fin tol)
      = .ok (.ok (fin y)) := by
  have hs := screening_length_pos V hV hA hB
  have hEr : 0 < E0*Mb/(Ma + Mb) := by positivity
  have hM : Ma + Mb ≠ 0 := by positivity
  have he := reduced_energy_pos V hV hA hB hEr
  have hb : 0 < p/screening_length Za Zb V := div_pos hp hs
  have hys : ∀ y : ℝ, y*screening_length Za Zb V/screening_length Za Zb V = y := fun y => by field_simp
  have hre : LINDHARD_REDUCED_ENERGY_PREFACTOR ℝ*screening_length Za Zb V*Mb/(Ma+Mb)/Za/Zb*E0
      = reduced_energy Za Zb (E0*Mb/(Ma + Mb)) V := by
    rw [reduced_energy]; field_simp
  have hq : 0 ≤ 0.5/reduced_energy Za Zb (E0*Mb/(Ma + Mb)) V*(0.5/reduced_energy Za Zb (E0*Mb/(Ma + Mb)) V)
      + p/screening_length Za Zb V*(p/screening_length Za Zb V) := by positivity
  have hx0 := newton_start_pos he hb
  rw [newton_run V hV Za Zb Ma Mb E0 p hA hB hMa hMb] at run
  unfold newton_rootfinder
  simp only [screening_length_fin V hV hA hB, lindhard_fin, fin_mul, fin_add, fin_div hM, fin_div hA.ne',
    fin_div hB.ne', fin_div hs.ne', hre, fin_lit]
  simp only [fin_div he.ne', fin_mul, fin_add, fin_sqrt hq, fin_lt]
  have hstart : (if decide ((5.0:ℝ) < reduced_energy Za Zb (E0*Mb/(Ma + Mb)) V) = true then
      fin (0.5/reduced_energy Za Zb (E0*Mb/(Ma + Mb)) V
        + Real.sqrt (0.5/reduced_energy Za Zb (E0*Mb/(Ma + Mb)) V*(0.5/reduced_energy Za Zb (E0*Mb/(Ma + Mb)) V)
          + p/screening_length Za Zb V*(p/screening_length Za Zb V)))
      else fin (p/screening_length Za Zb V))
      = fin (newton_start (reduced_energy Za Zb (E0*Mb/(Ma + Mb)) V) (p/screening_length Za Zb V)) := by
    unfold newton_start
    have e5 : decide ((5.0:ℝ) < reduced_energy Za Zb (E0*Mb/(Ma + Mb)) V) = true
        ↔ 5 < reduced_energy Za Zb (E0*Mb/(Ma + Mb)) V := by
      rw [decide_eq_true_iff]; norm_num
    by_cases h5 : 5 < reduced_energy Za Zb (E0*Mb/(Ma + Mb)) V
    · rw [if_pos (e5.2 h5), if_pos h5]
    · rw [if_neg (fun hh => h5 (e5.1 hh)), if_neg h5]
  rw [hstart]
  exact newton_loop_fin (screening_terms_pos V) (screening_terms_ne V hV) he _ _ _ _ _ tol
    (fun y _ => by rw [doca_screened V hV, hys]) (fun y _ => by rw [ddoca_screened V hV, hys])
    (fun y hy => doca_fin V hV _ hA hB hEr hy) (fun y hy => ddoca_fin V hV _ hA hB hEr hy) n _ y hx0 run

/-- beyond the turning point there is kinetic energy left -/
theorem radicand_pos (V : InteractionPotential ℝ) {eps beta r x : ℝ} (he : 0 < eps) (hr : 0 < r)
    (hroot : closest (expsum (screening_terms V)) eps beta r = 0) (hx : r < x) :
    0 < 1 - expsum (screening_terms V) x/x/eps - beta*beta/x/x := by
  have hx0 : 0 < x := hr.trans hx
  have h := closest_strictMono (screening_terms_pos V) he beta hr hx0 hx
  rw [hroot] at h
  have e : 1 - expsum (screening_terms V) x/x/eps - beta*beta/x/x
      = closest (expsum (screening_terms V)) eps beta x/x := by
    unfold closest; field_simp
  rw [e]
  exact div_pos h hx0

theorem mw_term_fin (V : InteractionPotential ℝ) (hV : Screened V) {eps beta r x : ℝ} (he : 0 < eps) (hr : 0 < r)
    (hroot : closest (expsum (screening_terms V)) eps beta r = 0) (hx : r < x) :
    ∃ g, scattering_integral_mw x beta eps V = .ok g ∧
      scattering_integral_mw (fin x) (fin beta) (fin eps) V.lift = .ok (fin g) := by
  have hx0 : x ≠ 0 := (hr.trans hx).ne'
  have h := radicand_pos V he hr hroot hx
  unfold scattering_integral_mw
  rw [phi_fin V hV, phi_expsum V hV]
  simp only [bind, Except.bind, pure, Except.pure, fin_lit, fin_mul, fin_div hx0, fin_div he.ne', fin_sub, fin_neg]
  rw [show (1.0:ℝ) = 1 by norm_num, fin_powf h]
  exact ⟨_, rfl, rfl⟩

theorem reduced_energy_fin' (V : InteractionPotential ℝ) (hV : Screened V) {Za Zb Ma Mb E0 : ℝ} (hA : 0 < Za)
    (hB : 0 < Zb) (hMa : 0 < Ma) (hMb : 0 < Mb) :
    LINDHARD_REDUCED_ENERGY_PREFACTOR ℝ*screening_length Za Zb V*Mb/(Ma+Mb)/Za/Zb*E0
      = reduced_energy Za Zb (E0*Mb/(Ma + Mb)) V := by
  rw [reduced_energy]; field_simp

/-- Mendenhall-Weller, near or beyond the turning point -/
theorem mw_fin (V : InteractionPotential ℝ) (hV : Screened V) {Za Zb Ma Mb E0 p x0 r : ℝ}
    (hA : 0 < Za) (hB : 0 < Zb) (hMa : 0 < Ma) (hMb : 0 < Mb) (hE : 0 < E0) (hr : 0 < r)
    (hroot : closest (expsum (screening_terms V)) (reduced_energy Za Zb (E0*Mb/(Ma + Mb)) V)
      (p/screening_length Za Zb V) r = 0) (hx : 0.9072*r < x0) :
    ∃ theta, scattering_angle .MENDENHALL_WELLER Za Zb Ma Mb E0 p x0 V = .ok theta ∧
      scattering_angle .MENDENHALL_WELLER (fin Za) (fin Zb) (fin Ma) (fin Mb) (fin E0) (fin p) (fin x0) V.lift
        = .ok (fin theta) := by
  have hs := screening_length_pos V hV hA hB
  have hEr : 0 < E0*Mb/(Ma + Mb) := by positivity
  have hM : Ma + Mb ≠ 0 := by positivity
  have he := reduced_energy_pos V hV hA hB hEr
  have hx0 : 0 < x0 := lt_trans (by positivity) hx
  have hx1 : r < x0/0.9072 := by rw [lt_div_iff₀ (by norm_num)]; linarith
  have hx2 : r < x0/0.4206 := by rw [lt_div_iff₀ (by norm_num)]; linarith
  obtain ⟨g1, h1, h1'⟩ := mw_term_fin V hV he hr hroot hx1
  obtain ⟨g2, h2, h2'⟩ := mw_term_fin V hV he hr hroot hx2
  have n1 : (0.9072:ℝ) ≠ 0 := by norm_num
  have n2 : (0.4206:ℝ) ≠ 0 := by norm_num
  have n3 : (2.0:ℝ) ≠ 0 := by norm_num
  have n4 : (12.0:ℝ) ≠ 0 := by norm_num
  have hd := dexpsum_nonpos (screening_terms V) (screening_terms_pos V) x0
  have hlam : 0 < 0.5 + p/screening_length Za Zb V*(p/screening_length Za Zb V)/x0/x0/2.0
      - dexpsum (screening_terms V) x0/2.0/reduced_energy Za Zb (E0*Mb/(Ma + Mb)) V := by
    have k1 : 0 ≤ p/screening_length Za Zb V*(p/screening_length Za Zb V)/x0/x0/2.0 := by
      have := mul_self_nonneg (p/screening_length Za Zb V)
      positivity
    have k2 : dexpsum (screening_terms V) x0/2.0/reduced_energy Za Zb (E0*Mb/(Ma + Mb)) V ≤ 0 :=
      div_nonpos_of_nonpos_of_nonneg (div_nonpos_of_nonpos_of_nonneg hd (by norm_num)) he.le
    linarith
  show ∃ theta, mendenhall_weller Za Zb Ma Mb E0 p x0 V = .ok theta ∧
    mendenhall_weller (fin Za) (fin Zb) (fin Ma) (fin Mb) (fin E0) (fin p) (fin x0) V.lift = .ok (fin theta)
  unfold mendenhall_weller
  simp only [screening_length_fin V hV hA hB, lindhard_fin, fin_mul, fin_add, fin_div hM, fin_div hA.ne',
    fin_div hB.ne', fin_div hs.ne', reduced_energy_fin' V hV hA hB hMa hMb, fin_lit, dphi_fin V hV,
    dphi_dexpsum V hV, fin_div n1, fin_div n2, h1, h1', h2, h2', bind, Except.bind, pure, Except.pure, fin_pi]
  simp only [fin_div hx0.ne', fin_div n3, fin_div n4, fin_div he.ne', fin_sub, fin_add, fin_mul, fin_neg,
    fin_powf hlam]
  exact ⟨_, rfl, rfl⟩

end XReal
end RustBCA
