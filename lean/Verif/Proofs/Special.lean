import Verif.Spec.Special
import Verif.Proofs.Newton
import Verif.Proofs.Screened

/-! # Runs of the model over numbers with special values (helper lemmas) -/

namespace RustBCA
open Scalar Spec

namespace XReal

theorem Q_fin : Q XReal = fin (Q ℝ) := rfl
theorem EPS0_fin : EPS0 XReal = fin (EPS0 ℝ) := rfl
theorem A0_fin : A0 XReal = fin (A0 ℝ) := rfl

theorem lindhard_fin : LINDHARD_REDUCED_ENERGY_PREFACTOR XReal = fin (LINDHARD_REDUCED_ENERGY_PREFACTOR ℝ) := by
  have h := Q_pos.ne'
  unfold LINDHARD_REDUCED_ENERGY_PREFACTOR
  simp only [fin_lit, fin_pi, EPS0_fin, Q_fin, fin_mul, fin_div h]
  rfl

theorem phi_fin (V : InteractionPotential ℝ) (hV : Screened V) (x : ℝ) :
    phi (fin x) V.lift = .ok (fin (expsum (screening_terms V) x)) := by
  have h := phi_expsum V hV x
  cases hV <;> (simp only [phi, Except.ok.injEq] at h; rw [← h]; rfl)

theorem dphi_fin (V : InteractionPotential ℝ) (hV : Screened V) (x : ℝ) :
    dphi (fin x) V.lift = .ok (fin (dexpsum (screening_terms V) x)) := by
  have h := dphi_dexpsum V hV x
  cases hV <;> (simp only [dphi, Except.ok.injEq] at h; rw [← h]; rfl)

theorem screening_length_fin (V : InteractionPotential ℝ) (hV : Screened V) {Za Zb : ℝ} (hA : 0 < Za)
    (hB : 0 < Zb) : screening_length (fin Za) (fin Zb) V.lift = fin (screening_length Za Zb V) := by
  have h1 : 0 < Real.sqrt Za + Real.sqrt Zb :=
    add_pos (Real.sqrt_pos.2 hA) (Real.sqrt_pos.2 hB)
  have h2 : (0:ℝ) < Za ^ (0.23:ℝ) + Zb ^ (0.23:ℝ) :=
    add_pos (Real.rpow_pos_of_pos hA _) (Real.rpow_pos_of_pos hB _)
  have h3 : (3.0:ℝ) ≠ 0 := by norm_num
  cases hV <;> simp only [InteractionPotential.lift, screening_length, fin_lit, A0_fin, fin_mul, fin_sqrt hA.le,
    fin_sqrt hB.le, fin_add, fin_neg, fin_div h3, fin_powf h1, fin_powf hA, fin_powf hB, fin_div h2.ne'] <;> rfl

theorem reduced_energy_fin (V : InteractionPotential ℝ) (hV : Screened V) {Za Zb Er : ℝ} (hA : 0 < Za)
    (hB : 0 < Zb) : LINDHARD_REDUCED_ENERGY_PREFACTOR XReal*screening_length (fin Za) (fin Zb) V.lift/fin Za/fin Zb
      *fin Er = fin (reduced_energy Za Zb Er V) := by
  simp only [lindhard_fin, screening_length_fin V hV hA hB, fin_mul, fin_div hA.ne', fin_div hB.ne']
  rfl

theorem doca_fin (V : InteractionPotential ℝ) (hV : Screened V) {Za Zb Er p y : ℝ} (a : XReal) (hA : 0 < Za)
    (hB : 0 < Zb) (hE : 0 < Er) (hy : 0 < y) :
    distance_of_closest_approach_function (fin y*fin (screening_length Za Zb V)) a (fin Za) (fin Zb)
      (fin Er) (fin p) V.lift = .ok (fin (closest (expsum (screening_terms V)) (reduced_energy Za Zb Er V)
        (p/screening_length Za Zb V) y)) := by
  have hs := (screening_length_pos V hV hA hB).ne'
  have he := (reduced_energy_pos V hV hA hB hE).ne'
  have e : y*screening_length Za Zb V/screening_length Za Zb V = y := by field_simp
  have key : doca_function (fin y) (fin (p/screening_length Za Zb V)) (fin (reduced_energy Za Zb Er V)) V.lift
      = .ok (fin (closest (expsum (screening_terms V)) (reduced_energy Za Zb Er V)
        (p/screening_length Za Zb V) y)) := by
    unfold doca_function
    rw [phi_fin V hV]
    simp only [bind, Except.bind, pure, Except.pure, fin_mul, fin_div he, fin_div hy.ne', fin_sub]
    unfold closest
    rw [pow_two]
  have hr := reduced_energy_fin V hV (Er := Er) hA hB
  have hl := screening_length_fin V hV hA hB
  cases hV <;> simp only [InteractionPotential.lift, distance_of_closest_approach_function] at key hr hl ⊢ <;>
    rw [hr, hl, fin_mul, fin_div hs, fin_div hs, e, key]

theorem ddoca_fin (V : InteractionPotential ℝ) (hV : Screened V) {Za Zb Er p y : ℝ} (a : XReal) (hA : 0 < Za)
    (hB : 0 < Zb) (hE : 0 < Er) (hy : 0 < y) :
    diff_distance_of_closest_approach_function (fin y*fin (screening_length Za Zb V)) a (fin Za) (fin Zb)
      (fin Er) (fin p) V.lift = .ok (fin (dclosest (dexpsum (screening_terms V)) (reduced_energy Za Zb Er V)
        (p/screening_length Za Zb V) y)) := by
  have hs := (screening_length_pos V hV hA hB).ne'
  have he := (reduced_energy_pos V hV hA hB hE).ne'
  have e : y*screening_length Za Zb V/screening_length Za Zb V = y := by field_simp
  have key : diff_doca_function (fin y) (fin (p/screening_length Za Zb V)) (fin (reduced_energy Za Zb Er V)) V.lift
      = .ok (fin (dclosest (dexpsum (screening_terms V)) (reduced_energy Za Zb Er V)
        (p/screening_length Za Zb V) y)) := by
    unfold diff_doca_function
    rw [dphi_fin V hV]
    simp only [bind, Except.bind, pure, Except.pure, fin_mul, fin_div he, fin_div hy.ne', fin_sub, fin_lit, fin_add]
    unfold dclosest
    rw [pow_two, pow_two, div_div, show (1.0:ℝ) = 1 by norm_num]
  have hr := reduced_energy_fin V hV (Er := Er) hA hB
  have hl := screening_length_fin V hV hA hB
  cases hV <;> simp only [InteractionPotential.lift, diff_distance_of_closest_approach_function] at key hr hl ⊢ <;>
    rw [hr, hl, fin_mul, fin_div hs, fin_div hs, e, key]

/-- the loop, from a positive starting point -/
theorem newton_loop_fin {l : List (ℝ × ℝ)} {eps beta : ℝ} (h : PosTerms l) (hl : l ≠ []) (he : 0 < eps)
    (f df : ℝ → Res ℝ) (f' df' : XReal → Res XReal) (a tol : ℝ)
    (hf : ∀ y, 0 < y → f (y*a) = .ok (closest (expsum l) eps beta y))
    (hdf : ∀ y, 0 < y → df (y*a) = .ok (dclosest (dexpsum l) eps beta y))
    (hf' : ∀ y, 0 < y → f' (fin y*fin a) = .ok (fin (closest (expsum l) eps beta y)))
    (hdf' : ∀ y, 0 < y → df' (fin y*fin a) = .ok (fin (dclosest (dexpsum l) eps beta y))) :
    ∀ (n : ℕ) (x0 y : ℝ), 0 < x0 → newton_loop f df a tol n x0 = .ok (.ok y) →
      newton_loop f' df' (fin a) (fin tol) n (fin x0) = .ok (.ok (fin y)) := by
  intro n
  induction n with
  | zero => intro x0 y _ h; simp [newton_loop, pure, Except.pure] at h
  | succ n ih =>
    intro x0 y hx run
    have hd := dclosest_ge_one h he beta x0
    have hd0 : dclosest (dexpsum l) eps beta x0 ≠ 0 := by linarith
    have hx' := nstep_pos h hl he beta hx
    unfold newton_loop at run ⊢
    simp only [hf x0 hx, hdf x0 hx, bind, Except.bind, pure, Except.pure] at run
    simp only [hf' x0 hx, hdf' x0 hx, bind, Except.bind, pure, Except.pure]
    simp only [fin_div hd0, fin_sub, fin_mul, fin_lt]
    rw [show x0 - closest (expsum l) eps beta x0/dclosest (dexpsum l) eps beta x0 = nstep l eps beta x0
      from rfl] at run ⊢
    by_cases hc : (nstep l eps beta x0 - x0)*(nstep l eps beta x0 - x0) < tol
    · rw [if_pos ((lt_real _ _).2 hc)] at run
      rw [if_pos (decide_eq_true hc)]
      rw [Except.ok.inj (Except.ok.inj run)]
    · rw [if_neg (fun hh => hc ((lt_real _ _).1 hh))] at run
      rw [if_neg (fun hh => hc (of_decide_eq_true hh))]
      exact ih _ _ hx' run

end XReal
end RustBCA
