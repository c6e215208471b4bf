import Verif.Props.Magic

/-!
# Non-vacuity for C86
-/

namespace RustBCA
open Scalar Spec

/-- Constants are published for the four potentials the theorems speak about. -/
example : ∃ C, MagicFor .KR_C C := ⟨_, .kr_c⟩
example : ∃ C, MagicFor .TRIDYN C := ⟨_, .tridyn⟩
example : ∃ C, MagicFor .ZBL C := ⟨_, .zbl⟩
example : ∃ C, MagicFor .MOLIERE C := ⟨_, .moliere⟩

/-- Every screened potential is a total function of the distance with a derivative, as
`C86_magic_partial` and `C86_constants_exchanged` ask. -/
theorem screened_differentiable (V : InteractionPotential ℝ) (hV : Screened V) (Za Zb x0 : ℝ)
    (hA : 0 < Za) (hB : 0 < Zb) (hx : 0 < x0) :
    ∃ (U : ℝ → ℝ) (dU : ℝ),
      (∀ r, interaction_potential r (screening_length Za Zb V) Za Zb V = .ok (U r)) ∧
      HasDerivAt U dU (x0*screening_length Za Zb V) := by
  have ha := screening_length_pos V hV hA hB
  have hr : 0 < x0*screening_length Za Zb V := by positivity
  have h1 : HasDerivAt (fun r : ℝ => r/screening_length Za Zb V) _ (x0*screening_length Za Zb V) :=
    (hasDerivAt_id' _).div_const _
  have h2 := HasDerivAt.comp (x0*screening_length Za Zb V)
    (h₂ := expsum (screening_terms V)) (expsum_hasDerivAt (screening_terms V) _) h1
  have h3 := ((hasDerivAt_const (x0*screening_length Za Zb V)
    (Za*Zb*Q ℝ*Q ℝ/4/Real.pi/EPS0 ℝ)).fun_div (hasDerivAt_id' _) hr.ne').fun_mul h2
  exact ⟨_, _, fun r => potential_screened V hV r _ Za Zb, h3⟩

/-- Boron (Z = 5, M = 11) on silicon with KR_C, reduced closest approach 2, reduced impact parameter
1 and reduced energy 1. -/
example (a : ℝ) (ha : a = screening_length (5:ℝ) 14 .KR_C) : ∃ dU θ U, 
    (∀ r, interaction_potential r a 5 14 .KR_C = .ok (U r)) ∧ HasDerivAt U dU (2*a) ∧
    scattering_angle .MAGIC 5 14 11 28 (coulombConstant 5 14/a*39/28) a 2 .KR_C = .ok θ ∧
    θ = magicAngle ⟨0.7887, 0.01166, 0.006913, 17.16, 10.79⟩ 1 1 2
      (-2*(coulombConstant 5 14/a - U (2*a))/dU/a) := by
  have h0 : 0 < a := by rw [ha]; exact screening_length_pos _ .kr_c (by norm_num) (by norm_num)
  have hk : 0 < coulombConstant 5 14 := by
    unfold coulombConstant
    have := Real.pi_pos
    positivity
  obtain ⟨U, dU, hU, hd⟩ := screened_differentiable .KR_C .kr_c 5 14 2 (by norm_num) (by norm_num)
    (by norm_num)
  rw [← ha] at hU hd
  refine ⟨dU, _, U, hU, hd, ?_, rfl⟩
  rw [C86_magic_partial .KR_C (Or.inl rfl) _ .kr_c 5 14 11 28 _ a 2 dU (by norm_num) (by norm_num)
    (by norm_num) (by norm_num) (by positivity) (by norm_num) U (by rw [← ha]; exact hU)
    (by rw [← ha]; exact hd) a (coulombConstant 5 14/a) ha (by field_simp; norm_num)]
  rw [div_self h0.ne', div_self (by positivity)]

end RustBCA
