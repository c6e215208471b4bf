import Verif.Examples.DoubleEnergy
import Verif.Props.DoubleBalance

/-!
# C114 at work

Non-vacuity: a run with a collision and local electronic losses meets the hypotheses.
-/

namespace RustBCA
open Scalar Spec

namespace DoubleBalanceExample

theorem arith : ∃ A : DoubleArith, RegularArith A ∧ PositivePowers A := by
  obtain ⟨A, hA, -⟩ := DoubleEnergyExample.regular_exists
  exact ⟨{ A with exp := Real.exp, powf := Real.rpow }, ⟨hA.scales, hA.square, hA.sine⟩,
    ⟨fun x => (Real.exp_pos x).le, fun x y h => Real.rpow_nonneg h y⟩⟩

end DoubleBalanceExample

open DoubleExample DoubleEnergyExample DoubleBalanceExample in
/-- Beside `C114_run`: a run with a collision meets its hypotheses, and stays within its bound. -/
example : ∃ A : DoubleArith, RegularArith A ∧ PositivePowers A ∧ ∃ out t' n,
    single_ion_bca (rcpr A) 2 (ion A) (mat A) (options A) (zeros A) = .ok (out, t') ∧
    out.length = 1 ∧ t' = after n (zeros A) ∧
    totalEnergyDbl out ≤ 1*(1 + unitRoundoff)^n := by
  obtain ⟨A, hA, hP⟩ := arith
  obtain ⟨out, t', h, hl⟩ := run (A := A)
  have h0 : (0.0 : Dbl A).val = 0 := zero_val
  have h1 : (1.0 : Dbl A).val = 1 := one_val
  have hb : SoundBulk (mat A) := by
    refine ⟨?_, ?_⟩ <;> intro m hm <;> simp only [mat, List.mem_singleton] at hm <;>
      simp only [hm, h0, h1] <;> norm_num
  have hel : ElectronsTake (mat A) (options A) := by
    refine C114_local hP hb ?_ ?_ rfl
    · intro x y z ck hck
      simp only [mat, geom, Except.ok.injEq] at hck
      rw [← hck, h1]; norm_num
    · intro x y z ns hns n hn
      simp only [mat, geom, Except.ok.injEq] at hns
      rw [← hns, List.mem_singleton] at hn
      rw [hn, h1]; norm_num
  obtain ⟨_, n, hn, hle⟩ := C114_run hA _ _ _ 2 _ _ _ _ target_sound hb hel ion_sound
    (by simp only [ion, h1]; norm_num) ⟨h0, by
      intro E hE; simp only [mat, List.mem_singleton] at hE; rw [hE, h0]⟩ rfl rfl h
  have hi : (ion A).E.val = 1 := one_val
  rw [hi] at hle
  exact ⟨A, hA, hP, out, t', n, h, hl, hn, hle⟩

end RustBCA
