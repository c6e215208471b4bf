import Verif.Examples.Double
import Verif.Props.DoubleEnergy

/-!
# C108 at work

Non-vacuity: a rounding to nearest that treats all exponents alike and rounds the tie of the
refutation to even exists, and a run with a collision meets the hypotheses.
-/

namespace RustBCA
open Scalar Spec

namespace DoubleEnergyExample

theorem log_twice {x : ℝ} (hx : 0 < x) : Int.log 2 (2*x) = Int.log 2 x + 1 := by
  have h1 := Int.zpow_log_le_self (b := 2) (R := ℝ) (by norm_num) hx
  have h2 := Int.lt_zpow_succ_log_self (b := 2) (R := ℝ) (by norm_num) x
  have hx2 : 0 < 2*x := by linarith
  have h3 := Int.zpow_log_le_self (b := 2) (R := ℝ) (by norm_num) hx2
  have h4 := Int.lt_zpow_succ_log_self (b := 2) (R := ℝ) (by norm_num) (2*x)
  push_cast at h1 h2 h3 h4
  obtain ⟨i, hi⟩ : ∃ i, i = Int.log 2 x := ⟨_, rfl⟩
  obtain ⟨j, hj⟩ : ∃ j, j = Int.log 2 (2*x) := ⟨_, rfl⟩
  rw [← hi] at h1 h2 ⊢
  rw [← hj] at h3 h4 ⊢
  have e1 : (2:ℝ)^(i + 1) = 2*2^i := by rw [zpow_add₀ (by norm_num)]; norm_num; ring
  have e2 : (2:ℝ)^(i + 2) = 2*2^(i + 1) := by
    rw [show i + 2 = i + 1 + 1 by ring, zpow_add₀ (by norm_num) (i + 1)]; norm_num; ring
  have a : (2:ℝ)^(i + 1) < 2^(j + 1) := by linarith
  have b : (2:ℝ)^j < 2^(i + 2) := by linarith
  have a' := (zpow_lt_zpow_iff_right₀ (by norm_num : (1:ℝ) < 2)).mp a
  have b' := (zpow_lt_zpow_iff_right₀ (by norm_num : (1:ℝ) < 2)).mp b
  omega

theorem isDouble_scale {x : ℝ} (k : ℤ) (h : IsDouble x) : IsDouble (x*2^k) := by
  obtain ⟨m, e, hm, rfl⟩ := h
  exact ⟨m, e + k, hm, by rw [zpow_add₀ (by norm_num)]; ring⟩

/-- A regular arithmetic that rounds the tie of `C108_refuted` to even. -/
theorem regular_exists : ∃ A : DoubleArith, RegularArith A ∧ A.rnd (2^54 - 3) = 2^54 - 4 ∧
    ∀ x, A.sin x = 1 := by
  classical
  obtain ⟨B⟩ := doubleArith_nonempty
  obtain ⟨w, hw⟩ : ∃ w : ℝ, w = (2^54 - 3)/2^53 := ⟨_, rfl⟩
  obtain ⟨v, hv⟩ : ∃ v : ℝ, v = (2^54 - 4)/2^53 := ⟨_, rfl⟩
  have hvd : IsDouble v := ⟨2^53 - 2, -52, by norm_num, by rw [hv]; norm_num⟩
  obtain ⟨r, hr⟩ : ∃ r : ℝ → ℝ, r = fun x => if x = w then v else B.rnd x := ⟨_, rfl⟩
  have rd : ∀ x, IsDouble (r x) := by
    intro x; rw [hr]; dsimp only; split
    · exact hvd
    · exact B.is_double x
  have rn : ∀ x d, IsDouble d → |r x - x| ≤ |d - x| := by
    intro x d hd
    rw [hr]; dsimp only; split
    · rename_i hx
      rw [hx]
      have hvw : |v - w| = 1/2^53 := by
        rw [hv, hw, abs_of_neg] <;> norm_num
      rw [hvw]
      rcases lt_or_ge ((2:ℝ)^(0:ℤ)) d with h | h
      · obtain ⟨k, hk⟩ := double_multiple hd h
        have e : d - w = ((2*k - (2^54 - 3) : ℤ):ℝ)/2^53 := by
          rw [hk, hw]; push_cast; norm_num; ring
        rw [e, abs_div, abs_of_pos (show (0:ℝ) < 2^53 by norm_num)]
        refine div_le_div_of_nonneg_right ?_ (by norm_num)
        have : (1:ℤ) ≤ |2*k - (2^54 - 3)| := by
          rw [le_abs]; omega
        exact_mod_cast this
      · rw [abs_of_neg (by rw [hw]; norm_num at h ⊢; linarith)]
        rw [hw]; norm_num at h ⊢; linarith
    · exact B.nearest x d hd
  obtain ⟨R, hR⟩ : ∃ R : ℝ → ℝ, R = fun x =>
    if x = 0 then 0 else r (x/2^(Int.log 2 |x|))*2^(Int.log 2 |x|) := ⟨_, rfl⟩
  have Rd : ∀ x, IsDouble (R x) := by
    intro x; rw [hR]; dsimp only; split
    · exact ⟨0, 0, by norm_num, by norm_num⟩
    · exact isDouble_scale _ (rd _)
  have Rn : ∀ x d, IsDouble d → |R x - x| ≤ |d - x| := by
    intro x d hd
    rw [hR]; dsimp only; split
    · rename_i h; rw [h]; simp
    · obtain ⟨k, hk⟩ : ∃ k, k = Int.log 2 |x| := ⟨_, rfl⟩
      rw [← hk]
      have hp : (0:ℝ) < 2^k := by positivity
      have h1 := rn (x/2^k) (d*2^(-k)) (isDouble_scale _ hd)
      have e1 : r (x/2^k)*2^k - x = (r (x/2^k) - x/2^k)*2^k := by field_simp
      have e2 : d - x = (d*2^(-k) - x/2^k)*2^k := by rw [zpow_neg]; field_simp
      rw [e1, e2, abs_mul, abs_mul]
      exact mul_le_mul_of_nonneg_right h1 (abs_nonneg _)
  refine ⟨⟨R, Rd, Rn, fun _ => 1, B.cos, B.exp, B.ln, B.acos, B.asin, B.atan2, B.powf,
    fun x n => x^n⟩, ⟨?_, ?_, ?_⟩, ?_, ?_⟩
  · intro x
    show R (2*x) = 2*R x
    rw [hR]; dsimp only
    by_cases hx : x = 0
    · simp [hx]
    · rw [if_neg hx, if_neg (by simp [hx]), abs_mul, abs_of_pos (show (0:ℝ) < 2 by norm_num),
        log_twice (abs_pos.mpr hx), zpow_add₀ (by norm_num), zpow_one]
      have e : 2*x/(2^(Int.log 2 |x|)*2) = x/2^(Int.log 2 |x|) := by
        have : (0:ℝ) < 2^(Int.log 2 |x|) := by positivity
        field_simp
      rw [e]; ring
  · intro x; show x^(2:ℤ) = x*x; rw [show (2:ℤ) = ((2:ℕ):ℤ) from rfl, zpow_natCast, pow_two]
  · intro x; simp
  · show R (2^54 - 3) = 2^54 - 4
    have hl : Int.log 2 |((2:ℝ)^54 - 3)| = 53 := by
      rw [abs_of_pos (by norm_num)]
      have h1 := Int.zpow_log_le_self (b := 2) (R := ℝ) (by norm_num)
        (show (0:ℝ) < 2^54 - 3 by norm_num)
      have h2 := Int.lt_zpow_succ_log_self (b := 2) (R := ℝ) (by norm_num) ((2:ℝ)^54 - 3)
      obtain ⟨j, hj⟩ : ∃ j, j = Int.log 2 ((2:ℝ)^54 - 3) := ⟨_, rfl⟩
      push_cast at h1 h2
      rw [← hj] at h1 h2 ⊢
      have a : (2:ℝ)^j < 2^(54:ℤ) := lt_of_le_of_lt h1 (by norm_num)
      have b : (2:ℝ)^(53:ℤ) < 2^(j + 1) := lt_of_le_of_lt (by norm_num) h2
      have a' := (zpow_lt_zpow_iff_right₀ (by norm_num : (1:ℝ) < 2)).mp a
      have b' := (zpow_lt_zpow_iff_right₀ (by norm_num : (1:ℝ) < 2)).mp b
      omega
    rw [hR]; dsimp only
    rw [if_neg (by norm_num), hl, hr]; dsimp only
    rw [if_pos (by rw [hw]; norm_num), hv]; norm_num
  · intro x; rfl

open DoubleExample

variable {A : DoubleArith}

theorem target_sound : SoundDoubles (mat A) := by
  have h0 : (0.0 : Dbl A).val = 0 := zero_val
  have h1 : (1.0 : Dbl A).val = 1 := one_val
  refine ⟨?_, ?_, ?_, ?_, ?_⟩
  · intro m hm; simp only [mat, List.mem_singleton] at hm; rw [hm, h1]; norm_num
  · intro a ha b hb
    simp only [mat, List.mem_singleton] at ha hb
    exact .inl (by rw [ha, hb])
  · intro m hm; simp only [mat, List.mem_singleton] at hm; rw [hm, h1]; norm_num
  · intro m hm; simp only [mat, List.mem_singleton] at hm; rw [hm, h0]
  · intro x y z cs hcs c hc
    simp only [mat, geom, Except.ok.injEq] at hcs
    rw [← hcs, List.mem_singleton] at hc
    rw [hc, h1]; norm_num

theorem ion_sound : SoundDouble (mat A) (ion A) := by
  have h0 : (0.0 : Dbl A).val = 0 := zero_val
  have h1 : (1.0 : Dbl A).val = 1 := one_val
  refine ⟨?_, ?_, ?_, ?_⟩
  · simp only [ion, h1]; norm_num
  · intro b hb; simp only [mat, List.mem_singleton] at hb
    exact .inl (by rw [hb]; rfl)
  · simp only [ion, h1]; norm_num
  · simp only [ion, h0]; norm_num

/-- Hydrogen and helium, tritium and helium 3 are apart. -/
example : EqualOrApart 1.008 4.0026 ∧ EqualOrApart 3.016049 3.016029 ∧ EqualOrApart 1 1 := by
  refine ⟨.inr ?_, .inr ?_, .inl rfl⟩ <;> rw [le_abs] <;> norm_num

end DoubleEnergyExample

open DoubleExample DoubleEnergyExample in
/-- Beside `C108_run_partial`: a run with a collision meets its hypotheses. -/
example : ∃ A : DoubleArith, RegularArith A ∧ ∃ out t',
    single_ion_bca (rcpr A) 2 (ion A) (mat A) (options A) (zeros A) = .ok (out, t') ∧
    out.length = 1 ∧ ∀ q ∈ out, 0 ≤ q.E.val := by
  obtain ⟨A, hA, -⟩ := regular_exists
  obtain ⟨out, t', h, hl⟩ := run (A := A)
  exact ⟨A, hA, out, t', h, hl, C108_run_partial hA _ _ _ 2 _ _ _ _ target_sound ion_sound rfl rfl
    (.inr fun _ _ _ => rfl) h⟩

open DoubleEnergyExample in
/-- Beside `C108_refuted`: its hypotheses can be met. -/
example : ∃ (A : DoubleArith) (Ma Mb E theta : Dbl A), RegularArith A ∧
    (E - (collision_result Ma Mb E 1.0 1.0 theta .MOLIERE).recoil_energy).val < 0 := by
  obtain ⟨A, hA, heven, hsin⟩ := regular_exists
  refine ⟨A, ⟨2^53 - 1, 2^53 - 1, 0, by norm_num, by norm_num⟩,
    ⟨2^53 - 2, 2^53 - 2, 0, by norm_num, by norm_num⟩, 1.0, 1.0, hA, ?_⟩
  have h1 : |(sin ((1.0 : Dbl A)/2.0) : Dbl A).val| = 1 := by
    show |A.rnd (A.sin _)| = 1
    rw [hsin, rnd_double A isDouble_one]; norm_num
  refine lt_of_eq_of_lt (C108_refuted hA heven _ _ 1.0 1.0 1.0 1.0 .MOLIERE rfl rfl one_val h1) ?_
  norm_num

end RustBCA
