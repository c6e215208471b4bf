import Verif.Ieee
import Verif.Props.YieldsF64
import Verif.Props.Input
import Verif.Props.Lib
import Verif.Proofs.IeeeInterval

/-!
# C124: the direction of an incident ion, as doubles

`from_input` and `default_incident` divide a direction by its length.  In Rust's `f64`, with rounding, underflow,
overflow and special values.
-/

namespace RustBCA
open Scalar Spec

/-- Finite doubles near the components of a vector. -/
structure Spec.Near {L : Libm} (v : Vec3 (Ieee L)) (u : Vec3 ℝ) (e : ℝ) : Prop where
  x : ∃ a, B64.toX v.x = .fin a ∧ |a - u.x| ≤ e
  y : ∃ a, B64.toX v.y = .fin a ∧ |a - u.y| ≤ e
  z : ∃ a, B64.toX v.z = .fin a ∧ |a - u.z| ≤ e

/-- The length of a vector. -/
noncomputable def Spec.lengthOf (x y z : ℝ) : ℝ := Real.sqrt (x^2 + y^2 + z^2)

/-! ## Operations in range -/

theorem toX_mul_fin (L : Libm) {a b : Ieee L} {x y : ℝ} (ha : B64.toX a = .fin x) (hb : B64.toX b = .fin y)
    (h : |ieeeRound (x*y)| < 2^(1024:ℤ)) : B64.toX (a*b : Ieee L) = .fin (ieeeRound (x*y)) := by
  show B64.toX (B64.ofX _ (XReal.mul (B64.toX a) (B64.toX b))) = _
  rw [ha, hb]
  exact B64.toX_ofReal h

theorem toX_add_fin' (L : Libm) {a b : Ieee L} {x y : ℝ} (ha : B64.toX a = .fin x) (hb : B64.toX b = .fin y)
    (h : |ieeeRound (x + y)| < 2^(1024:ℤ)) : B64.toX (a + b : Ieee L) = .fin (ieeeRound (x + y)) := by
  show B64.toX (B64.ofX _ (XReal.add (B64.toX a) (B64.toX b))) = _
  rw [ha, hb]
  exact B64.toX_ofReal h

theorem toX_div_fin (L : Libm) {a b : Ieee L} {x y : ℝ} (ha : B64.toX a = .fin x) (hb : B64.toX b = .fin y) (hy : y ≠ 0)
    (h : |ieeeRound (x/y)| < 2^(1024:ℤ)) : B64.toX (a/b : Ieee L) = .fin (ieeeRound (x/y)) := by
  obtain ⟨neg, e⟩ := toX_div L a b hb hy
  rw [e, ha, xdiv_fin _ hy]
  exact B64.toX_ofReal h

theorem toX_sqrt (L : Libm) {a : Ieee L} {x : ℝ} (ha : B64.toX a = .fin x) (hx : 0 < x)
    (h : |ieeeRound (Real.sqrt x)| < 2^(1024:ℤ)) : B64.toX (sqrt a : Ieee L) = .fin (ieeeRound (Real.sqrt x)) := by
  have key : ∀ a : B64, a.toX = .fin x → B64.toX (B64.sqrt a) = .fin (ieeeRound (Real.sqrt x)) := by
    intro a ha
    cases a with
    | num w =>
      show B64.toX (B64.ofX _ (XReal.sqrt (B64.toX (.num w)))) = _
      rw [ha]
      have : XReal.sqrt (.fin x) = .fin (Real.sqrt x) := by
        show (if x < 0 then _ else _) = _
        rw [if_neg (not_lt.2 hx.le)]
      rw [this]
      exact B64.toX_ofReal h
    | negZero => injection ha with ha; exact absurd ha.symm hx.ne'
    | pinf => cases ha
    | ninf => cases ha
    | nan => cases ha
  exact key a ha

/-! ## Rounding errors relative to a number that is not too small -/

/-- If `S ≥ 2^-900`, the part of the rounding error due to underflow is nothing beside `S`. -/
theorem round_rel {S a : ℝ} (hS : (2:ℝ)^(-900:ℤ) ≤ S) : |ieeeRound a - a| ≤ 2^(-53:ℤ)*|a| + 2^(-100:ℤ)*S := by
  refine (ieeeRound_error' a).trans (add_le_add_right ?_ _)
  calc (2:ℝ)^(-1075:ℤ) ≤ 2^(-1000:ℤ) := zpow_le_zpow_right₀ (by norm_num) (by norm_num)
    _ = 2^(-100:ℤ)*2^(-900:ℤ) := by rw [← zpow_add₀ (by norm_num)]; norm_num
    _ ≤ _ := mul_le_mul_of_nonneg_left hS (by positivity)

theorem sum_arith {e t S a b c a' b' c' s1 s : ℝ} (he : 0 ≤ e) (he2 : e ≤ 1/8) (ht : 0 ≤ t) (ht2 : 16*t ≤ e)
    (ha : 0 ≤ a) (hb : 0 ≤ b) (hc : 0 ≤ c) (hS : S = a + b + c) (hS0 : 0 ≤ S) (ha0 : 0 ≤ a') (hb0 : 0 ≤ b') (hc0 : 0 ≤ c')
    (hs0 : 0 ≤ s1) (h1 : |a' - a| ≤ e*|a| + t*S) (h2 : |b' - b| ≤ e*|b| + t*S) (h3 : |c' - c| ≤ e*|c| + t*S)
    (h4 : |s1 - (a' + b')| ≤ e*|a' + b'| + t*S) (h5 : |s - (s1 + c')| ≤ e*|s1 + c'| + t*S) : |s - S| ≤ 8*e*S := by
  rw [abs_of_nonneg ha] at h1
  rw [abs_of_nonneg hb] at h2
  rw [abs_of_nonneg hc] at h3
  rw [abs_of_nonneg (show 0 ≤ a' + b' by linarith)] at h4
  rw [abs_of_nonneg (show 0 ≤ s1 + c' by linarith)] at h5
  rw [abs_le] at h1 h2 h3 h4 h5
  have tS : 16*(t*S) ≤ e*S := by nlinarith
  have eS : e*S ≤ 1/8*S := mul_le_mul_of_nonneg_right he2 hS0
  have x1 : a' + b' ≤ 2*S := by nlinarith [mul_nonneg he ha, mul_nonneg he hb, mul_nonneg he hc, mul_nonneg ht hS0]
  have x2 : e*(a' + b') ≤ e*(2*S) := mul_le_mul_of_nonneg_left x1 he
  have x3 : s1 + c' ≤ 3*S := by
    nlinarith [mul_nonneg he ha, mul_nonneg he hb, mul_nonneg he hc, mul_nonneg ht hS0]
  have x4 : e*(s1 + c') ≤ e*(3*S) := mul_le_mul_of_nonneg_left x3 he
  have e1 : e*S = e*a + e*b + e*c := by rw [hS]; ring
  have x5 : 0 ≤ e*(a' + b') := by positivity
  have x6 : 0 ≤ e*(s1 + c') := by positivity
  rw [abs_le]
  constructor
  · linarith [h1.1, h2.1, h3.1, h4.1, h5.1]
  · linarith [h1.2, h2.2, h3.2, h4.2, h5.2]

theorem sqrt_arith {s N : ℝ} (hN : 0 < N) (hs : 0 ≤ s) {d : ℝ} (h : |s - N^2| ≤ d*N^2) : |Real.sqrt s - N| ≤ d*N := by
  have h1 := Real.sq_sqrt hs
  have h2 := Real.sqrt_nonneg s
  have e : |s - N^2| = |Real.sqrt s - N| * (Real.sqrt s + N) := by
    rw [← abs_of_nonneg (show 0 ≤ Real.sqrt s + N by linarith), ← abs_mul]
    congr 1
    linear_combination -h1
  rw [e] at h
  have h3 : |Real.sqrt s - N| * N ≤ |Real.sqrt s - N| * (Real.sqrt s + N) :=
    mul_le_mul_of_nonneg_left (by linarith) (abs_nonneg _)
  have h4 : |Real.sqrt s - N| * N ≤ d*N*N := by rw [mul_assoc, ← pow_two]; linarith
  exact le_of_mul_le_mul_right h4 hN

theorem quotient_arith {x m N d : ℝ} (hN : 0 < N) (hx : |x| ≤ N) (hd : d ≤ 1/2) (h : |m - N| ≤ d*N) :
    |x/m - x/N| ≤ 2*d := by
  have hd0 : 0 ≤ d := by
    by_contra hc
    push Not at hc
    have := abs_nonneg (m - N)
    nlinarith
  have hm : N/2 ≤ m := by
    have := (abs_le.1 h).1
    nlinarith
  have hm0 : 0 < m := by linarith
  have e : x/m - x/N = (x/N)*((N - m)/m) := by field_simp
  rw [e, abs_mul, abs_div, abs_div, abs_of_pos hN, abs_of_pos hm0, abs_sub_comm]
  have h1 : |x|/N ≤ 1 := (div_le_one hN).2 hx
  have h2 : |m - N|/m ≤ 2*d := by
    rw [div_le_iff₀ hm0]
    nlinarith
  calc |x|/N*(|m - N|/m) ≤ 1*(2*d) := mul_le_mul h1 h2 (by positivity) (by norm_num)
    _ = _ := one_mul _

theorem range_arith {m N P q : ℝ} (h1 : m ≤ 2*N) (h2 : N ≤ P) (h3 : 4 ≤ q) (h4 : 0 < P) : m < q*P := by
  nlinarith

set_option maxHeartbeats 1000000 in
/-- The direction as the program computes it. -/
theorem normalised_near (L : Libm) {a b c : Ieee L} {x y z : ℝ} (ha : B64.toX a = .fin x) (hb : B64.toX b = .fin y)
    (hc : B64.toX c = .fin z) (hlo : (2:ℝ)^(-450:ℤ) ≤ max |x| (max |y| |z|)) (hhi : max |x| (max |y| |z|) ≤ 2^(500:ℤ)) :
    Near ⟨a/sqrt (a*a + b*b + c*c), b/sqrt (a*a + b*b + c*c), c/sqrt (a*a + b*b + c*c)⟩
      ⟨x/lengthOf x y z, y/lengthOf x y z, z/lengthOf x y z⟩ (2^(-46:ℤ)) := by
  obtain ⟨e, he⟩ : ∃ e, e = (2:ℝ)^(-53:ℤ) := ⟨_, rfl⟩
  obtain ⟨t, ht⟩ : ∃ t, t = (2:ℝ)^(-100:ℤ) := ⟨_, rfl⟩
  obtain ⟨S, hS⟩ : ∃ S, S = x*x + y*y + z*z := ⟨_, rfl⟩
  have e8 : e ≤ 1/128 := by rw [he]; norm_num
  have e0 : 0 ≤ e := by rw [he]; positivity
  have t0 : 0 ≤ t := by rw [ht]; positivity
  have te : 16*t ≤ e := by rw [he, ht]; norm_num
  have hx2 : 0 ≤ x*x := mul_self_nonneg x
  have hy2 : 0 ≤ y*y := mul_self_nonneg y
  have hz2 : 0 ≤ z*z := mul_self_nonneg z
  have hSlo : (2:ℝ)^(-900:ℤ) ≤ S := by
    have h2 : (2:ℝ)^(-900:ℤ) = 2^(-450:ℤ)*2^(-450:ℤ) := by rw [← zpow_add₀ (by norm_num)]; norm_num
    have hp : (0:ℝ) ≤ 2^(-450:ℤ) := by positivity
    rw [h2, hS]
    rcases le_max_iff.1 hlo with h | h
    · have := mul_le_mul h h hp (abs_nonneg x)
      rw [abs_mul_abs_self] at this
      linarith
    · rcases le_max_iff.1 h with h | h
      · have := mul_le_mul h h hp (abs_nonneg y)
        rw [abs_mul_abs_self] at this
        linarith
      · have := mul_le_mul h h hp (abs_nonneg z)
        rw [abs_mul_abs_self] at this
        linarith
  have big : ∀ w : ℝ, |w| ≤ 2^(500:ℤ) → w*w ≤ 2^(1000:ℤ) := by
    intro w hw
    have h2 : (2:ℝ)^(1000:ℤ) = 2^(500:ℤ)*2^(500:ℤ) := by rw [← zpow_add₀ (by norm_num)]; norm_num
    rw [h2, ← abs_mul_abs_self]
    exact mul_le_mul hw hw (abs_nonneg _) (by positivity)
  have bx := big x ((le_max_left _ _).trans hhi)
  have by' := big y ((le_max_left _ _).trans ((le_max_right _ _).trans hhi))
  have bz := big z ((le_max_right _ _).trans ((le_max_right _ _).trans hhi))
  have hS0 : 0 < S := lt_of_lt_of_le (by positivity) hSlo
  have hShi : S ≤ 3*2^(1000:ℤ) := by rw [hS]; linarith
  have r := fun w => round_rel (a := w) hSlo
  simp only [← he, ← ht] at r
  have nn : ∀ w : ℝ, 0 ≤ w → 0 ≤ ieeeRound w := by
    intro w hw
    have := ieeeRound_mono hw
    rwa [ieeeRound_zero] at this
  have small : ∀ w : ℝ, 0 ≤ w → w ≤ 4*S → |ieeeRound w| < 2^(1024:ℤ) := by
    intro w hw hw2
    have h1 := r w
    rw [abs_of_nonneg hw] at h1
    rw [abs_of_nonneg (nn w hw)]
    have h2 : e*w ≤ 1/128*w := mul_le_mul_of_nonneg_right e8 hw
    have h3 : 16*t*S ≤ e*S := mul_le_mul_of_nonneg_right te hS0.le
    have h4 : e*S ≤ 1/128*S := mul_le_mul_of_nonneg_right e8 hS0.le
    have h5 := (abs_le.1 h1).2
    have h6 : ieeeRound w ≤ 5*S := by linarith
    have h7 : (2:ℝ)^(1024:ℤ) = 2^(24:ℤ)*2^(1000:ℤ) := by rw [← zpow_add₀ (by norm_num)]; norm_num
    have h8 : (0:ℝ) < 2^(1000:ℤ) := by positivity
    rw [h7, show (2:ℝ)^(24:ℤ) = 16777216 by norm_num]
    revert hShi h8
    generalize (2:ℝ)^(1000:ℤ) = P
    intro hShi h8
    linarith
  have ea := toX_mul_fin L ha ha (small _ hx2 (by rw [hS]; linarith))
  have eb := toX_mul_fin L hb hb (small _ hy2 (by rw [hS]; linarith))
  have ec := toX_mul_fin L hc hc (small _ hz2 (by rw [hS]; linarith))
  have up : ∀ w : ℝ, 0 ≤ w → ieeeRound w ≤ w + e*w + t*S := by
    intro w hw
    have h1 := r w
    rw [abs_of_nonneg hw] at h1
    linarith [(abs_le.1 h1).2]
  have tS : 16*(t*S) ≤ e*S := by nlinarith
  have eS : e*S ≤ 1/128*S := mul_le_mul_of_nonneg_right e8 hS0.le
  have e1 : e*S = e*(x*x) + e*(y*y) + e*(z*z) := by rw [hS]; ring
  have pa := mul_nonneg e0 hx2
  have pb := mul_nonneg e0 hy2
  have pc := mul_nonneg e0 hz2
  have ab : ieeeRound (x*x) + ieeeRound (y*y) ≤ 2*S := by linarith [up _ hx2, up _ hy2]
  have na := nn _ hx2
  have nb := nn _ hy2
  have nc := nn _ hz2
  have es1 := toX_add_fin' L ea eb (small _ (by linarith) (by linarith))
  have ns1 := nn _ (show 0 ≤ ieeeRound (x*x) + ieeeRound (y*y) by linarith)
  have ue : e*(ieeeRound (x*x) + ieeeRound (y*y)) ≤ e*(2*S) := mul_le_mul_of_nonneg_left ab e0
  have sc : ieeeRound (ieeeRound (x*x) + ieeeRound (y*y)) + ieeeRound (z*z) ≤ 2*S := by
    linarith [up _ hx2, up _ hy2, up _ hz2, up _ (show 0 ≤ ieeeRound (x*x) + ieeeRound (y*y) by linarith)]
  have es := toX_add_fin' L es1 ec (small _ (by linarith) (by linarith))
  obtain ⟨s, hs⟩ : ∃ s, s = ieeeRound (ieeeRound (ieeeRound (x*x) + ieeeRound (y*y)) + ieeeRound (z*z)) := ⟨_, rfl⟩
  rw [← hs] at es
  have herr : |s - S| ≤ 8*e*S := by
    rw [hs]
    exact sum_arith e0 (by linarith) t0 te hx2 hy2 hz2 hS hS0.le na nb nc ns1 (r _) (r _) (r _) (r _) (r _)
  have hN2 : lengthOf x y z^2 = S := by
    unfold lengthOf
    rw [Real.sq_sqrt (by positivity), hS]; ring
  have hN0 : 0 < lengthOf x y z := by
    unfold lengthOf
    refine Real.sqrt_pos.2 ?_
    have : x^2 + y^2 + z^2 = S := by rw [hS]; ring
    rw [this]; exact hS0
  obtain ⟨N, hN⟩ : ∃ N, N = lengthOf x y z := ⟨_, rfl⟩
  rw [← hN] at hN2 hN0 ⊢
  have s0 : 0 < s := by
    have := (abs_le.1 herr).1
    have : 8*e*S ≤ 8*(1/128)*S := by nlinarith
    linarith
  have hq : |Real.sqrt s - N| ≤ 8*e*N := sqrt_arith hN0 s0.le (by rw [hN2]; exact herr)
  -- sizes of the length
  have Nlo : (2:ℝ)^(-450:ℤ) ≤ N := by
    refine le_of_sq_le_sq ?_ hN0.le
    rw [hN2]
    refine le_trans (le_of_eq ?_) hSlo
    rw [pow_two, ← zpow_add₀ (by norm_num)]; norm_num
  have Nhi : N ≤ 2^(502:ℤ) := by
    refine le_of_sq_le_sq ?_ (by positivity)
    rw [hN2]
    refine hShi.trans ?_
    have h2 : ((2:ℝ)^(502:ℤ))^2 = 2^(4:ℤ)*2^(1000:ℤ) := by
      rw [pow_two, ← zpow_add₀ (by norm_num), ← zpow_add₀ (by norm_num)]; norm_num
    rw [h2]
    exact mul_le_mul_of_nonneg_right (by norm_num) (by positivity)
  have q0 : 0 ≤ Real.sqrt s := Real.sqrt_nonneg s
  have r2 : ∀ w : ℝ, |ieeeRound w - w| ≤ e*|w| + t*N := by
    intro w
    rw [he, ht]
    exact round_rel (le_trans (zpow_le_zpow_right₀ (by norm_num) (by norm_num)) Nlo)
  have hqe : e*N ≤ 1/128*N := mul_le_mul_of_nonneg_right e8 hN0.le
  have tN : 16*(t*N) ≤ e*N := by nlinarith
  have q2 : Real.sqrt s ≤ 2*N := by linarith [(abs_le.1 hq).2]
  have hm := r2 (Real.sqrt s)
  rw [abs_of_nonneg q0] at hm
  have hm2 : e*Real.sqrt s ≤ e*(2*N) := mul_le_mul_of_nonneg_left q2 e0
  obtain ⟨m, hmd⟩ : ∃ m, m = ieeeRound (Real.sqrt s) := ⟨_, rfl⟩
  rw [← hmd] at hm
  have hmN : |m - N| ≤ 16*e*N := by
    rw [abs_le] at hm hq ⊢
    constructor <;> linarith [hm.1, hm.2, hq.1, hq.2]
  have m0 : 0 < m := by linarith [(abs_le.1 hmN).1]
  have em := toX_sqrt L es s0 (by
    rw [← hmd, abs_of_pos m0]
    have h1 : m ≤ 2*N := by linarith [(abs_le.1 hmN).2]
    have h2 : (2:ℝ)^(1024:ℤ) = 2^(522:ℤ)*2^(502:ℤ) := by rw [← zpow_add₀ (by norm_num)]; norm_num
    have h3 : (2:ℝ)^(2:ℤ) ≤ 2^(522:ℤ) := zpow_le_zpow_right₀ (by norm_num) (by norm_num)
    have h4 : (0:ℝ) < 2^(502:ℤ) := by positivity
    rw [h2]
    exact range_arith h1 Nhi (by simpa [show (2:ℝ)^(2:ℤ) = 4 by norm_num] using h3) h4)
  rw [← hmd] at em
  have comp : ∀ (w : Ieee L) (v : ℝ), B64.toX w = .fin v → |v| ≤ N →
      ∃ a', B64.toX (w/sqrt (a*a + b*b + c*c) : Ieee L) = .fin a' ∧ |a' - v/N| ≤ 2^(-46:ℤ) := by
    intro w v hw hv
    have hd := quotient_arith hN0 hv (by linarith) hmN
    have hv1 : |v/N| ≤ 1 := by rw [abs_div, abs_of_pos hN0]; exact (div_le_one hN0).2 hv
    have hvm : |v/m| ≤ 2 := by
      have h1 : |v/m| ≤ |v/m - v/N| + |v/N| := by
        calc |v/m| = |(v/m - v/N) + v/N| := by congr 1; ring
          _ ≤ _ := abs_add_le _ _
      linarith
    have h3 := round_rel (S := 1) (a := v/m) (by
      calc (2:ℝ)^(-900:ℤ) ≤ 2^(0:ℤ) := zpow_le_zpow_right₀ (by norm_num) (by norm_num)
        _ = 1 := by norm_num)
    rw [← he, ← ht] at h3
    have h4 : e*|v/m| ≤ e*2 := mul_le_mul_of_nonneg_left hvm e0
    have h5 : |ieeeRound (v/m)| ≤ 4 := by
      have : |ieeeRound (v/m)| ≤ |ieeeRound (v/m) - v/m| + |v/m| := by
        calc |ieeeRound (v/m)| = |(ieeeRound (v/m) - v/m) + v/m| := by congr 1; ring
          _ ≤ _ := abs_add_le _ _
      linarith
    refine ⟨_, toX_div_fin L hw em m0.ne' (small_in_range (h5.trans (by norm_num))), ?_⟩
    have h6 : |ieeeRound (v/m) - v/N| ≤ |ieeeRound (v/m) - v/m| + |v/m - v/N| := by
      calc |ieeeRound (v/m) - v/N| = |(ieeeRound (v/m) - v/m) + (v/m - v/N)| := by congr 1; ring
        _ ≤ _ := abs_add_le _ _
    have h7 : 128*e = (2:ℝ)^(-46:ℤ) := by rw [he]; norm_num
    rw [← h7]
    linarith
  have below : ∀ v : ℝ, v^2 ≤ S → |v| ≤ N := by
    intro v hv
    refine abs_le_of_sq_le_sq' ?_ hN0.le |> abs_le.2
    rw [hN2]; exact hv
  exact ⟨comp a x ha (below x (by rw [hS]; nlinarith)), comp b y hb (below y (by rw [hS]; nlinarith)),
    comp c z hc (below z (by rw [hS]; nlinarith))⟩

/-! ## Overflow and special values -/

theorem square_not_below (L : Libm) {a : Ieee L} {x : ℝ} (ha : B64.toX a = .fin x) : NotBelowZero (a*a : Ieee L) := by
  show NotBelowZero (B64.ofX _ (XReal.mul (B64.toX a) (B64.toX a)))
  rw [ha]
  exact ofReal_not_below (mul_self_nonneg x)

theorem square_overflow (L : Libm) {a : Ieee L} {x : ℝ} (ha : B64.toX a = .fin x) (hx : (2:ℝ)^(512:ℤ) ≤ |x|) :
    B64.toX (a*a : Ieee L) = .pinf := by
  show B64.toX (B64.ofX _ (XReal.mul (B64.toX a) (B64.toX a))) = _
  rw [ha]
  show B64.toX (B64.ofReal _ (x*x)) = _
  have h2 : (2:ℝ)^(1024:ℤ) ≤ x*x := by
    rw [show (2:ℝ)^(1024:ℤ) = 2^(512:ℤ)*2^(512:ℤ) by rw [← zpow_add₀ (by norm_num)]; norm_num, ← abs_mul_abs_self x]
    exact mul_le_mul hx hx (by positivity) (abs_nonneg _)
  have h3 := ieeeRound_mono h2
  rw [ieeeRound_exact ⟨1, 1024, by norm_num, by norm_num, by rw [Int.cast_one, one_mul]⟩] at h3
  rw [B64.toX_overflow (h3.trans (le_abs_self _)), if_neg (not_lt.2 (mul_self_nonneg x))]

theorem add_pinf (L : Libm) {a b : Ieee L} (ha : B64.toX a = .pinf) (hb : NotBelowZero b) :
    B64.toX (a + b : Ieee L) = .pinf := by
  show B64.toX (B64.ofX _ (XReal.add (B64.toX a) (B64.toX b))) = _
  rcases hb with hb | ⟨y, -, hb⟩ <;> rw [ha, hb] <;> rfl

theorem pinf_add (L : Libm) {a b : Ieee L} (hb : B64.toX b = .pinf) (ha : NotBelowZero a) :
    B64.toX (a + b : Ieee L) = .pinf := by
  show B64.toX (B64.ofX _ (XReal.add (B64.toX a) (B64.toX b))) = _
  rcases ha with ha | ⟨y, -, ha⟩ <;> rw [ha, hb] <;> rfl

theorem sqrt_pinf (L : Libm) {a : Ieee L} (ha : B64.toX a = .pinf) : B64.toX (sqrt a : Ieee L) = .pinf := by
  have key : ∀ a : B64, a.toX = .pinf → B64.toX (B64.sqrt a) = .pinf := by
    intro a ha
    cases a <;> first | rfl | cases ha
  exact key a ha

/-- A number divided by infinity is zero; infinity divided by infinity is NaN. -/
theorem div_pinf (L : Libm) {a b : Ieee L} (hb : B64.toX b = .pinf) :
    (∀ x, B64.toX a = .fin x → B64.toX (a/b : Ieee L) = .fin 0) ∧
      ((B64.toX a = .pinf ∨ B64.toX a = .ninf) → B64.toX (a/b : Ieee L) = .nan) := by
  have key : ∀ b : B64, b.toX = .pinf → ∃ neg, B64.toX (B64.div a b) = B64.toX (B64.ofX neg (XReal.div (B64.toX a) .pinf)) := by
    intro b hb
    cases b with
    | pinf => exact ⟨_, rfl⟩
    | num x => cases hb
    | negZero => cases hb
    | ninf => cases hb
    | nan => cases hb
  obtain ⟨neg, h⟩ := key b hb
  constructor
  · intro x hx
    refine Eq.trans h ?_
    rw [hx]
    show B64.toX (B64.ofReal neg 0) = _
    have := B64.toX_ofReal (neg := neg) (x := 0) (by rw [ieeeRound_zero, abs_zero]; positivity)
    rwa [ieeeRound_zero] at this
  · intro hx
    refine Eq.trans h ?_
    rcases hx with hx | hx <;> rw [hx] <;> rfl

theorem limit_within (L : Libm) : Within (1.0 - epsilon : Ieee L) (1 - 2^(-50:ℤ)) 1 := by
  have h1 : Within (1.0 : Ieee L) 1 1 := within_lit (by norm_num) (by norm_num)
    (isF64_of (m := 1) (e := 0) (by norm_num) (by norm_num) (by norm_num) (by norm_num))
    (isF64_of (m := 1) (e := 0) (by norm_num) (by norm_num) (by norm_num) (by norm_num))
  have h2 : Within (epsilon : Ieee L) 0 (2^(-50:ℤ)) := by
    obtain ⟨y, a, b, c, -⟩ := round_within (neg := false) (x := (2:ℝ)^(-52:ℤ)) (lo := 0) (hi := 2^(-50:ℤ)) (by positivity)
      (zpow_le_zpow_right₀ (by norm_num) (by norm_num)) isF64_zero
      (isF64_of (m := 1) (e := -50) (by norm_num) (by norm_num) (by norm_num) (by norm_num))
    exact ⟨y, a, b, c⟩
  exact within_sub h1 h2 le_rfl (by norm_num)
    (isF64_of (m := 2^50 - 1) (e := -50) (by norm_num) (by norm_num) (by norm_num) (by norm_num))
    (isF64_of (m := 1) (e := 0) (by norm_num) (by norm_num) (by norm_num) (by norm_num))

theorem toX_abs {a : B64} {x : ℝ} (ha : a.toX = .fin x) : (B64.abs a).toX = .fin |x| := by
  cases a with
  | num w => injection ha with ha; subst ha; rfl
  | negZero => injection ha with ha; subst ha; show XReal.fin 0 = _; rw [abs_zero]
  | pinf => cases ha
  | ninf => cases ha
  | nan => cases ha

/-- The test for directions along the x axis. -/
theorem gimbal_passes (L : Libm) {a : Ieee L} {x : ℝ} (ha : B64.toX a = .fin x) (hx : |x| < 1 - 2^(-50:ℤ)) :
    (Scalar.abs a <. 1.0 - epsilon) = true := by
  obtain ⟨y, h1, h2, -⟩ := limit_within L
  have h3 : B64.toX (Scalar.abs a : Ieee L) = .fin |x| := toX_abs ha
  show XReal.lt (B64.toX (Scalar.abs a : Ieee L)) (B64.toX (1.0 - epsilon : Ieee L)) = true
  rw [h1, h3]
  exact decide_eq_true (by linarith)

theorem nan_refused_abs (L : Libm) {a : Ieee L} (b : Ieee L) (ha : B64.toX a = .nan) : (Scalar.abs a <. b) = false := by
  have key : ∀ a : B64, a.toX = .nan → (B64.abs a).toX = .nan := by
    intro a ha
    cases a <;> first | rfl | cases ha
  show XReal.lt (B64.toX (Scalar.abs a : Ieee L)) (B64.toX b) = false
  have : B64.toX (Scalar.abs a : Ieee L) = .nan := key a ha
  rw [this]
  rfl

theorem zero_over_zero (L : Libm) {a b c : Ieee L} (ha : B64.toX a = .fin 0) (hb : B64.toX b = .fin 0)
    (hc : B64.toX c = .fin 0) : B64.toX (a/sqrt (a*a + b*b + c*c) : Ieee L) = .nan := by
  have hr : |ieeeRound 0| < (2:ℝ)^(1024:ℤ) := by rw [ieeeRound_zero, abs_zero]; positivity
  have sq : ∀ a : Ieee L, B64.toX a = .fin 0 → B64.toX (a*a : Ieee L) = .fin 0 := by
    intro a ha
    have := toX_mul_fin L ha ha (by rw [mul_zero]; exact hr)
    rwa [mul_zero, ieeeRound_zero] at this
  have ad : ∀ a b : Ieee L, B64.toX a = .fin 0 → B64.toX b = .fin 0 → B64.toX (a + b : Ieee L) = .fin 0 := by
    intro a b ha hb
    have := toX_add_fin' L ha hb (by rw [add_zero]; exact hr)
    rwa [add_zero, ieeeRound_zero] at this
  have rt : ∀ a : B64, a.toX = .fin 0 → (B64.sqrt a).toX = .fin 0 := by
    intro a ha
    cases a with
    | num w =>
      show B64.toX (B64.ofX _ (XReal.sqrt (B64.toX (.num w)))) = _
      rw [ha]
      have : XReal.sqrt (.fin 0) = .fin 0 := by
        show (if (0:ℝ) < 0 then _ else _) = _
        rw [if_neg (lt_irrefl _), Real.sqrt_zero]
      rw [this]
      show B64.toX (B64.ofReal false 0) = _
      rw [B64.toX_ofReal hr, ieeeRound_zero]
    | negZero => rfl
    | pinf => cases ha
    | ninf => cases ha
    | nan => cases ha
  have dv : ∀ b : B64, b.toX = .fin 0 → (B64.div a b).toX = .nan := by
    intro b hb
    have h0 : XReal.div (B64.toX a) (.fin 0) = .nan := by
      rw [ha]
      show (if (0:ℝ) = 0 then _ else _) = _
      rw [if_pos rfl]
      simp [XReal.signInf]
    cases b with
    | num w =>
      show B64.toX (B64.ofX _ (XReal.div (B64.toX a) (B64.toX (.num w)))) = _
      rw [hb, h0]; rfl
    | negZero =>
      show B64.toX (B64.neg (B64.ofX _ (XReal.div (B64.toX a) (.fin 0)))) = _
      rw [h0]; rfl
    | pinf => cases hb
    | ninf => cases hb
    | nan => cases hb
  exact dv _ (rt _ (ad _ _ (ad _ _ (sq _ ha) (sq _ hb)) (sq _ hc)))

/-! ## The two constructors -/

/-- **C124** (from_input) Whatever the length of the direction in the input, within the range of doubles, an accepted
ion gets that direction with length 1, each component to `2^-46`. -/
theorem C124_input (L : Libm) {q : ParticleInput (Ieee L)} {o : Options (Ieee L)} {p : Particle (Ieee L)} {x y z : ℝ}
    (hx : B64.toX q.ux = .fin x) (hy : B64.toX q.uy = .fin y) (hz : B64.toX q.uz = .fin z)
    (hlo : (2:ℝ)^(-450:ℤ) ≤ max |x| (max |y| |z|)) (hhi : max |x| (max |y| |z|) ≤ 2^(500:ℤ))
    (h : Particle.from_input q o = .ok p) :
    Near p.dir ⟨x/lengthOf x y z, y/lengthOf x y z, z/lengthOf x y z⟩ (2^(-46:ℤ)) := by
  rw [(from_input_fields h).1]
  exact normalised_near L hx hy hz hlo hhi

/-- **C124** (library functions) The same. -/
theorem C124_default_incident (L : Libm) {m Z E Ec Es x0 ux uy uz : Ieee L} {p : Particle (Ieee L)} {x y z : ℝ}
    (hx : B64.toX ux = .fin x) (hy : B64.toX uy = .fin y) (hz : B64.toX uz = .fin z)
    (hlo : (2:ℝ)^(-450:ℤ) ≤ max |x| (max |y| |z|)) (hhi : max |x| (max |y| |z|) ≤ 2^(500:ℤ))
    (h : Particle.default_incident m Z E Ec Es x0 ux uy uz = .ok p) :
    Near p.dir ⟨x/lengthOf x y z, y/lengthOf x y z, z/lengthOf x y z⟩ (2^(-46:ℤ)) := by
  rw [(default_incident_ok h).1.dir]
  exact normalised_near L hx hy hz hlo hhi

theorem from_input_accepts {F : Type} [Scalar F] {q : ParticleInput F} {o : Options F}
    (h1 : (Scalar.abs (q.ux/sqrt (q.ux*q.ux + q.uy*q.uy + q.uz*q.uz)) <. 1.0 - epsilon) = true) (h2 : (q.E >. 0.0) = true) :
    ∃ p, Particle.from_input q o = .ok p ∧ p.dir = ⟨q.ux/sqrt (q.ux*q.ux + q.uy*q.uy + q.uz*q.uz),
      q.uy/sqrt (q.ux*q.ux + q.uy*q.uy + q.uz*q.uz), q.uz/sqrt (q.ux*q.ux + q.uy*q.uy + q.uz*q.uz)⟩ := by
  simp only [Particle.from_input, h1, h2, rassert, if_true, bind, Except.bind, pure, Except.pure]
  exact ⟨_, rfl, rfl⟩

/-- **C124** (accepted) Directions whose angle with the x axis is more than about `2^-22` are accepted. -/
theorem C124_accepts (L : Libm) {q : ParticleInput (Ieee L)} {o : Options (Ieee L)} {x y z : ℝ}
    (hx : B64.toX q.ux = .fin x) (hy : B64.toX q.uy = .fin y) (hz : B64.toX q.uz = .fin z)
    (hlo : (2:ℝ)^(-450:ℤ) ≤ max |x| (max |y| |z|)) (hhi : max |x| (max |y| |z|) ≤ 2^(500:ℤ))
    (hE : (q.E >. 0.0) = true) (hg : |x/lengthOf x y z| ≤ 1 - 2^(-45:ℤ)) : ∃ p, Particle.from_input q o = .ok p := by
  obtain ⟨⟨a, h1, h2⟩, -, -⟩ := normalised_near L hx hy hz hlo hhi
  have h3 : |a| < 1 - 2^(-50:ℤ) := by
    have h4 : |a| ≤ |a - x/lengthOf x y z| + |x/lengthOf x y z| := by
      calc |a| = |(a - x/lengthOf x y z) + x/lengthOf x y z| := by congr 1; ring
        _ ≤ _ := abs_add_le _ _
    have h5 : (2:ℝ)^(-46:ℤ) + 2^(-50:ℤ) < 2^(-45:ℤ) := by norm_num
    simp only at h2
    revert h5 hg h2
    generalize (2:ℝ)^(-46:ℤ) = p1
    generalize (2:ℝ)^(-50:ℤ) = p2
    generalize (2:ℝ)^(-45:ℤ) = p3
    intro h5 hg h2
    linarith
  obtain ⟨p, hp, -⟩ := from_input_accepts (o := o) (gimbal_passes L h1 h3) hE
  exact ⟨p, hp⟩

/-- **C124** (no direction) The direction (0, 0, 0), with zeros of either sign, is refused. -/
theorem C124_zero_refused (L : Libm) {q : ParticleInput (Ieee L)} (o : Options (Ieee L))
    (hx : B64.toX q.ux = .fin 0) (hy : B64.toX q.uy = .fin 0) (hz : B64.toX q.uz = .fin 0) :
    ∃ message, Particle.from_input q o = .error (.panic message) := by
  simp only [Particle.from_input, nan_refused_abs L _ (zero_over_zero L hx hy hz), rassert, Bool.false_eq_true, if_false,
    bind, Except.bind]
  exact ⟨_, rfl⟩

/-- **C124** (refuted: accepted ions have a direction) A direction with a component of `2^512` or more is accepted,
whatever the other components are, and the ion gets the direction (0, 0, 0). -/
theorem C124_refuted_huge (L : Libm) {q : ParticleInput (Ieee L)} (o : Options (Ieee L)) {x y z : ℝ}
    (hx : B64.toX q.ux = .fin x) (hy : B64.toX q.uy = .fin y) (hz : B64.toX q.uz = .fin z)
    (hhi : (2:ℝ)^(512:ℤ) ≤ max |x| (max |y| |z|)) (hE : (q.E >. 0.0) = true) :
    ∃ p, Particle.from_input q o = .ok p ∧ B64.toX p.dir.x = .fin 0 ∧ B64.toX p.dir.y = .fin 0 ∧ B64.toX p.dir.z = .fin 0 := by
  have hm : B64.toX (sqrt (q.ux*q.ux + q.uy*q.uy + q.uz*q.uz) : Ieee L) = .pinf := by
    apply sqrt_pinf
    rcases le_max_iff.1 hhi with h | h
    · exact add_pinf L (add_pinf L (square_overflow L hx h) (square_not_below L hy)) (square_not_below L hz)
    · rcases le_max_iff.1 h with h | h
      · exact add_pinf L (pinf_add L (square_overflow L hy h) (square_not_below L hx)) (square_not_below L hz)
      · exact pinf_add L (square_overflow L hz h) (add_not_below (square_not_below L hx) (square_not_below L hy))
  have zx := (div_pinf L hm).1 _ hx
  obtain ⟨p, hp, hd⟩ := from_input_accepts (o := o) (gimbal_passes L zx (by rw [abs_zero]; norm_num)) hE
  exact ⟨p, hp, by rw [hd]; exact zx, by rw [hd]; exact (div_pinf L hm).1 _ hy, by rw [hd]; exact (div_pinf L hm).1 _ hz⟩

/-- **C124** (refuted: accepted ions have a direction) An infinite y component is accepted; the ion's direction is
(0, NaN, 0). -/
theorem C124_refuted_infinite (L : Libm) {q : ParticleInput (Ieee L)} (o : Options (Ieee L)) {x z : ℝ}
    (hx : B64.toX q.ux = .fin x) (hy : B64.toX q.uy = .pinf ∨ B64.toX q.uy = .ninf) (hz : B64.toX q.uz = .fin z)
    (hE : (q.E >. 0.0) = true) :
    ∃ p, Particle.from_input q o = .ok p ∧ B64.toX p.dir.x = .fin 0 ∧ B64.toX p.dir.y = .nan ∧ B64.toX p.dir.z = .fin 0 := by
  have hyy : B64.toX (q.uy*q.uy : Ieee L) = .pinf := by
    show B64.toX (B64.ofX _ (XReal.mul (B64.toX q.uy) (B64.toX q.uy))) = _
    rcases hy with hy | hy <;> rw [hy] <;> rfl
  have hm : B64.toX (sqrt (q.ux*q.ux + q.uy*q.uy + q.uz*q.uz) : Ieee L) = .pinf :=
    sqrt_pinf L (add_pinf L (pinf_add L hyy (square_not_below L hx)) (square_not_below L hz))
  have zx := (div_pinf L hm).1 _ hx
  obtain ⟨p, hp, hd⟩ := from_input_accepts (o := o) (gimbal_passes L zx (by rw [abs_zero]; norm_num)) hE
  exact ⟨p, hp, by rw [hd]; exact zx, by rw [hd]; exact (div_pinf L hm).2 hy, by rw [hd]; exact (div_pinf L hm).1 _ hz⟩

theorem isF64_value {a : B64} {x : ℝ} (h : a.toX = .fin x) : IsF64 x := by
  cases a with
  | num w => injection h with h; rw [← h]; exact w.2
  | negZero => injection h with h; rw [← h]; exact isF64_zero
  | pinf => cases h
  | ninf => cases h
  | nan => cases h

/-- **C124** (what becomes of such an ion) A particle whose direction is (0, 0, 0) does not move: after a step of any
finite length it is where it was. -/
theorem C124_stuck (L : Libm) {p : Particle (Ieee L)} (mfp deflection : Ieee L) {d x y z : ℝ}
    (hx : B64.toX p.pos.x = .fin x) (hy : B64.toX p.pos.y = .fin y) (hz : B64.toX p.pos.z = .fin z)
    (ux : B64.toX p.dir_old.x = .fin 0) (uy : B64.toX p.dir_old.y = .fin 0) (uz : B64.toX p.dir_old.z = .fin 0)
    (hd : B64.toX (mfp + p.asymptotic_deflection - deflection : Ieee L) = .fin d) :
    B64.toX (p.advance mfp deflection).1.pos.x = .fin x ∧ B64.toX (p.advance mfp deflection).1.pos.y = .fin y ∧
      B64.toX (p.advance mfp deflection).1.pos.z = .fin z := by
  have key : ∀ (a u D : Ieee L) (w : ℝ), B64.toX a = .fin w → B64.toX u = .fin 0 → B64.toX D = .fin d →
      B64.toX (a + u*D : Ieee L) = .fin w := by
    intro a u D w ha hu hD
    have h1 := toX_mul_fin L hu hD (by rw [zero_mul, ieeeRound_zero, abs_zero]; positivity)
    rw [zero_mul, ieeeRound_zero] at h1
    have hw := isF64_value ha
    have h2 := toX_add_fin' L ha h1 (by rw [add_zero, ieeeRound_exact hw.1]; exact hw.2)
    rwa [add_zero, ieeeRound_exact hw.1] at h2
  unfold Particle.advance Particle.update_trajectory_tracker
  split
  · split <;> exact ⟨key _ _ _ _ hx ux hd, key _ _ _ _ hy uy hd, key _ _ _ _ hz uz hd⟩
  · exact ⟨key _ _ _ _ hx ux hd, key _ _ _ _ hy uy hd, key _ _ _ _ hz uz hd⟩

end RustBCA
