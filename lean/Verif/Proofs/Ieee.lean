import Verif.Ieee
import Verif.Spec.DoubleEnergy

/-!
# `Dbl` and `Ieee`

In the range of normal numbers IEEE 754 rounds like one of the arithmetics `DoubleArith`, the one that resolves
ties to even: what is proved for all of them describes `f64` as long as nothing overflows or becomes subnormal.
-/

namespace RustBCA
open Spec

/-- Rounding to 53 digits, ties to even, exponents unbounded. -/
noncomputable def evenRound (x : ℝ) : ℝ :=
  nearestEven (x/(2:ℝ)^(Int.log 2 |x| - 52))*(2:ℝ)^(Int.log 2 |x| - 52)

theorem evenRound_zero : evenRound 0 = 0 := by
  unfold evenRound nearestEven
  simp

theorem log_bounds {x : ℝ} (hx : 0 < x) : (2:ℝ)^Int.log 2 x ≤ x ∧ x < (2:ℝ)^(Int.log 2 x + 1) := by
  constructor
  · have := Int.zpow_log_le_self (b := 2) (by norm_num) hx
    exact_mod_cast this
  · have := Int.lt_zpow_succ_log_self (b := 2) (by norm_num) x
    exact_mod_cast this

theorem evenRound_double (x : ℝ) : IsDouble (evenRound x) := by
  refine ⟨nearestEven (x/(2:ℝ)^(Int.log 2 |x| - 52)), _, ?_, rfl⟩
  by_cases hx : x = 0
  · rw [hx]; unfold nearestEven; simp
  have hp : 0 < (2:ℝ)^(Int.log 2 |x| - 52) := by positivity
  have h := (log_bounds (abs_pos.2 hx)).2
  have := nearestEven_bound (y := x/(2:ℝ)^(Int.log 2 |x| - 52)) (n := 2^53) (by
    rw [abs_div, abs_of_pos hp, div_le_iff₀ hp]
    refine h.le.trans (le_of_eq ?_)
    push_cast
    rw [show (9007199254740992:ℝ) = (2:ℝ)^(53:ℤ) by norm_num, ← zpow_add₀ (by norm_num)]
    congr 1; ring)
  exact_mod_cast this

theorem evenRound_nearest (x d : ℝ) (hd : IsDouble d) : |evenRound x - x| ≤ |d - x| := by
  by_cases hx0 : x = 0
  · rw [hx0, evenRound_zero, sub_zero, abs_zero]
    exact abs_nonneg _
  obtain ⟨l, hl⟩ : ∃ l, l = Int.log 2 |x| := ⟨_, rfl⟩
  obtain ⟨w, hw⟩ : ∃ w, w = (2:ℝ)^(l - 52) := ⟨_, rfl⟩
  have hw0 : 0 < w := by rw [hw]; positivity
  have near : ∀ k : ℤ, |evenRound x - x| ≤ |k*w - x| := by
    intro k
    have e1 : ∀ j : ℤ, |(j:ℝ)*w - x| = |j - x/w| * w := by
      intro j
      rw [← abs_of_pos hw0, ← abs_mul, abs_of_pos hw0]
      congr 1
      field_simp
    unfold evenRound
    rw [← hl, ← hw, e1, e1]
    exact mul_le_mul_of_nonneg_right (nearestEven_nearest _ k) hw0.le
  have hP := (log_bounds (abs_pos.2 hx0)).1
  rw [← hl] at hP
  have hPw : (2:ℝ)^l = ((2^52:ℤ):ℝ)*w := by
    rw [hw, show ((2^52:ℤ):ℝ) = (2:ℝ)^(52:ℤ) by norm_num, ← zpow_add₀ (by norm_num)]
    congr 1; ring
  by_cases hle : |d| ≤ (2:ℝ)^l
  · have hfar : |x| - |d| ≤ |d - x| := by rw [abs_sub_comm]; exact abs_sub_abs_le_abs_sub _ _
    rcases le_total 0 x with hx | hx
    · have := near (2^52)
      rw [← hPw] at this
      rw [abs_of_nonneg hx] at hP hfar
      rw [abs_of_nonpos (a := (2:ℝ)^l - x) (by linarith)] at this
      linarith
    · have := near (-2^52)
      rw [show ((-2^52:ℤ):ℝ)*w = -(((2^52:ℤ):ℝ)*w) by push_cast; ring, ← hPw] at this
      rw [abs_of_nonpos hx] at hP hfar
      rw [abs_of_nonneg (a := -(2:ℝ)^l - x) (by linarith)] at this
      linarith
  · push Not at hle
    rcases le_total 0 d with h | h
    · rw [abs_of_nonneg h] at hle
      obtain ⟨k, hk⟩ := double_multiple hd hle
      rw [hk, ← hw]
      exact near k
    · rw [abs_of_nonpos h] at hle
      obtain ⟨k, hk⟩ := double_multiple (isDouble_neg hd) hle
      have : d = ((-k : ℤ) : ℝ)*w := by rw [hw]; push_cast; linarith
      rw [this]
      exact near (-k)

theorem log_double {x : ℝ} (hx : x ≠ 0) : Int.log 2 |2*x| = Int.log 2 |x| + 1 := by
  have h0 := abs_pos.2 hx
  have h1 : 0 < |2*x| := abs_pos.2 (mul_ne_zero two_ne_zero hx)
  obtain ⟨a, b⟩ := log_bounds h0
  have e : |2*x| = 2*|x| := by rw [abs_mul]; norm_num
  apply le_antisymm
  · have : Int.log 2 |2*x| < Int.log 2 |x| + 1 + 1 := by
      refine (Int.lt_zpow_iff_log_lt (b := 2) (by norm_num) h1).1 ?_
      push_cast
      rw [e, zpow_add_one₀ (by norm_num) (Int.log 2 |x| + 1)]
      linarith
    omega
  · refine (Int.zpow_le_iff_le_log (b := 2) (by norm_num) h1).1 ?_
    push_cast
    rw [e, zpow_add_one₀ (by norm_num)]
    linarith

theorem evenRound_scales (x : ℝ) : evenRound (2*x) = 2*evenRound x := by
  by_cases hx : x = 0
  · rw [hx, mul_zero, evenRound_zero, mul_zero]
  unfold evenRound
  rw [log_double hx, show Int.log 2 |x| + 1 - 52 = (Int.log 2 |x| - 52) + 1 by ring, zpow_add_one₀ (by norm_num)]
  have : 2*x/((2:ℝ)^(Int.log 2 |x| - 52)*2) = x/(2:ℝ)^(Int.log 2 |x| - 52) := by
    have hp : (2:ℝ)^(Int.log 2 |x| - 52) ≠ 0 := by positivity
    field_simp
  rw [this]
  ring

/-- In the range of normal numbers both roundings agree. -/
theorem ieeeRound_eq_evenRound {x : ℝ} (h : (2:ℝ)^(-1022:ℤ) ≤ |x|) : ieeeRound x = evenRound x := by
  have hx : 0 < |x| := lt_of_lt_of_le (by positivity) h
  have hlog : -1022 ≤ Int.log 2 |x| :=
    (Int.zpow_le_iff_le_log (b := 2) (by norm_num) (x := -1022) hx).1 (by exact_mod_cast h)
  unfold ieeeRound evenRound
  rw [show lastDigit x = Int.log 2 |x| - 52 from max_eq_left (by omega)]

/-- Ties go to the even neighbour. -/
theorem evenRound_tie : evenRound (2^54 - 3) = 2^54 - 4 := by
  have hl : Int.log 2 |(2^54 - 3 : ℝ)| = 53 := by
    apply le_antisymm
    · have : Int.log 2 |(2^54 - 3 : ℝ)| < 54 :=
        (Int.lt_zpow_iff_log_lt (b := 2) (by norm_num) (by norm_num)).1 (by norm_num)
      omega
    · exact (Int.zpow_le_iff_le_log (b := 2) (by norm_num) (by norm_num)).1 (by norm_num)
  unfold evenRound
  rw [hl]
  have e : (2^54 - 3 : ℝ)/(2:ℝ)^((53:ℤ) - 52) = ((2^53 - 2 : ℤ) : ℝ) + 1/2 := by norm_num
  have hf : ⌊(2^54 - 3 : ℝ)/(2:ℝ)^((53:ℤ) - 52)⌋ = 2^53 - 2 := by
    rw [e, Int.floor_intCast_add]; norm_num
  have hfr : Int.fract ((2^54 - 3 : ℝ)/(2:ℝ)^((53:ℤ) - 52)) = 1/2 := by
    rw [e, Int.fract_intCast_add, Int.fract_eq_self.2 ⟨by norm_num, by norm_num⟩]
  unfold nearestEven
  rw [hf, hfr, if_neg (lt_irrefl _), if_neg (lt_irrefl _), if_pos (by decide)]
  norm_num

/-- IEEE 754 rounding is one of the arithmetics of `Dbl`, in the range of normal numbers. -/
theorem ieee_arith : ∃ A : DoubleArith, RegularArith A ∧ A.rnd (2^54 - 3) = 2^54 - 4 ∧
    ∀ x, (2:ℝ)^(-1022:ℤ) ≤ |x| → ieeeRound x = A.rnd x :=
  ⟨⟨evenRound, evenRound_double, evenRound_nearest, Real.sin, Real.cos, Real.exp, Real.log, Real.arccos, Real.arcsin,
    fun y x => Complex.arg ⟨x, y⟩, fun x y => x ^ y, fun x n => x ^ n⟩,
   ⟨evenRound_scales, fun x => by show x ^ (2:ℤ) = x*x; rw [zpow_two], fun x => Real.abs_sin_le_one x⟩,
   evenRound_tie, fun _ h => ieeeRound_eq_evenRound h⟩

end RustBCA
