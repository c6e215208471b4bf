import Verif.Double
import Verif.Special

/-!
# IEEE 754 double precision

`Dbl` rounds but knows no overflow, no subnormal numbers and no special values; `XReal` knows infinities and NaN
but does not round.  `Ieee L` is Rust's `f64` in full: 53 binary digits, exponents from -1074 to 971, rounding to
nearest with ties to even, overflow to infinity, subnormal numbers, two zeros, two infinities, NaN.  (All NaN are
one value: the program does not look at their bits.)  The functions whose result Rust leaves to the platform
(`sin`, `powf`, `powi`, …) are the parameter `L`, of which nothing is assumed.
-/

namespace RustBCA
open Classical

/-! ## Rounding -/

/-- The integer nearest to a number, the even one of two equally near. -/
noncomputable def nearestEven (y : ℝ) : ℤ :=
  if Int.fract y < 1/2 then ⌊y⌋
  else if 1/2 < Int.fract y then ⌊y⌋ + 1
  else if Even ⌊y⌋ then ⌊y⌋ else ⌊y⌋ + 1

/-- The exponent of the last digit of a number: 53 digits from the first one, but no digit below `2^-1074`. -/
noncomputable def lastDigit (x : ℝ) : ℤ := max (Int.log 2 |x| - 52) (-1074)

/-- Rounding to nearest, ties to even, subnormal numbers included. -/
noncomputable def ieeeRound (x : ℝ) : ℝ := nearestEven (x/(2:ℝ)^lastDigit x)*(2:ℝ)^lastDigit x

/-- Numbers with 53 digits, none below `2^-1074`. -/
def OnGrid (x : ℝ) : Prop := ∃ m e : ℤ, |m| ≤ 2^53 ∧ -1074 ≤ e ∧ x = m*(2:ℝ)^e

/-- The finite values of `f64`. -/
def IsF64 (x : ℝ) : Prop := OnGrid x ∧ |x| < 2^(1024:ℤ)

theorem nearestEven_error (y : ℝ) : |(nearestEven y : ℝ) - y| ≤ 1/2 := by
  have h := Int.floor_add_fract y
  have h0 := Int.fract_nonneg y
  have h1 := Int.fract_lt_one y
  unfold nearestEven
  split_ifs with a b c <;> push_cast <;> rw [abs_le] <;> constructor <;> linarith

theorem nearestEven_nearest (y : ℝ) (k : ℤ) : |(nearestEven y : ℝ) - y| ≤ |(k:ℝ) - y| := by
  by_cases hk : k = nearestEven y
  · rw [hk]
  have h := nearestEven_error y
  have h1 : 1 ≤ |(k:ℝ) - nearestEven y| := by
    have : 1 ≤ |k - nearestEven y| := Int.one_le_abs (sub_ne_zero.2 hk)
    exact_mod_cast this
  have h2 : |(k:ℝ) - nearestEven y| ≤ |(k:ℝ) - y| + |(nearestEven y : ℝ) - y| := by
    calc |(k:ℝ) - nearestEven y| = |((k:ℝ) - y) - (nearestEven y - y)| := by congr 1; ring
      _ ≤ _ := abs_sub _ _
  linarith

theorem nearestEven_bound {y : ℝ} {n : ℕ} (h : |y| ≤ n) : |nearestEven y| ≤ n := by
  have h1 := nearestEven_error y
  have h2 : |(nearestEven y : ℝ)| < ((n + 1 : ℤ) : ℝ) := by
    calc |(nearestEven y : ℝ)| = |((nearestEven y : ℝ) - y) + y| := by congr 1; ring
      _ ≤ |(nearestEven y : ℝ) - y| + |y| := abs_add_le _ _
      _ < _ := by push_cast; linarith
  have h3 : |nearestEven y| < (n + 1 : ℤ) := by exact_mod_cast h2
  omega

theorem lastDigit_ge (x : ℝ) : -1074 ≤ lastDigit x := le_max_right _ _

theorem lastDigit_size (x : ℝ) : |x|/(2:ℝ)^lastDigit x ≤ 2^53 := by
  have hp : 0 < (2:ℝ)^lastDigit x := by positivity
  rw [div_le_iff₀ hp]
  have h2 : |x| < (2:ℝ)^(Int.log 2 |x| + 1) := by
    have := Int.lt_zpow_succ_log_self (b := 2) (by norm_num) |x|
    exact_mod_cast this
  calc |x| ≤ (2:ℝ)^(Int.log 2 |x| + 1) := h2.le
    _ ≤ (2:ℝ)^(53 + lastDigit x) := zpow_le_zpow_right₀ (by norm_num) (by
        have : Int.log 2 |x| - 52 ≤ lastDigit x := le_max_left _ _
        omega)
    _ = 2^53*(2:ℝ)^lastDigit x := by rw [zpow_add₀ (by norm_num)]; norm_cast

theorem ieeeRound_onGrid (x : ℝ) : OnGrid (ieeeRound x) := by
  refine ⟨nearestEven (x/(2:ℝ)^lastDigit x), lastDigit x, ?_, lastDigit_ge x, rfl⟩
  have hp : 0 < (2:ℝ)^lastDigit x := by positivity
  have := nearestEven_bound (y := x/(2:ℝ)^lastDigit x) (n := 2^53) (by
    rw [abs_div, abs_of_pos hp]; exact_mod_cast lastDigit_size x)
  exact_mod_cast this

theorem ieeeRound_zero : ieeeRound 0 = 0 := by
  unfold ieeeRound nearestEven
  simp

/-- No number on the grid is nearer. -/
theorem ieeeRound_nearest (x d : ℝ) (hd : OnGrid d) : |ieeeRound x - x| ≤ |d - x| := by
  by_cases hx0 : x = 0
  · rw [hx0, ieeeRound_zero, sub_zero, abs_zero]
    exact abs_nonneg _
  obtain ⟨w, hw⟩ : ∃ w, w = (2:ℝ)^lastDigit x := ⟨_, rfl⟩
  have hw0 : 0 < w := by rw [hw]; positivity
  have near : ∀ k : ℤ, |ieeeRound x - x| ≤ |k*w - x| := by
    intro k
    have e1 : ∀ j : ℤ, |(j:ℝ)*w - x| = |j - x/w| * w := by
      intro j
      rw [← abs_of_pos hw0, ← abs_mul, abs_of_pos hw0]
      congr 1
      field_simp
    unfold ieeeRound
    rw [← hw, e1, e1]
    exact mul_le_mul_of_nonneg_right (nearestEven_nearest _ k) hw0.le
  obtain ⟨m, e, hm, he, rfl⟩ := hd
  by_cases hle : lastDigit x ≤ e
  · obtain ⟨n, hn⟩ := Int.le.dest hle
    have := near (m*2^n)
    rw [hw] at this
    rwa [show ((m*2^n : ℤ):ℝ)*(2:ℝ)^lastDigit x = m*(2:ℝ)^e by
      rw [← hn, zpow_add₀ (by norm_num), zpow_natCast]; push_cast; ring] at this
  · -- a number with finer digits than those around `x` is not larger than the power of two below `x`
    push Not at hle
    have hmax : lastDigit x = Int.log 2 |x| - 52 := by
      unfold lastDigit at hle ⊢
      rcases max_choice (Int.log 2 |x| - 52) (-1074) with h | h
      · exact h
      · rw [h] at hle; omega
    have hP : (2:ℝ)^Int.log 2 |x| ≤ |x| := by
      have := Int.zpow_log_le_self (b := 2) (by norm_num) (abs_pos.2 hx0)
      exact_mod_cast this
    have hPw : (2:ℝ)^Int.log 2 |x| = ((2^52:ℤ):ℝ)*w := by
      rw [hw, hmax, show ((2^52:ℤ):ℝ) = (2:ℝ)^(52:ℤ) by norm_num, ← zpow_add₀ (by norm_num)]
      congr 1; ring
    have hd : |(m:ℝ)*(2:ℝ)^e| ≤ (2:ℝ)^Int.log 2 |x| := by
      have hp : 0 < (2:ℝ)^e := by positivity
      have hm' : |(m:ℝ)| ≤ 2^53 := by exact_mod_cast hm
      rw [abs_mul, abs_of_pos hp]
      calc |(m:ℝ)| * (2:ℝ)^e ≤ 2^53*(2:ℝ)^(Int.log 2 |x| - 53) := by
            refine mul_le_mul hm' (zpow_le_zpow_right₀ (by norm_num) (by omega)) hp.le (by positivity)
        _ = (2:ℝ)^Int.log 2 |x| := by
            rw [← zpow_natCast (2:ℝ) 53, ← zpow_add₀ (by norm_num)]
            congr 1; push_cast; ring
    have hfar : |x| - |(m:ℝ)*(2:ℝ)^e| ≤ |(m:ℝ)*(2:ℝ)^e - x| := by
      rw [abs_sub_comm]; exact abs_sub_abs_le_abs_sub _ _
    rcases le_total 0 x with hx | hx
    · have := near (2^52)
      rw [← hPw] at this
      rw [abs_of_nonneg hx] at hP hd hPw hfar this
      rw [abs_of_nonpos (a := (2:ℝ)^Int.log 2 x - x) (by linarith)] at this
      linarith
    · have := near (-2^52)
      rw [show ((-2^52:ℤ):ℝ)*w = -(((2^52:ℤ):ℝ)*w) by push_cast; ring, ← hPw] at this
      rw [abs_of_nonpos hx] at hP hd hPw hfar this
      rw [abs_of_nonneg (a := -(2:ℝ)^Int.log 2 (-x) - x) (by linarith)] at this
      linarith

/-- In the range of normal numbers the relative error is at most `2^-53`. -/
theorem ieeeRound_error {x : ℝ} (h : (2:ℝ)^(-1022:ℤ) ≤ |x|) : |ieeeRound x - x| ≤ 2^(-53:ℤ)*|x| := by
  have hx : 0 < |x| := lt_of_lt_of_le (by positivity) h
  have hlog : -1022 ≤ Int.log 2 |x| := by
    have := (Int.zpow_le_iff_le_log (b := 2) (by norm_num) (x := -1022) hx).1 (by exact_mod_cast h)
    exact this
  have hmax : lastDigit x = Int.log 2 |x| - 52 := max_eq_left (by omega)
  have hP : (2:ℝ)^Int.log 2 |x| ≤ |x| := by
    have := Int.zpow_log_le_self (b := 2) (by norm_num) hx
    exact_mod_cast this
  have hp : 0 < (2:ℝ)^lastDigit x := by positivity
  have e1 : |ieeeRound x - x| = |(nearestEven (x/(2:ℝ)^lastDigit x) : ℝ) - x/(2:ℝ)^lastDigit x| * (2:ℝ)^lastDigit x := by
    unfold ieeeRound
    rw [← abs_of_pos hp, ← abs_mul, abs_of_pos hp]
    congr 1
    field_simp
  rw [e1]
  calc _ ≤ 1/2*(2:ℝ)^lastDigit x := mul_le_mul_of_nonneg_right (nearestEven_error _) hp.le
    _ = 2^(-53:ℤ)*(2:ℝ)^Int.log 2 |x| := by
        rw [hmax, show (1/2:ℝ) = (2:ℝ)^(-1:ℤ) by norm_num, ← zpow_add₀ (by norm_num), ← zpow_add₀ (by norm_num)]
        congr 1; ring
    _ ≤ _ := mul_le_mul_of_nonneg_left hP (by positivity)

/-- Everywhere the error is at most `2^-53` of the number plus `2^-1075`. -/
theorem ieeeRound_error' (x : ℝ) : |ieeeRound x - x| ≤ 2^(-53:ℤ)*|x| + 2^(-1075:ℤ) := by
  by_cases hx : (2:ℝ)^(-1022:ℤ) ≤ |x|
  · exact (ieeeRound_error hx).trans (by linarith [show (0:ℝ) < 2^(-1075:ℤ) by positivity])
  · push Not at hx
    by_cases hx0 : x = 0
    · rw [hx0, ieeeRound_zero, sub_zero, abs_zero]
      positivity
    have hlog : Int.log 2 |x| < -1022 := by
      have := (Int.lt_zpow_iff_log_lt (b := 2) (by norm_num) (x := -1022) (abs_pos.2 hx0)).1 (by exact_mod_cast hx)
      exact this
    have hmax : lastDigit x = -1074 := max_eq_right (by omega)
    have hp : 0 < (2:ℝ)^lastDigit x := by positivity
    have e1 : |ieeeRound x - x| = |(nearestEven (x/(2:ℝ)^lastDigit x) : ℝ) - x/(2:ℝ)^lastDigit x| * (2:ℝ)^lastDigit x := by
      unfold ieeeRound
      rw [← abs_of_pos hp, ← abs_mul, abs_of_pos hp]
      congr 1
      field_simp
    rw [e1]
    have h1 : (1/2:ℝ)*(2:ℝ)^lastDigit x = 2^(-1075:ℤ) := by
      rw [hmax, show (1/2:ℝ) = (2:ℝ)^(-1:ℤ) by norm_num, ← zpow_add₀ (by norm_num)]
      congr 1
    have h2 := mul_le_mul_of_nonneg_right (nearestEven_error (x/(2:ℝ)^lastDigit x)) hp.le
    rw [h1] at h2
    exact h2.trans (le_add_of_nonneg_left (by positivity))

/-- Numbers on the grid are not rounded. -/
theorem ieeeRound_exact {x : ℝ} (h : OnGrid x) : ieeeRound x = x := by
  have := ieeeRound_nearest x x h
  rw [sub_self, abs_zero] at this
  linarith [abs_nonpos_iff.mp this]

theorem ieeeRound_mono {x y : ℝ} (h : x ≤ y) : ieeeRound x ≤ ieeeRound y := by
  rcases h.eq_or_lt with rfl | h
  · exact le_rfl
  by_contra hc
  push Not at hc
  have h1 := ieeeRound_nearest x (ieeeRound y) (ieeeRound_onGrid y)
  have h2 := ieeeRound_nearest y (ieeeRound x) (ieeeRound_onGrid x)
  rw [← sq_le_sq] at h1 h2
  nlinarith

theorem onGrid_neg {x : ℝ} (h : OnGrid x) : OnGrid (-x) := by
  obtain ⟨m, e, hm, he, rfl⟩ := h
  exact ⟨-m, e, by rwa [abs_neg], he, by push_cast; ring⟩

theorem isF64_neg {x : ℝ} (h : IsF64 x) : IsF64 (-x) := ⟨onGrid_neg h.1, by rw [abs_neg]; exact h.2⟩

theorem isF64_abs {x : ℝ} (h : IsF64 x) : IsF64 |x| := by
  rcases abs_choice x with hx | hx <;> rw [hx]
  · exact h
  · exact isF64_neg h

theorem isF64_zero : IsF64 0 := ⟨⟨0, 0, by norm_num, by norm_num, by norm_num⟩, by rw [abs_zero]; positivity⟩

/-! ## The values of `f64` and their operations -/

/-- A value of `f64`: a finite number (`0` is the positive zero), the negative zero, an infinity, NaN. -/
inductive B64 where
  | num (x : {x : ℝ // IsF64 x})
  | negZero
  | pinf
  | ninf
  | nan

namespace B64

/-- The number, without the sign of zeros. -/
def toX : B64 → XReal
  | num x => .fin x.1
  | negZero => .fin 0
  | pinf => .pinf
  | ninf => .ninf
  | nan => .nan

/-- The sign bit (of NaN: none). -/
noncomputable def isNeg : B64 → Bool
  | num x => decide (x.1 < 0)
  | negZero => true
  | ninf => true
  | _ => false

/-- The result of an operation whose exact result is `x`; an exact zero gets the sign `neg`. -/
noncomputable def ofReal (neg : Bool) (x : ℝ) : B64 :=
  if h : |ieeeRound x| < 2^(1024:ℤ) then
    if ieeeRound x = 0 ∧ (x < 0 ∨ x = 0 ∧ neg = true) then negZero
    else num ⟨ieeeRound x, ieeeRound_onGrid x, h⟩
  else if x < 0 then ninf else pinf

noncomputable def ofX (neg : Bool) : XReal → B64
  | .fin x => ofReal neg x
  | .pinf => pinf
  | .ninf => ninf
  | .nan => nan

noncomputable def neg : B64 → B64
  | num x => if x.1 = 0 then negZero else num ⟨-x.1, isF64_neg x.2⟩
  | negZero => num ⟨0, isF64_zero⟩
  | pinf => ninf
  | ninf => pinf
  | nan => nan

/-- A sum that is exactly zero is a positive zero unless both terms are negative zeros. -/
noncomputable def add (a b : B64) : B64 := ofX (a.isNeg && b.isNeg) (XReal.add a.toX b.toX)

noncomputable def sub (a b : B64) : B64 := add a (neg b)

noncomputable def mul (a b : B64) : B64 := ofX (a.isNeg ^^ b.isNeg) (XReal.mul a.toX b.toX)

/-- `XReal` divides by a positive zero. -/
noncomputable def div (a : B64) : B64 → B64
  | negZero => neg (ofX a.isNeg (XReal.div a.toX (.fin 0)))
  | b => ofX (a.isNeg ^^ b.isNeg) (XReal.div a.toX b.toX)

noncomputable def sqrt : B64 → B64
  | negZero => negZero
  | a => ofX false (XReal.sqrt a.toX)

noncomputable def abs : B64 → B64
  | num x => num ⟨|x.1|, isF64_abs x.2⟩
  | negZero => num ⟨0, isF64_zero⟩
  | nan => nan
  | _ => pinf

/-- `f64::signum`: `-1.0` for the negative zero. -/
noncomputable def signum : B64 → B64
  | nan => nan
  | a => ofReal false (if a.isNeg then -1 else 1)

noncomputable def floor : B64 → B64
  | negZero => negZero
  | a => ofX false (XReal.floor a.toX)

end B64

/-- The functions Rust takes from the platform's mathematics library. -/
structure Libm where
  sin : B64 → B64
  cos : B64 → B64
  exp : B64 → B64
  ln : B64 → B64
  acos : B64 → B64
  asin : B64 → B64
  atan2 : B64 → B64 → B64
  powf : B64 → B64 → B64
  powi : B64 → ℤ → B64

/-- Rust's `f64`. -/
def Ieee (_L : Libm) := B64

/-- Rust's `f64` with its operations and comparisons. -/
noncomputable instance (L : Libm) : Scalar (Ieee L) where
  add := B64.add
  sub := B64.sub
  mul := B64.mul
  div := B64.div
  neg := B64.neg
  ofScientific m s e := B64.ofReal false (OfScientific.ofScientific m s e)
  sqrt := B64.sqrt
  sin := L.sin
  cos := L.cos
  exp := L.exp
  ln := L.ln
  acos := L.acos
  asin := L.asin
  abs := B64.abs
  signum := B64.signum
  floor := B64.floor
  atan2 := L.atan2
  powf := L.powf
  powi := L.powi
  ofNat n := B64.ofReal false n
  toI32 a := XReal.toI32 (B64.toX a)
  pi := B64.ofReal false Real.pi
  infinity := B64.pinf
  maxVal := B64.ofReal false (((2^53 - 1 : ℤ) : ℝ)*(2:ℝ)^(971:ℤ))
  epsilon := B64.ofReal false ((2:ℝ)^(-52:ℤ))
  lt a b := XReal.lt (B64.toX a) (B64.toX b)
  le a b := XReal.le (B64.toX a) (B64.toX b)
  eq a b := XReal.eq (B64.toX a) (B64.toX b)
  isNaN a := XReal.isNaN (B64.toX a)

/-- The comparisons of `f64` obey the laws used by the order theorems. -/
instance (L : Libm) : ScalarOrd (Ieee L) where
  lt_irrefl a := ScalarOrd.lt_irrefl (B64.toX a)
  lt_trans a b c := ScalarOrd.lt_trans (B64.toX a) (B64.toX b) (B64.toX c)
  le_iff a b := ScalarOrd.le_iff (B64.toX a) (B64.toX b)
  eq_symm a b := ScalarOrd.eq_symm (B64.toX a) (B64.toX b)
  eq_trans a b c := ScalarOrd.eq_trans (B64.toX a) (B64.toX b) (B64.toX c)
  eq_refl a := ScalarOrd.eq_refl (B64.toX a)
  nan_eq a b := ScalarOrd.nan_eq (B64.toX a) (B64.toX b)
  nan_lt a b := ScalarOrd.nan_lt (B64.toX a) (B64.toX b)
  lt_eq_trans a b c := ScalarOrd.lt_eq_trans (B64.toX a) (B64.toX b) (B64.toX c)
  eq_lt_trans a b c := ScalarOrd.eq_lt_trans (B64.toX a) (B64.toX b) (B64.toX c)
  trichotomy a b := ScalarOrd.trichotomy (B64.toX a) (B64.toX b)

namespace B64

/-- Results in range are the rounded exact results. -/
theorem toX_ofReal {neg : Bool} {x : ℝ} (h : |ieeeRound x| < 2^(1024:ℤ)) : (ofReal neg x).toX = .fin (ieeeRound x) := by
  unfold ofReal
  rw [dif_pos h]
  split
  · rename_i hz; rw [hz.1]; rfl
  · rfl

/-- Results out of range are infinite. -/
theorem toX_overflow {neg : Bool} {x : ℝ} (h : 2^(1024:ℤ) ≤ |ieeeRound x|) :
    (ofReal neg x).toX = if x < 0 then .ninf else .pinf := by
  unfold ofReal
  rw [dif_neg (not_lt.2 h)]
  split <;> rfl

theorem not_nan_ofReal (neg : Bool) (x : ℝ) : XReal.isNaN (ofReal neg x).toX = false := by
  unfold ofReal
  split
  · split <;> rfl
  · split <;> rfl

end B64

end RustBCA
