import Verif.Scalar
import Mathlib.Data.Int.Log
import Mathlib.Algebra.Order.Round
import Mathlib.Tactic.Linarith
import Mathlib.Tactic.Positivity
import Mathlib.Tactic.NormNum
import Mathlib.Tactic.FieldSimp
import Mathlib.Tactic.Ring

/-!
# Double precision arithmetic

A second reading of the model, between exact arithmetic (`ℝ`) and the hardware (`Float`, about which
nothing can be proved): numbers have 53 binary digits and every arithmetic operation and square
root is rounded to a nearest such number, as IEEE 754 prescribes. Simplifications: exponents are
not bounded (no overflow, no underflow to subnormal numbers), so there are no infinities and NaNs;
`x/0` and square roots of negative numbers have Mathlib's values, as in `ℝ`. The functions whose
precision Rust leaves unspecified (`sin`, `powf`, `powi`, ...) are arbitrary.
-/

namespace RustBCA

/-- Numbers with a significand of at most 53 binary digits. -/
def IsDouble (x : ℝ) : Prop := ∃ m e : ℤ, |m| ≤ 2^53 ∧ x = m*(2:ℝ)^e

/-- An arithmetic on doubles: a rounding to nearest (which of two equally near numbers is taken is
left open) and the library functions, of which nothing is assumed. -/
structure DoubleArith where
  rnd : ℝ → ℝ
  is_double : ∀ x, IsDouble (rnd x)
  nearest : ∀ x d, IsDouble d → |rnd x - x| ≤ |d - x|
  sin : ℝ → ℝ
  cos : ℝ → ℝ
  exp : ℝ → ℝ
  ln : ℝ → ℝ
  acos : ℝ → ℝ
  asin : ℝ → ℝ
  atan2 : ℝ → ℝ → ℝ
  powf : ℝ → ℝ → ℝ
  powi : ℝ → ℤ → ℝ

/-- The doubles of an arithmetic. -/
def Dbl (_A : DoubleArith) := {x : ℝ // IsDouble x}

namespace Dbl
variable {A : DoubleArith}

/-- The real number a double stands for. -/
def val (x : Dbl A) : ℝ := x.1

/-- The double nearest to a real number. -/
def round (A : DoubleArith) (x : ℝ) : Dbl A := ⟨A.rnd x, A.is_double x⟩

end Dbl

theorem isDouble_neg {x : ℝ} (h : IsDouble x) : IsDouble (-x) := by
  obtain ⟨m, e, hm, rfl⟩ := h
  exact ⟨-m, e, by rwa [abs_neg], by push_cast; ring⟩

theorem isDouble_abs {x : ℝ} (h : IsDouble x) : IsDouble |x| := by
  rcases abs_choice x with hx | hx <;> rw [hx]
  · exact h
  · exact isDouble_neg h

theorem isDouble_two_pow (e : ℤ) : IsDouble ((2:ℝ)^e) := ⟨1, e, by norm_num, by simp⟩

theorem isDouble_int (m : ℤ) (h : |m| ≤ 2^53) : IsDouble (m : ℝ) := ⟨m, 0, h, by simp⟩

open Classical in
/-- Operations in double precision. `floor` of a double, the sign and the absolute value are exact;
`infinity` is a stand-in beyond the largest double, as for `ℝ`. -/
noncomputable instance (A : DoubleArith) : Scalar (Dbl A) where
  add a b := .round A (a.val + b.val)
  sub a b := .round A (a.val - b.val)
  mul a b := .round A (a.val*b.val)
  div a b := .round A (a.val/b.val)
  neg a := ⟨-a.val, isDouble_neg a.2⟩
  ofScientific m s e := .round A (OfScientific.ofScientific m s e)
  sqrt a := .round A (Real.sqrt a.val)
  sin a := .round A (A.sin a.val)
  cos a := .round A (A.cos a.val)
  exp a := .round A (A.exp a.val)
  ln a := .round A (A.ln a.val)
  acos a := .round A (A.acos a.val)
  asin a := .round A (A.asin a.val)
  abs a := ⟨|a.val|, isDouble_abs a.2⟩
  signum a := if a.val < 0 then ⟨-1, -1, 0, by norm_num, by norm_num⟩
    else ⟨1, 1, 0, by norm_num, by norm_num⟩
  floor a := .round A (⌊a.val⌋ : ℤ)
  atan2 a b := .round A (A.atan2 a.val b.val)
  powf a b := .round A (A.powf a.val b.val)
  powi a n := .round A (A.powi a.val n)
  ofNat n := .round A n
  toI32 a := max (-2147483648) (min 2147483647 (if a.val < 0 then ⌈a.val⌉ else ⌊a.val⌋))
  pi := .round A Real.pi
  infinity := ⟨(2:ℝ)^(1024:ℤ), isDouble_two_pow _⟩
  maxVal := ⟨((2^53 - 1 : ℤ) : ℝ)*(2:ℝ)^(971:ℤ), 2^53 - 1, 971, by norm_num, by norm_num⟩
  epsilon := ⟨(2:ℝ)^(-52:ℤ), isDouble_two_pow _⟩
  lt a b := decide (a.val < b.val)
  le a b := decide (a.val ≤ b.val)
  eq a b := decide (a.val = b.val)
  isNaN _ := false

namespace Dbl
variable {A : DoubleArith}

@[ext] theorem ext {a b : Dbl A} (h : a.val = b.val) : a = b := Subtype.ext h

@[simp] theorem val_round (x : ℝ) : (round A x).val = A.rnd x := rfl
theorem val_add (a b : Dbl A) : (a + b).val = A.rnd (a.val + b.val) := rfl
theorem val_sub (a b : Dbl A) : (a - b).val = A.rnd (a.val - b.val) := rfl
theorem val_mul (a b : Dbl A) : (a*b).val = A.rnd (a.val*b.val) := rfl
theorem val_div (a b : Dbl A) : (a/b).val = A.rnd (a.val/b.val) := rfl
theorem val_neg (a : Dbl A) : (-a).val = -a.val := rfl
theorem val_sqrt (a : Dbl A) : (Scalar.sqrt a).val = A.rnd (Real.sqrt a.val) := rfl
theorem val_scientific (m : Nat) (s : Bool) (e : Nat) :
    (OfScientific.ofScientific m s e : Dbl A).val = A.rnd (OfScientific.ofScientific m s e) := rfl
theorem lt_iff (a b : Dbl A) : (a <. b) = true ↔ a.val < b.val := decide_eq_true_iff
theorem le_iff (a b : Dbl A) : (a <=. b) = true ↔ a.val ≤ b.val := decide_eq_true_iff

end Dbl

instance (A : DoubleArith) : ScalarOrd (Dbl A) where
  lt_irrefl := by intro a; simp [Scalar.lt]
  lt_trans := by
    intro a b c; simp only [Scalar.lt, decide_eq_true_eq]; exact lt_trans
  le_iff := by
    intro a b; simp only [Scalar.lt, Scalar.le, Scalar.eq, decide_eq_true_eq]
    exact le_iff_lt_or_eq
  eq_symm := by intro a b; simp only [Scalar.eq, decide_eq_true_eq]; exact Eq.symm
  eq_trans := by intro a b c; simp only [Scalar.eq, decide_eq_true_eq]; exact Eq.trans
  eq_refl := by intro a _; simp [Scalar.eq]
  nan_eq := by intro a b _; rfl
  nan_lt := by intro a b _; exact ⟨rfl, rfl⟩
  lt_eq_trans := by
    intro a b c; simp only [Scalar.lt, Scalar.eq, decide_eq_true_eq]; intro h1 h2; rwa [← h2]
  eq_lt_trans := by
    intro a b c; simp only [Scalar.lt, Scalar.eq, decide_eq_true_eq]; intro h1 h2; rwa [h1]
  trichotomy := by
    intro a b _ _; simp only [Scalar.lt, Scalar.eq, decide_eq_true_eq]; exact lt_trichotomy _ _

/-! ## Rounding -/

/-- Doubles above `2^e` are multiples of `2^(e-52)`. -/
theorem double_multiple {d : ℝ} {e : ℤ} (h : IsDouble d) (hd : (2:ℝ)^e < d) :
    ∃ k : ℤ, d = k*(2:ℝ)^(e - 52) := by
  obtain ⟨m, f, hm, rfl⟩ := h
  have hm' : (m:ℝ) ≤ 2^53 := by
    have := (abs_le.mp hm).2
    exact_mod_cast this
  have hf : e - 52 ≤ f := by
    by_contra hc
    push Not at hc
    have h1 : (m:ℝ)*(2:ℝ)^f ≤ 2^53*(2:ℝ)^(e - 53) := by
      refine mul_le_mul hm' (zpow_le_zpow_right₀ (by norm_num) (by omega)) (by positivity)
        (by positivity)
    have h2 : (2:ℝ)^53*(2:ℝ)^(e - 53) = (2:ℝ)^e := by
      rw [← zpow_natCast (2:ℝ) 53, ← zpow_add₀ (by norm_num)]
      congr 1; push_cast; ring
    linarith
  obtain ⟨n, hn⟩ := Int.le.dest hf
  refine ⟨m*2^n, ?_⟩
  rw [← hn, zpow_add₀ (by norm_num), zpow_natCast]
  push_cast
  ring

/-- A nearest double exists. -/
theorem nearest_exists (x : ℝ) : ∃ c, IsDouble c ∧ (∀ d, IsDouble d → |c - x| ≤ |d - x|) := by
  have pos : ∀ x : ℝ, 0 < x → ∃ c, IsDouble c ∧ (∀ d, IsDouble d → |c - x| ≤ |d - x|) := by
    intro x hx
    obtain ⟨e, he⟩ : ∃ e, e = Int.log 2 x := ⟨_, rfl⟩
    have h1 : (2:ℝ)^e ≤ x := by
      have := Int.zpow_log_le_self (b := 2) (by norm_num) hx
      rw [← he] at this; exact_mod_cast this
    have h2 : x < (2:ℝ)^(e + 1) := by
      have := Int.lt_zpow_succ_log_self (b := 2) (by norm_num) x
      rw [← he] at this; exact_mod_cast this
    obtain ⟨w, hw⟩ : ∃ w, w = (2:ℝ)^(e - 52) := ⟨_, rfl⟩
    have hw0 : 0 < w := by rw [hw]; positivity
    have hnear : ∀ k : ℤ, |(round (x/w) : ℤ)*w - x| ≤ |k*w - x| := by
      intro k
      have := round_le (x/w) k
      have e1 : ∀ j : ℤ, |(j:ℝ)*w - x| = |x/w - j| * w := by
        intro j
        rw [← abs_of_pos hw0, ← abs_mul, abs_of_pos hw0, abs_sub_comm]
        congr 1
        field_simp
      rw [e1, e1]
      exact mul_le_mul_of_nonneg_right this hw0.le
    have e52 : (2:ℝ)^e = ((2^52:ℤ):ℝ)*w := by
      rw [hw, show ((2^52:ℤ):ℝ) = (2:ℝ)^(52:ℤ) by norm_num, ← zpow_add₀ (by norm_num)]
      congr 1; ring
    have e53 : (2:ℝ)^(e + 1) = ((2^53:ℤ):ℝ)*w := by
      rw [hw, show ((2^53:ℤ):ℝ) = (2:ℝ)^(53:ℤ) by norm_num, ← zpow_add₀ (by norm_num)]
      congr 1; ring
    refine ⟨(round (x/w) : ℤ)*w, ⟨round (x/w), e - 52, ?_, by rw [hw]⟩, ?_⟩
    · have hlt : x/w < ((2^53:ℤ):ℝ) := by rw [div_lt_iff₀ hw0, ← e53]; exact h2
      have h0 : 0 ≤ x/w := by positivity
      have ha := abs_sub_round (x/w)
      have ha' := abs_le.mp ha
      have hu : (round (x/w) : ℤ) ≤ 2^53 := by
        have : ((round (x/w) : ℤ) : ℝ) < ((2^53 + 1 : ℤ) : ℝ) := by push_cast at hlt ⊢; linarith
        have := Int.cast_lt.mp this
        omega
      have hl : 0 ≤ (round (x/w) : ℤ) := by
        have : ((-1 : ℤ) : ℝ) < ((round (x/w) : ℤ) : ℝ) := by push_cast; linarith
        have := Int.cast_lt.mp this
        omega
      rw [abs_of_nonneg hl]; exact hu
    · intro d hd
      rcases lt_or_ge ((2:ℝ)^e) d with hlt | hge
      · obtain ⟨k, hk⟩ := double_multiple hd hlt
        rw [hk, ← hw]
        exact hnear k
      · have := hnear (2^52)
        rw [← e52] at this
        refine this.trans ?_
        rw [abs_of_nonpos (by linarith), abs_of_nonpos (by linarith)]
        linarith
  rcases lt_trichotomy x 0 with h | h | h
  · obtain ⟨c, hc, hn⟩ := pos (-x) (by linarith)
    refine ⟨-c, isDouble_neg hc, fun d hd => ?_⟩
    have := hn (-d) (isDouble_neg hd)
    rw [← abs_neg (-c - x), ← abs_neg (d - x)]
    convert this using 2 <;> ring
  · subst h
    exact ⟨0, ⟨0, 0, by norm_num, by norm_num⟩, fun d _ => by simp⟩
  · exact pos x h

/-- Double arithmetics exist. -/
theorem doubleArith_nonempty : Nonempty DoubleArith := by
  choose f h1 h2 using nearest_exists
  exact ⟨⟨f, h1, h2, id, id, id, id, id, id, fun x _ => x, fun x _ => x, fun x _ => x⟩⟩

/-- The relative rounding error is at most `2^-53`. -/
theorem rnd_error (A : DoubleArith) (x : ℝ) : |A.rnd x - x| ≤ 2^(-53:ℤ)*|x| := by
  have pos : ∀ x : ℝ, 0 < x → ∃ d, IsDouble d ∧ |d - x| ≤ 2^(-53:ℤ)*|x| := by
    intro x hx
    obtain ⟨e, he⟩ : ∃ e, e = Int.log 2 x := ⟨_, rfl⟩
    have h1 : (2:ℝ)^e ≤ x := by
      have := Int.zpow_log_le_self (b := 2) (by norm_num) hx
      rw [← he] at this; exact_mod_cast this
    have h2 : x < (2:ℝ)^(e + 1) := by
      have := Int.lt_zpow_succ_log_self (b := 2) (by norm_num) x
      rw [← he] at this; exact_mod_cast this
    obtain ⟨w, hw⟩ : ∃ w, w = (2:ℝ)^(e - 52) := ⟨_, rfl⟩
    have hw0 : 0 < w := by rw [hw]; positivity
    have e53 : (2:ℝ)^(e + 1) = ((2^53:ℤ):ℝ)*w := by
      rw [hw, show ((2^53:ℤ):ℝ) = (2:ℝ)^(53:ℤ) by norm_num, ← zpow_add₀ (by norm_num)]
      congr 1; ring
    refine ⟨(round (x/w) : ℤ)*w, ⟨round (x/w), e - 52, ?_, by rw [hw]⟩, ?_⟩
    · have hlt : x/w < ((2^53:ℤ):ℝ) := by rw [div_lt_iff₀ hw0, ← e53]; exact h2
      have h0 : 0 ≤ x/w := by positivity
      have ha' := abs_le.mp (abs_sub_round (x/w))
      have hu : (round (x/w) : ℤ) ≤ 2^53 := by
        have : ((round (x/w) : ℤ) : ℝ) < ((2^53 + 1 : ℤ) : ℝ) := by push_cast at hlt ⊢; linarith
        have := Int.cast_lt.mp this
        omega
      have hl : 0 ≤ (round (x/w) : ℤ) := by
        have : ((-1 : ℤ) : ℝ) < ((round (x/w) : ℤ) : ℝ) := by push_cast; linarith
        have := Int.cast_lt.mp this
        omega
      rw [abs_of_nonneg hl]; exact hu
    · have e1 : |((round (x/w) : ℤ) : ℝ)*w - x| = |x/w - (round (x/w) : ℤ)| * w := by
        rw [← abs_of_pos hw0, ← abs_mul, abs_of_pos hw0, abs_sub_comm]
        congr 1
        field_simp
      rw [e1, abs_of_pos hx]
      calc |x/w - (round (x/w) : ℤ)| * w ≤ 1/2*w :=
            mul_le_mul_of_nonneg_right (abs_sub_round (x/w)) hw0.le
        _ = 2^(-53:ℤ)*(2:ℝ)^e := by
            rw [hw, ← zpow_add₀ (by norm_num),
              show (1/2:ℝ) = (2:ℝ)^(-1:ℤ) by norm_num, ← zpow_add₀ (by norm_num)]
            congr 1; ring
        _ ≤ 2^(-53:ℤ)*x := mul_le_mul_of_nonneg_left h1 (by positivity)
  rcases lt_trichotomy x 0 with h | h | h
  · obtain ⟨c, hc, hn⟩ := pos (-x) (by linarith)
    refine (A.nearest x (-c) (isDouble_neg hc)).trans ?_
    have e1 : |-c - x| = |c - -x| := by
      rw [← abs_neg (-c - x)]; congr 1; ring
    rw [e1]
    rwa [abs_neg] at hn
  · subst h
    have := A.nearest 0 0 ⟨0, 0, by norm_num, by norm_num⟩
    simpa using this
  · obtain ⟨c, hc, hn⟩ := pos x h
    exact (A.nearest x c hc).trans hn

/-- Doubles are not rounded. -/
theorem rnd_double (A : DoubleArith) {x : ℝ} (h : IsDouble x) : A.rnd x = x := by
  have := A.nearest x x h
  simp only [sub_self, abs_zero] at this
  have := abs_nonpos_iff.mp this
  linarith

/-- Rounding of positive numbers. -/
theorem rnd_bounds (A : DoubleArith) {x : ℝ} (hx : 0 ≤ x) :
    (1 - 2^(-53:ℤ))*x ≤ A.rnd x ∧ A.rnd x ≤ (1 + 2^(-53:ℤ))*x := by
  have h := rnd_error A x
  rw [abs_of_nonneg hx] at h
  have := abs_le.mp h
  constructor <;> nlinarith [this.1, this.2]

/-- Rounding is monotone. -/
theorem rnd_mono (A : DoubleArith) {x y : ℝ} (h : x ≤ y) : A.rnd x ≤ A.rnd y := by
  rcases h.eq_or_lt with rfl | h
  · exact le_rfl
  by_contra hc
  push Not at hc
  have h1 := A.nearest x (A.rnd y) (A.is_double y)
  have h2 := A.nearest y (A.rnd x) (A.is_double x)
  rw [← sq_le_sq] at h1 h2
  nlinarith

/-- When the double `m 2^e`, with a full significand, is less than half a unit in the last place
away, it is the result of rounding. -/
theorem rnd_eq (A : DoubleArith) {x : ℝ} (m e : ℤ) (hm : 2^52 < m) (hm' : m ≤ 2^53)
    (h : |m*(2:ℝ)^e - x| < 2^e/2) : A.rnd x = m*(2:ℝ)^e := by
  have hc : IsDouble (m*(2:ℝ)^e) := ⟨m, e, by rw [abs_of_pos (by omega)]; exact hm', rfl⟩
  have h1 := A.nearest x _ hc
  have hp : 0 < (2:ℝ)^e := by positivity
  have hlt : |A.rnd x - m*(2:ℝ)^e| < 2^e := by
    calc |A.rnd x - m*(2:ℝ)^e| = |(A.rnd x - x) - (m*(2:ℝ)^e - x)| := by congr 1; ring
      _ ≤ |A.rnd x - x| + |m*(2:ℝ)^e - x| := abs_sub _ _
      _ < 2^e := by linarith
  have hm1 : ((2^52 + 1 : ℤ) : ℝ) ≤ (m:ℝ) := by exact_mod_cast hm
  have hbig : (2:ℝ)^(e + 52) < A.rnd x := by
    have h3 := (abs_lt.mp hlt).1
    have h4 : (2:ℝ)^(e + 52) = 2^52*(2:ℝ)^e := by
      rw [zpow_add₀ (by norm_num), mul_comm]; norm_cast
    rw [h4]
    push_cast at hm1
    nlinarith
  obtain ⟨k, hk⟩ := double_multiple (A.is_double x) hbig
  have hk' : A.rnd x = k*(2:ℝ)^e := by rw [hk]; congr 2; ring
  rw [hk', ← sub_mul, abs_mul, abs_of_pos hp] at hlt
  have h5 : |(k:ℝ) - m| < 1 := by nlinarith
  have h6 : |k - m| < 1 := by exact_mod_cast h5
  have : k = m := by
    have := abs_lt.mp h6
    omega
  rw [hk', this]

end RustBCA
