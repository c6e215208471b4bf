import Verif.Scalar

/-!
# Exact arithmetic with the special values of IEEE 754

`Scalar ℝ` gives `x/0`, the square root of a negative number, the arc cosine of 2, … some value
(Mathlib's functions are total); Rust's `f64` gives an infinity or NaN, and RustBCA stops when it meets
a NaN.  `XReal` is the real numbers plus the two infinities and NaN, with the rules of IEEE 754 and of
Rust's `std` for them, and no rounding: what is proved about runs of the model over `XReal` does not lean
on totalised functions.

There is one zero only: `x/0` for `x > 0` is `+∞`, as for Rust's `+0.0`.
-/

namespace RustBCA

/-- A real number, an infinity or NaN. -/
inductive XReal where
  | fin (x : ℝ)
  | pinf
  | ninf
  | nan

namespace XReal
open Classical

/-- `+∞` or `-∞` with the sign of the number, `nan` for zero: the value of `x * ∞`. -/
noncomputable def signInf (x : ℝ) : XReal := if 0 < x then pinf else if x < 0 then ninf else nan

def neg : XReal → XReal
  | fin a => fin (-a)
  | pinf => ninf
  | ninf => pinf
  | nan => nan

noncomputable def add : XReal → XReal → XReal
  | fin a, fin b => fin (a + b)
  | nan, _ | _, nan => nan
  | pinf, ninf | ninf, pinf => nan
  | pinf, _ | _, pinf => pinf
  | ninf, _ | _, ninf => ninf

noncomputable def sub : XReal → XReal → XReal
  | fin a, fin b => fin (a - b)
  | a, b => add a (neg b)

noncomputable def mul : XReal → XReal → XReal
  | fin a, fin b => fin (a*b)
  | nan, _ | _, nan => nan
  | fin a, pinf | pinf, fin a => signInf a
  | fin a, ninf | ninf, fin a => neg (signInf a)
  | pinf, pinf | ninf, ninf => pinf
  | pinf, ninf | ninf, pinf => ninf

noncomputable def div : XReal → XReal → XReal
  | fin a, fin b => if b = 0 then signInf a else fin (a/b)
  | nan, _ | _, nan => nan
  | fin _, pinf | fin _, ninf => fin 0
  | pinf, fin b => if b < 0 then ninf else pinf
  | ninf, fin b => if b < 0 then pinf else ninf
  | _, _ => nan

noncomputable def sqrt : XReal → XReal
  | fin a => if a < 0 then nan else fin (Real.sqrt a)
  | pinf => pinf
  | _ => nan

/-- functions without a limit at infinity -/
noncomputable def bounded (f : ℝ → ℝ) : XReal → XReal
  | fin a => fin (f a)
  | _ => nan

noncomputable def exp : XReal → XReal
  | fin a => fin (Real.exp a)
  | pinf => pinf
  | ninf => fin 0
  | nan => nan

noncomputable def ln : XReal → XReal
  | fin a => if a < 0 then nan else if a = 0 then ninf else fin (Real.log a)
  | pinf => pinf
  | _ => nan

/-- `acos`, `asin` -/
noncomputable def unitDomain (f : ℝ → ℝ) : XReal → XReal
  | fin a => if -1 ≤ a ∧ a ≤ 1 then fin (f a) else nan
  | _ => nan

def abs : XReal → XReal
  | fin a => fin |a|
  | nan => nan
  | _ => pinf

noncomputable def signum : XReal → XReal
  | fin a => fin (if a < 0 then -1 else 1)
  | pinf => fin 1
  | ninf => fin (-1)
  | nan => nan

noncomputable def floor : XReal → XReal
  | fin a => fin (⌊a⌋ : ℤ)
  | a => a

noncomputable def atan2 : XReal → XReal → XReal
  | fin y, fin x => fin (Complex.arg ⟨x, y⟩)
  | nan, _ | _, nan => nan
  | fin _, pinf => fin 0
  | fin y, ninf => fin (if y < 0 then -Real.pi else Real.pi)
  | pinf, fin _ => fin (Real.pi/2)
  | ninf, fin _ => fin (-(Real.pi/2))
  | pinf, pinf => fin (Real.pi/4)
  | pinf, ninf => fin (3*Real.pi/4)
  | ninf, pinf => fin (-(Real.pi/4))
  | ninf, ninf => fin (-(3*Real.pi/4))

/-- `powi` -/
noncomputable def powi : XReal → ℤ → XReal
  | fin a, n => if a = 0 ∧ n < 0 then pinf else fin (a ^ n)
  | pinf, n => if n = 0 then fin 1 else if n < 0 then fin 0 else pinf
  | ninf, n => if n = 0 then fin 1 else if n < 0 then fin 0 else if n % 2 = 0 then pinf else ninf
  | nan, n => if n = 0 then fin 1 else nan

/-- `powf` -/
noncomputable def powf : XReal → XReal → XReal
  | fin a, fin b =>
      if 0 < a then fin (a ^ b)
      else if a = 0 then (if b = 0 then fin 1 else if b < 0 then pinf else fin 0)
      else if b = (⌊b⌋ : ℤ) then powi (fin a) ⌊b⌋ else nan
  | nan, fin b => if b = 0 then fin 1 else nan
  | fin a, nan => if a = 1 then fin 1 else nan
  | pinf, fin b => if b = 0 then fin 1 else if b < 0 then fin 0 else pinf
  | ninf, fin b => if b = 0 then fin 1 else if b < 0 then fin 0
      else if b = (⌊b⌋ : ℤ) ∧ ⌊b⌋ % 2 ≠ 0 then ninf else pinf
  | fin a, pinf => if |a| = 1 then fin 1 else if |a| < 1 then fin 0 else pinf
  | fin a, ninf => if |a| = 1 then fin 1 else if |a| < 1 then pinf else fin 0
  | nan, _ | _, nan => nan
  | _, pinf => pinf
  | _, ninf => fin 0

noncomputable def toI32 : XReal → Int
  | fin x => max (-2147483648) (min 2147483647 (if x < 0 then ⌈x⌉ else ⌊x⌋))
  | pinf => 2147483647
  | ninf => -2147483648
  | nan => 0

noncomputable def lt : XReal → XReal → Bool
  | fin a, fin b => decide (a < b)
  | nan, _ | _, nan => false
  | ninf, ninf => false
  | ninf, _ => true
  | pinf, _ => false
  | fin _, pinf => true
  | fin _, ninf => false

noncomputable def eq : XReal → XReal → Bool
  | fin a, fin b => decide (a = b)
  | pinf, pinf | ninf, ninf => true
  | _, _ => false

noncomputable def le (a b : XReal) : Bool := lt a b || eq a b

def isNaN : XReal → Bool
  | nan => true
  | _ => false

/-- `f64` with exact operations. -/
noncomputable instance : Scalar XReal where
  add := add
  sub := sub
  mul := mul
  div := div
  neg := neg
  ofScientific m s e := fin (OfScientific.ofScientific m s e)
  sqrt := sqrt
  sin := bounded Real.sin
  cos := bounded Real.cos
  exp := exp
  ln := ln
  acos := unitDomain Real.arccos
  asin := unitDomain Real.arcsin
  abs := abs
  signum := signum
  floor := floor
  atan2 := atan2
  powf := powf
  powi := powi
  ofNat n := fin n
  toI32 := toI32
  pi := fin Real.pi
  infinity := pinf
  maxVal := fin ((2 - 2 ^ (-52 : ℤ))*2 ^ (1023 : ℤ))
  epsilon := fin (2 ^ (-52 : ℤ))
  lt := lt
  le := le
  eq := eq
  isNaN := isNaN

instance : ScalarOrd XReal where
  lt_irrefl a := by cases a <;> simp [Scalar.lt, lt]
  lt_trans a b c := by
    cases a <;> cases b <;> cases c <;> simp [Scalar.lt, lt]
    exact _root_.lt_trans
  le_iff a b := by simp [Scalar.le, le, Scalar.lt, Scalar.eq]
  eq_symm a b := by
    cases a <;> cases b <;> simp [Scalar.eq, eq]
    exact Eq.symm
  eq_trans a b c := by
    cases a <;> cases b <;> cases c <;> simp [Scalar.eq, eq]
    exact Eq.trans
  eq_refl a := by cases a <;> simp [Scalar.eq, eq, Scalar.isNaN, isNaN]
  nan_eq a b := by cases a <;> cases b <;> simp [Scalar.eq, eq, Scalar.isNaN, isNaN]
  nan_lt a b := by cases a <;> cases b <;> simp [Scalar.lt, lt, Scalar.isNaN, isNaN]
  lt_eq_trans a b c := by
    cases a <;> cases b <;> cases c <;> simp [Scalar.eq, eq, Scalar.lt, lt]
    exact lt_of_lt_of_eq
  eq_lt_trans a b c := by
    cases a <;> cases b <;> cases c <;> simp [Scalar.eq, eq, Scalar.lt, lt]
    exact lt_of_eq_of_lt
  trichotomy a b := by
    cases a <;> cases b <;> simp [Scalar.eq, eq, Scalar.lt, lt, Scalar.isNaN, isNaN]
    exact lt_trichotomy _ _

/-! Operations on numbers. -/
section
variable (a b : ℝ)
theorem fin_add : fin a + fin b = fin (a + b) := rfl
theorem fin_sub : fin a - fin b = fin (a - b) := rfl
theorem fin_mul : fin a*fin b = fin (a*b) := rfl
theorem fin_neg : -fin a = fin (-a) := rfl
theorem fin_div {a b : ℝ} (h : b ≠ 0) : fin a/fin b = fin (a/b) := if_neg h
theorem fin_sqrt {a : ℝ} (h : 0 ≤ a) : Scalar.sqrt (fin a) = fin (Real.sqrt a) := if_neg (not_lt.2 h)
theorem fin_sin : Scalar.sin (fin a) = fin (Real.sin a) := rfl
theorem fin_cos : Scalar.cos (fin a) = fin (Real.cos a) := rfl
theorem fin_exp : Scalar.exp (fin a) = fin (Real.exp a) := rfl
theorem fin_ln {a : ℝ} (h : 0 < a) : Scalar.ln (fin a) = fin (Real.log a) := by
  show ln (fin a) = _
  simp [ln, not_lt.2 h.le, h.ne']
theorem fin_acos {a : ℝ} (h : -1 ≤ a) (h' : a ≤ 1) : Scalar.acos (fin a) = fin (Real.arccos a) := if_pos ⟨h, h'⟩
theorem fin_asin {a : ℝ} (h : -1 ≤ a) (h' : a ≤ 1) : Scalar.asin (fin a) = fin (Real.arcsin a) := if_pos ⟨h, h'⟩
theorem fin_abs : Scalar.abs (fin a) = fin |a| := rfl
theorem fin_atan2 : Scalar.atan2 (fin a) (fin b) = fin (Complex.arg ⟨b, a⟩) := rfl
theorem fin_powf {a b : ℝ} (h : 0 < a) : Scalar.powf (fin a) (fin b) = fin (a ^ b) := if_pos h
theorem fin_powi {a : ℝ} {n : ℤ} (h : 0 ≤ n ∨ a ≠ 0) : Scalar.powi (fin a) n = fin (a ^ n) := by
  show powi (fin a) n = _
  refine if_neg ?_
  rintro ⟨h1, h2⟩
  rcases h with h | h
  · omega
  · exact h h1
theorem fin_ofNat (n : ℕ) : (Scalar.ofNat n : XReal) = fin n := rfl
theorem fin_pi : (Scalar.pi : XReal) = fin Real.pi := rfl
theorem fin_lit (m : ℕ) (s : Bool) (e : ℕ) :
    (OfScientific.ofScientific m s e : XReal) = fin (OfScientific.ofScientific m s e) := rfl
theorem fin_lt : (fin a <. fin b) = decide (a < b) := rfl
theorem fin_isNaN : Scalar.isNaN (fin a) = false := rfl
end

end XReal
end RustBCA
