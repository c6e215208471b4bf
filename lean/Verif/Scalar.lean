import Mathlib.Analysis.Real.Sqrt
import Mathlib.Analysis.SpecialFunctions.Pow.Real
import Mathlib.Analysis.SpecialFunctions.Complex.Arg
import Mathlib.Analysis.SpecialFunctions.Trigonometric.Inverse

/-!
# The scalar type of the model

RustBCA computes with `f64`.  Every definition of the model is generic over a type `F` of
scalars with the operations of `f64` the code uses, so that

* control-flow theorems (lists, flags, counters, panics) are proved for *every* `Scalar`,
  which covers IEEE doubles including NaN, infinities and rounding;
* order theorems are proved for every `Scalar` whose comparisons obey `ScalarOrd`
  (the laws IEEE comparisons do obey);
* physics theorems are proved for `F = ℝ`, i.e. for the code read with exact arithmetic.

Comparisons are `Bool` valued, as in Rust: a comparison with NaN is `false`.
-/

namespace RustBCA

/-- The operations of Rust's `f64` used by RustBCA (`std` float methods).
`powi` is `f64::powi`, `powf` is `f64::powf`, `ln` is `f64::ln`, `toI32` is the saturating cast
`as i32`, `ofNat` is the cast `as f64` from an unsigned integer. -/
class Scalar (F : Type) extends Add F, Sub F, Mul F, Div F, Neg F, OfScientific F where
  sqrt : F → F
  sin : F → F
  cos : F → F
  exp : F → F
  ln : F → F
  acos : F → F
  asin : F → F
  abs : F → F
  signum : F → F
  floor : F → F
  atan2 : F → F → F
  powf : F → F → F
  powi : F → Int → F
  ofNat : Nat → F
  toI32 : F → Int
  pi : F
  infinity : F
  maxVal : F
  epsilon : F
  lt : F → F → Bool
  le : F → F → Bool
  eq : F → F → Bool
  isNaN : F → Bool

/- Statements about `ℝ` should use the ordinary operations of `ℝ`, not the copies in `Scalar ℝ`. -/
attribute [instance 10] Scalar.toAdd Scalar.toSub Scalar.toMul Scalar.toDiv Scalar.toNeg
  Scalar.toOfScientific

infix:50 " <. " => Scalar.lt
infix:50 " <=. " => Scalar.le
infix:50 " ==. " => Scalar.eq
/-- `a > b` of Rust. -/
notation:50 a:51 " >. " b:51 => Scalar.lt b a
/-- `a >= b` of Rust. -/
notation:50 a:51 " >=. " b:51 => Scalar.le b a

/-- Laws of IEEE comparisons that hold with NaN present (used by order-only theorems). -/
class ScalarOrd (F : Type) [Scalar F] : Prop where
  lt_irrefl : ∀ a : F, (a <. a) = false
  lt_trans : ∀ a b c : F, (a <. b) = true → (b <. c) = true → (a <. c) = true
  le_iff : ∀ a b : F, (a <=. b) = true ↔ (a <. b) = true ∨ (a ==. b) = true
  eq_symm : ∀ a b : F, (a ==. b) = true → (b ==. a) = true
  eq_trans : ∀ a b c : F, (a ==. b) = true → (b ==. c) = true → (a ==. c) = true
  eq_refl : ∀ a : F, Scalar.isNaN a = false → (a ==. a) = true
  nan_eq : ∀ a b : F, (a ==. b) = true → Scalar.isNaN a = false
  nan_lt : ∀ a b : F, (a <. b) = true → Scalar.isNaN a = false ∧ Scalar.isNaN b = false
  lt_eq_trans : ∀ a b c : F, (a <. b) = true → (b ==. c) = true → (a <. c) = true
  eq_lt_trans : ∀ a b c : F, (a ==. b) = true → (b <. c) = true → (a <. c) = true
  trichotomy : ∀ a b : F, Scalar.isNaN a = false → Scalar.isNaN b = false →
    (a <. b) = true ∨ (a ==. b) = true ∨ (b <. a) = true

open Classical in
/-- Exact real arithmetic.  `x/0`, `sqrt` of a negative number, `ln 0`, … have Mathlib's junk
values here; every real theorem carries the hypotheses that keep the code away from them.
`infinity` has no real counterpart: it is the number below; `maxVal` is the largest double.  No theorem
about `ℝ` uses them except as "a bound larger than the data" with an explicit hypothesis. -/
noncomputable instance : Scalar ℝ where
  sqrt := Real.sqrt
  sin := Real.sin
  cos := Real.cos
  exp := Real.exp
  ln := Real.log
  acos := Real.arccos
  asin := Real.arcsin
  abs := fun x => |x|
  signum := fun x => if x < 0 then -1 else 1
  floor := fun x => (⌊x⌋ : ℤ)
  atan2 := fun y x => Complex.arg ⟨x, y⟩
  powf := fun x y => x ^ y
  powi := fun x n => x ^ n
  ofNat := fun n => (n : ℝ)
  toI32 := fun x => max (-2147483648) (min 2147483647 (if x < 0 then ⌈x⌉ else ⌊x⌋))
  pi := Real.pi
  infinity := 10 ^ 400
  maxVal := (2 - 2 ^ (-52 : ℤ))*2 ^ (1023 : ℤ)
  epsilon := 2 ^ (-52 : ℤ)
  lt := fun a b => decide (a < b)
  le := fun a b => decide (a ≤ b)
  eq := fun a b => decide (a = b)
  isNaN := fun _ => false

/-- `f64` itself, executable; used only to run the model against `/repo/src/tests.rs`. -/
instance : Scalar Float where
  sqrt := Float.sqrt
  sin := Float.sin
  cos := Float.cos
  exp := Float.exp
  ln := Float.log
  acos := Float.acos
  asin := Float.asin
  abs := Float.abs
  signum := fun x => if x.isNaN then x else if x < 0 then -1 else 1
  floor := Float.floor
  atan2 := Float.atan2
  powf := Float.pow
  powi := fun x n => Float.pow x (Float.ofInt n)
  ofNat := Float.ofNat
  toI32 := fun x => x.toInt32.toInt
  pi := 3.14159265358979323846
  infinity := 1.0 / 0.0
  maxVal := 1.7976931348623157e308
  epsilon := 2.220446049250313e-16
  lt := fun a b => decide (a < b)
  le := fun a b => decide (a ≤ b)
  eq := fun a b => a == b
  isNaN := Float.isNaN

instance : ScalarOrd ℝ where
  lt_irrefl := by simp [Scalar.lt]
  lt_trans := by
    intro a b c; simp only [Scalar.lt, decide_eq_true_eq]; exact lt_trans
  le_iff := by
    intro a b; simp only [Scalar.lt, Scalar.le, Scalar.eq, decide_eq_true_eq]
    exact le_iff_lt_or_eq
  eq_symm := by intro a b; simp only [Scalar.eq, decide_eq_true_eq]; exact Eq.symm
  eq_trans := by intro a b c; simp only [Scalar.eq, decide_eq_true_eq]; exact Eq.trans
  eq_refl := by intro a _; simp [Scalar.eq]
  nan_eq := by intro a b _; rfl
  nan_lt := by intro a b _; exact ⟨rfl, rfl⟩
  lt_eq_trans := by
    intro a b c; simp only [Scalar.lt, Scalar.eq, decide_eq_true_eq]; exact lt_of_lt_of_eq
  eq_lt_trans := by
    intro a b c; simp only [Scalar.lt, Scalar.eq, decide_eq_true_eq]; exact lt_of_eq_of_lt
  trichotomy := by
    intro a b _ _; simp only [Scalar.lt, Scalar.eq, decide_eq_true_eq]; exact lt_trichotomy a b

section RealLemmas
variable (x y : ℝ)
@[simp] theorem sqrt_real : Scalar.sqrt x = Real.sqrt x := rfl
@[simp] theorem sin_real : Scalar.sin x = Real.sin x := rfl
@[simp] theorem cos_real : Scalar.cos x = Real.cos x := rfl
@[simp] theorem exp_real : Scalar.exp x = Real.exp x := rfl
@[simp] theorem ln_real : Scalar.ln x = Real.log x := rfl
@[simp] theorem acos_real : Scalar.acos x = Real.arccos x := rfl
@[simp] theorem asin_real : Scalar.asin x = Real.arcsin x := rfl
@[simp] theorem abs_real : Scalar.abs x = |x| := rfl
@[simp] theorem floor_real : Scalar.floor x = (⌊x⌋ : ℤ) := rfl
@[simp] theorem atan2_real : Scalar.atan2 y x = Complex.arg ⟨x, y⟩ := rfl
@[simp] theorem powf_real : Scalar.powf x y = x ^ y := rfl
@[simp] theorem powi_real (n : ℤ) : Scalar.powi x n = x ^ n := rfl
@[simp] theorem ofNat_real (n : ℕ) : (Scalar.ofNat n : ℝ) = n := rfl
@[simp] theorem pi_real : (Scalar.pi : ℝ) = Real.pi := rfl
@[simp] theorem lt_real : (x <. y) = true ↔ x < y := by simp [Scalar.lt]
@[simp] theorem le_real : (x <=. y) = true ↔ x ≤ y := by simp [Scalar.le]
@[simp] theorem eq_real : (x ==. y) = true ↔ x = y := by simp [Scalar.eq]
@[simp] theorem lt_real_false : (x <. y) = false ↔ y ≤ x := by simp [Scalar.lt]
@[simp] theorem le_real_false : (x <=. y) = false ↔ y < x := by simp [Scalar.le]
@[simp] theorem eq_real_false : (x ==. y) = false ↔ x ≠ y := by simp [Scalar.eq]
@[simp] theorem isNaN_real : Scalar.isNaN x = false := rfl
theorem epsilon_real : (Scalar.epsilon : ℝ) = 2 ^ (-52 : ℤ) := rfl
end RealLemmas

end RustBCA
