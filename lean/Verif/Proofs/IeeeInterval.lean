import Verif.Ieee

/-!
# Enclosures of doubles (helper lemmas)

The value of an operation lies between the values at the ends of the enclosures of its arguments, if those are doubles.
-/

namespace RustBCA
open Scalar

/-- A finite double between two numbers. -/
def Within {L : Libm} (a : Ieee L) (lo hi : ℝ) : Prop := ∃ x, B64.toX a = .fin x ∧ lo ≤ x ∧ x ≤ hi

theorem round_within {neg : Bool} {x lo hi : ℝ} (h1 : lo ≤ x) (h2 : x ≤ hi) (hlo : IsF64 lo) (hhi : IsF64 hi) :
    ∃ y, B64.toX (B64.ofReal neg x) = .fin y ∧ lo ≤ y ∧ y ≤ hi ∧ y = ieeeRound x := by
  have a := ieeeRound_mono h1
  have b := ieeeRound_mono h2
  rw [ieeeRound_exact hlo.1] at a
  rw [ieeeRound_exact hhi.1] at b
  refine ⟨_, B64.toX_ofReal ?_, a, b, rfl⟩
  rw [abs_lt]
  have := abs_lt.1 hlo.2
  have := abs_lt.1 hhi.2
  constructor <;> linarith

theorem within_lit {L : Libm} {m : Nat} {s : Bool} {e : Nat} {lo hi : ℝ}
    (h1 : lo ≤ OfScientific.ofScientific m s e) (h2 : (OfScientific.ofScientific m s e : ℝ) ≤ hi)
    (hlo : IsF64 lo) (hhi : IsF64 hi) : Within (OfScientific.ofScientific m s e : Ieee L) lo hi := by
  obtain ⟨y, a, b, c, -⟩ := round_within (neg := false) h1 h2 hlo hhi
  exact ⟨y, a, b, c⟩

theorem within_add {L : Libm} {a b : Ieee L} {l h l' h' lo hi : ℝ} (ha : Within a l h) (hb : Within b l' h')
    (h1 : lo ≤ l + l') (h2 : h + h' ≤ hi) (hlo : IsF64 lo) (hhi : IsF64 hi) : Within (a + b) lo hi := by
  obtain ⟨x, e1, x1, x2⟩ := ha
  obtain ⟨y, e2, y1, y2⟩ := hb
  obtain ⟨z, a1, b1, c1, -⟩ := round_within (neg := B64.isNeg a && B64.isNeg b) (x := x + y) (lo := lo) (hi := hi)
    (by linarith) (by linarith) hlo hhi
  refine ⟨z, ?_, b1, c1⟩
  show B64.toX (B64.ofX _ (XReal.add (B64.toX a) (B64.toX b))) = _
  rw [e1, e2]
  exact a1

theorem toX_neg (a : B64) {x : ℝ} (h : a.toX = .fin x) : (B64.neg a).toX = .fin (-x) := by
  cases a with
  | num y =>
    injection h with h
    have e : B64.neg (.num y) = if y.1 = 0 then .negZero else .num ⟨-y.1, isF64_neg y.2⟩ := rfl
    rw [e]
    subst h
    by_cases h0 : y.1 = 0
    · rw [if_pos h0, h0, neg_zero]; rfl
    · rw [if_neg h0]; rfl
  | negZero =>
    injection h with h
    subst h
    show XReal.fin 0 = _
    rw [neg_zero]
  | pinf => cases h
  | ninf => cases h
  | nan => cases h

theorem within_neg {L : Libm} {a : Ieee L} {l h : ℝ} (ha : Within a l h) : Within (-a) (-h) (-l) := by
  obtain ⟨x, e, x1, x2⟩ := ha
  exact ⟨-x, toX_neg a e, by linarith, by linarith⟩

theorem within_sub {L : Libm} {a b : Ieee L} {l h l' h' lo hi : ℝ} (ha : Within a l h) (hb : Within b l' h')
    (h1 : lo ≤ l - h') (h2 : h - l' ≤ hi) (hlo : IsF64 lo) (hhi : IsF64 hi) : Within (a - b) lo hi :=
  within_add ha (within_neg hb) (by linarith) (by linarith) hlo hhi

/-- Not negative. -/
theorem within_mul {L : Libm} {a b : Ieee L} {l h l' h' lo hi : ℝ} (ha : Within a l h) (hb : Within b l' h')
    (hl : 0 ≤ l) (hl' : 0 ≤ l') (h1 : lo ≤ l*l') (h2 : h*h' ≤ hi) (hlo : IsF64 lo) (hhi : IsF64 hi) :
    Within (a*b) lo hi := by
  obtain ⟨x, e1, x1, x2⟩ := ha
  obtain ⟨y, e2, y1, y2⟩ := hb
  obtain ⟨z, a1, b1, c1, -⟩ := round_within (neg := (B64.isNeg a ^^ B64.isNeg b)) (x := x*y) (lo := lo) (hi := hi)
    (h1.trans (mul_le_mul x1 y1 hl' (by linarith))) ((mul_le_mul x2 y2 (by linarith) (by linarith)).trans h2) hlo hhi
  refine ⟨z, ?_, b1, c1⟩
  show B64.toX (B64.ofX _ (XReal.mul (B64.toX a) (B64.toX b))) = _
  rw [e1, e2]
  exact a1

theorem within_div {L : Libm} {a b : Ieee L} {l h l' h' lo hi : ℝ} (ha : Within a l h) (hb : Within b l' h')
    (hl : 0 ≤ l) (hl' : 0 < l') (h1 : lo ≤ l/h') (h2 : h/l' ≤ hi) (hlo : IsF64 lo) (hhi : IsF64 hi) :
    Within (a/b) lo hi := by
  obtain ⟨x, e1, x1, x2⟩ := ha
  obtain ⟨y, e2, y1, y2⟩ := hb
  have hy : 0 < y := by linarith
  have key : ∀ b : B64, b.toX = .fin y → ∃ neg, B64.toX (B64.div a b) = B64.toX (B64.ofReal neg (x/y)) := by
    intro b hb
    have hd : XReal.div (B64.toX a) (.fin y) = .fin (x/y) := by
      rw [e1]
      show (if y = 0 then _ else _) = _
      rw [if_neg hy.ne']
    cases b with
    | num w =>
      refine ⟨(B64.isNeg a ^^ B64.isNeg (.num w)), ?_⟩
      show B64.toX (B64.ofX _ (XReal.div (B64.toX a) (B64.toX (.num w)))) = _
      rw [hb, hd]
      rfl
    | negZero => injection hb with hb; exact absurd hb.symm hy.ne'
    | pinf => cases hb
    | ninf => cases hb
    | nan => cases hb
  obtain ⟨neg, hk⟩ := key b e2
  obtain ⟨z, a1, b1, c1, -⟩ := round_within (neg := neg) (x := x/y) (lo := lo) (hi := hi)
    (h1.trans (div_le_div₀ (by linarith) x1 hy y2)) ((div_le_div₀ (by linarith) x2 hl' y1).trans h2) hlo hhi
  exact ⟨z, by rw [← a1]; exact hk, b1, c1⟩

theorem within_sqrt {L : Libm} {a : Ieee L} {l h lo hi : ℝ} (ha : Within a l h)
    (hl : 0 ≤ l) (h1 : lo ≤ Real.sqrt l) (h2 : Real.sqrt h ≤ hi) (h0 : 0 ≤ lo) (hlo : IsF64 lo) (hhi : IsF64 hi) :
    Within (sqrt a) lo hi := by
  obtain ⟨x, e1, x1, x2⟩ := ha
  obtain ⟨z, a1, b1, c1, -⟩ := round_within (neg := false) (x := Real.sqrt x) (lo := lo) (hi := hi)
    (h1.trans (Real.sqrt_le_sqrt x1)) ((Real.sqrt_le_sqrt x2).trans h2) hlo hhi
  have hs : XReal.sqrt (.fin x) = .fin (Real.sqrt x) := by
    show (if x < 0 then _ else _) = _
    rw [if_neg (by linarith)]
  have key : ∀ a : B64, a.toX = .fin x → ∃ z, B64.toX (B64.sqrt a) = .fin z ∧ lo ≤ z ∧ z ≤ hi := by
    intro a ha
    cases a with
    | num w =>
      refine ⟨z, ?_, b1, c1⟩
      show B64.toX (B64.ofX _ (XReal.sqrt (B64.toX (.num w)))) = _
      rw [ha, hs]
      exact a1
    | negZero =>
      injection ha with ha
      refine ⟨0, rfl, ?_, ?_⟩
      · have : lo ≤ Real.sqrt x := h1.trans (Real.sqrt_le_sqrt x1)
        rwa [← ha, Real.sqrt_zero] at this
      · linarith
    | pinf => cases ha
    | ninf => cases ha
    | nan => cases ha
  exact key a e1

theorem within_abs {L : Libm} {a : Ieee L} {l h : ℝ} (ha : Within a l h) (hl : 0 ≤ l) : Within (Scalar.abs a) l h := by
  obtain ⟨x, e1, x1, x2⟩ := ha
  have key : ∀ a : B64, a.toX = .fin x → B64.toX (B64.abs a) = .fin x := by
    intro a ha
    cases a with
    | num w =>
      injection ha with ha
      show XReal.fin |w.1| = _
      rw [ha, abs_of_nonneg (by linarith)]
    | negZero => exact ha
    | pinf => cases ha
    | ninf => cases ha
    | nan => cases ha
  exact ⟨x, key a e1, x1, x2⟩

theorem within_lt {L : Libm} {a b : Ieee L} {l h l' h' : ℝ} (ha : Within a l h) (hb : Within b l' h') (hlt : h < l') :
    (a <. b) = true := by
  obtain ⟨x, e1, x1, x2⟩ := ha
  obtain ⟨y, e2, y1, y2⟩ := hb
  show XReal.lt (B64.toX a) (B64.toX b) = true
  rw [e1, e2]
  exact decide_eq_true (by linarith)

theorem within_not_lt {L : Libm} {a b : Ieee L} {l h l' h' : ℝ} (ha : Within a l h) (hb : Within b l' h') (hle : h' ≤ l) :
    (a <. b) = false := by
  obtain ⟨x, e1, x1, x2⟩ := ha
  obtain ⟨y, e2, y1, y2⟩ := hb
  show XReal.lt (B64.toX a) (B64.toX b) = false
  rw [e1, e2]
  exact decide_eq_false (by linarith)

theorem within_not_nan {L : Libm} {a : Ieee L} {l h : ℝ} (ha : Within a l h) : isNaN a = false := by
  obtain ⟨x, e1, -⟩ := ha
  show XReal.isNaN (B64.toX a) = false
  rw [e1]; rfl

/-- A number with few binary digits. -/
theorem isF64_of {m e : ℤ} {x : ℝ} (hx : x = m*(2:ℝ)^e) (hm : |m| ≤ 2^53) (h1 : -1074 ≤ e) (h2 : e ≤ 100) : IsF64 x := by
  refine ⟨⟨m, e, hm, h1, hx⟩, ?_⟩
  rw [hx, abs_mul, abs_of_pos (show (0:ℝ) < 2^e by positivity)]
  have hm' : |(m:ℝ)| ≤ 2^(53:ℤ) := by exact_mod_cast hm
  calc |(m:ℝ)| * (2:ℝ)^e ≤ 2^(53:ℤ)*2^(100:ℤ) :=
        mul_le_mul hm' (zpow_le_zpow_right₀ (by norm_num) h2) (by positivity) (by positivity)
    _ = 2^(153:ℤ) := by rw [← zpow_add₀ (by norm_num)]; norm_num
    _ < 2^(1024:ℤ) := zpow_lt_zpow_right₀ (by norm_num) (by norm_num)

end RustBCA
