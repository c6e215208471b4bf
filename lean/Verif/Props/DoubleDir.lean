import Verif.Props.Double
import Verif.Spec.Double
import Verif.Props.Recoils
import Verif.Proofs.PassTrace

/-!
# C90: directions in double precision
-/

set_option linter.unusedSectionVars false
set_option linter.unusedSimpArgs false
set_option linter.unusedVariables false

namespace RustBCA
open Scalar Spec


variable {A : DoubleArith}

theorem double_normal {x : ℝ} (h : IsDouble x) (hx : 0 < x) :
    ∃ m e : ℤ, 2^52 < m ∧ m ≤ 2^53 ∧ x = m*(2:ℝ)^e := by
  have key : ∀ (k : ℕ) (m e : ℤ), 2^52 < m*2^k → m ≤ 2^53 → x = m*(2:ℝ)^e →
      ∃ m e : ℤ, 2^52 < m ∧ m ≤ 2^53 ∧ x = m*(2:ℝ)^e := by
    intro k
    induction k with
    | zero => intro m e h1 h2 h3; exact ⟨m, e, by simpa using h1, h2, h3⟩
    | succ k ih =>
      intro m e h1 h2 h3
      rcases lt_or_ge (2^52) m with hm | hm
      · exact ⟨m, e, hm, h2, h3⟩
      · refine ih (2*m) (e - 1) (by rw [mul_assoc, mul_left_comm, mul_comm 2, ← pow_succ]; exact h1) (by omega) ?_
        rw [h3, zpow_sub₀ (by norm_num)]
        push_cast
        norm_num
        ring
  obtain ⟨m, e, hm, he⟩ := h
  have h0 : 0 < m := by
    have hp : (0:ℝ) < (2:ℝ)^e := by positivity
    rw [he] at hx
    have := pos_of_mul_pos_left hx hp.le
    exact_mod_cast this
  exact key 53 m e (by omega) (abs_le.mp hm).2 he

/-- In double precision the square root of the rounded square of a number is not below it. -/
theorem sqrt_square_ge (A : DoubleArith) {x : ℝ} (h : IsDouble x) (hx : 0 ≤ x) :
    x ≤ A.rnd (Real.sqrt (A.rnd (x*x))) := by
  rcases hx.eq_or_lt with h0 | h0
  · rw [← h0]; exact rnd_nonneg (Real.sqrt_nonneg _)
  obtain ⟨m, e, h1, h2, h3⟩ := double_normal h h0
  obtain ⟨w, hw⟩ : ∃ w, w = (2:ℝ)^e := ⟨_, rfl⟩
  have hw0 : 0 < w := by rw [hw]; positivity
  obtain ⟨y, hy⟩ : ∃ y, y = Real.sqrt (A.rnd (x*x)) := ⟨_, rfl⟩
  have hr0 : 0 ≤ A.rnd (x*x) := rnd_nonneg (mul_self_nonneg x)
  have hy0 : 0 ≤ y := by rw [hy]; exact Real.sqrt_nonneg _
  have hy2 : y^2 = A.rnd (x*x) := by rw [hy, Real.sq_sqrt hr0]
  rw [← hy]
  rcases h2.eq_or_lt with hm | hm
  · -- a power of two
    have : A.rnd (x*x) = x*x := by
      refine rnd_double A ⟨1, 2*(e + 53), by norm_num, ?_⟩
      rw [h3, hm, two_mul, zpow_add₀ (by norm_num), zpow_add₀ (by norm_num)]
      push_cast
      norm_num
      ring
    rw [this, ← pow_two] at hy2
    rw [(sq_eq_sq₀ hy0 hx).mp hy2, rnd_double A h]
  · rcases le_or_gt x y with hle | hlt
    · calc x = A.rnd x := (rnd_double A h).symm
        _ ≤ A.rnd y := rnd_mono A hle
    · have hmR : (2:ℝ)^52 < m := by exact_mod_cast h1
      have hmR' : (m:ℝ) ≤ 2^53 - 1 := by
        have : m ≤ 2^53 - 1 := by omega
        exact_mod_cast this
      have herr := (abs_le.mp (rnd_error A (x*x))).1
      rw [abs_of_nonneg (mul_self_nonneg x), ← hy2] at herr
      obtain ⟨u, hu⟩ : ∃ u : ℝ, u = 2^(-53:ℤ) := ⟨_, rfl⟩
      have hu0 : 0 < u := by rw [hu]; positivity
      rw [← hu] at herr
      have hxw : x = m*w := by rw [h3, hw]
      have hdist : |m*(2:ℝ)^e - y| < 2^e/2 := by
        rw [← hw, ← hxw, abs_of_pos (by linarith)]
        by_contra hc
        push Not at hc
        have hyle : y ≤ x - w/2 := by linarith
        have h4 : y^2 ≤ (x - w/2)^2 := pow_le_pow_left₀ hy0 hyle 2
        have h5 : x*x - u*(x*x) ≤ (x - w/2)^2 := by linarith
        have h6 : (x - w/2)^2 = x*x - x*w + w^2/4 := by ring
        have h7 : x*w - w^2/4 ≤ u*(x*x) := by linarith
        rw [hxw] at h7
        have h8 : (m:ℝ) - 1/4 ≤ u*(m*m) := by
          have : ((m:ℝ) - 1/4)*(w*w) ≤ (u*(m*m))*(w*w) := by
            nlinarith [h7]
          exact le_of_mul_le_mul_right this (by positivity)
        have h9 : u*(m*m) ≤ u*(m*(2^53 - 1)) := by
          refine mul_le_mul_of_nonneg_left ?_ (by positivity)
          exact mul_le_mul_of_nonneg_left hmR' (by linarith [show (0:ℝ) < 2^52 by norm_num])
        have h10 : u*(m*(2^53 - 1)) = m - m/2^53 := by
          rw [hu]
          norm_num
          ring
        have h11 : (1:ℝ)/2 < m/2^53 := by
          rw [lt_div_iff₀ (by norm_num)]; linarith [show (1:ℝ)/2*2^53 = 2^52 by norm_num]
        linarith
      rw [rnd_eq A m e h1 h2 hdist, ← h3]

theorem sq_rnd_bounds {u x y : ℝ} (hu0 : 0 < u) (hu1 : u < 1) (h : |y - x| ≤ u*|x|) :
    (1 - u)^2*x^2 ≤ y^2 ∧ y^2 ≤ (1 + u)^2*x^2 := by
  have h1 : |y| ≤ (1 + u)*|x| := by
    calc |y| = |(y - x) + x| := by congr 1; ring
      _ ≤ |y - x| + |x| := abs_add_le _ _
      _ ≤ (1 + u)*|x| := by linarith
  have h2 : (1 - u)*|x| ≤ |y| := by
    have : |x| ≤ |y - x| + |y| := by
      calc |x| = |y - (y - x)| := by congr 1; ring
        _ ≤ |y| + |y - x| := abs_sub _ _
        _ = |y - x| + |y| := by ring
    linarith
  have hx := abs_nonneg x
  have hy := abs_nonneg y
  rw [← sq_abs x, ← sq_abs y, ← mul_pow, ← mul_pow]
  constructor
  · exact pow_le_pow_left₀ (mul_nonneg (by linarith) hx) h2 2
  · exact pow_le_pow_left₀ hy h1 2

/-- Normalising gives a vector of length 1 up to rounding. -/
theorem normalize_square (v : Vec3 (Dbl A)) :
    exactSquare v.normalize = 0 ∨ |exactSquare v.normalize - 1| ≤ 2^(-50:ℤ) := by
  obtain ⟨u, hu⟩ : ∃ u : ℝ, u = 2^(-53:ℤ) := ⟨_, rfl⟩
  have hu0 : 0 < u := by rw [hu]; positivity
  have hu1 : u < 1/100 := by rw [hu]; norm_num
  obtain ⟨S, hS⟩ : ∃ S, S = exactSquare v := ⟨_, rfl⟩
  have hS0 : 0 ≤ S := by rw [hS]; unfold exactSquare; positivity
  obtain ⟨m, hm⟩ : ∃ m, m = v.magnitude.val := ⟨_, rfl⟩
  obtain ⟨b, hb⟩ : ∃ b, b = (v.x*v.x + v.y*v.y + v.z*v.z).val := ⟨_, rfl⟩
  -- the rounded sum of squares
  have hbS : (1 - u)^3*S ≤ b ∧ b ≤ (1 + u)^3*S := by
    have hx := rnd_bounds A (mul_self_nonneg v.x.val)
    have hy := rnd_bounds A (mul_self_nonneg v.y.val)
    have hz := rnd_bounds A (mul_self_nonneg v.z.val)
    have x0 := rnd_nonneg (A := A) (mul_self_nonneg v.x.val)
    have y0 := rnd_nonneg (A := A) (mul_self_nonneg v.y.val)
    have z0 := rnd_nonneg (A := A) (mul_self_nonneg v.z.val)
    have ha := rnd_bounds A (add_nonneg x0 y0)
    have a0 := rnd_nonneg (A := A) (add_nonneg x0 y0)
    have hbb := rnd_bounds A (add_nonneg a0 z0)
    have hbv : b = A.rnd (A.rnd (A.rnd (v.x.val*v.x.val) + A.rnd (v.y.val*v.y.val))
        + A.rnd (v.z.val*v.z.val)) := by
      rw [hb, Dbl.val_add, Dbl.val_add, Dbl.val_mul, Dbl.val_mul, Dbl.val_mul]
    rw [← hbv] at hbb
    rw [← hu] at hx hy hz ha hbb
    have hSv : S = v.x.val*v.x.val + v.y.val*v.y.val + v.z.val*v.z.val := by
      rw [hS]; unfold exactSquare; ring
    have x2 := mul_self_nonneg v.x.val
    have y2 := mul_self_nonneg v.y.val
    have z2 := mul_self_nonneg v.z.val
    generalize v.x.val*v.x.val = X at *
    generalize v.y.val*v.y.val = Y at *
    generalize v.z.val*v.z.val = Z at *
    generalize A.rnd X = X' at *
    generalize A.rnd Y = Y' at *
    generalize A.rnd Z = Z' at *
    generalize A.rnd (X' + Y') = W at *
    have hv : 0 < 1 - u := by linarith
    constructor
    · have h1 : (1 - u)^2*(X + Y) ≤ W := by
        calc (1 - u)^2*(X + Y) = (1 - u)*((1 - u)*X + (1 - u)*Y) := by ring
          _ ≤ (1 - u)*(X' + Y') := mul_le_mul_of_nonneg_left (by linarith [hx.1, hy.1]) hv.le
          _ ≤ W := ha.1
      have h2 : (1 - u)^2*Z ≤ Z' := by nlinarith [hz.1]
      calc (1 - u)^3*S = (1 - u)*((1 - u)^2*(X + Y) + (1 - u)^2*Z) := by rw [hSv]; ring
        _ ≤ (1 - u)*(W + Z') := mul_le_mul_of_nonneg_left (by linarith) hv.le
        _ ≤ b := hbb.1
    · have h1 : W ≤ (1 + u)^2*(X + Y) := by
        calc W ≤ (1 + u)*(X' + Y') := ha.2
          _ ≤ (1 + u)*((1 + u)*X + (1 + u)*Y) :=
              mul_le_mul_of_nonneg_left (by linarith [hx.2, hy.2]) (by linarith)
          _ = (1 + u)^2*(X + Y) := by ring
      have h2 : Z' ≤ (1 + u)^2*Z := by nlinarith [hz.2]
      calc b ≤ (1 + u)*(W + Z') := hbb.2
        _ ≤ (1 + u)*((1 + u)^2*(X + Y) + (1 + u)^2*Z) :=
            mul_le_mul_of_nonneg_left (by linarith) (by linarith)
        _ = (1 + u)^3*S := by rw [hSv]; ring
  have hb0 : 0 ≤ b := le_trans (mul_nonneg (pow_nonneg (by linarith) 3) hS0) hbS.1
  -- the magnitude
  have hm2 : (1 - u)^5*S ≤ m^2 ∧ m^2 ≤ (1 + u)^5*S := by
    have h1 := sq_rnd_bounds (u := u) hu0 (by linarith) (x := Real.sqrt b) (y := m) (by
      rw [hm, hb, hu]
      exact rnd_error A _)
    rw [Real.sq_sqrt hb0] at h1
    constructor
    · calc (1 - u)^5*S = (1 - u)^2*((1 - u)^3*S) := by ring
        _ ≤ (1 - u)^2*b := mul_le_mul_of_nonneg_left hbS.1 (by positivity)
        _ ≤ m^2 := h1.1
    · calc m^2 ≤ (1 + u)^2*b := h1.2
        _ ≤ (1 + u)^2*((1 + u)^3*S) := mul_le_mul_of_nonneg_left hbS.2 (by positivity)
        _ = (1 + u)^5*S := by ring
  -- the components
  have hc : ∀ a : Dbl A, (1 - u)^2*(a.val/m)^2 ≤ (a/v.magnitude).val^2 ∧
      (a/v.magnitude).val^2 ≤ (1 + u)^2*(a.val/m)^2 := by
    intro a
    refine sq_rnd_bounds hu0 (by linarith) ?_
    rw [Dbl.val_div, ← hm, hu]
    exact rnd_error A _
  have hT : exactSquare v.normalize = (v.x/v.magnitude).val^2 + (v.y/v.magnitude).val^2
      + (v.z/v.magnitude).val^2 := rfl
  have hTb : (1 - u)^2*(S/m^2) ≤ exactSquare v.normalize ∧
      exactSquare v.normalize ≤ (1 + u)^2*(S/m^2) := by
    have hx := hc v.x
    have hy := hc v.y
    have hz := hc v.z
    have e : S/m^2 = (v.x.val/m)^2 + (v.y.val/m)^2 + (v.z.val/m)^2 := by
      rw [hS]; unfold exactSquare
      rw [div_pow, div_pow, div_pow, add_div, add_div]
    rw [hT, e]
    constructor
    · nlinarith [hx.1, hy.1, hz.1]
    · nlinarith [hx.2, hy.2, hz.2]
  rcases hS0.eq_or_lt with h0 | h0
  · left
    rw [← h0] at hTb
    simp only [zero_div, mul_zero] at hTb
    linarith
  · right
    have hv5 : 0 < (1 - u)^5 := pow_pos (by linarith) 5
    have hmm : 0 < m^2 := lt_of_lt_of_le (mul_pos hv5 h0) hm2.1
    have r1 : S/m^2 ≤ 1/(1 - u)^5 := by
      rw [div_le_div_iff₀ hmm hv5]; linarith [hm2.1]
    have r2 : 1/(1 + u)^5 ≤ S/m^2 := by
      rw [div_le_div_iff₀ (by positivity) hmm]; linarith [hm2.2]
    have hup : (1 + u)^2*(1/(1 - u)^5) ≤ 1 + 8*u := by
      rw [mul_one_div, div_le_iff₀ hv5]
      have h3 : 1 - 5*u ≤ (1 - u)^5 := by
        have h4 := one_add_mul_le_pow (R := ℝ) (a := -u) (by linarith) 5
        have h5 : (1 + -u)^5 = (1 - u)^5 := by ring
        rw [h5] at h4
        have h6 : ((5:ℕ):ℝ) = 5 := by norm_num
        rw [h6] at h4
        linarith
      have : (1 + 8*u)*(1 - 5*u) ≤ (1 + 8*u)*(1 - u)^5 :=
        mul_le_mul_of_nonneg_left h3 (by linarith)
      nlinarith
    have hlo : 1 - 8*u ≤ (1 - u)^2*(1/(1 + u)^5) := by
      rw [mul_one_div, le_div_iff₀ (by positivity)]
      have h3 : (1 + u)^5 ≤ 1 + 5*u + 11*u^2 := by
        have e : (1 + u)^5 = 1 + 5*u + u^2*(10 + 10*u + 5*u^2 + u^3) := by ring
        have h4 : 10 + 10*u + 5*u^2 + u^3 ≤ 11 := by
          have := pow_le_pow_left₀ hu0.le hu1.le 2
          have := pow_le_pow_left₀ hu0.le hu1.le 3
          linarith
        rw [e]
        nlinarith [sq_nonneg u]
      have : (1 - 8*u)*(1 + u)^5 ≤ (1 - 8*u)*(1 + 5*u + 11*u^2) :=
        mul_le_mul_of_nonneg_left h3 (by linarith)
      nlinarith [mul_pos hu0 hu0, pow_pos hu0 3]
    have e50 : (2:ℝ)^(-50:ℤ) = 8*u := by rw [hu]; norm_num
    rw [e50, abs_le]
    constructor
    · have := mul_le_mul_of_nonneg_left r2 (sq_nonneg (1 - u))
      linarith [hTb.1]
    · have := mul_le_mul_of_nonneg_left r1 (sq_nonneg (1 + u))
      linarith [hTb.2]

/-- The magnitude is not below any component. -/
theorem le_magnitude (v : Vec3 (Dbl A)) : |v.x.val| ≤ v.magnitude.val ∧
    |v.y.val| ≤ v.magnitude.val ∧ |v.z.val| ≤ v.magnitude.val := by
  have hsq : ∀ a : Dbl A, A.rnd (a.val*a.val) = A.rnd (|a.val| * |a.val|) := by
    intro a; rw [abs_mul_abs_self]
  have hx := rnd_nonneg (A := A) (mul_self_nonneg v.x.val)
  have hy := rnd_nonneg (A := A) (mul_self_nonneg v.y.val)
  have hz := rnd_nonneg (A := A) (mul_self_nonneg v.z.val)
  have hm : v.magnitude.val = A.rnd (Real.sqrt (A.rnd (A.rnd (A.rnd (v.x.val*v.x.val)
      + A.rnd (v.y.val*v.y.val)) + A.rnd (v.z.val*v.z.val)))) := rfl
  have idem : ∀ x : ℝ, A.rnd (A.rnd x) = A.rnd x := fun x => rnd_double A (A.is_double x)
  have main : ∀ a : Dbl A, A.rnd (a.val*a.val) ≤ A.rnd (A.rnd (A.rnd (v.x.val*v.x.val)
      + A.rnd (v.y.val*v.y.val)) + A.rnd (v.z.val*v.z.val)) → |a.val| ≤ v.magnitude.val := by
    intro a ha
    rw [hm]
    have h1 := sqrt_square_ge A (isDouble_abs a.2) (abs_nonneg a.val)
    have h1' : |a.val| ≤ A.rnd (Real.sqrt (A.rnd (|a.val| * |a.val|))) := h1
    rw [← hsq a] at h1'
    exact h1'.trans (rnd_mono A (Real.sqrt_le_sqrt ha))
  have hw := rnd_nonneg (A := A) (add_nonneg hx hy)
  refine ⟨main _ ?_, main _ ?_, main _ ?_⟩
  · calc A.rnd (v.x.val*v.x.val) = A.rnd (A.rnd (A.rnd (v.x.val*v.x.val))) := by rw [idem, idem]
      _ ≤ A.rnd (A.rnd (A.rnd (v.x.val*v.x.val) + A.rnd (v.y.val*v.y.val))) :=
          rnd_mono A (rnd_mono A (by linarith))
      _ ≤ _ := rnd_mono A (by linarith)
  · calc A.rnd (v.y.val*v.y.val) = A.rnd (A.rnd (A.rnd (v.y.val*v.y.val))) := by rw [idem, idem]
      _ ≤ A.rnd (A.rnd (A.rnd (v.x.val*v.x.val) + A.rnd (v.y.val*v.y.val))) :=
          rnd_mono A (rnd_mono A (by linarith))
      _ ≤ _ := rnd_mono A (by linarith)
  · calc A.rnd (v.z.val*v.z.val) = A.rnd (A.rnd (v.z.val*v.z.val)) := by rw [idem]
      _ ≤ _ := rnd_mono A (by linarith)

/-- Normalising gives a vector of length 1 up to rounding, with components at most 1. -/
theorem normalize_unit (v : Vec3 (Dbl A)) : UnitDirection v.normalize := by
  have hone : A.rnd 1 = 1 := rnd_double A ⟨1, 0, by norm_num, by norm_num⟩
  have hc : ∀ a : Dbl A, |a.val| ≤ v.magnitude.val → |(a/v.magnitude).val| ≤ 1 := by
    intro a ha
    have hm : 0 ≤ v.magnitude.val := le_trans (abs_nonneg _) ha
    have h1 : |a.val/v.magnitude.val| ≤ 1 := by
      rw [abs_div, abs_of_nonneg hm]
      exact div_le_one_of_le₀ ha hm
    rw [Dbl.val_div, abs_le]
    have h2 := abs_le.mp h1
    have hneg : A.rnd (-1) = -1 := rnd_double A ⟨-1, 0, by norm_num, by norm_num⟩
    constructor
    · rw [← hneg]; exact rnd_mono A h2.1
    · calc _ ≤ A.rnd 1 := rnd_mono A h2.2
        _ = 1 := hone
  have hl := le_magnitude v
  exact ⟨normalize_square v, hc _ hl.1, hc _ hl.2.1, hc _ hl.2.2⟩

/-! ## C90 -/

/-- **C90** (one collision) After a rotation by any angles the direction has length 1 to double
precision, whatever it was before: errors do not accumulate. -/
theorem C90_rotate (p : Particle (Dbl A)) (psi phi : Dbl A) : UnitDirection (p.rotate psi phi).dir :=
  normalize_unit _

/-- **C90** (the next collision) The square root in the rotation of such a direction is taken of a
number that is not negative. -/
theorem C90_root (v : Vec3 (Dbl A)) (h : UnitDirection v) : 0 ≤ (1.0 - v.x*v.x : Dbl A).val := by
  have hone : A.rnd 1 = 1 := rnd_double A ⟨1, 0, by norm_num, by norm_num⟩
  have h1 : (1.0 : Dbl A).val = 1 := by
    change A.rnd _ = _
    rw [show (OfScientific.ofScientific 10 true 1 : ℝ) = 1 by norm_num]
    exact hone
  rw [Dbl.val_sub, h1, Dbl.val_mul]
  refine rnd_nonneg ?_
  have : A.rnd (v.x.val*v.x.val) ≤ A.rnd 1 := by
    refine rnd_mono A ?_
    have := abs_le.mp h.2.1
    nlinarith
  rw [hone] at this
  linarith

/-- What the collisions of a pass do to directions. -/
theorem collisions_directions (rcpr : Rcpr (Dbl A)) (mat : Material (Dbl A)) (o : Options (Dbl A))
    (l : List (BinaryCollisionGeometry (Dbl A) × Nat)) (s : StepState (Dbl A)) (t : Tape (Dbl A))
    (hd : UnitDirection s.particle_1.dir) (hs : ∀ r ∈ s.particles, UnitDirection r.dir) :
    Sat (forFold (collision_step rcpr mat o) l s) t
      (fun s' _ => UnitDirection s'.particle_1.dir ∧ ∀ r ∈ s'.particles, UnitDirection r.dir)
      (fun _ => True) := by
  refine sat_forFold (fun (s' : StepState (Dbl A)) _ => UnitDirection s'.particle_1.dir ∧
    ∀ r ∈ s'.particles, UnitDirection r.dir) l ?_ s t ⟨hd, hs⟩
  intro a _ x t' hx
  refine sat_mono (collision_step_cases rcpr mat o x a t') (fun s' _ h => ?_) (fun _ _ => trivial)
  rcases h with h | ⟨si, q, r, -, -, -, -, -, -, -, -, -, -, -, -, hA⟩
  · rw [h]; exact hx
  · refine ⟨by rw [hA.moving]; exact normalize_unit _, ?_⟩
    obtain ⟨eb, -, hst⟩ := hA.stack
    rcases hst with hst | hst
    · rw [hst]; exact hx.2
    · rw [hst]
      intro r' hr'
      rcases List.mem_append.mp hr' with h | h
      · exact hx.2 r' h
      · rw [List.mem_singleton] at h
        rw [h]; exact normalize_unit _

/-- The surface leaves alone a particle that does not cross the energy barrier. -/
theorem boundary_no_crossing {F : Type} [Scalar F] (p : Particle F) (mat : Material F) {q : Particle F}
    (h : boundary_condition_planar p mat = .ok q)
    (hsame : mat.geometry.inside_energy_barrier p.pos.x p.pos.y p.pos.z =
      mat.geometry.inside_energy_barrier p.pos_old.x p.pos_old.y p.pos_old.z) : q.dir = p.dir := by
  have key : RSat (boundary_condition_planar p mat) (fun q => q.dir = p.dir) (fun _ => True) := by
    unfold boundary_condition_planar
    simp only [rsat_bind]
    refine rsat_mono (rsat_trivial _) (fun sim _ => ?_) (fun _ _ => trivial)
    refine rsat_mono (rsat_trivial _) (fun bar _ => ?_) (fun _ _ => trivial)
    have h1 : ∃ lf tr, (if (!sim) = true then
        { p with left := true }.update_trajectory_tracker else p) =
        { p with left := lf, trajectory := tr } := by
      split
      · unfold Particle.update_trajectory_tracker
        split
        · exact ⟨_, _, rfl⟩
        · exact ⟨_, _, rfl⟩
      · exact ⟨p.left, p.trajectory, rfl⟩
    obtain ⟨lf, tr, h1⟩ := h1
    rw [h1]
    have h2 : ∃ st tr', (if ((p.E <. p.Ec) && !lf && bar) = true then
        { p with left := lf, trajectory := tr, stopped := true }.update_trajectory_tracker
        else { p with left := lf, trajectory := tr }) =
        { p with left := lf, trajectory := tr', stopped := st } := by
      split
      · unfold Particle.update_trajectory_tracker
        split
        · exact ⟨_, _, rfl⟩
        · exact ⟨_, _, rfl⟩
      · exact ⟨p.stopped, tr, rfl⟩
    obtain ⟨st, tr', h2⟩ := h2
    simp only [h2]
    split
    · unfold surface_binding_energy
      simp only [rsat_bind]
      refine rsat_mono (rsat_trivial _) (fun Es _ => ?_) (fun _ _ => trivial)
      refine rsat_mono (rsat_eq _) (fun now hnow => ?_) (fun _ _ => trivial)
      refine rsat_mono (rsat_eq _) (fun old hold => ?_) (fun _ _ => trivial)
      have e : now = old := by
        have h3 : mat.geometry.inside_energy_barrier p.pos.x p.pos.y p.pos.z = .ok now := hnow
        have h4 : mat.geometry.inside_energy_barrier p.pos_old.x p.pos_old.y p.pos_old.z
          = .ok old := hold
        rw [h3, h4] at hsame
        injection hsame
      subst e
      have f1 : (now && !now) = false := by cases now <;> rfl
      have f2 : (!now && now) = false := by cases now <;> rfl
      simp only [f1, f2, Bool.false_eq_true, if_false, rsat_pure]
    · simp only [rsat_pure]
  exact rsat_of_ok (Q := fun q : Particle F => q.dir = p.dir) key h

/-- **C90** (one pass) In a pass of the loop that starts with a direction of length 1: every
particle set in motion has a direction of length 1, and so has the particle itself at the end of
the pass, unless it crossed the energy barrier of the surface. -/
theorem C90_pass (rcpr : Rcpr (Dbl A)) (mat : Material (Dbl A)) (o : Options (Dbl A))
    (p q : Particle (Dbl A)) (new : List (Particle (Dbl A))) (t t1 : Tape (Dbl A))
    (hd : UnitDirection p.dir) (h : trajectory_step rcpr mat o p [] t = .ok ((q, new), t1)) :
    (∀ r ∈ new, UnitDirection r.dir) ∧
    (mat.geometry.inside_energy_barrier q.pos.x q.pos.y q.pos.z =
      mat.geometry.inside_energy_barrier p.pos.x p.pos.y p.pos.z → UnitDirection q.dir) := by
  obtain ⟨tr⟩ := sat_of_ok (pass_trace rcpr mat o p [] t) h
  obtain ⟨b, hp1⟩ := tr.p1_eq
  have hd1 : UnitDirection tr.p1.dir := by rw [hp1]; exact hd
  have hc := sat_of_ok (collisions_directions rcpr mat o _ ⟨tr.p1, [], 0.0, 0.0, 0.0, 0.0, 0⟩ tr.t1
    hd1 (by simp)) tr.hloop
  refine ⟨?_, fun hsame => ?_⟩
  · have hqs : new = tr.s.particles := tr.hqs
    rw [hqs]; exact hc.2
  · obtain ⟨E, hE⟩ := tr.p3_eq
    obtain ⟨E1, dir1, n1, hpart, -, -⟩ := tr.s_eq.particle
    obtain ⟨E', dir', b', st', lf', l', hq⟩ := tr.q_eq
    have upd : ∀ (x : Particle (Dbl A)) (a b : Dbl A),
        (x.update_energy_loss_tracker o a b).pos = x.pos ∧
        (x.update_energy_loss_tracker o a b).pos_old = x.pos_old ∧
        (x.update_energy_loss_tracker o a b).dir = x.dir := by
      intro x a b
      unfold Particle.update_energy_loss_tracker
      split <;> exact ⟨rfl, rfl, rfl⟩
    have adv : ∀ (x : Particle (Dbl A)) (a b : Dbl A), (x.advance a b).1.dir = x.dir ∧
        (x.advance a b).1.pos_old = x.pos := by
      intro x a b
      unfold Particle.advance Particle.update_trajectory_tracker
      constructor
      · simp only
        split
        · split <;> rfl
        · rfl
      · simp only
        split
        · split <;> rfl
        · rfl
    obtain ⟨u1, u2, u3⟩ := upd tr.p3 tr.s.total_energy_lost_to_recoils tr.el
    obtain ⟨a1, a2⟩ := adv tr.s.particle_1 tr.g0.mfp tr.s.total_asymptotic_deflection
    have hpos : q.pos = (tr.p3.update_energy_loss_tracker o tr.s.total_energy_lost_to_recoils
      tr.el).pos := (congrArg Particle.pos hq).trans rfl
    have hp3d : tr.p3.dir = tr.s.particle_1.dir := (congrArg Particle.dir hE).trans a1
    have hp3o : tr.p3.pos_old = p.pos := by
      refine (congrArg Particle.pos_old hE).trans ((a2).trans ?_)
      have : tr.s.particle_1.pos = tr.p1.pos := (congrArg Particle.pos hpart).trans rfl
      rw [this, hp1]
    have := boundary_no_crossing _ mat tr.hbound (by
      rw [← hpos, u2, hp3o]; exact hsame)
    rw [this, u3, hp3d]
    exact hc.1

/-- **C90** (a run) Inside the target, away from its surface: however many collisions there are, and
whatever the random numbers, the potential and the library functions, every particle returned by
`single_ion_bca` has a direction of length 1 to double precision. -/
theorem C90_run (rcpr : Rcpr (Dbl A)) (mat : Material (Dbl A)) (o : Options (Dbl A)) (fuel : Nat)
    (ion : Particle (Dbl A)) (t t' : Tape (Dbl A)) (out : List (Particle (Dbl A)))
    (hd : UnitDirection ion.dir) (hs : ion.stopped = false) (hl : ion.left = false)
    (hin : ∀ x y z, mat.geometry.inside_energy_barrier x y z = .ok true)
    (h : single_ion_bca rcpr fuel ion mat o t = .ok (out, t')) :
    ∀ q ∈ out, UnitDirection q.dir := by
  have hcas := (C81_depth_first rcpr mat o ion t t' out hs hl).mp ⟨fuel, h⟩
  have path : ∀ {p t q rec t1}, Path rcpr mat o p t q rec t1 → UnitDirection p.dir →
      UnitDirection q.dir ∧ ∀ r ∈ rec, UnitDirection r.dir := by
    intro p t q rec t1 hp
    induction hp with
    | finished _ => intro h; exact ⟨h, by simp⟩
    | step _ _ hst _ ih =>
      intro h
      have h1 := C90_pass rcpr mat o _ _ _ _ _ h hst
      have h2 := ih (h1.2 (by rw [hin, hin]))
      refine ⟨h2.1, fun r hr => ?_⟩
      rcases List.mem_append.mp hr with hr | hr
      · exact h1.1 r hr
      · exact h2.2 r hr
  have cas : ∀ {ps t out t'}, Cascades rcpr mat o ps t out t' → (∀ p ∈ ps, UnitDirection p.dir) →
      ∀ q ∈ out, UnitDirection q.dir := by
    intro ps t out t' hc
    induction hc with
    | nil => intro _ q hq; cases hq
    | cons hp _ _ ih1 ih2 =>
      intro hps q hq
      have h1 := path hp (hps _ (by simp))
      rcases List.mem_cons.mp hq with hq | hq
      · rw [hq]; exact h1.1
      · rcases List.mem_append.mp hq with hq | hq
        · exact ih1 (fun r hr => h1.2 r (List.mem_reverse.mp hr)) q hq
        · exact ih2 (fun r hr => hps r (by simp [hr])) q hq
  exact cas hcas (by simpa using hd)

end RustBCA
