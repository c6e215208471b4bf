import Verif.Props.DoubleDir
import Verif.Model.Lib

/-!
# C91: gimbal lock in double precision

The rotation after a collision divides by `sqrt(1 - ux*ux)`. The program guards against a direction
along x by an assertion on the input and, in the functions for surface normals, by an offset of 1e-9.
-/

set_option linter.unusedSectionVars false
set_option linter.unusedSimpArgs false
set_option linter.unusedVariables false

namespace RustBCA
open Scalar Spec

variable {A : DoubleArith}

/-- A number that is a double is not changed by rounding. -/
theorem rnd_val {x y : ℝ} (e : x = y) (h : IsDouble y) : A.rnd x = y := by
  rw [e]; exact rnd_double A h

theorem one_val : (1.0 : Dbl A).val = 1 := by
  change A.rnd _ = _
  exact rnd_val (by norm_num) ⟨1, 0, by norm_num, by norm_num⟩

theorem two_val : (2.0 : Dbl A).val = 2 := by
  change A.rnd _ = _
  exact rnd_val (by norm_num) ⟨2, 0, by norm_num, by norm_num⟩

theorem dbl_zero_mul (a : Dbl A) : 0.0*a = 0.0 := by
  ext; rw [Dbl.val_mul, zero_val, zero_mul]
  exact rnd_double A ⟨0, 0, by norm_num, by norm_num⟩
theorem dbl_mul_zero (a : Dbl A) : a*0.0 = 0.0 := by
  ext; rw [Dbl.val_mul, zero_val, mul_zero]
  exact rnd_double A ⟨0, 0, by norm_num, by norm_num⟩
theorem dbl_one_mul (a : Dbl A) : 1.0*a = a := by
  ext; rw [Dbl.val_mul, one_val, one_mul]; exact rnd_double A a.2
theorem dbl_mul_one (a : Dbl A) : a*1.0 = a := by
  ext; rw [Dbl.val_mul, one_val, mul_one]; exact rnd_double A a.2
theorem dbl_zero_add (a : Dbl A) : 0.0 + a = a := by
  ext; rw [Dbl.val_add, zero_val, zero_add]; exact rnd_double A a.2
theorem dbl_add_zero (a : Dbl A) : a + 0.0 = a := by
  ext; rw [Dbl.val_add, zero_val, add_zero]; exact rnd_double A a.2
theorem dbl_sub_zero (a : Dbl A) : a - 0.0 = a := by
  ext; rw [Dbl.val_sub, zero_val, sub_zero]; exact rnd_double A a.2
theorem dbl_zero_sub (a : Dbl A) : 0.0 - a = -a := by
  ext; rw [Dbl.val_sub, zero_val, zero_sub, Dbl.val_neg]; exact rnd_double A (isDouble_neg a.2)
theorem dbl_neg_zero : -(0.0 : Dbl A) = 0.0 := by
  ext; rw [Dbl.val_neg, zero_val, neg_zero]
theorem dbl_neg_neg (a : Dbl A) : - -a = a := by
  ext; rw [Dbl.val_neg, Dbl.val_neg, neg_neg]
theorem dbl_zero_div (a : Dbl A) : 0.0/a = 0.0 := by
  ext; rw [Dbl.val_div, zero_val, zero_div]
  exact rnd_double A ⟨0, 0, by norm_num, by norm_num⟩

/-- Below `1 - 2^-52` the rotation does not divide by zero. -/
theorem root_pos {u : Dbl A} (h : |u.val| < 1 - 2^(-52:ℤ)) : 0 < (1.0 - u*u : Dbl A).val := by
  have h1 : A.rnd ((1 - 2^(-52:ℤ))^2) = ((9007199254740988 : ℤ) : ℝ)*(2:ℝ)^(-53:ℤ) := by
    refine rnd_eq A _ _ (by norm_num) (by norm_num) ?_
    rw [abs_lt]; constructor <;> norm_num
  have h2 : A.rnd (u.val*u.val) ≤ A.rnd ((1 - 2^(-52:ℤ))^2) := by
    refine rnd_mono A ?_
    rw [← abs_mul_abs_self, pow_two]
    exact mul_le_mul h.le h.le (abs_nonneg _) (le_trans (abs_nonneg _) h.le)
  rw [Dbl.val_sub, one_val, Dbl.val_mul]
  have h3 : (2:ℝ)^(-51:ℤ) ≤ 1 - A.rnd (u.val*u.val) := by
    rw [h1] at h2
    have : ((9007199254740988 : ℤ) : ℝ)*(2:ℝ)^(-53:ℤ) = 1 - (2:ℝ)^(-51:ℤ) := by norm_num
    linarith
  calc (0:ℝ) < (2:ℝ)^(-51:ℤ) := by positivity
    _ = A.rnd ((2:ℝ)^(-51:ℤ)) := (rnd_double A (isDouble_two_pow _)).symm
    _ ≤ _ := rnd_mono A h3

theorem limit_val : (1.0 - epsilon : Dbl A).val = 1 - 2^(-52:ℤ) := by
  rw [Dbl.val_sub, one_val]
  refine rnd_val rfl ⟨9007199254740990, -53, by norm_num, ?_⟩
  norm_num

/-- **C91** (the part that holds) An ion accepted by `from_input` has a direction of length 1 to
double precision for which the rotation after its first collision does not divide by zero. -/
theorem C91_input (input : ParticleInput (Dbl A)) (o : Options (Dbl A)) (p : Particle (Dbl A))
    (h : Particle.from_input input o = .ok p) :
    UnitDirection p.dir ∧ 0 < (1.0 - p.dir.x*p.dir.x : Dbl A).val := by
  have key : RSat (Particle.from_input input o) (fun p => UnitDirection p.dir ∧
      0 < (1.0 - p.dir.x*p.dir.x : Dbl A).val) (fun _ => True) := by
    unfold Particle.from_input
    simp only [rsat_bind, rsat_assert, rsat_pure]
    refine ⟨fun ha => ⟨fun _ => ?_, fun _ => trivial⟩, fun _ => trivial⟩
    refine ⟨normalize_unit ⟨input.ux, input.uy, input.uz⟩, root_pos ?_⟩
    have := (Dbl.lt_iff _ _).mp ha
    rw [limit_val] at this
    exact this
  exact rsat_of_ok (Q := fun p => UnitDirection p.dir ∧
      0 < (1.0 - p.dir.x*p.dir.x : Dbl A).val) key h

/-- **C91** (the part that holds) The same for the ions of the library functions. -/
theorem C91_default_incident (m Z E Ec Es x dx dy dz : Dbl A) (p : Particle (Dbl A))
    (h : Particle.default_incident m Z E Ec Es x dx dy dz = .ok p) :
    UnitDirection p.dir ∧ 0 < (1.0 - p.dir.x*p.dir.x : Dbl A).val := by
  have key : RSat (Particle.default_incident m Z E Ec Es x dx dy dz) (fun p => UnitDirection p.dir ∧
      0 < (1.0 - p.dir.x*p.dir.x : Dbl A).val) (fun _ => True) := by
    unfold Particle.default_incident
    simp only [rsat_bind, rsat_assert, rsat_pure]
    refine ⟨fun ha => ⟨fun _ => ?_, fun _ => trivial⟩, fun _ => trivial⟩
    refine ⟨normalize_unit ⟨dx, dy, dz⟩, root_pos ?_⟩
    have := (Dbl.lt_iff _ _).mp ha
    rw [limit_val] at this
    exact this
  exact rsat_of_ok (Q := fun p => UnitDirection p.dir ∧
      0 < (1.0 - p.dir.x*p.dir.x : Dbl A).val) key h

/-- **C91** (refuted: surface normals) At normal incidence on the surface with normal `-x`, the
direction `rotate_given_surface_normal` returns in double precision is exactly along x - in spite
of the offset, which is lost in the rounding: the rotation after the first collision divides by
zero. (`powf` is taken to square correctly.) -/
theorem C91_refuted_normal (hA : ∀ x, A.powf x 2 = x^2) :
    ∃ u, rotate_given_surface_normal (-1.0 : Dbl A) 0.0 0.0 1.0 0.0 0.0 = .ok u ∧ u.x.val = 1 ∧
      (sqrt (1.0 - u.x*u.x) : Dbl A).val = 0 := by
  have hR : surface_rotation (-1.0 : Dbl A) 0.0 0.0 = Mat3.identity := by
    have hc : (((1.0 : Dbl A) ==. -1.0)) = false := by
      refine decide_eq_false ?_
      rw [Dbl.val_neg, one_val]; norm_num
    simp only [surface_rotation, Vec3.cross, Vec3.dot, dbl_neg_neg, dbl_neg_zero, dbl_mul_zero,
      dbl_zero_mul, dbl_one_mul, dbl_add_zero, dbl_sub_zero, hc, Bool.not_false, if_true,
      Mat3.identity, Mat3.add, Mat3.mul, Mat3.div, Mat3.mulVec, Mat3.transpose, Vec3.add,
      dbl_zero_add, dbl_zero_div]
  obtain ⟨d, hd⟩ : ∃ d : Dbl A, d = 1e-9 := ⟨_, rfl⟩
  have hdv : d.val = ((4835703278458517 : ℤ) : ℝ)*(2:ℝ)^(-82:ℤ) := by
    rw [hd]
    change A.rnd _ = _
    refine rnd_eq A _ _ (by norm_num) (by norm_num) ?_
    rw [abs_lt]; constructor <;> norm_num
  have hx : (1.0 + d : Dbl A).val = ((4503599631874096 : ℤ) : ℝ)*(2:ℝ)^(-52:ℤ) := by
    rw [Dbl.val_add, one_val, hdv]
    refine rnd_eq A _ _ (by norm_num) (by norm_num) ?_
    rw [abs_lt]; constructor <;> norm_num
  have hpow : ∀ a : Dbl A, (powf a 2.0).val = A.rnd (a.val^2) := by
    intro a
    change A.rnd (A.powf a.val (2.0 : Dbl A).val) = _
    rw [two_val, hA]
  have hxx : (powf (1.0 + d : Dbl A) 2.0).val = ((4503599636377696 : ℤ) : ℝ)*(2:ℝ)^(-52:ℤ) := by
    rw [hpow, hx]
    refine rnd_eq A _ _ (by norm_num) (by norm_num) ?_
    rw [abs_lt]; constructor <;> norm_num
  have hyy : 0 ≤ (powf (-d : Dbl A) 2.0).val ∧ (powf (-d : Dbl A) 2.0).val < 2^(-55:ℤ) := by
    rw [hpow, Dbl.val_neg, hdv]
    have hb := rnd_bounds A (sq_nonneg (-(((4835703278458517 : ℤ) : ℝ)*(2:ℝ)^(-82:ℤ))))
    refine ⟨rnd_nonneg (sq_nonneg _), lt_of_le_of_lt hb.2 ?_⟩
    norm_num
  have hzz : (powf (0.0 : Dbl A) 2.0).val = 0 := by
    rw [hpow, zero_val]
    exact rnd_val (by norm_num) ⟨0, 0, by norm_num, by norm_num⟩
  have hs : (powf (1.0 + d : Dbl A) 2.0 + powf (-d : Dbl A) 2.0).val
      = ((4503599636377696 : ℤ) : ℝ)*(2:ℝ)^(-52:ℤ) := by
    rw [Dbl.val_add, hxx]
    refine rnd_eq A _ _ (by norm_num) (by norm_num) ?_
    rw [abs_lt]
    have e : (2:ℝ)^(-55:ℤ) < 2^(-52:ℤ)/2 := by norm_num
    have e' : (0:ℝ) < 2^(-52:ℤ)/2 := by positivity
    constructor <;> linarith [hyy.1, hyy.2]
  have hs3 : (powf (1.0 + d : Dbl A) 2.0 + powf (-d : Dbl A) 2.0 + powf (0.0 : Dbl A) 2.0).val
      = ((4503599636377696 : ℤ) : ℝ)*(2:ℝ)^(-52:ℤ) := by
    rw [Dbl.val_add, hs, hzz]
    exact rnd_val (add_zero _) ⟨4503599636377696, -52, by norm_num, rfl⟩
  have hm : (sqrt (powf (1.0 + d : Dbl A) 2.0 + powf (-d : Dbl A) 2.0 + powf (0.0 : Dbl A) 2.0)).val
      = ((4503599631874096 : ℤ) : ℝ)*(2:ℝ)^(-52:ℤ) := by
    rw [Dbl.val_sqrt, hs3]
    refine rnd_eq A _ _ (by norm_num) (by norm_num) ?_
    have l1 : ((4503599631874096 : ℤ) : ℝ)*(2:ℝ)^(-52:ℤ) - 2^(-54:ℤ)
        ≤ Real.sqrt (((4503599636377696 : ℤ) : ℝ)*(2:ℝ)^(-52:ℤ)) := by
      refine Real.le_sqrt_of_sq_le ?_
      norm_num
    have l2 : Real.sqrt (((4503599636377696 : ℤ) : ℝ)*(2:ℝ)^(-52:ℤ))
        ≤ ((4503599631874096 : ℤ) : ℝ)*(2:ℝ)^(-52:ℤ) + 2^(-54:ℤ) := by
      rw [Real.sqrt_le_left (by positivity)]
      norm_num
    have e : (2:ℝ)^(-54:ℤ) < 2^(-52:ℤ)/2 := by norm_num
    generalize Real.sqrt (((4503599636377696 : ℤ) : ℝ)*(2:ℝ)^(-52:ℤ)) = r at *
    generalize ((4503599631874096 : ℤ) : ℝ)*(2:ℝ)^(-52:ℤ) = q at *
    generalize (2:ℝ)^(-54:ℤ) = v at *
    generalize (2:ℝ)^(-52:ℤ)/2 = w at *
    rw [abs_lt]
    constructor <;> linarith
  have hux : ((1.0 + d)/(sqrt (powf (1.0 + d : Dbl A) 2.0 + powf (-d : Dbl A) 2.0
      + powf (0.0 : Dbl A) 2.0)) : Dbl A).val = 1 := by
    rw [Dbl.val_div, hm, hx, div_self (by norm_num)]
    exact rnd_double A ⟨1, 0, by norm_num, by norm_num⟩
  have hass : ((1.0 + d : Dbl A) >. 0.0) = true := by
    refine (Dbl.lt_iff _ _).mpr ?_
    rw [zero_val, hx]; positivity
  unfold rotate_given_surface_normal
  simp only [hR, Mat3.mulVec, Mat3.identity, Vec3.dot, dbl_one_mul, dbl_mul_zero, dbl_zero_mul,
    dbl_add_zero, dbl_zero_add, dbl_zero_sub, ← hd, hass, rassert, if_true, bind, Except.bind, pure,
    Except.pure]
  refine ⟨_, rfl, hux, ?_⟩
  rw [Dbl.val_sqrt, Dbl.val_sub, one_val, Dbl.val_mul, hux]
  have z : IsDouble (0:ℝ) := ⟨0, 0, by norm_num, by norm_num⟩
  have one : A.rnd (1*1) = 1 := rnd_val (by norm_num) ⟨1, 0, by norm_num, by norm_num⟩
  rw [one, sub_self, rnd_double A z, Real.sqrt_zero, rnd_double A z]

/-- **C91** (refuted: refraction) There is an ion accepted by `from_input` which refraction at a
surface turns exactly along x in double precision: the rotation after its next collision divides by
zero. (`powi` is taken to square correctly.) -/
theorem C91_refuted_refraction (hA : ∀ x, A.powi x 2 = x^2) (o : Options (Dbl A)) :
    ∃ (input : ParticleInput (Dbl A)) (p : Particle (Dbl A)) (Es : Dbl A),
      Particle.from_input input o = .ok p ∧ Es.val = 15 ∧ p.E.val = 1 ∧
      (surface_refraction p ⟨1.0, 0.0, 0.0⟩ Es).dir.x.val = 1 ∧
      (sqrt (1.0 - (surface_refraction p ⟨1.0, 0.0, 0.0⟩ Es).dir.x
        *(surface_refraction p ⟨1.0, 0.0, 0.0⟩ Es).dir.x) : Dbl A).val = 0 := by
  obtain ⟨ux, hux⟩ : ∃ u : Dbl A, u.val = ((9007199254740989 : ℤ) : ℝ)*(2:ℝ)^(-53:ℤ) :=
    ⟨⟨_, 9007199254740989, -53, by norm_num, rfl⟩, rfl⟩
  obtain ⟨uy, huy⟩ : ∃ u : Dbl A, u.val = ((7 : ℤ) : ℝ)*(2:ℝ)^(-28:ℤ) :=
    ⟨⟨_, 7, -28, by norm_num, rfl⟩, rfl⟩
  obtain ⟨Es, hEs⟩ : ∃ u : Dbl A, u.val = 15 := ⟨⟨15, 15, 0, by norm_num, by norm_num⟩, rfl⟩
  have hxx : (ux*ux).val = ((9007199254740986 : ℤ) : ℝ)*(2:ℝ)^(-53:ℤ) := by
    rw [Dbl.val_mul, hux]
    refine rnd_eq A _ _ (by norm_num) (by norm_num) ?_
    rw [abs_lt]; constructor <;> norm_num
  have hyy : (uy*uy).val = ((49 : ℤ) : ℝ)*(2:ℝ)^(-56:ℤ) := by
    rw [Dbl.val_mul, huy]
    exact rnd_val (by norm_num) ⟨49, -56, by norm_num, rfl⟩
  have hs : (ux*ux + uy*uy + 0.0*0.0 : Dbl A).val = 1 := by
    rw [dbl_zero_mul, dbl_add_zero, Dbl.val_add, hxx, hyy]
    have := rnd_eq A (x := ((9007199254740986 : ℤ) : ℝ)*(2:ℝ)^(-53:ℤ)
      + ((49 : ℤ) : ℝ)*(2:ℝ)^(-56:ℤ)) 9007199254740992 (-53) (by norm_num) (by norm_num)
      (by rw [abs_lt]; constructor <;> norm_num)
    rw [this]; norm_num
  have hmag : sqrt (ux*ux + uy*uy + 0.0*0.0 : Dbl A) = 1.0 := by
    ext
    rw [Dbl.val_sqrt, hs, Real.sqrt_one, one_val]
    exact rnd_double A ⟨1, 0, by norm_num, by norm_num⟩
  have hdiv : ∀ a : Dbl A, a/1.0 = a := by
    intro a; ext; rw [Dbl.val_div, one_val, div_one]; exact rnd_double A a.2
  have habs : (abs ux : Dbl A).val = |ux.val| := rfl
  have hlim : (abs ux <. (1.0 - epsilon : Dbl A)) = true := by
    refine (Dbl.lt_iff _ _).mpr ?_
    rw [limit_val, habs, hux, abs_of_pos (by norm_num)]
    norm_num
  have hpos : ((1.0 : Dbl A) >. 0.0) = true := by
    refine (Dbl.lt_iff _ _).mpr ?_
    rw [zero_val, one_val]; norm_num
  -- the refraction
  have hE : (1.0 + Es : Dbl A).val = 16 := by
    rw [Dbl.val_add, one_val, hEs]
    exact rnd_val (by norm_num) ⟨16, 0, by norm_num, by norm_num⟩
  have hr : (sqrt (1.0/(1.0 + Es)) : Dbl A).val = 1/4 := by
    rw [Dbl.val_sqrt, Dbl.val_div, hE, one_val,
      rnd_val (A := A) (x := 1/16) rfl ⟨1, -4, by norm_num, by norm_num⟩,
      show (1/16 : ℝ) = (1/4)^2 by norm_num, Real.sqrt_sq (by norm_num)]
    exact rnd_val rfl ⟨1, -2, by norm_num, by norm_num⟩
  have h1 : (sqrt (1.0/(1.0 + Es))*ux : Dbl A).val
      = ((9007199254740989 : ℤ) : ℝ)*(2:ℝ)^(-55:ℤ) := by
    rw [Dbl.val_mul, hr, hux]
    exact rnd_val (by norm_num) ⟨9007199254740989, -55, by norm_num, rfl⟩
  have h2 : (-(sqrt (1.0 : Dbl A))*ux).val = -(((9007199254740989 : ℤ) : ℝ)*(2:ℝ)^(-53:ℤ)) := by
    have : (sqrt (1.0 : Dbl A)).val = 1 := by
      rw [Dbl.val_sqrt, one_val, Real.sqrt_one]
      exact rnd_double A ⟨1, 0, by norm_num, by norm_num⟩
    rw [Dbl.val_mul, Dbl.val_neg, this, hux]
    exact rnd_val (by norm_num) (isDouble_neg ⟨9007199254740989, -53, by norm_num, rfl⟩)
  have h3 : (powi ux 2 : Dbl A).val = ((9007199254740986 : ℤ) : ℝ)*(2:ℝ)^(-53:ℤ) := by
    change A.rnd (A.powi ux.val 2) = _
    rw [hA, hux]
    refine rnd_eq A _ _ (by norm_num) (by norm_num) ?_
    rw [abs_lt]; constructor <;> norm_num
  have h4 : (sqrt (1.0*powi ux 2 + Es) : Dbl A).val = 4 := by
    have : (1.0*powi ux 2 + Es : Dbl A).val = 16 := by
      rw [dbl_one_mul, Dbl.val_add, h3, hEs]
      have := rnd_eq A (x := ((9007199254740986 : ℤ) : ℝ)*(2:ℝ)^(-53:ℤ) + 15)
        9007199254740992 (-49) (by norm_num) (by norm_num) (by rw [abs_lt]; constructor <;> norm_num)
      rw [this]; norm_num
    rw [Dbl.val_sqrt, this, show (16 : ℝ) = 4^2 by norm_num, Real.sqrt_sq (by norm_num)]
    exact rnd_val rfl ⟨4, 0, by norm_num, by norm_num⟩
  have h5 : (sqrt (1.0 + Es) : Dbl A).val = 4 := by
    rw [Dbl.val_sqrt, hE, show (16 : ℝ) = 4^2 by norm_num, Real.sqrt_sq (by norm_num)]
    exact rnd_val rfl ⟨4, 0, by norm_num, by norm_num⟩
  have h6 : (-(sqrt (1.0 : Dbl A))*ux + sqrt (1.0*powi ux 2 + Es)).val
      = ((6755399441055745 : ℤ) : ℝ)*(2:ℝ)^(-51:ℤ) := by
    rw [Dbl.val_add, h2, h4]
    refine rnd_eq A _ _ (by norm_num) (by norm_num) ?_
    rw [abs_lt]; constructor <;> norm_num
  have h7 : ((-(sqrt (1.0 : Dbl A))*ux + sqrt (1.0*powi ux 2 + Es))/sqrt (1.0 + Es)).val
      = ((6755399441055745 : ℤ) : ℝ)*(2:ℝ)^(-53:ℤ) := by
    rw [Dbl.val_div, h6, h5]
    exact rnd_val (by norm_num) ⟨6755399441055745, -53, by norm_num, rfl⟩
  have h8 : (sqrt (1.0/(1.0 + Es))*ux
      + ((-(sqrt (1.0 : Dbl A))*ux + sqrt (1.0*powi ux 2 + Es))/sqrt (1.0 + Es))*1.0).val = 1 := by
    rw [dbl_mul_one, Dbl.val_add, h1, h7]
    have := rnd_eq A (x := ((9007199254740989 : ℤ) : ℝ)*(2:ℝ)^(-55:ℤ)
      + ((6755399441055745 : ℤ) : ℝ)*(2:ℝ)^(-53:ℤ)) 9007199254740992 (-53) (by norm_num)
      (by norm_num) (by rw [abs_lt]; constructor <;> norm_num)
    rw [this]; norm_num
  obtain ⟨p, hp, hpE, hpd⟩ : ∃ p, Particle.from_input (⟨1.0, 1.0, 1.0, 1.0, 1.0, 0.0, 0.0, 0.0,
      ux, uy, 0.0, 0, 1.0, 0⟩ : ParticleInput (Dbl A)) o = .ok p ∧ p.E = 1.0 ∧
      p.dir = ⟨ux, uy, 0.0⟩ := by
    unfold Particle.from_input
    simp only [hmag, hdiv, hlim, hpos, rassert, if_true, bind, Except.bind, pure, Except.pure]
    exact ⟨_, rfl, rfl, rfl⟩
  have hx : (surface_refraction p ⟨1.0, 0.0, 0.0⟩ Es).dir.x.val = 1 := by
    have hdot : (⟨ux, uy, 0.0⟩ : Vec3 (Dbl A)).dot ⟨1.0, 0.0, 0.0⟩ = ux := by
      simp only [Vec3.dot, dbl_mul_one, dbl_mul_zero, dbl_add_zero]
    simp only [surface_refraction, hpE, hpd, hdot]
    exact h8
  refine ⟨_, p, Es, hp, hEs, by rw [hpE, one_val], hx, ?_⟩
  rw [Dbl.val_sqrt, Dbl.val_sub, one_val, Dbl.val_mul, hx]
  have z : IsDouble (0:ℝ) := ⟨0, 0, by norm_num, by norm_num⟩
  have one : A.rnd (1*1) = 1 := rnd_val (by norm_num) ⟨1, 0, by norm_num, by norm_num⟩
  rw [one, sub_self, rnd_double A z, Real.sqrt_zero, rnd_double A z]

end RustBCA
