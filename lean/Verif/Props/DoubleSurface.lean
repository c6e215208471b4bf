import Verif.Props.DoubleEnergy

/-!
# C108 at the surface: crossing a surface that is not ISOTROPIC, in double precision
-/

set_option linter.unusedSectionVars false
set_option linter.unusedSimpArgs false
set_option linter.unusedVariables false

namespace RustBCA
open Scalar Spec

variable {A : DoubleArith}

/-- `rnd_eq` for negative numbers. -/
theorem rnd_eq_neg (A : DoubleArith) {x : ℝ} (m e : ℤ) (hm : 2^52 < m) (hm' : m ≤ 2^53)
    (h : |m*(2:ℝ)^e + x| < 2^e/2) : A.rnd x = -(m*(2:ℝ)^e) := by
  have := rnd_eq { A with
    rnd := fun x => -A.rnd (-x)
    is_double := fun x => isDouble_neg (A.is_double _)
    nearest := fun x d hd => by
      have := A.nearest (-x) (-d) (isDouble_neg hd)
      rw [show -A.rnd (-x) - x = -(A.rnd (-x) - -x) by ring,
        show d - x = -(-d - -x) by ring, abs_neg, abs_neg]
      exact this } (x := -x) m e hm hm' (by rwa [sub_neg_eq_add])
  simp only [neg_neg] at this
  linarith

theorem isDouble_zero : IsDouble (0:ℝ) := ⟨0, 0, by norm_num, by norm_num⟩

theorem abs_rnd_le (A : DoubleArith) {x d : ℝ} (hd : IsDouble d) (h : |x| ≤ d) : |A.rnd x| ≤ d := by
  have h := abs_le.mp h
  have a1 := rnd_mono A h.1
  have a2 := rnd_mono A h.2
  rw [rnd_double A hd] at a2
  rw [rnd_double A (isDouble_neg hd)] at a1
  exact abs_le.mpr ⟨a1, a2⟩

theorem sub_self_val (a : Dbl A) : (a - a).val = 0 := by
  rw [Dbl.val_sub, sub_self, rnd_double A isDouble_zero]

theorem zero_term {a : Dbl A} (ha : a.val = 0) (b c : Dbl A) : (a*b/c).val = 0 := by
  rw [Dbl.val_div, Dbl.val_mul, ha, zero_mul, rnd_double A isDouble_zero, zero_div,
    rnd_double A isDouble_zero]

theorem add_zero_val (a : Dbl A) {b : Dbl A} (hb : b.val = 0) : (a + b).val = a.val := by
  rw [Dbl.val_add, hb, add_zero, rnd_double A a.double]

/-- What is compared with the surface binding energy is not more than the energy if the computed
cosine is not above 1. -/
theorem normal_energy_le {E c : Dbl A} (hE : 0 ≤ E.val) (hc : |c.val| ≤ 1) : (E*c*c).val ≤ E.val := by
  have h3 : |(E*c).val| ≤ E.val := by
    refine abs_rnd_le A E.double ?_
    rw [abs_mul, abs_of_nonneg hE]
    exact mul_le_of_le_one_right hE hc
  have h4 : (E*c).val*c.val ≤ E.val := by
    calc (E*c).val*c.val ≤ |(E*c).val*c.val| := le_abs_self _
      _ = |(E*c).val| * |c.val| := abs_mul _ _
      _ ≤ E.val*1 := mul_le_mul h3 hc (abs_nonneg _) hE
      _ = E.val := mul_one _
  have := rnd_mono A h4
  rwa [rnd_double A E.double] at this

/-- If the normal points along x, the computed cosine is not above 1. -/
theorem flat_cosine {dx dy dz cx cy cz : Dbl A} (hy : dy.val = 0) (hz : dz.val = 0)
    (hdir : |cx.val| ≤ 1) :
    |(dx*cx/sqrt (dx*dx + dy*dy + dz*dz) + dy*cy/sqrt (dx*dx + dy*dy + dz*dz) +
      dz*cz/sqrt (dx*dx + dy*dy + dz*dz) : Dbl A).val| ≤ 1 := by
  rw [add_zero_val _ (zero_term hz _ _), add_zero_val _ (zero_term hy _ _), Dbl.val_div]
  refine abs_rnd_le A isDouble_one ?_
  have hm : |dx.val| ≤ (sqrt (dx*dx + dy*dy + dz*dz) : Dbl A).val := (le_magnitude ⟨dx, dy, dz⟩).1
  have h1 : |(dx*cx).val| ≤ |dx.val| := by
    refine abs_rnd_le A (isDouble_abs dx.double) ?_
    rw [abs_mul]
    exact mul_le_of_le_one_right (abs_nonneg _) hdir
  rw [abs_div]
  refine div_le_one_of_le₀ ?_ (abs_nonneg _)
  exact h1.trans (hm.trans (le_abs_self _))

/-- **C108** (leaving a flat or layered target, any binding model; missing: nothing for this step)
In double precision, where the nearest surface point is straight along x, and the particle's direction
has an x component of at most 1 (as after every collision): crossing the surface, or being turned back
by it, leaves no negative energy. -/
theorem C108_leaving_flat_partial {p : Particle (Dbl A)} {mat : Material (Dbl A)} {Es : Dbl A}
    {x2 : Dbl A} (hE : 0 ≤ p.E.val) (hdir : |p.dir.x.val| ≤ 1)
    (hflat : mat.closest_point p.pos.x p.pos.y p.pos.z = .ok (x2, p.pos.y, p.pos.z)) :
    RSat (surface_leaving p mat Es) (fun q => 0 ≤ q.E.val) (fun _ => True) := by
  have hc := fun cy cz : Dbl A => flat_cosine (dx := x2 - p.pos.x) (cx := p.dir.x) (cy := cy) (cz := cz)
    (sub_self_val p.pos.y) (sub_self_val p.pos.z) hdir
  have hcE := normal_energy_le hE (hc p.dir.y p.dir.z)
  have fin : ∀ l : Dbl A, l.val ≤ p.E.val → (l >. Es) = true → 0 ≤ (p.E + -Es).val := by
    intro l h1 h2
    rw [Dbl.lt_iff] at h2
    rw [Dbl.val_add, Dbl.val_neg]
    exact rnd_nonneg (by linarith)
  unfold surface_leaving
  cases hm : mat.surface_binding_model <;> simp only [hflat, rsat_bind, rsat_ok, hm]
  all_goals
    split
    · split
      · rename_i hl
        simp only [rsat_pure]
        first
          | exact fin _ hcE hl
          | exact fin _ le_rfl hl
      · simp only [rsat_pure]; exact hE
    · simp only [rsat_pure]; exact hE

/-- **C108** (refuted for surfaces that are not flat) A particle that has just collided, so that its
direction `(-5, -12, 0)/13` was normalised, leaves along the surface normal; the nearest surface point
is at `(35, 84, 0)`.  The computed cosine is `-1 - 2^-52`; with energy 1 and a surface binding energy one
unit in the last place larger, the particle passes the test (its normal energy comes out as
`1 + 2^-51`) and leaves with a negative energy, whatever the way ties are rounded. -/
theorem C108_refuted_surface (p : Particle (Dbl A)) (mat : Material (Dbl A)) (Es x2 y2 v w o : Dbl A)
    (hE : p.E.val = 1) (hEs : Es.val = 1 + 2^(-52:ℤ)) (hmod : mat.surface_binding_model = .INDIVIDUAL)
    (hv : v.val = -5) (hw : w.val = -12) (ho : o.val = 0) (hdir : p.dir = (⟨v, w, o⟩ : Vec3 (Dbl A)).normalize)
    (hpos : p.pos = ⟨o, o, o⟩) (hx : x2.val = 35) (hy : y2.val = 84)
    (hclosest : mat.closest_point o o o = .ok (x2, y2, o)) :
    ∃ q, surface_leaving p mat Es = .ok q ∧ q.E.val = -2^(-52:ℤ) := by
  have sub0 : ∀ a : Dbl A, (a - o).val = a.val := by
    intro a; rw [Dbl.val_sub, ho, sub_zero, rnd_double A a.double]
  have mag13 : (Vec3.magnitude ⟨v, w, o⟩ : Dbl A).val = 13 := by
    show (sqrt (v*v + w*w + o*o) : Dbl A).val = 13
    have e1 : (v*v).val = 25 := by
      rw [Dbl.val_mul, hv, show (-5:ℝ)*(-5) = 25 by norm_num]
      exact rnd_double A ⟨25, 0, by norm_num, by norm_num⟩
    have e2 : (w*w).val = 144 := by
      rw [Dbl.val_mul, hw, show (-12:ℝ)*(-12) = 144 by norm_num]
      exact rnd_double A ⟨144, 0, by norm_num, by norm_num⟩
    have e3 : (o*o).val = 0 := by rw [Dbl.val_mul, ho, zero_mul]; exact rnd_double A isDouble_zero
    have e4 : (v*v + w*w + o*o).val = 169 := by
      rw [add_zero_val _ e3, Dbl.val_add, e1, e2, show (25:ℝ) + 144 = 169 by norm_num]
      exact rnd_double A ⟨169, 0, by norm_num, by norm_num⟩
    rw [Dbl.val_sqrt, e4, show (169:ℝ) = 13^2 by norm_num, Real.sqrt_sq (by norm_num)]
    exact rnd_double A ⟨13, 0, by norm_num, by norm_num⟩
  have cx : p.dir.x.val = -(((6928614811339225:ℤ):ℝ)*2^(-54:ℤ)) := by
    rw [hdir]
    show (v/Vec3.magnitude ⟨v, w, o⟩ : Dbl A).val = _
    rw [Dbl.val_div, hv, mag13]
    refine rnd_eq_neg A _ _ (by norm_num) (by norm_num) ?_
    rw [abs_lt]; constructor <;> norm_num
  have cy : p.dir.y.val = -(((8314337773607070:ℤ):ℝ)*2^(-53:ℤ)) := by
    rw [hdir]
    show (w/Vec3.magnitude ⟨v, w, o⟩ : Dbl A).val = _
    rw [Dbl.val_div, hw, mag13]
    refine rnd_eq_neg A _ _ (by norm_num) (by norm_num) ?_
    rw [abs_lt]; constructor <;> norm_num
  have hdx : (x2 - o).val = 35 := by rw [sub0, hx]
  have hdy : (y2 - o).val = 84 := by rw [sub0, hy]
  have hdz : (o - o).val = 0 := sub_self_val o
  have mag91 : (sqrt ((x2 - o)*(x2 - o) + (y2 - o)*(y2 - o) + (o - o)*(o - o)) : Dbl A).val = 91 := by
    have e1 : ((x2 - o)*(x2 - o)).val = 1225 := by
      rw [Dbl.val_mul, hdx, show (35:ℝ)*35 = 1225 by norm_num]
      exact rnd_double A ⟨1225, 0, by norm_num, by norm_num⟩
    have e2 : ((y2 - o)*(y2 - o)).val = 7056 := by
      rw [Dbl.val_mul, hdy, show (84:ℝ)*84 = 7056 by norm_num]
      exact rnd_double A ⟨7056, 0, by norm_num, by norm_num⟩
    have e3 : ((o - o)*(o - o)).val = 0 := by
      rw [Dbl.val_mul, hdz, zero_mul]; exact rnd_double A isDouble_zero
    have e4 : ((x2 - o)*(x2 - o) + (y2 - o)*(y2 - o) + (o - o)*(o - o)).val = 8281 := by
      rw [add_zero_val _ e3, Dbl.val_add, e1, e2, show (1225:ℝ) + 7056 = 8281 by norm_num]
      exact rnd_double A ⟨8281, 0, by norm_num, by norm_num⟩
    rw [Dbl.val_sqrt, e4, show (8281:ℝ) = 91^2 by norm_num, Real.sqrt_sq (by norm_num)]
    exact rnd_double A ⟨91, 0, by norm_num, by norm_num⟩
  obtain ⟨m, hm⟩ : ∃ m, m = (sqrt ((x2 - o)*(x2 - o) + (y2 - o)*(y2 - o) + (o - o)*(o - o)) : Dbl A) :=
    ⟨_, rfl⟩
  rw [← hm] at mag91
  have t1 : ((x2 - o)*p.dir.x/m).val = -(((5329703701030173:ℤ):ℝ)*2^(-55:ℤ)) := by
    have : ((x2 - o)*p.dir.x).val = -(((7578172449902277:ℤ):ℝ)*2^(-49:ℤ)) := by
      rw [Dbl.val_mul, hdx, cx]
      refine rnd_eq_neg A _ _ (by norm_num) (by norm_num) ?_
      rw [abs_lt]; constructor <;> norm_num
    rw [Dbl.val_div, this, mag91]
    refine rnd_eq_neg A _ _ (by norm_num) (by norm_num) ?_
    rw [abs_lt]; constructor <;> norm_num
  have t2 : ((y2 - o)*p.dir.y/m).val = -(((7674773329483450:ℤ):ℝ)*2^(-53:ℤ)) := by
    have : ((y2 - o)*p.dir.y).val = -(((5456284163929640:ℤ):ℝ)*2^(-46:ℤ)) := by
      rw [Dbl.val_mul, hdy, cy]
      refine rnd_eq_neg A _ _ (by norm_num) (by norm_num) ?_
      rw [abs_lt]; constructor <;> norm_num
    rw [Dbl.val_div, this, mag91]
    refine rnd_eq_neg A _ _ (by norm_num) (by norm_num) ?_
    rw [abs_lt]; constructor <;> norm_num
  obtain ⟨c, hc⟩ : ∃ c, c = (x2 - o)*p.dir.x/m + (y2 - o)*p.dir.y/m + (o - o)*p.dir.z/m := ⟨_, rfl⟩
  have hcv : c.val = -(((4503599627370497:ℤ):ℝ)*2^(-52:ℤ)) := by
    rw [hc, add_zero_val _ (zero_term hdz _ _), Dbl.val_add, t1, t2]
    refine rnd_eq_neg A _ _ (by norm_num) (by norm_num) ?_
    rw [abs_lt]; constructor <;> norm_num
  have hEc : (p.E*c).val = -(((4503599627370497:ℤ):ℝ)*2^(-52:ℤ)) := by
    rw [Dbl.val_mul, hE, one_mul, hcv]
    exact rnd_double A (isDouble_neg ⟨_, _, by norm_num, rfl⟩)
  have hEcc : (p.E*c*c).val = ((4503599627370498:ℤ):ℝ)*2^(-52:ℤ) := by
    rw [Dbl.val_mul, hEc, hcv]
    refine rnd_eq A _ _ (by norm_num) (by norm_num) ?_
    rw [abs_lt]; constructor <;> norm_num
  have b1 : (c <. 0.0) = true := by rw [Dbl.lt_iff, hcv, zero_val]; norm_num
  have b2 : (p.E*c*c >. Es) = true := by rw [Dbl.lt_iff, hEcc, hEs]; norm_num
  unfold surface_leaving
  simp only [hpos, hclosest, bind, Except.bind, hmod, ← hm, ← hc, b1, b2, if_true, pure, Except.pure]
  refine ⟨_, rfl, ?_⟩
  show (p.E + -Es).val = _
  rw [Dbl.val_add, Dbl.val_neg, hE, hEs, show (1:ℝ) + -(1 + 2^(-52:ℤ)) = -2^(-52:ℤ) by ring]
  exact rnd_double A ⟨-1, -52, by norm_num, by norm_num⟩

end RustBCA
