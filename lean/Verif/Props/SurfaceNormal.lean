import Verif.Spec.Lib
import Mathlib.Tactic.LinearCombination
import Mathlib.Tactic.FieldSimp
import Mathlib.Tactic.Positivity

/-!
# C56: `rotate_given_surface_normal` and `rotate_back`
-/

set_option linter.unusedSimpArgs false

namespace RustBCA
open Scalar Spec

/-- Multiplication by the model's matrix, as a function. -/
noncomputable def toSurface (n v : Vec3 ℝ) : Vec3 ℝ := (surface_rotation n.x n.y n.z).mulVec v

theorem toSurface_generic {n v : Vec3 ℝ} (h : 1 - n.x ≠ 0) :
    toSurface n v =
      ⟨(1 - (n.y^2 + n.z^2)/(1 - n.x))*v.x + -n.y*v.y + -n.z*v.z,
       n.y*v.x + (1 - n.y^2/(1 - n.x))*v.y - n.y*n.z/(1 - n.x)*v.z,
       n.z*v.x - n.y*n.z/(1 - n.x)*v.y + (1 - n.z^2/(1 - n.x))*v.z⟩ := by
  have h0 : (0.0 : ℝ) = 0 := by norm_num
  have h1 : (1.0 : ℝ) = 1 := by norm_num
  have h1' : (-1.0 : ℝ) = -1 := by norm_num
  have hc : (-n.x*1 + -n.y*0 + -n.z*0 : ℝ) = -n.x := by ring
  have hne : -n.x ≠ -1 := fun e => h (by linarith)
  have hh : 1 + -n.x ≠ 0 := fun e => h (by linarith)
  simp only [toSurface, surface_rotation, Vec3.dot, Vec3.cross, h0, h1, h1', hc,
    (eq_real_false _ _).2 hne, Bool.not_false, if_true, Mat3.mulVec, Mat3.add, Mat3.identity,
    Mat3.mul, Mat3.div, Mat3.transpose, Vec3.add, Vec3.mk.injEq]
  refine ⟨?_, ?_, ?_⟩ <;> field_simp <;> ring

theorem toSurface_special {n v : Vec3 ℝ} (h : n.x = 1) : toSurface n v = ⟨-v.x, v.y, -v.z⟩ := by
  have h0 : (0.0 : ℝ) = 0 := by norm_num
  have h1 : (1.0 : ℝ) = 1 := by norm_num
  have h1' : (-1.0 : ℝ) = -1 := by norm_num
  have hc : (-n.x*1 + -n.y*0 + -n.z*0 : ℝ) = -1 := by rw [h]; ring
  simp only [toSurface, surface_rotation, Vec3.dot, Vec3.cross, h0, h1, h1', hc,
    (eq_real (-1) (-1)).2 rfl, Bool.not_true, if_false, Bool.false_eq_true, Mat3.mulVec, Mat3.rotation_y,
    pi_real, cos_real, sin_real, Real.cos_pi, Real.sin_pi, Vec3.mk.injEq]
  refine ⟨?_, ?_, ?_⟩ <;> ring

theorem fromSurface_generic {n v : Vec3 ℝ} (h : 1 - n.x ≠ 0) :
    rotate_back n.x n.y n.z v.x v.y v.z =
      ⟨(1 - (n.y^2 + n.z^2)/(1 - n.x))*v.x + n.y*v.y + n.z*v.z,
       -n.y*v.x + (1 - n.y^2/(1 - n.x))*v.y - n.y*n.z/(1 - n.x)*v.z,
       -n.z*v.x - n.y*n.z/(1 - n.x)*v.y + (1 - n.z^2/(1 - n.x))*v.z⟩ := by
  have h0 : (0.0 : ℝ) = 0 := by norm_num
  have h1 : (1.0 : ℝ) = 1 := by norm_num
  have h1' : (-1.0 : ℝ) = -1 := by norm_num
  have hc : (-n.x*1 + -n.y*0 + -n.z*0 : ℝ) = -n.x := by ring
  have hne : -n.x ≠ -1 := fun e => h (by linarith)
  have hh : 1 + -n.x ≠ 0 := fun e => h (by linarith)
  simp only [rotate_back, surface_rotation, Vec3.dot, Vec3.cross, h0, h1, h1', hc,
    (eq_real_false _ _).2 hne, Bool.not_false, if_true, Mat3.mulVec, Mat3.add, Mat3.identity,
    Mat3.mul, Mat3.div, Mat3.transpose, Vec3.add, Vec3.mk.injEq]
  refine ⟨?_, ?_, ?_⟩ <;> field_simp <;> ring

theorem fromSurface_special {n v : Vec3 ℝ} (h : n.x = 1) :
    rotate_back n.x n.y n.z v.x v.y v.z = ⟨-v.x, v.y, -v.z⟩ := by
  have h0 : (0.0 : ℝ) = 0 := by norm_num
  have h1 : (1.0 : ℝ) = 1 := by norm_num
  have h1' : (-1.0 : ℝ) = -1 := by norm_num
  have hc : (-n.x*1 + -n.y*0 + -n.z*0 : ℝ) = -1 := by rw [h]; ring
  simp only [rotate_back, surface_rotation, Vec3.dot, Vec3.cross, h0, h1, h1', hc,
    (eq_real (-1) (-1)).2 rfl, Bool.not_true, if_false, Bool.false_eq_true, Mat3.mulVec, Mat3.rotation_y,
    Mat3.transpose, pi_real, cos_real, sin_real, Real.cos_pi, Real.sin_pi, Vec3.mk.injEq]
  refine ⟨?_, ?_, ?_⟩ <;> ring

/-- The rotation, in a form without divisions: `k (1 - n.x) = 1`. -/
theorem unit_cases {n : Vec3 ℝ} (hn : Spec.IsUnit n) :
    (n.x = 1 ∧ n.y = 0 ∧ n.z = 0) ∨ (1 - n.x ≠ 0) := by
  unfold Spec.IsUnit Spec.inner at hn
  by_cases h : n.x = 1
  · left
    rw [h] at hn
    have hy : n.y^2 + n.z^2 = 0 := by linarith
    refine ⟨h, ?_, ?_⟩
    · have := sq_nonneg n.z; have := sq_nonneg n.y
      exact pow_eq_zero_iff (two_ne_zero) |>.1 (by linarith)
    · have := sq_nonneg n.z; have := sq_nonneg n.y
      exact pow_eq_zero_iff (two_ne_zero) |>.1 (by linarith)
  · right
    exact fun e => h (by linarith)

/-- With `k = 1/(1 - n.x)` the rotation matrix has polynomial entries. -/
theorem toSurface_poly {n : Vec3 ℝ} (hn : Spec.IsUnit n) (h : 1 - n.x ≠ 0) :
    ∃ k : ℝ, k*(1 - n.x) = 1 ∧ k*(n.y^2 + n.z^2) = 1 + n.x ∧
      (∀ v, toSurface n v = ⟨-n.x*v.x - n.y*v.y - n.z*v.z,
        n.y*v.x + (1 - k*n.y^2)*v.y - k*n.y*n.z*v.z,
        n.z*v.x - k*n.y*n.z*v.y + (1 - k*n.z^2)*v.z⟩) ∧
      (∀ v : Vec3 ℝ, rotate_back n.x n.y n.z v.x v.y v.z =
       ⟨-n.x*v.x + n.y*v.y + n.z*v.z,
       -n.y*v.x + (1 - k*n.y^2)*v.y - k*n.y*n.z*v.z,
       -n.z*v.x - k*n.y*n.z*v.y + (1 - k*n.z^2)*v.z⟩) := by
  unfold Spec.IsUnit Spec.inner at hn
  have hk : (1 - n.x)⁻¹*(1 - n.x) = 1 := inv_mul_cancel₀ h
  have hk2 : (1 - n.x)⁻¹*(n.y^2 + n.z^2) = 1 + n.x := by
    have : n.y^2 + n.z^2 = (1 - n.x)*(1 + n.x) := by linear_combination hn
    rw [this, ← mul_assoc, hk, one_mul]
  refine ⟨(1 - n.x)⁻¹, hk, hk2, fun v => ?_, fun v => ?_⟩
  · rw [toSurface_generic h]
    simp only [div_eq_mul_inv, Vec3.mk.injEq]
    generalize (1 - n.x)⁻¹ = k at hk hk2
    refine ⟨?_, ?_, ?_⟩
    · linear_combination (-v.x)*hk2
    · ring
    · ring
  · rw [fromSurface_generic h]
    simp only [div_eq_mul_inv, Vec3.mk.injEq]
    generalize (1 - n.x)⁻¹ = k at hk hk2
    refine ⟨?_, ?_, ?_⟩
    · linear_combination (-v.x)*hk2
    · ring
    · ring

theorem toSurface_rotation {n : Vec3 ℝ} (hn : Spec.IsUnit n) : IsRotation (toSurface n) := by
  rcases unit_cases hn with ⟨h, hy, hz⟩ | h
  · constructor
    · intro v w
      simp only [toSurface_special h, plus, Vec3.mk.injEq]
      exact ⟨by ring, trivial, by ring⟩
    · intro c v
      simp only [toSurface_special h, times, Vec3.mk.injEq]
      exact ⟨by ring, trivial, by ring⟩
    · intro v w
      simp only [toSurface_special h, Spec.inner]
      ring
    · intro v w
      simp only [toSurface_special h, cross, Vec3.mk.injEq]
      exact ⟨by ring, by ring, by ring⟩
  · obtain ⟨k, hk, hk2, hR, -⟩ := toSurface_poly hn h
    obtain ⟨a, b, c⟩ := n
    unfold Spec.IsUnit Spec.inner at hn
    simp only at hn hk hk2 hR
    constructor
    · intro v w
      simp only [hR, plus, Vec3.mk.injEq]
      exact ⟨by ring, by ring, by ring⟩
    · intro c v
      simp only [hR, times, Vec3.mk.injEq]
      exact ⟨by ring, by ring, by ring⟩
    · rintro ⟨x, y, z⟩ ⟨x', y', z'⟩
      simp only [hR, Spec.inner]
      linear_combination (x*x')*hn - (x*(b*y' + c*z') + x'*(b*y + c*z))*hk2 +
        (b*y + c*z)*(b*y' + c*z')*(k*hk2 - hk)
    · rintro ⟨x, y, z⟩ ⟨x', y', z'⟩
      simp only [hR, cross, Vec3.mk.injEq]
      refine ⟨?_, ?_, ?_⟩
      · linear_combination (y*z' - z*y')*hk2
      · linear_combination (-(z*x' - x*z'))*hk2 +
          c*((b*y + c*z)*x' - x*(b*y' + c*z'))*hk
      · linear_combination (-(x*y' - y*x'))*hk2 -
          b*((b*y + c*z)*x' - x*(b*y' + c*z'))*hk

theorem toSurface_normal {n : Vec3 ℝ} (hn : Spec.IsUnit n) :
    toSurface n (times (-1) n) = xhat := by
  rcases unit_cases hn with ⟨h, hy, hz⟩ | h
  · simp only [toSurface_special h, times, xhat, h, hy, hz, Vec3.mk.injEq]
    norm_num
  · obtain ⟨k, hk, hk2, hR, -⟩ := toSurface_poly hn h
    obtain ⟨a, b, c⟩ := n
    unfold Spec.IsUnit Spec.inner at hn
    simp only at hn hk hk2 hR
    simp only [hR, times, xhat, Vec3.mk.injEq]
    refine ⟨?_, ?_, ?_⟩
    · linear_combination hn
    · linear_combination b*hk2
    · linear_combination c*hk2

theorem toSurface_x {n : Vec3 ℝ} (hn : Spec.IsUnit n) (v : Vec3 ℝ) :
    (toSurface n v).x = -Spec.inner n v := by
  rcases unit_cases hn with ⟨h, hy, hz⟩ | h
  · simp only [toSurface_special h, Spec.inner, h, hy, hz]
    ring
  · obtain ⟨k, hk, hk2, hR, -⟩ := toSurface_poly hn h
    rw [hR]
    simp only [Spec.inner]
    ring

theorem back_to {n : Vec3 ℝ} (hn : Spec.IsUnit n) (v : Vec3 ℝ) :
    rotate_back n.x n.y n.z (toSurface n v).x (toSurface n v).y (toSurface n v).z = v := by
  rcases unit_cases hn with ⟨h, hy, hz⟩ | h
  · rw [fromSurface_special h, toSurface_special h]
    simp only [neg_neg]
  · obtain ⟨k, hk, hk2, hR, hB⟩ := toSurface_poly hn h
    rw [hB, hR]
    obtain ⟨a, b, c⟩ := n
    obtain ⟨x, y, z⟩ := v
    unfold Spec.IsUnit Spec.inner at hn
    simp only [Vec3.mk.injEq] at hn hk hk2 ⊢
    refine ⟨?_, ?_, ?_⟩
    · linear_combination x*hn - (b*y + c*z)*hk2
    · linear_combination (-b*x)*hk2 + b*(b*y + c*z)*(k*hk2 - hk)
    · linear_combination (-c*x)*hk2 + c*(b*y + c*z)*(k*hk2 - hk)

theorem to_back {n : Vec3 ℝ} (hn : Spec.IsUnit n) (v : Vec3 ℝ) :
    toSurface n (rotate_back n.x n.y n.z v.x v.y v.z) = v := by
  rcases unit_cases hn with ⟨h, hy, hz⟩ | h
  · rw [fromSurface_special h, toSurface_special h]
    simp only [neg_neg]
  · obtain ⟨k, hk, hk2, hR, hB⟩ := toSurface_poly hn h
    rw [hB, hR]
    obtain ⟨a, b, c⟩ := n
    obtain ⟨x, y, z⟩ := v
    unfold Spec.IsUnit Spec.inner at hn
    simp only [Vec3.mk.injEq] at hn hk hk2 ⊢
    refine ⟨?_, ?_, ?_⟩
    · linear_combination x*hn + (b*y + c*z)*hk2
    · linear_combination (b*x)*hk2 + b*(b*y + c*z)*(k*hk2 - hk)
    · linear_combination (c*x)*hk2 + c*(b*y + c*z)*(k*hk2 - hk)

/-- **C56** For every unit normal `n` (pointing out of the surface) there is one rotation `R` taking
the direction into the surface to +x such that: `rotate_given_surface_normal` returns the unit vector
along `R d` moved by `(1e-9, -1e-9, 0)` for every `d` that does not point out of the surface (by more
than 1e-9), and panics for every other `d`; and `rotate_back` is the inverse of `R`, on both sides. -/
theorem C56_rotation (n : Vec3 ℝ) (hn : Spec.IsUnit n) :
    ∃ R : Vec3 ℝ → Vec3 ℝ, IsRotation R ∧ R (times (-1) n) = xhat ∧
      (∀ d : Vec3 ℝ, Spec.inner n d < 1e-9 →
        rotate_given_surface_normal n.x n.y n.z d.x d.y d.z =
          .ok (unitOf (plus (R d) nudge))) ∧
      (∀ d : Vec3 ℝ, 1e-9 ≤ Spec.inner n d →
        ∃ msg, rotate_given_surface_normal n.x n.y n.z d.x d.y d.z = .error (.panic msg)) ∧
      (∀ d : Vec3 ℝ, rotate_back n.x n.y n.z (R d).x (R d).y (R d).z = d) ∧
      (∀ v : Vec3 ℝ, R (rotate_back n.x n.y n.z v.x v.y v.z) = v) := by
  have h0 : (0.0 : ℝ) = 0 := by norm_num
  have h2 : (2.0 : ℝ) = 2 := by norm_num
  refine ⟨toSurface n, toSurface_rotation hn, toSurface_normal hn, fun d hd => ?_, fun d hd => ?_,
    back_to hn, to_back hn⟩
  · have hx := toSurface_x hn d
    have hpos : (0.0 <. (toSurface n d).x + 1e-9) = true := by
      rw [lt_real, hx, h0]; linarith
    change ((rassert (0.0 <. (toSurface n d).x + 1e-9) _) >>= fun _ => _) = _
    rw [hpos]
    simp only [rassert, if_true, bind, Except.bind, pure, Except.pure, unitOf, Spec.norm, times, plus,
      nudge, Spec.inner, Except.ok.injEq, powf_real, sqrt_real, h2, Real.rpow_two,
      Vec3.mk.injEq]
    have : ∀ v : Vec3 ℝ, (surface_rotation n.x n.y n.z).mulVec ⟨v.x, v.y, v.z⟩ = toSurface n v :=
      fun _ => rfl
    rw [this]
    simp only [add_zero, ← sub_eq_add_neg, pow_two]
    refine ⟨?_, ?_, ?_⟩ <;> rw [div_eq_inv_mul]
  · have hx := toSurface_x hn d
    have hpos : (0.0 <. (toSurface n d).x + 1e-9) = false := by
      rw [lt_real_false, hx, h0]; linarith
    change ∃ msg, ((rassert (0.0 <. (toSurface n d).x + 1e-9) _) >>= fun _ => _) = _
    rw [hpos]
    exact ⟨_, rfl⟩

/-- **C56** The round trip: from a unit vector, `rotate_given_surface_normal` gives a unit vector
pointing into the surface (along +x), within 1.5e-9 of the rotated direction; rotating it back gives a
vector within 1.5e-9 of the original one. -/
theorem C56_round_trip (n d u : Vec3 ℝ) (hn : Spec.IsUnit n) (hd : Spec.IsUnit d)
    (h : rotate_given_surface_normal n.x n.y n.z d.x d.y d.z = .ok u) :
    Spec.IsUnit u ∧ 0 < u.x ∧ |u.x - -Spec.inner n d| ≤ 1.5e-9 ∧
      Spec.norm (minus (rotate_back n.x n.y n.z u.x u.y u.z) d) ≤ 1.5e-9 := by
  obtain ⟨R, hR, hRn, hok, hbad, hb, hb'⟩ := C56_rotation n hn
  have hlt : Spec.inner n d < 1e-9 := by
    by_contra hc
    obtain ⟨msg, hm⟩ := hbad d (not_lt.1 hc)
    rw [hm] at h
    exact absurd h (by simp)
  have hu := hok d hlt
  rw [h, Except.ok.injEq] at hu
  have hx : (R d).x = -Spec.inner n d := by
    have := hR.inner (times (-1) n) d
    rw [hRn] at this
    simp only [Spec.inner, xhat, times] at this ⊢
    linarith
  obtain ⟨r, hr⟩ : ∃ r, r = R d := ⟨_, rfl⟩
  rw [← hr] at hu hx
  have hru : Spec.inner r r = 1 := by rw [hr, hR.inner]; exact hd
  have hback : Spec.inner (minus (rotate_back n.x n.y n.z u.x u.y u.z) d)
      (minus (rotate_back n.x n.y n.z u.x u.y u.z) d) = Spec.inner (minus u r) (minus u r) := by
    rw [← hR.inner]
    have : R (minus (rotate_back n.x n.y n.z u.x u.y u.z) d) = minus u r := by
      have e : ∀ a b : Vec3 ℝ, minus a b = plus a (times (-1) b) := by
        intro a b; simp only [minus, plus, times, Vec3.mk.injEq]
        exact ⟨by ring, by ring, by ring⟩
      rw [e, hR.plus, hR.times, hb', ← hr, ← e]
    rw [this]
  obtain ⟨w, hw⟩ : ∃ w, w = plus r nudge := ⟨_, rfl⟩
  rw [← hw] at hu
  obtain ⟨t, ht⟩ : ∃ t, t = Spec.inner r nudge := ⟨_, rfl⟩
  have hd2 : Spec.inner nudge nudge = 2e-18 := by simp only [Spec.inner, nudge]; norm_num
  have hww : Spec.inner w w = 1 + 2*t + 2e-18 := by
    rw [← hd2, ht, ← hru, hw]; simp only [Spec.inner, plus]; ring
  have hrw : Spec.inner r w = 1 + t := by
    rw [ht, ← hru, hw]; simp only [Spec.inner, plus]; ring
  have ht2 : t^2 ≤ 2e-18 := by
    have hcs : t^2 ≤ Spec.inner r r*Spec.inner nudge nudge := by
      rw [ht]; simp only [Spec.inner]
      nlinarith [sq_nonneg (r.x*nudge.y - r.y*nudge.x), sq_nonneg (r.x*nudge.z - r.z*nudge.x),
        sq_nonneg (r.y*nudge.z - r.z*nudge.y)]
    rw [hru, hd2, one_mul] at hcs
    exact hcs
  have htl : -1e-8 < t := by nlinarith
  have htu : t < 1e-8 := by nlinarith
  obtain ⟨s, hs⟩ : ∃ s, s = Spec.norm w := ⟨_, rfl⟩
  have hs2 : s^2 = 1 + 2*t + 2e-18 := by
    rw [hs, Spec.norm, Real.sq_sqrt (by rw [hww]; linarith), hww]
  have hs0 : 0 ≤ s := by rw [hs]; exact Real.sqrt_nonneg _
  have hs1 : 0.99 < s := by nlinarith
  have hsinv : s⁻¹*s = 1 := inv_mul_cancel₀ (by linarith)
  have huu : Spec.inner u u = 1 := by
    have : Spec.inner u u = s⁻¹^2*Spec.inner w w := by
      rw [hu, unitOf, ← hs]; simp only [Spec.inner, times]; ring
    rw [this, hww, ← hs2, ← mul_pow, hsinv, one_pow]
  have hur : Spec.inner u r = s⁻¹*(1 + t) := by
    rw [← hrw, hu, unitOf, ← hs]; simp only [Spec.inner, times]; ring
  have hdist : Spec.inner (minus u r) (minus u r) ≤ 2.25e-18 := by
    have e : Spec.inner (minus u r) (minus u r) =
        Spec.inner u u - 2*Spec.inner u r + Spec.inner r r := by
      simp only [Spec.inner, minus]; ring
    rw [e, huu, hru, hur]
    have h1 : (s - (1 + t))*(s + (1 + t)) ≤ 2e-18 := by nlinarith
    have h3 : s - (1 + t) ≤ 1.1e-18 := by
      by_contra hc
      push Not at hc
      nlinarith
    have h4 : s⁻¹*(1 + t) = 1 - s⁻¹*(s - (1 + t)) := by
      rw [mul_sub, hsinv]; ring
    have h5 : s⁻¹ ≤ 1.02 := by
      rw [inv_le_comm₀ (by linarith) (by norm_num)]
      norm_num
      linarith
    have h6 : 0 < s⁻¹ := by positivity
    rw [h4]
    have : s⁻¹*(s - (1 + t)) ≤ 1.122e-18 := by nlinarith
    linarith
  refine ⟨huu, ?_, ?_, ?_⟩
  · have : u.x = s⁻¹*(r.x + 1e-9) := by rw [hu, unitOf, ← hs, hw]; rfl
    rw [this, hx]
    exact mul_pos (by positivity) (by linarith)
  · rw [← hx, abs_le]
    have h1 : (u.x - r.x)^2 ≤ 2.25e-18 := by
      refine le_trans ?_ hdist
      simp only [Spec.inner, minus]
      nlinarith [sq_nonneg (u.y - r.y), sq_nonneg (u.z - r.z)]
    constructor <;> nlinarith
  · rw [Spec.norm, hback, Real.sqrt_le_iff]
    refine ⟨by norm_num, le_trans hdist (by norm_num)⟩

/-- **C56** At normal incidence the offset does what it is there for: the direction returned is not
exactly +x. -/
theorem C56_normal_incidence (n u : Vec3 ℝ) (hn : Spec.IsUnit n)
    (h : rotate_given_surface_normal n.x n.y n.z (-n.x) (-n.y) (-n.z) = .ok u) : u.x < 1 := by
  obtain ⟨R, hR, hRn, hok, hbad, hb, hb'⟩ := C56_rotation n hn
  have hd : Spec.inner n (times (-1) n) < 1e-9 := by
    have : Spec.inner n (times (-1) n) = -Spec.inner n n := by
      simp only [Spec.inner, times]; ring
    rw [this, show Spec.inner n n = 1 from hn]; norm_num
  have hu := hok _ hd
  simp only [times, neg_one_mul] at hu hRn
  rw [h, Except.ok.injEq, hRn] at hu
  have hs : (1 + 1e-9 : ℝ) < Spec.norm (plus xhat nudge) := by
    rw [Spec.norm, Real.lt_sqrt (by norm_num)]
    simp only [Spec.inner, plus, xhat, nudge]
    norm_num
  have hx : u.x = (Spec.norm (plus xhat nudge))⁻¹*(1 + 1e-9) := by rw [hu]; rfl
  rw [hx, inv_mul_lt_iff₀ (by linarith [hs])]
  linarith

/-- **C56** finding: but for one direction next to it the offset itself produces exactly +x, the
"gimbal lock" it is meant to avoid (there the rotation after a collision divides by zero). -/
theorem C56_gimbal_lock (n : Vec3 ℝ) (hn : Spec.IsUnit n) :
    ∃ d : Vec3 ℝ, Spec.IsUnit d ∧
      rotate_given_surface_normal n.x n.y n.z d.x d.y d.z = .ok xhat := by
  obtain ⟨R, hR, hRn, hok, hbad, hb, hb'⟩ := C56_rotation n hn
  obtain ⟨c, hc⟩ : ∃ c, c = Real.sqrt (1 - 1e-18) := ⟨_, rfl⟩
  have hc2 : c^2 = 1 - 1e-18 := by rw [hc, Real.sq_sqrt (by norm_num)]
  have hc0 : 0 < c := by rw [hc]; exact Real.sqrt_pos.2 (by norm_num)
  obtain ⟨d, hd⟩ : ∃ d, d = rotate_back n.x n.y n.z c 1e-9 0 := ⟨_, rfl⟩
  have hRd : R d = ⟨c, 1e-9, 0⟩ := by rw [hd]; exact hb' ⟨c, 1e-9, 0⟩
  have hdu : Spec.IsUnit d := by
    unfold Spec.IsUnit
    rw [← hR.inner, hRd]
    simp only [Spec.inner]
    rw [← pow_two c, hc2]
    norm_num
  have hx : Spec.inner n d < 1e-9 := by
    have := hR.inner (times (-1) n) d
    rw [hRn, hRd] at this
    simp only [Spec.inner, xhat, times] at this ⊢
    linarith
  refine ⟨d, hdu, ?_⟩
  rw [hok d hx, hRd]
  have hw : plus ⟨c, 1e-9, 0⟩ nudge = ⟨c + 1e-9, 0, 0⟩ := by
    simp only [plus, nudge, Vec3.mk.injEq]
    norm_num
  have hp : 0 < c + 1e-9 := by positivity
  have hnm : Spec.norm ⟨c + 1e-9, 0, 0⟩ = c + 1e-9 := by
    simp only [Spec.norm, Spec.inner, mul_zero, add_zero]
    exact Real.sqrt_mul_self hp.le
  rw [hw, unitOf, hnm]
  simp only [times, mul_zero, xhat, inv_mul_cancel₀ hp.ne']

end RustBCA
