import Verif.Props.Surface
import Verif.Proofs.Special

/-!
# C103: the angle of refraction
-/

namespace RustBCA
open Scalar Spec

set_option linter.unusedSimpArgs false

/-- **C103** Snell's law for the surface barrier, in arithmetic with NaN and infinities: for a cosine
`c` between -1 and 1 and positive energies `refraction_angle` returns the angle by which the
direction turns towards (or away from) the normal: the incidence angle `θ0` and the refracted angle
`θ1` lie between 0 and 90 degrees, `cos θ0 = |c|`, the momentum along the surface is the same before
and after, and the result is `θ0 - θ1`, with the opposite sign if `c` is negative.  If no angle `θ1`
conserves that momentum (total reflection), the function panics. -/
theorem C103_refraction_angle (c E0 E1 : ℝ) (hc : |c| ≤ 1) (h0 : 0 < E0) (h1 : 0 < E1) :
    (E0*(1 - c^2) ≤ E1 → ∃ θ0 θ1 : ℝ, 0 ≤ θ0 ∧ θ0 ≤ Real.pi/2 ∧ 0 ≤ θ1 ∧ θ1 ≤ Real.pi/2 ∧
      Real.cos θ0 = |c| ∧ Real.sqrt E1*Real.sin θ1 = Real.sqrt E0*Real.sin θ0 ∧
      refraction_angle (XReal.fin c) (XReal.fin E0) (XReal.fin E1) =
        .ok (XReal.fin (if c < 0 then θ1 - θ0 else θ0 - θ1))) ∧
    (E1 < E0*(1 - c^2) →
      ∃ e, refraction_angle (XReal.fin c) (XReal.fin E0) (XReal.fin E1) = .error e) := by
  have hc2 : c*c ≤ 1 := by
    have := sq_abs c
    nlinarith [abs_nonneg c]
  have hq : (0:ℝ) ≤ E0/E1 := (div_pos h0 h1).le
  set s0 := Real.sqrt (1 - c*c) with hs0
  have s0nn : 0 ≤ s0 := Real.sqrt_nonneg _
  have s0sq : s0^2 = 1 - c*c := Real.sq_sqrt (by linarith)
  have s0le : s0 ≤ 1 := by nlinarith [mul_self_nonneg c]
  set s1 := s0*Real.sqrt (E0/E1) with hs1
  have s1nn : 0 ≤ s1 := mul_nonneg s0nn (Real.sqrt_nonneg _)
  have s1sq : s1^2 = (1 - c*c)*(E0/E1) := by rw [hs1, mul_pow, s0sq, Real.sq_sqrt hq]
  have hone : (1.0:ℝ) = 1 := by norm_num
  have run : refraction_angle (XReal.fin c) (XReal.fin E0) (XReal.fin E1) =
      (do
        let d := Scalar.asin (XReal.fin s1) - Scalar.asin (XReal.fin s0)
        rassert (!isNaN d) "Numerical error: refraction returned NaN."
        pure (-(XReal.fin (if c < 0 then -1 else 1))*d) : Res XReal) := by
    unfold refraction_angle
    have h : (Scalar.abs (XReal.fin c) >. (1.0:XReal)) = false := by
      rw [XReal.fin_abs, XReal.fin_lit]
      show decide ((1.0:ℝ) < |c|) = false
      rw [hone]
      simpa using hc
    simp only [h, Bool.false_eq_true, if_false]
    simp only [XReal.fin_mul, XReal.fin_lit, XReal.fin_sub, hone]
    rw [XReal.fin_sqrt (by linarith), XReal.fin_div h1.ne', XReal.fin_sqrt hq, ← hs0, XReal.fin_mul,
      ← hs1]
    rfl
  have hasin0 : Scalar.asin (XReal.fin s0) = XReal.fin (Real.arcsin s0) := by
    show (if -1 ≤ s0 ∧ s0 ≤ 1 then _ else _) = _
    rw [if_pos ⟨by linarith, s0le⟩]
  rw [run, hasin0]
  constructor
  · intro hle
    have s1le : s1 ≤ 1 := by
      have : s1^2 ≤ 1 := by
        rw [s1sq, ← mul_div_assoc, div_le_one h1]; nlinarith
      nlinarith
    have hasin1 : Scalar.asin (XReal.fin s1) = XReal.fin (Real.arcsin s1) := by
      show (if -1 ≤ s1 ∧ s1 ≤ 1 then _ else _) = _
      rw [if_pos ⟨by linarith, s1le⟩]
    rw [hasin1]
    refine ⟨Real.arcsin s0, Real.arcsin s1, Real.arcsin_nonneg.2 s0nn, Real.arcsin_le_pi_div_two _,
      Real.arcsin_nonneg.2 s1nn, Real.arcsin_le_pi_div_two _, ?_, ?_, ?_⟩
    · rw [Real.cos_arcsin, s0sq, show 1 - (1 - c*c) = c^2 by ring, Real.sqrt_sq_eq_abs]
    · rw [Real.sin_arcsin (by linarith) s0le, Real.sin_arcsin (by linarith) s1le, hs1,
        Real.sqrt_div h0.le]
      have := (Real.sqrt_pos.2 h1).ne'
      field_simp
    · rw [XReal.fin_sub, XReal.fin_neg]
      dsimp only
      rw [XReal.fin_mul]
      simp only [XReal.fin_isNaN, rassert, Bool.not_false, if_true, bind, Except.bind, pure,
        Except.pure]
      congr 2
      split <;> ring
  · intro hlt
    have s1gt : 1 < s1 := by
      have : 1 < s1^2 := by
        rw [s1sq, ← mul_div_assoc, one_lt_div h1]; nlinarith
      nlinarith
    have hasin1 : Scalar.asin (XReal.fin s1) = XReal.nan := by
      show (if -1 ≤ s1 ∧ s1 ≤ 1 then _ else _) = _
      rw [if_neg (by rintro ⟨_, h⟩; linarith)]
    rw [hasin1]
    exact ⟨_, rfl⟩

/-- **C103** a cosine that rounding has pushed beyond -1 or 1 counts as normal incidence: the direction
does not turn. -/
theorem C103_beyond_one (c E0 E1 : ℝ) (hc : 1 < |c|) (h0 : 0 < E0) (h1 : 0 < E1) :
    refraction_angle (XReal.fin c) (XReal.fin E0) (XReal.fin E1) = .ok (XReal.fin 0) := by
  have hone : (1.0:ℝ) = 1 := by norm_num
  have hclamp : refraction_angle (XReal.fin c) (XReal.fin E0) (XReal.fin E1) =
      refraction_angle (XReal.fin (if c < 0 then -1 else 1)) (XReal.fin E0) (XReal.fin E1) := by
    have h : (Scalar.abs (XReal.fin c) >. (1.0:XReal)) = true := by
      rw [XReal.fin_abs, XReal.fin_lit]
      show decide ((1.0:ℝ) < |c|) = true
      rw [hone]
      simpa using hc
    have hs : Scalar.signum (XReal.fin c) = XReal.fin (if c < 0 then -1 else 1) := rfl
    have h' : (Scalar.abs (XReal.fin (if c < 0 then -1 else 1)) >. (1.0:XReal)) = false := by
      rw [XReal.fin_abs, XReal.fin_lit]
      show decide ((1.0:ℝ) < |if c < 0 then -1 else 1|) = false
      rw [hone]
      split <;> simp
    unfold refraction_angle
    rw [if_pos h, if_neg (by rw [h']; simp), hs]
  have habs : |(if c < 0 then -1 else 1 : ℝ)| = 1 := by split <;> simp
  obtain ⟨θ0, θ1, a1, a2, a3, a4, a5, a6, a7⟩ := (C103_refraction_angle (if c < 0 then -1 else 1) E0 E1
    (by rw [habs]) h0 h1).1 (by split <;> nlinarith)
  have t0 : θ0 = 0 := by
    rw [habs] at a5
    exact Real.injOn_cos ⟨a1, by linarith [Real.pi_pos]⟩ ⟨le_refl 0, Real.pi_pos.le⟩
      (by rw [a5, Real.cos_zero])
  have t1 : θ1 = 0 := by
    rw [t0, Real.sin_zero, mul_zero] at a6
    have hs : Real.sin θ1 = 0 := by
      rcases mul_eq_zero.1 a6 with h | h
      · exact absurd h (Real.sqrt_pos.2 h1).ne'
      · exact h
    rcases a3.lt_or_eq with h | h
    · exact absurd hs (Real.sin_pos_of_pos_of_lt_pi h (by linarith [Real.pi_pos])).ne'
    · exact h.symm
  rw [hclamp, a7, t0, t1]
  simp

/-- **C103** the angle is the one by which `surface_refraction` turns a particle that meets the
surface at an incidence angle `arccos c` from its normal. -/
theorem C103_agrees_with_refraction (p : Particle ℝ) (n : Vec3 ℝ) (Es r : ℝ) (hu : Spec.IsUnit p.dir)
    (hn : Spec.IsUnit n) (hE : 0 < p.E) (hE' : 0 < p.E + Es) (hc : 0 ≤ Spec.inner p.dir n)
    (hr : refraction_angle (XReal.fin (Spec.inner p.dir n)) (XReal.fin p.E) (XReal.fin (p.E + Es)) =
      .ok (XReal.fin r)) :
    Spec.inner (surface_refraction p n Es).dir n = Real.cos (Real.arccos (Spec.inner p.dir n) - r) := by
  have hdir := refraction_dir p n Es hE.le
  set c := Spec.inner p.dir n with hcdef
  have hu' : p.dir.x*p.dir.x + p.dir.y*p.dir.y + p.dir.z*p.dir.z = 1 := hu
  have hn' : n.x*n.x + n.y*n.y + n.z*n.z = 1 := hn
  have hc1 : c ≤ 1 := by
    have : c = p.dir.x*n.x + p.dir.y*n.y + p.dir.z*n.z := rfl
    nlinarith [mul_self_nonneg (p.dir.x - n.x), mul_self_nonneg (p.dir.y - n.y),
      mul_self_nonneg (p.dir.z - n.z)]
  have habs : |c| ≤ 1 := by rw [abs_of_nonneg hc]; exact hc1
  obtain ⟨ok, bad⟩ := C103_refraction_angle c p.E (p.E + Es) habs hE hE'
  have hle : p.E*(1 - c^2) ≤ p.E + Es := by
    by_contra hcon
    obtain ⟨e, he⟩ := bad (not_le.1 hcon)
    rw [hr] at he
    exact nomatch he
  obtain ⟨θ0, θ1, a1, a2, a3, a4, a5, a6, a7⟩ := ok hle
  rw [hr, if_neg (not_lt.2 hc)] at a7
  have hr' : r = θ0 - θ1 := by injection a7 with h; injection h
  have hpi := Real.pi_pos
  have h0 : Real.arccos c = θ0 := by
    rw [← abs_of_nonneg hc, ← a5, Real.arccos_cos a1 (by linarith)]
  rw [h0, hr', show θ0 - (θ0 - θ1) = θ1 by ring]
  set e := Real.sqrt p.E with he
  set s := Real.sqrt (p.E + Es) with hs
  set w := Real.sqrt (p.E*c^2 + Es) with hw
  have hs0 : 0 < s := Real.sqrt_pos.mpr hE'
  have he2 : e^2 = p.E := Real.sq_sqrt hE.le
  have hs2 : s^2 = p.E + Es := Real.sq_sqrt hE'.le
  have hw2 : w^2 = p.E*c^2 + Es := Real.sq_sqrt (by nlinarith)
  have hin : Spec.inner (surface_refraction p n Es).dir n = w/s := by
    rw [hdir]
    have : Spec.inner (plus (times (e/s) p.dir) (times ((-e*c + w)/s) n)) n
        = e/s*Spec.inner p.dir n + (-e*c + w)/s*Spec.inner n n := by
      simp only [Spec.inner, plus, times]; ring
    rw [this, ← hcdef, show Spec.inner n n = 1 from hn]
    field_simp; ring
  rw [hin]
  have hcos : 0 ≤ Real.cos θ1 := Real.cos_nonneg_of_mem_Icc ⟨by linarith, a4⟩
  have hw0 : 0 ≤ w/s := div_nonneg (Real.sqrt_nonneg _) hs0.le
  have hsq : (w/s)^2 = Real.cos θ1^2 := by
    have t1 := Real.sin_sq_add_cos_sq θ1
    have t0 := Real.sin_sq_add_cos_sq θ0
    have hc0 : Real.cos θ0^2 = c^2 := by rw [a5, sq_abs]
    have h2 : s^2*Real.sin θ1^2 = e^2*Real.sin θ0^2 := by
      rw [← mul_pow, ← mul_pow, a6]
    rw [div_pow, div_eq_iff (by positivity), hw2]
    rw [hs2, he2] at h2
    rw [hs2]
    have t1' : Real.cos θ1^2 = 1 - Real.sin θ1^2 := by linarith
    have t0' : Real.sin θ0^2 = 1 - c^2 := by linarith
    rw [t1', show (1 - Real.sin θ1^2)*(p.E + Es) = p.E + Es - (p.E + Es)*Real.sin θ1^2 by ring, h2, t0']
    ring
  exact (pow_left_inj₀ hw0 hcos (by norm_num)).1 hsq

/-- At 60 degrees, entering with a binding energy of twice the energy: the momentum along the surface
`sin 60° = √3/2` fits into the new momentum `√3`, and the function returns; leaving with an energy a
quarter of it, it panics. -/
example : (∃ r, refraction_angle (XReal.fin (1/2)) (XReal.fin 1) (XReal.fin 3) = .ok (XReal.fin r)) ∧
    ∃ e, refraction_angle (XReal.fin (1/2)) (XReal.fin 1) (XReal.fin (1/4)) = .error e := by
  constructor
  · obtain ⟨_, _, -, -, -, -, -, -, h⟩ := (C103_refraction_angle (1/2) 1 3
      (by rw [abs_of_pos] <;> norm_num) (by norm_num) (by norm_num)).1 (by norm_num)
    exact ⟨_, h⟩
  · exact (C103_refraction_angle (1/2) 1 (1/4) (by rw [abs_of_pos] <;> norm_num) (by norm_num)
      (by norm_num)).2 (by norm_num)

end RustBCA
