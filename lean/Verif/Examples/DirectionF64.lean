import Verif.Props.DirectionF64
import Verif.Examples.YieldsF64

/-!
Examples for C124: the directions (3, 4, 0), (0, 0, 0), (0, 2^600, 1) and (0, infinity, 1).
-/

namespace RustBCA.DirectionF64Example
open Scalar Spec

/-- An ion with the direction `u`. -/
noncomputable def input {L : Libm} (u : Vec3 (Ieee L)) : ParticleInput (Ieee L) where
  m := 1.0
  Z := 1.0
  E := 1.0
  Ec := 1.0
  Es := 1.0
  x := 0.0
  y := 0.0
  z := 0.0
  ux := u.x
  uy := u.y
  uz := u.z
  interaction_index := 0
  weight := 1.0
  tag := 0

noncomputable def seven (L : Libm) : Ieee L := B64.num ⟨((7:ℤ):ℝ), isF64_of (m := 7) (e := 0) (by norm_num) (by norm_num) (by norm_num) (by norm_num)⟩

noncomputable def num {x : ℝ} (h : IsF64 x) : B64 := .num ⟨x, h⟩

theorem small (m : ℤ) (h : |m| ≤ 2^53) : IsF64 (m:ℝ) :=
  isF64_of (m := m) (e := 0) (by simp) h (by norm_num) (by norm_num)

theorem one_positive (L : Libm) (u : Vec3 (Ieee L)) : ((input u).E >. 0.0) = true :=
  YieldsF64Example.w0.lt YieldsF64Example.w1

theorem max345 : max |((3:ℤ):ℝ)| (max |((4:ℤ):ℝ)| |((0:ℤ):ℝ)|) = 4 := by
  norm_num

/-- The direction (3, 4, 0) becomes (3/5, 4/5, 0). -/
example (L : Libm) (o : Options (Ieee L)) : ∃ p, Particle.from_input
      (input ⟨num (small 3 (by norm_num)), num (small 4 (by norm_num)), num (small 0 (by norm_num))⟩) o = .ok p ∧
    Near p.dir ⟨3/5, 4/5, 0⟩ (2^(-46:ℤ)) := by
  have hN : lengthOf ((3:ℤ):ℝ) ((4:ℤ):ℝ) ((0:ℤ):ℝ) = 5 := by
    unfold lengthOf
    rw [show (((3:ℤ):ℝ)^2 + ((4:ℤ):ℝ)^2 + ((0:ℤ):ℝ)^2) = 5^2 by norm_num, Real.sqrt_sq (by norm_num)]
  have hlo : (2:ℝ)^(-450:ℤ) ≤ max |((3:ℤ):ℝ)| (max |((4:ℤ):ℝ)| |((0:ℤ):ℝ)|) := by
    rw [max345]
    calc (2:ℝ)^(-450:ℤ) ≤ 2^(2:ℤ) := zpow_le_zpow_right₀ (by norm_num) (by norm_num)
      _ = 4 := by norm_num
  have hhi : max |((3:ℤ):ℝ)| (max |((4:ℤ):ℝ)| |((0:ℤ):ℝ)|) ≤ 2^(500:ℤ) := by
    rw [max345]
    calc (4:ℝ) = 2^(2:ℤ) := by norm_num
      _ ≤ _ := zpow_le_zpow_right₀ (by norm_num) (by norm_num)
  obtain ⟨p, hp⟩ := C124_accepts L (q := input ⟨num (small 3 (by norm_num)), num (small 4 (by norm_num)),
    num (small 0 (by norm_num))⟩) (o := o) rfl rfl rfl hlo hhi (one_positive L _) (by
      rw [hN, abs_of_pos (by norm_num)]; norm_num)
  refine ⟨p, hp, ?_⟩
  have := C124_input L rfl rfl rfl hlo hhi hp
  rw [hN] at this
  norm_num at this ⊢
  exact this

/-- (0, -0, 0) is refused. -/
example (L : Libm) (o : Options (Ieee L)) : ∃ message, Particle.from_input
    (input ⟨num isF64_zero, B64.negZero, num isF64_zero⟩) o = .error (.panic message) :=
  C124_zero_refused L o rfl rfl rfl

theorem big : IsF64 ((2:ℝ)^(600:ℤ)) := by
  refine ⟨⟨1, 600, by norm_num, by norm_num, by rw [Int.cast_one, one_mul]⟩, ?_⟩
  rw [abs_of_pos (by positivity)]
  exact zpow_lt_zpow_right₀ (by norm_num) (by norm_num)

/-- (0, 2^600, 1) is accepted and becomes (0, 0, 0). -/
example (L : Libm) (o : Options (Ieee L)) : ∃ p, Particle.from_input
      (input ⟨num isF64_zero, num big, num (small 1 (by norm_num))⟩) o = .ok p ∧
    B64.toX p.dir.x = .fin 0 ∧ B64.toX p.dir.y = .fin 0 ∧ B64.toX p.dir.z = .fin 0 :=
  C124_refuted_huge L o rfl rfl rfl (le_max_of_le_right (le_max_of_le_left (by
    rw [abs_of_pos (by positivity)]
    exact zpow_le_zpow_right₀ (by norm_num) (by norm_num)))) (one_positive L _)

/-- (0, infinity, 1) is accepted and becomes (0, NaN, 0). -/
example (L : Libm) (o : Options (Ieee L)) : ∃ p, Particle.from_input
      (input ⟨num isF64_zero, B64.pinf, num (small 1 (by norm_num))⟩) o = .ok p ∧
    B64.toX p.dir.x = .fin 0 ∧ B64.toX p.dir.y = .nan ∧ B64.toX p.dir.z = .fin 0 :=
  C124_refuted_infinite L o rfl (.inl rfl) rfl (one_positive L _)

/-- An ion without direction takes a step. -/
example (L : Libm) : B64.toX (({ NotNaNExample.ion (1.0 : Ieee L) with dir_old := ⟨0.0, 0.0, 0.0⟩ }.advance
    (seven L) 0.0).1.pos.y) = .fin 0 := by
  have z := toX_zero L
  have hd : B64.toX (seven L + 0.0 - 0.0 : Ieee L) = .fin ((7:ℤ):ℝ) := by
    have h7 : B64.toX (seven L) = .fin ((7:ℤ):ℝ) := rfl
    have g : OnGrid ((7:ℤ):ℝ) := (small 7 (by norm_num)).1
    have hlt : |ieeeRound (((7:ℤ):ℝ) + 0)| < 2^(1024:ℤ) := by
      rw [add_zero, ieeeRound_exact g]; exact (small 7 (by norm_num)).2
    have h1 := toX_add_fin' L h7 z hlt
    have hn : B64.toX (-(0.0 : Ieee L)) = .fin (-0) := toX_neg _ z
    rw [add_zero, ieeeRound_exact g] at h1
    rw [neg_zero] at hn
    have h2 := toX_add_fin' L h1 hn hlt
    rw [add_zero, ieeeRound_exact g] at h2
    exact h2
  exact (C124_stuck L (p := { NotNaNExample.ion (1.0 : Ieee L) with dir_old := ⟨0.0, 0.0, 0.0⟩ }) _ _ z z z z z z hd).2.1

end RustBCA.DirectionF64Example
