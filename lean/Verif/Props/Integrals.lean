import Verif.Proofs.Screened
import Mathlib.Analysis.SpecialFunctions.Trigonometric.Bounds

/-!
# C26: limits of the scattering integrals
-/

set_option linter.unusedVariables false

namespace RustBCA
open Scalar Spec

theorem quadrature_sum (g : ℝ → Res (Anyhow ℝ)) (h : ℝ → ℝ) (nodes : List (ℝ × ℝ))
    (hg : ∀ xw ∈ nodes, g xw.1 = .ok (.ok (h xw.1))) :
    quadrature g nodes = .ok ((nodes.map fun xw => xw.2*h xw.1).sum) := by
  unfold quadrature
  have key : ∀ (nodes : List (ℝ × ℝ)) (acc : ℝ), (∀ xw ∈ nodes, g xw.1 = .ok (.ok (h xw.1))) →
      forFold (fun acc (xw : ℝ × ℝ) => do
        let r ← g xw.1
        let v ← unwrapA r
        pure (acc + xw.2*v)) nodes acc
      = (.ok (acc + (nodes.map fun xw => xw.2*h xw.1).sum) : Res ℝ) := by
    intro nodes
    induction nodes with
    | nil => intro acc _; simp [forFold, pure, Except.pure]
    | cons xw l ih =>
      intro acc hh
      unfold forFold
      rw [hh xw (by simp)]
      simp only [bind, Except.bind, unwrapA, pure, Except.pure]
      exact (ih (acc + xw.2*h xw.1) (fun a ha => hh a (by simp [ha]))).trans
        (by simp [add_assoc])
  rw [key nodes 0.0 hg]
  norm_num

theorem quadrature_congr (g : ℝ → Res (Anyhow ℝ)) (nodes : List (ℝ × ℝ)) (s : ℝ)
    (hq : quadrature g nodes = .ok s) : ∃ h : ℝ → ℝ, ∀ xw ∈ nodes, g xw.1 = .ok (.ok (h xw.1)) := by
  have key : ∀ (nodes : List (ℝ × ℝ)) (acc s : ℝ), forFold (fun acc (xw : ℝ × ℝ) => do
        let r ← g xw.1
        let v ← unwrapA r
        pure (acc + xw.2*v)) nodes acc = (.ok s : Res ℝ) →
      ∀ xw ∈ nodes, ∃ v, g xw.1 = .ok (.ok v) := by
    intro nodes
    induction nodes with
    | nil => intro _ _ _ xw h; simp at h
    | cons xw l ih =>
      intro acc s h
      unfold forFold at h
      cases hg : g xw.1 with
      | error e => rw [hg] at h; simp [bind, Except.bind] at h
      | ok r =>
        cases r with
        | error m => rw [hg] at h; simp [bind, Except.bind, unwrapA] at h
        | ok v =>
          rw [hg] at h
          simp only [bind, Except.bind, unwrapA, pure, Except.pure] at h
          intro yw hy
          rcases List.mem_cons.mp hy with rfl | hy
          · exact ⟨v, hg⟩
          · exact ih _ _ h yw hy
  have h := key nodes 0.0 s hq
  refine ⟨fun x => match g x with | .ok (.ok v) => v | _ => 0, fun xw hx => ?_⟩
  obtain ⟨v, hv⟩ := h xw hx
  simp only [hv]

/-- The weights of both quadratures are non-negative. -/
theorem gm_weights (n : ℕ) : ∀ xw ∈ (gm_nodes n : List (ℝ × ℝ)), 0 ≤ xw.2 := by
  intro xw h
  unfold gm_nodes at h
  simp only [List.mem_map, List.mem_range] at h
  obtain ⟨j, hj, rfl⟩ := h
  simp only [sin_real, pi_real, ofNat_real]
  have hpi := Real.pi_pos
  have hn : (0:ℝ) < n := by exact_mod_cast (by omega : 0 < n)
  have hj' : (j : ℝ) + 1 ≤ n := by exact_mod_cast hj
  have e : ((2.0*((j + 1 : ℕ) : ℝ) - 1.0)/4.0/n*Real.pi) = (2*j + 1)/(4*n)*Real.pi := by
    push_cast
    rw [show (2.0 : ℝ) = 2 by norm_num, show (1.0 : ℝ) = 1 by norm_num,
      show (4.0 : ℝ) = 4 by norm_num]
    field_simp; ring
  rw [e]
  have h1 : (2*(j:ℝ) + 1)/(4*n) ≤ 1 := by
    rw [div_le_one (by positivity)]; linarith
  have h2 : 0 ≤ Real.sin ((2*j + 1)/(4*n)*Real.pi) :=
    Real.sin_nonneg_of_nonneg_of_le_pi (by positivity) (by nlinarith)
  positivity

theorem gl_weights : ∀ xw ∈ (gl_nodes : List (ℝ × ℝ)), 0 ≤ xw.2 := by
  intro xw h
  unfold gl_nodes at h
  simp only [List.map_cons, List.map_nil, List.zip_cons_cons, List.zip_nil_right,
    List.mem_cons, List.not_mem_nil, or_false] at h
  rcases h with rfl | rfl | rfl | rfl | rfl <;> norm_num

theorem gl_points : ∀ xw ∈ (gl_nodes : List (ℝ × ℝ)), 0 ≤ xw.1 := by
  intro xw h
  unfold gl_nodes at h
  simp only [List.map_cons, List.map_nil, List.zip_cons_cons, List.zip_nil_right,
    List.mem_cons, List.not_mem_nil, or_false] at h
  rcases h with rfl | rfl | rfl | rfl | rfl <;> norm_num

theorem gm_term (u p r0 E : ℝ) (V : ℝ → Res ℝ) (w : ℝ)
    (h : scattering_function_gm u p r0 E V = .ok (.ok w)) : ∃ v, V (r0/u) = .ok v ∧
      w = p/r0/Real.sqrt (1 - v/E - (p*u/r0)^2) := by
  unfold scattering_function_gm at h
  cases hv : V (r0/u) with
  | error e => rw [hv] at h; simp [bind, Except.bind] at h
  | ok v =>
    rw [hv] at h
    simp only [bind, Except.bind, isNaN_real, Bool.false_eq_true, if_false, pure, Except.pure,
      Except.ok.injEq, sqrt_real, powi_real] at h
    refine ⟨v, rfl, ?_⟩
    rw [← h, show (2 : ℤ) = ((2 : ℕ) : ℤ) from rfl, zpow_natCast, show (1.0 : ℝ) = 1 by norm_num]

theorem gl_term (u p r0 E : ℝ) (V : ℝ → Res ℝ) (w : ℝ)
    (h : scattering_function_gl u p r0 E V = .ok (.ok w)) : ∃ v, V (r0/(1 - u*u)) = .ok v ∧
      w = 4*p*u/(r0*Real.sqrt (1 - v/E - p*p*(1 - u*u)^2/r0/r0)) := by
  unfold scattering_function_gl at h
  rw [show (1.0 : ℝ) = 1 by norm_num] at h
  cases hv : V (r0/(1 - u*u)) with
  | error e => rw [hv] at h; simp [bind, Except.bind] at h
  | ok v =>
    rw [hv] at h
    simp only [bind, Except.bind, isNaN_real, Bool.false_eq_true, if_false, pure, Except.pure,
      Except.ok.injEq, sqrt_real, powi_real] at h
    refine ⟨v, rfl, ?_⟩
    rw [← h, show (2 : ℤ) = ((2 : ℕ) : ℤ) from rfl, zpow_natCast, show (4.0 : ℝ) = 4 by norm_num]

/-- A scattering integral succeeded on real numbers. -/
theorem gm_result (p E r0 : ℝ) (V : ℝ → Res ℝ) (n : ℕ) (theta : ℝ)
    (h : scattering_integral_gauss_mehler p E r0 V n = .ok theta) :
    ∃ w : ℝ → ℝ, (∀ xw ∈ gm_nodes n, scattering_function_gm xw.1 p r0 E V = .ok (.ok (w xw.1))) ∧
      theta = Real.pi - ((gm_nodes n).map fun xw => xw.2*w xw.1).sum := by
  unfold scattering_integral_gauss_mehler at h
  cases hq : quadrature (fun x => scattering_function_gm x p r0 E V) (gm_nodes n) with
  | error e => rw [hq] at h; simp [bind, Except.bind] at h
  | ok s =>
    obtain ⟨w, hw⟩ := quadrature_congr _ _ _ hq
    have := quadrature_sum (fun x => scattering_function_gm x p r0 E V) w _ hw
    rw [hq] at this h
    refine ⟨w, hw, ?_⟩
    simp only [bind, Except.bind, pure, Except.pure, Except.ok.injEq, pi_real] at h
    rw [← h, Except.ok.inj this]

theorem gl_result (p E r0 : ℝ) (V : ℝ → Res ℝ) (theta : ℝ)
    (h : scattering_integral_gauss_legendre p E r0 V = .ok theta) :
    ∃ w : ℝ → ℝ, (∀ xw ∈ gl_nodes, scattering_function_gl xw.1 p r0 E V = .ok (.ok (w xw.1))) ∧
      theta = Real.pi - (gl_nodes.map fun xw => xw.2*w xw.1).sum := by
  unfold scattering_integral_gauss_legendre at h
  cases hq : quadrature (fun x => scattering_function_gl x p r0 E V) gl_nodes with
  | error e => rw [hq] at h; simp [bind, Except.bind] at h
  | ok s =>
    obtain ⟨w, hw⟩ := quadrature_congr _ _ _ hq
    have := quadrature_sum (fun x => scattering_function_gl x p r0 E V) w _ hw
    rw [hq] at this h
    refine ⟨w, hw, ?_⟩
    simp only [bind, Except.bind, pure, Except.pure, Except.ok.injEq, pi_real] at h
    rw [← h, Except.ok.inj this]

theorem sum_nonneg' (l : List (ℝ × ℝ)) (w : ℝ → ℝ) (h : ∀ xw ∈ l, 0 ≤ xw.2*w xw.1) :
    0 ≤ (l.map fun xw => xw.2*w xw.1).sum := by
  apply List.sum_nonneg
  intro y hy
  obtain ⟨xw, hxw, rfl⟩ := List.mem_map.mp hy
  exact h xw hxw

theorem sum_zero' (l : List (ℝ × ℝ)) (w : ℝ → ℝ) (h : ∀ xw ∈ l, w xw.1 = 0) :
    (l.map fun xw => xw.2*w xw.1).sum = 0 := by
  apply List.sum_eq_zero
  intro y hy
  obtain ⟨xw, hxw, rfl⟩ := List.mem_map.mp hy
  rw [h xw hxw, mul_zero]

theorem mw_result (Za Zb Ma Mb E0 p x0 theta : ℝ) (V : InteractionPotential ℝ)
    (h : mendenhall_weller Za Zb Ma Mb E0 p x0 V = .ok theta) :
    ∃ alpha, 0 ≤ alpha ∧ theta = Real.pi*(1 - p/screening_length Za Zb V*alpha/x0) := by
  have hneg : ∀ b : ℝ, 0 ≤ b^(-0.5 : ℝ) := by
    intro b
    rcases le_or_gt 0 b with hb | hb
    · exact Real.rpow_nonneg hb _
    · rw [Real.rpow_def_of_neg hb]
      rw [show (-0.5 : ℝ)*Real.pi = -(Real.pi/2) by norm_num; ring, Real.cos_neg, Real.cos_pi_div_two]
      simp
  have hneg2 : ∀ b e : ℝ, e = -0.5 → 0 ≤ b^e := by
    intro b e he; rw [he]; exact hneg b
  unfold mendenhall_weller at h
  cases hd : dphi x0 V with
  | error e => rw [hd] at h; simp [bind, Except.bind] at h
  | ok d =>
    rw [hd] at h
    simp only [bind, Except.bind] at h
    unfold scattering_integral_mw at h
    cases h1 : phi (x0/0.9072) V with
    | error e => rw [h1] at h; simp [bind, Except.bind] at h
    | ok g1 =>
      cases h2 : phi (x0/0.4206) V with
      | error e => rw [h1, h2] at h; simp [bind, Except.bind, pure, Except.pure] at h
      | ok g2 =>
        rw [h1, h2] at h
        simp only [bind, Except.bind, pure, Except.pure, Except.ok.injEq, powf_real, pi_real] at h
        refine ⟨_, ?_, (by rw [← h, show (1.0 : ℝ) = 1 by norm_num])⟩
        refine mul_nonneg (by norm_num) (add_nonneg (add_nonneg (by norm_num) (hneg2 _ _ (by norm_num))) ?_)
        exact mul_nonneg (by norm_num) (add_nonneg (mul_nonneg (by norm_num) (hneg _))
          (mul_nonneg (by norm_num) (hneg _)))

/-- **C26, upper limit.** Whenever Mendenhall-Weller or a Gauss quadrature returns an angle, it is
at most pi (repulsive direction of deflection); at zero impact parameter it is exactly pi. -/
theorem C26_at_most_pi (si : ScatteringIntegral) (hsi : si ≠ .MAGIC)
    (Za Zb Ma Mb E0 p x0 theta : ℝ) (V : InteractionPotential ℝ)
    (ha : 0 < screening_length Za Zb V) (hx : 0 < x0) (hp : 0 ≤ p)
    (run : scattering_angle si Za Zb Ma Mb E0 p x0 V = .ok theta) :
    theta ≤ Real.pi ∧ (p = 0 → theta = Real.pi) := by
  cases si with
  | MAGIC => exact absurd rfl hsi
  | MENDENHALL_WELLER =>
    obtain ⟨alpha, h0, rfl⟩ := mw_result Za Zb Ma Mb E0 p x0 theta V run
    constructor
    · have : 0 ≤ p/screening_length Za Zb V*alpha/x0 := by positivity
      nlinarith [Real.pi_pos]
    · rintro rfl; simp
  | GAUSS_MEHLER n =>
    obtain ⟨w, hw, rfl⟩ := gm_result _ _ _ _ _ _ run
    have hr0 : 0 < x0*screening_length Za Zb V := by positivity
    constructor
    · have : 0 ≤ ((gm_nodes n).map fun xw => xw.2*w xw.1).sum := by
        refine sum_nonneg' _ w (fun xw hxw => mul_nonneg (gm_weights n xw hxw) ?_)
        obtain ⟨v, _, he⟩ := gm_term _ _ _ _ _ _ (hw xw hxw)
        rw [he]; positivity
      linarith
    · rintro rfl
      rw [sum_zero' _ w (fun xw hxw => ?_), sub_zero]
      obtain ⟨v, _, he⟩ := gm_term _ _ _ _ _ _ (hw xw hxw)
      rw [he]; simp
  | GAUSS_LEGENDRE =>
    obtain ⟨w, hw, rfl⟩ := gl_result _ _ _ _ _ run
    have hr0 : 0 < x0*screening_length Za Zb V := by positivity
    constructor
    · have : 0 ≤ (gl_nodes.map fun xw => xw.2*w xw.1).sum := by
        refine sum_nonneg' _ w (fun xw hxw => mul_nonneg (gl_weights xw hxw) ?_)
        obtain ⟨v, _, he⟩ := gl_term _ _ _ _ _ _ (hw xw hxw)
        have := gl_points xw hxw
        rw [he]; positivity
      linarith
    · rintro rfl
      rw [sum_zero' _ w (fun xw hxw => ?_), sub_zero]
      obtain ⟨v, _, he⟩ := gl_term _ _ _ _ _ _ (hw xw hxw)
      rw [he]; simp

/-- **C26, no potential.** Gauss-Mehler with any number of points gives no deflection when the
potential vanishes (the closest approach then being the impact parameter). -/
theorem C26_gauss_mehler_straight_line (Za Zb Ma Mb E0 p x0 : ℝ) (V : InteractionPotential ℝ)
    (n : ℕ) (hn : 1 ≤ n) (hp : 0 < p) (hx0 : x0*screening_length Za Zb V = p)
    (hV : ∀ r, interaction_potential r (screening_length Za Zb V) Za Zb V = .ok 0) :
    scattering_angle (.GAUSS_MEHLER n) Za Zb Ma Mb E0 p x0 V = .ok 0 := by
  have hpi := Real.pi_pos
  have hn0 : (0:ℝ) < n := by exact_mod_cast (by omega : 0 < n)
  show gauss_mehler Za Zb Ma Mb E0 p x0 V n = .ok 0
  unfold gauss_mehler scattering_integral_gauss_mehler
  simp only [hx0]
  have hg : ∀ xw ∈ (gm_nodes n : List (ℝ × ℝ)), (fun x => scattering_function_gm x p p
      (E0*Mb/(Ma + Mb)) (fun r => interaction_potential r (screening_length Za Zb V) Za Zb V)) xw.1
      = .ok (.ok ((fun u => 1/Real.sqrt (1 - u^2)) xw.1)) := by
    intro xw _
    simp only [scattering_function_gm, hV, bind, Except.bind, isNaN_real, Bool.false_eq_true,
      if_false, pure, Except.pure, sqrt_real, powi_real]
    rw [show (2 : ℤ) = ((2 : ℕ) : ℤ) from rfl, zpow_natCast, show (1.0 : ℝ) = 1 by norm_num,
      div_self hp.ne', show p*xw.1/p = xw.1 by field_simp]
    norm_num
  rw [quadrature_sum _ (fun u => 1/Real.sqrt (1 - u^2)) _ hg]
  simp only [bind, Except.bind, pure, Except.pure, pi_real, Except.ok.injEq]
  have hall : ∀ xw ∈ (gm_nodes n : List (ℝ × ℝ)), xw.2*(1/Real.sqrt (1 - xw.1^2)) = Real.pi/n := by
    intro xw h
    unfold gm_nodes at h
    simp only [List.mem_map, List.mem_range] at h
    obtain ⟨j, hj, rfl⟩ := h
    simp only [sin_real, cos_real, pi_real, ofNat_real]
    have hj' : (j : ℝ) + 1 ≤ n := by exact_mod_cast hj
    have e : ((2.0*((j + 1 : ℕ) : ℝ) - 1.0)/4.0/n*Real.pi) = (2*j + 1)/(4*n)*Real.pi := by
      push_cast
      rw [show (2.0 : ℝ) = 2 by norm_num, show (1.0 : ℝ) = 1 by norm_num,
        show (4.0 : ℝ) = 4 by norm_num]
      field_simp; ring
    rw [e]
    have h1 : (2*(j:ℝ) + 1)/(4*n) < 1 := by
      rw [div_lt_one (by positivity)]; linarith
    have h2 : 0 < Real.sin ((2*j + 1)/(4*n)*Real.pi) :=
      Real.sin_pos_of_pos_of_lt_pi (by positivity) (by nlinarith)
    have h3 : 1 - Real.cos ((2*j + 1)/(4*n)*Real.pi)^2 = Real.sin ((2*j + 1)/(4*n)*Real.pi)^2 := by
      have := Real.sin_sq_add_cos_sq ((2*j + 1)/(4*n)*Real.pi); linarith
    rw [h3, Real.sqrt_sq h2.le]
    generalize Real.sin ((2*j + 1)/(4*n)*Real.pi) = S at *
    field_simp
  have hsum : ((gm_nodes n).map fun xw : ℝ × ℝ => xw.2*(1/Real.sqrt (1 - xw.1^2))).sum = Real.pi := by
    have h1 : ((gm_nodes n).map fun xw : ℝ × ℝ => xw.2*(1/Real.sqrt (1 - xw.1^2)))
        = List.replicate n (Real.pi/n) := by
      rw [List.eq_replicate_iff]
      constructor
      · simp [gm_nodes]
      · intro b hb
        obtain ⟨xw, hxw, rfl⟩ := List.mem_map.mp hb
        exact hall xw hxw
    rw [h1, List.sum_replicate, nsmul_eq_mul]
    field_simp
  rw [hsum, sub_self]

/-- **C26, MAGIC head on.** At zero impact parameter and the exact head-on closest approach (where
the potential energy equals the centre-of-mass energy) MAGIC gives exactly pi, for the potentials
it supports; it always gives an angle between 0 and 2 pi. -/
theorem C26_magic (Za Zb Ma Mb E0 p x0 theta : ℝ) (V : InteractionPotential ℝ)
    (run : scattering_angle .MAGIC Za Zb Ma Mb E0 p x0 V = .ok theta) :
    0 ≤ theta ∧ theta ≤ 2*Real.pi ∧
    (∀ U, interaction_potential (x0*screening_length Za Zb V) (screening_length Za Zb V) Za Zb V
        = .ok U → 0 < screening_length Za Zb V → 0 < x0 → p = 0 → U = E0*Mb/(Ma + Mb) →
      theta = Real.pi) := by
  have run' : magic Za Zb Ma Mb E0 p x0 V = .ok theta := run
  unfold magic at run'
  cases hc : (magic_constants V : Res (ℝ × ℝ × ℝ × ℝ × ℝ)) with
  | error e => rw [hc] at run'; simp [bind, Except.bind] at run'
  | ok c =>
    obtain ⟨c0, c1, c2, c3, c4⟩ := c
    cases hph : phi x0 V with
    | error e => rw [hc, hph] at run'; simp [bind, Except.bind] at run'
    | ok ph =>
      cases hdph : dphi x0 V with
      | error e => rw [hc, hph, hdph] at run'; simp [bind, Except.bind] at run'
      | ok dph =>
        rw [hc, hph, hdph] at run'
        simp only [bind, Except.bind, pure, Except.pure, Except.ok.injEq, acos_real] at run'
        rw [show (2.0 : ℝ) = 2 by norm_num] at run'
        refine ⟨?_, ?_, ?_⟩
        · rw [← run']; exact mul_nonneg (by norm_num) (Real.arccos_nonneg _)
        · rw [← run']; exact mul_le_mul_of_nonneg_left (Real.arccos_le_pi _) (by norm_num)
        · intro U hU ha hx hp hUE
          have hS : Screened V := by
            cases V <;> simp [magic_constants, rpanic] at hc <;> constructor
          have hcp : 0 < c1 ∧ 0 < c2 := by
            cases V <;> simp [magic_constants, rpanic] at hc <;>
              (obtain ⟨_, rfl, rfl, _⟩ := hc; norm_num)
          have hpot := potential_screened V hS (x0*screening_length Za Zb V)
            (screening_length Za Zb V) Za Zb
          rw [hU] at hpot
          have hphv : ph = expsum (screening_terms V) x0 := by
            have := phi_expsum V hS x0
            rw [hph] at this; exact Except.ok.inj this
          have hv : Za*Zb*Q ℝ*Q ℝ/4.0/Real.pi/EPS0 ℝ/screening_length Za Zb V
              *screening_length Za Zb V/(screening_length Za Zb V*x0)*ph = U := by
            rw [Except.ok.inj hpot, hphv, show (4.0 : ℝ) = 4 by norm_num,
              mul_div_assoc x0, div_self ha.ne', mul_one]
            have := Real.pi_pos; have := EPS0_pos
            field_simp
          subst hp
          simp only [pi_real, powf_real, sqrt_real, zero_div] at run'
          rw [hv, hUE, sub_self, mul_zero, zero_div, zero_div] at run'
          set se := Real.sqrt (E0*Mb/(Ma + Mb)/(Za*Zb*Q ℝ*Q ℝ/4.0/Real.pi/EPS0 ℝ
            /screening_length Za Zb V)) with hse
          have hse0 : 0 ≤ se := Real.sqrt_nonneg _
          have hexp : (c1 + se)/(c2 + se) ≠ 0 := by
            have := hcp.1; have := hcp.2; positivity
          rw [Real.zero_rpow hexp] at run'
          simp only [mul_zero, zero_mul, zero_div, add_zero, Real.arccos_zero] at run'
          rw [← run']; ring

end RustBCA
