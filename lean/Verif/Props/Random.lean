import Verif.Proofs.Random
import Verif.Props.FreePaths
import Verif.Props.Materials

/-!
# C94: the random choices have the documented distributions
-/

set_option linter.unusedVariables false
set_option linter.unusedSimpArgs false

namespace RustBCA
open Scalar Spec MeasureTheory

/-- The set of random numbers `(u, v)` for which a gas path, shortened by `u`, exceeds `l`. -/
def longFirst (s l : ℝ) : Set (ℝ × ℝ) := {w | l < s*w.1*-Real.log w.2}

theorem longFirst_measurable (s l : ℝ) : MeasurableSet (longFirst s l) := by
  unfold longFirst
  refine measurableSet_lt measurable_const ?_
  exact (measurable_fst.const_mul s).mul (Real.measurable_log.comp measurable_snd).neg

theorem log_set (c l : ℝ) (hc : 0 < c) (hl : 0 ≤ l) (v : ℝ) (h0 : 0 ≤ v) :
    l < c*-Real.log v ↔ v ∈ Set.Ioo 0 (Real.exp (-(l/c))) := by
  constructor
  · intro h
    have hv : 0 < v := by
      rcases h0.lt_or_eq with h1 | h1
      · exact h1
      · rw [← h1] at h; simp at h; linarith
    refine ⟨hv, ?_⟩
    rw [← Real.log_lt_iff_lt_exp hv, lt_neg, div_lt_iff₀ hc]
    linarith
  · rintro ⟨hv, h⟩
    rw [← Real.log_lt_iff_lt_exp hv, lt_neg, div_lt_iff₀ hc] at h
    linarith

theorem longFirst_measure (s l : ℝ) (hs : 0 < s) (hl : 0 ≤ l) :
    (uniform01.prod uniform01) (longFirst s l) = ENNReal.ofReal (pathSurvival true true s l) := by
  rw [Measure.prod_apply (longFirst_measurable s l)]
  have h1 : ∫⁻ u, uniform01 (Prod.mk u ⁻¹' longFirst s l) ∂uniform01 =
      ∫⁻ u in Set.Ioo (0:ℝ) 1, ENNReal.ofReal (Real.exp (-(l/(s*u)))) := by
    have e : uniform01 = volume.restrict (Set.Ioo (0:ℝ) 1) := by
      unfold uniform01
      exact Measure.restrict_congr_set Ioo_ae_eq_Ico.symm
    conv_lhs => arg 1; rw [e]
    refine setLIntegral_congr_fun measurableSet_Ioo fun u hu => ?_
    have hsu : 0 < s*u := mul_pos hs hu.1
    have h3 : uniform01 (Prod.mk u ⁻¹' longFirst s l) =
        uniform01 (Set.Ioo 0 (Real.exp (-(l/(s*u))))) := by
      refine measure_congr ?_
      have hae : ∀ᵐ x ∂uniform01, 0 ≤ x ∧ x < 1 := by
        unfold uniform01
        exact ae_restrict_mem measurableSet_Ico
      filter_upwards [hae] with v hv
      exact propext (log_set (s*u) l hsu hl v hv.1)
    rw [h3, uniform01_Ioo]
    rw [Real.exp_le_one_iff]
    have := div_nonneg hl hsu.le
    linarith
  rw [h1, pathSurvival, ← ofReal_integral_eq_lintegral_ofReal]
  · refine Measure.integrableOn_of_bounded (M := 1) (by simp) ?_ ?_
    · exact (Real.measurable_exp.comp ((measurable_const.div
        (measurable_id.const_mul s)).neg)).aestronglyMeasurable
    · filter_upwards [ae_restrict_mem measurableSet_Ioo] with u hu
      rw [Real.norm_eq_abs, abs_of_pos (Real.exp_pos _), Real.exp_le_one_iff]
      have := div_nonneg hl (mul_pos hs hu.1).le
      linarith
  · exact Filter.Eventually.of_forall fun u => (Real.exp_pos _).le

/-- The outcome of the sampling of one step: `n` collision geometries whose azimuths, impact
parameters and path length satisfy the bounds, the following random numbers lying in `B`. -/
def StepEvent (p : Particle ℝ) (mat : Material ℝ) (o : Options ℝ) (az b : Nat → ℝ) (l : ℝ)
    (J : Nat) (B : Nat → Set ℝ) : Set (Tape ℝ) :=
  {t | ∃ gs t', determine_mfp_phi_impact_parameter p mat o t
        = .ok (({ p with first_step := false }, gs), t') ∧
      gs.length = o.weak_collision_order + 1 ∧
      (∀ (k : Nat) g, gs[k]? = some g →
        g.phi_azimuthal < az k ∧ g.impact_parameter < b k ∧ l < g.mfp) ∧
      ∀ j < J, t' j ∈ B j}

/-- The box of random numbers that `StepEvent` amounts to. -/
theorem step_event_iff (p : Particle ℝ) (mat : Material ℝ) (o : Options ℝ) (t : Tape ℝ) (ns : List ℝ)
    (s : ℝ) (hd : mat.geometry.get_densities p.pos.x p.pos.y p.pos.z = .ok ns) (hn : 0 < ns.sum)
    (hs : IsSpacing ns.sum s) (hff : o.high_energy_free_flight_paths = false)
    (hu : UnitInterval t) (az b : Nat → ℝ) (l : ℝ) (J : Nat) (B : Nat → Set ℝ)
    (hb : ∀ k ≤ o.weak_collision_order, 0 ≤ b k) :
    t ∈ StepEvent p mat o az b l J B ↔
      (∀ k < o.weak_collision_order + 1, t k < az k/(2*Real.pi)) ∧
      (∀ k < o.weak_collision_order + 1,
        t (o.weak_collision_order + 1 + k) < Real.pi*b k^2/s^2 - k) ∧
      l < s*(if p.first_step then t (2*(o.weak_collision_order + 1)) else 1)*
        (if o.mean_free_path_model.isGaseous then
          -Real.log (t (2*(o.weak_collision_order + 1) + if p.first_step then 1 else 0)) else 1) ∧
      ∀ j < J, t (2*(o.weak_collision_order + 1) + (if p.first_step then 1 else 0) +
        (if o.mean_free_path_model.isGaseous then 1 else 0) + j) ∈ B j := by
  obtain ⟨gs, t', h1, h2, h3, ⟨f, e, h4, hf, he⟩, h5⟩ := annuli_rest p mat o t ns s hd hn hs hff hu
  have hpi := Real.pi_pos
  have hsp := hs.1
  have hp0 : ∀ (k : Nat) g, gs[k]? = some g → 0 ≤ g.impact_parameter := fun k g hg => by
    have h := ((h5 k g hg).2.1 (s/Real.sqrt Real.pi) (by positivity)
      (by rw [div_pow, Real.sq_sqrt hpi.le]; field_simp)).1
    exact le_trans (by positivity) h
  have hget : ∀ k < o.weak_collision_order + 1, ∃ g, gs[k]? = some g := fun k hk =>
    ⟨gs[k]'(by omega), List.getElem?_eq_getElem (by omega)⟩
  have himp : ∀ (k : Nat) g, gs[k]? = some g → k ≤ o.weak_collision_order →
      (g.impact_parameter < b k ↔
        t (o.weak_collision_order + 1 + k) < Real.pi*b k^2/s^2 - k) := by
    intro k g hg hk
    have h6 := (h5 k g hg).1
    rw [lt_sub_iff_add_lt, lt_div_iff₀ (by positivity)]
    rw [← abs_of_nonneg (hp0 k g hg), ← abs_of_nonneg (hb k hk), ← sq_lt_sq,
      ← mul_lt_mul_iff_right₀ hpi, h6, sq_abs, mul_comm (s^2)]
  have haz : ∀ (k : Nat) g, gs[k]? = some g → (g.phi_azimuthal < az k ↔ t k < az k/(2*Real.pi)) := by
    intro k g hg
    rw [(h5 k g hg).2.2.1, lt_div_iff₀ (by positivity), mul_comm]
  rw [← hf, ← he]
  constructor
  · rintro ⟨gs', t'', h, hlen, hall, hrest⟩
    rw [h1] at h
    have e1 := (Prod.mk.inj (Except.ok.inj h))
    have e2 := (Prod.mk.inj e1.1).2
    subst e2
    have e3 := e1.2
    subst e3
    refine ⟨fun k hk => ?_, fun k hk => ?_, ?_, ?_⟩
    · obtain ⟨g, hg⟩ := hget k hk
      exact (haz k g hg).1 (hall k g hg).1
    · obtain ⟨g, hg⟩ := hget k hk
      exact (himp k g hg (by omega)).1 (hall k g hg).2.1
    · obtain ⟨g, hg⟩ := hget 0 (by omega)
      rw [← h4 g (List.mem_of_getElem? hg)]
      exact (hall 0 g hg).2.2
    · intro j hj
      have := hrest j hj
      rwa [h2] at this
  · rintro ⟨g1, g2, g3, g4⟩
    refine ⟨gs, t', h1, h3, fun k g hg => ?_, fun j hj => ?_⟩
    · have hk : k < o.weak_collision_order + 1 := by
        have := (List.getElem?_eq_some_iff.mp hg).1
        omega
      refine ⟨(haz k g hg).2 (g1 k hk), (himp k g hg (by omega)).2 (g2 k hk), ?_⟩
      rw [h4 g (List.mem_of_getElem? hg)]
      exact g3
    · rw [h2]
      exact g4 j hj

/-- **C94, one step.** For independent uniform random numbers, without free-flight paths, in a target
of interatomic spacing `s`: the azimuths of the collisions are uniform in `[0, 2 pi)`; the `k`-th
impact parameter is distributed uniformly over the area of the `k`-th annulus around the path; the
path has the documented distribution; all of these are independent of each other, and the random
numbers that follow are again independent, uniform and independent of the step. -/
theorem C94_step (p : Particle ℝ) (mat : Material ℝ) (o : Options ℝ) (ns : List ℝ)
    (s : ℝ) (hd : mat.geometry.get_densities p.pos.x p.pos.y p.pos.z = .ok ns) (hn : 0 < ns.sum)
    (hs : IsSpacing ns.sum s) (hff : o.high_energy_free_flight_paths = false)
    (az b : Nat → ℝ) (l : ℝ) (J : Nat) (B : Nat → Set ℝ)
    (haz : ∀ k ≤ o.weak_collision_order, 0 ≤ az k ∧ az k ≤ 2*Real.pi)
    (hb : ∀ k ≤ o.weak_collision_order, 0 ≤ b k ∧ k*s^2 ≤ Real.pi*b k^2 ∧
      Real.pi*b k^2 ≤ (k + 1)*s^2)
    (hl : 0 ≤ l) (hB : ∀ j < J, MeasurableSet (B j)) :
    randomTape (StepEvent p mat o az b l J B) =
      (∏ k ∈ Finset.range (o.weak_collision_order + 1), ENNReal.ofReal (az k/(2*Real.pi)))*
      (∏ k ∈ Finset.range (o.weak_collision_order + 1),
        ENNReal.ofReal ((Real.pi*b k^2 - k*s^2)/s^2))*
      ENNReal.ofReal (pathSurvival p.first_step o.mean_free_path_model.isGaseous s l)*
      ∏ j ∈ Finset.range J, uniform01 (B j) := by
  obtain ⟨n, hnd⟩ : ∃ n, n = o.weak_collision_order + 1 := ⟨_, rfl⟩
  have hpi := Real.pi_pos
  have hsp := hs.1
  obtain ⟨S, hS⟩ : ∃ S : Nat → Set ℝ, S = fun i => if i < n then Set.Iio (az i/(2*Real.pi)) else
    Set.Iio (Real.pi*b (i - n)^2/s^2 - ((i - n : Nat) : ℝ)) := ⟨_, rfl⟩
  have hSm : ∀ i, MeasurableSet (S i) := fun i => by
    rw [hS]; simp only; split_ifs <;> exact measurableSet_Iio
  have hSprod : ∏ i ∈ Finset.range (2*n), uniform01 (S i) =
      (∏ k ∈ Finset.range n, ENNReal.ofReal (az k/(2*Real.pi)))*
      (∏ k ∈ Finset.range n, ENNReal.ofReal ((Real.pi*b k^2 - k*s^2)/s^2)) := by
    rw [two_mul, Finset.prod_range_add]
    congr 1
    · refine Finset.prod_congr rfl fun k hk => ?_
      have hk' := Finset.mem_range.1 hk
      have := haz k (by omega)
      rw [hS]
      simp only [hk', if_true]
      exact uniform01_Iio _ (by rw [div_le_one (by positivity)]; exact this.2)
    · refine Finset.prod_congr rfl fun k hk => ?_
      have hk' := Finset.mem_range.1 hk
      have := hb k (by omega)
      rw [hS]
      simp only [show ¬ n + k < n by omega, if_false, Nat.add_sub_cancel_left]
      have e : Real.pi*b k^2/s^2 - (k:ℝ) = (Real.pi*b k^2 - k*s^2)/s^2 := by field_simp
      rw [e]
      exact uniform01_Iio _ (by rw [div_le_one (by positivity)]; linarith [this.2.2])
  have hSbox : ∀ t : Tape ℝ, (∀ i < 2*n, t i ∈ S i) ↔ (∀ k < n, t k < az k/(2*Real.pi)) ∧
      (∀ k < n, t (n + k) < Real.pi*b k^2/s^2 - k) := by
    intro t
    rw [hS]
    constructor
    · intro h
      refine ⟨fun k hk => ?_, fun k hk => ?_⟩
      · have := h k (by omega)
        simpa [hk] using this
      · have := h (n + k) (by omega)
        simpa using this
    · rintro ⟨h1, h2⟩ i hi
      simp only
      split_ifs with g
      · exact h1 i g
      · have := h2 (i - n) (by omega)
        rwa [show n + (i - n) = i by omega] at this
  have hstep := fun t hu => step_event_iff p mat o t ns s hd hn hs hff hu az b l J B
    (fun k hk => (hb k hk).1)
  rw [← hnd] at hstep ⊢
  cases hfs : p.first_step <;> cases hg : o.mean_free_path_model.isGaseous
  · -- constant path
    rw [hfs, hg] at hstep
    by_cases hls : l < s
    · obtain ⟨T, hT⟩ : ∃ T : Nat → Set ℝ, T = fun i => if i < 2*n then S i else B (i - 2*n) := ⟨_, rfl⟩
      have e : randomTape (StepEvent p mat o az b l J B) =
          randomTape {t | ∀ i < 2*n + J, t i ∈ T i} := by
        refine measure_congr ?_
        filter_upwards [ae_unit] with t hu
        refine propext ((hstep t hu).trans ?_)
        simp only [Bool.false_eq_true, if_false, mul_one, add_zero]
        have h3 : (∀ i < 2*n + J, t i ∈ T i) ↔ (∀ i < 2*n, t i ∈ S i) ∧ ∀ j < J, t (2*n + j) ∈ B j := by
          rw [hT]
          constructor
          · intro h
            refine ⟨fun i hi => ?_, fun j hj => ?_⟩
            · have := h i (by omega)
              simpa [hi] using this
            · have := h (2*n + j) (by omega)
              simpa using this
          · rintro ⟨h1, h2⟩ i hi
            simp only
            split_ifs with g
            · exact h1 i g
            · have := h2 (i - 2*n) (by omega)
              rwa [show 2*n + (i - 2*n) = i by omega] at this
        change _ ↔ (∀ i < 2*n + J, t i ∈ T i)
        rw [h3, hSbox]
        tauto
      rw [e, tape_box]
      · rw [Finset.prod_range_add]
        have e1 : ∏ x ∈ Finset.range (2*n), uniform01 (T x) = ∏ i ∈ Finset.range (2*n), uniform01 (S i) :=
          Finset.prod_congr rfl fun i hi => by rw [hT]; simp [Finset.mem_range.1 hi]
        have e2 : ∏ x ∈ Finset.range J, uniform01 (T (2*n + x)) =
            ∏ j ∈ Finset.range J, uniform01 (B j) :=
          Finset.prod_congr rfl fun i hi => by rw [hT]; simp
        rw [e1, e2, hSprod, pathSurvival, if_pos hls]
        simp
      · intro i hi
        rw [hT]
        simp only
        split_ifs with g
        · exact hSm i
        · exact hB _ (by omega)
    · have e : randomTape (StepEvent p mat o az b l J B) = randomTape ∅ := by
        refine measure_congr ?_
        filter_upwards [ae_unit] with t hu
        refine propext ((hstep t hu).trans ?_)
        simp only [Bool.false_eq_true, if_false, mul_one]
        constructor
        · rintro ⟨-, -, h, -⟩
          exact absurd h hls
        · intro h; exact absurd h (Set.notMem_empty t)
      rw [e, pathSurvival, if_neg hls]
      simp
  · -- exponential path
    rw [hfs, hg] at hstep
    obtain ⟨T, hT⟩ : ∃ T : Nat → Set ℝ, T = fun i => if i < 2*n then S i else
      if i = 2*n then Set.Ioo 0 (Real.exp (-(l/s))) else B (i - (2*n + 1)) := ⟨_, rfl⟩
    have e : randomTape (StepEvent p mat o az b l J B) =
        randomTape {t | ∀ i < 2*n + 1 + J, t i ∈ T i} := by
      refine measure_congr ?_
      filter_upwards [ae_unit] with t hu
      refine propext ((hstep t hu).trans ?_)
      simp only [Bool.false_eq_true, if_false, if_true, mul_one, add_zero]
      have h3 : (∀ i < 2*n + 1 + J, t i ∈ T i) ↔ (∀ i < 2*n, t i ∈ S i) ∧
          t (2*n) ∈ Set.Ioo 0 (Real.exp (-(l/s))) ∧ ∀ j < J, t (2*n + 1 + j) ∈ B j := by
        rw [hT]
        constructor
        · intro h
          refine ⟨fun i hi => ?_, ?_, fun j hj => ?_⟩
          · have := h i (by omega)
            simpa [hi] using this
          · have := h (2*n) (by omega)
            simpa using this
          · have := h (2*n + 1 + j) (by omega)
            simpa [show ¬ 2*n + 1 + j < 2*n by omega, show ¬ 2*n + 1 + j = 2*n by omega] using this
        · rintro ⟨h1, h0, h2⟩ i hi
          simp only
          split_ifs with g g'
          · exact h1 i g
          · rw [g']; exact h0
          · have := h2 (i - (2*n + 1)) (by omega)
            rwa [show 2*n + 1 + (i - (2*n + 1)) = i by omega] at this
      change _ ↔ (∀ i < 2*n + 1 + J, t i ∈ T i)
      rw [h3, hSbox, log_set s l hsp hl _ (hu _).1]
      tauto
    rw [e, tape_box]
    · rw [Finset.prod_range_add, Finset.prod_range_succ]
      have e1 : ∏ x ∈ Finset.range (2*n), uniform01 (T x) = ∏ i ∈ Finset.range (2*n), uniform01 (S i) :=
        Finset.prod_congr rfl fun i hi => by rw [hT]; simp [Finset.mem_range.1 hi]
      have e2 : ∏ x ∈ Finset.range J, uniform01 (T (2*n + 1 + x)) =
          ∏ j ∈ Finset.range J, uniform01 (B j) :=
        Finset.prod_congr rfl fun i hi => by
          rw [hT]
          simp [show ¬ 2*n + 1 + i < 2*n by omega, show ¬ 2*n + 1 + i = 2*n by omega]
      have e3 : uniform01 (T (2*n)) = ENNReal.ofReal (Real.exp (-(l/s))) := by
        rw [hT]
        simp only [lt_irrefl, if_false, if_true]
        refine uniform01_Ioo _ ?_
        rw [Real.exp_le_one_iff]
        have := div_nonneg hl hsp.le
        linarith
      rw [e1, e2, e3, hSprod, pathSurvival]
    · intro i hi
      rw [hT]
      simp only
      split_ifs with g g'
      · exact hSm i
      · exact measurableSet_Ioo
      · exact hB _ (by omega)
  · -- uniform path
    rw [hfs, hg] at hstep
    obtain ⟨T, hT⟩ : ∃ T : Nat → Set ℝ, T = fun i => if i < 2*n then S i else
      if i = 2*n then Set.Ioi (l/s) else B (i - (2*n + 1)) := ⟨_, rfl⟩
    have e : randomTape (StepEvent p mat o az b l J B) =
        randomTape {t | ∀ i < 2*n + 1 + J, t i ∈ T i} := by
      refine measure_congr ?_
      filter_upwards [ae_unit] with t hu
      refine propext ((hstep t hu).trans ?_)
      simp only [Bool.false_eq_true, if_false, if_true, mul_one, add_zero]
      have h3 : (∀ i < 2*n + 1 + J, t i ∈ T i) ↔ (∀ i < 2*n, t i ∈ S i) ∧
          t (2*n) ∈ Set.Ioi (l/s) ∧ ∀ j < J, t (2*n + 1 + j) ∈ B j := by
        rw [hT]
        constructor
        · intro h
          refine ⟨fun i hi => ?_, ?_, fun j hj => ?_⟩
          · have := h i (by omega)
            simpa [hi] using this
          · have := h (2*n) (by omega)
            simpa using this
          · have := h (2*n + 1 + j) (by omega)
            simpa [show ¬ 2*n + 1 + j < 2*n by omega, show ¬ 2*n + 1 + j = 2*n by omega] using this
        · rintro ⟨h1, h0, h2⟩ i hi
          simp only
          split_ifs with g g'
          · exact h1 i g
          · rw [g']; exact h0
          · have := h2 (i - (2*n + 1)) (by omega)
            rwa [show 2*n + 1 + (i - (2*n + 1)) = i by omega] at this
      change _ ↔ (∀ i < 2*n + 1 + J, t i ∈ T i)
      have h4 : l < s*t (2*n) ↔ t (2*n) ∈ Set.Ioi (l/s) := by
        rw [Set.mem_Ioi, div_lt_iff₀ hsp, mul_comm]
      rw [h3, hSbox, h4]
      tauto
    rw [e, tape_box]
    · rw [Finset.prod_range_add, Finset.prod_range_succ]
      have e1 : ∏ x ∈ Finset.range (2*n), uniform01 (T x) = ∏ i ∈ Finset.range (2*n), uniform01 (S i) :=
        Finset.prod_congr rfl fun i hi => by rw [hT]; simp [Finset.mem_range.1 hi]
      have e2 : ∏ x ∈ Finset.range J, uniform01 (T (2*n + 1 + x)) =
          ∏ j ∈ Finset.range J, uniform01 (B j) :=
        Finset.prod_congr rfl fun i hi => by
          rw [hT]
          simp [show ¬ 2*n + 1 + i < 2*n by omega, show ¬ 2*n + 1 + i = 2*n by omega]
      have e3 : uniform01 (T (2*n)) = ENNReal.ofReal (max 0 (1 - l/s)) := by
        rw [hT]
        simp only [lt_irrefl, if_false, if_true]
        rw [uniform01_Ioi _ (div_nonneg hl hsp.le)]
        simp [ENNReal.ofReal_max]
      rw [e1, e2, e3, hSprod, pathSurvival]
    · intro i hi
      rw [hT]
      simp only
      split_ifs with g g'
      · exact hSm i
      · exact measurableSet_Ioi
      · exact hB _ (by omega)
  · -- exponential path shortened uniformly
    rw [hfs, hg] at hstep
    have e : randomTape (StepEvent p mat o az b l J B) =
        randomTape {t | (∀ i < 2*n, t i ∈ S i) ∧ (t (2*n), t (2*n + 1)) ∈ longFirst s l ∧
          ∀ j < J, t (2*n + 2 + j) ∈ B j} := by
      refine measure_congr ?_
      filter_upwards [ae_unit] with t hu
      refine propext ((hstep t hu).trans ?_)
      simp only [if_true]
      change _ ↔ ((∀ i < 2*n, t i ∈ S i) ∧ (t (2*n), t (2*n + 1)) ∈ longFirst s l ∧
          ∀ j < J, t (2*n + 2 + j) ∈ B j)
      rw [hSbox]
      simp only [longFirst, Set.mem_ofPred_eq]
      tauto
    rw [e, tape_box_pair _ _ _ _ _ (fun i _ => hSm i) hB (longFirst_measurable s l),
      longFirst_measure s l hsp hl, hSprod]
    ring

/-- A condition on the first random number and a box for the following ones. -/
theorem tape_first (A : Set ℝ) (J : Nat) (B : Nat → Set ℝ) (hA : MeasurableSet A)
    (hB : ∀ j < J, MeasurableSet (B j)) :
    randomTape {t | t 0 ∈ A ∧ ∀ j < J, t (j + 1) ∈ B j} =
      uniform01 A*∏ j ∈ Finset.range J, uniform01 (B j) := by
  have e : {t : Tape ℝ | t 0 ∈ A ∧ ∀ j < J, t (j + 1) ∈ B j} =
      {t | ∀ i < J + 1, t i ∈ (fun i => if i = 0 then A else B (i - 1)) i} := by
    ext t
    constructor
    · rintro ⟨h1, h2⟩ i hi
      rcases Nat.eq_zero_or_pos i with h | h
      · subst h; exact h1
      · have := h2 (i - 1) (by omega)
        simp only [show i ≠ 0 by omega, if_false]
        rwa [show i - 1 + 1 = i by omega] at this
    · intro h
      exact ⟨by simpa using h 0 (by omega), fun j hj => by simpa using h (j + 1) (by omega)⟩
  rw [e, tape_box, Finset.prod_range_succ']
  · simp [mul_comm]
  · intro i hi
    split_ifs
    · exact hA
    · exact hB _ (by omega)

/-- **C94, species.** The atom met in a collision is of species `i` with probability equal to the
concentration of that species there; the random numbers that follow are independent of that. -/
theorem C94_species (mat : Material ℝ) (x y z : ℝ) (cs : List ℝ)
    (hcs : mat.geometry.get_concentrations x y z = .ok cs) (hc : Concentrations cs)
    (htab : Tabulated mat cs.length) (i : Nat) (hi : i < cs.length) (J : Nat) (B : Nat → Set ℝ)
    (hB : ∀ j < J, MeasurableSet (B j)) :
    randomTape {t | ∃ atom t', mat.choose x y z t = .ok (atom, t') ∧ atom.species_index = i ∧
        ∀ j < J, t' j ∈ B j} =
      ENNReal.ofReal cs[i]*∏ j ∈ Finset.range J, uniform01 (B j) := by
  have hnn : ∀ l : List ℝ, (∀ c ∈ l, 0 ≤ c) → 0 ≤ l.sum := fun l h => List.sum_nonneg h
  have hsplit : cs.sum = (cs.take (i + 1)).sum + (cs.drop (i + 1)).sum := by
    conv_lhs => rw [← List.take_append_drop (i + 1) cs]
    rw [List.sum_append]
  have h1 : 0 ≤ (cs.take i).sum := hnn _ fun c h => hc.1 c (List.mem_of_mem_take h)
  have h2 : (cs.take i).sum + cs[i] ≤ 1 := by
    have := hnn (cs.drop (i + 1)) fun c h => hc.1 c (List.mem_of_mem_drop h)
    rw [List.sum_take_succ cs i hi, hc.2] at hsplit
    linarith
  have e : randomTape {t | ∃ atom t', mat.choose x y z t = .ok (atom, t') ∧ atom.species_index = i ∧
        ∀ j < J, t' j ∈ B j} =
      randomTape {t | t 0 ∈ Set.Ico (cs.take i).sum ((cs.take i).sum + cs[i]) ∧
        ∀ j < J, t (j + 1) ∈ B j} := by
    refine measure_congr ?_
    filter_upwards [ae_unit] with t hu
    obtain ⟨a, ha, hin, -⟩ := C27_choose mat x y z t cs hcs hc htab (hu 0).1 (hu 0).2
    have hin' := (hin i).trans (C27_interval_length cs i hi (t 0))
    refine propext (Iff.trans ?_ Iff.rfl)
    constructor
    · rintro ⟨a', t', h, h3, h4⟩
      rw [ha] at h
      obtain ⟨rfl, rfl⟩ := Prod.mk.inj (Except.ok.inj h)
      exact ⟨hin'.1 h3, h4⟩
    · rintro ⟨h3, h4⟩
      exact ⟨a, _, ha, hin'.2 h3, h4⟩
  rw [e, tape_first _ _ _ measurableSet_Ico hB, uniform01_apply _ measurableSet_Ico]
  have e2 : Set.Ico (cs.take i).sum ((cs.take i).sum + cs[i]) ∩ Set.Ico 0 1 =
      Set.Ico (cs.take i).sum ((cs.take i).sum + cs[i]) := by
    rw [Set.inter_eq_left]
    rintro u ⟨g1, g2⟩
    exact ⟨h1.trans g1, g2.trans_le h2⟩
  rw [e2, Real.volume_Ico]
  congr 2
  ring

/-- **C94, free flights.** With high-energy free-flight paths of length `ffp` above the interatomic
spacing, the impact parameter of the collision at the end exceeds `b` with the probability
`exp (-n pi b^2 ffp)` that no atom of a target of `n` randomly placed atoms per unit volume lies
within `b` of the path. -/
theorem C94_free_flight (mat : Material ℝ) (p : Particle ℝ) (o : Options ℝ)
    (ns cs S : List ℝ) (ck s : ℝ) (h : FlightData mat p ns cs S ck) (hs : IsSpacing ns.sum s)
    (hff : o.high_energy_free_flight_paths = true) :
    ∃ pmax ffp, ffp_limits p mat = .ok (pmax, ffp) ∧ 0 < ffp ∧
      (s ≤ ffp → ∀ b, 0 ≤ b →
        randomTape {t | ∃ g t', determine_mfp_phi_impact_parameter p mat o t
            = .ok (({ p with first_step := false }, [g]), t') ∧ b < g.impact_parameter} =
          ENNReal.ofReal (Real.exp (-(ns.sum*(Real.pi*b^2)*ffp)))) ∧
      (ffp < s → ∀ b, 0 ≤ b → Real.pi*b^2 ≤ s^2 →
        randomTape {t | ∃ g t', determine_mfp_phi_impact_parameter p mat o t
            = .ok (({ p with first_step := false }, [g]), t') ∧ b < g.impact_parameter} =
          ENNReal.ofReal (1 - Real.pi*b^2/s^2)) := by
  obtain ⟨pmax, ffp, hl, h1, h2, h3, h4⟩ := ffp_limits_bounds mat p ns cs S ck h
  have hpi := Real.pi_pos
  have hsp := hs.1
  refine ⟨pmax, ffp, hl, h2, fun hsf b hb => ?_, fun hsf b hb hbs => ?_⟩
  · have e : randomTape {t | ∃ g t', determine_mfp_phi_impact_parameter p mat o t
            = .ok (({ p with first_step := false }, [g]), t') ∧ b < g.impact_parameter} =
        randomTape ((fun t : Tape ℝ => t (o.weak_collision_order + 1)) ⁻¹'
          Set.Ioo 0 (Real.exp (-(b^2/pmax^2)))) := by
      refine measure_congr ?_
      filter_upwards [ae_unit] with t hu
      obtain ⟨g, t', h5, h6⟩ := determine_ffp mat p o t ns s pmax ffp h.densities h.total hs hff hl hu
      have hg := h6.long hsf
      have hlog : 0 ≤ -Real.log (t (o.weak_collision_order + 1)) := by
        rw [neg_nonneg]
        exact Real.log_nonpos (hu _).1 (hu _).2.le
      have key : b < g.impact_parameter ↔ t (o.weak_collision_order + 1) ∈
          Set.Ioo 0 (Real.exp (-(b^2/pmax^2))) := by
        rw [← log_set (pmax^2) (b^2) (by positivity) (by positivity) _ (hu _).1, hg,
          ← abs_of_nonneg hb, ← abs_of_nonneg (mul_nonneg h1.le (Real.sqrt_nonneg _)), ← sq_lt_sq,
          mul_pow, Real.sq_sqrt hlog, sq_abs]
      refine propext (Iff.trans ?_ Iff.rfl)
      constructor
      · rintro ⟨g', t'', h7, h8⟩
        rw [h5] at h7
        obtain ⟨e1, e2⟩ := Prod.mk.inj (Except.ok.inj h7)
        have e3 := (Prod.mk.inj e1).2
        simp only [List.cons.injEq, and_true] at e3
        subst e3
        exact key.1 h8
      · intro h7
        exact ⟨g, t', h5, key.2 h7⟩
    have hm := measurePreserving_eval_infinitePi (fun _ : Nat => uniform01) (o.weak_collision_order + 1)
    have e2 := hm.measure_preimage (s := Set.Ioo 0 (Real.exp (-(b^2/pmax^2))))
      measurableSet_Ioo.nullMeasurableSet
    rw [e]
    refine Eq.trans e2 ?_
    have hle : 0 ≤ b^2/pmax^2 := by positivity
    rw [uniform01_Ioo _ (by rw [Real.exp_le_one_iff]; linarith)]
    congr 3
    rw [div_eq_iff (by positivity)]
    linear_combination (-b^2)*h3
  · have e : randomTape {t | ∃ g t', determine_mfp_phi_impact_parameter p mat o t
            = .ok (({ p with first_step := false }, [g]), t') ∧ b < g.impact_parameter} =
        randomTape ((fun t : Tape ℝ => t (o.weak_collision_order + 1)) ⁻¹'
          Set.Ioi (Real.pi*b^2/s^2)) := by
      refine measure_congr ?_
      filter_upwards [ae_unit] with t hu
      obtain ⟨g, t', h5, h6⟩ := determine_ffp mat p o t ns s pmax ffp h.densities h.total hs hff hl hu
      obtain ⟨hg0, hg⟩ := h6.short hsf
      have key : b < g.impact_parameter ↔ t (o.weak_collision_order + 1) ∈
          Set.Ioi (Real.pi*b^2/s^2) := by
        rw [Set.mem_Ioi, div_lt_iff₀ (by positivity), mul_comm _ (s^2), ← hg,
          mul_lt_mul_iff_right₀ hpi, sq_lt_sq, abs_of_nonneg hb, abs_of_nonneg hg0]
      refine propext (Iff.trans ?_ Iff.rfl)
      constructor
      · rintro ⟨g', t'', h7, h8⟩
        rw [h5] at h7
        obtain ⟨e1, e2⟩ := Prod.mk.inj (Except.ok.inj h7)
        have e3 := (Prod.mk.inj e1).2
        simp only [List.cons.injEq, and_true] at e3
        subst e3
        exact key.1 h8
      · intro h7
        exact ⟨g, t', h5, key.2 h7⟩
    have hm := measurePreserving_eval_infinitePi (fun _ : Nat => uniform01) (o.weak_collision_order + 1)
    have e2 := hm.measure_preimage (s := Set.Ioi (Real.pi*b^2/s^2))
      measurableSet_Ioi.nullMeasurableSet
    rw [e]
    refine Eq.trans e2 ?_
    exact uniform01_Ioi _ (by positivity)

end RustBCA
