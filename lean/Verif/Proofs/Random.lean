import Verif.Spec.Random

/-!
# Probabilities of boxes of random numbers
-/

namespace RustBCA
open Spec MeasureTheory

theorem uniform01_apply (S : Set ℝ) (hS : MeasurableSet S) :
    uniform01 S = volume (S ∩ Set.Ico 0 1) := Measure.restrict_apply hS

/-- Probability of a box. -/
theorem tape_box (N : Nat) (S : Nat → Set ℝ) (hS : ∀ i < N, MeasurableSet (S i)) :
    randomTape {t | ∀ i < N, t i ∈ S i} = ∏ i ∈ Finset.range N, uniform01 (S i) := by
  have h := Measure.infinitePi_pi (μ := fun _ : Nat => uniform01) (s := Finset.range N) (t := S)
    (fun i hi => hS i (Finset.mem_range.1 hi))
  rw [← h]
  congr 1
  ext t
  simp [Set.mem_pi]

theorem ae_unit : ∀ᵐ t ∂randomTape, ∀ k, 0 ≤ t k ∧ t k < 1 := by
  rw [ae_all_iff]
  intro k
  have h : ∀ᵐ x ∂uniform01, 0 ≤ x ∧ x < 1 := by
    unfold uniform01
    exact ae_restrict_mem measurableSet_Ico
  have hm := (measurePreserving_eval_infinitePi (fun _ : Nat => uniform01) k)
  exact hm.quasiMeasurePreserving.ae h

/-- Probability of a box with a two-dimensional condition on two consecutive numbers. -/
theorem tape_box_pair (N J : Nat) (S B : Nat → Set ℝ) (D : Set (ℝ × ℝ))
    (hS : ∀ i < N, MeasurableSet (S i)) (hB : ∀ i < J, MeasurableSet (B i)) (hD : MeasurableSet D) :
    randomTape {t | (∀ i < N, t i ∈ S i) ∧ (t N, t (N + 1)) ∈ D ∧ ∀ j < J, t (N + 2 + j) ∈ B j}
      = (∏ i ∈ Finset.range N, uniform01 (S i))*(∏ j ∈ Finset.range J, uniform01 (B j))*
        (uniform01.prod uniform01) D := by
  obtain ⟨c, hc⟩ : ∃ c, c = (∏ i ∈ Finset.range N, uniform01 (S i))*
      (∏ j ∈ Finset.range J, uniform01 (B j)) := ⟨_, rfl⟩
  have hcf : c ≠ ⊤ := by
    rw [hc]
    exact ENNReal.mul_ne_top (ENNReal.prod_ne_top fun _ _ => measure_ne_top _ _)
      (ENNReal.prod_ne_top fun _ _ => measure_ne_top _ _)
  have hbox : MeasurableSet {t : Tape ℝ | (∀ i < N, t i ∈ S i) ∧ ∀ j < J, t (N + 2 + j) ∈ B j} := by
    have e : {t : Tape ℝ | (∀ i < N, t i ∈ S i) ∧ ∀ j < J, t (N + 2 + j) ∈ B j} =
        (⋂ i, ⋂ (_ : i < N), (fun t : Tape ℝ => t i) ⁻¹' S i) ∩
        ⋂ j, ⋂ (_ : j < J), (fun t : Tape ℝ => t (N + 2 + j)) ⁻¹' B j := by
      ext t; simp
    rw [e]
    refine MeasurableSet.inter ?_ ?_
    · exact MeasurableSet.iInter fun i => MeasurableSet.iInter fun hi =>
        (measurable_pi_apply i) (hS i hi)
    · exact MeasurableSet.iInter fun i => MeasurableSet.iInter fun hi =>
        (measurable_pi_apply (N + 2 + i)) (hB i hi)
  have hf : Measurable fun t : Tape ℝ => (t N, t (N + 1)) :=
    (measurable_pi_apply N).prodMk (measurable_pi_apply (N + 1))
  have key : (c • uniform01).prod uniform01 = (randomTape.restrict
      {t : Tape ℝ | (∀ i < N, t i ∈ S i) ∧ ∀ j < J, t (N + 2 + j) ∈ B j}).map
        fun t => (t N, t (N + 1)) := by
    haveI : SigmaFinite (c • uniform01) := by
      haveI : IsFiniteMeasure (c • uniform01) := Measure.smul_finite _ hcf
      infer_instance
    refine Measure.prod_eq fun a b ha hb => ?_
    rw [Measure.map_apply hf (ha.prod hb), Measure.restrict_apply (hf (ha.prod hb))]
    obtain ⟨T, hT⟩ : ∃ T : Nat → Set ℝ, T = fun i => if i < N then S i else if i = N then a else
      if i = N + 1 then b else B (i - (N + 2)) := ⟨_, rfl⟩
    have e : ((fun t : Tape ℝ => (t N, t (N + 1))) ⁻¹' a ×ˢ b ∩
        {t : Tape ℝ | (∀ i < N, t i ∈ S i) ∧ ∀ j < J, t (N + 2 + j) ∈ B j}) =
        {t | ∀ i < N + 2 + J, t i ∈ T i} := by
      ext t
      simp only [Set.mem_inter_iff, Set.mem_preimage, Set.mem_prod, Set.mem_setOf_eq]
      constructor
      · rintro ⟨⟨h1, h2⟩, h3, h4⟩ i hi
        rw [hT]
        simp only
        split_ifs with g1 g2 g3
        · exact h3 i g1
        · rw [g2]; exact h1
        · rw [g3]; exact h2
        · have := h4 (i - (N + 2)) (by omega)
          rwa [show N + 2 + (i - (N + 2)) = i by omega] at this
      · intro h
        rw [hT] at h
        refine ⟨⟨?_, ?_⟩, ?_, ?_⟩
        · have := h N (by omega)
          simpa using this
        · have := h (N + 1) (by omega)
          simpa using this
        · intro i hi
          have := h i (by omega)
          simpa [hi] using this
        · intro j hj
          have := h (N + 2 + j) (by omega)
          simpa [show ¬ N + 2 + j < N by omega, show ¬ N + 2 + j = N by omega,
            show ¬ N + 2 + j = N + 1 by omega] using this
    rw [e, tape_box]
    · rw [Finset.prod_range_add, Finset.prod_range_succ, Finset.prod_range_succ]
      have e1 : ∏ x ∈ Finset.range N, uniform01 (T x) = ∏ i ∈ Finset.range N, uniform01 (S i) :=
        Finset.prod_congr rfl fun i hi => by rw [hT]; simp [Finset.mem_range.1 hi]
      have e2 : ∏ x ∈ Finset.range J, uniform01 (T (N + 2 + x)) =
          ∏ j ∈ Finset.range J, uniform01 (B j) :=
        Finset.prod_congr rfl fun i hi => by
          rw [hT]
          simp [show ¬ N + 2 + i < N by omega, show ¬ N + 2 + i = N by omega,
            show ¬ N + 2 + i = N + 1 by omega]
      rw [e1, e2, Measure.smul_apply, hc, smul_eq_mul, hT]
      simp
      ring
    · intro i hi
      rw [hT]
      simp only
      split_ifs with g1 g2 g3
      · exact hS i g1
      · exact ha
      · exact hb
      · exact hB _ (by omega)
  have h2 := congrArg (fun μ => μ D) key
  rw [Measure.map_apply hf hD, Measure.restrict_apply (hf hD), Measure.prod_smul_left,
    Measure.smul_apply, smul_eq_mul] at h2
  rw [← hc, h2]
  congr 1
  ext t
  simp only [Set.mem_inter_iff, Set.mem_preimage, Set.mem_setOf_eq]
  tauto

theorem uniform01_Iio (a : ℝ) (h1 : a ≤ 1) : uniform01 (Set.Iio a) = ENNReal.ofReal a := by
  rw [uniform01_apply _ measurableSet_Iio]
  have : Set.Iio a ∩ Set.Ico 0 1 = Set.Ico 0 a := by
    ext x; simp; constructor <;> intro h <;> refine ⟨?_, ?_⟩ <;> first | linarith [h.1, h.2] | skip
    all_goals (try constructor) <;> linarith [h.1, h.2]
  rw [this, Real.volume_Ico, sub_zero]

theorem uniform01_Ioo (a : ℝ) (h1 : a ≤ 1) : uniform01 (Set.Ioo 0 a) = ENNReal.ofReal a := by
  rw [uniform01_apply _ measurableSet_Ioo]
  have : Set.Ioo 0 a ∩ Set.Ico 0 1 = Set.Ioo 0 a := by
    rw [Set.inter_eq_left]
    rintro x ⟨h2, h3⟩
    exact ⟨h2.le, h3.trans_le h1⟩
  rw [this, Real.volume_Ioo, sub_zero]

theorem uniform01_Ioi (a : ℝ) (h0 : 0 ≤ a) : uniform01 (Set.Ioi a) = ENNReal.ofReal (1 - a) := by
  rw [uniform01_apply _ measurableSet_Ioi]
  have : Set.Ioi a ∩ Set.Ico 0 1 = Set.Ioo a 1 := by
    ext x
    simp only [Set.mem_inter_iff, Set.mem_Ioi, Set.mem_Ico, Set.mem_Ioo]
    exact ⟨fun h => ⟨h.1, h.2.2⟩, fun h => ⟨h.1, h0.trans h.1.le, h.2⟩⟩
  rw [this, Real.volume_Ioo]

end RustBCA
