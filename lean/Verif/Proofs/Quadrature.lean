import Mathlib.MeasureTheory.Integral.IntervalIntegral.Basic
import Mathlib.MeasureTheory.Integral.IntervalIntegral.FundThmCalculus
import Mathlib.MeasureTheory.Function.JacobianOneDim
import Mathlib.Analysis.SpecialFunctions.Trigonometric.Deriv
import Mathlib.Analysis.SpecialFunctions.Sqrt

/-!
# Convergence of the midpoint rule, and the substitution `r = r0/cos t` (helper lemmas)
-/

namespace RustBCA

open Filter Topology MeasureTheory

/-- The midpoint rule converges for continuous functions. -/
theorem midpoint_tendsto (G : ℝ → ℝ) (b : ℝ) (hb : 0 < b) (hG : ContinuousOn G (Set.Icc 0 b)) :
    Tendsto (fun n : ℕ => ∑ i ∈ Finset.range n, b/n*G ((2*i + 1)*b/(2*n))) atTop
      (𝓝 (∫ t in (0:ℝ)..b, G t)) := by
  have huc := isCompact_Icc.uniformContinuousOn_of_continuous hG
  rw [Metric.tendsto_atTop]
  intro ε hε
  obtain ⟨δ, hδ, hu⟩ := (Metric.uniformContinuousOn_iff.1 huc) (ε/(2*b)) (by positivity)
  obtain ⟨N, hN⟩ := exists_nat_gt (b/δ)
  refine ⟨N + 1, fun n hn => ?_⟩
  have hn0 : 0 < n := by omega
  have hnr : (0:ℝ) < n := by exact_mod_cast hn0
  have hstep : b/n < δ := by
    rw [div_lt_iff₀ hnr]
    have : b/δ < n := hN.trans (by exact_mod_cast hn)
    rw [div_lt_iff₀ hδ] at this
    linarith
  have ha : ∀ k : ℕ, k ≤ n → (k:ℝ)*b/n ∈ Set.Icc 0 b := by
    intro k hk
    refine ⟨by positivity, ?_⟩
    rw [div_le_iff₀ hnr]
    have : (k:ℝ) ≤ n := by exact_mod_cast hk
    nlinarith
  have hsub : ∀ k < n, Set.uIcc ((k:ℝ)*b/n) (((k+1:ℕ):ℝ)*b/n) ⊆ Set.Icc 0 b := by
    intro k hk
    exact Set.uIcc_subset_Icc (ha k hk.le) (ha (k+1) hk)
  have hint : ∀ k < n, IntervalIntegrable G volume ((k:ℝ)*b/n) (((k+1:ℕ):ℝ)*b/n) := fun k hk =>
    (hG.mono (hsub k hk)).intervalIntegrable
  have hsum := intervalIntegral.sum_integral_adjacent_intervals (f := G) (μ := volume)
    (a := fun k : ℕ => (k:ℝ)*b/n) (n := n) hint
  have h0 : ((0:ℕ):ℝ)*b/n = 0 := by simp
  have hnn : (n:ℝ)*b/n = b := by field_simp
  simp only [h0, hnn] at hsum
  rw [← hsum, Real.dist_eq, ← Finset.sum_sub_distrib]
  have hterm : ∀ k ∈ Finset.range n, |b/n*G ((2*k + 1)*b/(2*n))
      - ∫ t in ((k:ℝ)*b/n)..(((k+1:ℕ):ℝ)*b/n), G t| ≤ ε/(2*b)*(b/n) := by
    intro k hk
    have hk := Finset.mem_range.1 hk
    have hlen : ((k+1:ℕ):ℝ)*b/n - (k:ℝ)*b/n = b/n := by push_cast; ring
    have hle : (k:ℝ)*b/n ≤ ((k+1:ℕ):ℝ)*b/n := by
      have : 0 < b/n := by positivity
      linarith
    have hmid : (2*(k:ℝ) + 1)*b/(2*n) ∈ Set.Icc ((k:ℝ)*b/n) (((k+1:ℕ):ℝ)*b/n) := by
      have : 0 < b/n := by positivity
      have e1 : (2*(k:ℝ) + 1)*b/(2*n) = (k:ℝ)*b/n + b/n/2 := by field_simp
      constructor <;> linarith
    have hc : b/n*G ((2*k + 1)*b/(2*n))
        = ∫ _ in ((k:ℝ)*b/n)..(((k+1:ℕ):ℝ)*b/n), G ((2*k + 1)*b/(2*n)) := by
      rw [intervalIntegral.integral_const, hlen, smul_eq_mul]
    rw [hc, ← intervalIntegral.integral_sub (by simp) (hint k hk), ← Real.norm_eq_abs]
    have := intervalIntegral.norm_integral_le_of_norm_le_const (a := (k:ℝ)*b/n)
      (b := ((k+1:ℕ):ℝ)*b/n) (C := ε/(2*b)) (f := fun t => G ((2*k + 1)*b/(2*n)) - G t) ?_
    · rwa [hlen, abs_of_pos (by positivity)] at this
    · intro t ht
      rw [Set.uIoc_of_le hle] at ht
      have ht' : t ∈ Set.Icc 0 b := hsub k hk (by
        rw [Set.uIcc_of_le hle]; exact ⟨ht.1.le, ht.2⟩)
      have hm' : (2*(k:ℝ) + 1)*b/(2*n) ∈ Set.Icc 0 b := hsub k hk (by
        rw [Set.uIcc_of_le hle]; exact hmid)
      have hd : dist ((2*(k:ℝ) + 1)*b/(2*n)) t < δ := by
        rw [Real.dist_eq, abs_lt]
        constructor <;> linarith [hmid.1, hmid.2, ht.1, ht.2]
      have := hu _ hm' _ ht' hd
      rw [Real.dist_eq] at this
      exact this.le
  refine (Finset.abs_sum_le_sum_abs _ _).trans_lt ((Finset.sum_le_sum hterm).trans_lt ?_)
  rw [Finset.sum_const, Finset.card_range, nsmul_eq_mul]
  have : (n:ℝ)*(ε/(2*b)*(b/n)) = ε/2 := by field_simp
  rw [this]; linarith

end RustBCA
