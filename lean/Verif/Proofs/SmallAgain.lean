import Verif.Spec.AlmostSurely
import Mathlib.Probability.BorelCantelli

/-!
# Almost every stream has small numbers in a row again and again
-/

namespace RustBCA
open Spec MeasureTheory

theorem small_chance : uniform01 (Set.Iic (Real.exp (-1))) ≠ 0 := by
  unfold uniform01
  rw [Measure.restrict_apply measurableSet_Iic]
  have h0 := Real.exp_pos (-1)
  have h1 : Real.exp (-1) < 1 := by rw [Real.exp_lt_one_iff]; norm_num
  have e : Set.Icc 0 (Real.exp (-1)) ⊆ Set.Iic (Real.exp (-1)) ∩ Set.Ico 0 1 := by
    intro x hx
    exact ⟨hx.2, hx.1, lt_of_le_of_lt hx.2 h1⟩
  have h2 : 0 < volume (Set.Icc 0 (Real.exp (-1))) := by
    rw [Real.volume_Icc, sub_zero, ENNReal.ofReal_pos]; exact h0
  exact (lt_of_lt_of_le h2 (measure_mono e)).ne'

/-- The `l`-th block of `w` numbers is small. -/
def smallBlock (w l : ℕ) : Set (Tape ℝ) := {t | ∀ i < w, t (l*w + i) ≤ Real.exp (-1)}

theorem smallBlock_measurable (w l : ℕ) : MeasurableSet (smallBlock w l) := by
  have e : smallBlock w l = ⋂ i, ⋂ (_ : i < w), (fun t : Tape ℝ => t (l*w + i)) ⁻¹' Set.Iic (Real.exp (-1)) := by
    ext t; simp [smallBlock]
  rw [e]
  exact MeasurableSet.iInter fun i => MeasurableSet.iInter fun _ => (measurable_pi_apply (l*w + i)) measurableSet_Iic

theorem blocks_apply (w : ℕ) (S : Finset ℕ) :
    randomTape (⋂ l ∈ S, smallBlock w l) = uniform01 (Set.Iic (Real.exp (-1))) ^ (S.card*w) := by
  classical
  obtain ⟨J, hJ⟩ : ∃ J, J = (S ×ˢ Finset.range w).image (fun x : ℕ × ℕ => x.1*w + x.2) := ⟨_, rfl⟩
  have hcard : J.card = S.card*w := by
    rw [hJ, Finset.card_image_of_injOn, Finset.card_product, Finset.card_range]
    rintro ⟨l, i⟩ hx ⟨l', i'⟩ hy h
    simp only [Finset.coe_product, Set.mem_prod, Finset.mem_coe, Finset.mem_range] at hx hy h
    have hw : 0 < w := by omega
    have h1 : (l*w + i)/w = l := by
      rw [mul_comm, Nat.mul_add_div hw, Nat.div_eq_of_lt hx.2, add_zero]
    have h2 : (l'*w + i')/w = l' := by
      rw [mul_comm, Nat.mul_add_div hw, Nat.div_eq_of_lt hy.2, add_zero]
    have h3 : l = l' := by rw [← h1, ← h2, h]
    subst h3
    have : i = i' := by omega
    rw [this]
  have h := Measure.infinitePi_pi (μ := fun _ : ℕ => uniform01) (s := J) (t := fun _ => Set.Iic (Real.exp (-1)))
    (fun _ _ => measurableSet_Iic)
  rw [Finset.prod_const, hcard] at h
  rw [← h]
  unfold randomTape
  congr 1
  ext t
  simp only [Set.mem_iInter, smallBlock, Set.mem_ofPred_eq, Set.mem_pi, Finset.mem_coe, hJ, Finset.mem_image,
    Finset.mem_product, Finset.mem_range, Set.mem_Iic, Prod.exists]
  constructor
  · rintro h x ⟨l, i, ⟨hl, hi⟩, rfl⟩
    exact h l hl i hi
  · intro h l hl i hi
    exact h _ ⟨l, i, ⟨hl, hi⟩, rfl⟩

/-- With probability one there are, again and again, `w` small numbers in a row, for every `w`. -/
theorem small_again : ∀ᵐ t ∂randomTape, SmallAgain t := by
  unfold SmallAgain
  rw [ae_all_iff]
  intro w
  rcases Nat.eq_zero_or_pos w with h0 | hw
  · subst h0
    exact Filter.Eventually.of_forall fun t k => ⟨k, le_rfl, fun i hi => absurd hi (Nat.not_lt_zero i)⟩
  have hone : ∀ l, randomTape (smallBlock w l) = uniform01 (Set.Iic (Real.exp (-1))) ^ w := by
    intro l
    have := blocks_apply w {l}
    simpa using this
  have hind : ProbabilityTheory.iIndepSet (smallBlock w) randomTape := by
    rw [ProbabilityTheory.iIndepSet_iff_meas_biInter (smallBlock_measurable w)]
    intro S
    rw [blocks_apply, Finset.prod_congr rfl (fun l _ => hone l), Finset.prod_const, ← pow_mul, mul_comm]
  have h1 := ProbabilityTheory.measure_limsup_eq_one (smallBlock_measurable w) hind (by
    simp only [hone]
    exact ENNReal.tsum_const_eq_top_of_ne_zero (pow_ne_zero _ small_chance))
  have hmeas : MeasurableSet (Filter.limsup (smallBlock w) Filter.atTop) :=
    MeasurableSet.measurableSet_limsup (smallBlock_measurable w)
  have h2 : ∀ᵐ t ∂randomTape, t ∈ Filter.limsup (smallBlock w) Filter.atTop := by
    rw [← prob_compl_eq_zero_iff hmeas] at h1
    exact h1
  filter_upwards [h2] with t ht k
  rw [Filter.mem_limsup_iff_frequently_mem, Filter.frequently_atTop] at ht
  obtain ⟨l, hl, hb⟩ := ht k
  exact ⟨l*w, hl.trans (Nat.le_mul_of_pos_right l hw), hb⟩

end RustBCA
