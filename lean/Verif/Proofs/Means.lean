import Verif.Props.Campaign
import Verif.Spec.Means

/-!
# The mean and the variance of a quantity (helper lemmas)

There are countably many results, so they can be numbered, and a quantity is a function of the number.
-/

set_option linter.unusedSectionVars false

namespace RustBCA
open Spec MeasureTheory ProbabilityTheory

section
variable {F α β : Type} [Scalar F] [Countable α] [MeasurableSpace α] [MeasurableSingletonClass α]
  (μ : Measure α) [IsProbabilityMeasure μ] (value : α → F)

include μ in
/-- The results of countably many computations can be numbered. -/
theorem exists_code {ι : Type} [Countable ι] {prog : ι → M F β} (hm : ∀ i, DrawsInOrder (prog i)) (f : β → ℝ) :
    ∃ (code : β → ℕ) (dec : ℕ → ℝ), ∀ i (ω : ℕ → α) b t', prog i (fun n => value (ω n)) = .ok (b, t') →
      dec (code b) = f b := by
  classical
  obtain ⟨a⟩ := generator_nonempty μ
  obtain ⟨R, hR⟩ : ∃ R : Set β, R = ⋃ i : ι, ⋃ w : List α, {b | DrawsAndReturns value (prog i) w b} := ⟨_, rfl⟩
  have hc : R.Countable := by
    rw [hR]
    refine Set.countable_iUnion fun i => Set.countable_iUnion fun w => Set.Subsingleton.countable fun b hb c hc => ?_
    have hω : BeginsWith (fun k => w[k]?.getD a) w := fun k x hx => by simp [hx]
    exact (draws_unique hω hω hb hc).2
  obtain ⟨code, hcode⟩ := Set.countable_iff_exists_injOn.1 hc
  refine ⟨code, fun k => if h : ∃ b ∈ R, code b = k then f h.choose else 0, fun i ω b t' h => ?_⟩
  obtain ⟨w, -, hd⟩ := draws_word (hm i) h
  have hb : b ∈ R := by
    rw [hR]
    exact Set.mem_iUnion.2 ⟨i, Set.mem_iUnion.2 ⟨w, hd⟩⟩
  have hex : ∃ b' ∈ R, code b' = code b := ⟨b, hb, rfl⟩
  show (if h : ∃ b' ∈ R, code b' = code b then f h.choose else 0) = f b
  rw [dif_pos hex]
  congr 1
  exact hcode hex.choose_spec.1 hb hex.choose_spec.2

include μ in
theorem measurable_quantityOn {m : M F β} (hm : DrawsInOrder m) (f : β → ℝ) : Measurable (quantityOn value m f) := by
  have e : quantityOn value m f = fun ω : ℕ → α => (worth value m (fun b => ENNReal.ofReal (f b)) ω).toReal -
      (worth value m (fun b => ENNReal.ofReal (-f b)) ω).toReal := by
    funext ω
    unfold quantityOn worth
    cases m (fun n => value (ω n)) with
    | error e => simp
    | ok r =>
      simp only [ENNReal.toReal_ofReal']
      rcases le_total 0 (f r.1) with h | h
      · rw [max_eq_left h, max_eq_right (by linarith)]; ring
      · rw [max_eq_right h, max_eq_left (by linarith)]; ring
  rw [e]
  exact (measurable_worth μ value hm _).ennreal_toReal.sub (measurable_worth μ value hm _).ennreal_toReal

include μ in
theorem measurable_returning {m : M F β} (hm : DrawsInOrder m) :
    MeasurableSet (returning value m : Set (ℕ → α)) := by
  have e : (returning value m : Set (ℕ → α)) = quantityOn value m (fun _ => 1) ⁻¹' {1} := by
    ext ω
    simp only [returning, quantityOn, Set.mem_ofPred_eq, Set.mem_preimage, Set.mem_singleton_iff]
    cases m (fun n => value (ω n)) with
    | error e => simp
    | ok r => simpa using ⟨r.1, r.2, rfl⟩
  rw [e]
  exact measurable_quantityOn μ value hm _ (measurableSet_singleton 1)

theorem chance_returning (m : M F β) :
    (Measure.infinitePi fun _ : ℕ => μ) (returning value m) = chance μ value m Set.univ := by
  unfold chance returning
  congr 1
  ext ω
  simp

/-- The number of the result on a stream. -/
noncomputable def codeOn (m : M F β) (code : β → ℕ) (ω : ℕ → α) : ℕ :=
  match m (fun n => value (ω n)) with
  | .ok (b, _) => code b
  | .error _ => 0

include μ in
theorem measurable_codeOn {m : M F β} (hm : DrawsInOrder m) (code : β → ℕ) : Measurable (codeOn value m code) := by
  refine measurable_to_countable' fun k => ?_
  have e : codeOn value m code ⁻¹' {k} = quantityOn value m (fun b => (code b : ℝ)) ⁻¹' {(k : ℝ)} := by
    ext ω
    simp only [codeOn, quantityOn, Set.mem_preimage, Set.mem_singleton_iff]
    cases m (fun n => value (ω n)) with
    | error e => show 0 = k ↔ (0:ℝ) = k; norm_cast
    | ok r => show code r.1 = k ↔ (code r.1 : ℝ) = k; norm_cast
  rw [e]
  exact measurable_quantityOn μ value hm _ (measurableSet_singleton _)

/-- The distribution of the number of the result. -/
theorem countLaw_map {m : M F β} (hm : DrawsInOrder m) (code : β → ℕ) :
    countLaw μ value m code =
      (cond (Measure.infinitePi fun _ : ℕ => μ) (returning value m)).map (codeOn value m code) := by
  refine Measure.ext_of_singleton fun k => ?_
  rw [countLaw_singleton, Measure.map_apply (measurable_codeOn μ value hm code) (measurableSet_singleton k),
    cond_apply (measurable_returning μ value hm), chance_returning, mul_comm, ← div_eq_mul_inv]
  congr 1
  unfold chance
  congr 1
  ext ω
  simp only [returning, codeOn, Set.mem_ofPred_eq, Set.mem_inter_iff, Set.mem_preimage, Set.mem_singleton_iff]
  cases m (fun n => value (ω n)) with
  | error e => simp
  | ok r =>
    constructor
    · rintro ⟨b, t', h, hk⟩
      injection h with h
      subst h
      exact ⟨⟨_, _, rfl⟩, hk⟩
    · rintro ⟨-, hk⟩
      exact ⟨r.1, r.2, rfl, hk⟩

theorem quantity_code {m : M F β} (hm : DrawsInOrder m) {f : β → ℝ} {code : β → ℕ} {dec : ℕ → ℝ}
    (hcode : ∀ (ω : ℕ → α) b t', m (fun n => value (ω n)) = .ok (b, t') → dec (code b) = f b) :
    (fun ω => dec (codeOn value m code ω)) =ᵐ[cond (Measure.infinitePi fun _ : ℕ => μ) (returning value m)]
      quantityOn value m f := by
  filter_upwards [ae_cond_mem (measurable_returning μ value hm)] with ω hω
  obtain ⟨b, t', h⟩ := hω
  have := hcode ω b t' h
  unfold codeOn quantityOn
  rw [h]
  exact this

/-- The mean, the variance and the mean square in terms of the numbers. -/
theorem means_code {m : M F β} (hm : DrawsInOrder m) {f : β → ℝ} {code : β → ℕ} {dec : ℕ → ℝ}
    (hcode : ∀ (ω : ℕ → α) b t', m (fun n => value (ω n)) = .ok (b, t') → dec (code b) = f b) :
    (∫ k, dec k ∂countLaw μ value m code) = meanOf μ value m f ∧
    variance dec (countLaw μ value m code) = varianceOf μ value m f ∧
    (FiniteVariance μ value m f → MemLp dec 2 (countLaw μ value m code)) := by
  have hmeas := measurable_codeOn μ value hm code
  have hdec : Measurable dec := measurable_from_nat
  have hae := quantity_code μ value hm hcode
  rw [countLaw_map μ value hm]
  refine ⟨?_, ?_, fun h => ?_⟩
  · rw [integral_map hmeas.aemeasurable hdec.aestronglyMeasurable]
    exact integral_congr_ae hae
  · rw [variance_map hdec.aemeasurable hmeas.aemeasurable]
    exact variance_congr hae
  · rw [memLp_map_measure_iff hdec.aestronglyMeasurable hmeas.aemeasurable]
    exact (memLp_congr_ae hae).2 h

end

/-- Chebyshev's inequality for the average of independent quantities. -/
theorem chebyshev_values {n : ℕ} {ν : Fin n → Measure ℕ} [∀ i, IsProbabilityMeasure (ν i)] (hn : 0 < n) (v : ℕ → ℝ)
    (hvar : ∀ i, MemLp v 2 (ν i)) (ε : ℝ) (hε : 0 < ε) :
    Measure.pi ν {x | ε ≤ |(∑ i, v (x i))/n - (∑ i, ∫ k : ℕ, v k ∂ν i)/n|} ≤
      ENNReal.ofReal ((∑ i, variance v (ν i))/n/(n*ε^2)) := by
  have hn0 : (0:ℝ) < n := by exact_mod_cast hn
  obtain ⟨S, hS⟩ : ∃ S, S = ∑ i, ∫ k : ℕ, v k ∂ν i := ⟨_, rfl⟩
  rw [← hS]
  have hmem : ∀ i : Fin n, MemLp (fun x : Fin n → ℕ => v (x i)) 2 (Measure.pi ν) := fun i =>
    (hvar i).comp_measurePreserving (measurePreserving_eval _ i)
  have hsum : MemLp (∑ i : Fin n, fun x : Fin n → ℕ => v (x i)) 2 (Measure.pi ν) :=
    memLp_finsetSum' _ fun i _ => hmem i
  have hmean : ∫ x, (∑ i : Fin n, fun x : Fin n → ℕ => v (x i)) x ∂(Measure.pi ν) = S := by
    have : ∀ i : Fin n, ∫ x : Fin n → ℕ, v (x i) ∂(Measure.pi ν) = ∫ k : ℕ, v k ∂ν i := fun i => by
      have := (measurePreserving_eval ν i)
      have h2 := integral_map (μ := Measure.pi ν) (f := v) this.measurable.aemeasurable
        (measurable_from_nat).aestronglyMeasurable
      rw [this.map_eq] at h2
      exact h2.symm
    simp only [Finset.sum_apply]
    rw [integral_finsetSum _ fun i _ => (hmem i).integrable (by norm_num)]
    rw [Finset.sum_congr rfl fun i _ => this i, hS]
  have hv := variance_sum_pi (μ := ν) (X := fun _ => v) hvar
  have hcheb := meas_ge_le_variance_div_sq hsum (c := n*ε) (by positivity)
  rw [hv, hmean] at hcheb
  refine le_trans (measure_mono ?_) (hcheb.trans ?_)
  · intro x hx
    simp only [Set.mem_ofPred_eq, Finset.sum_apply] at hx ⊢
    rw [← sub_div, abs_div, abs_of_pos hn0, le_div_iff₀ hn0] at hx
    linarith
  · apply ENNReal.ofReal_le_ofReal
    rw [mul_pow]
    apply le_of_eq
    field_simp

/-- The sum of a quantity over the samples. -/
theorem execution_total {F α β Thread : Type} {n : ℕ} {value : α → F} {prog : Fin n → M F β}
    {next : List (Fin n × List α × β) → Thread × Fin n} (hnext : EachOnce next) {h' : List (Fin n × List α × β)}
    {ω : Thread × ℕ → α} (run : Execution value prog next [] ω h') (g : Fin n → ℝ) (f : β → ℝ)
    (hf : ∀ e ∈ h', f e.2.2 = g e.1) : (h'.map fun e => f e.2.2).sum = ∑ i, g i := by
  classical
  obtain ⟨h1, h2, _⟩ := execution_all hnext run (by simp) (fun e he => by cases he)
  have e1 : (h'.map fun e => f e.2.2) = (h'.map (·.1)).map g := by
    rw [List.map_map]
    exact List.map_congr_left fun e he => hf e he
  rw [e1, ← List.sum_toFinset g h1]
  congr 1
  exact Finset.eq_univ_of_forall fun i => List.mem_toFinset.2 (h2 i)

end RustBCA
