import Verif.Spec.Statistics
import Verif.Props.Independent
import Mathlib.Probability.Independence.Basic
import Mathlib.MeasureTheory.Constructions.Pi

/-!
# C98: the statistical error of counts
-/

namespace RustBCA
open Spec MeasureTheory Measure ProbabilityTheory

section executions
variable {F α β Thread : Type} {n : ℕ} {value : α → F} {prog : Fin n → M F β}
  {next : List (Fin n × List α × β) → Thread × Fin n}

/-- An execution is determined by the streams. -/
theorem execution_unique {h h1 h2 : List (Fin n × List α × β)} {ω : Thread × ℕ → α}
    (run1 : Execution value prog next h ω h1) (run2 : Execution value prog next h ω h2) : h1 = h2 := by
  induction run1 with
  | done hl =>
    cases run2 with
    | done _ => rfl
    | start hl' => omega
  | start hl hd hb _ ih =>
    cases run2 with
    | done hl' => omega
    | start hl' hd' hb' hrest =>
      obtain ⟨rfl, rfl⟩ := draws_unique hb hb' hd hd'
      exact ih hrest

/-- In the end every sample has been run once, with the result recorded. -/
theorem execution_all (hnext : EachOnce next) {h h' : List (Fin n × List α × β)} {ω : Thread × ℕ → α}
    (run : Execution value prog next h ω h') (hnd : (h.map (·.1)).Nodup)
    (hd : ∀ e ∈ h, DrawsAndReturns value (prog e.1) e.2.1 e.2.2) :
    (h'.map (·.1)).Nodup ∧ (∀ i, i ∈ h'.map (·.1)) ∧ ∀ e ∈ h', DrawsAndReturns value (prog e.1) e.2.1 e.2.2 := by
  classical
  induction run with
  | @done h ω hl =>
    refine ⟨hnd, fun i => ?_, hd⟩
    have hle := (List.toFinset_card_of_nodup hnd).symm.trans_le (Finset.card_le_univ _)
    rw [List.length_map, Fintype.card_fin] at hle
    have : (h.map (·.1)).toFinset = Finset.univ := by
      apply Finset.eq_univ_of_card
      rw [List.toFinset_card_of_nodup hnd, List.length_map, Fintype.card_fin]
      omega
    exact List.mem_toFinset.1 (by rw [this]; exact Finset.mem_univ i)
  | @start h ω w b h' hl hdr hb _ ih =>
    refine ih ?_ ?_
    · rw [List.map_append, List.nodup_append]
      refine ⟨hnd, by simp, ?_⟩
      intro x hx y hy
      simp only [List.map_cons, List.map_nil, List.mem_singleton] at hy
      subst hy
      rintro rfl
      exact hnext h hnd hl hx
    · intro e he
      rcases List.mem_append.1 he with he | he
      · exact hd e he
      · rw [List.mem_singleton] at he; subst he; exact hdr

/-- The sum over the samples. -/
theorem execution_sum (hnext : EachOnce next) {h' : List (Fin n × List α × β)} {ω : Thread × ℕ → α}
    (run : Execution value prog next [] ω h') (g : Fin n → ℕ) (f : β → ℕ) (hf : ∀ e ∈ h', f e.2.2 = g e.1) :
    (h'.map fun e => f e.2.2).sum = ∑ i, g i := by
  classical
  obtain ⟨h1, h2, _⟩ := execution_all hnext run (by simp) (fun e he => by cases he)
  have e1 : (h'.map fun e => f e.2.2) = (h'.map (·.1)).map g := by
    rw [List.map_map]
    exact List.map_congr_left fun e he => hf e he
  rw [e1, ← List.sum_toFinset g h1]
  congr 1
  exact Finset.eq_univ_of_forall fun i => List.mem_toFinset.2 (h2 i)

end executions

section
variable {F α β Thread : Type} [Countable α] [MeasurableSpace α] [MeasurableSingletonClass α]
  (μ : Measure α) [IsProbabilityMeasure μ] (value : α → F)

theorem chance_le_one (m : M F β) (A : Set β) : chance μ value m A ≤ 1 := prob_le_one

/-- The chances of the counts add up. -/
theorem chance_counts {m : M F β} (hm : DrawsInOrder m) (f : β → ℕ) :
    ∑' k, chance μ value m {b | f b = k} = chance μ value m Set.univ := by
  classical
  rw [chance_sum μ value hm]
  simp_rw [chance_sum μ value hm]
  rw [ENNReal.tsum_comm]
  refine tsum_congr fun w => ?_
  by_cases hex : ∃ b, DrawsAndReturns value m w b
  · obtain ⟨b, hb⟩ := hex
    rw [if_pos ⟨b, trivial, hb⟩, tsum_eq_single (f b)]
    · rw [if_pos ⟨b, rfl, hb⟩]
    · intro k hk
      rw [if_neg]
      rintro ⟨c, rfl, hc⟩
      have hα : Nonempty α := by
        by_contra h
        rw [not_nonempty_iff] at h
        have := measure_univ (μ := μ)
        rw [Set.univ_eq_empty_iff.2 h, measure_empty] at this
        exact zero_ne_one this
      obtain ⟨a⟩ := hα
      obtain ⟨ω, hω⟩ : ∃ ω : ℕ → α, BeginsWith ω w := ⟨fun k => w[k]?.getD a, fun k x hx => by simp [hx]⟩
      exact hk (congrArg f (draws_unique hω hω hc hb).2)
  · rw [if_neg (by rintro ⟨b, _, hb⟩; exact hex ⟨b, hb⟩), ENNReal.tsum_eq_zero]
    intro k
    rw [if_neg (by rintro ⟨b, _, hb⟩; exact hex ⟨b, hb⟩)]

theorem countLaw_singleton (m : M F β) (f : β → ℕ) (k : ℕ) :
    countLaw μ value m f {k} = chance μ value m {b | f b = k}/chance μ value m Set.univ := by
  unfold countLaw
  rw [Measure.sum_apply _ (measurableSet_singleton k), tsum_eq_single k]
  · simp
  · intro j hj
    simp [hj]

theorem countLaw_prob {m : M F β} (hm : DrawsInOrder m) (f : β → ℕ) (h0 : chance μ value m Set.univ ≠ 0) :
    IsProbabilityMeasure (countLaw μ value m f) := by
  constructor
  unfold countLaw
  rw [Measure.sum_apply _ MeasurableSet.univ]
  simp only [Measure.smul_apply, measure_univ, smul_eq_mul, mul_one, div_eq_mul_inv]
  rw [ENNReal.tsum_mul_right, chance_counts μ value hm, ENNReal.mul_inv_cancel h0]
  exact ((chance_le_one μ value m _).trans_lt ENNReal.one_lt_top).ne

/-- **C98, the joint distribution.** The counts of `n` samples of the same computation, run by any number
of threads, are independent and identically distributed: the probability that all return and the list of
counts lies in `B` is that of independent counts, times the probability that all return. -/
theorem C98_joint_distribution {n : ℕ} {m : M F β} (hm : DrawsInOrder m) (f : β → ℕ)
    (h0 : chance μ value m Set.univ ≠ 0) (next : List (Fin n × List α × β) → Thread × Fin n) (hnext : EachOnce next)
    (B : Set (Fin n → ℕ)) :
    threadStreams Thread μ {ω | ∃ h x, Execution value (fun _ => m) next [] ω h ∧ (∀ e ∈ h, f e.2.2 = x e.1) ∧ x ∈ B} =
      chance μ value m Set.univ^n*Measure.pi (fun _ : Fin n => countLaw μ value m f) B := by
  classical
  haveI := countLaw_prob μ value hm f h0
  have hr : chance μ value m Set.univ ≠ ⊤ := ((chance_le_one μ value m _).trans_lt ENNReal.one_lt_top).ne
  obtain ⟨E, hE⟩ : ∃ E : (Fin n → ℕ) → Set (Thread × ℕ → α), E = fun x =>
    {ω | ∃ h, Execution value (fun _ => m) next [] ω h ∧ ∀ e ∈ h, e.2.2 ∈ {b | f b = x e.1}} := ⟨_, rfl⟩
  have hEm : ∀ x, MeasurableSet (E x) ∧ threadStreams Thread μ (E x) =
      chance μ value m Set.univ^n*Measure.pi (fun _ : Fin n => countLaw μ value m f) {x} := by
    intro x
    have h1 := (execution_chance (Thread := Thread) μ value (fun _ => m) (fun _ => hm) next hnext
      (fun i => {b | f b = x i}) n [] (by simp) (by simp) (fun e he => by cases he)).1
    have h2 := C97_independent (Thread := Thread) μ value (fun _ : Fin n => m) (fun _ => hm) next hnext
      (fun i => {b | f b = x i})
    rw [hE]
    refine ⟨h1, h2.trans ?_⟩
    rw [← Set.univ_pi_singleton, Measure.pi_pi]
    simp only [countLaw_singleton]
    have : ∀ i : Fin n, chance μ value m {b | f b = x i} =
        chance μ value m Set.univ*(chance μ value m {b | f b = x i}/chance μ value m Set.univ) := fun i =>
      (ENNReal.mul_div_cancel h0 hr).symm
    rw [Finset.prod_congr rfl fun i _ => this i, Finset.prod_mul_distrib, Finset.prod_const, Finset.card_univ,
      Fintype.card_fin]
  have e : {ω | ∃ h x, Execution value (fun _ => m) next [] ω h ∧ (∀ e ∈ h, f e.2.2 = x e.1) ∧ x ∈ B} =
      ⋃ x : B, E x := by
    ext ω
    rw [hE]
    simp only [Set.mem_ofPred_eq, Set.mem_iUnion, Subtype.exists]
    constructor
    · rintro ⟨h, x, h1, h2, h3⟩
      exact ⟨x, h3, h, h1, h2⟩
    · rintro ⟨x, h3, h, h1, h2⟩
      exact ⟨h, x, h1, h2, h3⟩
  rw [e, measure_iUnion (f := fun x : B => E x) ?_ fun x => (hEm x).1]
  · rw [tsum_congr fun x : B => (hEm x).2, ENNReal.tsum_mul_left]
    congr 1
    rw [← measure_biUnion B.to_countable (fun x _ y _ hne => Set.disjoint_singleton.2 hne)
      fun x _ => measurableSet_singleton x, Set.biUnion_of_singleton]
  · intro x y hne
    refine Set.disjoint_left.2 fun ω h1 h2 => hne ?_
    rw [hE] at h1 h2
    obtain ⟨h, r1, f1⟩ := h1
    obtain ⟨h', r2, f2⟩ := h2
    obtain rfl := execution_unique r1 r2
    obtain ⟨_, hall, _⟩ := execution_all hnext r1 (by simp) (fun e he => by cases he)
    apply Subtype.ext
    funext i
    obtain ⟨e, he, rfl⟩ := List.mem_map.1 (hall i)
    exact (f1 e he).symm.trans (f2 e he)

/-- **C98, the statistical error.** The average of the counts of `n` samples is off the expected count
by `ε` or more with probability at most variance/(n ε²). -/
theorem C98_statistical_error {n : ℕ} (hn : 0 < n) {m : M F β} (hm : DrawsInOrder m) (f : β → ℕ)
    (hvar : MemLp (fun k : ℕ => (k : ℝ)) 2 (countLaw μ value m f))
    (next : List (Fin n × List α × β) → Thread × Fin n) (hnext : EachOnce next) (ε : ℝ) (hε : 0 < ε) :
    threadStreams Thread μ {ω | ∃ h, Execution value (fun _ => m) next [] ω h ∧
      ε ≤ |((h.map fun e => f e.2.2).sum : ℝ)/n - expectedCount μ value m f|} ≤
      ENNReal.ofReal (countVariance μ value m f/(n*ε^2)) := by
  classical
  have hn0 : (0:ℝ) < n := by exact_mod_cast hn
  by_cases h0 : chance μ value m Set.univ = 0
  · have hz : threadStreams Thread μ {ω | ∃ h, Execution value (fun _ : Fin n => m) next [] ω h ∧
        ∀ e ∈ h, e.2.2 ∈ (fun _ => Set.univ : Fin n → Set β) e.1} = 0 := by
      refine (C97_independent (Thread := Thread) μ value (fun _ : Fin n => m) (fun _ => hm) next hnext
        (fun _ => Set.univ)).trans ?_
      rw [Finset.prod_const, h0, Finset.card_univ, Fintype.card_fin]
      exact zero_pow hn.ne'
    refine le_trans (measure_mono ?_) (hz.le.trans bot_le)
    rintro ω ⟨h, h1, _⟩
    exact ⟨h, h1, fun _ _ => trivial⟩
  · haveI := countLaw_prob μ value hm f h0
    have hjoint := C98_joint_distribution (Thread := Thread) μ value hm f h0 next hnext
      {x | ε ≤ |(∑ i, (x i : ℝ))/n - expectedCount μ value m f|}
    have hsub : threadStreams Thread μ {ω | ∃ h, Execution value (fun _ => m) next [] ω h ∧
        ε ≤ |((h.map fun e => f e.2.2).sum : ℝ)/n - expectedCount μ value m f|} ≤
        threadStreams Thread μ {ω | ∃ h x, Execution value (fun _ => m) next [] ω h ∧ (∀ e ∈ h, f e.2.2 = x e.1) ∧
          x ∈ {x : Fin n → ℕ | ε ≤ |(∑ i, (x i : ℝ))/n - expectedCount μ value m f|}} := by
      refine measure_mono ?_
      rintro ω ⟨h, h1, h2⟩
      obtain ⟨hnd, hall, _⟩ := execution_all hnext h1 (by simp) (fun e he => by cases he)
      have hx : ∃ x : Fin n → ℕ, ∀ e ∈ h, f e.2.2 = x e.1 := by
        have hch : ∀ i : Fin n, ∃ e ∈ h, e.1 = i := fun i => List.mem_map.1 (hall i)
        choose c hc1 hc2 using hch
        refine ⟨fun i => f (c i).2.2, fun e he => ?_⟩
        have : c e.1 = e := List.inj_on_of_nodup_map hnd (hc1 _) he (hc2 _)
        show f e.2.2 = f (c e.1).2.2
        rw [this]
      obtain ⟨x, hx⟩ := hx
      refine ⟨h, x, h1, hx, ?_⟩
      have hs := execution_sum hnext h1 x f hx
      show ε ≤ |(∑ i, (x i : ℝ))/n - expectedCount μ value m f|
      rw [show (∑ i, (x i : ℝ)) = ((∑ i, x i : ℕ) : ℝ) by push_cast; rfl, ← hs]
      push_cast at h2 ⊢
      exact h2
    refine hsub.trans ?_
    rw [hjoint]
    have hle1 : chance μ value m Set.univ^n ≤ 1 := pow_le_one' (chance_le_one μ value m _) n
    refine (mul_le_mul_left hle1 _).trans ?_
    rw [one_mul]
    have hmem : ∀ i : Fin n, MemLp (fun x : Fin n → ℕ => (x i : ℝ)) 2
        (Measure.pi (fun _ : Fin n => countLaw μ value m f)) := fun i =>
      hvar.comp_measurePreserving (measurePreserving_eval _ i)
    have hsum : MemLp (∑ i : Fin n, fun x : Fin n → ℕ => (x i : ℝ)) 2
        (Measure.pi (fun _ : Fin n => countLaw μ value m f)) := memLp_finset_sum' _ fun i _ => hmem i
    have hmean : ∫ x, (∑ i : Fin n, fun x : Fin n → ℕ => (x i : ℝ)) x
        ∂(Measure.pi (fun _ : Fin n => countLaw μ value m f)) = n*expectedCount μ value m f := by
      have : ∀ i : Fin n, ∫ x : Fin n → ℕ, (x i : ℝ) ∂(Measure.pi (fun _ : Fin n => countLaw μ value m f)) =
          expectedCount μ value m f := fun i => by
        have := (measurePreserving_eval (fun _ : Fin n => countLaw μ value m f) i)
        unfold expectedCount
        have h2 := integral_map (μ := Measure.pi (fun _ : Fin n => countLaw μ value m f)) (f := fun k : ℕ => (k:ℝ)) this.measurable.aemeasurable
          (measurable_from_nat).aestronglyMeasurable
        rw [this.map_eq] at h2
        exact h2.symm
      simp only [Finset.sum_apply]
      rw [integral_finset_sum _ fun i _ => (hmem i).integrable (by norm_num)]
      rw [Finset.sum_congr rfl fun i _ => this i]
      simp
    have hv := variance_sum_pi (μ := fun _ : Fin n => countLaw μ value m f) (X := fun _ k => ((k:ℕ):ℝ)) (fun _ => hvar)
    have hcheb := meas_ge_le_variance_div_sq hsum (c := n*ε) (by positivity)
    rw [hv, hmean] at hcheb
    refine le_trans (measure_mono ?_) (hcheb.trans ?_)
    · intro x hx
      simp only [Set.mem_ofPred_eq, Finset.sum_apply] at hx ⊢
      have : (∑ i, (x i : ℝ))/n - expectedCount μ value m f = ((∑ i, (x i : ℝ)) - n*expectedCount μ value m f)/n := by
        field_simp
      rw [this, abs_div, abs_of_pos hn0, le_div_iff₀ hn0] at hx
      linarith
    · apply ENNReal.ofReal_le_ofReal
      rw [Finset.sum_const, Finset.card_univ, Fintype.card_fin, nsmul_eq_mul]
      unfold countVariance
      rw [mul_pow]
      apply le_of_eq
      field_simp

end
end RustBCA
