import Verif.Proofs.Campaign
import Verif.Spec.Campaign
import Verif.Props.Input

/-!
# C115: a run averages over the beam as well
-/

set_option linter.unusedSectionVars false

namespace RustBCA
open Spec MeasureTheory ProbabilityTheory

/-- Chebyshev's inequality for the average of independent counts. -/
theorem chebyshev_counts {n : ℕ} {ν : Fin n → Measure ℕ} [∀ i, IsProbabilityMeasure (ν i)] (hn : 0 < n)
    (hvar : ∀ i, MemLp (fun k : ℕ => (k : ℝ)) 2 (ν i)) (ε : ℝ) (hε : 0 < ε) :
    Measure.pi ν {x | ε ≤ |(∑ i, (x i : ℝ))/n - (∑ i, ∫ k : ℕ, (k : ℝ) ∂ν i)/n|} ≤
      ENNReal.ofReal ((∑ i, variance (fun k : ℕ => (k : ℝ)) (ν i))/n/(n*ε^2)) := by
  have hn0 : (0:ℝ) < n := by exact_mod_cast hn
  obtain ⟨S, hS⟩ : ∃ S, S = ∑ i, ∫ k : ℕ, (k : ℝ) ∂ν i := ⟨_, rfl⟩
  rw [← hS]
  have hmem : ∀ i : Fin n, MemLp (fun x : Fin n → ℕ => (x i : ℝ)) 2 (Measure.pi ν) := fun i =>
    (hvar i).comp_measurePreserving (measurePreserving_eval _ i)
  have hsum : MemLp (∑ i : Fin n, fun x : Fin n → ℕ => (x i : ℝ)) 2 (Measure.pi ν) :=
    memLp_finsetSum' _ fun i _ => hmem i
  have hmean : ∫ x, (∑ i : Fin n, fun x : Fin n → ℕ => (x i : ℝ)) x ∂(Measure.pi ν) = S := by
    have : ∀ i : Fin n, ∫ x : Fin n → ℕ, (x i : ℝ) ∂(Measure.pi ν) = ∫ k : ℕ, (k : ℝ) ∂ν i := fun i => by
      have := (measurePreserving_eval ν i)
      have h2 := integral_map (μ := Measure.pi ν)
        (f := fun k : ℕ => (k:ℝ)) this.measurable.aemeasurable
        (measurable_from_nat).aestronglyMeasurable
      rw [this.map_eq] at h2
      exact h2.symm
    simp only [Finset.sum_apply]
    rw [integral_finsetSum _ fun i _ => (hmem i).integrable (by norm_num)]
    rw [Finset.sum_congr rfl fun i _ => this i, hS]
  have hv := variance_sum_pi (μ := ν) (X := fun _ k => ((k:ℕ):ℝ)) hvar
  have hcheb := meas_ge_le_variance_div_sq hsum (c := n*ε) (by positivity)
  rw [hv, hmean] at hcheb
  refine le_trans (measure_mono ?_) (hcheb.trans ?_)
  · intro x hx
    simp only [Set.mem_ofPred_eq, Finset.sum_apply] at hx ⊢
    rw [← sub_div, abs_div, abs_of_pos hn0, le_div_iff₀ hn0] at hx
    linarith
  · apply ENNReal.ofReal_le_ofReal
    rw [mul_pow]
    apply le_of_eq
    field_simp

section
variable {F α β γ Thread : Type} [Scalar F] [Countable α] [MeasurableSpace α] [MeasurableSingletonClass α]
  (μ : Measure α) [IsProbabilityMeasure μ] (value : α → F)

theorem draws_oneAfterAnother {gs : List (M F γ)} (hgs : ∀ g ∈ gs, DrawsInOrder g) :
    DrawsInOrder (oneAfterAnother gs) := by
  induction gs with
  | nil => exact draws_pure _
  | cons g gs ih =>
    exact draws_bind (hgs g (by simp)) fun x => draws_bind (ih fun g' h => hgs g' (by simp [h])) fun xs =>
      draws_pure _

/-- Expected products of independent results. -/
theorem expected_product {gs : List (M F γ)} (hgs : ∀ g ∈ gs, DrawsInOrder g) (c : ℕ → γ → ENNReal) :
    expected μ value (oneAfterAnother gs) (fun xs => ∏ i : Fin xs.length, c i xs[i]) =
      ∏ i : Fin gs.length, expected μ value gs[i] (c i) := by
  induction gs generalizing c with
  | nil =>
    unfold oneAfterAnother
    rw [expected_pure]
    rfl
  | cons g gs ih =>
    have hg := hgs g (by simp)
    have hgs' : ∀ g' ∈ gs, DrawsInOrder g' := fun g' h => hgs g' (by simp [h])
    have hd := draws_oneAfterAnother hgs'
    unfold oneAfterAnother
    rw [expected_bind μ value hg fun x => draws_bind hd fun xs => draws_pure _]
    have e : ∀ x, expected μ value (oneAfterAnother gs >>= fun xs => pure (x :: xs))
        (fun xs => ∏ i : Fin xs.length, c i xs[i]) =
        c 0 x*∏ i : Fin gs.length, expected μ value gs[i] (c (i + 1)) := by
      intro x
      rw [expected_bind μ value hd fun xs => draws_pure _]
      simp only [expected_pure]
      rw [← ih hgs' (fun k => c (k + 1)), mul_comm, ← expected_mul μ value hd]
      congr 1
      funext xs
      have := Fin.prod_univ_succ (fun i : Fin (xs.length + 1) => c i (x :: xs)[i])
      refine Eq.trans this ?_
      rw [mul_comm]
      rfl
    simp only [e]
    rw [expected_mul μ value hg]
    have := Fin.prod_univ_succ (fun i : Fin (gs.length + 1) => expected μ value (g :: gs)[i] (c i))
    refine Eq.trans ?_ this.symm
    rfl

theorem chance_bind {g : M F γ} (hg : DrawsInOrder g) {sim : γ → M F β} (hs : ∀ x, DrawsInOrder (sim x))
    (A : Set β) : chance μ value (g >>= sim) A = expected μ value g (fun x => chance μ value (sim x) A) := by
  rw [chance_expected μ value (draws_bind hg hs), expected_bind μ value hg hs]
  simp only [← chance_expected μ value (hs _)]

theorem oneAfterAnother_length {gs : List (M F γ)} {t t' : Tape F} {xs : List γ}
    (h : oneAfterAnother gs t = .ok (xs, t')) : xs.length = gs.length := by
  induction gs generalizing t t' xs with
  | nil =>
    unfold oneAfterAnother at h
    obtain ⟨rfl, _⟩ := m_pure_ok.1 h
    rfl
  | cons g gs ih =>
    unfold oneAfterAnother at h
    obtain ⟨x, t1, _, h⟩ := m_bind_ok.1 h
    obtain ⟨ys, t2, h1, h⟩ := m_bind_ok.1 h
    obtain ⟨rfl, _⟩ := m_pure_ok.1 h
    simp [ih h1]

/-- **C115, independence.** Ions drawn one after the other from the stream of the main thread, then followed
by threads in any order: the results are independent, each with the distribution of an ion drawn and followed by
itself. -/
theorem C115_independent {gs : List (M F γ)} (hne : gs ≠ []) (hgs : ∀ g ∈ gs, DrawsInOrder g) {sim : γ → M F β}
    (hs : ∀ x, DrawsInOrder (sim x))
    (next : (xs : List γ) → xs ≠ [] → List (Fin xs.length × List α × β) → Thread × Fin xs.length)
    (hnext : ∀ xs hx, EachOnce (next xs hx)) (A : ℕ → Set β) :
    MeasurableSet {x : (ℕ → α) × (Thread × ℕ → α) | ∃ xs t' h, ∃ hx : xs ≠ [],
      oneAfterAnother gs (fun n => value (x.1 n)) = .ok (xs, t') ∧
      Execution value (fun i : Fin xs.length => sim xs[i]) (next xs hx) [] x.2 h ∧ ∀ e ∈ h, e.2.2 ∈ A e.1} ∧
    programStreams Thread μ {x | ∃ xs t' h, ∃ hx : xs ≠ [], oneAfterAnother gs (fun n => value (x.1 n)) = .ok (xs, t') ∧
      Execution value (fun i : Fin xs.length => sim xs[i]) (next xs hx) [] x.2 h ∧ ∀ e ∈ h, e.2.2 ∈ A e.1} =
      ∏ i : Fin gs.length, chance μ value (gs[i] >>= sim) (A i) := by
  classical
  have hd := draws_oneAfterAnother hgs
  obtain ⟨S, hS⟩ : ∃ S : List γ → Set (Thread × ℕ → α), S = fun xs => {ω | ∃ h, ∃ hx : xs ≠ [],
    Execution value (fun i : Fin xs.length => sim xs[i]) (next xs hx) [] ω h ∧ ∀ e ∈ h, e.2.2 ∈ A e.1} := ⟨_, rfl⟩
  have hS0 : S [] = ∅ := by
    rw [hS, Set.eq_empty_iff_forall_notMem]
    rintro ω ⟨h, hx, -⟩
    exact hx rfl
  have hSm : ∀ xs, xs ≠ [] → MeasurableSet (S xs) ∧ threadStreams Thread μ (S xs) =
      ∏ i : Fin xs.length, chance μ value (sim xs[i]) (A i) := by
    intro xs hx
    have e : S xs = {ω | ∃ h, Execution value (fun i : Fin xs.length => sim xs[i]) (next xs hx) [] ω h ∧
        ∀ e ∈ h, e.2.2 ∈ A e.1} := by
      rw [hS]
      ext ω
      exact ⟨fun ⟨h, _, r⟩ => ⟨h, r⟩, fun ⟨h, r⟩ => ⟨h, hx, r⟩⟩
    rw [e]
    have h1 := (execution_chance (Thread := Thread) μ value (fun i : Fin xs.length => sim xs[i])
      (fun i => hs _) (next xs hx) (hnext xs hx) (fun i => A i) xs.length [] (by simp) (by simp)
      (fun e he => by cases he)).1
    have h2 := C97_independent (Thread := Thread) μ value (fun i : Fin xs.length => sim xs[i])
      (fun i => hs _) (next xs hx) (hnext xs hx) (fun i => A i)
    exact ⟨h1, h2⟩
  obtain ⟨E, hE⟩ : ∃ E : Set ((ℕ → α) × (Thread × ℕ → α)), E = {x | ∃ xs t' h, ∃ hx : xs ≠ [],
      oneAfterAnother gs (fun n => value (x.1 n)) = .ok (xs, t') ∧
      Execution value (fun i : Fin xs.length => sim xs[i]) (next xs hx) [] x.2 h ∧ ∀ e ∈ h, e.2.2 ∈ A e.1} := ⟨_, rfl⟩
  have hEm : MeasurableSet E := by
    have e : E = ⋃ w : List α, if h : ∃ xs, DrawsAndReturns value (oneAfterAnother gs) w xs then
        {ω | BeginsWith ω w} ×ˢ S h.choose else ∅ := by
      ext x
      rw [hE]
      simp only [Set.mem_ofPred_eq, Set.mem_iUnion]
      constructor
      · rintro ⟨xs, t', h, hx, h1, h2, h3⟩
        obtain ⟨w, hw, hdw⟩ := draws_word hd h1
        refine ⟨w, ?_⟩
        have hex : ∃ xs, DrawsAndReturns value (oneAfterAnother gs) w xs := ⟨xs, hdw⟩
        rw [dif_pos hex]
        have : xs = hex.choose := (draws_unique hw hw hdw hex.choose_spec).2
        refine ⟨hw, ?_⟩
        rw [← this, hS]
        exact ⟨h, hx, h2, h3⟩
      · rintro ⟨w, hw⟩
        by_cases hex : ∃ xs, DrawsAndReturns value (oneAfterAnother gs) w xs
        · rw [dif_pos hex] at hw
          obtain ⟨h1, h2⟩ := hw
          rw [hS] at h2
          obtain ⟨h, hx, h3, h4⟩ := h2
          exact ⟨hex.choose, _, h, hx, hex.choose_spec.1 _ h1, h3, h4⟩
        · rw [dif_neg hex] at hw; cases hw
    rw [e]
    refine MeasurableSet.iUnion fun w => ?_
    by_cases hex : ∃ xs, DrawsAndReturns value (oneAfterAnother gs) w xs
    · rw [dif_pos hex]
      by_cases hx : hex.choose = []
      · rw [hx, hS0, Set.prod_empty]; exact MeasurableSet.empty
      · exact (begins_weight μ w).1.prod (hSm _ hx).1
    · rw [dif_neg hex]; exact MeasurableSet.empty
  rw [← hE]
  refine ⟨hEm, ?_⟩
  unfold programStreams
  rw [Measure.prod_apply hEm]
  have hsec : ∀ ω : ℕ → α, threadStreams Thread μ (Prod.mk ω ⁻¹' E) =
      worth value (oneAfterAnother gs) (fun xs => ∏ i : Fin xs.length, chance μ value (sim xs[i]) (A i)) ω := by
    intro ω
    unfold worth
    cases hr : oneAfterAnother gs (fun n => value (ω n)) with
    | error m =>
      have : Prod.mk ω ⁻¹' E = ∅ := by
        rw [Set.eq_empty_iff_forall_notMem]
        intro τ hτ
        rw [hE] at hτ
        obtain ⟨xs, t', h, hx, h1, _⟩ := hτ
        rw [hr] at h1
        cases h1
      rw [this, measure_empty]
    | ok r =>
      obtain ⟨xs, t'⟩ := r
      have : Prod.mk ω ⁻¹' E = S xs := by
        ext τ
        rw [hE, hS]
        simp only [Set.mem_preimage, Set.mem_ofPred_eq]
        constructor
        · rintro ⟨ys, t2, h, hx, h1, h2, h3⟩
          rw [hr] at h1
          injection h1 with h1
          injection h1 with h1 _
          subst h1
          exact ⟨h, hx, h2, h3⟩
        · rintro ⟨h, hx, h2, h3⟩
          exact ⟨xs, t', h, hx, hr, h2, h3⟩
      have hx : xs ≠ [] := by
        rintro rfl
        exact hne (List.eq_nil_of_length_eq_zero (oneAfterAnother_length hr).symm)
      rw [this, (hSm xs hx).2]
  simp only [hsec]
  refine (expected_product μ value hgs fun i x => chance μ value (sim x) (A i)).trans ?_
  exact Finset.prod_congr rfl fun i _ => (chance_bind μ value (hgs _ (List.getElem_mem _)) hs _).symm

/-- **C115, the joint distribution.** The counts of ions drawn one after the other and then followed by
threads in any order are distributed as independent counts, that of each ion as if it were drawn and followed by
itself. -/
theorem C115_joint_distribution {gs : List (M F γ)} (hne : gs ≠ []) (hgs : ∀ g ∈ gs, DrawsInOrder g) {sim : γ → M F β}
    (hs : ∀ x, DrawsInOrder (sim x)) (f : β → ℕ)
    (h0 : ∀ i : Fin gs.length, chance μ value (gs[i] >>= sim) Set.univ ≠ 0)
    (next : (xs : List γ) → xs ≠ [] → List (Fin xs.length × List α × β) → Thread × Fin xs.length)
    (hnext : ∀ xs hx, EachOnce (next xs hx)) (B : Set (Fin gs.length → ℕ)) :
    programStreams Thread μ {ω | ∃ xs t' h x, ∃ hx : xs ≠ [], oneAfterAnother gs (fun n => value (ω.1 n)) = .ok (xs, t') ∧
      Execution value (fun i : Fin xs.length => sim xs[i]) (next xs hx) [] ω.2 h ∧
      (∀ e ∈ h, ∃ hk : e.1.1 < gs.length, f e.2.2 = x ⟨e.1.1, hk⟩) ∧ x ∈ B} =
      (∏ i : Fin gs.length, chance μ value (gs[i] >>= sim) Set.univ)*
        Measure.pi (fun i : Fin gs.length => countLaw μ value (gs[i] >>= sim) f) B := by
  classical
  have hm : ∀ i : Fin gs.length, DrawsInOrder (gs[i] >>= sim) := fun i =>
    draws_bind (hgs _ (List.getElem_mem _)) hs
  have := fun i => countLaw_prob μ value (hm i) f (h0 i)
  have hr : ∀ i : Fin gs.length, chance μ value (gs[i] >>= sim) Set.univ ≠ ⊤ := fun i =>
    ((chance_le_one μ value (gs[i] >>= sim) _).trans_lt ENNReal.one_lt_top).ne
  obtain ⟨E, hE⟩ : ∃ E : (Fin gs.length → ℕ) → Set ((ℕ → α) × (Thread × ℕ → α)), E = fun x =>
    {ω | ∃ xs t' h, ∃ hx : xs ≠ [], oneAfterAnother gs (fun n => value (ω.1 n)) = .ok (xs, t') ∧
      Execution value (fun i : Fin xs.length => sim xs[i]) (next xs hx) [] ω.2 h ∧
      ∀ e ∈ h, e.2.2 ∈ (fun k => {b | ∃ hk : k < gs.length, f b = x ⟨k, hk⟩}) e.1.1} := ⟨_, rfl⟩
  have hEm : ∀ x, MeasurableSet (E x) ∧ programStreams Thread μ (E x) =
      (∏ i : Fin gs.length, chance μ value (gs[i] >>= sim) Set.univ)*
        Measure.pi (fun i : Fin gs.length => countLaw μ value (gs[i] >>= sim) f) {x} := by
    intro x
    obtain ⟨h1, h2⟩ := C115_independent (Thread := Thread) μ value hne hgs hs next hnext
      (fun k => {b | ∃ hk : k < gs.length, f b = x ⟨k, hk⟩})
    rw [hE]
    refine ⟨h1, h2.trans ?_⟩
    rw [← Set.univ_pi_singleton, Measure.pi_pi]
    simp only [countLaw_singleton]
    have : ∀ i : Fin gs.length, chance μ value (gs[i] >>= sim) {b | ∃ hk : i.1 < gs.length, f b = x ⟨i.1, hk⟩} =
        chance μ value (gs[i] >>= sim) Set.univ*
          (chance μ value (gs[i] >>= sim) {b | f b = x i}/chance μ value (gs[i] >>= sim) Set.univ) := fun i => by
      rw [ENNReal.mul_div_cancel (h0 i) (hr i)]
      congr 1
      ext b
      exact ⟨fun ⟨_, h⟩ => h, fun h => ⟨i.2, h⟩⟩
    rw [Finset.prod_congr rfl fun i _ => this i, Finset.prod_mul_distrib]
  have e : {ω : (ℕ → α) × (Thread × ℕ → α) | ∃ xs t' h x, ∃ hx : xs ≠ [], oneAfterAnother gs (fun n => value (ω.1 n)) = .ok (xs, t') ∧
      Execution value (fun i : Fin xs.length => sim xs[i]) (next xs hx) [] ω.2 h ∧
      (∀ e ∈ h, ∃ hk : e.1.1 < gs.length, f e.2.2 = x ⟨e.1.1, hk⟩) ∧ x ∈ B} = ⋃ x : B, E x := by
    ext ω
    rw [hE]
    simp only [Set.mem_ofPred_eq, Set.mem_iUnion, Subtype.exists]
    constructor
    · rintro ⟨xs, t', h, x, hx, h1, h2, h3, h4⟩
      exact ⟨x, h4, xs, t', h, hx, h1, h2, h3⟩
    · rintro ⟨x, h4, xs, t', h, hx, h1, h2, h3⟩
      exact ⟨xs, t', h, x, hx, h1, h2, h3, h4⟩
  rw [e, measure_iUnion (f := fun x : B => E x) ?_ fun x => (hEm x).1]
  · rw [tsum_congr fun x : B => (hEm x).2, ENNReal.tsum_mul_left]
    congr 1
    rw [← measure_biUnion B.to_countable (fun x _ y _ hne => Set.disjoint_singleton.2 hne)
      fun x _ => measurableSet_singleton x, Set.biUnion_of_singleton]
  · intro x y hne
    refine Set.disjoint_left.2 fun ω h1 h2 => hne ?_
    rw [hE] at h1 h2
    obtain ⟨xs, t1, h, hx, a1, r1, f1⟩ := h1
    obtain ⟨ys, t2, h', hx', a2, r2, f2⟩ := h2
    rw [a1] at a2
    injection a2 with a2
    injection a2 with a2 _
    subst a2
    obtain rfl := execution_unique r1 r2
    obtain ⟨_, hall, _⟩ := execution_all (hnext xs hx) r1 (by simp) (fun e he => by cases he)
    have hlen := oneAfterAnother_length a1
    apply Subtype.ext
    funext i
    obtain ⟨e, he, hei⟩ := List.mem_map.1 (hall ⟨i.1, by rw [hlen]; exact i.2⟩)
    have hv : e.1.1 = i.1 := congrArg Fin.val hei
    obtain ⟨k1, g1⟩ := f1 e he
    obtain ⟨k2, g2⟩ := f2 e he
    have hi : (⟨e.1.1, k1⟩ : Fin gs.length) = i := Fin.ext hv
    rw [hi] at g1 g2
    exact g1.symm.trans g2

/-- **C115, the statistical error.** The average of the counts of `n` ions, drawn one after the other and then followed
by threads in any order, is off the average of the counts expected of an ion drawn and followed by itself by
`ε` or more with probability at most the average variance over `nε²`. -/
theorem C115_statistical_error {gs : List (M F γ)} (hne : gs ≠ []) (hgs : ∀ g ∈ gs, DrawsInOrder g)
    {sim : γ → M F β} (hs : ∀ x, DrawsInOrder (sim x)) (f : β → ℕ)
    (hvar : ∀ i : Fin gs.length, MemLp (fun k : ℕ => (k : ℝ)) 2 (countLaw μ value (gs[i] >>= sim) f))
    (next : (xs : List γ) → xs ≠ [] → List (Fin xs.length × List α × β) → Thread × Fin xs.length)
    (hnext : ∀ xs hx, EachOnce (next xs hx)) (ε : ℝ) (hε : 0 < ε) :
    programStreams Thread μ {ω | ∃ xs t' h, ∃ hx : xs ≠ [], oneAfterAnother gs (fun n => value (ω.1 n)) = .ok (xs, t') ∧
      Execution value (fun i : Fin xs.length => sim xs[i]) (next xs hx) [] ω.2 h ∧
      ε ≤ |((h.map fun e => f e.2.2).sum : ℝ)/gs.length -
        (∑ i : Fin gs.length, expectedCount μ value (gs[i] >>= sim) f)/gs.length|} ≤
      ENNReal.ofReal ((∑ i : Fin gs.length, countVariance μ value (gs[i] >>= sim) f)/gs.length/(gs.length*ε^2)) := by
  classical
  have hn : 0 < gs.length := List.length_pos_of_ne_nil hne
  have hn0 : (0:ℝ) < gs.length := by exact_mod_cast hn
  have hm : ∀ i : Fin gs.length, DrawsInOrder (gs[i] >>= sim) := fun i =>
    draws_bind (hgs _ (List.getElem_mem _)) hs
  by_cases h0 : ∃ i : Fin gs.length, chance μ value (gs[i] >>= sim) Set.univ = 0
  · obtain ⟨i, hi⟩ := h0
    have hz := (C115_independent (Thread := Thread) μ value hne hgs hs next hnext (fun _ => Set.univ)).2
    rw [Finset.prod_eq_zero (Finset.mem_univ i) hi] at hz
    refine le_trans (measure_mono ?_) (hz.le.trans bot_le)
    rintro ω ⟨xs, t', h, hx, h1, h2, _⟩
    exact ⟨xs, t', h, hx, h1, h2, fun _ _ => trivial⟩
  · have h0' : ∀ i : Fin gs.length, chance μ value (gs[i] >>= sim) Set.univ ≠ 0 := fun i hi => h0 ⟨i, hi⟩
    have hlaw := fun i => countLaw_prob μ value (hm i) f (h0' i)
    obtain ⟨S, hS⟩ : ∃ S, S = ∑ i : Fin gs.length, expectedCount μ value (gs[i] >>= sim) f := ⟨_, rfl⟩
    rw [← hS]
    have hjoint := C115_joint_distribution (Thread := Thread) μ value hne hgs hs f h0' next hnext
      {x | ε ≤ |(∑ i, (x i : ℝ))/gs.length - S/gs.length|}
    refine le_trans (measure_mono (t := {ω | ∃ xs t' h x, ∃ hx : xs ≠ [], oneAfterAnother gs (fun n => value (ω.1 n)) = .ok (xs, t') ∧
      Execution value (fun i : Fin xs.length => sim xs[i]) (next xs hx) [] ω.2 h ∧
      (∀ e ∈ h, ∃ hk : e.1.1 < gs.length, f e.2.2 = x ⟨e.1.1, hk⟩) ∧
      x ∈ {x : Fin gs.length → ℕ | ε ≤ |(∑ i, (x i : ℝ))/gs.length - S/gs.length|}}) ?_) ?_
    · rintro ω ⟨xs, t', h, hx, h1, h2, h3⟩
      have hlen := oneAfterAnother_length h1
      obtain ⟨hnd, hall, _⟩ := execution_all (hnext xs hx) h2 (by simp) (fun e he => by cases he)
      have hex : ∃ x : Fin xs.length → ℕ, ∀ e ∈ h, f e.2.2 = x e.1 := by
        have hch : ∀ i : Fin xs.length, ∃ e ∈ h, e.1 = i := fun i => List.mem_map.1 (hall i)
        choose c hc1 hc2 using hch
        refine ⟨fun i => f (c i).2.2, fun e he => ?_⟩
        have : c e.1 = e := List.inj_on_of_nodup_map hnd (hc1 _) he (hc2 _)
        show f e.2.2 = f (c e.1).2.2
        rw [this]
      obtain ⟨x, hxe⟩ := hex
      refine ⟨xs, t', h, fun i => x (Fin.cast hlen.symm i), hx, h1, h2, fun e he => ?_, ?_⟩
      · exact ⟨hlen ▸ e.1.2, hxe e he⟩
      · have hs := execution_sum (hnext xs hx) h2 x f hxe
        show ε ≤ |(∑ i, (x (Fin.cast hlen.symm i) : ℝ))/gs.length - S/gs.length|
        have e1 : (∑ i, (x (Fin.cast hlen.symm i) : ℝ)) = ∑ i, (x i : ℝ) :=
          Fintype.sum_equiv (finCongr hlen.symm) _ _ fun i => rfl
        rw [e1, show (∑ i, (x i : ℝ)) = ((∑ i, x i : ℕ) : ℝ) by push_cast; rfl, ← hs]
        push_cast at h3 ⊢
        exact h3
    rw [hjoint]
    have hle1 : (∏ i : Fin gs.length, chance μ value (gs[i] >>= sim) Set.univ) ≤ 1 :=
      Finset.prod_le_one' fun i _ => chance_le_one μ value (gs[i] >>= sim) _
    refine (mul_le_mul_left hle1 _).trans ?_
    rw [one_mul]
    obtain ⟨ν, hν⟩ : ∃ ν : Fin gs.length → Measure ℕ, ν = fun i => countLaw μ value (gs[i] >>= sim) f := ⟨_, rfl⟩
    have hprob : ∀ i, IsProbabilityMeasure (ν i) := by rw [hν]; exact hlaw
    have hvar' : ∀ i, MemLp (fun k : ℕ => (k : ℝ)) 2 (ν i) := by rw [hν]; exact hvar
    have hcheb := chebyshev_counts hn hvar' ε hε
    have e1 : S = ∑ i, ∫ k : ℕ, (k : ℝ) ∂ν i := by rw [hS, hν]; rfl
    have e2 : (∑ i : Fin gs.length, countVariance μ value (gs[i] >>= sim) f) =
        ∑ i, variance (fun k : ℕ => (k : ℝ)) (ν i) := by rw [hν]; rfl
    rw [e1, e2, ← hν]
    exact hcheb

end

section beam
variable {F : Type} [Scalar F]

theorem oneAfterAnother_append {γ : Type} {as bs : List (M F γ)} {t t1 t2 : Tape F} {xs ys : List γ}
    (h1 : oneAfterAnother as t = .ok (xs, t1)) (h2 : oneAfterAnother bs t1 = .ok (ys, t2)) :
    oneAfterAnother (as ++ bs) t = .ok (xs ++ ys, t2) := by
  induction as generalizing t xs with
  | nil =>
    unfold oneAfterAnother at h1
    obtain ⟨rfl, rfl⟩ := m_pure_ok.1 h1
    exact h2
  | cons a as ih =>
    unfold oneAfterAnother at h1
    obtain ⟨x, t3, h3, h1⟩ := m_bind_ok.1 h1
    obtain ⟨zs, t4, h4, h1⟩ := m_bind_ok.1 h1
    obtain ⟨rfl, rfl⟩ := m_pure_ok.1 h1
    show oneAfterAnother (a :: (as ++ bs)) t = _
    unfold oneAfterAnother
    exact m_bind_ok.2 ⟨x, t3, h3, m_bind_ok.2 ⟨zs ++ ys, t2, ih h4, rfl⟩⟩

/-- Collecting the results of the same computation. -/
theorem oneAfterAnother_collectN {γ : Type} {g g' : M F γ} (hg : ∀ t x t', g t = .ok (x, t') → g' t = .ok (x, t'))
    {n : ℕ} {t t' : Tape F} {xs : List γ} (h : collectN (fun _ => g) n t = .ok (xs, t')) :
    oneAfterAnother (List.replicate n g') t = .ok (xs, t') := by
  induction n generalizing t' xs with
  | zero =>
    unfold collectN at h
    obtain ⟨rfl, rfl⟩ := m_pure_ok.1 h
    rfl
  | succ n ih =>
    unfold collectN at h
    obtain ⟨ys, t1, h1, h⟩ := m_bind_ok.1 h
    obtain ⟨x, t2, h2, h⟩ := m_bind_ok.1 h
    obtain ⟨rfl, rfl⟩ := m_pure_ok.1 h
    rw [List.replicate_succ']
    refine oneAfterAnother_append (ih h1) ?_
    unfold oneAfterAnother
    exact m_bind_ok.2 ⟨x, _, hg _ _ _ h2, m_bind_ok.2 ⟨[], _, rfl, rfl⟩⟩

theorem vget_lift {γ : Type} {l : List γ} {i : ℕ} {t t' : Tape F} {x : γ}
    (h : (liftM (vget l i) : M F γ) t = .ok (x, t')) : l[i]? = some x ∧ t' = t := by
  obtain ⟨h, rfl⟩ := m_lift_ok.1 h
  unfold vget at h
  cases hl : l[i]? with
  | none => rw [hl] at h; cases h
  | some y =>
    rw [hl] at h
    injection h with h
    exact ⟨by rw [h], rfl⟩

theorem vget_lift_ok {γ : Type} {l : List γ} {i : ℕ} (t : Tape F) {x : γ}
    (h : l[i]? = some x) : (liftM (vget l i) : M F γ) t = .ok (x, t) := by
  refine m_lift_ok.2 ⟨?_, rfl⟩
  unfold vget
  rw [h]

/-- A loop that appends what it draws. -/
theorem oneAfterAnother_fold {γ : Type} {body : List γ → ℕ → M F (List γ)} {gs : ℕ → List (M F γ)}
    (hb : ∀ acc i t acc' t', body acc i t = .ok (acc', t') → ∃ zs, acc' = acc ++ zs ∧
      oneAfterAnother (gs i) t = .ok (zs, t')) (l : List ℕ) :
    ∀ acc t xs t', forFold body l acc t = .ok (xs, t') → ∃ ys, xs = acc ++ ys ∧
      oneAfterAnother (l.map gs).flatten t = .ok (ys, t') := by
  induction l with
  | nil =>
    intro acc t xs t' h
    unfold forFold at h
    obtain ⟨rfl, rfl⟩ := m_pure_ok.1 h
    exact ⟨[], by simp, rfl⟩
  | cons i l ih =>
    intro acc t xs t' h
    unfold forFold at h
    obtain ⟨acc', t1, h1, h⟩ := m_bind_ok.1 h
    obtain ⟨ys, rfl, h2⟩ := ih _ _ _ _ h
    obtain ⟨zs, rfl, h3⟩ := hb _ _ _ _ _ h1
    refine ⟨zs ++ ys, by simp, ?_⟩
    rw [List.map_cons, List.flatten_cons]
    exact oneAfterAnother_append h3 h2

/-- The ions of the input file are those of the beam, drawn one after the other. -/
theorem inputs_beam {sampler : Sampler F} {lu eu mu : F} {p : ParticleParameters F} {t t' : Tape F}
    {xs : List (ParticleInput F)} (h : make_particle_inputs sampler lu eu mu p t = .ok (xs, t')) :
    oneAfterAnother (beam sampler lu eu mu p) t = .ok (xs, t') := by
  unfold make_particle_inputs at h
  unfold beam
  have key := fun hb => oneAfterAnother_fold
      (gs := fun i => List.replicate (p.N.getD i 0) (drawIon sampler lu eu mu p i)) hb _ _ _ _ _ h
  have key2 := key ?_
  · obtain ⟨ys, e, h2⟩ := key2
    rw [List.nil_append] at e
    rw [e]
    exact h2
  clear key
  intro acc i t acc' t' h1
  obtain ⟨N, _, v0, a0⟩ := m_bind_ok.1 h1
  obtain ⟨e0, rfl⟩ := vget_lift v0
  obtain ⟨m, _, v1, a1⟩ := m_bind_ok.1 a0
  obtain ⟨e1, rfl⟩ := vget_lift v1
  obtain ⟨Z, _, v2, a2⟩ := m_bind_ok.1 a1
  obtain ⟨e2, rfl⟩ := vget_lift v2
  obtain ⟨E, _, v3, a3⟩ := m_bind_ok.1 a2
  obtain ⟨e3, rfl⟩ := vget_lift v3
  obtain ⟨Ec, _, v4, a4⟩ := m_bind_ok.1 a3
  obtain ⟨e4, rfl⟩ := vget_lift v4
  obtain ⟨Es, _, v5, a5⟩ := m_bind_ok.1 a4
  obtain ⟨e5, rfl⟩ := vget_lift v5
  obtain ⟨ii, _, v6, a6⟩ := m_bind_ok.1 a5
  obtain ⟨e6, rfl⟩ := vget_lift v6
  obtain ⟨pos, _, v7, a7⟩ := m_bind_ok.1 a6
  obtain ⟨e7, rfl⟩ := vget_lift v7
  obtain ⟨dir, _, v8, a8⟩ := m_bind_ok.1 a7
  obtain ⟨e8, rfl⟩ := vget_lift v8
  obtain ⟨zs, t2, h3, a9⟩ := m_bind_ok.1 a8
  obtain ⟨rfl, rfl⟩ := m_pure_ok.1 a9
  refine ⟨zs, rfl, ?_⟩
  have e : p.N.getD i 0 = N := by rw [List.getD_eq_getElem?_getD, e0]; rfl
  rw [e]
  refine oneAfterAnother_collectN (fun s x s' hx => ?_) h3
  unfold drawIon
  exact m_bind_ok.2 ⟨_, _, vget_lift_ok _ e1, m_bind_ok.2 ⟨_, _, vget_lift_ok _ e2, m_bind_ok.2 ⟨_, _, vget_lift_ok _ e3,
    m_bind_ok.2 ⟨_, _, vget_lift_ok _ e4, m_bind_ok.2 ⟨_, _, vget_lift_ok _ e5, m_bind_ok.2 ⟨_, _, vget_lift_ok _ e6,
    m_bind_ok.2 ⟨_, _, vget_lift_ok _ e7, m_bind_ok.2 ⟨_, _, vget_lift_ok _ e8, hx⟩⟩⟩⟩⟩⟩⟩⟩

theorem draws_draw {sampler : Sampler F} (hs : SamplesInOrder sampler) (u : F) (d : Distr F) :
    DrawsInOrder (draw sampler u d) := by
  cases d with
  | UNIFORM a b => exact draws_bind (hs.uniform a b) fun _ => draws_pure _
  | NORMAL a b => exact draws_bind (hs.normal a b) fun _ => draws_pure _
  | POINT x => exact draws_pure _

theorem draws_draw_ux {sampler : Sampler F} (hs : SamplesInOrder sampler) (u : F) (d : Distr F) :
    DrawsInOrder (draw_ux sampler u d) := by
  cases d with
  | UNIFORM a b => exact draws_draw hs u (.UNIFORM a b)
  | NORMAL a b => exact draws_draw hs u (.NORMAL a b)
  | POINT x => exact draws_bind (draws_lift _) fun _ => draws_pure _

theorem draws_beam {sampler : Sampler F} (hs : SamplesInOrder sampler) (lu eu mu : F) (p : ParticleParameters F) :
    ∀ g ∈ beam sampler lu eu mu p, DrawsInOrder g := by
  intro g hg
  unfold beam at hg
  obtain ⟨l, hl, hg⟩ := List.mem_flatten.1 hg
  obtain ⟨i, -, rfl⟩ := List.mem_map.1 hl
  rw [List.eq_of_mem_replicate hg]
  unfold drawIon make_particle_input
  exact draws_bind (draws_lift _) fun _ => draws_bind (draws_lift _) fun _ => draws_bind (draws_lift _) fun _ =>
    draws_bind (draws_lift _) fun _ => draws_bind (draws_lift _) fun _ => draws_bind (draws_lift _) fun _ =>
    draws_bind (draws_lift _) fun _ => draws_bind (draws_lift _) fun _ =>
    draws_bind (draws_draw hs _ _) fun _ => draws_bind (draws_draw hs _ _) fun _ =>
    draws_bind (draws_draw hs _ _) fun _ => draws_bind (draws_draw hs _ _) fun _ =>
    draws_bind (draws_draw_ux hs _ _) fun _ => draws_bind (draws_draw hs _ _) fun _ =>
    draws_bind (draws_draw hs _ _) fun _ => draws_pure _

/-- Whatever the random numbers, the target, the options and the units are the same. -/
theorem input_fixed {ext : Ext F} {sampler : Sampler F} {cpr : Bool} {o : Options F} {material : Res (Material F)}
    {p p' : ParticleParameters F} {t t' u u' : Tape F} {acc acc' : Accepted F}
    (h : input ext sampler cpr o material p t = .ok (acc, t')) (h' : input ext sampler cpr o material p u = .ok (acc', u'))
    (hp : complete_particles p = .ok p') :
    acc'.material = acc.material ∧ acc'.options = o ∧ oneAfterAnother (beam sampler acc.output_units.length_unit
      acc.output_units.energy_unit acc.output_units.mass_unit p') u = .ok (acc'.particle_input_array, u') := by
  obtain ⟨m0, p1, mi, pi, F1⟩ := input_facts h
  obtain ⟨m0', p2, mi', pi', F2⟩ := input_facts h'
  have ep1 : p1 = p' := Except.ok.inj (F1.hp.symm.trans hp)
  have ep2 : p2 = p' := Except.ok.inj (F2.hp.symm.trans hp)
  have em : m0 = m0' := Except.ok.inj (F1.hm0.symm.trans F2.hm0)
  subst ep1 ep2 em
  have e1 := Except.ok.inj (F1.hm.symm.trans F2.hm)
  have e2 := Except.ok.inj (F1.lu.symm.trans F2.lu)
  have e3 := Except.ok.inj (F1.eu.symm.trans F2.eu)
  have e4 := Except.ok.inj (F1.mu.symm.trans F2.mu)
  refine ⟨e1.symm, F2.opts, ?_⟩
  rw [e2, e3, e4]
  exact inputs_beam F2.arr

end beam

section run
variable {F α Thread : Type} [Scalar F] [Countable α] [MeasurableSpace α] [MeasurableSingletonClass α]
  (μ : Measure α) [IsProbabilityMeasure μ] (value : α → F)

/-- **C115, a run.** The input file asks for a beam (energies, places and directions drawn from
distributions); `acc₀` is what it is read as on some stream of random numbers.  Whatever is counted among the
particles of a run (`P`), per ion, differs from the average number expected of an ion drawn from the beam and
followed by itself by `ε` or more with probability at most the average variance (which is finite) over
`nε²`, whatever the threads, their order of work, the chunks and the output options. -/
theorem C115_run (rcpr : Rcpr F) (fuel : ℕ) (cfg : OutputConfig F) (splits : List Split)
    {ext : Ext F} {sampler : Sampler F} (hs : SamplesInOrder sampler) {cpr : Bool} {o : Options F}
    {material : Res (Material F)} {p p' : ParticleParameters F} (hp : complete_particles p = .ok p')
    {t₀ t₀' : Tape F} {acc₀ : Accepted F} (hacc : input ext sampler cpr o material p t₀ = .ok (acc₀, t₀'))
    {gs : List (M F (ParticleInput F))}
    (hgs : gs = beam sampler acc₀.output_units.length_unit acc₀.output_units.energy_unit acc₀.output_units.mass_unit p')
    (hne : gs ≠ []) (P : Particle F → Prop)
    (next : (inputs : List (ParticleInput F)) → inputs ≠ [] → List (Fin inputs.length × List α × List (Particle F)) →
      Thread × Fin inputs.length) (hnext : ∀ inputs hi, EachOnce (next inputs hi)) (ε : ℝ) (hε : 0 < ε) :
    (∀ i : Fin gs.length, MemLp (fun k : ℕ => (k : ℝ)) 2
      (countLaw μ value (drawnAndFollowed rcpr fuel acc₀.material o gs[i]) (howMany P))) ∧
    programStreams Thread μ {ω | ∃ acc t' h tapes s, ∃ hi : acc.particle_input_array ≠ [],
        input ext sampler cpr o material p (fun n => value (ω.1 n)) = .ok (acc, t') ∧
        Execution value (fun i => simulation rcpr fuel acc.material acc.options acc.particle_input_array[i])
          (next acc.particle_input_array hi) [] ω.2 h ∧ Given value h tapes ∧
        physics_loop_run rcpr fuel cfg acc.material acc.options splits tapes acc.particle_input_array = .ok s ∧
        ε ≤ |(howMany P s.processed : ℝ)/gs.length -
          (∑ i : Fin gs.length, expectedCount μ value
            (drawnAndFollowed rcpr fuel acc₀.material o gs[i]) (howMany P))/gs.length|} ≤
      ENNReal.ofReal ((∑ i : Fin gs.length, countVariance μ value
          (drawnAndFollowed rcpr fuel acc₀.material o gs[i]) (howMany P))/gs.length/(gs.length*ε^2)) := by
  have hd : ∀ g ∈ gs, DrawsInOrder g := by rw [hgs]; exact draws_beam hs _ _ _ _
  have hsim : ∀ x, DrawsInOrder (simulation rcpr fuel acc₀.material o x) := draws_simulation rcpr fuel _ o
  have hvar : ∀ i : Fin gs.length, MemLp (fun k : ℕ => (k : ℝ)) 2
      (countLaw μ value (gs[i] >>= simulation rcpr fuel acc₀.material o) (howMany P)) := by
    intro i
    refine bounded_law μ value (draws_bind (hd _ (List.getElem_mem _)) hsim) (howMany P) fuel ?_
    intro t out t' h
    refine List.countP_le_length.trans ?_
    obtain ⟨inp, t1, -, h⟩ := m_bind_ok.1 h
    unfold simulation at h
    obtain ⟨ion, t1, -, h⟩ := m_bind_ok.1 h
    exact cascade_length _ _ _ _ _ h
  refine ⟨hvar, ?_⟩
  refine (measure_mono ?_).trans (C115_statistical_error (Thread := Thread) μ value hne hd hsim (howMany P) hvar
    next hnext ε hε)
  rintro ω ⟨acc, t', h, tapes, s, hi, h0, h1, h2, h3, h4⟩
  obtain ⟨e1, e2, e3⟩ := input_fixed hacc h0 hp
  rw [← hgs] at e3
  refine ⟨acc.particle_input_array, t', h, hi, e3, ?_, ?_⟩
  · rw [← e1, ← e2]
    exact h1
  · rw [run_sum value (hnext _ hi) h1 h2 h3 P]
    exact h4

/-- **C115, the reflected fraction.** In summary.output the sum of the column of reflected ions, over
the number of ions, differs from the beam's average probability of being reflected (among the cascades
that end) by `ε` or more with probability at most `1/(4nε²)`. -/
theorem C115_reflected (rcpr : Rcpr F) (fuel : ℕ) (cfg : OutputConfig F) (splits : List Split)
    {ext : Ext F} {sampler : Sampler F} (hs : SamplesInOrder sampler) {cpr : Bool} {o : Options F}
    {material : Res (Material F)} {p p' : ParticleParameters F} (hp : complete_particles p = .ok p')
    {t₀ t₀' : Tape F} {acc₀ : Accepted F} (hacc : input ext sampler cpr o material p t₀ = .ok (acc₀, t₀'))
    {gs : List (M F (ParticleInput F))}
    (hgs : gs = beam sampler acc₀.output_units.length_unit acc₀.output_units.energy_unit acc₀.output_units.mass_unit p')
    (hne : gs ≠ [])
    (next : (inputs : List (ParticleInput F)) → inputs ≠ [] → List (Fin inputs.length × List α × List (Particle F)) →
      Thread × Fin inputs.length) (hnext : ∀ inputs hi, EachOnce (next inputs hi)) (ε : ℝ) (hε : 0 < ε) :
    programStreams Thread μ {ω | ∃ acc t' h tapes s, ∃ hi : acc.particle_input_array ≠ [],
        input ext sampler cpr o material p (fun n => value (ω.1 n)) = .ok (acc, t') ∧
        Execution value (fun i => simulation rcpr fuel acc.material acc.options acc.particle_input_array[i])
          (next acc.particle_input_array hi) [] ω.2 h ∧ Given value h tapes ∧
        physics_loop_run rcpr fuel cfg acc.material acc.options splits tapes acc.particle_input_array = .ok s ∧
        ε ≤ |((columnSums (s.summary.rows cfg.units)).1 : ℝ)/gs.length -
          (∑ i : Fin gs.length,
            (chance μ value (drawnAndFollowed rcpr fuel acc₀.material o gs[i])
              {out | ∃ q ∈ out, q.incident = true ∧ q.left = true}/
              chance μ value (drawnAndFollowed rcpr fuel acc₀.material o gs[i]) Set.univ).toReal)/gs.length|} ≤
      ENNReal.ofReal (1/(4*gs.length*ε^2)) := by
  classical
  obtain ⟨P, hP⟩ : ∃ P : Particle F → Prop, P = fun q => q.incident = true ∧ q.left = true := ⟨_, rfl⟩
  have hn0 : (0:ℝ) < gs.length := by exact_mod_cast List.length_pos_of_ne_nil hne
  have hd : ∀ g ∈ gs, DrawsInOrder g := by rw [hgs]; exact draws_beam hs _ _ _ _
  obtain ⟨prog, hprog⟩ : ∃ prog : Fin gs.length → M F (List (Particle F)),
    prog = fun i => drawnAndFollowed rcpr fuel acc₀.material o gs[i] := ⟨_, rfl⟩
  have hone : ∀ (i : Fin gs.length) t out t', prog i t = .ok (out, t') → howMany P out ≤ 1 := by
    intro i t out t' h
    rw [hprog] at h
    obtain ⟨inp, t1, -, h⟩ := m_bind_ok.1 h
    rw [← (run_ion_incident (simulation_run h)).1]
    unfold howMany
    refine List.countP_mono_left fun q _ hq => ?_
    have := of_decide_eq_true hq
    rw [hP] at this
    exact this.1
  have hdp : ∀ i, DrawsInOrder (prog i) := by
    rw [hprog]
    exact fun i => draws_bind (hd _ (List.getElem_mem _)) (draws_simulation rcpr fuel _ o)
  have hlaw := fun i => binary_law μ value (hdp i) (howMany P) (hone i)
  have hset : ∀ i, chance μ value (prog i) {b | howMany P b = 1} =
      chance μ value (prog i) {out | ∃ q ∈ out, q.incident = true ∧ q.left = true} := by
    intro i
    unfold chance
    congr 1
    ext ω
    simp only [Set.mem_ofPred_eq]
    constructor
    · rintro ⟨b, t', hb, hc⟩
      refine ⟨b, t', hb, ?_⟩
      have : 0 < howMany P b := by omega
      unfold howMany at this
      rw [List.countP_pos_iff] at this
      obtain ⟨q, hq, hd⟩ := this
      have := of_decide_eq_true hd
      rw [hP] at this
      exact ⟨q, hq, this⟩
    · rintro ⟨b, t', hb, q, hq, hr⟩
      refine ⟨b, t', hb, ?_⟩
      have h5 := hone i _ _ _ hb
      have : 0 < howMany P b := by
        unfold howMany
        rw [List.countP_pos_iff]
        exact ⟨q, hq, decide_eq_true (by rw [hP]; exact hr)⟩
      omega
  have hmain := (C115_run (Thread := Thread) μ value rcpr fuel cfg splits hs hp hacc hgs hne P next hnext ε hε).2
  have e1 : (∑ i : Fin gs.length, expectedCount μ value
      (drawnAndFollowed rcpr fuel acc₀.material o gs[i]) (howMany P)) =
      ∑ i : Fin gs.length, (chance μ value (drawnAndFollowed rcpr fuel acc₀.material o gs[i])
              {out | ∃ q ∈ out, q.incident = true ∧ q.left = true}/
              chance μ value (drawnAndFollowed rcpr fuel acc₀.material o gs[i]) Set.univ).toReal := by
    refine Finset.sum_congr rfl fun i _ => ?_
    have := (hlaw i).2.2
    rw [hset i, hprog] at this
    exact this
  rw [e1] at hmain
  refine (measure_mono ?_).trans (hmain.trans ?_)
  · rintro ω ⟨acc, t', h, tapes, s, hi, h0, h1, h2, h3, h4⟩
    refine ⟨acc, t', h, tapes, s, hi, h0, h1, h2, h3, ?_⟩
    obtain ⟨refl, sput, dep, e, -, -, e2, -⟩ := C49_summary_balances h3
    have hcount : howMany P s.processed = refl := by
      rw [e2]
      unfold howMany
      refine List.countP_congr fun q _ => ?_
      rw [hP]
      simp
    rw [e] at h4
    rw [hcount]
    exact h4
  · apply ENNReal.ofReal_le_ofReal
    have e2 : (∑ i : Fin gs.length, countVariance μ value
        (drawnAndFollowed rcpr fuel acc₀.material o gs[i]) (howMany P)) = ∑ i, countVariance μ value (prog i) (howMany P) := by
      rw [hprog]
    rw [e2]
    have hle : (∑ i, countVariance μ value (prog i) (howMany P)) ≤ gs.length*(1/4) := by
      refine (Finset.sum_le_sum fun i _ => (hlaw i).2.1).trans ?_
      rw [Finset.sum_const, Finset.card_univ, Fintype.card_fin, nsmul_eq_mul]
    have h1 : (∑ i, countVariance μ value (prog i) (howMany P))/gs.length ≤ 1/4 := by
      rw [div_le_iff₀ hn0]; linarith
    refine (div_le_div_of_nonneg_right h1 (by positivity)).trans (le_of_eq ?_)
    field_simp

end run
end RustBCA
