import Verif.Spec.Independent
import Mathlib.Tactic.Linarith

/-!
# Streams of independent outcomes: what follows a word is again independent
-/

namespace RustBCA
open Spec MeasureTheory Measure

section
variable {F α β Thread : Type} [MeasurableSpace α] [MeasurableSingletonClass α]
  (μ : Measure α) [IsProbabilityMeasure μ]

instance : IsProbabilityMeasure (threadStreams Thread μ) := by unfold threadStreams; infer_instance

open Classical in
theorem measurable_drawn (j : Thread) (k : ℕ) : Measurable (drawn (α := α) j k) := by
  unfold drawn
  refine measurable_pi_lambda _ fun x => ?_
  by_cases h : x.1 = j
  · simp only [h, if_true]; exact measurable_pi_apply _
  · simp only [h, if_false]; exact measurable_pi_apply _

omit [MeasurableSpace α] [MeasurableSingletonClass α] in
theorem drawn_add (j : Thread) (k l : ℕ) (ω : Thread × ℕ → α) : drawn j k (drawn j l ω) = drawn j (l + k) ω := by
  funext x
  unfold drawn
  by_cases h : x.1 = j
  · simp only [h, if_true, Nat.add_assoc]
  · simp only [h, if_false]

omit [MeasurableSpace α] [MeasurableSingletonClass α] in
theorem drawn_zero (j : Thread) (ω : Thread × ℕ → α) : drawn j 0 ω = ω := by
  funext x
  obtain ⟨x1, x2⟩ := x
  unfold drawn
  by_cases h : x1 = j
  · subst h; simp
  · simp [h]

/-- What follows the first outcome of thread `j` is independent of it and distributed as before. -/
theorem markov_one (j : Thread) (a : α) (E : Set (Thread × ℕ → α)) (hE : MeasurableSet E) :
    threadStreams Thread μ {ω | ω (j, 0) = a ∧ drawn j 1 ω ∈ E} = μ {a}*threadStreams Thread μ E := by
  classical
  obtain ⟨ν, hν⟩ : ∃ ν, ν = ((threadStreams Thread μ).restrict {ω | ω (j, 0) = a}).map (drawn j 1) := ⟨_, rfl⟩
  have hνE : ∀ B, MeasurableSet B → ν B = threadStreams Thread μ {ω | ω (j, 0) = a ∧ drawn j 1 ω ∈ B} := by
    intro B hB
    rw [hν, Measure.map_apply (measurable_drawn j 1) hB, Measure.restrict_apply (measurable_drawn j 1 hB)]
    congr 1
    ext ω
    simp [and_comm]
  have hbox : ∀ (s : Finset (Thread × ℕ)) (t : Thread × ℕ → Set α), (∀ i, MeasurableSet (t i)) →
      ν (Set.pi s t) = μ {a}*∏ i ∈ s, μ (t i) := by
    intro s t ht
    rw [hνE _ (MeasurableSet.pi s.countable_toSet fun i _ => ht i)]
    obtain ⟨σ, hσ⟩ : ∃ σ : Thread × ℕ → Thread × ℕ, σ = fun x => if x.1 = j then (j, 1 + x.2) else x := ⟨_, rfl⟩
    obtain ⟨τ, hτ⟩ : ∃ τ : Thread × ℕ → Thread × ℕ, τ = fun x => if x.1 = j then (j, x.2 - 1) else x := ⟨_, rfl⟩
    have hτσ : ∀ x, τ (σ x) = x := by
      rintro ⟨x1, x2⟩
      rw [hσ, hτ]
      by_cases h : x1 = j
      · simp [h]
      · simp [h]
    have hσinj : Function.Injective σ := Function.LeftInverse.injective hτσ
    have hσ0 : ∀ x, σ x ≠ (j, 0) := by
      rintro ⟨x1, x2⟩
      rw [hσ]
      by_cases h : x1 = j
      · simp [h]
      · simp [h]
    have hd : ∀ (ω : Thread × ℕ → α) x, drawn j 1 ω x = ω (σ x) := by
      intro ω x
      unfold drawn
      rw [hσ]
      by_cases h : x.1 = j
      · simp [h]
      · simp [h]
    have e : {ω : Thread × ℕ → α | ω (j, 0) = a ∧ drawn j 1 ω ∈ Set.pi s t} =
        Set.pi (↑(insert (j, 0) (s.image σ)) : Set (Thread × ℕ)) fun y => if y = (j, 0) then {a} else t (τ y) := by
      ext ω
      simp only [Set.mem_ofPred_eq, Set.mem_pi, Finset.coe_insert, Finset.coe_image, Set.mem_insert_iff, Set.mem_image,
        Finset.mem_coe, hd]
      constructor
      · rintro ⟨h1, h2⟩ y (rfl | ⟨x, hx, rfl⟩)
        · simpa using h1
        · rw [if_neg (hσ0 x), hτσ]
          exact h2 x hx
      · intro h
        refine ⟨by simpa using h (j, 0) (Or.inl rfl), fun x hx => ?_⟩
        have := h (σ x) (Or.inr ⟨x, hx, rfl⟩)
        rwa [if_neg (hσ0 x), hτσ] at this
    rw [e]
    unfold threadStreams
    rw [infinitePi_pi (μ := fun _ : Thread × ℕ => μ) (fun i _ => by
      by_cases h : i = (j, 0)
      · simp only [h, if_true]; exact measurableSet_singleton a
      · simp only [h, if_false]; exact ht _)]
    rw [Finset.prod_insert (by
      simp only [Finset.mem_image, not_exists, not_and]
      exact fun x _ => hσ0 x), Finset.prod_image fun x _ y _ h => hσinj h]
    simp only [if_true]
    congr 1
    refine Finset.prod_congr rfl fun x _ => ?_
    rw [if_neg (hσ0 x), hτσ]
  rw [← hνE E hE]
  by_cases h0 : μ {a} = 0
  · have huniv : ν Set.univ = 0 := by
      have := hbox ∅ (fun _ => Set.univ) (fun _ => MeasurableSet.univ)
      simpa [h0] using this
    rw [h0, zero_mul]
    exact le_antisymm (huniv ▸ measure_mono (Set.subset_univ E)) bot_le
  · have hfin : μ {a} ≠ ⊤ := measure_ne_top _ _
    have key : (μ {a})⁻¹ • ν = threadStreams Thread μ := by
      unfold threadStreams
      apply eq_infinitePi
      intro s t ht
      rw [Measure.smul_apply, hbox s t ht, smul_eq_mul, ← mul_assoc, ENNReal.inv_mul_cancel h0 hfin, one_mul]
    rw [← key, Measure.smul_apply, smul_eq_mul, ← mul_assoc, ENNReal.mul_inv_cancel h0 hfin, one_mul]

/-- The probability of a word. -/
noncomputable def wordWeight (w : List α) : ENNReal := (w.map fun a => μ {a}).prod

omit [MeasurableSpace α] [MeasurableSingletonClass α] in
theorem beginsWith_cons (ω : ℕ → α) (a : α) (w : List α) :
    BeginsWith ω (a :: w) ↔ ω 0 = a ∧ BeginsWith (fun k => ω (k + 1)) w := by
  constructor
  · intro h
    exact ⟨h 0 a rfl, fun k b hb => h (k + 1) b (by simpa using hb)⟩
  · rintro ⟨h1, h2⟩ k b hb
    cases k with
    | zero => simp at hb; rw [h1, hb]
    | succ k => exact h2 k b (by simpa using hb)

/-- What follows a word drawn by thread `j` is independent of it and distributed as before. -/
theorem markov_word (j : Thread) (E : Set (Thread × ℕ → α)) (hE : MeasurableSet E) : ∀ (w : List α),
    MeasurableSet {ω : Thread × ℕ → α | BeginsWith (fun k => ω (j, k)) w ∧ drawn j w.length ω ∈ E} ∧
    threadStreams Thread μ {ω | BeginsWith (fun k => ω (j, k)) w ∧ drawn j w.length ω ∈ E} =
      wordWeight μ w*threadStreams Thread μ E := by
  intro w
  induction w with
  | nil =>
    have e : {ω : Thread × ℕ → α | BeginsWith (fun k => ω (j, k)) [] ∧ drawn j ([] : List α).length ω ∈ E} = E := by
      ext ω
      simp [BeginsWith, drawn_zero]
    rw [e]
    exact ⟨hE, by simp [wordWeight]⟩
  | cons a w ih =>
    have e : {ω : Thread × ℕ → α | BeginsWith (fun k => ω (j, k)) (a :: w) ∧ drawn j (a :: w).length ω ∈ E} =
        {ω | ω (j, 0) = a ∧ drawn j 1 ω ∈
          {ω : Thread × ℕ → α | BeginsWith (fun k => ω (j, k)) w ∧ drawn j w.length ω ∈ E}} := by
      ext ω
      simp only [Set.mem_ofPred_eq, beginsWith_cons, drawn_add, List.length_cons]
      have h1 : (fun k => drawn j 1 ω (j, k)) = fun k => ω (j, k + 1) := by
        funext k
        simp [drawn, Nat.add_comm]
      rw [h1, Nat.add_comm 1, and_assoc]
    rw [e]
    refine ⟨?_, ?_⟩
    · have h0 : Measurable fun ω : Thread × ℕ → α => ω (j, 0) := measurable_pi_apply _
      exact (h0 (measurableSet_singleton a)).inter (measurable_drawn j 1 ih.1)
    · rw [markov_one μ j a _ ih.1, ih.2, wordWeight, wordWeight, List.map_cons, List.prod_cons, mul_assoc]

/-- A stream begins with a word with the word's probability. -/
theorem begins_weight (w : List α) : MeasurableSet {ω : ℕ → α | BeginsWith ω w} ∧
    (Measure.infinitePi fun _ : ℕ => μ) {ω | BeginsWith ω w} = wordWeight μ w := by
  have e : {ω : ℕ → α | BeginsWith ω w} = Set.pi (↑(Finset.range w.length) : Set ℕ) fun k => {x | ∀ a, w[k]? = some a → x = a} := by
    ext ω
    simp only [Set.mem_ofPred_eq, Set.mem_pi, Finset.coe_range, Set.mem_Iio, BeginsWith]
    constructor
    · intro h k _ a ha
      exact h k a ha
    · intro h k a ha
      exact h k (List.getElem?_eq_some_iff.1 ha).1 a ha
  have hset : ∀ k (hk : k < w.length), {x : α | ∀ a, w[k]? = some a → x = a} = {w[k]} := by
    intro k hk
    ext x
    simp [List.getElem?_eq_getElem hk]
  have hm : ∀ k ∈ Finset.range w.length, MeasurableSet {x : α | ∀ a, w[k]? = some a → x = a} := by
    intro k hk
    rw [hset k (Finset.mem_range.1 hk)]
    exact measurableSet_singleton _
  rw [e]
  refine ⟨MeasurableSet.pi (Finset.countable_toSet _) hm, ?_⟩
  rw [infinitePi_pi (μ := fun _ : ℕ => μ) hm, wordWeight]
  clear e hset hm
  induction w with
  | nil => simp
  | cons a w ih =>
    rw [List.length_cons, Finset.prod_range_succ', List.map_cons, List.prod_cons, mul_comm]
    congr 1
    · congr 1
      ext x
      simp

end
end RustBCA
