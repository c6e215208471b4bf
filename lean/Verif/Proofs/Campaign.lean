import Verif.Props.RunStatistics

/-!
# Expected values of computations (helper lemmas)
-/

set_option linter.unusedSectionVars false

set_option linter.deprecated false

namespace RustBCA
open Spec MeasureTheory

section
variable {F α β γ : Type} [MeasurableSpace α] [MeasurableSingletonClass α]
  (μ : Measure α) [IsProbabilityMeasure μ]

/-- The stream after `k` outcomes. -/
def shiftBy (k : ℕ) (ω : ℕ → α) : ℕ → α := fun n => ω (k + n)

omit [MeasurableSingletonClass α] in
theorem measurable_shift (k : ℕ) : Measurable (shiftBy (α := α) k) :=
  measurable_pi_lambda _ fun _ => measurable_pi_apply _

/-- One stream is the stream of the only thread. -/
theorem one_thread : (threadStreams Unit μ).map (fun ω k => ω ((), k)) = Measure.infinitePi fun _ : ℕ => μ := by
  classical
  have hmeas : Measurable fun (ω : Unit × ℕ → α) (k : ℕ) => ω ((), k) :=
    measurable_pi_lambda _ fun _ => measurable_pi_apply _
  apply Measure.eq_infinitePi
  intro s t ht
  rw [Measure.map_apply hmeas (MeasurableSet.pi s.countable_toSet fun i _ => ht i)]
  have e : (fun (ω : Unit × ℕ → α) (k : ℕ) => ω ((), k)) ⁻¹' (Set.pi s t) =
      Set.pi (↑(s.image fun k => ((), k)) : Set (Unit × ℕ)) fun x => t x.2 := by
    ext ω
    simp
  rw [e]
  unfold threadStreams
  rw [Measure.infinitePi_pi (μ := fun _ : Unit × ℕ => μ) (fun i _ => ht i.2),
    Finset.prod_image fun x _ y _ h => by injection h]

/-- What follows a word is independent of it and distributed as before. -/
theorem markov_stream (w : List α) (E : Set (ℕ → α)) (hE : MeasurableSet E) :
    (Measure.infinitePi fun _ : ℕ => μ) {ω | BeginsWith ω w ∧ shiftBy w.length ω ∈ E} =
      wordWeight μ w*(Measure.infinitePi fun _ : ℕ => μ) E := by
  have hmeas : Measurable fun (ω : Unit × ℕ → α) (k : ℕ) => ω ((), k) :=
    measurable_pi_lambda _ fun _ => measurable_pi_apply _
  have hset : MeasurableSet {ω : ℕ → α | BeginsWith ω w ∧ shiftBy w.length ω ∈ E} :=
    (begins_weight μ w).1.inter (measurable_shift _ hE)
  rw [← one_thread μ, Measure.map_apply hmeas hset, Measure.map_apply hmeas hE]
  refine Eq.trans ?_ (markov_word μ () _ (hmeas hE) w).2
  congr 1
  ext ω
  simp only [Set.mem_preimage, Set.mem_ofPred_eq]
  have : (fun k => drawn () w.length ω ((), k)) = shiftBy w.length fun k => ω ((), k) := by
    funext k; simp [drawn, shiftBy]
  rw [this]

theorem markov_lintegral (w : List α) (G : (ℕ → α) → ENNReal) (hG : Measurable G) :
    ∫⁻ ω, {ω | BeginsWith ω w}.indicator (fun ω => G (shiftBy w.length ω)) ω
        ∂(Measure.infinitePi fun _ : ℕ => μ) =
      wordWeight μ w*∫⁻ ω, G ω ∂(Measure.infinitePi fun _ : ℕ => μ) := by
  have hB := (begins_weight μ w).1
  rw [lintegral_indicator hB]
  have hmap : ((Measure.infinitePi fun _ : ℕ => μ).restrict {ω | BeginsWith ω w}).map (shiftBy w.length) =
      wordWeight μ w • Measure.infinitePi fun _ : ℕ => μ := by
    ext E hE
    rw [Measure.map_apply (measurable_shift _) hE, Measure.restrict_apply (measurable_shift _ hE),
      Measure.smul_apply, smul_eq_mul, ← markov_stream μ w E hE]
    congr 1
    ext ω
    simp [and_comm]
  rw [← lintegral_map hG (measurable_shift _), hmap, lintegral_smul_measure, smul_eq_mul]

variable (value : α → F)

/-- The value of `c` at the result of the computation, 0 if it returns none. -/
noncomputable def worth (m : M F β) (c : β → ENNReal) (ω : ℕ → α) : ENNReal :=
  match m (fun n => value (ω n)) with
  | .ok (b, _) => c b
  | .error _ => 0

/-- The expected value of `c` at the result of the computation. -/
noncomputable def expected (m : M F β) (c : β → ENNReal) : ENNReal :=
  ∫⁻ ω, worth value m c ω ∂(Measure.infinitePi fun _ : ℕ => μ)

open Classical in
/-- What the words a computation may draw are worth. -/
noncomputable def wordWorth (m : M F β) (c : β → (ℕ → α) → ENNReal) (w : List α) (ω : ℕ → α) : ENNReal :=
  if h : ∃ b, DrawsAndReturns value m w b then
    {ω | BeginsWith ω w}.indicator (fun ω => c h.choose (shiftBy w.length ω)) ω else 0

omit [MeasurableSpace α] [MeasurableSingletonClass α] in
theorem worth_sum [Countable α] {m : M F β} (hm : DrawsInOrder m) (c : β → (ℕ → α) → ENNReal) (ω : ℕ → α) :
    (∑' w, wordWorth value m c w ω) = ⨆ (b : β) (w : List α)
      (_ : BeginsWith ω w ∧ DrawsAndReturns value m w b), c b (shiftBy w.length ω) := by
  classical
  by_cases hex : ∃ w b, BeginsWith ω w ∧ DrawsAndReturns value m w b
  · obtain ⟨w, b, hw, hd⟩ := hex
    have huniq : ∀ v b', BeginsWith ω v → DrawsAndReturns value m v b' → w = v ∧ b = b' :=
      fun v b' h1 h2 => draws_unique hw h1 hd h2
    rw [tsum_eq_single w]
    · unfold wordWorth
      rw [dif_pos ⟨b, hd⟩, Set.indicator_of_mem (show ω ∈ {ω | BeginsWith ω w} from hw)]
      have hb := (huniq w _ hw (Exists.choose_spec (⟨b, hd⟩ : ∃ b, DrawsAndReturns value m w b))).2
      rw [← hb]
      refine le_antisymm (le_iSup_of_le b (le_iSup_of_le w (le_iSup_of_le ⟨hw, hd⟩ le_rfl)))
        (iSup_le fun b' => iSup_le fun v => iSup_le fun hv => ?_)
      obtain ⟨h1, h2⟩ := huniq v b' hv.1 hv.2
      rw [h1, h2]
    · intro v hv
      unfold wordWorth
      by_cases h : ∃ b, DrawsAndReturns value m v b
      · rw [dif_pos h, Set.indicator_of_notMem]
        intro hmem
        exact hv (huniq v _ hmem h.choose_spec).1.symm
      · rw [dif_neg h]
  · have h0 : ∀ w, wordWorth value m c w ω = 0 := by
      intro w
      unfold wordWorth
      by_cases h : ∃ b, DrawsAndReturns value m w b
      · rw [dif_pos h, Set.indicator_of_notMem]
        exact fun hmem => hex ⟨w, _, hmem, h.choose_spec⟩
      · rw [dif_neg h]
    simp only [h0, tsum_zero]
    symm
    simp only [ENNReal.iSup_eq_zero]
    exact fun b w hw => absurd ⟨w, b, hw⟩ hex

/-- The worth of a computation followed by another, by the words the first may draw. -/
theorem worth_bind [Countable α] {m : M F β} (hm : DrawsInOrder m) (f : β → M F γ) (c : γ → ENNReal) (ω : ℕ → α) :
    worth value (m >>= f) c ω = ∑' w, wordWorth value m (fun b => worth value (f b) c) w ω := by
  rw [worth_sum value hm]
  unfold worth
  cases hr : m (fun n => value (ω n)) with
  | error e =>
    have e1 : (m >>= f) (fun n => value (ω n)) = .error e := by
      simp only [bind, StateT.bind, Except.bind, hr]
    rw [e1]
    symm
    simp only [ENNReal.iSup_eq_zero]
    intro b w hw
    have := hw.2.1 ω hw.1
    rw [hr] at this
    cases this
  | ok r =>
    obtain ⟨b, t'⟩ := r
    obtain ⟨w, hw, hd⟩ := draws_word hm hr
    have ht := hd.1 ω hw
    rw [hr] at ht
    injection ht with ht
    injection ht with _ ht
    have e1 : (m >>= f) (fun n => value (ω n)) = f b (fun n => value (shiftBy w.length ω n)) := by
      simp only [bind, StateT.bind, Except.bind, hr]
      rw [ht]
      rfl
    rw [e1]
    refine le_antisymm (le_iSup_of_le b (le_iSup_of_le w (le_iSup_of_le ⟨hw, hd⟩ le_rfl)))
      (iSup_le fun b' => iSup_le fun v => iSup_le fun hv => ?_)
    obtain ⟨h1, h2⟩ := draws_unique hw hv.1 hd hv.2
    rw [h1, h2]

theorem worth_words [Countable α] {m : M F β} (hm : DrawsInOrder m) (c : β → ENNReal) (ω : ℕ → α) :
    worth value m c ω = ∑' w, wordWorth value m (fun b _ => c b) w ω := by
  have := worth_bind value hm (fun b => (pure b : M F β)) c ω
  have e : (m >>= fun b => (pure b : M F β)) = m := by
    funext t
    simp only [bind, StateT.bind, Except.bind, pure, StateT.pure, Except.pure]
    cases m t <;> rfl
  rw [e] at this
  exact this

include μ in
theorem measurable_wordWorth (m : M F β) (c : β → (ℕ → α) → ENNReal) (hc : ∀ b, Measurable (c b)) (w : List α) :
    Measurable (wordWorth value m c w) := by
  classical
  unfold wordWorth
  by_cases h : ∃ b, DrawsAndReturns value m w b
  · simp only [h, dif_pos]
    exact ((hc _).comp (measurable_shift _)).indicator (begins_weight μ w).1
  · simp only [h, dif_neg, not_false_eq_true]
    exact measurable_const

include μ in
theorem measurable_worth [Countable α] {m : M F β} (hm : DrawsInOrder m) (c : β → ENNReal) :
    Measurable (worth value m c) := by
  have : worth value m c = fun ω => ∑' w, wordWorth value m (fun b _ => c b) w ω :=
    funext fun ω => worth_words value hm c ω
  rw [this]
  exact Measurable.ennreal_tsum fun w => measurable_wordWorth μ value m _ (fun b => measurable_const) w

open Classical in
/-- What a word is expected to be worth. -/
noncomputable def wordExpected (m : M F β) (c : β → ENNReal) (w : List α) : ENNReal :=
  if h : ∃ b, DrawsAndReturns value m w b then wordWeight μ w*c h.choose else 0

theorem lintegral_wordWorth (m : M F β) (c : β → (ℕ → α) → ENNReal) (hc : ∀ b, Measurable (c b)) (w : List α) :
    ∫⁻ ω, wordWorth value m c w ω ∂(Measure.infinitePi fun _ : ℕ => μ) =
      wordExpected μ value m (fun b => ∫⁻ ω, c b ω ∂(Measure.infinitePi fun _ : ℕ => μ)) w := by
  classical
  unfold wordWorth wordExpected
  by_cases h : ∃ b, DrawsAndReturns value m w b
  · simp only [h, dif_pos]
    exact markov_lintegral μ w _ (hc _)
  · simp only [h, dif_neg, not_false_eq_true, lintegral_zero]

theorem expected_words [Countable α] {m : M F β} (hm : DrawsInOrder m) (c : β → ENNReal) :
    expected μ value m c = ∑' w, wordExpected μ value m c w := by
  unfold expected
  simp only [worth_words value hm c]
  rw [lintegral_tsum fun w => (measurable_wordWorth μ value m _ (fun b => measurable_const) w).aemeasurable]
  refine tsum_congr fun w => ?_
  rw [lintegral_wordWorth μ value m _ (fun b => measurable_const) w]
  simp

/-- The expected value of two computations, one after the other. -/
theorem expected_bind [Countable α] {m : M F β} (hm : DrawsInOrder m) {f : β → M F γ}
    (hf : ∀ b, DrawsInOrder (f b)) (c : γ → ENNReal) :
    expected μ value (m >>= f) c = expected μ value m (fun b => expected μ value (f b) c) := by
  rw [expected_words μ value hm]
  unfold expected
  simp only [worth_bind value hm f c]
  rw [lintegral_tsum fun w => (measurable_wordWorth μ value m _
    (fun b => measurable_worth μ value (hf b) c) w).aemeasurable]
  exact tsum_congr fun w => lintegral_wordWorth μ value m _ (fun b => measurable_worth μ value (hf b) c) w

theorem expected_pure (b : β) (c : β → ENNReal) : expected μ value (pure b : M F β) c = c b := by
  unfold expected
  have : worth value (pure b : M F β) c = fun _ : ℕ → α => c b := rfl
  rw [this]
  simp

theorem expected_mul [Countable α] {m : M F β} (hm : DrawsInOrder m) (c : β → ENNReal) (r : ENNReal) :
    expected μ value m (fun b => c b*r) = expected μ value m c*r := by
  rw [expected_words μ value hm, expected_words μ value hm, ← ENNReal.tsum_mul_right]
  refine tsum_congr fun w => ?_
  unfold wordExpected
  split
  · rw [mul_assoc]
  · rw [zero_mul]

open Classical in
theorem chance_expected [Countable α] {m : M F β} (hm : DrawsInOrder m) (A : Set β) :
    chance μ value m A = expected μ value m (A.indicator fun _ => 1) := by
  rw [expected_words μ value hm, chance_sum μ value hm]
  refine tsum_congr fun w => ?_
  unfold wordExpected
  by_cases h : ∃ b, DrawsAndReturns value m w b
  · rw [dif_pos h]
    have huniq : ∀ b, DrawsAndReturns value m w b → b = h.choose := fun b hb => by
      obtain ⟨a⟩ := generator_nonempty μ
      exact (draws_unique (ω := fun k => w[k]?.getD a) (fun k x hx => by simp [hx])
        (fun k x hx => by simp [hx]) hb h.choose_spec).2
    by_cases hA : h.choose ∈ A
    · rw [Set.indicator_of_mem hA, mul_one, if_pos ⟨_, hA, h.choose_spec⟩]
    · rw [Set.indicator_of_notMem hA, mul_zero, if_neg]
      rintro ⟨b, hb, hd⟩
      exact hA (huniq b hd ▸ hb)
  · rw [dif_neg h, if_neg]
    rintro ⟨b, _, hd⟩
    exact h ⟨b, hd⟩

end
end RustBCA
