import Verif.Props.StatisticsRun
import Verif.Props.Output

/-!
# C107: the statistical error of the results of a run

The ions of a run need not be alike (the input file draws their energies, places and directions), so the
counts of the ions are independent, each with its own distribution.
-/

namespace RustBCA
open Scalar Spec MeasureTheory ProbabilityTheory

section
variable {F α β Thread : Type} [Countable α] [MeasurableSpace α] [MeasurableSingletonClass α]
  (μ : Measure α) [IsProbabilityMeasure μ] (value : α → F)

/-- **C107, the joint distribution.** The counts of different computations, run as samples by any number of threads,
are independent: the probability that all return and the list of counts lies in `B` is that of independent
counts, times the probability that all return. -/
theorem C107_joint_distribution {n : ℕ} {prog : Fin n → M F β} (hm : ∀ i, DrawsInOrder (prog i)) (f : β → ℕ)
    (h0 : ∀ i, chance μ value (prog i) Set.univ ≠ 0) (next : List (Fin n × List α × β) → Thread × Fin n)
    (hnext : EachOnce next) (B : Set (Fin n → ℕ)) :
    threadStreams Thread μ {ω | ∃ h x, Execution value prog next [] ω h ∧ (∀ e ∈ h, f e.2.2 = x e.1) ∧ x ∈ B} =
      (∏ i, chance μ value (prog i) Set.univ)*Measure.pi (fun i : Fin n => countLaw μ value (prog i) f) B := by
  classical
  haveI := fun i => countLaw_prob μ value (hm i) f (h0 i)
  have hr : ∀ i, chance μ value (prog i) Set.univ ≠ ⊤ := fun i =>
    ((chance_le_one μ value (prog i) _).trans_lt ENNReal.one_lt_top).ne
  obtain ⟨E, hE⟩ : ∃ E : (Fin n → ℕ) → Set (Thread × ℕ → α), E = fun x =>
    {ω | ∃ h, Execution value prog next [] ω h ∧ ∀ e ∈ h, e.2.2 ∈ {b | f b = x e.1}} := ⟨_, rfl⟩
  have hEm : ∀ x, MeasurableSet (E x) ∧ threadStreams Thread μ (E x) =
      (∏ i, chance μ value (prog i) Set.univ)*Measure.pi (fun i : Fin n => countLaw μ value (prog i) f) {x} := by
    intro x
    have h1 := (execution_chance (Thread := Thread) μ value prog hm next hnext
      (fun i => {b | f b = x i}) n [] (by simp) (by simp) (fun e he => by cases he)).1
    have h2 := C97_independent (Thread := Thread) μ value prog hm next hnext (fun i => {b | f b = x i})
    rw [hE]
    refine ⟨h1, h2.trans ?_⟩
    rw [← Set.univ_pi_singleton, Measure.pi_pi]
    simp only [countLaw_singleton]
    have : ∀ i : Fin n, chance μ value (prog i) {b | f b = x i} =
        chance μ value (prog i) Set.univ*(chance μ value (prog i) {b | f b = x i}/chance μ value (prog i) Set.univ) :=
      fun i => (ENNReal.mul_div_cancel (h0 i) (hr i)).symm
    rw [Finset.prod_congr rfl fun i _ => this i, Finset.prod_mul_distrib]
  have e : {ω | ∃ h x, Execution value prog next [] ω h ∧ (∀ e ∈ h, f e.2.2 = x e.1) ∧ x ∈ B} = ⋃ x : B, E x := by
    ext ω
    rw [hE]
    simp only [Set.mem_ofPred_eq, Set.mem_iUnion, Subtype.exists]
    constructor
    · rintro ⟨h, x, h1, h2, h3⟩
      exact ⟨x, h3, h, h1, h2⟩
    · rintro ⟨x, h3, h, h1, h2⟩
      exact ⟨h, x, h1, h2, h3⟩
  rw [e, measure_iUnion (f := fun x : B => E x) ?_ fun x => (hEm x).1]
  · rw [tsum_congr fun x : B => (hEm x).2, ENNReal.tsum_mul_left]
    congr 1
    rw [← measure_biUnion B.to_countable (fun x _ y _ hne => Set.disjoint_singleton.2 hne)
      fun x _ => measurableSet_singleton x, Set.biUnion_of_singleton]
  · intro x y hne
    refine Set.disjoint_left.2 fun ω h1 h2 => hne ?_
    rw [hE] at h1 h2
    obtain ⟨h, r1, f1⟩ := h1
    obtain ⟨h', r2, f2⟩ := h2
    obtain rfl := execution_unique r1 r2
    obtain ⟨_, hall, _⟩ := execution_all hnext r1 (by simp) (fun e he => by cases he)
    apply Subtype.ext
    funext i
    obtain ⟨e, he, rfl⟩ := List.mem_map.1 (hall i)
    exact (f1 e he).symm.trans (f2 e he)

/-- **C107, the statistical error.** The average of the counts of `n` samples, each of its own
computation, is off the average of the expected counts by `ε` or more with probability at most the
average variance over `nε²`. -/
theorem C107_statistical_error {n : ℕ} (hn : 0 < n) {prog : Fin n → M F β} (hm : ∀ i, DrawsInOrder (prog i))
    (f : β → ℕ) (hvar : ∀ i, MemLp (fun k : ℕ => (k : ℝ)) 2 (countLaw μ value (prog i) f))
    (next : List (Fin n × List α × β) → Thread × Fin n) (hnext : EachOnce next) (ε : ℝ) (hε : 0 < ε) :
    threadStreams Thread μ {ω | ∃ h, Execution value prog next [] ω h ∧
      ε ≤ |((h.map fun e => f e.2.2).sum : ℝ)/n - (∑ i, expectedCount μ value (prog i) f)/n|} ≤
      ENNReal.ofReal ((∑ i, countVariance μ value (prog i) f)/n/(n*ε^2)) := by
  classical
  have hn0 : (0:ℝ) < n := by exact_mod_cast hn
  by_cases h0 : ∃ i, chance μ value (prog i) Set.univ = 0
  · obtain ⟨i, hi⟩ := h0
    have hz : threadStreams Thread μ {ω | ∃ h, Execution value prog next [] ω h ∧
        ∀ e ∈ h, e.2.2 ∈ (fun _ => Set.univ : Fin n → Set β) e.1} = 0 := by
      refine (C97_independent (Thread := Thread) μ value prog hm next hnext (fun _ => Set.univ)).trans ?_
      exact Finset.prod_eq_zero (Finset.mem_univ i) hi
    refine le_trans (measure_mono ?_) (hz.le.trans bot_le)
    rintro ω ⟨h, h1, _⟩
    exact ⟨h, h1, fun _ _ => trivial⟩
  · have h0' : ∀ i, chance μ value (prog i) Set.univ ≠ 0 := fun i hi => h0 ⟨i, hi⟩
    haveI := fun i => countLaw_prob μ value (hm i) f (h0' i)
    obtain ⟨S, hS⟩ : ∃ S, S = ∑ i, expectedCount μ value (prog i) f := ⟨_, rfl⟩
    rw [← hS]
    have hjoint := C107_joint_distribution (Thread := Thread) μ value hm f h0' next hnext
      {x | ε ≤ |(∑ i, (x i : ℝ))/n - S/n|}
    have hsub : threadStreams Thread μ {ω | ∃ h, Execution value prog next [] ω h ∧
        ε ≤ |((h.map fun e => f e.2.2).sum : ℝ)/n - S/n|} ≤
        threadStreams Thread μ {ω | ∃ h x, Execution value prog next [] ω h ∧ (∀ e ∈ h, f e.2.2 = x e.1) ∧
          x ∈ {x : Fin n → ℕ | ε ≤ |(∑ i, (x i : ℝ))/n - S/n|}} := by
      refine measure_mono ?_
      rintro ω ⟨h, h1, h2⟩
      obtain ⟨hnd, hall, _⟩ := execution_all hnext h1 (by simp) (fun e he => by cases he)
      have hx : ∃ x : Fin n → ℕ, ∀ e ∈ h, f e.2.2 = x e.1 := by
        have hch : ∀ i : Fin n, ∃ e ∈ h, e.1 = i := fun i => List.mem_map.1 (hall i)
        choose c hc1 hc2 using hch
        refine ⟨fun i => f (c i).2.2, fun e he => ?_⟩
        have : c e.1 = e := List.inj_on_of_nodup_map hnd (hc1 _) he (hc2 _)
        show f e.2.2 = f (c e.1).2.2
        rw [this]
      obtain ⟨x, hx⟩ := hx
      refine ⟨h, x, h1, hx, ?_⟩
      have hs := execution_sum hnext h1 x f hx
      show ε ≤ |(∑ i, (x i : ℝ))/n - S/n|
      rw [show (∑ i, (x i : ℝ)) = ((∑ i, x i : ℕ) : ℝ) by push_cast; rfl, ← hs]
      push_cast at h2 ⊢
      exact h2
    refine hsub.trans ?_
    rw [hjoint]
    have hle1 : (∏ i, chance μ value (prog i) Set.univ) ≤ 1 :=
      Finset.prod_le_one' fun i _ => chance_le_one μ value (prog i) _
    refine (mul_le_mul_left hle1 _).trans ?_
    rw [one_mul]
    have hmem : ∀ i : Fin n, MemLp (fun x : Fin n → ℕ => (x i : ℝ)) 2
        (Measure.pi (fun i : Fin n => countLaw μ value (prog i) f)) := fun i =>
      (hvar i).comp_measurePreserving (measurePreserving_eval _ i)
    have hsum : MemLp (∑ i : Fin n, fun x : Fin n → ℕ => (x i : ℝ)) 2
        (Measure.pi (fun i : Fin n => countLaw μ value (prog i) f)) := memLp_finset_sum' _ fun i _ => hmem i
    have hmean : ∫ x, (∑ i : Fin n, fun x : Fin n → ℕ => (x i : ℝ)) x
        ∂(Measure.pi (fun i : Fin n => countLaw μ value (prog i) f)) = S := by
      have : ∀ i : Fin n, ∫ x : Fin n → ℕ, (x i : ℝ) ∂(Measure.pi (fun i : Fin n => countLaw μ value (prog i) f)) =
          expectedCount μ value (prog i) f := fun i => by
        have := (measurePreserving_eval (fun i : Fin n => countLaw μ value (prog i) f) i)
        unfold expectedCount
        have h2 := integral_map (μ := Measure.pi (fun i : Fin n => countLaw μ value (prog i) f))
          (f := fun k : ℕ => (k:ℝ)) this.measurable.aemeasurable
          (measurable_from_nat).aestronglyMeasurable
        rw [this.map_eq] at h2
        exact h2.symm
      simp only [Finset.sum_apply]
      rw [integral_finset_sum _ fun i _ => (hmem i).integrable (by norm_num)]
      rw [Finset.sum_congr rfl fun i _ => this i, hS]
    have hv := variance_sum_pi (μ := fun i : Fin n => countLaw μ value (prog i) f)
      (X := fun _ k => ((k:ℕ):ℝ)) hvar
    have hcheb := meas_ge_le_variance_div_sq hsum (c := n*ε) (by positivity)
    rw [hv, hmean] at hcheb
    refine le_trans (measure_mono ?_) (hcheb.trans ?_)
    · intro x hx
      simp only [Set.mem_ofPred_eq, Finset.sum_apply] at hx ⊢
      rw [← sub_div, abs_div, abs_of_pos hn0, le_div_iff₀ hn0] at hx
      linarith
    · apply ENNReal.ofReal_le_ofReal
      unfold countVariance
      rw [mul_pow]
      apply le_of_eq
      field_simp

end

section run
variable {F α Thread : Type} [Scalar F] [Countable α] [MeasurableSpace α] [MeasurableSingletonClass α]
  (μ : Measure α) [IsProbabilityMeasure μ] (value : α → F)

/-- The particles of a run on the streams of an execution, counted. -/
theorem run_sum {rcpr : Rcpr F} {fuel : ℕ} {cfg : OutputConfig F} {mat : Material F} {o : Options F}
    {splits : List Split} {inputs : List (ParticleInput F)}
    {next : List (Fin inputs.length × List α × List (Particle F)) → Thread × Fin inputs.length}
    (hnext : EachOnce next) {h : List (Fin inputs.length × List α × List (Particle F))} {ω : Thread × ℕ → α}
    {tapes : ℕ → Tape F} {s : RunState F}
    (h1 : Execution value (fun i => simulation rcpr fuel mat o inputs[i]) next [] ω h) (h2 : Given value h tapes)
    (run : physics_loop_run rcpr fuel cfg mat o splits tapes inputs = .ok s) (P : Particle F → Prop) :
    (h.map fun e => howMany P e.2.2).sum = howMany P s.processed := by
  obtain ⟨outs, ho, hp⟩ := C47_every_ion_once run
  obtain ⟨_, _, hd⟩ := execution_all hnext h1 (by simp) (fun e he => by cases he)
  have hlen : outs.length = inputs.length := by
    have := ho.length_eq
    rw [List.length_zipIdx] at this
    exact this.symm
  have hsum := execution_sum hnext h1 (fun i => howMany P (outs[i.1]'(by rw [hlen]; exact i.2))) (howMany P) (by
    intro e he
    obtain ⟨t', ht'⟩ := given_run (prog := fun i : Fin inputs.length => simulation rcpr fuel mat o inputs[i]) h2 hd e he
    have hr := simulation_run ht'
    have hi : e.1.1 < outs.length := by rw [hlen]; exact e.1.2
    have h5 := List.Forall₂.get ho (i := e.1.1) (by rw [List.length_zipIdx]; exact e.1.2) hi
    simp only [List.get_eq_getElem, List.getElem_zipIdx, Nat.zero_add] at h5
    have h6 : run_ion rcpr fuel mat o inputs[e.1] (tapes e.1) = .ok outs[e.1.1] := h5
    rw [hr] at h6
    injection h6 with h6
    rw [h6])
  rw [hsum, hp, howMany_flatten, ← List.sum_ofFn]
  congr 1
  apply List.ext_getElem
  · simp [hlen]
  · intro k hk1 hk2
    simp

/-- **C107, a run.** Whatever is counted among the particles of a run (`P`), per ion, differs from the
average over the ions of the number expected from each ion by itself (among the cascades that end) by `ε`
or more with probability at most the average variance (which is finite) over `nε²`, whatever the threads, their
order of work, the chunks and the output options. -/
theorem C107_run (rcpr : Rcpr F) (fuel : ℕ) (cfg : OutputConfig F) (mat : Material F) (o : Options F)
    (splits : List Split) (inputs : List (ParticleInput F)) (hne : inputs ≠ []) (P : Particle F → Prop)
    (next : List (Fin inputs.length × List α × List (Particle F)) → Thread × Fin inputs.length)
    (hnext : EachOnce next) (ε : ℝ) (hε : 0 < ε) :
    (∀ i : Fin inputs.length, MemLp (fun k : ℕ => (k : ℝ)) 2
      (countLaw μ value (simulation rcpr fuel mat o inputs[i]) (howMany P))) ∧
    threadStreams Thread μ {ω | ∃ h tapes s,
        Execution value (fun i => simulation rcpr fuel mat o inputs[i]) next [] ω h ∧ Given value h tapes ∧
        physics_loop_run rcpr fuel cfg mat o splits tapes inputs = .ok s ∧
        ε ≤ |(howMany P s.processed : ℝ)/inputs.length -
          (∑ i : Fin inputs.length, expectedCount μ value (simulation rcpr fuel mat o inputs[i]) (howMany P))
            /inputs.length|} ≤
      ENNReal.ofReal ((∑ i : Fin inputs.length,
          countVariance μ value (simulation rcpr fuel mat o inputs[i]) (howMany P))/inputs.length
        /(inputs.length*ε^2)) := by
  have hvar : ∀ i : Fin inputs.length, MemLp (fun k : ℕ => (k : ℝ)) 2
      (countLaw μ value (simulation rcpr fuel mat o inputs[i]) (howMany P)) := by
    intro i
    refine bounded_law μ value (draws_simulation rcpr fuel mat o _) (howMany P) fuel ?_
    intro t out t' h
    refine List.countP_le_length.trans ?_
    unfold simulation at h
    obtain ⟨ion, t1, -, h⟩ := m_bind_ok.1 h
    exact cascade_length _ _ _ _ _ h
  refine ⟨hvar, ?_⟩
  refine (measure_mono ?_).trans (C107_statistical_error (Thread := Thread) μ value
    (List.length_pos_of_ne_nil hne) (prog := fun i : Fin inputs.length => simulation rcpr fuel mat o inputs[i])
    (fun i => draws_simulation rcpr fuel mat o _) (howMany P) hvar next hnext ε hε)
  rintro ω ⟨h, tapes, s, h1, h2, h3, h4⟩
  refine ⟨h, h1, ?_⟩
  rw [run_sum value hnext h1 h2 h3 P]
  exact h4

/-- **C107, the reflected fraction.** In summary.output the sum of the column of reflected ions, over
the number of ions, differs from the ions' average probability of being reflected (among the cascades
that end) by `ε` or more with probability at most `1/(4nε²)`. -/
theorem C107_reflected (rcpr : Rcpr F) (fuel : ℕ) (cfg : OutputConfig F) (mat : Material F) (o : Options F)
    (splits : List Split) (inputs : List (ParticleInput F)) (hne : inputs ≠ [])
    (next : List (Fin inputs.length × List α × List (Particle F)) → Thread × Fin inputs.length)
    (hnext : EachOnce next) (ε : ℝ) (hε : 0 < ε) :
    threadStreams Thread μ {ω | ∃ h tapes s,
        Execution value (fun i => simulation rcpr fuel mat o inputs[i]) next [] ω h ∧ Given value h tapes ∧
        physics_loop_run rcpr fuel cfg mat o splits tapes inputs = .ok s ∧
        ε ≤ |((columnSums (s.summary.rows cfg.units)).1 : ℝ)/inputs.length -
          (∑ i : Fin inputs.length,
            (chance μ value (simulation rcpr fuel mat o inputs[i]) {out | ∃ q ∈ out, q.incident = true ∧ q.left = true}/
              chance μ value (simulation rcpr fuel mat o inputs[i]) Set.univ).toReal)/inputs.length|} ≤
      ENNReal.ofReal (1/(4*inputs.length*ε^2)) := by
  classical
  obtain ⟨P, hP⟩ : ∃ P : Particle F → Prop, P = fun q => q.incident = true ∧ q.left = true := ⟨_, rfl⟩
  have hn : 0 < inputs.length := List.length_pos_of_ne_nil hne
  have hn0 : (0:ℝ) < inputs.length := by exact_mod_cast hn
  have hone : ∀ (i : Fin inputs.length) t out t', simulation rcpr fuel mat o inputs[i] t = .ok (out, t') →
      howMany P out ≤ 1 := by
    intro i t out t' h
    rw [← (run_ion_incident (simulation_run h)).1]
    unfold howMany
    refine List.countP_mono_left fun q _ hq => ?_
    have := of_decide_eq_true hq
    rw [hP] at this
    exact this.1
  have hlaw := fun i : Fin inputs.length =>
    binary_law μ value (draws_simulation rcpr fuel mat o inputs[i]) (howMany P) (hone i)
  have hset : ∀ i : Fin inputs.length, chance μ value (simulation rcpr fuel mat o inputs[i]) {b | howMany P b = 1} =
      chance μ value (simulation rcpr fuel mat o inputs[i]) {out | ∃ q ∈ out, q.incident = true ∧ q.left = true} := by
    intro i
    unfold chance
    congr 1
    ext ω
    simp only [Set.mem_ofPred_eq]
    constructor
    · rintro ⟨b, t', hb, hc⟩
      refine ⟨b, t', hb, ?_⟩
      have : 0 < howMany P b := by omega
      unfold howMany at this
      rw [List.countP_pos_iff] at this
      obtain ⟨q, hq, hd⟩ := this
      have := of_decide_eq_true hd
      rw [hP] at this
      exact ⟨q, hq, this⟩
    · rintro ⟨b, t', hb, q, hq, hr⟩
      refine ⟨b, t', hb, ?_⟩
      have h5 := hone i _ _ _ hb
      have : 0 < howMany P b := by
        unfold howMany
        rw [List.countP_pos_iff]
        exact ⟨q, hq, decide_eq_true (by rw [hP]; exact hr)⟩
      omega
  refine (measure_mono ?_).trans ((C107_run μ value rcpr fuel cfg mat o splits inputs hne P next hnext ε hε).2.trans ?_)
  · rintro ω ⟨h, tapes, s, h1, h2, h3, h4⟩
    refine ⟨h, tapes, s, h1, h2, h3, ?_⟩
    obtain ⟨refl, sput, dep, e, -, -, e2, -⟩ := C49_summary_balances h3
    have hcount : howMany P s.processed = refl := by
      rw [e2]
      unfold howMany
      refine List.countP_congr fun q _ => ?_
      rw [hP]
      simp
    rw [e] at h4
    rw [hcount, Finset.sum_congr rfl fun i _ => (hlaw i).2.2.trans (by rw [hset i])]
    exact h4
  · apply ENNReal.ofReal_le_ofReal
    have hle : (∑ i : Fin inputs.length, countVariance μ value (simulation rcpr fuel mat o inputs[i]) (howMany P)) ≤
        inputs.length*(1/4) := by
      refine (Finset.sum_le_sum fun i _ => (hlaw i).2.1).trans ?_
      rw [Finset.sum_const, Finset.card_univ, Fintype.card_fin, nsmul_eq_mul]
    have h1 : (∑ i : Fin inputs.length, countVariance μ value (simulation rcpr fuel mat o inputs[i]) (howMany P))
        /inputs.length ≤ 1/4 := by
      rw [div_le_iff₀ hn0]; linarith
    refine (div_le_div_of_nonneg_right h1 (by positivity)).trans (le_of_eq ?_)
    field_simp

end run
end RustBCA
