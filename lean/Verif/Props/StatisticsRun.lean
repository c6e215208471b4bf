import Verif.Props.Statistics
import Verif.Props.YieldInputs
import Verif.Props.Run
import Verif.Props.Cascade
import Verif.Proofs.CascadeTree

/-!
# C97 and C98 for the program and its library
-/

namespace RustBCA
open Scalar Spec MeasureTheory ProbabilityTheory

section
variable {F α β Thread : Type}

/-- A sample given the stream it drew from returns the recorded result. -/
theorem given_run {n : ℕ} {value : α → F} {prog : Fin n → M F β} {h : List (Fin n × List α × β)} {tapes : ℕ → Tape F}
    (hg : Given value h tapes) (hd : ∀ e ∈ h, DrawsAndReturns value (prog e.1) e.2.1 e.2.2) (e) (he : e ∈ h) :
    ∃ t', prog e.1 (tapes e.1) = .ok (e.2.2, t') := by
  obtain ⟨ω, h1, h2⟩ := hg e he
  exact ⟨_, h2 ▸ (hd e he).1 ω h1⟩

/-- There are such streams. -/
theorem given_exists {n : ℕ} [Nonempty α] {value : α → F} {h : List (Fin n × List α × β)}
    (hnd : (h.map (·.1)).Nodup) : ∃ tapes, Given value h tapes := by
  classical
  obtain ⟨a⟩ := (inferInstance : Nonempty α)
  refine ⟨fun k => if hk : ∃ e ∈ h, (e.1 : ℕ) = k then fun i => value ((Classical.choose hk).2.1[i]?.getD a)
    else fun _ => value a, ?_⟩
  intro e he
  have hk : ∃ e' ∈ h, (e'.1 : ℕ) = (e.1 : ℕ) := ⟨e, he, rfl⟩
  have hc := Classical.choose_spec hk
  have hce : Classical.choose hk = e := List.inj_on_of_nodup_map hnd hc.1 he (Fin.ext hc.2)
  refine ⟨fun i => e.2.1[i]?.getD a, fun k x hx => by simp [hx], ?_⟩
  simp only [dif_pos hk, hce]

theorem generator_nonempty [MeasurableSpace α] (μ : Measure α) [IsProbabilityMeasure μ] : Nonempty α := by
  by_contra h
  rw [not_nonempty_iff] at h
  have := measure_univ (μ := μ)
  rw [Set.univ_eq_empty_iff.2 h, measure_empty] at this
  exact zero_ne_one this

end

section
variable {F α Thread : Type} [Scalar F] [Countable α] [MeasurableSpace α] [MeasurableSingletonClass α]
  (μ : Measure α) [IsProbabilityMeasure μ] (value : α → F)

theorem draws_simulation (rcpr : Rcpr F) (fuel : ℕ) (mat : Material F) (o : Options F) (input : ParticleInput F) :
    DrawsInOrder (simulation rcpr fuel mat o input) :=
  draws_bind (draws_lift _) fun _ => C74_stream _ _ _ _ _

theorem simulation_run {rcpr : Rcpr F} {fuel : ℕ} {mat : Material F} {o : Options F} {input : ParticleInput F}
    {t t' : Tape F} {out : List (Particle F)} (h : simulation rcpr fuel mat o input t = .ok (out, t')) :
    run_ion rcpr fuel mat o input t = .ok out := by
  unfold simulation at h
  unfold run_ion
  cases hi : Particle.from_input input o with
  | error e =>
    rw [hi] at h
    exact absurd h (by intro h; cases h)
  | ok p =>
    rw [hi] at h
    have h' : single_ion_bca rcpr fuel p mat o t = .ok (out, t') := h
    simp only [bind, Except.bind, h', pure, Except.pure]

/-- **C97, the program.** The ions of a run (`physics_loop`) are simulated independently of each other,
however the threads share the work: the probability that every ion `i` is followed to the end with a result
in `A i` is the product of the probabilities for the ions by themselves. -/
theorem C97_ions (rcpr : Rcpr F) (fuel : ℕ) (mat : Material F) (o : Options F) (inputs : List (ParticleInput F))
    (next : List (Fin inputs.length × List α × List (Particle F)) → Thread × Fin inputs.length) (hnext : EachOnce next)
    (A : Fin inputs.length → Set (List (Particle F))) :
    threadStreams Thread μ {ω | ∃ h tapes outs,
      Execution value (fun i => simulation rcpr fuel mat o inputs[i]) next [] ω h ∧ Given value h tapes ∧
      Simulated (fun pi : ParticleInput F × ℕ => run_ion rcpr fuel mat o pi.1 (tapes pi.2)) inputs.zipIdx outs ∧
      ∀ (i : Fin inputs.length) out, outs[i]? = some out → out ∈ A i} =
    ∏ i, chance μ value (simulation rcpr fuel mat o inputs[i]) (A i) := by
  classical
  rw [← C97_independent (Thread := Thread) μ value (fun i : Fin inputs.length => simulation rcpr fuel mat o inputs[i])
    (fun i => draws_simulation rcpr fuel mat o _) next hnext A]
  congr 1
  ext ω
  simp only [Set.mem_ofPred_eq]
  have hrun : ∀ {h tapes}, Execution value (fun i : Fin inputs.length => simulation rcpr fuel mat o inputs[i]) next [] ω h →
      Given value h tapes → ∀ e ∈ h, run_ion rcpr fuel mat o inputs[e.1] (tapes e.1) = .ok e.2.2 := by
    intro h tapes h1 h2 e he
    obtain ⟨_, _, hd⟩ := execution_all hnext h1 (by simp) (fun e he => by cases he)
    obtain ⟨t', ht'⟩ := given_run (prog := fun i : Fin inputs.length => simulation rcpr fuel mat o inputs[i]) h2 hd e he
    exact simulation_run ht'
  constructor
  · rintro ⟨h, tapes, outs, h1, h2, h3, h4⟩
    refine ⟨h, h1, fun e he => ?_⟩
    have hr := hrun h1 h2 e he
    have hlen : outs.length = inputs.length := by
      have := h3.length_eq
      rw [List.length_zipIdx] at this
      exact this.symm
    have hi : e.1.1 < outs.length := by rw [hlen]; exact e.1.2
    have h5 := List.Forall₂.get h3 (i := e.1.1) (by rw [List.length_zipIdx]; exact e.1.2) hi
    simp only [List.get_eq_getElem, List.getElem_zipIdx, Nat.zero_add] at h5
    have h6 : run_ion rcpr fuel mat o inputs[e.1] (tapes e.1) = .ok outs[e.1.1] := h5
    rw [hr] at h6
    injection h6 with h6
    rw [h6]
    exact h4 e.1 _ (List.getElem?_eq_getElem hi)
  · rintro ⟨h, h1, h2⟩
    obtain ⟨hnd, hall, hd⟩ := execution_all hnext h1 (by simp) (fun e he => by cases he)
    haveI := generator_nonempty μ
    obtain ⟨tapes, ht⟩ := given_exists (value := value) hnd
    have hch : ∀ i : Fin inputs.length, ∃ e ∈ h, e.1 = i := fun i => List.mem_map.1 (hall i)
    choose c hc1 hc2 using hch
    refine ⟨h, tapes, List.ofFn fun i => (c i).2.2, h1, ht, ?_, ?_⟩
    · refine List.forall₂_iff_get.2 ⟨by simp, ?_⟩
      intro i hi1 hi2
      rw [List.length_zipIdx] at hi1
      have hrun' : ∀ (j : Fin inputs.length) e, e ∈ h → e.1 = j →
          run_ion rcpr fuel mat o inputs[j] (tapes j) = .ok e.2.2 := by
        rintro _ e he rfl
        exact hrun h1 ht e he
      have := hrun' ⟨i, hi1⟩ (c ⟨i, hi1⟩) (hc1 _) (hc2 _)
      simp only [List.get_eq_getElem, List.getElem_zipIdx, Nat.zero_add, List.getElem_ofFn]
      exact this
    · intro i out ho
      have : out = (c i).2.2 := by
        have h3 : (List.ofFn fun i => (c i).2.2)[(i:ℕ)]? = some (c i).2.2 := by
          rw [List.getElem?_eq_getElem (by simp), List.getElem_ofFn]
        have ho' : (List.ofFn fun i => (c i).2.2)[(i:ℕ)]? = some out := ho
        rw [h3] at ho'
        injection ho' with ho
        exact ho.symm
      rw [this]
      have := h2 (c i) (hc1 i)
      rw [hc2] at this
      exact this

end

section counts
variable {F α β Thread : Type} [Countable α] [MeasurableSpace α] [MeasurableSingletonClass α]
  (μ : Measure α) [IsProbabilityMeasure μ] (value : α → F)

/-- A computation that counts at most one. -/
theorem binary_law {m : M F β} (hm : DrawsInOrder m) (f : β → ℕ)
    (hf : ∀ t b t', m t = .ok (b, t') → f b ≤ 1) :
    MemLp (fun k : ℕ => (k : ℝ)) 2 (countLaw μ value m f) ∧ countVariance μ value m f ≤ 1/4 ∧
    expectedCount μ value m f = (chance μ value m {b | f b = 1}/chance μ value m Set.univ).toReal := by
  have hzero : ∀ k, 2 ≤ k → chance μ value m {b | f b = k} = 0 := by
    intro k hk
    unfold chance
    have : {ω : ℕ → α | ∃ b t', m (fun n => value (ω n)) = .ok (b, t') ∧ b ∈ {b | f b = k}} = ∅ := by
      ext ω
      simp only [Set.mem_ofPred_eq, Set.mem_empty_iff_false, iff_false]
      rintro ⟨b, t', h, rfl⟩
      have := hf _ _ _ h
      omega
    rw [this, measure_empty]
  have hae : ∀ᵐ k ∂countLaw μ value m f, k ≤ 1 := by
    rw [ae_iff_of_countable]
    intro k hk
    by_contra hc
    apply hk
    rw [countLaw_singleton, hzero k (by omega), ENNReal.zero_div]
  have hint : expectedCount μ value m f = (countLaw μ value m f {1}).toReal := by
    unfold expectedCount
    have : (fun k : ℕ => (k:ℝ)) =ᵐ[countLaw μ value m f] Set.indicator {1} (fun _ => (1:ℝ)) := by
      filter_upwards [hae] with k hk
      rcases Nat.le_one_iff_eq_zero_or_eq_one.1 hk with rfl | rfl
      · simp
      · simp
    rw [integral_congr_ae this, integral_indicator (measurableSet_singleton 1), setIntegral_const]
    simp [measureReal_def]
  rw [countLaw_singleton] at hint
  by_cases h0 : chance μ value m Set.univ = 0
  · have hl : countLaw μ value m f = 0 := by
      unfold countLaw
      have : ∀ k, chance μ value m {b | f b = k} = 0 := fun k =>
        le_antisymm ((measure_mono (fun ω hω => by
          obtain ⟨b, t', h1, _⟩ := hω
          exact ⟨b, t', h1, trivial⟩)).trans h0.le) bot_le
      simp [this]
    refine ⟨?_, ?_, hint⟩
    · rw [hl]; exact memLp_measure_zero
    · unfold countVariance
      rw [hl]
      unfold variance evariance
      simp
  · haveI := countLaw_prob μ value hm f h0
    refine ⟨?_, ?_, hint⟩
    · refine MemLp.of_bound (measurable_from_nat).aestronglyMeasurable 1 ?_
      filter_upwards [hae] with k hk
      rw [Real.norm_of_nonneg (Nat.cast_nonneg k)]
      exact_mod_cast hk
    · have := variance_le_sq_of_bounded (μ := countLaw μ value m f) (X := fun k : ℕ => (k:ℝ)) (a := 0) (b := 1) (by
        filter_upwards [hae] with k hk
        exact ⟨Nat.cast_nonneg k, by exact_mod_cast hk⟩) (measurable_from_nat).aemeasurable
      unfold countVariance
      norm_num at this ⊢
      exact this

end counts

section library
variable {F α Thread : Type} [Scalar F]

theorem howMany_flatten {β : Type} (P : β → Prop) (l : List (List β)) :
    howMany P l.flatten = (l.map (howMany P)).sum := by
  classical
  induction l with
  | nil => rfl
  | cons a l ih =>
    rw [List.flatten_cons, List.map_cons, List.sum_cons, ← ih]
    unfold howMany
    rw [List.countP_append]

/-- What the samples of `run_samples` are. -/
theorem run_samples_each {rcpr : Rcpr F} {fuel : ℕ} {m : Material F} {o : Options F} {i : IonDict F}
    {energy x ux uy uz : F} {tapes : ℕ → Tape F} {n : ℕ} {outs : List (List (Particle F))}
    (h : run_samples rcpr fuel m o i energy x ux uy uz tapes n = .ok outs) (hn : 0 < n) :
    ∃ p, Particle.default_incident i.m i.Z energy i.Ec i.Es x ux uy uz = .ok p ∧ outs.length = n ∧
      ∀ (k : ℕ) (out : List (Particle F)), outs[k]? = some out →
        ∃ t', single_ion_bca rcpr fuel p m o (tapes k) = .ok (out, t') := by
  obtain ⟨h1, h2⟩ := collectN_length h
  cases hp : Particle.default_incident i.m i.Z energy i.Ec i.Es x ux uy uz with
  | error e =>
    have := h2 0 outs[0] (List.getElem?_eq_getElem (by omega))
    rw [hp] at this
    cases this
  | ok p =>
    refine ⟨p, rfl, h1, fun k out ho => ?_⟩
    have := h2 k out ho
    rw [hp] at this
    simp only [bind, Except.bind, pure, Except.pure] at this
    split at this
    · simp at this
    · rename_i r hr
      obtain ⟨o', t'⟩ := r
      simp only [Except.ok.injEq] at this
      subst this
      exact ⟨t', hr⟩

/-- The samples on the streams of an execution have the recorded results. -/
theorem samples_sum {n : ℕ} {value : α → F} {m : M F (List (Particle F))}
    {next : List (Fin n × List α × List (Particle F)) → Thread × Fin n} (hnext : EachOnce next)
    {h : List (Fin n × List α × List (Particle F))} {ω : Thread × ℕ → α} {tapes : ℕ → Tape F}
    {outs : List (List (Particle F))}
    (h1 : Execution value (fun _ => m) next [] ω h) (h2 : Given value h tapes) (hlen : outs.length = n)
    (h3 : ∀ (k : ℕ) (out : List (Particle F)), outs[k]? = some out → ∃ t', m (tapes k) = .ok (out, t'))
    (P : Particle F → Prop) :
    (h.map fun e => howMany P e.2.2).sum = howMany P outs.flatten := by
  obtain ⟨_, _, hd⟩ := execution_all hnext h1 (by simp) (fun e he => by cases he)
  subst hlen
  have hsum := execution_sum hnext h1 (fun i => howMany P outs[i]) (howMany P) (by
    intro e he
    obtain ⟨t', ht'⟩ := given_run (prog := fun _ => m) h2 hd e he
    obtain ⟨t'', ht''⟩ := h3 e.1 outs[e.1] (List.getElem?_eq_getElem e.1.2)
    rw [ht'] at ht''
    injection ht'' with ht''
    injection ht'' with ht''
    rw [ht''])
  rw [hsum, howMany_flatten, ← List.sum_ofFn]
  congr 1
  apply List.ext_getElem
  · simp
  · intro k hk1 hk2
    simp

/-- Result `k` is that of `m` on stream `k`. -/
def SamplesOf (m : M F (List (Particle F))) (n : ℕ) (tapes : ℕ → Tape F) (outs : List (List (Particle F))) : Prop :=
  outs.length = n ∧ ∀ (k : ℕ) (out : List (Particle F)), outs[k]? = some out → ∃ t', m (tapes k) = .ok (out, t')

theorem run_samples_one (rcpr : Rcpr F) (fuel : ℕ) (m : Material F) (o : Options F) (i : IonDict F)
    (energy x ux uy uz : F) (n : ℕ) (hn : 0 < n) :
    (∀ tapes outs, run_samples rcpr fuel m o i energy x ux uy uz tapes n ≠ .ok outs) ∨
    ∃ p, Particle.default_incident i.m i.Z energy i.Ec i.Es x ux uy uz = .ok p ∧
      ∀ tapes outs, run_samples rcpr fuel m o i energy x ux uy uz tapes n = .ok outs →
        SamplesOf (single_ion_bca rcpr fuel p m o) n tapes outs := by
  by_cases hex : ∃ tapes outs, run_samples rcpr fuel m o i energy x ux uy uz tapes n = .ok outs
  · obtain ⟨tapes, outs, h⟩ := hex
    obtain ⟨p, hp, -⟩ := run_samples_each h hn
    refine .inr ⟨p, hp, fun tapes outs h => ?_⟩
    obtain ⟨p', hp', h1, h2⟩ := run_samples_each h hn
    rw [hp] at hp'
    cases hp'
    exact ⟨h1, h2⟩
  · exact .inl fun tapes outs h => hex ⟨tapes, outs, h⟩

theorem sputtering_samples_one (rcpr : Rcpr F) (fuel : ℕ) (ext : Ext F) (ion target : PyDict F) (energy angle : F)
    (n : ℕ) (hn : 0 < n) :
    (∀ tapes outs, sputtering_samples rcpr fuel ext ion target energy angle n tapes ≠ .ok outs) ∨
    ∃ Z2 m2 Ec2 Es2 Eb2 n2 mat p, TargetEntries target Z2 m2 Ec2 Es2 Eb2 n2 ∧
      ShotAt ion energy angle [Z2] [m2] [Ec2] [Es2] [Eb2] [n2] mat p ∧
      ∀ tapes outs, sputtering_samples rcpr fuel ext ion target energy angle n tapes = .ok outs →
        SamplesOf (single_ion_bca rcpr fuel p mat (Options.default_options true)) n tapes outs := by
  unfold sputtering_samples
  cases ha : check_angle angle with
  | error e => exact .inl fun tapes outs h => by simp only [bind, Except.bind] at h; cases h
  | ok _ =>
  cases hi : unpack_ion ion with
  | error e => exact .inl fun tapes outs h => by simp only [bind, Except.bind] at h; cases h
  | ok i =>
  cases ht : unpack_target target with
  | error e => exact .inl fun tapes outs h => by simp only [bind, Except.bind] at h; cases h
  | ok t =>
  cases hm : mesh0d_material ext (compound_parameters [t.Z] [t.m] [t.Ec] [t.Es] [t.Eb] 1 [0] .AVERAGE) "M" [t.n] with
  | error e => exact .inl fun tapes outs h => by simp only [bind, Except.bind, hm] at h; cases h
  | ok mm =>
    obtain ⟨mat, mesh⟩ := mm
    obtain ⟨hmat, -, -, hb⟩ := mesh0d_material_ok (u := (1.0:F)) rfl hm
    rcases run_samples_one rcpr fuel mat (Options.default_options true) i energy (-mesh.energy_barrier_thickness)
      (cos (angle/180.0*pi) + 1e-6) (sin (angle/180.0*pi) - 1e-6) 0.0 n hn with h0 | ⟨p, hp, h1⟩
    · exact .inl fun tapes outs h => by
        simp only [bind, Except.bind, hm, incidence] at h
        exact h0 tapes outs h
    · refine .inr ⟨t.Z, t.m, t.Ec, t.Es, t.Eb, t.n, mat, p, unpack_target_ok ht, ⟨hmat, i.Z, i.m, i.Ec, i.Es, _, _,
        unpack_ion_ok hi, rfl, rfl, ?_⟩, fun tapes outs h => ?_⟩
      · have := (default_incident_ok hp).1
        rw [hb] at this
        exact this
      · simp only [bind, Except.bind, hm, incidence] at h
        exact h1 tapes outs h

theorem reflection_samples_one (rcpr : Rcpr F) (fuel : ℕ) (ext : Ext F) (ion target : PyDict F) (energy angle : F)
    (n : ℕ) (hn : 0 < n) :
    (∀ tapes outs, reflection_samples rcpr fuel ext ion target energy angle n tapes ≠ .ok outs) ∨
    ∃ Z2 m2 Ec2 Es2 Eb2 n2 mat p, TargetEntries target Z2 m2 Ec2 Es2 Eb2 n2 ∧
      ShotAt ion energy angle [Z2] [m2] [Ec2] [Es2] [Eb2] [n2] mat p ∧
      ∀ tapes outs, reflection_samples rcpr fuel ext ion target energy angle n tapes = .ok outs →
        SamplesOf (single_ion_bca rcpr fuel p mat (Options.default_options false)) n tapes outs := by
  unfold reflection_samples
  cases ha : check_angle angle with
  | error e => exact .inl fun tapes outs h => by simp only [bind, Except.bind] at h; cases h
  | ok _ =>
  cases hi : unpack_ion ion with
  | error e => exact .inl fun tapes outs h => by simp only [bind, Except.bind] at h; cases h
  | ok i =>
  cases ht : unpack_target target with
  | error e => exact .inl fun tapes outs h => by simp only [bind, Except.bind] at h; cases h
  | ok t =>
  cases hm : mesh0d_material ext (compound_parameters [t.Z] [t.m] [t.Ec] [t.Es] [t.Eb] 1 [0] .AVERAGE) "M" [t.n] with
  | error e => exact .inl fun tapes outs h => by simp only [bind, Except.bind, hm] at h; cases h
  | ok mm =>
    obtain ⟨mat, mesh⟩ := mm
    obtain ⟨hmat, -, -, hb⟩ := mesh0d_material_ok (u := (1.0:F)) rfl hm
    rcases run_samples_one rcpr fuel mat (Options.default_options false) i energy (-mesh.energy_barrier_thickness)
      (cos (angle/180.0*pi) + 1e-6) (sin (angle/180.0*pi) - 1e-6) 0.0 n hn with h0 | ⟨p, hp, h1⟩
    · exact .inl fun tapes outs h => by
        simp only [bind, Except.bind, hm, incidence] at h
        exact h0 tapes outs h
    · refine .inr ⟨t.Z, t.m, t.Ec, t.Es, t.Eb, t.n, mat, p, unpack_target_ok ht, ⟨hmat, i.Z, i.m, i.Ec, i.Es, _, _,
        unpack_ion_ok hi, rfl, rfl, ?_⟩, fun tapes outs h => ?_⟩
      · have := (default_incident_ok hp).1
        rw [hb] at this
        exact this
      · simp only [bind, Except.bind, hm, incidence] at h
        exact h1 tapes outs h

theorem compound_samples_one (rcpr : Rcpr F) (fuel : ℕ) (ext : Ext F) (ion : PyDict F) (targets : List (PyDict F))
    (ns : List F) (energy angle : F) (n : ℕ) (hn : 0 < n) :
    (∀ tapes outs, compound_reflection_samples rcpr fuel ext ion targets ns energy angle n tapes ≠ .ok outs) ∨
    ∃ Z2 m2 Ec2 Es2 Eb2 mat p,
      List.Forall₂ (fun t x => t "Z" = some (.float x)) targets Z2 ∧
      List.Forall₂ (fun t x => t "m" = some (.float x)) targets m2 ∧
      List.Forall₂ (fun t x => t "Ec" = some (.float x)) targets Ec2 ∧
      List.Forall₂ (fun t x => t "Es" = some (.float x)) targets Es2 ∧
      List.Forall₂ (fun t x => t "Eb" = some (.float x)) targets Eb2 ∧
      ShotAt ion energy angle Z2 m2 Ec2 Es2 Eb2 ns mat p ∧
      ∀ tapes outs, compound_reflection_samples rcpr fuel ext ion targets ns energy angle n tapes = .ok outs →
        SamplesOf (single_ion_bca rcpr fuel p mat (Options.default_options false)) n tapes outs := by
  unfold compound_reflection_samples
  cases ha : check_angle angle with
  | error e => exact .inl fun tapes outs h => by simp only [bind, Except.bind] at h; cases h
  | ok _ =>
  cases hi : unpack_ion ion with
  | error e => exact .inl fun tapes outs h => by simp only [bind, Except.bind] at h; cases h
  | ok i =>
  cases hZ : unpack_all targets "Z" with
  | error e => exact .inl fun tapes outs h => by simp only [bind, Except.bind] at h; cases h
  | ok Z2 =>
  cases hm2 : unpack_all targets "m" with
  | error e => exact .inl fun tapes outs h => by simp only [bind, Except.bind] at h; cases h
  | ok m2 =>
  cases hEc : unpack_all targets "Ec" with
  | error e => exact .inl fun tapes outs h => by simp only [bind, Except.bind] at h; cases h
  | ok Ec2 =>
  cases hEs : unpack_all targets "Es" with
  | error e => exact .inl fun tapes outs h => by simp only [bind, Except.bind] at h; cases h
  | ok Es2 =>
  cases hEb : unpack_all targets "Eb" with
  | error e => exact .inl fun tapes outs h => by simp only [bind, Except.bind] at h; cases h
  | ok Eb2 =>
  cases hm : mesh0d_material ext (compound_parameters Z2 m2 Ec2 Es2 Eb2 Z2.length (List.replicate Z2.length 0) .AVERAGE)
    "M" ns with
  | error e => exact .inl fun tapes outs h => by simp only [bind, Except.bind, hm] at h; cases h
  | ok mm =>
    obtain ⟨mat, mesh⟩ := mm
    obtain ⟨hmat, -, -, hb⟩ := mesh0d_material_ok (u := (1.0:F)) rfl hm
    rcases run_samples_one rcpr fuel mat (Options.default_options false) i energy (-mesh.energy_barrier_thickness)
      (cos (angle/180.0*pi) + 1e-6) (sin (angle/180.0*pi) - 1e-6) 0.0 n hn with h0 | ⟨p, hp, h1⟩
    · exact .inl fun tapes outs h => by
        simp only [bind, Except.bind, hm, incidence] at h
        exact h0 tapes outs h
    · refine .inr ⟨Z2, m2, Ec2, Es2, Eb2, mat, p, mapM_unpack_ok hZ, mapM_unpack_ok hm2,
        mapM_unpack_ok hEc, mapM_unpack_ok hEs, mapM_unpack_ok hEb, ⟨hmat, i.Z, i.m, i.Ec, i.Es, _, _,
        unpack_ion_ok hi, rfl, rfl, ?_⟩, fun tapes outs h => ?_⟩
      · have := (default_incident_ok hp).1
        rw [hb] at this
        exact this
      · simp only [bind, Except.bind, hm, incidence] at h
        exact h1 tapes outs h

/-- With `fuel` steps a cascade has at most `fuel` particles. -/
theorem cascade_length (rcpr : Rcpr F) (fuel : ℕ) (p : Particle F) (mat : Material F) (o : Options F)
    {t t' : Tape F} {out : List (Particle F)} (h : single_ion_bca rcpr fuel p mat o t = .ok (out, t')) :
    out.length ≤ fuel := by
  have key : ∀ (n : ℕ) (s s' : CascadeState F) (t t' : Tape F),
      whileFuel (fun s : CascadeState F => decide (0 < s.particle_index)) (cascade_body rcpr mat o fuel) n s t =
        .ok (s', t') → s'.particle_output.length ≤ s.particle_output.length + n := by
    intro n
    induction n with
    | zero => intro s s' t t' h; cases h
    | succ n ih =>
      intro s s' t t' h
      rw [whileFuel_succ_run] at h
      split at h
      · cases hb : cascade_body rcpr mat o fuel s t with
        | error e => rw [hb] at h; cases h
        | ok x =>
          obtain ⟨s1, t1⟩ := x
          rw [hb] at h
          have h1 := ih s1 s' t1 t' h
          have h2 : s1.particle_output.length = s.particle_output.length + 1 := by
            unfold cascade_body at hb
            obtain ⟨⟨p1, ps⟩, t2, -, hb⟩ := m_bind_ok.1 hb
            obtain ⟨tr, t3, -, hb⟩ := m_bind_ok.1 hb
            have := congrArg Prod.fst (m_pure_ok.1 hb)
            dsimp only at this
            rw [this]
            simp
          omega
      · injection h with h
        injection h with h1 h2
        subst h1
        omega
  unfold single_ion_bca at h
  obtain ⟨s, t2, h1, h2⟩ := m_bind_ok.1 h
  have h3 := key _ _ _ _ _ h1
  have := congrArg Prod.fst (m_pure_ok.1 h2)
  dsimp only at this
  rw [this]
  simpa using h3

end library

section
variable {F α β : Type} [Countable α] [MeasurableSpace α] [MeasurableSingletonClass α]
  (μ : Measure α) [IsProbabilityMeasure μ] (value : α → F)

/-- A bounded count has a finite variance. -/
theorem bounded_law {m : M F β} (hm : DrawsInOrder m) (f : β → ℕ) (B : ℕ)
    (hf : ∀ t b t', m t = .ok (b, t') → f b ≤ B) :
    MemLp (fun k : ℕ => (k : ℝ)) 2 (countLaw μ value m f) := by
  have hzero : ∀ k, B < k → chance μ value m {b | f b = k} = 0 := by
    intro k hk
    unfold chance
    have : {ω : ℕ → α | ∃ b t', m (fun n => value (ω n)) = .ok (b, t') ∧ b ∈ {b | f b = k}} = ∅ := by
      ext ω
      simp only [Set.mem_ofPred_eq, Set.mem_empty_iff_false, iff_false]
      rintro ⟨b, t', h, rfl⟩
      have := hf _ _ _ h
      omega
    rw [this, measure_empty]
  have hae : ∀ᵐ k ∂countLaw μ value m f, k ≤ B := by
    rw [ae_iff_of_countable]
    intro k hk
    by_contra hc
    apply hk
    rw [countLaw_singleton, hzero k (by omega), ENNReal.zero_div]
  by_cases h0 : chance μ value m Set.univ = 0
  · have hl : countLaw μ value m f = 0 := by
      unfold countLaw
      have : ∀ k, chance μ value m {b | f b = k} = 0 := fun k =>
        le_antisymm ((measure_mono (fun ω hω => by
          obtain ⟨b, t', h1, _⟩ := hω
          exact ⟨b, t', h1, trivial⟩)).trans h0.le) bot_le
      simp [this]
    rw [hl]; exact memLp_measure_zero
  · haveI := countLaw_prob μ value hm f h0
    refine MemLp.of_bound (measurable_from_nat).aestronglyMeasurable B ?_
    filter_upwards [hae] with k hk
    rw [Real.norm_of_nonneg (Nat.cast_nonneg k)]
    exact_mod_cast hk

end

section yields
variable {α : Type} [Countable α] [MeasurableSpace α] [MeasurableSingletonClass α]
  (μ : Measure α) [IsProbabilityMeasure μ] (value : α → ℝ)

/-- The probability that an ion is reflected, as an expected count. -/
theorem reflected_law {rcpr : Rcpr ℝ} {fuel : ℕ} {p : Particle ℝ} {mat : Material ℝ} (hs : p.stopped = false)
    (hl : p.left = false) :
    ∀ m : M ℝ (List (Particle ℝ)), m = single_ion_bca rcpr fuel p mat (Options.default_options false) →
    DrawsInOrder m ∧ MemLp (fun k : ℕ => (k : ℝ)) 2 (countLaw μ value m (howMany ReflectedBack)) ∧
      countVariance μ value m (howMany ReflectedBack) ≤ 1/4 ∧
      expectedCount μ value m (howMany ReflectedBack) =
        (chance μ value m {out | ∃ q ∈ out, ReflectedBack q}/chance μ value m Set.univ).toReal ∧
      ∀ t out t', m t = .ok (out, t') → howMany ReflectedBack out ≤ 1 := by
  classical
  intro m hm
  have hlen : ∀ t out t', m t = .ok (out, t') → out.length = 1 := by
    intro t out t' h
    rw [hm] at h
    exact C03_no_recoils rcpr mat (Options.default_options false) fuel p t t' out hs hl rfl h
  have h1 : ∀ t out t', m t = .ok (out, t') → howMany ReflectedBack out ≤ 1 := by
    intro t out t' h
    rw [← hlen t out t' h]
    exact List.countP_le_length
  have hdr : DrawsInOrder m := by rw [hm]; exact C74_stream _ _ _ _ _
  obtain ⟨h2, h3, h4⟩ := binary_law μ value hdr (howMany ReflectedBack) h1
  refine ⟨hdr, h2, h3, ?_, h1⟩
  rw [h4]
  congr 2
  unfold chance
  congr 1
  ext ω
  simp only [Set.mem_ofPred_eq]
  constructor
  · rintro ⟨b, t', hb, hc⟩
    refine ⟨b, t', hb, ?_⟩
    have : 0 < howMany ReflectedBack b := by omega
    unfold howMany at this
    rw [List.countP_pos_iff] at this
    obtain ⟨q, hq, hd⟩ := this
    exact ⟨q, hq, of_decide_eq_true hd⟩
  · rintro ⟨b, t', hb, q, hq, hr⟩
    refine ⟨b, t', hb, ?_⟩
    have h5 := h1 _ _ _ hb
    have : 0 < howMany ReflectedBack b := by
      unfold howMany
      rw [List.countP_pos_iff]
      exact ⟨q, hq, decide_eq_true hr⟩
    omega

/-- **C98, `reflection_coefficient`.** Unless it refuses its arguments, there is an ion `p` and a target `mat`
that all its samples simulate, and the number it returns differs from the probability `R` that the ion is reflected (among the cascades that end) by `ε` or more with
probability at most `1/(4nε²)`, whatever the threads, their order of work and the interleaving of their
counting. -/
theorem C98_reflection_coefficient (rcpr : Rcpr ℝ) (fuel : ℕ) (ext : Ext ℝ) (ion target : PyDict ℝ) (energy angle : ℝ)
    (n : ℕ) (hn : 0 < n) (hn31 : n < 2^31) :
    (∀ tapes r, ¬ reflection_coefficient rcpr fuel ext ion target energy angle n tapes r) ∨
    ∃ Z2 m2 Ec2 Es2 Eb2 n2 mat p R, TargetEntries target Z2 m2 Ec2 Es2 Eb2 n2 ∧
      ShotAt ion energy angle [Z2] [m2] [Ec2] [Es2] [Eb2] [n2] mat p ∧
      R = (chance μ value (single_ion_bca rcpr fuel p mat (Options.default_options false))
            {out | ∃ q ∈ out, ReflectedBack q}/
          chance μ value (single_ion_bca rcpr fuel p mat (Options.default_options false)) Set.univ).toReal ∧
      (∀ tapes r, reflection_coefficient rcpr fuel ext ion target energy angle n tapes r → ∀ k < n, ∃ out t',
        single_ion_bca rcpr fuel p mat (Options.default_options false) (tapes k) = .ok (out, t')) ∧
      ∀ (Thread : Type) (next : List (Fin n × List α × List (Particle ℝ)) → Thread × Fin n), EachOnce next →
      ∀ ε : ℝ, 0 < ε →
        threadStreams Thread μ {ω | ∃ h tapes r,
          Execution value (fun _ => single_ion_bca rcpr fuel p mat (Options.default_options false)) next [] ω h ∧
          Given value h tapes ∧ reflection_coefficient rcpr fuel ext ion target energy angle n tapes r ∧
          ε ≤ |r.1 - R|} ≤ ENNReal.ofReal (1/(4*n*ε^2)) := by
  rcases reflection_samples_one rcpr fuel ext ion target energy angle n hn with
    h0 | ⟨Z2, m2, Ec2, Es2, Eb2, n2, mat, p, h1, h2, h3⟩
  · left
    rintro tapes r ⟨outs, final, h, -⟩
    exact h0 tapes outs h
  · right
    obtain ⟨_, _, _, _, _, _, _, _, _, hp⟩ := h2.ion
    refine ⟨Z2, m2, Ec2, Es2, Eb2, n2, mat, p, _, h1, h2, rfl, ?samples, fun Thread next hnext ε hε => ?bound⟩
    case samples =>
      rintro tapes r ⟨outs, final, h, -⟩ k hk
      obtain ⟨hlen, hout⟩ := h3 tapes outs h
      obtain ⟨t', ht⟩ := hout k _ (List.getElem?_eq_getElem (by omega))
      exact ⟨_, t', ht⟩
    obtain ⟨m, hm⟩ : ∃ m, m = single_ion_bca rcpr fuel p mat (Options.default_options false) := ⟨_, rfl⟩
    obtain ⟨k1, k2, k3, k4, k5⟩ := reflected_law μ value hp.stopped hp.left m hm
    rw [← hm] at h3
    simp only [← hm]
    rw [← k4]
    refine (measure_mono ?_).trans ((C98_statistical_error (Thread := Thread) μ value hn k1 (howMany ReflectedBack) k2
      next hnext ε hε).trans (ENNReal.ofReal_le_ofReal ?_))
    · rintro ω ⟨h, tapes, r, he, hg, hr, hd⟩
      obtain ⟨outs, hr1, -, hr2⟩ := reflection_coefficient_value hr
      obtain ⟨hlen, hout⟩ := h3 tapes outs hr1
      have hsum := samples_sum hnext he hg hlen hout ReflectedBack
      have hle : howMany ReflectedBack outs.flatten ≤ n := by
        rw [howMany_flatten, ← hlen]
        have : ∀ x ∈ outs.map (howMany ReflectedBack), x ≤ 1 := by
          intro x hx
          obtain ⟨out, ho, rfl⟩ := List.mem_map.1 hx
          obtain ⟨k, hk⟩ := List.getElem?_of_mem ho
          obtain ⟨t', ht⟩ := hout k out hk
          exact k5 _ _ _ ht
        have := List.sum_le_card_nsmul _ 1 this
        simpa using this
      obtain ⟨hv, -⟩ := hr2 (by omega)
      refine ⟨h, he, ?_⟩
      rw [hv, ← hsum] at hd
      simpa only [ofNat_real] using hd
    · have hn0 : (0:ℝ) < n := by exact_mod_cast hn
      rw [div_le_div_iff₀ (by positivity) (by positivity)]
      have : 0 < (n:ℝ)*ε^2 := by positivity
      nlinarith

/-- **C98, `compound_reflection_coefficient`**, likewise. -/
theorem C98_compound_reflection_coefficient (rcpr : Rcpr ℝ) (fuel : ℕ) (ext : Ext ℝ) (ion : PyDict ℝ)
    (targets : List (PyDict ℝ)) (ns : List ℝ) (energy angle : ℝ) (n : ℕ) (hn : 0 < n) (hn31 : n < 2^31) :
    (∀ tapes r, ¬ compound_reflection_coefficient rcpr fuel ext ion targets ns energy angle n tapes r) ∨
    ∃ Z2 m2 Ec2 Es2 Eb2 mat p R,
      List.Forall₂ (fun t x => t "Z" = some (.float x)) targets Z2 ∧
      List.Forall₂ (fun t x => t "m" = some (.float x)) targets m2 ∧
      List.Forall₂ (fun t x => t "Ec" = some (.float x)) targets Ec2 ∧
      List.Forall₂ (fun t x => t "Es" = some (.float x)) targets Es2 ∧
      List.Forall₂ (fun t x => t "Eb" = some (.float x)) targets Eb2 ∧
      ShotAt ion energy angle Z2 m2 Ec2 Es2 Eb2 ns mat p ∧
      R = (chance μ value (single_ion_bca rcpr fuel p mat (Options.default_options false))
            {out | ∃ q ∈ out, ReflectedBack q}/
          chance μ value (single_ion_bca rcpr fuel p mat (Options.default_options false)) Set.univ).toReal ∧
      (∀ tapes r, compound_reflection_coefficient rcpr fuel ext ion targets ns energy angle n tapes r → ∀ k < n, ∃ out t',
        single_ion_bca rcpr fuel p mat (Options.default_options false) (tapes k) = .ok (out, t')) ∧
      ∀ (Thread : Type) (next : List (Fin n × List α × List (Particle ℝ)) → Thread × Fin n), EachOnce next →
      ∀ ε : ℝ, 0 < ε →
        threadStreams Thread μ {ω | ∃ h tapes r,
          Execution value (fun _ => single_ion_bca rcpr fuel p mat (Options.default_options false)) next [] ω h ∧
          Given value h tapes ∧
          compound_reflection_coefficient rcpr fuel ext ion targets ns energy angle n tapes r ∧
          ε ≤ |r.1 - R|} ≤ ENNReal.ofReal (1/(4*n*ε^2)) := by
  rcases compound_samples_one rcpr fuel ext ion targets ns energy angle n hn with
    h0 | ⟨Z2, m2, Ec2, Es2, Eb2, mat, p, a1, a2, a3, a4, a5, h2, h3⟩
  · left
    rintro tapes r ⟨outs, final, h, -⟩
    exact h0 tapes outs h
  · right
    obtain ⟨_, _, _, _, _, _, _, _, _, hp⟩ := h2.ion
    refine ⟨Z2, m2, Ec2, Es2, Eb2, mat, p, _, a1, a2, a3, a4, a5, h2, rfl, ?samples, fun Thread next hnext ε hε => ?bound⟩
    case samples =>
      rintro tapes r ⟨outs, final, h, -⟩ k hk
      obtain ⟨hlen, hout⟩ := h3 tapes outs h
      obtain ⟨t', ht⟩ := hout k _ (List.getElem?_eq_getElem (by omega))
      exact ⟨_, t', ht⟩
    obtain ⟨m, hm⟩ : ∃ m, m = single_ion_bca rcpr fuel p mat (Options.default_options false) := ⟨_, rfl⟩
    obtain ⟨k1, k2, k3, k4, k5⟩ := reflected_law μ value hp.stopped hp.left m hm
    rw [← hm] at h3
    simp only [← hm]
    rw [← k4]
    refine (measure_mono ?_).trans ((C98_statistical_error (Thread := Thread) μ value hn k1 (howMany ReflectedBack) k2
      next hnext ε hε).trans (ENNReal.ofReal_le_ofReal ?_))
    · rintro ω ⟨h, tapes, r, he, hg, hr, hd⟩
      obtain ⟨outs, hr1, -, hr2⟩ := compound_reflection_coefficient_value hr
      obtain ⟨hlen, hout⟩ := h3 tapes outs hr1
      have hsum := samples_sum hnext he hg hlen hout ReflectedBack
      have hle : howMany ReflectedBack outs.flatten ≤ n := by
        rw [howMany_flatten, ← hlen]
        have : ∀ x ∈ outs.map (howMany ReflectedBack), x ≤ 1 := by
          intro x hx
          obtain ⟨out, ho, rfl⟩ := List.mem_map.1 hx
          obtain ⟨k, hk⟩ := List.getElem?_of_mem ho
          obtain ⟨t', ht⟩ := hout k out hk
          exact k5 _ _ _ ht
        have := List.sum_le_card_nsmul _ 1 this
        simpa using this
      obtain ⟨hv, -⟩ := hr2 (by omega)
      refine ⟨h, he, ?_⟩
      rw [hv, ← hsum] at hd
      simpa only [ofNat_real] using hd
    · have hn0 : (0:ℝ) < n := by exact_mod_cast hn
      rw [div_le_div_iff₀ (by positivity) (by positivity)]
      have : 0 < (n:ℝ)*ε^2 := by positivity
      nlinarith

/-- **C98, `sputtering_yield`.** Unless it refuses its arguments, there is an ion `p` and a target `mat`
that all its samples simulate, and the number it returns differs from the expected number of atoms sputtered by the ion (among the cascades that end) by `ε` or more with
probability at most the variance (which is finite) over `nε²`, as long as the 32-bit counter does not
overflow. -/
theorem C98_sputtering_yield (rcpr : Rcpr ℝ) (fuel : ℕ) (ext : Ext ℝ) (ion target : PyDict ℝ) (energy angle : ℝ)
    (n : ℕ) (hn : 0 < n) :
    (∀ tapes r, ¬ sputtering_yield rcpr fuel ext ion target energy angle n tapes r) ∨
    ∃ Z2 m2 Ec2 Es2 Eb2 n2 mat p Y V, TargetEntries target Z2 m2 Ec2 Es2 Eb2 n2 ∧
      ShotAt ion energy angle [Z2] [m2] [Ec2] [Es2] [Eb2] [n2] mat p ∧
      Y = expectedCount μ value (single_ion_bca rcpr fuel p mat (Options.default_options true))
        (howMany SputteredAway) ∧
      V = countVariance μ value (single_ion_bca rcpr fuel p mat (Options.default_options true))
        (howMany SputteredAway) ∧
      MemLp (fun k : ℕ => (k : ℝ)) 2
        (countLaw μ value (single_ion_bca rcpr fuel p mat (Options.default_options true)) (howMany SputteredAway)) ∧
      (∀ tapes r, sputtering_yield rcpr fuel ext ion target energy angle n tapes r → ∀ k < n, ∃ out t',
        single_ion_bca rcpr fuel p mat (Options.default_options true) (tapes k) = .ok (out, t')) ∧
      ∀ (Thread : Type) (next : List (Fin n × List α × List (Particle ℝ)) → Thread × Fin n), EachOnce next →
      ∀ ε : ℝ, 0 < ε →
        threadStreams Thread μ {ω | ∃ h tapes r,
          Execution value (fun _ => single_ion_bca rcpr fuel p mat (Options.default_options true)) next [] ω h ∧
          Given value h tapes ∧ sputtering_yield rcpr fuel ext ion target energy angle n tapes r ∧
          (h.map fun e => howMany SputteredAway e.2.2).sum < 2^31 ∧
          ε ≤ |r - Y|} ≤ ENNReal.ofReal (V/(n*ε^2)) := by
  rcases sputtering_samples_one rcpr fuel ext ion target energy angle n hn with
    h0 | ⟨Z2, m2, Ec2, Es2, Eb2, n2, mat, p, h1, h2, h3⟩
  · left
    rintro tapes r ⟨outs, final, h, -⟩
    exact h0 tapes outs h
  · right
    have hvar := bounded_law μ value (C74_stream rcpr fuel p mat (Options.default_options true))
      (howMany SputteredAway) fuel (fun t out t' h => List.countP_le_length.trans (cascade_length _ _ _ _ _ h))
    refine ⟨Z2, m2, Ec2, Es2, Eb2, n2, mat, p, _, _, h1, h2, rfl, rfl, hvar, ?samples, fun Thread next hnext ε hε => ?bound⟩
    case samples =>
      rintro tapes r ⟨outs, final, h, -⟩ k hk
      obtain ⟨hlen, hout⟩ := h3 tapes outs h
      obtain ⟨t', ht⟩ := hout k _ (List.getElem?_eq_getElem (by omega))
      exact ⟨_, t', ht⟩
    refine (measure_mono ?_).trans (C98_statistical_error (Thread := Thread) μ value hn (C74_stream _ _ _ _ _)
      (howMany SputteredAway) hvar next hnext ε hε)
    rintro ω ⟨h, tapes, r, he, hg, hr, h31, hd⟩
    obtain ⟨outs, hr1, -, hr2⟩ := sputtering_yield_value hr
    obtain ⟨hlen, hout⟩ := h3 tapes outs hr1
    have hsum := samples_sum hnext he hg hlen hout SputteredAway
    rw [← hsum] at hr2
    refine ⟨h, he, ?_⟩
    rw [hr2 h31] at hd
    simpa only [ofNat_real] using hd

end yields
end RustBCA
