import Verif.Proofs.Means
import Verif.Proofs.FinitelyMany
import Verif.Props.Yields

/-!
# C116: the statistical error of energies and other quantities
-/

set_option linter.unusedSectionVars false

namespace RustBCA
open Scalar Spec MeasureTheory ProbabilityTheory

section
variable {F α β γ Thread : Type} [Scalar F] [Countable α] [MeasurableSpace α] [MeasurableSingletonClass α]
  (μ : Measure α) [IsProbabilityMeasure μ] (value : α → F)

/-- **C116, the statistical error.** The average of the quantity `f` over `n` samples, each of its own computation,
is off the average of the means by `ε` or more with probability at most the average variance over `nε²`. -/
theorem C116_statistical_error {n : ℕ} (hn : 0 < n) {prog : Fin n → M F β} (hm : ∀ i, DrawsInOrder (prog i))
    (f : β → ℝ) (hvar : ∀ i, FiniteVariance μ value (prog i) f)
    (next : List (Fin n × List α × β) → Thread × Fin n) (hnext : EachOnce next) (ε : ℝ) (hε : 0 < ε) :
    threadStreams Thread μ {ω | ∃ h, Execution value prog next [] ω h ∧
      ε ≤ |(h.map fun e => f e.2.2).sum/n - (∑ i, meanOf μ value (prog i) f)/n|} ≤
      ENNReal.ofReal ((∑ i, varianceOf μ value (prog i) f)/n/(n*ε^2)) := by
  classical
  by_cases h0 : ∃ i, chance μ value (prog i) Set.univ = 0
  · obtain ⟨i, hi⟩ := h0
    have hz : threadStreams Thread μ {ω | ∃ h, Execution value prog next [] ω h ∧
        ∀ e ∈ h, e.2.2 ∈ (fun _ => Set.univ : Fin n → Set β) e.1} = 0 := by
      refine (C97_independent (Thread := Thread) μ value prog hm next hnext (fun _ => Set.univ)).trans ?_
      exact Finset.prod_eq_zero (Finset.mem_univ i) hi
    refine le_trans (measure_mono ?_) (hz.le.trans bot_le)
    rintro ω ⟨h, h1, _⟩
    exact ⟨h, h1, fun _ _ => trivial⟩
  · have h0' : ∀ i, chance μ value (prog i) Set.univ ≠ 0 := fun i hi => h0 ⟨i, hi⟩
    obtain ⟨code, dec, hcode⟩ := exists_code μ value hm f
    have hmeans := fun i => means_code μ value (hm i) (hcode i)
    have hprob := fun i => countLaw_prob μ value (hm i) code (h0' i)
    have hcheb := chebyshev_values (ν := fun i => countLaw μ value (prog i) code) hn dec
      (fun i => (hmeans i).2.2 (hvar i)) ε hε
    simp only [fun i => (hmeans i).1, fun i => (hmeans i).2.1] at hcheb
    obtain ⟨S, hS⟩ : ∃ S, S = ∑ i, meanOf μ value (prog i) f := ⟨_, rfl⟩
    rw [← hS] at hcheb ⊢
    have hjoint := C107_joint_distribution (Thread := Thread) μ value hm code h0' next hnext
      {x | ε ≤ |(∑ i, dec (x i))/n - S/n|}
    refine le_trans (measure_mono (t := {ω | ∃ h x, Execution value prog next [] ω h ∧ (∀ e ∈ h, code e.2.2 = x e.1) ∧
      x ∈ {x : Fin n → ℕ | ε ≤ |(∑ i, dec (x i))/n - S/n|}}) ?_) ?_
    · rintro ω ⟨h, h1, h2⟩
      obtain ⟨hnd, hall, hd⟩ := execution_all hnext h1 (by simp) (fun e he => by cases he)
      have hx : ∃ x : Fin n → ℕ, ∀ e ∈ h, code e.2.2 = x e.1 := by
        have hch : ∀ i : Fin n, ∃ e ∈ h, e.1 = i := fun i => List.mem_map.1 (hall i)
        choose c hc1 hc2 using hch
        refine ⟨fun i => code (c i).2.2, fun e he => ?_⟩
        have : c e.1 = e := List.inj_on_of_nodup_map hnd (hc1 _) he (hc2 _)
        show code e.2.2 = code (c e.1).2.2
        rw [this]
      obtain ⟨x, hx⟩ := hx
      refine ⟨h, x, h1, hx, ?_⟩
      have hs := execution_total hnext h1 (fun i => dec (x i)) f (fun e he => by
        obtain ⟨a⟩ := generator_nonempty μ
        have hr := (hd e he).1 (fun k => e.2.1[k]?.getD a) (fun k x hx => by simp [hx])
        rw [← hx e he]
        exact (hcode _ _ _ _ hr).symm)
      show ε ≤ |(∑ i, dec (x i))/n - S/n|
      rw [← hs]
      exact h2
    rw [hjoint]
    have hle1 : (∏ i, chance μ value (prog i) Set.univ) ≤ 1 :=
      Finset.prod_le_one' fun i _ => chance_le_one μ value (prog i) _
    refine (mul_le_mul_left hle1 _).trans ?_
    rw [one_mul]
    exact hcheb

include μ in
/-- The results of the samples can be numbered, whatever arguments were drawn. -/
theorem beam_code {gs : List (M F γ)} (hgs : ∀ g ∈ gs, DrawsInOrder g) {sim : γ → M F β} (hs : ∀ x, DrawsInOrder (sim x))
    (f : β → ℝ) :
    ∃ (code : β → ℕ) (dec : ℕ → ℝ),
      (∀ (i : Fin gs.length) (ω : ℕ → α) b t', (gs[i] >>= sim) (fun n => value (ω n)) = .ok (b, t') → dec (code b) = f b) ∧
      ∀ (ω : ℕ → α) xs t', oneAfterAnother gs (fun n => value (ω n)) = .ok (xs, t') → ∀ x ∈ xs,
        ∀ (ω' : ℕ → α) b t'', sim x (fun n => value (ω' n)) = .ok (b, t'') → dec (code b) = f b := by
  classical
  obtain ⟨prog, hprog⟩ : ∃ prog : Fin gs.length ⊕ (List α × ℕ) → M F β, prog = Sum.elim (fun i => gs[i] >>= sim)
    (fun wj => if h : ∃ x : γ, ∃ xs, DrawsAndReturns value (oneAfterAnother gs) wj.1 xs ∧ xs[wj.2]? = some x
      then sim h.choose else liftM (.error .fuel : Res β)) := ⟨_, rfl⟩
  have hd : ∀ i, DrawsInOrder (prog i) := by
    rw [hprog]
    rintro (i | wj)
    · exact draws_bind (hgs _ (List.getElem_mem _)) hs
    · simp only [Sum.elim_inr]
      split
      · exact hs _
      · exact draws_lift _
  obtain ⟨code, dec, hcode⟩ := exists_code μ value hd f
  refine ⟨code, dec, fun i ω b t' h => hcode (.inl i) ω b t' (by rw [hprog]; exact h), ?_⟩
  intro ω xs t' hxs x hx ω' b t'' hb
  obtain ⟨w, hw, hdr⟩ := draws_word (draws_oneAfterAnother hgs) hxs
  obtain ⟨j, hj⟩ := List.getElem?_of_mem hx
  have hex : ∃ x : γ, ∃ xs, DrawsAndReturns value (oneAfterAnother gs) w xs ∧ xs[j]? = some x := ⟨x, xs, hdr, hj⟩
  have hch : hex.choose = x := by
    obtain ⟨xs', h1, h2⟩ := hex.choose_spec
    have := (draws_unique hw hw h1 hdr).2
    rw [this, hj] at h2
    exact (Option.some.inj h2).symm
  refine hcode (.inr (w, j)) ω' b t'' ?_
  rw [hprog]
  simp only [Sum.elim_inr]
  rw [dif_pos hex, hch]
  exact hb

/-- **C116, the statistical error over a beam.** The same for samples whose arguments are drawn one after the other
from the stream of the main thread. -/
theorem C116_beam_error {gs : List (M F γ)} (hne : gs ≠ []) (hgs : ∀ g ∈ gs, DrawsInOrder g)
    {sim : γ → M F β} (hs : ∀ x, DrawsInOrder (sim x)) (f : β → ℝ)
    (hvar : ∀ i : Fin gs.length, FiniteVariance μ value (gs[i] >>= sim) f)
    (next : (xs : List γ) → xs ≠ [] → List (Fin xs.length × List α × β) → Thread × Fin xs.length)
    (hnext : ∀ xs hx, EachOnce (next xs hx)) (ε : ℝ) (hε : 0 < ε) :
    programStreams Thread μ {ω | ∃ xs t' h, ∃ hx : xs ≠ [], oneAfterAnother gs (fun n => value (ω.1 n)) = .ok (xs, t') ∧
      Execution value (fun i : Fin xs.length => sim xs[i]) (next xs hx) [] ω.2 h ∧
      ε ≤ |(h.map fun e => f e.2.2).sum/gs.length -
        (∑ i : Fin gs.length, meanOf μ value (gs[i] >>= sim) f)/gs.length|} ≤
      ENNReal.ofReal ((∑ i : Fin gs.length, varianceOf μ value (gs[i] >>= sim) f)/gs.length/(gs.length*ε^2)) := by
  classical
  have hn : 0 < gs.length := List.length_pos_of_ne_nil hne
  have hm : ∀ i : Fin gs.length, DrawsInOrder (gs[i] >>= sim) := fun i =>
    draws_bind (hgs _ (List.getElem_mem _)) hs
  by_cases h0 : ∃ i : Fin gs.length, chance μ value (gs[i] >>= sim) Set.univ = 0
  · obtain ⟨i, hi⟩ := h0
    have hz := (C115_independent (Thread := Thread) μ value hne hgs hs next hnext (fun _ => Set.univ)).2
    rw [Finset.prod_eq_zero (Finset.mem_univ i) hi] at hz
    refine le_trans (measure_mono ?_) (hz.le.trans bot_le)
    rintro ω ⟨xs, t', h, hx, h1, h2, _⟩
    exact ⟨xs, t', h, hx, h1, h2, fun _ _ => trivial⟩
  · have h0' : ∀ i : Fin gs.length, chance μ value (gs[i] >>= sim) Set.univ ≠ 0 := fun i hi => h0 ⟨i, hi⟩
    obtain ⟨code, dec, hcode, hcode'⟩ := beam_code μ value hgs hs f
    have hmeans := fun i => means_code μ value (hm i) (hcode i)
    obtain ⟨ν, hν⟩ : ∃ ν : Fin gs.length → Measure ℕ, ν = fun i => countLaw μ value (gs[i] >>= sim) code := ⟨_, rfl⟩
    have hprob : ∀ i, IsProbabilityMeasure (ν i) := by
      rw [hν]; exact fun i => countLaw_prob μ value (hm i) code (h0' i)
    have hvar' : ∀ i, MemLp dec 2 (ν i) := by rw [hν]; exact fun i => (hmeans i).2.2 (hvar i)
    have hcheb := chebyshev_values hn dec hvar' ε hε
    have e1 : (∑ i, ∫ k, dec k ∂ν i) = ∑ i : Fin gs.length, meanOf μ value (gs[i] >>= sim) f := by
      rw [hν]; exact Finset.sum_congr rfl fun i _ => (hmeans i).1
    have e2 : (∑ i, variance dec (ν i)) = ∑ i : Fin gs.length, varianceOf μ value (gs[i] >>= sim) f := by
      rw [hν]; exact Finset.sum_congr rfl fun i _ => (hmeans i).2.1
    rw [e1, e2] at hcheb
    obtain ⟨S, hS⟩ : ∃ S, S = ∑ i : Fin gs.length, meanOf μ value (gs[i] >>= sim) f := ⟨_, rfl⟩
    rw [← hS] at hcheb ⊢
    have hjoint := C115_joint_distribution (Thread := Thread) μ value hne hgs hs code h0' next hnext
      {x | ε ≤ |(∑ i, dec (x i))/gs.length - S/gs.length|}
    refine le_trans (measure_mono (t := {ω | ∃ xs t' h x, ∃ hx : xs ≠ [],
      oneAfterAnother gs (fun n => value (ω.1 n)) = .ok (xs, t') ∧
      Execution value (fun i : Fin xs.length => sim xs[i]) (next xs hx) [] ω.2 h ∧
      (∀ e ∈ h, ∃ hk : e.1.1 < gs.length, code e.2.2 = x ⟨e.1.1, hk⟩) ∧
      x ∈ {x : Fin gs.length → ℕ | ε ≤ |(∑ i, dec (x i))/gs.length - S/gs.length|}}) ?_) ?_
    · rintro ω ⟨xs, t', h, hx, h1, h2, h3⟩
      have hlen := oneAfterAnother_length h1
      obtain ⟨hnd, hall, hd⟩ := execution_all (hnext xs hx) h2 (by simp) (fun e he => by cases he)
      have hex : ∃ x : Fin xs.length → ℕ, ∀ e ∈ h, code e.2.2 = x e.1 := by
        have hch : ∀ i : Fin xs.length, ∃ e ∈ h, e.1 = i := fun i => List.mem_map.1 (hall i)
        choose c hc1 hc2 using hch
        refine ⟨fun i => code (c i).2.2, fun e he => ?_⟩
        have : c e.1 = e := List.inj_on_of_nodup_map hnd (hc1 _) he (hc2 _)
        show code e.2.2 = code (c e.1).2.2
        rw [this]
      obtain ⟨x, hxe⟩ := hex
      refine ⟨xs, t', h, fun i => x (Fin.cast hlen.symm i), hx, h1, h2, fun e he => ?_, ?_⟩
      · exact ⟨hlen ▸ e.1.2, hxe e he⟩
      · have hs' := execution_total (hnext xs hx) h2 (fun i => dec (x i)) f (fun e he => by
          obtain ⟨a⟩ := generator_nonempty μ
          have hr := (hd e he).1 (fun k => e.2.1[k]?.getD a) (fun k x hx => by simp [hx])
          rw [← hxe e he]
          exact (hcode' ω.1 xs t' h1 _ (List.getElem_mem _) _ _ _ hr).symm)
        show ε ≤ |(∑ i, dec (x (Fin.cast hlen.symm i)))/gs.length - S/gs.length|
        have e1 : (∑ i, dec (x (Fin.cast hlen.symm i))) = ∑ i, dec (x i) :=
          Fintype.sum_equiv (finCongr hlen.symm) _ _ fun i => rfl
        rw [e1, ← hs']
        exact h3
    rw [hjoint]
    have hle1 : (∏ i : Fin gs.length, chance μ value (gs[i] >>= sim) Set.univ) ≤ 1 :=
      Finset.prod_le_one' fun i _ => chance_le_one μ value (gs[i] >>= sim) _
    refine (mul_le_mul_left hle1 _).trans ?_
    rw [one_mul, ← hν]
    exact hcheb

end

section bounds
variable {F α β : Type} [Scalar F] [Countable α] [MeasurableSpace α] [MeasurableSingletonClass α]
  (μ : Measure α) [IsProbabilityMeasure μ] (value : α → F)

/-- A quantity between `a` and `b` has a finite variance, at most `((b - a)/2)²`. -/
theorem bounded_quantity {m : M F β} (hm : DrawsInOrder m) {f : β → ℝ} {a b : ℝ}
    (hf : ∀ (ω : ℕ → α) r t', m (fun n => value (ω n)) = .ok (r, t') → a ≤ f r ∧ f r ≤ b) :
    FiniteVariance μ value m f ∧ varianceOf μ value m f ≤ ((b - a)/2)^2 := by
  have hmeas := measurable_quantityOn μ value hm f
  have hae : ∀ᵐ ω ∂cond (Measure.infinitePi fun _ : ℕ => μ) (returning value m),
      quantityOn value m f ω ∈ Set.Icc a b := by
    filter_upwards [ae_cond_mem (measurable_returning μ value hm)] with ω hω
    obtain ⟨r, t', h⟩ := hω
    unfold quantityOn
    rw [h]
    exact hf ω r t' h
  by_cases h0 : (Measure.infinitePi fun _ : ℕ => μ) (returning value m) = 0
  · have hz : cond (Measure.infinitePi fun _ : ℕ => μ) (returning value m) = 0 := by
      unfold ProbabilityTheory.cond
      rw [Measure.restrict_eq_zero.2 h0, smul_zero]
    unfold FiniteVariance varianceOf
    rw [hz]
    refine ⟨memLp_measure_zero, ?_⟩
    unfold variance evariance
    simp
    positivity
  · have := cond_isProbabilityMeasure h0
    refine ⟨?_, variance_le_sq_of_bounded hae hmeas.aemeasurable⟩
    refine MemLp.of_bound hmeas.aestronglyMeasurable (max |a| |b|) ?_
    filter_upwards [hae] with ω hω
    rw [Real.norm_eq_abs]
    exact abs_le_max_abs_abs hω.1 hω.2

/-- If the generator has finitely many outcomes, every quantity of a simulation has a finite variance. -/
theorem finite_quantity [Finite α] {m : M F β} (hm : DrawsInOrder m) (hfin : FinitelyMany (Set.range value) m) (f : β → ℝ) :
    FiniteVariance μ value m f := by
  obtain ⟨S, hS, h⟩ := hfin
  obtain ⟨C, hC⟩ := (hS.image f).bddAbove
  obtain ⟨D, hD⟩ := (hS.image f).bddBelow
  refine (bounded_quantity μ value hm (a := D) (b := C) fun ω r t' hr => ?_).1
  have hr' := (h _ (fun n => ⟨ω n, rfl⟩) r t' hr).1
  exact ⟨hD ⟨r, hr', rfl⟩, hC ⟨r, hr', rfl⟩⟩

end bounds

section run
variable {F α Thread : Type} [Scalar F]

theorem totalOf_flatten (v : Particle F → ℝ) (l : List (List (Particle F))) :
    totalOf v l.flatten = (l.map (totalOf v)).sum := by
  unfold totalOf
  rw [List.map_flatten, List.sum_flatten, List.map_map]
  rfl

/-- The particles of a run on the streams of an execution, added up. -/
theorem run_total {value : α → F} {rcpr : Rcpr F} {fuel : ℕ} {cfg : OutputConfig F} {mat : Material F} {o : Options F}
    {splits : List Split} {inputs : List (ParticleInput F)}
    {next : List (Fin inputs.length × List α × List (Particle F)) → Thread × Fin inputs.length}
    (hnext : EachOnce next) {h : List (Fin inputs.length × List α × List (Particle F))} {ω : Thread × ℕ → α}
    {tapes : ℕ → Tape F} {s : RunState F}
    (h1 : Execution value (fun i => simulation rcpr fuel mat o inputs[i]) next [] ω h) (h2 : Given value h tapes)
    (run : physics_loop_run rcpr fuel cfg mat o splits tapes inputs = .ok s) (v : Particle F → ℝ) :
    (h.map fun e => totalOf v e.2.2).sum = totalOf v s.processed := by
  obtain ⟨outs, ho, hp⟩ := C47_every_ion_once run
  obtain ⟨_, _, hd⟩ := execution_all hnext h1 (by simp) (fun e he => by cases he)
  have hlen : outs.length = inputs.length := by
    have := ho.length_eq
    rw [List.length_zipIdx] at this
    exact this.symm
  have hsum := execution_total hnext h1 (fun i => totalOf v (outs[i.1]'(by rw [hlen]; exact i.2))) (totalOf v) (by
    intro e he
    obtain ⟨t', ht'⟩ := given_run (prog := fun i : Fin inputs.length => simulation rcpr fuel mat o inputs[i]) h2 hd e he
    have hr := simulation_run ht'
    have hi : e.1.1 < outs.length := by rw [hlen]; exact e.1.2
    have h5 := List.Forall₂.get ho (i := e.1.1) (by rw [List.length_zipIdx]; exact e.1.2) hi
    simp only [List.get_eq_getElem, List.getElem_zipIdx, Nat.zero_add] at h5
    have h6 : run_ion rcpr fuel mat o inputs[e.1] (tapes e.1) = .ok outs[e.1.1] := h5
    rw [hr] at h6
    injection h6 with h6
    rw [h6])
  rw [hsum, hp, totalOf_flatten, ← List.sum_ofFn]
  congr 1
  apply List.ext_getElem
  · simp [hlen]
  · intro k hk1 hk2
    simp

/-- The same for the samples of a library call. -/
theorem samples_total {n : ℕ} {value : α → F} {m : M F (List (Particle F))}
    {next : List (Fin n × List α × List (Particle F)) → Thread × Fin n} (hnext : EachOnce next)
    {h : List (Fin n × List α × List (Particle F))} {ω : Thread × ℕ → α} {tapes : ℕ → Tape F}
    {outs : List (List (Particle F))}
    (h1 : Execution value (fun _ => m) next [] ω h) (h2 : Given value h tapes) (hlen : outs.length = n)
    (h3 : ∀ (k : ℕ) (out : List (Particle F)), outs[k]? = some out → ∃ t', m (tapes k) = .ok (out, t'))
    (f : List (Particle F) → ℝ) : (h.map fun e => f e.2.2).sum = (outs.map f).sum := by
  obtain ⟨_, _, hd⟩ := execution_all hnext h1 (by simp) (fun e he => by cases he)
  subst hlen
  have hsum := execution_total hnext h1 (fun i => f outs[i]) f (by
    intro e he
    obtain ⟨t', ht'⟩ := given_run (prog := fun _ => m) h2 hd e he
    obtain ⟨t'', ht''⟩ := h3 e.1 outs[e.1] (List.getElem?_eq_getElem e.1.2)
    rw [ht'] at ht''
    injection ht'' with ht''
    injection ht'' with ht''
    rw [ht''])
  rw [hsum, ← List.sum_ofFn]
  congr 1
  apply List.ext_getElem
  · simp
  · intro k hk1 hk2
    simp

variable [Finite α] [MeasurableSpace α] [MeasurableSingletonClass α] (μ : Measure α) [IsProbabilityMeasure μ] (value : α → F)

/-- **C116, a run.** Whatever is added up over the particles of a run (`v`: the energy of those that left, the depth of
those that stopped, …), per ion, differs from the average over the ions of the mean of each ion by itself (among the
cascades that end) by `ε` or more with probability at most the average variance (which is finite) over `nε²`,
whatever the threads, their order of work, the chunks and the output options. -/
theorem C116_run (rcpr : Rcpr F) (fuel : ℕ) (cfg : OutputConfig F) (mat : Material F) (o : Options F)
    (splits : List Split) (inputs : List (ParticleInput F)) (hne : inputs ≠ []) (v : Particle F → ℝ)
    (next : List (Fin inputs.length × List α × List (Particle F)) → Thread × Fin inputs.length)
    (hnext : EachOnce next) (ε : ℝ) (hε : 0 < ε) :
    (∀ i : Fin inputs.length, FiniteVariance μ value (simulation rcpr fuel mat o inputs[i]) (totalOf v)) ∧
    threadStreams Thread μ {ω | ∃ h tapes s,
        Execution value (fun i => simulation rcpr fuel mat o inputs[i]) next [] ω h ∧ Given value h tapes ∧
        physics_loop_run rcpr fuel cfg mat o splits tapes inputs = .ok s ∧
        ε ≤ |totalOf v s.processed/inputs.length -
          (∑ i : Fin inputs.length, meanOf μ value (simulation rcpr fuel mat o inputs[i]) (totalOf v))/inputs.length|} ≤
      ENNReal.ofReal ((∑ i : Fin inputs.length,
          varianceOf μ value (simulation rcpr fuel mat o inputs[i]) (totalOf v))/inputs.length
        /(inputs.length*ε^2)) := by
  have hvar : ∀ i : Fin inputs.length, FiniteVariance μ value (simulation rcpr fuel mat o inputs[i]) (totalOf v) := fun i =>
    finite_quantity μ value (draws_simulation rcpr fuel mat o _)
      (finitely_simulation (Set.finite_range value) rcpr fuel mat o _) _
  refine ⟨hvar, ?_⟩
  refine (measure_mono ?_).trans (C116_statistical_error (Thread := Thread) μ value
    (List.length_pos_of_ne_nil hne) (prog := fun i : Fin inputs.length => simulation rcpr fuel mat o inputs[i])
    (fun i => draws_simulation rcpr fuel mat o _) (totalOf v) hvar next hnext ε hε)
  rintro ω ⟨h, tapes, s, h1, h2, h3, h4⟩
  refine ⟨h, h1, ?_⟩
  rw [run_total hnext h1 h2 h3 v]
  exact h4

/-- Over a beam too the variance of a total is finite if the quantity is bounded. -/
theorem beam_variance (rcpr : Rcpr F) (fuel : ℕ) (mat : Material F) (o : Options F) {g : M F (ParticleInput F)}
    (hg : DrawsInOrder g) {v : Particle F → ℝ} {C : ℝ} (hv : ∀ q, |v q| ≤ C) :
    FiniteVariance μ value (drawnAndFollowed rcpr fuel mat o g) (totalOf v) := by
  have hb : ∀ l : List (Particle F), |totalOf v l| ≤ l.length*C := by
    intro l
    induction l with
    | nil => simp [totalOf]
    | cons a l ih =>
      have e : totalOf v (a :: l) = v a + totalOf v l := by simp [totalOf]
      rw [e]
      refine (abs_add_le _ _).trans ?_
      have := hv a
      push_cast [List.length_cons]
      linarith
  refine (bounded_quantity μ value (draws_bind hg (draws_simulation rcpr fuel mat o)) (a := -(fuel*|C|)) (b := fuel*|C|)
    fun ω r t' hr => ?_).1
  refine abs_le.1 ((hb r).trans ?_)
  obtain ⟨inp, t1, -, h⟩ := m_bind_ok.1 hr
  unfold simulation at h
  obtain ⟨ion, t1, -, h⟩ := m_bind_ok.1 h
  have hl : (r.length : ℝ) ≤ fuel := by exact_mod_cast cascade_length _ _ _ _ _ h
  exact (mul_le_mul_of_nonneg_left (le_abs_self C) (Nat.cast_nonneg _)).trans
    (mul_le_mul_of_nonneg_right hl (abs_nonneg C))

/-- **C116, a run over a beam.** The same for ions whose energies, places and directions are drawn from distributions. -/
theorem C116_beam_run (rcpr : Rcpr F) (fuel : ℕ) (cfg : OutputConfig F) (splits : List Split)
    {ext : Ext F} {sampler : Sampler F} (hs : SamplesInOrder sampler) {cpr : Bool} {o : Options F}
    {material : Res (Material F)} {p p' : ParticleParameters F} (hp : complete_particles p = .ok p')
    {t₀ t₀' : Tape F} {acc₀ : Accepted F} (hacc : input ext sampler cpr o material p t₀ = .ok (acc₀, t₀'))
    {gs : List (M F (ParticleInput F))}
    (hgs : gs = beam sampler acc₀.output_units.length_unit acc₀.output_units.energy_unit acc₀.output_units.mass_unit p')
    (hne : gs ≠ []) (v : Particle F → ℝ)
    (hvar : ∀ i : Fin gs.length,
      FiniteVariance μ value (drawnAndFollowed rcpr fuel acc₀.material o gs[i]) (totalOf v))
    (next : (inputs : List (ParticleInput F)) → inputs ≠ [] → List (Fin inputs.length × List α × List (Particle F)) →
      Thread × Fin inputs.length) (hnext : ∀ inputs hi, EachOnce (next inputs hi)) (ε : ℝ) (hε : 0 < ε) :
    programStreams Thread μ {ω | ∃ acc t' h tapes s, ∃ hi : acc.particle_input_array ≠ [],
        input ext sampler cpr o material p (fun n => value (ω.1 n)) = .ok (acc, t') ∧
        Execution value (fun i => simulation rcpr fuel acc.material acc.options acc.particle_input_array[i])
          (next acc.particle_input_array hi) [] ω.2 h ∧ Given value h tapes ∧
        physics_loop_run rcpr fuel cfg acc.material acc.options splits tapes acc.particle_input_array = .ok s ∧
        ε ≤ |totalOf v s.processed/gs.length -
          (∑ i : Fin gs.length, meanOf μ value
            (drawnAndFollowed rcpr fuel acc₀.material o gs[i]) (totalOf v))/gs.length|} ≤
      ENNReal.ofReal ((∑ i : Fin gs.length, varianceOf μ value
          (drawnAndFollowed rcpr fuel acc₀.material o gs[i]) (totalOf v))/gs.length/(gs.length*ε^2)) := by
  have hd : ∀ g ∈ gs, DrawsInOrder g := by rw [hgs]; exact draws_beam hs _ _ _ _
  have hsim : ∀ x, DrawsInOrder (simulation rcpr fuel acc₀.material o x) := draws_simulation rcpr fuel _ o
  refine (measure_mono ?_).trans (C116_beam_error (Thread := Thread) μ value hne hd hsim (totalOf v) hvar
    next hnext ε hε)
  rintro ω ⟨acc, t', h, tapes, s, hi, h0, h1, h2, h3, h4⟩
  obtain ⟨e1, e2, e3⟩ := input_fixed hacc h0 hp
  rw [← hgs] at e3
  refine ⟨acc.particle_input_array, t', h, hi, e3, ?_, ?_⟩
  · rw [← e1, ← e2]
    exact h1
  · rw [run_total (hnext _ hi) h1 h2 h3 v]
    exact h4

end run

section yields
variable {α : Type} [Finite α] [MeasurableSpace α] [MeasurableSingletonClass α]
  (μ : Measure α) [IsProbabilityMeasure μ] (value : α → ℝ)

theorem energyReturned_flatten (energy : ℝ) (l : List (List (Particle ℝ))) :
    energyReturned energy l.flatten = (l.map (energyReturned energy)).sum := by
  unfold energyReturned
  induction l with
  | nil => simp [energiesOf]
  | cons a l ih =>
    rw [List.flatten_cons, List.map_cons, List.sum_cons, ← ih]
    unfold energiesOf
    rw [List.filter_append, List.map_append, List.sum_append, add_div, add_div]

/-- At most one ion per sample is reflected. -/
theorem reflected_at_most {rcpr : Rcpr ℝ} {fuel : ℕ} {mat : Material ℝ} {p : Particle ℝ} (hst : p.stopped = false)
    (hl : p.left = false) {n : ℕ} {tapes : ℕ → Tape ℝ} {outs : List (List (Particle ℝ))} (hlen : outs.length = n)
    (hout : ∀ (k : ℕ) (out : List (Particle ℝ)), outs[k]? = some out →
      ∃ t', single_ion_bca rcpr fuel p mat (Options.default_options false) (tapes k) = .ok (out, t')) :
    howMany ReflectedBack outs.flatten ≤ n := by
  have k5 : ∀ t out t', single_ion_bca rcpr fuel p mat (Options.default_options false) t = .ok (out, t') →
      howMany ReflectedBack out ≤ 1 := by
    intro t out t' h
    rw [← C03_no_recoils rcpr mat (Options.default_options false) fuel p t t' out hst hl rfl h]
    exact List.countP_le_length
  rw [howMany_flatten, ← hlen]
  have : ∀ x ∈ outs.map (howMany ReflectedBack), x ≤ 1 := by
    intro x hx
    obtain ⟨out, ho, rfl⟩ := List.mem_map.1 hx
    obtain ⟨k, hk⟩ := List.getElem?_of_mem ho
    obtain ⟨t', ht⟩ := hout k out hk
    exact k5 _ _ _ ht
  have := List.sum_le_card_nsmul _ 1 this
  simpa using this

/-- From the value of the second number returned to the statistical error. -/
theorem energy_error {rcpr : Rcpr ℝ} {fuel : ℕ} {mat : Material ℝ} {p : Particle ℝ} {energy : ℝ} {n : ℕ} (hn : 0 < n)
    {call : (ℕ → Tape ℝ) → ℝ × ℝ → Prop}
    (hcall : ∀ tapes r, call tapes r → ∃ outs,
      SamplesOf (single_ion_bca rcpr fuel p mat (Options.default_options false)) n tapes outs ∧
      r.2 = energyReturned energy outs.flatten/n)
    {Thread : Type} {next : List (Fin n × List α × List (Particle ℝ)) → Thread × Fin n} (hnext : EachOnce next)
    (ε : ℝ) (hε : 0 < ε) :
    threadStreams Thread μ {ω | ∃ h tapes r,
      Execution value (fun _ => single_ion_bca rcpr fuel p mat (Options.default_options false)) next [] ω h ∧
      Given value h tapes ∧ call tapes r ∧
      ε ≤ |r.2 - meanOf μ value (single_ion_bca rcpr fuel p mat (Options.default_options false)) (energyReturned energy)|} ≤
      ENNReal.ofReal (varianceOf μ value (single_ion_bca rcpr fuel p mat (Options.default_options false))
        (energyReturned energy)/(n*ε^2)) := by
  obtain ⟨m, hm⟩ : ∃ m, m = single_ion_bca rcpr fuel p mat (Options.default_options false) := ⟨_, rfl⟩
  have hn0 : (n:ℝ) ≠ 0 := by exact_mod_cast hn.ne'
  have hdr : DrawsInOrder m := by rw [hm]; exact C74_stream _ _ _ _ _
  have hvar : FiniteVariance μ value m (energyReturned energy) := by
    refine finite_quantity μ value hdr ?_ _
    rw [hm]
    exact finitely_single_ion (Set.finite_range value) _ _ _ _ _
  simp only [← hm] at hcall ⊢
  have hmain := C116_statistical_error (Thread := Thread) μ value hn (prog := fun _ : Fin n => m) (fun _ => hdr)
    (energyReturned energy) (fun _ => hvar) next hnext ε hε
  simp only [Finset.sum_const, Finset.card_univ, Fintype.card_fin, nsmul_eq_mul, mul_div_cancel_left₀ _ hn0] at hmain
  refine (measure_mono ?_).trans hmain
  rintro ω ⟨h, tapes, r, he, hg, hr, hd⟩
  obtain ⟨outs, ⟨hlen, hout⟩, hv⟩ := hcall tapes r hr
  refine ⟨h, he, ?_⟩
  rw [samples_total hnext he hg hlen hout (energyReturned energy), ← energyReturned_flatten, ← hv]
  exact hd

/-- **C116, `reflection_coefficient`.** Unless it refuses its arguments, there is an ion `p` and a target `mat` that all
its samples simulate, and the second number it returns, the energy reflection coefficient, differs from the mean of the
fraction of its energy that the ion brings back (among the cascades that end) by `ε` or more with probability at most the
variance (which is finite) over `nε²`, whatever the threads, their order of work and the interleaving of their
counting. -/
theorem C116_reflection_coefficient (rcpr : Rcpr ℝ) (fuel : ℕ) (ext : Ext ℝ) (ion target : PyDict ℝ) (energy angle : ℝ)
    (n : ℕ) (hn : 0 < n) (hn31 : n < 2^31) :
    (∀ tapes r, ¬ reflection_coefficient rcpr fuel ext ion target energy angle n tapes r) ∨
    ∃ Z2 m2 Ec2 Es2 Eb2 n2 mat p, TargetEntries target Z2 m2 Ec2 Es2 Eb2 n2 ∧
      ShotAt ion energy angle [Z2] [m2] [Ec2] [Es2] [Eb2] [n2] mat p ∧
      (∀ tapes r, reflection_coefficient rcpr fuel ext ion target energy angle n tapes r → ∀ k < n, ∃ out t',
        single_ion_bca rcpr fuel p mat (Options.default_options false) (tapes k) = .ok (out, t')) ∧
      FiniteVariance μ value (single_ion_bca rcpr fuel p mat (Options.default_options false)) (energyReturned energy) ∧
      ∀ (Thread : Type) (next : List (Fin n × List α × List (Particle ℝ)) → Thread × Fin n), EachOnce next →
      ∀ ε : ℝ, 0 < ε →
        threadStreams Thread μ {ω | ∃ h tapes r,
          Execution value (fun _ => single_ion_bca rcpr fuel p mat (Options.default_options false)) next [] ω h ∧
          Given value h tapes ∧ reflection_coefficient rcpr fuel ext ion target energy angle n tapes r ∧
          ε ≤ |r.2 - meanOf μ value (single_ion_bca rcpr fuel p mat (Options.default_options false))
            (energyReturned energy)|} ≤
          ENNReal.ofReal (varianceOf μ value (single_ion_bca rcpr fuel p mat (Options.default_options false))
            (energyReturned energy)/(n*ε^2)) := by
  rcases reflection_samples_one rcpr fuel ext ion target energy angle n hn with
    h0 | ⟨Z2, m2, Ec2, Es2, Eb2, n2, mat, p, h1, h2, h3⟩
  · left
    rintro tapes r ⟨outs, final, h, -⟩
    exact h0 tapes outs h
  · right
    obtain ⟨_, _, _, _, _, _, _, _, _, hp⟩ := h2.ion
    refine ⟨Z2, m2, Ec2, Es2, Eb2, n2, mat, p, h1, h2, ?_, ?_, fun Thread next hnext ε hε => ?_⟩
    · rintro tapes r ⟨outs, final, h, -⟩ k hk
      obtain ⟨hlen, hout⟩ := h3 tapes outs h
      obtain ⟨t', ht⟩ := hout k _ (List.getElem?_eq_getElem (by omega))
      exact ⟨_, t', ht⟩
    · exact finite_quantity μ value (C74_stream _ _ _ _ _) (finitely_single_ion (Set.finite_range value) _ _ _ _ _) _
    · refine energy_error μ value hn (fun tapes r hr => ?_) hnext ε hε
      obtain ⟨outs, hr1, -, hr2⟩ := reflection_coefficient_value hr
      obtain ⟨hlen, hout⟩ := h3 tapes outs hr1
      refine ⟨outs, ⟨hlen, hout⟩, ?_⟩
      obtain ⟨-, l, hl, hv⟩ := hr2 (by
        have := reflected_at_most hp.stopped hp.left hlen hout
        omega)
      rw [hv, fsum_real, hl.sum_eq, ofNat_real]
      rfl

/-- **C116, `compound_reflection_coefficient`**, likewise. -/
theorem C116_compound_reflection_coefficient (rcpr : Rcpr ℝ) (fuel : ℕ) (ext : Ext ℝ) (ion : PyDict ℝ)
    (targets : List (PyDict ℝ)) (ns : List ℝ) (energy angle : ℝ) (n : ℕ) (hn : 0 < n) (hn31 : n < 2^31) :
    (∀ tapes r, ¬ compound_reflection_coefficient rcpr fuel ext ion targets ns energy angle n tapes r) ∨
    ∃ Z2 m2 Ec2 Es2 Eb2 mat p,
      List.Forall₂ (fun t x => t "Z" = some (.float x)) targets Z2 ∧
      List.Forall₂ (fun t x => t "m" = some (.float x)) targets m2 ∧
      List.Forall₂ (fun t x => t "Ec" = some (.float x)) targets Ec2 ∧
      List.Forall₂ (fun t x => t "Es" = some (.float x)) targets Es2 ∧
      List.Forall₂ (fun t x => t "Eb" = some (.float x)) targets Eb2 ∧
      ShotAt ion energy angle Z2 m2 Ec2 Es2 Eb2 ns mat p ∧
      (∀ tapes r, compound_reflection_coefficient rcpr fuel ext ion targets ns energy angle n tapes r → ∀ k < n, ∃ out t',
        single_ion_bca rcpr fuel p mat (Options.default_options false) (tapes k) = .ok (out, t')) ∧
      FiniteVariance μ value (single_ion_bca rcpr fuel p mat (Options.default_options false)) (energyReturned energy) ∧
      ∀ (Thread : Type) (next : List (Fin n × List α × List (Particle ℝ)) → Thread × Fin n), EachOnce next →
      ∀ ε : ℝ, 0 < ε →
        threadStreams Thread μ {ω | ∃ h tapes r,
          Execution value (fun _ => single_ion_bca rcpr fuel p mat (Options.default_options false)) next [] ω h ∧
          Given value h tapes ∧
          compound_reflection_coefficient rcpr fuel ext ion targets ns energy angle n tapes r ∧
          ε ≤ |r.2 - meanOf μ value (single_ion_bca rcpr fuel p mat (Options.default_options false))
            (energyReturned energy)|} ≤
          ENNReal.ofReal (varianceOf μ value (single_ion_bca rcpr fuel p mat (Options.default_options false))
            (energyReturned energy)/(n*ε^2)) := by
  rcases compound_samples_one rcpr fuel ext ion targets ns energy angle n hn with
    h0 | ⟨Z2, m2, Ec2, Es2, Eb2, mat, p, a1, a2, a3, a4, a5, h2, h3⟩
  · left
    rintro tapes r ⟨outs, final, h, -⟩
    exact h0 tapes outs h
  · right
    obtain ⟨_, _, _, _, _, _, _, _, _, hp⟩ := h2.ion
    refine ⟨Z2, m2, Ec2, Es2, Eb2, mat, p, a1, a2, a3, a4, a5, h2, ?_, ?_, fun Thread next hnext ε hε => ?_⟩
    · rintro tapes r ⟨outs, final, h, -⟩ k hk
      obtain ⟨hlen, hout⟩ := h3 tapes outs h
      obtain ⟨t', ht⟩ := hout k _ (List.getElem?_eq_getElem (by omega))
      exact ⟨_, t', ht⟩
    · exact finite_quantity μ value (C74_stream _ _ _ _ _) (finitely_single_ion (Set.finite_range value) _ _ _ _ _) _
    · refine energy_error μ value hn (fun tapes r hr => ?_) hnext ε hε
      obtain ⟨outs, hr1, -, hr2⟩ := compound_reflection_coefficient_value hr
      obtain ⟨hlen, hout⟩ := h3 tapes outs hr1
      refine ⟨outs, ⟨hlen, hout⟩, ?_⟩
      obtain ⟨-, l, hl, hv⟩ := hr2 (by
        have := reflected_at_most hp.stopped hp.left hlen hout
        omega)
      rw [hv, fsum_real, hl.sum_eq, ofNat_real]
      rfl

end yields
end RustBCA
