import Verif.Spec.Lib
import Verif.Proofs.Pool
import Verif.Props.Run
import Verif.Props.Materials

/-!
# C58: yields and reflection coefficients under every schedule
-/

set_option linter.unusedSectionVars false
set_option linter.unusedSimpArgs false
set_option linter.unusedVariables false

namespace RustBCA
open Scalar Spec
variable {F : Type} [Scalar F]

theorem sputtered_iff (q : Particle F) : sputtered_particle q = true ↔ SputteredAway q := by
  unfold sputtered_particle SputteredAway
  cases q.incident <;> cases q.left <;> simp [and_comm]

theorem reflected_iff (q : Particle F) : reflected_particle q = true ↔ ReflectedBack q := by
  unfold reflected_particle ReflectedBack
  cases q.incident <;> cases q.left <;> simp [and_comm]

theorem howMany_eq {α : Type} {P : α → Prop} {f : α → Bool} (h : ∀ a, f a = true ↔ P a)
    (l : List α) : howMany P l = l.countP f := by
  unfold howMany
  congr 1
  funext a
  rw [Bool.eq_iff_iff, h a]; simp

theorem energiesOf_eq {P : Particle F → Prop} {f : Particle F → Bool} (h : ∀ a, f a = true ↔ P a)
    (l : List (Particle F)) : energiesOf P l = (l.filter f).map (·.E) := by
  unfold energiesOf
  congr 2
  funext a
  rw [Bool.eq_iff_iff, h a]; simp

theorem collectN_length {α : Type} {f : Nat → Res α} {n : Nat} {l : List α}
    (h : collectN f n = .ok l) : l.length = n ∧ ∀ k a, l[k]? = some a → f k = .ok a := by
  induction n generalizing l with
  | zero =>
    simp only [collectN, pure, Except.pure, Except.ok.injEq] at h
    subst h; simp
  | succ n ih =>
    simp only [collectN, bind, Except.bind, pure, Except.pure] at h
    cases h1 : collectN f n with
    | error e => rw [h1] at h; simp at h
    | ok l1 =>
      rw [h1] at h; simp only at h
      cases h2 : f n with
      | error e => rw [h2] at h; simp at h
      | ok a =>
        rw [h2] at h
        simp only [Except.ok.injEq] at h
        subst h
        obtain ⟨hl, hk⟩ := ih h1
        refine ⟨by simp [hl], fun k b hb => ?_⟩
        by_cases hlt : k < n
        · rw [List.getElem?_append_left (by omega)] at hb
          exact hk k b hb
        · rw [List.getElem?_append_right (by omega), hl] at hb
          have : k - n = 0 := by
            by_contra hc
            rw [List.getElem?_eq_none (by simp; omega)] at hb
            simp at hb
          have hkn : k = n := by omega
          subst hkn
          simp at hb
          rw [← hb]; exact h2

/-- The samples: one cascade per sample. -/
theorem run_samples_ok {rcpr : Rcpr F} {fuel : Nat} {m : Material F} {options : Options F}
    {i : IonDict F} {energy x ux uy uz : F} {tapes : Nat → Tape F} {n : Nat}
    {outs : List (List (Particle F))}
    (h : run_samples rcpr fuel m options i energy x ux uy uz tapes n = .ok outs) :
    outs.length = n ∧ ∀ out ∈ outs, ∃ ion, ion.incident = true ∧ ion.stopped = false ∧
      ion.left = false ∧ CascadeOf rcpr fuel m options ion out := by
  obtain ⟨h1, h2⟩ := collectN_length h
  refine ⟨h1, fun out ho => ?_⟩
  obtain ⟨k, hk⟩ := List.getElem?_of_mem ho
  have := h2 k out hk
  simp only [Particle.default_incident, rassert, bind, Except.bind, pure, Except.pure] at this
  split at this
  · simp at this
  · rename_i p hp
    split at this
    · simp at this
    · rename_i o hrun
      simp only [Except.ok.injEq] at this
      subst this
      split at hp
      · simp at hp
      · split at hp
        · simp at hp
        · simp only [Except.ok.injEq] at hp
          exact ⟨p, by rw [← hp], by rw [← hp], by rw [← hp], tapes k, o.2, hrun⟩

/-- Every particle list has exactly one ion. -/
theorem cascade_one_ion {rcpr : Rcpr F} {fuel : Nat} {m : Material F} {options : Options F}
    {ion : Particle F} {out : List (Particle F)} (hi : ion.incident = true)
    (hs : ion.stopped = false) (hl : ion.left = false)
    (h : CascadeOf rcpr fuel m options ion out) :
    out.countP (fun p => p.incident) = 1 := by
  obtain ⟨t, t', hr⟩ := h
  obtain ⟨q, rest, rfl, hq, hrest⟩ := C02_ion_first _ _ _ _ _ _ _ _ hs hl hr
  rw [List.countP_cons, hq.incident, hi]
  simp only [if_true, Nat.add_eq_right]
  rw [List.countP_eq_zero]
  intro r hr; rw [hrest r hr]; simp

theorem sputtering_samples_ok {rcpr : Rcpr F} {fuel : Nat} {ext : Ext F} {ion target : PyDict F}
    {energy angle : F} {n : Nat} {tapes : Nat → Tape F} {outs : List (List (Particle F))}
    (h : sputtering_samples rcpr fuel ext ion target energy angle n tapes = .ok outs) :
    outs.length = n ∧ ∃ m, ∀ out ∈ outs, ∃ ion, ion.incident = true ∧ ion.stopped = false ∧
      ion.left = false ∧ CascadeOf rcpr fuel m (Options.default_options true) ion out := by
  unfold sputtering_samples at h
  simp only [bind, Except.bind] at h
  split at h; · simp at h
  split at h; · simp at h
  split at h; · simp at h
  split at h; · simp at h
  obtain ⟨h1, h2⟩ := run_samples_ok h
  exact ⟨h1, _, h2⟩

theorem reflection_samples_ok {rcpr : Rcpr F} {fuel : Nat} {ext : Ext F} {ion target : PyDict F}
    {energy angle : F} {n : Nat} {tapes : Nat → Tape F} {outs : List (List (Particle F))}
    (h : reflection_samples rcpr fuel ext ion target energy angle n tapes = .ok outs) :
    outs.length = n ∧ ∃ m, ∀ out ∈ outs, ∃ ion, ion.incident = true ∧ ion.stopped = false ∧
      ion.left = false ∧ CascadeOf rcpr fuel m (Options.default_options false) ion out := by
  unfold reflection_samples at h
  simp only [bind, Except.bind] at h
  split at h; · simp at h
  split at h; · simp at h
  split at h; · simp at h
  split at h; · simp at h
  obtain ⟨h1, h2⟩ := run_samples_ok h
  exact ⟨h1, _, h2⟩

theorem compound_reflection_samples_ok {rcpr : Rcpr F} {fuel : Nat} {ext : Ext F} {ion : PyDict F}
    {targets : List (PyDict F)} {ns : List F}
    {energy angle : F} {n : Nat} {tapes : Nat → Tape F} {outs : List (List (Particle F))}
    (h : compound_reflection_samples rcpr fuel ext ion targets ns energy angle n tapes = .ok outs) :
    outs.length = n ∧ ∃ m, ∀ out ∈ outs, ∃ ion, ion.incident = true ∧ ion.stopped = false ∧
      ion.left = false ∧ CascadeOf rcpr fuel m (Options.default_options false) ion out := by
  unfold compound_reflection_samples at h
  simp only [bind, Except.bind] at h
  split at h; · simp at h
  split at h; · simp at h
  split at h; · simp at h
  split at h; · simp at h
  split at h; · simp at h
  split at h; · simp at h
  split at h; · simp at h
  split at h; · simp at h
  obtain ⟨h1, h2⟩ := run_samples_ok h
  exact ⟨h1, _, h2⟩

/-! ## What the counters end up with -/

/-- **C58** Under every schedule of the workers, when all have finished, `num` is the number of
counted particles (as a 32-bit integer) and `energy` is the sum, in some order, of their
energies. -/
theorem C58_counters (counted : Particle F → Bool) (with_energy : Bool)
    (outs : List (List (Particle F))) (final : Pool F)
    (hr : Pool.Reaches counted with_energy outs.length (Pool.initial outs) final)
    (hf : final.finished outs.length) :
    final.num = i32_wrap (outs.flatten.countP counted) ∧
      (with_energy = true → ∃ l, List.Perm l ((outs.flatten.filter counted).map (·.E)) ∧
        final.energy = l.foldl (· + ·) 0.0) := by
  obtain ⟨h1, h2⟩ := ((PoolInv.init outs rfl).reaches hr).final hf
  refine ⟨h1, fun hw => ?_⟩
  obtain ⟨l, hl, hm⟩ := h2 hw
  exact ⟨l, Multiset.coe_eq_coe.1 hm, hl⟩

/-- **C58** The workers never deadlock: as long as they have not all finished, some worker can
take a step, in every state any schedule reaches. -/
theorem C58_no_deadlock (counted : Particle F → Bool) (with_energy : Bool)
    (outs : List (List (Particle F))) (s : Pool F)
    (hr : Pool.Reaches counted with_energy outs.length (Pool.initial outs) s)
    (hun : ¬ s.finished outs.length) : ∃ s', Pool.Step counted with_energy outs.length s s' := by
  have hid : Idle outs.length s := by
    induction hr with
    | refl => intro j _; rfl
    | tail h1 hst ih =>
      refine (ih ?_).step hst
      intro hfin
      obtain ⟨i, hi, hst⟩ := hst
      obtain ⟨h1, h2⟩ := hfin i hi
      unfold Pool.step at hst
      simp only [h1, h2] at hst
      simp at hst
  exact ((PoolInv.init outs rfl).reaches hr).progress hid hun

/-- **C58** Every schedule ends: no execution has more than nine steps per particle. -/
theorem C58_terminates (counted : Particle F → Bool) (with_energy : Bool)
    (outs : List (List (Particle F))) (trace : Nat → Pool F) (k : Nat)
    (h0 : trace 0 = Pool.initial outs)
    (hs : ∀ j, j < k → Pool.Step counted with_energy outs.length (trace j) (trace (j + 1))) :
    k ≤ 9 * outs.flatten.length := by
  have hinit : ∑ j ∈ Finset.range outs.length, ((Pool.initial outs).workers j).work =
      9 * outs.flatten.length := by
    have e1 : ∀ j, ((Pool.initial outs).workers j).work = 9 * (outs.getD j []).length := by
      intro j; simp [Pool.initial, Worker.work]
    rw [Finset.sum_congr rfl (fun j _ => e1 j), ← Finset.mul_sum]
    congr 1
    clear e1 h0 hs
    induction outs using List.reverseRecOn with
    | nil => simp
    | append_singleton xs x ih =>
      rw [List.length_append, List.length_singleton, Finset.sum_range_succ, List.flatten_append,
        List.length_append, ← ih]
      congr 1
      · apply Finset.sum_congr rfl
        intro j hj
        have := Finset.mem_range.1 hj
        simp only [List.getD_eq_getElem?_getD]
        rw [List.getElem?_append_left this]
      · simp
  have key : ∀ j, j ≤ k →
      ∑ i ∈ Finset.range outs.length, ((trace j).workers i).work + j ≤ 9 * outs.flatten.length := by
    intro j
    induction j with
    | zero => intro _; rw [h0, hinit]; simp
    | succ j ih =>
      intro hj
      have := ih (by omega)
      have := Pool.step_work (hs j (by omega))
      omega
  have := key k le_rfl
  omega

/-! ## What the functions return -/

theorem ofI32_wrap {k : Nat} (h : k < 2147483648) : (ofI32 (i32_wrap k) : F) = ofNat k := by
  rw [i32_wrap_small h]
  unfold ofI32
  simp

/-- `sputtering_yield` returns the number of sputtered atoms divided by the number of
samples, whatever the schedule (as long as the 32-bit counter does not overflow). -/
theorem sputtering_yield_value {rcpr : Rcpr F} {fuel : Nat} {ext : Ext F} {ion target : PyDict F}
    {energy angle : F} {n : Nat} {tapes : Nat → Tape F} {r : F}
    (h : sputtering_yield rcpr fuel ext ion target energy angle n tapes r) :
    ∃ outs, sputtering_samples rcpr fuel ext ion target energy angle n tapes = .ok outs ∧
      outs.length = n ∧
      (howMany SputteredAway outs.flatten < 2^31 →
        r = ofNat (howMany SputteredAway outs.flatten) / ofNat n) := by
  obtain ⟨outs, final, h1, h2, h3, h4⟩ := h
  obtain ⟨hlen, -⟩ := sputtering_samples_ok h1
  refine ⟨outs, h1, hlen, fun hlt => ?_⟩
  subst hlen
  obtain ⟨hn, -⟩ := C58_counters _ _ _ _ h2 h3
  rw [howMany_eq sputtered_iff] at hlt ⊢
  rw [h4, hn, ofI32_wrap (by omega)]

/-- **C58** Two executions of `sputtering_yield` that differ only in the schedule return the same
number. -/
theorem C58_sputtering_schedules {rcpr : Rcpr F} {fuel : Nat} {ext : Ext F}
    {ion target : PyDict F} {energy angle : F} {n : Nat} {tapes : Nat → Tape F} {r r' : F}
    (h : sputtering_yield rcpr fuel ext ion target energy angle n tapes r)
    (h' : sputtering_yield rcpr fuel ext ion target energy angle n tapes r') : r = r' := by
  obtain ⟨outs, final, h1, h2, h3, h4⟩ := h
  obtain ⟨outs', final', h1', h2', h3', h4'⟩ := h'
  rw [h1, Except.ok.injEq] at h1'
  subst h1'
  obtain ⟨hlen, -⟩ := sputtering_samples_ok h1
  subst hlen
  rw [h4, h4', (C58_counters _ _ _ _ h2 h3).1, (C58_counters _ _ _ _ h2' h3').1]

/-- **C58** From the start some schedule lets all workers finish (with `C58_no_deadlock` and
`C58_terminates`: every schedule that goes on as long as it can does). -/
theorem C58_finishes (counted : Particle F → Bool) (with_energy : Bool)
    (outs : List (List (Particle F))) :
    ∃ f, Pool.Reaches counted with_energy outs.length (Pool.initial outs) f ∧
        f.finished outs.length := by
  have key : ∀ k (s : Pool F), Pool.Reaches counted with_energy outs.length
      (Pool.initial outs) s → ∑ j ∈ Finset.range outs.length, (s.workers j).work ≤ k →
      ∃ f, Pool.Reaches counted with_energy outs.length (Pool.initial outs) f ∧
        f.finished outs.length := by
    intro k
    induction k with
    | zero =>
      intro s hs hk
      by_contra hc
      have hun : ¬ s.finished outs.length := fun hfin => hc ⟨s, hs, hfin⟩
      obtain ⟨s', hst⟩ := C58_no_deadlock _ _ _ _ hs hun
      have := Pool.step_work hst
      omega
    | succ k ih =>
      intro s hs hk
      by_cases hfin : s.finished outs.length
      · exact ⟨s, hs, hfin⟩
      · obtain ⟨s', hst⟩ := C58_no_deadlock _ _ _ _ hs hfin
        have := Pool.step_work hst
        exact ih s' (hs.tail hst) (by omega)
  exact key _ (Pool.initial outs) Relation.ReflTransGen.refl le_rfl

/-- **C58** `sputtering_yield` always returns: if no sample panics there is a value returned. -/
theorem C58_sputtering_returns {rcpr : Rcpr F} {fuel : Nat} {ext : Ext F}
    {ion target : PyDict F} {energy angle : F} {n : Nat} {tapes : Nat → Tape F}
    {outs : List (List (Particle F))}
    (h : sputtering_samples rcpr fuel ext ion target energy angle n tapes = .ok outs) :
    ∃ r, sputtering_yield rcpr fuel ext ion target energy angle n tapes r := by
  obtain ⟨hlen, -⟩ := sputtering_samples_ok h
  subst hlen
  obtain ⟨f, hf, hfin⟩ := C58_finishes sputtered_particle false outs
  exact ⟨_, outs, f, h, hf, hfin, rfl⟩

/-- What both reflection coefficient functions return, given the cascades. -/
theorem coefficients_value {outs : List (List (Particle F))} {final : Pool F} {energy : F}
    (h2 : Pool.Reaches reflected_particle true outs.length (Pool.initial outs) final)
    (h3 : final.finished outs.length) (hlt : howMany ReflectedBack outs.flatten < 2^31) :
    (coefficients final energy outs.length).1 =
        ofNat (howMany ReflectedBack outs.flatten) / ofNat outs.length ∧
      ∃ l, List.Perm l (energiesOf ReflectedBack outs.flatten) ∧
        (coefficients final energy outs.length).2 =
          fsum l / EV F / energy / ofNat outs.length := by
  obtain ⟨hn, he⟩ := C58_counters _ _ _ _ h2 h3
  obtain ⟨l, hp, hl⟩ := he rfl
  rw [howMany_eq reflected_iff] at hlt ⊢
  rw [energiesOf_eq reflected_iff]
  unfold coefficients
  exact ⟨by simp only; rw [hn, ofI32_wrap (by omega)], l, hp, by simp only; rw [hl]; rfl⟩

/-- `reflection_coefficient` returns the number of reflected ions over the number of samples
and the sum of their energies, added in some order, over the incident energy. -/
theorem reflection_coefficient_value {rcpr : Rcpr F} {fuel : Nat} {ext : Ext F}
    {ion target : PyDict F} {energy angle : F} {n : Nat} {tapes : Nat → Tape F} {r : F × F}
    (h : reflection_coefficient rcpr fuel ext ion target energy angle n tapes r) :
    ∃ outs, reflection_samples rcpr fuel ext ion target energy angle n tapes = .ok outs ∧
      outs.length = n ∧ (howMany ReflectedBack outs.flatten < 2^31 →
        r.1 = ofNat (howMany ReflectedBack outs.flatten) / ofNat n ∧
        ∃ l, List.Perm l (energiesOf ReflectedBack outs.flatten) ∧
          r.2 = fsum l / EV F / energy / ofNat n) := by
  obtain ⟨outs, final, h1, h2, h3, h4⟩ := h
  obtain ⟨hlen, -⟩ := reflection_samples_ok h1
  refine ⟨outs, h1, hlen, fun hlt => ?_⟩
  subst hlen
  rw [h4]
  exact coefficients_value h2 h3 hlt

/-- The same for `compound_reflection_coefficient`. -/
theorem compound_reflection_coefficient_value {rcpr : Rcpr F} {fuel : Nat} {ext : Ext F}
    {ion : PyDict F} {targets : List (PyDict F)} {ns : List F}
    {energy angle : F} {n : Nat} {tapes : Nat → Tape F} {r : F × F}
    (h : compound_reflection_coefficient rcpr fuel ext ion targets ns energy angle n tapes r) :
    ∃ outs, compound_reflection_samples rcpr fuel ext ion targets ns energy angle n tapes = .ok outs ∧
      outs.length = n ∧ (howMany ReflectedBack outs.flatten < 2^31 →
        r.1 = ofNat (howMany ReflectedBack outs.flatten) / ofNat n ∧
        ∃ l, List.Perm l (energiesOf ReflectedBack outs.flatten) ∧
          r.2 = fsum l / EV F / energy / ofNat n) := by
  obtain ⟨outs, final, h1, h2, h3, h4⟩ := h
  obtain ⟨hlen, -⟩ := compound_reflection_samples_ok h1
  refine ⟨outs, h1, hlen, fun hlt => ?_⟩
  subst hlen
  rw [h4]
  exact coefficients_value h2 h3 hlt

/-- At most one ion per sample is reflected. -/
theorem reflected_le {rcpr : Rcpr F} {fuel : Nat} {m : Material F} {options : Options F}
    {outs : List (List (Particle F))}
    (h : ∀ out ∈ outs, ∃ ion : Particle F, ion.incident = true ∧ ion.stopped = false ∧
      ion.left = false ∧ CascadeOf rcpr fuel m options ion out) :
    howMany ReflectedBack outs.flatten ≤ outs.length := by
  rw [howMany_eq reflected_iff, List.countP_flatten]
  induction outs with
  | nil => simp
  | cons o os ih =>
    simp only [List.map_cons, List.sum_cons, List.length_cons]
    have h1 : o.countP reflected_particle ≤ 1 := by
      obtain ⟨ion, hi, hs, hl, hc⟩ := h o (by simp)
      rw [← cascade_one_ion hi hs hl hc]
      apply List.countP_mono_left
      intro p _ hp
      exact ((reflected_iff p).1 hp).1
    have h2 := ih (fun out ho => h out (by simp [ho]))
    omega

/-- **C58** Over the reals the reflection coefficient lies between 0 and 1, and, with the energy
coefficient, does not depend on the schedule. -/
theorem C58_reflection_bounds {rcpr : Rcpr ℝ} {fuel : Nat} {ext : Ext ℝ}
    {ion target : PyDict ℝ} {energy angle : ℝ} {n : Nat} {tapes : Nat → Tape ℝ} {r : ℝ × ℝ}
    (hn : 0 < n) (hn2 : n < 2^31)
    (h : reflection_coefficient rcpr fuel ext ion target energy angle n tapes r) :
    0 ≤ r.1 ∧ r.1 ≤ 1 ∧ (0 < energy → 0 ≤ r.2) ∧
    ∀ r', reflection_coefficient rcpr fuel ext ion target energy angle n tapes r' → r' = r := by
  obtain ⟨outs, h1, hlen, h2⟩ := reflection_coefficient_value h
  obtain ⟨-, m, hm⟩ := reflection_samples_ok h1
  have hle := reflected_le hm
  rw [hlen] at hle
  obtain ⟨h3, l, hp, h4⟩ := h2 (by omega)
  have hn' : (0:ℝ) < n := by exact_mod_cast hn
  have hsum : fsum l = (energiesOf ReflectedBack outs.flatten).sum := by
    rw [fsum_real, hp.sum_eq]
  refine ⟨?_, ?_, ?_, ?_⟩
  · rw [h3]; simp only [ofNat_real]; positivity
  · rw [h3]; simp only [ofNat_real]
    rw [div_le_one hn']; exact_mod_cast hle
  · intro he
    rw [h4, hsum]
    have hpos : 0 ≤ (energiesOf ReflectedBack outs.flatten).sum := by
      apply List.sum_nonneg
      intro e he
      unfold energiesOf at he
      simp only [List.mem_map, List.mem_filter, decide_eq_true_eq] at he
      obtain ⟨q, ⟨_, hq⟩, rfl⟩ := he
      have := hq.2.2.2
      simp only [lt_real] at this
      norm_num at this
      exact this.le
    have : (0:ℝ) < EV ℝ := by unfold EV Q; norm_num
    simp only [ofNat_real]
    positivity
  · intro r' h'
    obtain ⟨outs', h1', hlen', h2'⟩ := reflection_coefficient_value h'
    rw [h1, Except.ok.injEq] at h1'
    subst h1'
    obtain ⟨h3', l', hp', h4'⟩ := h2' (by omega)
    refine Prod.ext (by rw [h3, h3']) ?_
    rw [h4, h4', fsum_real, fsum_real, hp.sum_eq, hp'.sum_eq]

/-- **C58** The same for `compound_reflection_coefficient`. -/
theorem C58_compound_reflection_bounds {rcpr : Rcpr ℝ} {fuel : Nat} {ext : Ext ℝ}
    {ion : PyDict ℝ} {targets : List (PyDict ℝ)} {ns : List ℝ} {energy angle : ℝ} {n : Nat} {tapes : Nat → Tape ℝ} {r : ℝ × ℝ}
    (hn : 0 < n) (hn2 : n < 2^31)
    (h : compound_reflection_coefficient rcpr fuel ext ion targets ns energy angle n tapes r) :
    0 ≤ r.1 ∧ r.1 ≤ 1 ∧ (0 < energy → 0 ≤ r.2) ∧
    ∀ r', compound_reflection_coefficient rcpr fuel ext ion targets ns energy angle n tapes r' → r' = r := by
  obtain ⟨outs, h1, hlen, h2⟩ := compound_reflection_coefficient_value h
  obtain ⟨-, m, hm⟩ := compound_reflection_samples_ok h1
  have hle := reflected_le hm
  rw [hlen] at hle
  obtain ⟨h3, l, hp, h4⟩ := h2 (by omega)
  have hn' : (0:ℝ) < n := by exact_mod_cast hn
  have hsum : fsum l = (energiesOf ReflectedBack outs.flatten).sum := by
    rw [fsum_real, hp.sum_eq]
  refine ⟨?_, ?_, ?_, ?_⟩
  · rw [h3]; simp only [ofNat_real]; positivity
  · rw [h3]; simp only [ofNat_real]
    rw [div_le_one hn']; exact_mod_cast hle
  · intro he
    rw [h4, hsum]
    have hpos : 0 ≤ (energiesOf ReflectedBack outs.flatten).sum := by
      apply List.sum_nonneg
      intro e he
      unfold energiesOf at he
      simp only [List.mem_map, List.mem_filter, decide_eq_true_eq] at he
      obtain ⟨q, ⟨_, hq⟩, rfl⟩ := he
      have := hq.2.2.2
      simp only [lt_real] at this
      norm_num at this
      exact this.le
    have : (0:ℝ) < EV ℝ := by unfold EV Q; norm_num
    simp only [ofNat_real]
    positivity
  · intro r' h'
    obtain ⟨outs', h1', hlen', h2'⟩ := compound_reflection_coefficient_value h'
    rw [h1, Except.ok.injEq] at h1'
    subst h1'
    obtain ⟨h3', l', hp', h4'⟩ := h2' (by omega)
    refine Prod.ext (by rw [h3, h3']) ?_
    rw [h4, h4', fsum_real, fsum_real, hp.sum_eq, hp'.sum_eq]

/-- **C58** finding: the counter is an `i32`.  With 2^31 sputtered atoms a release build returns a
negative yield (`k` samples, `2^31` counted particles in all). -/
theorem C58_counter_wraps {rcpr : Rcpr ℝ} {fuel : Nat} {ext : Ext ℝ}
    {ion target : PyDict ℝ} {energy angle : ℝ} {n : Nat} {tapes : Nat → Tape ℝ} {r : ℝ}
    {outs : List (List (Particle ℝ))}
    (hs : sputtering_samples rcpr fuel ext ion target energy angle n tapes = .ok outs)
    (hc : howMany SputteredAway outs.flatten = 2^31) (hn : 0 < n)
    (h : sputtering_yield rcpr fuel ext ion target energy angle n tapes r) : r < 0 := by
  obtain ⟨outs', final, h1, h2, h3, h4⟩ := h
  rw [hs, Except.ok.injEq] at h1
  subst h1
  obtain ⟨hlen, -⟩ := sputtering_samples_ok hs
  subst hlen
  rw [howMany_eq sputtered_iff] at hc
  rw [h4, (C58_counters _ _ _ _ h2 h3).1, hc]
  have hn' : (0:ℝ) < outs.length := by exact_mod_cast hn
  have : i32_wrap ((2^31 : Nat) : Int) = -2147483648 := by unfold i32_wrap; norm_num
  rw [this]
  unfold ofI32
  simp only [ofNat_real]
  apply div_neg_of_neg_of_pos _ hn'
  norm_num

end RustBCA
