import Verif.Proofs.Independent
import Verif.Props.Streams

/-!
# C97: samples run by any number of threads are independent
-/

namespace RustBCA
open Spec MeasureTheory Measure

section words
variable {F α β : Type} {value : α → F} {m : M F β}

theorem beginsWith_append {ω : ℕ → α} {w v : List α} : BeginsWith ω (w ++ v) → BeginsWith ω w := by
  intro h k a ha
  exact h k a (by rw [List.getElem?_append_left (List.getElem?_eq_some_iff.1 ha).1]; exact ha)

/-- Of two words a stream begins with, one begins with the other. -/
theorem beginsWith_prefix {ω : ℕ → α} {w v : List α} (hw : BeginsWith ω w) (hv : BeginsWith ω v)
    (hl : w.length ≤ v.length) : w <+: v := by
  rw [List.prefix_iff_eq_take]
  apply List.ext_getElem?
  intro k
  by_cases hk : k < w.length
  · have h2 : k < v.length := by omega
    rw [List.getElem?_take_of_lt hk, List.getElem?_eq_getElem hk, List.getElem?_eq_getElem h2]
    congr 1
    rw [← hw k _ (List.getElem?_eq_getElem hk), ← hv k _ (List.getElem?_eq_getElem h2)]
  · rw [List.getElem?_eq_none (by omega), List.getElem?_eq_none (by rw [List.length_take]; omega)]

/-- A stream determines what is drawn from it and what is returned. -/
theorem draws_unique {ω : ℕ → α} {w v : List α} {b c : β} (hw : BeginsWith ω w) (hv : BeginsWith ω v)
    (h1 : DrawsAndReturns value m w b) (h2 : DrawsAndReturns value m v c) : w = v ∧ b = c := by
  have e := (h1.1 ω hw).symm.trans (h2.1 ω hv)
  injection e with e
  injection e with e _
  refine ⟨?_, e⟩
  rcases Nat.le_total w.length v.length with hl | hl
  · exact h2.2 w b (beginsWith_prefix hw hv hl) h1.1
  · exact (h1.2 v c (beginsWith_prefix hv hw hl) h2.1).symm

/-- The first `k` outcomes of a stream. -/
def prefixOf (ω : ℕ → α) (k : ℕ) : List α := (List.range k).map ω

theorem prefixOf_begins (ω : ℕ → α) (k : ℕ) : BeginsWith ω (prefixOf ω k) := by
  intro i a ha
  unfold prefixOf at ha
  rw [List.getElem?_map] at ha
  cases hi : (List.range k)[i]? with
  | none => rw [hi] at ha; cases ha
  | some x =>
    rw [hi] at ha
    have : i = x := by
      have := List.getElem?_eq_some_iff.1 hi
      obtain ⟨h1, h2⟩ := this
      rw [List.getElem_range] at h2
      exact h2
    subst this
    simpa using ha

/-- A computation that returns has drawn some word. -/
theorem draws_word (hm : DrawsInOrder m) {ω : ℕ → α} {b : β} {t' : Tape F}
    (h : m (fun n => value (ω n)) = .ok (b, t')) :
    ∃ w, BeginsWith ω w ∧ DrawsAndReturns value m w b := by
  classical
  obtain ⟨k, _, hk⟩ := hm _ _ _ h
  have hex : ∃ k, ReturnsOn value m (prefixOf ω k) b := by
    refine ⟨k, ?_⟩
    intro u hu
    have hlen : (prefixOf ω k).length = k := by simp [prefixOf]
    rw [hlen]
    apply hk
    intro i hi
    have : u i = ω i := hu i (ω i) (by simp [prefixOf, hi])
    rw [this]
  refine ⟨prefixOf ω (Nat.find hex), prefixOf_begins _ _, Nat.find_spec hex, ?_⟩
  intro v c hv hr
  have hlen : ∀ j, (prefixOf ω j).length = j := fun j => by simp [prefixOf]
  have hvl : v.length ≤ Nat.find hex := by have := hv.length_le; rwa [hlen] at this
  obtain ⟨r, hr'⟩ := hv
  have hvb : BeginsWith ω v := by
    have := prefixOf_begins ω (Nat.find hex)
    rw [← hr'] at this
    exact beginsWith_append this
  have hve : v = prefixOf ω v.length := by
    have hp := beginsWith_prefix hvb (prefixOf_begins ω v.length) (by rw [hlen])
    exact hp.eq_of_length (by rw [hlen])
  have hcb : c = b := by
    have e := (hr ω hvb).symm.trans h
    injection e with e
    injection e with e _
  subst hcb
  have hmin := Nat.find_min' hex (hve ▸ hr)
  have : v.length = Nat.find hex := by omega
  rw [hve, this]

end words

section
variable {F α β Thread : Type} [Countable α] [MeasurableSpace α] [MeasurableSingletonClass α]
  (μ : Measure α) [IsProbabilityMeasure μ] (value : α → F)

/-- The chance of a result is the sum of the probabilities of the words that lead to it. -/
theorem chance_sum {m : M F β} (hm : DrawsInOrder m) (A : Set β) :
    open Classical in
    chance μ value m A = ∑' w : List α, if ∃ b ∈ A, DrawsAndReturns value m w b then wordWeight μ w else 0 := by
  classical
  unfold chance
  have e : {ω : ℕ → α | ∃ b t', m (fun n => value (ω n)) = .ok (b, t') ∧ b ∈ A} =
      ⋃ w : List α, if ∃ b ∈ A, DrawsAndReturns value m w b then {ω | BeginsWith ω w} else ∅ := by
    ext ω
    simp only [Set.mem_ofPred_eq, Set.mem_iUnion]
    constructor
    · rintro ⟨b, t', h, hb⟩
      obtain ⟨w, h1, h2⟩ := draws_word hm h
      refine ⟨w, ?_⟩
      rw [if_pos ⟨b, hb, h2⟩]
      exact h1
    · rintro ⟨w, hw⟩
      by_cases hex : ∃ b ∈ A, DrawsAndReturns value m w b
      · rw [if_pos hex] at hw
        obtain ⟨b, hb, h⟩ := hex
        exact ⟨b, _, h.1 ω hw, hb⟩
      · rw [if_neg hex] at hw
        cases hw
  rw [e, measure_iUnion]
  · refine tsum_congr fun w => ?_
    by_cases hex : ∃ b ∈ A, DrawsAndReturns value m w b
    · rw [if_pos hex, if_pos hex, (begins_weight μ w).2]
    · rw [if_neg hex, if_neg hex, measure_empty]
  · intro w v hne
    refine Set.disjoint_left.2 fun ω h1 h2 => hne ?_
    beta_reduce at h1 h2
    by_cases hex : ∃ b ∈ A, DrawsAndReturns value m w b
    · by_cases hex' : ∃ b ∈ A, DrawsAndReturns value m v b
      · rw [if_pos hex] at h1
        rw [if_pos hex'] at h2
        obtain ⟨b, _, hb⟩ := hex
        obtain ⟨c, _, hc⟩ := hex'
        exact (draws_unique h1 h2 hb hc).1
      · rw [if_neg hex'] at h2; cases h2
    · rw [if_neg hex] at h1; cases h1
  · intro w
    by_cases hex : ∃ b ∈ A, DrawsAndReturns value m w b
    · rw [if_pos hex]; exact (begins_weight μ w).1
    · rw [if_neg hex]; exact MeasurableSet.empty

omit [Countable α] [MeasurableSpace α] [MeasurableSingletonClass α] in
theorem execution_prefix {n : ℕ} {value : α → F} {prog : Fin n → M F β}
    {next : List (Fin n × List α × β) → Thread × Fin n} {h h' : List (Fin n × List α × β)} {ω : Thread × ℕ → α}
    (run : Execution value prog next h ω h') : h <+: h' := by
  induction run with
  | done _ => exact List.prefix_rfl
  | start _ _ _ _ ih => exact (List.prefix_append _ _).trans ih

theorem execution_chance {n : ℕ} (prog : Fin n → M F β) (hprog : ∀ i, DrawsInOrder (prog i))
    (next : List (Fin n × List α × β) → Thread × Fin n) (hnext : EachOnce next) (A : Fin n → Set β) :
    ∀ (d : ℕ) (h : List (Fin n × List α × β)), n ≤ h.length + d → (h.map (·.1)).Nodup →
      (∀ e ∈ h, e.2.2 ∈ A e.1) →
      MeasurableSet {ω : Thread × ℕ → α | ∃ h', Execution value prog next h ω h' ∧ ∀ e ∈ h', e.2.2 ∈ A e.1} ∧
      threadStreams Thread μ {ω | ∃ h', Execution value prog next h ω h' ∧ ∀ e ∈ h', e.2.2 ∈ A e.1} =
        ∏ i ∈ Finset.univ.filter (fun i => i ∉ h.map (·.1)), chance μ value (prog i) (A i) := by
  classical
  intro d
  induction d with
  | zero =>
    intro h hd hnd hA
    have e : {ω : Thread × ℕ → α | ∃ h', Execution value prog next h ω h' ∧ ∀ e ∈ h', e.2.2 ∈ A e.1} = Set.univ := by
      ext ω
      simp only [Set.mem_ofPred_eq, Set.mem_univ, iff_true]
      exact ⟨h, .done (by omega), hA⟩
    rw [e]
    refine ⟨MeasurableSet.univ, ?_⟩
    have hall : ∀ i : Fin n, i ∈ h.map (·.1) := by
      intro i
      have hcard : (h.map (·.1)).toFinset.card = n := by
        rw [List.toFinset_card_of_nodup hnd, List.length_map]
        have := (List.toFinset_card_of_nodup hnd).symm.trans_le (Finset.card_le_univ _)
        rw [List.length_map, Fintype.card_fin] at this
        omega
      have : (h.map (·.1)).toFinset = Finset.univ := by
        apply Finset.eq_univ_of_card
        rw [hcard, Fintype.card_fin]
      exact List.mem_toFinset.1 (by rw [this]; exact Finset.mem_univ i)
    rw [Finset.filter_false_of_mem (fun i _ => not_not.2 (hall i)), Finset.prod_empty, measure_univ]
  | succ d ih =>
    intro h hd hnd hA
    by_cases hlen : n ≤ h.length
    · exact ih h (by omega) hnd hA
    · obtain ⟨j, hj⟩ : ∃ j, j = (next h).1 := ⟨_, rfl⟩
      obtain ⟨i, hi⟩ : ∃ i, i = (next h).2 := ⟨_, rfl⟩
      have hnew : i ∉ h.map (·.1) := hi ▸ hnext h hnd (by omega)
      obtain ⟨G, hG⟩ : ∃ G : List (Fin n × List α × β) → Set (Thread × ℕ → α), G = fun h =>
        {ω | ∃ h', Execution value prog next h ω h' ∧ ∀ e ∈ h', e.2.2 ∈ A e.1} := ⟨_, rfl⟩
      have hstep : ∀ w b, b ∈ A i → MeasurableSet (G (h ++ [(i, w, b)])) ∧
          threadStreams Thread μ (G (h ++ [(i, w, b)])) =
            ∏ i' ∈ (Finset.univ.filter (fun i' => i' ∉ h.map (·.1))).erase i, chance μ value (prog i') (A i') := by
        intro w b hb
        have := ih (h ++ [(i, w, b)]) (by rw [List.length_append, List.length_singleton]; omega) (by
          rw [List.map_append, List.nodup_append]
          refine ⟨hnd, by simp, ?_⟩
          intro x hx y hy
          simp only [List.map_cons, List.map_nil, List.mem_singleton] at hy
          subst hy
          rintro rfl
          exact hnew hx) (by
          intro e he
          rcases List.mem_append.1 he with he | he
          · exact hA e he
          · rw [List.mem_singleton] at he; subst he; exact hb)
        rw [hG]
        refine ⟨this.1, this.2.trans (Finset.prod_congr ?_ fun _ _ => rfl)⟩
        ext x
        simp only [Finset.mem_filter, Finset.mem_univ, true_and, Finset.mem_erase, List.map_append, List.map_cons,
          List.map_nil, List.mem_append, List.mem_singleton, not_or]
        tauto
      obtain ⟨S, hS⟩ : ∃ S : List α → Set (Thread × ℕ → α), S = fun w =>
        {ω | ∃ b ∈ A i, DrawsAndReturns value (prog i) w b ∧ BeginsWith (fun k => ω (j, k)) w ∧
          drawn j w.length ω ∈ G (h ++ [(i, w, b)])} := ⟨_, rfl⟩
      have hmem : ∀ h ω, ω ∈ G h ↔ ∃ h', Execution value prog next h ω h' ∧ ∀ e ∈ h', e.2.2 ∈ A e.1 := by
        intro h ω
        rw [hG]
        rfl
      have hGS : G h = ⋃ w, S w := by
        ext ω
        rw [hS]
        simp only [Set.mem_iUnion, Set.mem_ofPred_eq, hmem]
        constructor
        · rintro ⟨h', hrun, hall⟩
          cases hrun with
          | done hl => exact absurd hl hlen
          | start hl hdr hb hrest =>
            rename_i w b
            refine ⟨w, b, ?_, hi ▸ hdr, hj ▸ hb, h', ?_, hall⟩
            · have := hall ((next h).2, w, b) ((execution_prefix hrest).subset (by simp))
              rw [← hi] at this
              exact this
            · rw [hi, hj]; exact hrest
        · rintro ⟨w, b, hb, hdr, hbeg, h', hrun, hall⟩
          refine ⟨h', .start (w := w) (b := b) (by omega) (hi ▸ hdr) (hj ▸ hbeg) ?_, hall⟩
          rw [← hi, ← hj]; exact hrun
      obtain ⟨R, hR⟩ : ∃ R, R = ∏ i' ∈ (Finset.univ.filter (fun i' => i' ∉ h.map (·.1))).erase i,
        chance μ value (prog i') (A i') := ⟨_, rfl⟩
      have hSw : ∀ w, MeasurableSet (S w) ∧ threadStreams Thread μ (S w) =
          (if ∃ b ∈ A i, DrawsAndReturns value (prog i) w b then wordWeight μ w else 0)*R := by
        intro w
        by_cases hex : ∃ b ∈ A i, DrawsAndReturns value (prog i) w b
        · obtain ⟨b, hb, hdr⟩ := hex
          have e : S w = {ω | BeginsWith (fun k => ω (j, k)) w ∧ drawn j w.length ω ∈ G (h ++ [(i, w, b)])} := by
            ext ω
            rw [hS]
            simp only [Set.mem_ofPred_eq]
            constructor
            · rintro ⟨c, _, hdr', hbeg, hg⟩
              obtain ⟨_, rfl⟩ := draws_unique hbeg hbeg hdr hdr'
              exact ⟨hbeg, hg⟩
            · rintro ⟨hbeg, hg⟩
              exact ⟨b, hb, hdr, hbeg, hg⟩
          obtain ⟨hs1, hs2⟩ := hstep w b hb
          have hmk := markov_word μ j _ hs1 w
          rw [e, if_pos ⟨b, hb, hdr⟩]
          exact ⟨hmk.1, hmk.2.trans (by rw [hs2, hR])⟩
        · have e : S w = ∅ := by
            ext ω
            rw [hS]
            simp only [Set.mem_ofPred_eq, Set.mem_empty_iff_false, iff_false]
            rintro ⟨b, hb, hdr, _⟩
            exact hex ⟨b, hb, hdr⟩
          rw [e, if_neg hex, zero_mul, measure_empty]
          exact ⟨MeasurableSet.empty, rfl⟩
      have hgoal : MeasurableSet (G h) ∧ threadStreams Thread μ (G h) =
          ∏ i ∈ Finset.univ.filter (fun i => i ∉ h.map (·.1)), chance μ value (prog i) (A i) := by
        rw [hGS]
        refine ⟨MeasurableSet.iUnion fun w => (hSw w).1, ?_⟩
        rw [measure_iUnion _ fun w => (hSw w).1]
        · rw [tsum_congr fun w => (hSw w).2, ENNReal.tsum_mul_right, ← chance_sum μ value (hprog i) (A i), hR,
            Finset.mul_prod_erase _ (fun i => chance μ value (prog i) (A i)) (by simpa using hnew)]
        · intro w v hne
          refine Set.disjoint_left.2 fun ω h1 h2 => hne ?_
          rw [hS] at h1 h2
          obtain ⟨b, _, d1, b1, _⟩ := h1
          obtain ⟨c, _, d2, b2, _⟩ := h2
          exact (draws_unique b1 b2 d1 d2).1
      rw [hG] at hgoal
      exact hgoal

/-- **C97.** Let computations that draw their random numbers one after the other be run as samples by any
number of threads, each with its own stream of independent random numbers, in an order and on threads that
may depend on everything that happened before.  The probability that all of them return, each with a result
of its own set, is the product of the probabilities for each computation by itself. -/
theorem C97_independent {n : ℕ} (prog : Fin n → M F β) (hprog : ∀ i, DrawsInOrder (prog i))
    (next : List (Fin n × List α × β) → Thread × Fin n) (hnext : EachOnce next) (A : Fin n → Set β) :
    threadStreams Thread μ {ω | ∃ h, Execution value prog next [] ω h ∧ ∀ e ∈ h, e.2.2 ∈ A e.1} =
      ∏ i, chance μ value (prog i) (A i) := by
  classical
  have := (execution_chance (Thread := Thread) μ value prog hprog next hnext A n [] (by simp) (by simp)
    (fun e he => by cases he)).2
  rw [this]
  refine Finset.prod_congr ?_ fun _ _ => rfl
  ext x
  simp

end
end RustBCA
