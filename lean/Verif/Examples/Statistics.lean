import Verif.Props.StatisticsRun
import Verif.Examples.Lib
import Mathlib.Probability.Distributions.Uniform

/-!
# C97, C98: the hypotheses are met
-/

namespace RustBCA.StatisticsExample
open Scalar Spec MeasureTheory

/-- The generator behind `rand::random::<f64>()`: 53 random bits. -/
noncomputable def bits : Measure (Fin (2^53)) := (PMF.uniformOfFintype (Fin (2^53))).toMeasure

noncomputable instance : IsProbabilityMeasure bits := by unfold bits; infer_instance

/-- The number they stand for. -/
noncomputable def number (k : Fin (2^53)) : ℝ := k/2^53

/-- Two threads take turns; each starts the first sample not yet started. -/
noncomputable def turns {α β : Type} {n : ℕ} (h : List (Fin (n + 1) × List α × β)) : Bool × Fin (n + 1) :=
  open Classical in (h.length % 2 == 0, if hx : ∃ i, i ∉ h.map (·.1) then Classical.choose hx else 0)

theorem turns_once {α β : Type} {n : ℕ} : EachOnce (turns (α := α) (β := β) (n := n)) := by
  classical
  intro h hnd hlen
  have hx : ∃ i : Fin (n + 1), i ∉ h.map (·.1) := by
    by_contra hc
    push Not at hc
    have : (h.map (·.1)).toFinset = Finset.univ := Finset.eq_univ_of_forall fun i => List.mem_toFinset.2 (hc i)
    have h2 := congrArg Finset.card this
    rw [List.toFinset_card_of_nodup hnd, List.length_map, Finset.card_univ, Fintype.card_fin] at h2
    omega
  unfold turns
  simp only [hx, dif_pos]
  exact Classical.choose_spec hx

/-- A schedule that depends on the results: the thread that found an empty result goes on working. -/
example {α : Type} {n : ℕ} : ∃ next : List (Fin (n + 1) × List α × List ℕ) → Bool × Fin (n + 1), EachOnce next ∧
    ∃ h h', h.map (·.1) = h'.map (·.1) ∧ (next h).1 ≠ (next h').1 := by
  refine ⟨fun h => (h.any fun e => e.2.2.isEmpty, (turns h).2), fun h hnd hl => turns_once h hnd hl,
    [(0, [], [])], [(0, [], [1])], rfl, by simp⟩

/-- Every outcome is possible. -/
theorem bits_pos (k : Fin (2^53)) : 0 < bits {k} := by
  unfold bits
  rw [PMF.toMeasure_apply_singleton _ _ (measurableSet_singleton _), PMF.uniformOfFintype_apply]
  exact ENNReal.inv_pos.2 (ENNReal.natCast_ne_top _)

/-- A computation that returns on one stream of outcomes returns with positive probability. -/
theorem chance_pos {β : Type} {m : M ℝ β} (hm : DrawsInOrder m) {ω : ℕ → Fin (2^53)} {b : β} {t' : Tape ℝ}
    (h : m (fun n => number (ω n)) = .ok (b, t')) : chance bits number m Set.univ ≠ 0 := by
  classical
  obtain ⟨w, h1, h2⟩ := draws_word hm h
  rw [chance_sum bits number hm]
  intro h0
  have := ENNReal.tsum_eq_zero.1 h0 w
  rw [if_pos ⟨b, trivial, h2⟩] at this
  revert this
  unfold wordWeight
  rw [List.prod_eq_zero_iff]
  intro hmem
  obtain ⟨a, -, ha⟩ := List.mem_map.1 hmem
  exact (bits_pos a).ne' ha

/-- A coin toss with a random number. -/
noncomputable def coin : M ℝ ℕ := do
  let u ← random
  pure (if (u <. 1/2) = true then 1 else 0)

theorem coin_draws : DrawsInOrder coin := draws_bind draws_random fun _ => draws_pure _

theorem coin_run (t : Tape ℝ) : coin t = .ok (if t 0 < 1/2 then 1 else 0, fun n => t (n + 1)) := by
  unfold coin
  simp only [bind, StateT.bind, Except.bind, random, pure, StateT.pure, Except.pure, lt_real]

/-- Its outcomes are equally likely. -/
theorem coin_fair : chance bits number coin {1} = 1/2 ∧ chance bits number coin Set.univ = 1 := by
  constructor
  · unfold chance
    have e : {ω : ℕ → Fin (2^53) | ∃ b t', coin (fun n => number (ω n)) = .ok (b, t') ∧ b ∈ ({1} : Set ℕ)} =
        (fun ω : ℕ → Fin (2^53) => ω 0) ⁻¹' {k | (k : ℕ) < 2^52} := by
      ext ω
      simp only [Set.mem_ofPred_eq, coin_run, Set.mem_preimage, Set.mem_singleton_iff, Except.ok.injEq, Prod.mk.injEq]
      have : number (ω 0) < 1/2 ↔ ((ω 0 : Fin (2^53)) : ℕ) < 2^52 := by
        unfold number
        rw [div_lt_div_iff₀ (by positivity) (by norm_num), ← @Nat.cast_lt ℝ]
        push_cast
        constructor <;> intro h <;> linarith
      rw [← this]
      constructor
      · rintro ⟨b, t', ⟨rfl, -⟩, h⟩
        by_contra hc
        rw [if_neg hc] at h
        exact absurd h (by norm_num)
      · intro h
        exact ⟨1, _, ⟨if_pos h, rfl⟩, rfl⟩
    rw [e, ← Measure.map_apply (measurable_pi_apply 0) (MeasurableSet.of_discrete),
      Measure.infinitePi_map_eval]
    unfold bits
    classical
    rw [PMF.toMeasure_uniformOfFintype_apply _ MeasurableSet.of_discrete, Fintype.card_fin]
    have hc : Fintype.card {k : Fin (2^53) | (k : ℕ) < 2^52} = 2^52 := by
      rw [Fintype.card_of_subtype (Finset.univ.filter fun k : Fin (2^53) => (k : ℕ) < 2^52) (by simp)]
      rw [Fin.card_filter_val_lt]
      norm_num
    rw [hc]
    have h53 : ((2^53 : ℕ) : ENNReal) = ((2^52 : ℕ) : ENNReal)*2 := by norm_num
    rw [h53]
    obtain ⟨c, hc0⟩ : ∃ c : ℕ, c = 2^52 := ⟨_, rfl⟩
    rw [← hc0]
    have hcp : (c : ENNReal) ≠ 0 := by rw [hc0]; simp
    have hct : (c : ENNReal) ≠ ⊤ := ENNReal.natCast_ne_top _
    rw [div_eq_mul_inv, ENNReal.mul_inv (.inr (by norm_num)) (.inl hct), ← mul_assoc,
      ENNReal.mul_inv_cancel hcp hct, one_mul, one_div]
  · unfold chance
    have e : {ω : ℕ → Fin (2^53) | ∃ b t', coin (fun n => number (ω n)) = .ok (b, t') ∧ b ∈ (Set.univ : Set ℕ)} =
        Set.univ := by
      ext ω
      simp [coin_run]
    rw [e, measure_univ]

/-- **C97** Ten tosses by two threads taking turns: all heads with probability 2^-10. -/
example : threadStreams Bool bits {ω | ∃ h, Execution number (fun _ : Fin 10 => coin) turns [] ω h ∧
    ∀ e ∈ h, e.2.2 ∈ ({1} : Set ℕ)} = (1/2)^10 := by
  rw [C97_independent (Thread := Bool) bits number (fun _ : Fin 10 => coin) (fun _ => coin_draws) turns turns_once
    (fun _ => {1})]
  simp [coin_fair.1]

/-- **C98** The mean of `n` tosses is wrong by a tenth or more with probability at most `25/n`. -/
example (n : ℕ) : threadStreams Bool bits {ω | ∃ h, Execution number (fun _ : Fin (n + 1) => coin) turns [] ω h ∧
    0.1 ≤ |((h.map fun e => e.2.2).sum : ℕ)/((n + 1 : ℕ) : ℝ) - 1/2|} ≤ ENNReal.ofReal (25/(n + 1)) := by
  have hb : ∀ t b t', coin t = .ok (b, t') → (fun b : ℕ => b) b ≤ 1 := by
    intro t b t' h
    rw [coin_run] at h
    injection h with h
    injection h with h _
    subst h
    dsimp only
    split <;> omega
  obtain ⟨h1, h2, h3⟩ := binary_law bits number coin_draws (fun b => b) hb
  have h4 := C98_statistical_error (Thread := Bool) bits number (Nat.succ_pos n) coin_draws (fun b => b) h1 turns turns_once
    0.1 (by norm_num)
  have e : expectedCount bits number coin (fun b => b) = 1/2 := by
    rw [h3]
    have : {b : ℕ | b = 1} = {1} := rfl
    rw [this, coin_fair.1, coin_fair.2]
    simp
  rw [e] at h4
  refine h4.trans (ENNReal.ofReal_le_ofReal ?_)
  rw [div_le_div_iff₀ (by positivity) (by positivity)]
  push_cast
  have : (0:ℝ) < n + 1 := by positivity
  norm_num at h2 ⊢
  nlinarith

/-- The stream of `LibExample` as outcomes of the generator. -/
def halfBits (k : ℕ) : Fin (2^53) := if k = 2 then ⟨2^52, by norm_num⟩ else ⟨0, by norm_num⟩

theorem half_bits : (fun n => number (halfBits n)) = LibExample.half := by
  ext k
  unfold LibExample.half halfBits number
  split
  · norm_num
  · norm_num

/-- **C98** `reflection_coefficient` does not refuse the arguments of `LibExample`; its ion comes to an end
with positive probability, and so does the run, with two threads. -/
example (rcpr : Rcpr ℝ) (ext : Ext ℝ) : ∃ mat p R,
    ShotAt LibExample.ones (1/2) 30 [1] [1] [1] [1] [1] [1] mat p ∧
    R = (chance bits number (single_ion_bca rcpr 2 p mat (Options.default_options false))
            {out | ∃ q ∈ out, ReflectedBack q}/
          chance bits number (single_ion_bca rcpr 2 p mat (Options.default_options false)) Set.univ).toReal ∧
    chance bits number (single_ion_bca rcpr 2 p mat (Options.default_options false)) Set.univ ≠ 0 ∧
    threadStreams Bool bits {ω | ∃ h tapes, Given number h tapes ∧
          Execution number (fun _ : Fin 2 => single_ion_bca rcpr 2 p mat (Options.default_options false)) turns [] ω h} ≠ 0 ∧
    ∀ ε : ℝ, 0 < ε →
        threadStreams Bool bits {ω | ∃ h tapes r,
          Execution number (fun _ : Fin 2 => single_ion_bca rcpr 2 p mat (Options.default_options false)) turns [] ω h ∧
          Given number h tapes ∧ reflection_coefficient rcpr 2 ext LibExample.ones LibExample.ones (1/2) 30 2 tapes r ∧
          ε ≤ |r.1 - R|} ≤ ENNReal.ofReal (1/(4*(2:ℕ)*ε^2)) := by
  obtain ⟨q, -, hl, h, -⟩ := LibExample.samples_ok rcpr ext false
  obtain ⟨f, hf, hfin⟩ := C58_finishes reflected_particle true [[q], [q]]
  have hr : reflection_coefficient rcpr 2 ext LibExample.ones LibExample.ones (1/2) 30 2 (fun _ => LibExample.half)
      (coefficients f (1/2) 2) := ⟨_, f, h rfl, hf, hfin, rfl⟩
  rcases C98_reflection_coefficient bits number rcpr 2 ext LibExample.ones LibExample.ones (1/2) 30 2 (by norm_num)
    (by norm_num) with h0 | ⟨Z2, m2, Ec2, Es2, Eb2, n2, mat, p, R, ht, hp, hR, hs, hb⟩
  · exact absurd hr (h0 _ _)
  have e : ∀ {k : String} {x : ℝ}, LibExample.ones k = some (.float x) → x = 1 := by
    intro k x hx
    unfold LibExample.ones at hx
    cases hx
    rfl
  obtain ⟨⟨t1, t2, t3, t4⟩, t5, t6⟩ := ht
  obtain rfl := e t1
  obtain rfl := e t2
  obtain rfl := e t3
  obtain rfl := e t4
  obtain rfl := e t5
  obtain rfl := e t6
  obtain ⟨out, t', hrun⟩ := hs _ _ hr 0 (by norm_num)
  have hpos : chance bits number (single_ion_bca rcpr 2 p mat (Options.default_options false)) Set.univ ≠ 0 := by
    refine chance_pos (C74_stream _ _ _ _ _) (ω := halfBits) (b := out) (t' := t') ?_
    rw [half_bits]
    exact hrun
  refine ⟨mat, p, R, hp, hR, hpos, ?_, hb Bool turns turns_once⟩
  have h1 := C97_independent (Thread := Bool) bits number
    (fun _ : Fin 2 => single_ion_bca rcpr 2 p mat (Options.default_options false)) (fun _ => C74_stream _ _ _ _ _) turns
    turns_once (fun _ => Set.univ)
  intro h0
  have h2 := Finset.prod_ne_zero_iff.2 fun (i : Fin 2) (_ : i ∈ Finset.univ) => hpos
  apply h2
  rw [← h1]
  refine le_antisymm ((measure_mono ?_).trans h0.le) bot_le
  rintro ω ⟨h, he, -⟩
  haveI : Nonempty (Fin (2^53)) := ⟨0⟩
  obtain ⟨hnd, -, -⟩ := execution_all turns_once he (by simp) (fun e he => by cases he)
  obtain ⟨tapes, ht⟩ := given_exists (value := number) hnd
  exact ⟨h, tapes, ht, he⟩

end RustBCA.StatisticsExample
