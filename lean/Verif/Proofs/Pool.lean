import Verif.Spec.Lib
import Mathlib.Algebra.BigOperators.Group.Finset.Basic
import Mathlib.Data.Multiset.Basic
import Mathlib.Algebra.Order.BigOperators.Group.Finset
import Mathlib.Algebra.BigOperators.Intervals

/-!
# The worker pool of the yield functions: invariant, progress, termination
-/

set_option linter.unusedSimpArgs false
set_option linter.unusedVariables false

namespace RustBCA
open Scalar Spec
variable {F : Type} [Scalar F]

/-- Replacing one worker changes a sum over the workers by that worker's share. -/
theorem sum_update_worker {β : Type} [AddCommMonoid β] (g : Worker F → β) (w : Nat → Worker F)
    (n i : Nat) (hi : i < n) (a : Worker F) :
    ∑ j ∈ Finset.range n, g (Function.update w i a j) + g (w i) =
      ∑ j ∈ Finset.range n, g (w j) + g a := by
  have hm : i ∈ Finset.range n := Finset.mem_range.2 hi
  rw [← Finset.add_sum_erase _ _ hm, ← Finset.add_sum_erase (Finset.range n) (fun j => g (w j)) hm]
  have : ∑ x ∈ (Finset.range n).erase i, g (Function.update w i a x) =
      ∑ x ∈ (Finset.range n).erase i, g (w x) := by
    apply Finset.sum_congr rfl
    intro x hx
    rw [Function.update_of_ne (Finset.ne_of_mem_erase hx)]
  rw [this]
  simp only [Function.update_self]
  abel

/-- The worker holds the guard of `num`. -/
def Pc.holdsNum : Pc F → Bool
  | .scan | .wantNum _ => false
  | _ => true

/-- The worker holds the guard of `energy`. -/
def Pc.holdsEnergy : Pc F → Bool
  | .haveEnergy _ | .storeEnergy _ _ | .dropEnergy => true
  | _ => false

/-- How many additions to `num` are still to come from the worker. -/
def Worker.pendingNum (counted : Particle F → Bool) (w : Worker F) : Nat :=
  w.todo.countP counted + match w.pc with
    | .wantNum _ | .haveNum _ | .storeNum _ _ => 1
    | _ => 0

/-- Which energies the worker has still to add to `energy`. -/
def Worker.pendingEnergy (counted : Particle F → Bool) (w : Worker F) : Multiset F :=
  ((w.todo.filter counted).map (·.E) : Multiset F) + match w.pc with
    | .wantNum p | .haveNum p | .storeNum p _ | .wantEnergy p | .haveEnergy p
    | .storeEnergy p _ => {p.E}
    | _ => 0

/-- A bound on the number of steps the worker has still to make. -/
def Worker.work (w : Worker F) : Nat :=
  9 * w.todo.length + match w.pc with
    | .scan => 0
    | .wantNum _ => 8
    | .haveNum _ => 7
    | .storeNum _ _ => 6
    | .wantEnergy _ => 5
    | .haveEnergy _ => 4
    | .storeEnergy _ _ => 3
    | .dropEnergy => 2
    | .dropNum => 1

theorem i32_add_wrap (k : Int) : i32_add (i32_wrap k) 1 = i32_wrap (k + 1) := by
  unfold i32_add i32_wrap; omega

theorem i32_wrap_small {k : Nat} (h : k < 2147483648) : i32_wrap k = k := by
  unfold i32_wrap; omega

/-- The invariant of the pool. -/
structure PoolInv (counted : Particle F → Bool) (we : Bool) (n total : Nat) (all : Multiset F)
    (s : Pool F) : Prop where
  num : ∃ k : Nat, s.num = i32_wrap k ∧
    k + ∑ j ∈ Finset.range n, (s.workers j).pendingNum counted = total
  energy : we = true → ∃ l : List F, s.energy = l.foldl (· + ·) 0.0 ∧
    (l : Multiset F) + ∑ j ∈ Finset.range n, (s.workers j).pendingEnergy counted = all
  holder : ∀ j, (s.workers j).pc.holdsNum = true ↔ s.numLock = some j
  holderE : ∀ j, (s.workers j).pc.holdsEnergy = true ↔ s.energyLock = some j
  fresh : ∀ j p v, (s.workers j).pc = .storeNum p v → v = s.num
  freshE : ∀ j p v, (s.workers j).pc = .storeEnergy p v → v = s.energy

theorem Pool.set_workers_self (s : Pool F) (i : Nat) (w : Worker F) :
    (s.set i w).workers i = w := by simp [Pool.set]

theorem Pool.set_workers_ne (s : Pool F) {i j : Nat} (h : j ≠ i) (w : Worker F) :
    (s.set i w).workers j = s.workers j := by simp [Pool.set, Function.update_of_ne h]

section
variable {counted : Particle F → Bool} {we : Bool} {n total : Nat} {all : Multiset F}
  {s s' : Pool F}

theorem num_share {i : Nat} (hi : i < n) (w : Worker F) :
    ∑ j ∈ Finset.range n, ((s.set i w).workers j).pendingNum counted +
      (s.workers i).pendingNum counted =
    ∑ j ∈ Finset.range n, (s.workers j).pendingNum counted + w.pendingNum counted :=
  sum_update_worker _ _ _ _ hi _

theorem energy_share {i : Nat} (hi : i < n) (w : Worker F) :
    ∑ j ∈ Finset.range n, ((s.set i w).workers j).pendingEnergy counted +
      (s.workers i).pendingEnergy counted =
    ∑ j ∈ Finset.range n, (s.workers j).pendingEnergy counted + w.pendingEnergy counted :=
  sum_update_worker _ _ _ _ hi _

/-- Rebuilding the invariant after worker `i` moved to `w`, given how the shares changed. -/
theorem PoolInv.move {i : Nat} (h : PoolInv counted we n total all s) (hi : i < n) (w : Worker F)
    (num : Int) (energy : F) (nl el : Option Nat)
    (hnum : (num = s.num ∧ w.pendingNum counted = (s.workers i).pendingNum counted) ∨
      (num = i32_add s.num 1 ∧ (s.workers i).pc.holdsNum = true ∧ w.pc.holdsNum = true ∧
        w.pendingNum counted + 1 = (s.workers i).pendingNum counted ∧ ∀ p v, w.pc ≠ .storeNum p v))
    (hen : we = true → (energy = s.energy ∧
        w.pendingEnergy counted = (s.workers i).pendingEnergy counted) ∨
      (∃ e, energy = s.energy + e ∧ (s.workers i).pc.holdsEnergy = true ∧
        w.pc.holdsEnergy = true ∧
        w.pendingEnergy counted + {e} = (s.workers i).pendingEnergy counted ∧
        ∀ p v, w.pc ≠ .storeEnergy p v))
    (hE : energy = s.energy ∨ ((s.workers i).pc.holdsEnergy = true ∧ ∀ p v, w.pc ≠ .storeEnergy p v))
    (hnl : (nl = s.numLock ∧ w.pc.holdsNum = (s.workers i).pc.holdsNum) ∨
      (s.numLock = none ∧ nl = some i ∧ w.pc.holdsNum = true) ∨
      ((s.workers i).pc.holdsNum = true ∧ nl = none ∧ w.pc.holdsNum = false))
    (hel : (el = s.energyLock ∧ w.pc.holdsEnergy = (s.workers i).pc.holdsEnergy) ∨
      (s.energyLock = none ∧ el = some i ∧ w.pc.holdsEnergy = true) ∨
      ((s.workers i).pc.holdsEnergy = true ∧ el = none ∧ w.pc.holdsEnergy = false))
    (hf : ∀ p v, w.pc = .storeNum p v → v = num)
    (hfE : ∀ p v, w.pc = .storeEnergy p v → v = energy) :
    PoolInv counted we n total all
      { s.set i w with num := num, energy := energy, numLock := nl, energyLock := el } := by
  refine ⟨?_, ?_, ?_, ?_, ?_, ?_⟩
  · obtain ⟨k, hk, ht⟩ := h.num
    have hs := num_share (counted := counted) (s := s) hi w
    rcases hnum with ⟨h1, h2⟩ | ⟨h1, _, _, h2, _⟩
    · exact ⟨k, by simp only [h1]; exact hk, by simp only; omega⟩
    · refine ⟨k + 1, ?_, by simp only; omega⟩
      simp only [h1, hk]
      rw [i32_add_wrap]; push_cast; rfl
  · intro hw
    obtain ⟨l, hl, ht⟩ := h.energy hw
    have hs := energy_share (counted := counted) (s := s) hi w
    rcases hen hw with ⟨h1, h2⟩ | ⟨e, h1, _, _, h2, _⟩
    · refine ⟨l, by simp only [h1]; exact hl, ?_⟩
      simp only
      rw [h2] at hs
      rw [← ht, add_right_cancel hs]
    · refine ⟨l ++ [e], ?_, ?_⟩
      · simp only [h1, hl, List.foldl_append, List.foldl_cons, List.foldl_nil]
      · simp only
        rw [← h2] at hs
        rw [← ht]
        have hs2 : ∑ j ∈ Finset.range n, ((s.set i w).workers j).pendingEnergy counted + {e} =
            ∑ j ∈ Finset.range n, (s.workers j).pendingEnergy counted := by
          apply add_right_cancel (b := w.pendingEnergy counted)
          rw [← hs]; abel
        rw [← hs2, ← Multiset.coe_add, show (([e] : List F) : Multiset F) = {e} from rfl]
        abel
  · intro j
    simp only
    by_cases hj : j = i
    · subst hj
      rw [Pool.set_workers_self]
      rcases hnl with ⟨h1, h2⟩ | ⟨_, h1, h2⟩ | ⟨_, h1, h2⟩
      · rw [h1, h2]; exact h.holder j
      · simp [h1, h2]
      · simp [h1, h2]
    · rw [Pool.set_workers_ne s hj]
      rcases hnl with ⟨h1, h2⟩ | ⟨h0, h1, h2⟩ | ⟨h0, h1, h2⟩
      · rw [h1]; exact h.holder j
      · rw [h.holder j, h0, h1]; simp; omega
      · rw [h.holder j, (h.holder i).1 h0, h1]; simp; omega
  · intro j
    simp only
    by_cases hj : j = i
    · subst hj
      rw [Pool.set_workers_self]
      rcases hel with ⟨h1, h2⟩ | ⟨_, h1, h2⟩ | ⟨_, h1, h2⟩
      · rw [h1, h2]; exact h.holderE j
      · simp [h1, h2]
      · simp [h1, h2]
    · rw [Pool.set_workers_ne s hj]
      rcases hel with ⟨h1, h2⟩ | ⟨h0, h1, h2⟩ | ⟨h0, h1, h2⟩
      · rw [h1]; exact h.holderE j
      · rw [h.holderE j, h0, h1]; simp; omega
      · rw [h.holderE j, (h.holderE i).1 h0, h1]; simp; omega
  · intro j p v hj
    simp only at hj ⊢
    by_cases hji : j = i
    · subst hji
      rw [Pool.set_workers_self] at hj
      exact hf p v hj
    · rw [Pool.set_workers_ne s hji] at hj
      rcases hnum with ⟨h1, _⟩ | ⟨_, hh, _⟩
      · rw [h1]; exact h.fresh j p v hj
      · exfalso
        have a := (h.holder i).1 hh
        have b := (h.holder j).1 (by rw [hj]; rfl)
        rw [a] at b; exact hji (Option.some.inj b).symm
  · intro j p v hj
    simp only at hj ⊢
    by_cases hji : j = i
    · subst hji
      rw [Pool.set_workers_self] at hj
      exact hfE p v hj
    · rw [Pool.set_workers_ne s hji] at hj
      rcases hE with h1 | ⟨hh, _⟩
      · rw [h1]; exact h.freshE j p v hj
      · exfalso
        have a := (h.holderE i).1 hh
        have b := (h.holderE j).1 (by rw [hj]; rfl)
        rw [a] at b; exact hji (Option.some.inj b).symm

theorem pool_eta (s : Pool F) (i : Nat) (w : Worker F) :
    s.set i w = { s.set i w with
      num := s.num
      energy := s.energy
      numLock := s.numLock
      energyLock := s.energyLock } := rfl

set_option maxHeartbeats 1000000 in
/-- Every elementary step preserves the invariant. -/
theorem PoolInv.step (h : PoolInv counted we n total all s)
    (hst : Pool.Step counted we n s s') : PoolInv counted we n total all s' := by
  obtain ⟨i, hi, hst⟩ := hst
  unfold Pool.step at hst
  simp only at hst
  obtain ⟨w, hw⟩ : ∃ w, w = s.workers i := ⟨_, rfl⟩
  rw [← hw] at hst
  obtain ⟨todo, pc⟩ := w
  cases pc with
  | scan =>
    cases todo with
    | nil => simp at hst
    | cons p rest =>
      simp only [Option.some.injEq] at hst
      subst hst
      rw [pool_eta]
      by_cases hc : counted p = true
      · refine h.move hi _ _ _ _ _ (Or.inl ⟨rfl, ?_⟩) (fun _ => Or.inl ⟨rfl, ?_⟩) (Or.inl rfl)
          (Or.inl ⟨rfl, ?_⟩) (Or.inl ⟨rfl, ?_⟩) ?_ ?_ <;>
        simp [← hw, hc, Worker.pendingNum, Worker.pendingEnergy, Pc.holdsNum, Pc.holdsEnergy]
        rw [add_comm, Multiset.singleton_add]; rfl
      · refine h.move hi _ _ _ _ _ (Or.inl ⟨rfl, ?_⟩) (fun _ => Or.inl ⟨rfl, ?_⟩) (Or.inl rfl)
          (Or.inl ⟨rfl, ?_⟩) (Or.inl ⟨rfl, ?_⟩) ?_ ?_ <;>
        simp [← hw, hc, Worker.pendingNum, Worker.pendingEnergy, Pc.holdsNum, Pc.holdsEnergy]
  | wantNum p =>
    simp only at hst
    by_cases hl : s.numLock = none
    · simp only [hl, Option.isNone_none, if_true, Option.some.injEq] at hst
      subst hst
      refine h.move hi _ _ _ _ _ (Or.inl ⟨rfl, ?_⟩) (fun _ => Or.inl ⟨rfl, ?_⟩) (Or.inl rfl)
        (Or.inr (Or.inl ⟨hl, rfl, rfl⟩)) (Or.inl ⟨rfl, ?_⟩) ?_ ?_ <;>
      simp [← hw, Worker.pendingNum, Worker.pendingEnergy, Pc.holdsNum, Pc.holdsEnergy]
    · have : s.numLock.isNone = false := by
        cases hh : s.numLock with
        | none => exact absurd hh hl
        | some _ => rfl
      simp [this] at hst
  | haveNum p =>
    simp only [Option.some.injEq] at hst
    subst hst
    rw [pool_eta]
    refine h.move hi _ _ _ _ _ (Or.inl ⟨rfl, ?_⟩) (fun _ => Or.inl ⟨rfl, ?_⟩) (Or.inl rfl)
      (Or.inl ⟨rfl, ?_⟩) (Or.inl ⟨rfl, ?_⟩) ?_ ?_ <;>
    simp [← hw, Worker.pendingNum, Worker.pendingEnergy, Pc.holdsNum, Pc.holdsEnergy]
  | storeNum p v =>
    simp only [Option.some.injEq] at hst
    subst hst
    have hv : v = s.num := h.fresh i p v (by rw [← hw])
    subst hv
    cases we with
    | true =>
      refine h.move hi _ _ _ _ _ (Or.inr ⟨rfl, ?_, ?_, ?_, ?_⟩) (fun _ => Or.inl ⟨rfl, ?_⟩)
        (Or.inl rfl) (Or.inl ⟨rfl, ?_⟩) (Or.inl ⟨rfl, ?_⟩) ?_ ?_ <;>
      simp [← hw, Worker.pendingNum, Worker.pendingEnergy, Pc.holdsNum, Pc.holdsEnergy]
    | false =>
      refine h.move hi _ _ _ _ _ (Or.inr ⟨rfl, ?_, ?_, ?_, ?_⟩) (fun hx => by simp at hx)
        (Or.inl rfl) (Or.inl ⟨rfl, ?_⟩) (Or.inl ⟨rfl, ?_⟩) ?_ ?_ <;>
      simp [← hw, Worker.pendingNum, Worker.pendingEnergy, Pc.holdsNum, Pc.holdsEnergy]
  | wantEnergy p =>
    simp only at hst
    by_cases hl : s.energyLock = none
    · simp only [hl, Option.isNone_none, if_true, Option.some.injEq] at hst
      subst hst
      refine h.move hi _ _ _ _ _ (Or.inl ⟨rfl, ?_⟩) (fun _ => Or.inl ⟨rfl, ?_⟩) (Or.inl rfl)
        (Or.inl ⟨rfl, ?_⟩) (Or.inr (Or.inl ⟨hl, rfl, rfl⟩)) ?_ ?_ <;>
      simp [← hw, Worker.pendingNum, Worker.pendingEnergy, Pc.holdsNum, Pc.holdsEnergy]
    · have : s.energyLock.isNone = false := by
        cases hh : s.energyLock with
        | none => exact absurd hh hl
        | some _ => rfl
      simp [this] at hst
  | haveEnergy p =>
    simp only [Option.some.injEq] at hst
    subst hst
    rw [pool_eta]
    refine h.move hi _ _ _ _ _ (Or.inl ⟨rfl, ?_⟩) (fun _ => Or.inl ⟨rfl, ?_⟩) (Or.inl rfl)
      (Or.inl ⟨rfl, ?_⟩) (Or.inl ⟨rfl, ?_⟩) ?_ ?_ <;>
    simp [← hw, Worker.pendingNum, Worker.pendingEnergy, Pc.holdsNum, Pc.holdsEnergy]
  | storeEnergy p v =>
    simp only [Option.some.injEq] at hst
    subst hst
    have hv : v = s.energy := h.freshE i p v (by rw [← hw])
    subst hv
    refine h.move hi _ _ _ _ _ (Or.inl ⟨rfl, ?_⟩) (fun _ => Or.inr ⟨p.E, rfl, ?_, ?_, ?_, ?_⟩)
      (Or.inr ⟨?_, ?_⟩) (Or.inl ⟨rfl, ?_⟩) (Or.inl ⟨rfl, ?_⟩) ?_ ?_ <;>
    simp [← hw, Worker.pendingNum, Worker.pendingEnergy, Pc.holdsNum, Pc.holdsEnergy]
  | dropEnergy =>
    simp only [Option.some.injEq] at hst
    subst hst
    refine h.move hi _ _ _ _ _ (Or.inl ⟨rfl, ?_⟩) (fun _ => Or.inl ⟨rfl, ?_⟩) (Or.inl rfl)
      (Or.inl ⟨rfl, ?_⟩) (Or.inr (Or.inr ⟨?_, rfl, ?_⟩)) ?_ ?_ <;>
    simp [← hw, Worker.pendingNum, Worker.pendingEnergy, Pc.holdsNum, Pc.holdsEnergy]
  | dropNum =>
    simp only [Option.some.injEq] at hst
    subst hst
    refine h.move hi _ _ _ _ _ (Or.inl ⟨rfl, ?_⟩) (fun _ => Or.inl ⟨rfl, ?_⟩) (Or.inl rfl)
      (Or.inr (Or.inr ⟨?_, rfl, ?_⟩)) (Or.inl ⟨rfl, ?_⟩) ?_ ?_ <;>
    simp [← hw, Worker.pendingNum, Worker.pendingEnergy, Pc.holdsNum, Pc.holdsEnergy]

theorem PoolInv.reaches (h : PoolInv counted we n total all s)
    (hr : Pool.Reaches counted we n s s') : PoolInv counted we n total all s' := by
  induction hr with
  | refl => exact h
  | tail _ hst ih => exact ih.step hst

theorem PoolInv.init (outs : List (List (Particle F))) (hn : outs.length = n) :
    PoolInv counted we n (outs.flatten.countP counted)
      (((outs.flatten.filter counted).map (·.E) : List F) : Multiset F) (Pool.initial outs) := by
  have hsum : ∀ {β : Type} [AddCommMonoid β] (g : List (Particle F) → β),
      ∑ j ∈ Finset.range n, g (outs.getD j []) = (outs.map g).sum := by
    intro β _ g
    subst hn
    induction outs using List.reverseRecOn with
    | nil => simp
    | append_singleton xs x ih =>
      rw [List.length_append, List.length_singleton, Finset.sum_range_succ, List.map_append,
        List.sum_append, ← ih]
      congr 1
      · apply Finset.sum_congr rfl
        intro j hj
        have := Finset.mem_range.1 hj
        simp only [List.getD_eq_getElem?_getD]
        rw [List.getElem?_append_left this]
      · simp
  refine ⟨⟨0, by simp [Pool.initial, i32_wrap], ?_⟩, fun _ => ⟨[], rfl, ?_⟩, ?_, ?_, ?_, ?_⟩
  · have e1 : ∀ j, ((Pool.initial outs).workers j).pendingNum counted =
        (outs.getD j []).countP counted := by
      intro j; simp [Pool.initial, Worker.pendingNum]
    rw [Finset.sum_congr rfl (fun j _ => e1 j), hsum (fun l => l.countP counted), zero_add]
    rw [List.countP_flatten]
  · have e1 : ∀ j, ((Pool.initial outs).workers j).pendingEnergy counted =
        ((((outs.getD j []).filter counted).map (·.E) : List F) : Multiset F) := by
      intro j; simp [Pool.initial, Worker.pendingEnergy]
    rw [Finset.sum_congr rfl (fun j _ => e1 j),
      hsum (fun l => (((l.filter counted).map (·.E) : List F) : Multiset F))]
    clear hsum e1 hn
    induction outs with
    | nil => rfl
    | cons o os ih =>
      simp only [List.map_cons, List.sum_cons, List.flatten_cons, List.filter_append,
        List.map_append] at ih ⊢
      rw [← Multiset.coe_add, ← ih]
      simp only [Multiset.coe_nil, zero_add]
  · intro j; simp [Pool.initial, Pc.holdsNum]
  · intro j; simp [Pool.initial, Pc.holdsEnergy]
  · intro j p v hj; simp [Pool.initial] at hj
  · intro j p v hj; simp [Pool.initial] at hj

/-- Each step uses up work. -/
theorem Pool.step_work (hst : Pool.Step counted we n s s') :
    ∑ j ∈ Finset.range n, (s'.workers j).work < ∑ j ∈ Finset.range n, (s.workers j).work := by
  obtain ⟨i, hi, hst⟩ := hst
  have key : ∀ w : Worker F, w.work < (s.workers i).work →
      ∑ j ∈ Finset.range n, ((s.set i w).workers j).work <
        ∑ j ∈ Finset.range n, (s.workers j).work := by
    intro w hw
    have := sum_update_worker (fun w => w.work) s.workers n i hi w
    simp only [Pool.set]
    omega
  unfold Pool.step at hst
  simp only at hst
  obtain ⟨w, hw⟩ : ∃ w, w = s.workers i := ⟨_, rfl⟩
  rw [← hw] at hst key
  obtain ⟨todo, pc⟩ := w
  cases pc with
  | scan =>
    cases todo with
    | nil => simp at hst
    | cons p rest =>
      simp only [Option.some.injEq] at hst
      subst hst
      apply key
      by_cases hc : counted p = true <;> simp [hc, Worker.work] <;> omega
  | wantNum p =>
    simp only at hst
    split at hst
    · simp only [Option.some.injEq] at hst
      subst hst
      exact key ⟨todo, .haveNum p⟩ (by simp [Worker.work])
    · simp at hst
  | haveNum p =>
    simp only [Option.some.injEq] at hst
    subst hst
    exact key ⟨todo, .storeNum p s.num⟩ (by simp [Worker.work])
  | storeNum p v =>
    simp only [Option.some.injEq] at hst
    subst hst
    exact key ⟨todo, _⟩ (by cases we <;> simp [Worker.work])
  | wantEnergy p =>
    simp only at hst
    split at hst
    · simp only [Option.some.injEq] at hst
      subst hst
      exact key ⟨todo, .haveEnergy p⟩ (by simp [Worker.work])
    · simp at hst
  | haveEnergy p =>
    simp only [Option.some.injEq] at hst
    subst hst
    exact key ⟨todo, .storeEnergy p s.energy⟩ (by simp [Worker.work])
  | storeEnergy p v =>
    simp only [Option.some.injEq] at hst
    subst hst
    exact key ⟨todo, .dropEnergy⟩ (by simp [Worker.work])
  | dropEnergy =>
    simp only [Option.some.injEq] at hst
    subst hst
    exact key ⟨todo, .dropNum⟩ (by simp [Worker.work])
  | dropNum =>
    simp only [Option.some.injEq] at hst
    subst hst
    exact key ⟨todo, .scan⟩ (by simp [Worker.work])

/-- Workers beyond the `n` samples never hold a lock. -/
def Idle (n : Nat) (s : Pool F) : Prop := ∀ j, n ≤ j → (s.workers j).pc = .scan

theorem Idle.step (h : Idle n s) (hst : Pool.Step counted we n s s') : Idle n s' := by
  obtain ⟨i, hi, hst⟩ := hst
  intro j hj
  have hne : j ≠ i := by omega
  have hset : ∀ w, ((s.set i w).workers j).pc = .scan := by
    intro w; rw [Pool.set_workers_ne s hne]; exact h j hj
  unfold Pool.step at hst
  simp only at hst
  split at hst
  · split at hst
    · simp at hst
    · simp only [Option.some.injEq] at hst; subst hst; exact hset _
  · split at hst
    · simp only [Option.some.injEq] at hst; subst hst; exact hset _
    · simp at hst
  · simp only [Option.some.injEq] at hst; subst hst; exact hset _
  · simp only [Option.some.injEq] at hst; subst hst; exact hset _
  · split at hst
    · simp only [Option.some.injEq] at hst; subst hst; exact hset _
    · simp at hst
  · simp only [Option.some.injEq] at hst; subst hst; exact hset _
  · simp only [Option.some.injEq] at hst; subst hst; exact hset _
  · simp only [Option.some.injEq] at hst; subst hst; exact hset _
  · simp only [Option.some.injEq] at hst; subst hst; exact hset _

/-- The holder of `num` can always move, and if nobody holds it any unfinished worker can. -/
theorem PoolInv.progress (h : PoolInv counted we n total all s) (hid : Idle n s)
    (hun : ¬ s.finished n) : ∃ s', Pool.Step counted we n s s' := by
  have hE : ∀ j, (s.workers j).pc.holdsEnergy = true → s.numLock = some j := by
    intro j hj
    refine (h.holder j).1 ?_
    cases hp : (s.workers j).pc <;> simp [hp, Pc.holdsEnergy, Pc.holdsNum] at hj ⊢
  cases hl : s.numLock with
  | some i =>
    have hh := (h.holder i).2 hl
    have hi : i < n := by
      by_contra hc
      rw [hid i (by omega)] at hh
      simp [Pc.holdsNum] at hh
    cases hp : (s.workers i).pc with
    | scan => rw [hp] at hh; simp [Pc.holdsNum] at hh
    | wantNum p => rw [hp] at hh; simp [Pc.holdsNum] at hh
    | haveNum p => exact ⟨_, i, hi, by unfold Pool.step; simp only [hp]; rfl⟩
    | storeNum p v => exact ⟨_, i, hi, by unfold Pool.step; simp only [hp]; rfl⟩
    | wantEnergy p =>
      have : s.energyLock = none := by
        cases he : s.energyLock with
        | none => rfl
        | some k =>
          have hk := (h.holderE k).2 he
          have := hE k hk
          rw [hl] at this
          obtain rfl := Option.some.inj this
          rw [hp] at hk
          simp [Pc.holdsEnergy] at hk
      exact ⟨_, i, hi, by unfold Pool.step; simp only [hp, this, Option.isNone_none, if_true]; rfl⟩
    | haveEnergy p => exact ⟨_, i, hi, by unfold Pool.step; simp only [hp]; rfl⟩
    | storeEnergy p v => exact ⟨_, i, hi, by unfold Pool.step; simp only [hp]; rfl⟩
    | dropEnergy => exact ⟨_, i, hi, by unfold Pool.step; simp only [hp]; rfl⟩
    | dropNum => exact ⟨_, i, hi, by unfold Pool.step; simp only [hp]; rfl⟩
  | none =>
    unfold Pool.finished at hun
    push Not at hun
    obtain ⟨i, hi, hx⟩ := hun
    have hnh : (s.workers i).pc.holdsNum = false := by
      cases hh : (s.workers i).pc.holdsNum with
      | false => rfl
      | true => rw [(h.holder i).1 hh] at hl; simp at hl
    cases hp : (s.workers i).pc with
    | scan =>
      cases ht : (s.workers i).todo with
      | nil => exact absurd hp (hx ht)
      | cons p rest => exact ⟨_, i, hi, by unfold Pool.step; simp only [hp, ht]; rfl⟩
    | wantNum p =>
      exact ⟨_, i, hi, by unfold Pool.step; simp only [hp, hl, Option.isNone_none, if_true]; rfl⟩
    | _ => rw [hp] at hnh; simp [Pc.holdsNum] at hnh

/-- What the counters hold when all workers have finished. -/
theorem PoolInv.final (h : PoolInv counted we n total all s) (hf : s.finished n) :
    s.num = i32_wrap total ∧
      (we = true → ∃ l : List F, s.energy = l.foldl (· + ·) 0.0 ∧ (l : Multiset F) = all) := by
  constructor
  · obtain ⟨k, hk, ht⟩ := h.num
    have : ∑ j ∈ Finset.range n, (s.workers j).pendingNum counted = 0 := by
      apply Finset.sum_eq_zero
      intro j hj
      obtain ⟨h1, h2⟩ := hf j (Finset.mem_range.1 hj)
      simp [Worker.pendingNum, h1, h2]
    rw [hk, ← ht, this]; simp
  · intro hw
    obtain ⟨l, hl, ht⟩ := h.energy hw
    have : ∑ j ∈ Finset.range n, (s.workers j).pendingEnergy counted = 0 := by
      apply Finset.sum_eq_zero
      intro j hj
      obtain ⟨h1, h2⟩ := hf j (Finset.mem_range.1 hj)
      simp [Worker.pendingEnergy, h1, h2]
    exact ⟨l, hl, by rw [← ht, this]; simp⟩

end
end RustBCA
