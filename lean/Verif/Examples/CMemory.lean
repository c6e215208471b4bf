import Verif.Props.CMemory
import Verif.Examples.Lib

/-!
# Non-vacuity of C126: a memory with the arrays of two ions, and the calls on it
-/

set_option linter.unusedSimpArgs false
set_option linter.unusedVariables false

namespace RustBCA.CMemoryExample
open Scalar Spec LibExample
open scoped Classical

/-- An allocator. -/
noncomputable def first_free (mem : Memory ℝ) : ℕ := if h : ∃ a, mem a = none then h.choose else 0

theorem allocates : Allocates first_free := by
  intro mem hfin
  obtain ⟨a, ha⟩ := hfin.infinite_compl.nonempty
  have h : ∃ a, mem a = none := ⟨a, by simpa using ha⟩
  unfold first_free
  rw [dif_pos h]
  exact h.choose_spec

/-- `Vec`s that allocate twice what they need. -/
def twice (n : ℕ) : ℕ := 2*n

/-- The caller's arrays: the numbers of the target, two velocities, positions, tags, weights, and the eight lists of the Fortran
interface; some are longer than what is used. -/
noncomputable def arrays : List (ℕ × Block ℝ) :=
  [(8, ⟨.f64 [1], none⟩), (16, ⟨.triple [⟨3, 4, 0⟩, ⟨3, 4, 0⟩], none⟩), (64, ⟨.triple [⟨1, 2, 3⟩, ⟨4, 5, 6⟩, ⟨7, 8, 9⟩], none⟩),
    (200, ⟨.i32 [7, 8], none⟩), (208, ⟨.f64 [1/2, 1/3], none⟩), (224, ⟨.f64 [3/5, 3/5], none⟩), (240, ⟨.f64 [4/5, 4/5], none⟩),
    (256, ⟨.f64 [0, 0], none⟩), (272, ⟨.f64 [1/2, 1/2], none⟩), (288, ⟨.f64 [1, 1], none⟩)]

noncomputable def memory : Memory ℝ := fun a => arrays.lookup a

theorem memory_finite : {a | memory a ≠ none}.Finite := by
  refine (Finset.finite_toSet ((arrays.map Prod.fst).toFinset)).subset fun a ha => ?_
  simp only [Set.mem_ofPred_eq, memory, arrays] at ha
  simp only [arrays, List.map_cons, List.map_nil, Finset.mem_coe, List.mem_toFinset, List.mem_cons, List.not_mem_nil, or_false]
  by_contra h
  simp only [not_or] at h
  obtain ⟨h1, h2, h3, h4, h5, h6, h7, h8, h9, h10⟩ := h
  apply ha
  simp [List.lookup, beq_false_of_ne h1, beq_false_of_ne h2, beq_false_of_ne h3, beq_false_of_ne h4, beq_false_of_ne h5,
    beq_false_of_ne h6, beq_false_of_ne h7, beq_false_of_ne h8, beq_false_of_ne h9, beq_false_of_ne h10]

theorem holds_one : HoldsF64 memory 8 [1] := ⟨by decide, by norm_num, fun _ => ⟨_, [], rfl, rfl⟩⟩
theorem holds_velocities : HoldsTriples memory 16 [⟨3, 4, 0⟩, ⟨3, 4, 0⟩] := ⟨by decide, by norm_num, fun _ => ⟨_, [], rfl, rfl⟩⟩
theorem holds_positions : HoldsTriples memory 64 [⟨1, 2, 3⟩, ⟨4, 5, 6⟩] :=
  ⟨by decide, by norm_num, fun _ => ⟨_, [⟨7, 8, 9⟩], rfl, rfl⟩⟩
theorem holds_tags : HoldsI32 memory 200 [7, 8] := ⟨by decide, by norm_num, fun _ => ⟨_, [], rfl, rfl⟩⟩
theorem holds_weights : HoldsF64 memory 208 [1/2, 1/3] := ⟨by decide, by norm_num, fun _ => ⟨_, [], rfl, rfl⟩⟩

theorem holds_target : HoldsTarget memory 1 8 8 8 8 8 8 [1] [1] [1] [1] [1] [1] :=
  ⟨⟨rfl, rfl, rfl, rfl, rfl, rfl⟩, holds_one, holds_one, holds_one, holds_one, holds_one, holds_one⟩

/-- `simple_bca_list_c` answers with two rows in a new block; dropping them is undefined behaviour. -/
example (rcpr : Rcpr ℝ) (ext : Ext ℝ) : ∃ out t mem',
    simple_bca_list_mem first_free twice rcpr 2 ext ⟨2, 16, 1, 1, 1, 1, 1, 1, 1, 1, 1, 1⟩ (zeros, memory) = .ok (out, (t, mem')) ∧
    out.len = 2 ∧ memory out.particles = none ∧ (∃ rows, mem' out.particles = some ⟨.rows rows, some ⟨288, 8⟩⟩ ∧ rows.length = 2) ∧
    HoldsTriples mem' 16 [⟨3, 4, 0⟩, ⟨3, 4, 0⟩] ∧ drop_output_bca_mem out (t, mem') = .error .ub := by
  obtain ⟨rows, t, h, hl⟩ := (lists_ok rcpr ext).1
  obtain ⟨out, mem', h1, h2, h3, -⟩ := (C126_simple twice rcpr 2 ext (t := zeros) allocates memory_finite
    ⟨2, 16, 1, 1, 1, 1, 1, 1, 1, 1, 1, 1⟩ _ rfl holds_velocities).1 rows t h
  obtain ⟨h4, h5, -⟩ := h3.2 (by omega)
  have hne : rows ≠ [] := by rintro rfl; cases hl
  exact ⟨out, t, mem', h1, by rw [h2, hl], h4, ⟨rows, by rw [h5, hl]; rfl, hl⟩, still_holds h3 holds_velocities,
    (C126_drop twice (fun n => by unfold twice; omega) h3 h2 hne rfl t).1⟩

example (rcpr : Rcpr ℝ) (ext : Ext ℝ) : ∃ out s,
    compound_bca_list_mem first_free twice rcpr 2 ext ⟨2, 16, 1, 1, 1, 1, 1, 8, 8, 8, 8, 8, 8⟩ (zeros, memory) = .ok (out, s) ∧
    out.len = 2 := by
  obtain ⟨rows, t, h, hl⟩ := (lists_ok rcpr ext).2.1
  obtain ⟨out, mem', h1, h2, -⟩ := (C126_compound twice rcpr 2 ext (t := zeros) allocates memory_finite
    ⟨2, 16, 1, 1, 1, 1, 1, 8, 8, 8, 8, 8, 8⟩ _ rfl holds_velocities holds_target).1 rows t h
  exact ⟨out, _, h1, by rw [h2, hl]⟩

example (rcpr : Rcpr ℝ) (ext : Ext ℝ) : ∃ out t mem',
    compound_tagged_bca_list_mem first_free twice rcpr 2 ext ⟨2, 64, 16, 1, 1, 1, 1, 1, 8, 8, 8, 8, 8, 8, 200, 208⟩ (zeros, memory) =
      .ok (out, (t, mem')) ∧ out.len = 2 ∧ ∃ mem1, drop_output_tagged_bca_mem out (t, mem1) = .error .ub := by
  obtain ⟨o, t, h, h1, h2, hl⟩ := tagged_ok rcpr ext
  obtain ⟨ptrs, m1, m2, m3, mem', e, el, hn, -⟩ := (C126_tagged twice rcpr 2 ext (t := zeros) allocates memory_finite
    ⟨2, 64, 16, 1, 1, 1, 1, 1, 8, 8, 8, 8, 8, 8, 200, 208⟩ _ _ _ _ rfl holds_velocities rfl holds_positions rfl holds_tags rfl
    holds_weights holds_target).1 o t h
  rw [← el] at hn
  exact ⟨ptrs, t, mem', e, by rw [el, hl], m1,
    C126_drop_tagged twice (fun n => by unfold twice; omega) hn (by rw [el, hl]; norm_num) rfl t⟩

example (rcpr : Rcpr ℝ) (ext : Ext ℝ) : ∃ ptr s,
    compound_bca_list_fortran_mem first_free twice rcpr 2 ext 2 true 224 240 256 272 288 288 288 288 1 8 8 8 8 8 8 (zeros, memory) =
      .ok ((2, ptr), s) := by
  have f : ∀ a l, (memory a = some ⟨.f64 l, none⟩) → (a ≠ 0 ∧ a % 8 = 0) → l.length = 2 → HoldsF64 memory a l := by
    intro a l h1 h2 h3
    exact ⟨h2, by rw [h3]; norm_num, fun _ => ⟨_, [], h1, by rw [List.append_nil]; rfl⟩⟩
  obtain ⟨rows, t, h, hl⟩ := (lists_ok rcpr ext).2.2.1
  obtain ⟨count, ptr, mem', e, hc, -⟩ := (C126_fortran twice rcpr 2 ext (t := zeros) allocates memory_finite 2 1 (by norm_num)
    (by norm_num) true (pux := 224) (puy := 240) (puz := 256) (pE1 := 272) (pZ1 := 288) (pm1 := 288) (pEc1 := 288) (pEs1 := 288)
    ⟨rfl, rfl, rfl, rfl, rfl, rfl, rfl, rfl⟩ (f _ _ rfl (by decide) rfl) (f _ _ rfl (by decide) rfl) (f _ _ rfl (by decide) rfl)
    (f _ _ rfl (by decide) rfl) (f _ _ rfl (by decide) rfl) (f _ _ rfl (by decide) rfl) (f _ _ rfl (by decide) rfl)
    (f _ _ rfl (by decide) rfl) holds_target).1 rows t h
  obtain rfl : count = 2 := by rw [hc (by rw [hl]; norm_num), hl]; rfl
  exact ⟨ptr, _, e⟩

example (rcpr : Rcpr ℝ) (ext : Ext ℝ) : ∃ out s,
    simple_bca_mem first_free twice rcpr 2 ext (-1) 0 0 0.6 0.8 0 1 1 1 1 1 1 1 1 1 1 1 (zeros, memory) = .ok (out, s) := by
  obtain ⟨rows, t, h, -⟩ := simple_ok rcpr ext
  obtain ⟨out, mem', e, -⟩ := (C126_one_ion twice rcpr 2 ext (t := zeros) allocates memory_finite _ _ _ _ _ _ _ _ _ _ _ _ _ _ _ _ _).1 rows t h
  exact ⟨out, _, e⟩

example (rcpr : Rcpr ℝ) (ext : Ext ℝ) : ∃ r s,
    reflect_single_ion_mem rcpr 2 ext 1 (3/5) (4/5) 0 (1/2) 1 1 1 1 8 8 8 8 8 8 (zeros, memory) = .ok (r, s) := by
  obtain ⟨r, t, h⟩ := (lists_ok rcpr ext).2.2.2.2
  exact ⟨r, (t, memory), (C126_reflect rcpr 2 ext 1 (by norm_num) _ _ _ _ _ _ _ _ holds_target).trans
    ((call_ok _ _ _ _ _ _).2 ⟨h, rfl⟩)⟩

end RustBCA.CMemoryExample
