import Verif.Model.CMemory

/-!
# Vocabulary for C126: arrays in memory
-/

namespace RustBCA.Spec
variable {F : Type} [Scalar F]

/-- Memory holds the array `l` at `ptr`, perhaps followed by more: the pointer is not null and aligned, and the array is no
longer than an array can be. -/
def HoldsArray {α : Type} (view : Cells F → Option (List α)) (size align : ℕ) (mem : Memory F) (ptr : ℕ) (l : List α) : Prop :=
  (ptr ≠ 0 ∧ ptr % align = 0) ∧ l.length*size < 2^63 ∧ (l ≠ [] → ∃ b rest, mem ptr = some b ∧ view b.cells = some (l ++ rest))

/-- An array of doubles. -/
def HoldsF64 (mem : Memory F) (ptr : ℕ) (l : List F) : Prop := HoldsArray Cells.asF64 8 8 mem ptr l

/-- An array of triples of doubles. -/
def HoldsTriples (mem : Memory F) (ptr : ℕ) (l : List (Vec3 F)) : Prop := HoldsArray Cells.asTriple 24 8 mem ptr l

/-- An array of 32-bit integers. -/
def HoldsI32 (mem : Memory F) (ptr : ℕ) (l : List Int) : Prop := HoldsArray Cells.asI32 4 4 mem ptr l

/-- The six arrays that describe the `n` species of a target. -/
structure HoldsTarget (mem : Memory F) (n : ℕ) (pZ pm pn pEc pEs pEb : ℕ) (Z m ns Ec Es Eb : List F) : Prop where
  lengths : Z.length = n ∧ m.length = n ∧ ns.length = n ∧ Ec.length = n ∧ Es.length = n ∧ Eb.length = n
  Z : HoldsF64 mem pZ Z
  m : HoldsF64 mem pm m
  n : HoldsF64 mem pn ns
  Ec : HoldsF64 mem pEc Ec
  Es : HoldsF64 mem pEs Es
  Eb : HoldsF64 mem pEb Eb

/-- `mem'` is `mem` with a new block at `ptr`, unused before, that contains `cells` and was allocated with `layout`; or `mem`
itself if there is nothing to contain. -/
def NewBlock (mem mem' : Memory F) (ptr len : ℕ) (cells : Cells F) (layout : Layout) : Prop :=
  (len = 0 → mem' = mem) ∧ (len ≠ 0 → mem ptr = none ∧ mem' ptr = some ⟨cells, some layout⟩ ∧ ∀ a, a ≠ ptr → mem' a = mem a)

/-- The allocator gives out memory that is not in use, while memory is finite. -/
def Allocates (malloc : Memory F → ℕ) : Prop := ∀ mem : Memory F, {a | mem a ≠ none}.Finite → mem (malloc mem) = none

/-- What `call` does if it answers as the list computation `m` does: it leaves the rows in a new block and returns their
number and the address, or it fails in the same way. -/
def AnswersWith (cap : ℕ → ℕ) (call : CCall F OutputBCA) (m : M F (List (List F))) (t : Tape F) (mem : Memory F) : Prop :=
  (∀ rows t', m t = .ok (rows, t') → ∃ out mem', call (t, mem) = .ok (out, (t', mem')) ∧ out.len = rows.length ∧
    NewBlock mem mem' out.particles rows.length (.rows rows) ⟨cap rows.length*72, 8⟩ ∧ {a | mem' a ≠ none}.Finite) ∧
  (∀ e, m t = .error e → call (t, mem) = .error (.err e))

end RustBCA.Spec
