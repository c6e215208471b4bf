import Verif.Monad

/-! # Vocabulary for the random stream (C74) -/

namespace RustBCA.Spec

/-- The stream after `k` numbers have been drawn from it. -/
def after {F : Type} (k : Nat) (t : Tape F) : Tape F := fun i => t (k + i)

/-- The computation draws numbers one after the other: a successful run uses up a number `k` of
them, leaves exactly the rest, and would have had the same result on every stream that begins with
the same `k` numbers. -/
def DrawsInOrder {F α : Type} (m : M F α) : Prop :=
  ∀ t a t', m t = .ok (a, t') → ∃ k, t' = after k t ∧
    ∀ u, (∀ i, i < k → u i = t i) → m u = .ok (a, after k u)

end RustBCA.Spec
