import Verif.Model.Bca

/-!
# Two runs side by side

`RRel`/`MRel` relate two computations: on the same random stream either both succeed with related
results and the same remaining stream, or both fail with the same error.
-/

namespace RustBCA
open Scalar

/-- Both succeed with related results, or both fail in the same way. -/
def RRel {α β : Type} (R : α → β → Prop) : Res α → Res β → Prop
  | .ok a, .ok b => R a b
  | .error e, .error e' => e = e'
  | _, _ => False

/-- The same for computations that draw random numbers, started on the same stream. -/
def MRel {F α β : Type} (R : α → β → Prop) (m : M F α) (m' : M F β) : Prop :=
  ∀ t, RRel (fun x y => R x.1 y.1 ∧ x.2 = y.2) (m t) (m' t)

section
variable {F α β γ δ : Type} {R : α → β → Prop} {S : γ → δ → Prop}

theorem RRel.bind {r : Res α} {r' : Res β} {f : α → Res γ} {g : β → Res δ} (h : RRel R r r')
    (hf : ∀ a b, R a b → RRel S (f a) (g b)) : RRel S (r >>= f) (r' >>= g) := by
  cases r <;> cases r' <;> simp only [RRel] at h
  · exact h
  · exact hf _ _ h

theorem RRel.pure {a : α} {b : β} (h : R a b) : RRel R (pure a) (pure b) := h

theorem RRel.refl {R : α → α → Prop} (hR : ∀ a, R a a) (r : Res α) : RRel R r r := by
  cases r with
  | ok a => exact hR a
  | error e => exact (rfl : e = e)

theorem RRel.of_eq {r r' : Res α} (h : r = r') : RRel Eq r r' := by
  subst h; exact RRel.refl (fun _ => rfl) r

theorem RRel.eq {r r' : Res α} (h : RRel Eq r r') : r = r' := by
  cases r <;> cases r' <;> simp only [RRel] at h
  · rw [h]
  · rw [h]

theorem RRel.mono {R' : α → β → Prop} {r : Res α} {r' : Res β} (h : RRel R r r')
    (hR : ∀ a b, R a b → R' a b) : RRel R' r r' := by
  cases r <;> cases r' <;> simp only [RRel] at h ⊢
  · exact h
  · exact hR _ _ h

/-- The same first computation on both sides. -/
theorem RRel.bind_same {r r' : Res α} {f : α → Res γ} {g : α → Res δ} (h : r = r')
    (hf : ∀ a, RRel S (f a) (g a)) : RRel S (r >>= f) (r' >>= g) :=
  RRel.bind (RRel.of_eq h) (fun a b e => by subst e; exact hf a)

theorem RRel.ite {c c' : Bool} {r1 r2 : Res α} {s1 s2 : Res β} (hc : c = c')
    (h1 : RRel R r1 s1) (h2 : RRel R r2 s2) :
    RRel R (if c = true then r1 else r2) (if c' = true then s1 else s2) := by
  subst hc; cases c
  · simpa using h2
  · simpa using h1

theorem MRel.bind {m : M F α} {m' : M F β} {f : α → M F γ} {g : β → M F δ} (h : MRel R m m')
    (hf : ∀ a b, R a b → MRel S (f a) (g b)) : MRel S (m >>= f) (m' >>= g) := by
  intro t
  have h1 := h t
  simp only [Bind.bind, StateT.bind, Except.bind]
  cases hm : m t <;> cases hm' : m' t <;> rw [hm, hm'] at h1 <;> simp only [RRel] at h1
  · exact h1
  · rename_i x y
    obtain ⟨a, s⟩ := x; obtain ⟨b, s'⟩ := y
    obtain ⟨h2, h3⟩ := h1
    simp only at h2 h3
    subst h3
    exact hf a b h2 s

theorem MRel.pure {a : α} {b : β} (h : R a b) : MRel R (pure a : M F α) (pure b) :=
  fun _ => ⟨h, rfl⟩

theorem MRel.lift {r : Res α} {r' : Res β} (h : RRel R r r') :
    MRel R (liftM r : M F α) (liftM r') := by
  intro t
  cases r <;> cases r' <;> simp only [RRel] at h
  · exact h
  · exact ⟨h, rfl⟩

theorem MRel.refl {R : α → α → Prop} (hR : ∀ a, R a a) (m : M F α) : MRel R m m := by
  intro t
  cases m t with
  | ok p => exact ⟨hR _, rfl⟩
  | error e => exact (rfl : e = e)

theorem MRel.bind_same {m m' : M F α} {f : α → M F γ} {g : α → M F δ} (h : m = m')
    (hf : ∀ a, MRel S (f a) (g a)) : MRel S (m >>= f) (m' >>= g) := by
  subst h
  exact MRel.bind (MRel.refl (fun _ => rfl) m) (fun a b e => by subst e; exact hf a)

theorem MRel.mono {R' : α → β → Prop} {m : M F α} {m' : M F β} (h : MRel R m m')
    (hR : ∀ a b, R a b → R' a b) : MRel R' m m' :=
  fun t => (h t).mono fun _ _ hx => ⟨hR _ _ hx.1, hx.2⟩

theorem MRel.ite {c c' : Bool} {r1 r2 : M F α} {s1 s2 : M F β} (hc : c = c')
    (h1 : MRel R r1 s1) (h2 : MRel R r2 s2) :
    MRel R (if c = true then r1 else r2) (if c' = true then s1 else s2) := by
  subst hc; cases c
  · simpa using h2
  · simpa using h1

theorem MRel.throw (e : Err) : MRel R (throw e : M F α) (throw e : M F β) := fun _ => rfl

theorem MRel.forFold {σ σ' : Type} {I : σ → σ' → Prop} {body : σ → α → M F σ}
    {body' : σ' → α → M F σ'} (h : ∀ x y a, I x y → MRel I (body x a) (body' y a)) :
    ∀ (l : List α) (x : σ) (y : σ'), I x y →
      MRel I (forFold body l x) (forFold body' l y) := by
  intro l
  induction l with
  | nil => intro x y hI; exact MRel.pure hI
  | cons a l ih => intro x y hI; exact MRel.bind (h x y a hI) (fun b c hb => ih b c hb)

theorem MRel.whileFuel {σ σ' : Type} {I : σ → σ' → Prop} {cond : σ → Bool} {cond' : σ' → Bool}
    {body : σ → M F σ} {body' : σ' → M F σ'} (hc : ∀ x y, I x y → cond x = cond' y)
    (h : ∀ x y, I x y → MRel I (body x) (body' y)) :
    ∀ (n : Nat) (x : σ) (y : σ'), I x y →
      MRel I (whileFuel cond body n x) (whileFuel cond' body' n y) := by
  intro n
  induction n with
  | zero => intro x y _; exact MRel.throw _
  | succ n ih =>
    intro x y hI
    unfold RustBCA.whileFuel
    exact MRel.ite (hc x y hI) (MRel.bind (h x y hI) (fun a b hab => ih a b hab)) (MRel.pure hI)

end

end RustBCA
