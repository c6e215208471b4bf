import Verif.Model.Main
import Verif.Model.Yields

/-!
# More fuel

`RMore a b`: unless `a` ran out of fuel, `b` ends in the same way, be it a result or a panic.  Every function
of the model that takes fuel is monotone in this sense.
-/

namespace RustBCA
open Scalar

/-- Unless the first ran out of fuel, the second ends in the same way. -/
def RMore {α : Type} (a b : Res α) : Prop := a ≠ .error .fuel → b = a

/-- The same on every stream of random numbers. -/
def MMore {F α : Type} (m m' : M F α) : Prop := ∀ t, RMore (m t) (m' t)

section
variable {F α β σ : Type}

theorem rmore_refl (a : Res α) : RMore a a := fun _ => rfl

theorem rmore_bind {a a' : Res α} {f f' : α → Res β} (h : RMore a a') (hf : ∀ x, RMore (f x) (f' x)) :
    RMore (a >>= f) (a' >>= f') := by
  intro hne
  cases ha : a with
  | error e =>
    have : a ≠ .error .fuel := by
      rintro he
      rw [he] at hne
      exact hne rfl
    rw [h this, ha]
    rfl
  | ok x =>
    rw [ha] at hne
    rw [h (by rw [ha]; exact nofun), ha]
    exact hf x hne

theorem rmore_ite {c : Prop} [Decidable c] {a a' b b' : Res α} (h : RMore a a') (h' : RMore b b') :
    RMore (if c then a else b) (if c then a' else b') := by
  split
  · exact h
  · exact h'

theorem rmore_forFold {body body' : σ → α → Res σ} (h : ∀ s a, RMore (body s a) (body' s a)) :
    ∀ (l : List α) (s : σ), RMore (forFold body l s) (forFold body' l s) := by
  intro l
  induction l with
  | nil => intro s; exact rmore_refl _
  | cons a l ih => intro s; exact rmore_bind (h s a) ih

theorem rmore_collectN {f f' : Nat → Res α} (h : ∀ k, RMore (f k) (f' k)) :
    ∀ n, RMore (collectN f n) (collectN f' n) := by
  intro n
  induction n with
  | zero => exact rmore_refl _
  | succ n ih => exact rmore_bind ih fun _ => rmore_bind (h n) fun _ => rmore_refl _

theorem mmore_refl (m : M F α) : MMore m m := fun _ => rmore_refl _

theorem mmore_bind {m m' : M F α} {f f' : α → M F β} (h : MMore m m') (hf : ∀ x, MMore (f x) (f' x)) :
    MMore (m >>= f) (m' >>= f') := fun t => rmore_bind (h t) fun p => hf p.1 p.2

theorem mmore_forFold {body body' : σ → α → M F σ} (h : ∀ s a, MMore (body s a) (body' s a)) :
    ∀ (l : List α) (s : σ), MMore (forFold body l s) (forFold body' l s) := by
  intro l
  induction l with
  | nil => intro s; exact mmore_refl _
  | cons a l ih => intro s; exact mmore_bind (h s a) ih

theorem mmore_whileFuel {cond : σ → Bool} {body body' : σ → M F σ} (h : ∀ s, MMore (body s) (body' s)) :
    ∀ (n m : Nat), n ≤ m → ∀ s, MMore (whileFuel cond body n s) (whileFuel cond body' m s) := by
  intro n
  induction n with
  | zero => intro m _ s t hne; exact absurd rfl hne
  | succ n ih =>
    intro m hm s
    obtain ⟨m, rfl⟩ : ∃ k, m = k + 1 := ⟨m - 1, by omega⟩
    unfold whileFuel
    cases cond s with
    | true => exact mmore_bind (h s) (ih m (by omega))
    | false => exact mmore_refl _

end

section
variable {F : Type} [Scalar F]

theorem more_cascade (rcpr : Rcpr F) {fuel fuel' : Nat} (hf : fuel ≤ fuel') (ion : Particle F) (mat : Material F)
    (o : Options F) : MMore (single_ion_bca rcpr fuel ion mat o) (single_ion_bca rcpr fuel' ion mat o) :=
  mmore_bind (mmore_whileFuel (fun _ => mmore_bind (mmore_refl _) fun _ => mmore_bind
    (mmore_whileFuel (fun _ => mmore_refl _) _ _ hf _) fun _ => mmore_refl _) _ _ hf _) fun _ => mmore_refl _

theorem rmore_seq {α β : Type} {f f' : α → Res (List β)} (h : ∀ a, RMore (f a) (f' a)) :
    ∀ l, RMore (seq_collect f l) (seq_collect f' l) := by
  intro l
  induction l with
  | nil => exact rmore_refl _
  | cons a l ih => exact rmore_bind (h a) fun _ => rmore_bind ih fun _ => rmore_refl _

theorem rmore_par {α β : Type} {f f' : α → Res (List β)} (h : ∀ a, RMore (f a) (f' a)) :
    ∀ s l, RMore (par_collect f s l) (par_collect f' s l) := by
  intro s
  induction s with
  | leaf => exact rmore_seq h
  | node mid l r ihl ihr => intro xs; exact rmore_bind (ihl _) fun _ => rmore_bind (ihr _) fun _ => rmore_refl _

theorem rmore_physics_loop {α : Type} {sim sim' : α → Res (List (Particle F))} (h : ∀ a, RMore (sim a) (sim' a))
    (cfg : OutputConfig F) (o : Options F) (splits : List Split) (ions : List α) :
    RMore (physics_loop cfg o sim splits ions) (physics_loop cfg o sim' splits ions) := by
  unfold physics_loop
  refine rmore_bind (rmore_refl _) fun _ => rmore_bind (rmore_refl _) fun _ => rmore_forFold (fun s c => ?_) _ _
  unfold process_chunk
  exact rmore_bind (rmore_ite (rmore_par h _ _) (rmore_seq h _)) fun _ => rmore_refl _

theorem more_run (rcpr : Rcpr F) {fuel fuel' : Nat} (hf : fuel ≤ fuel') (cfg : OutputConfig F) (mat : Material F)
    (o : Options F) (splits : List Split) (tapes : Nat → Tape F) (inputs : List (ParticleInput F)) :
    RMore (physics_loop_run rcpr fuel cfg mat o splits tapes inputs)
      (physics_loop_run rcpr fuel' cfg mat o splits tapes inputs) :=
  rmore_physics_loop (fun _ => rmore_bind (rmore_refl _) fun _ => rmore_bind (more_cascade rcpr hf _ mat o _)
    fun _ => rmore_refl _) cfg o splits _

theorem more_run_file {G : Type} (w : World F) {fuel fuel' : Nat} (hf : fuel ≤ fuel')
    (record : Option (InputRecord F G)) (geometry : G → Res (Geom F)) :
    RMore (run_file { w with fuel := fuel } record geometry) (run_file { w with fuel := fuel' } record geometry) :=
  rmore_bind (rmore_refl _) fun _ => rmore_bind (rmore_refl _) fun _ => more_run _ hf _ _ _ _ _ _

theorem more_main (w : World F) {fuel fuel' : Nat} (hf : fuel ≤ fuel') (args : List String) :
    RMore (main { w with fuel := fuel } args) (main { w with fuel := fuel' } args) := by
  refine rmore_bind (rmore_refl _) fun a => ?_
  obtain ⟨file, t⟩ := a
  cases t <;> exact more_run_file w hf _ _

theorem more_samples (rcpr : Rcpr F) {fuel fuel' : Nat} (hf : fuel ≤ fuel') (m : Material F) (o : Options F)
    (i : IonDict F) (energy x ux uy uz : F) (tapes : Nat → Tape F) (n : Nat) :
    RMore (run_samples rcpr fuel m o i energy x ux uy uz tapes n)
      (run_samples rcpr fuel' m o i energy x ux uy uz tapes n) :=
  rmore_collectN (fun _ => rmore_bind (rmore_refl _) fun _ => rmore_bind (more_cascade rcpr hf _ m o _)
    fun _ => rmore_refl _) _

end
end RustBCA
