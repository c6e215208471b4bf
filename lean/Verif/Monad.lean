import Verif.Scalar

/-!
# Effects of the model: panics, randomness, unbounded loops

* `Res α` — a computation that may panic.
* `M F α` — a computation that may panic and draws random numbers from a stream.
* `Sat`/`RSat` — weakest-precondition style predicates used to state and prove properties.
-/

namespace RustBCA

/-- How a run of the program can fail: a Rust panic (`panic!`, `assert!`, `unwrap`, `expect`,
slice index out of range), or, in the model only, running out of loop fuel. -/
inductive Err where
  | panic (msg : String)
  | fuel
deriving Repr, DecidableEq

/-- A Rust computation that may panic. -/
abbrev Res := Except Err

/-- `Result<T, anyhow::Error>` of Rust; the error carries its message only. -/
abbrev Anyhow (α : Type) := Except String α

/-- A random stream: the successive values returned by `rand::random::<f64>()`. -/
abbrev Tape (F : Type) := Nat → F

/-- A computation drawing random numbers from the stream and possibly panicking. -/
abbrev M (F : Type) := StateT (Tape F) Res

/-- `panic!(msg)`. -/
def rpanic {α : Type} (msg : String) : Res α := .error (.panic msg)

/-- `assert!(b, msg)`. -/
def rassert (b : Bool) (msg : String) : Res Unit := if b then .ok () else .error (.panic msg)

/-- `v[i]` on a `Vec`: panics when out of range. -/
def vget {α : Type} (v : List α) (i : Nat) : Res α :=
  match v[i]? with
  | some a => .ok a
  | none => .error (.panic "index out of bounds")

/-- `r.unwrap()` on an `anyhow` result. -/
def unwrapA {α : Type} (r : Anyhow α) : Res α :=
  match r with
  | .ok a => .ok a
  | .error m => .error (.panic m)

/-- `rand::random::<f64>()`. -/
def random {F : Type} : M F F := fun s => .ok (s 0, fun n => s (n + 1))

/-- `iter().sum::<f64>()`: left fold starting at zero. -/
def fsum {F : Type} [Scalar F] (l : List F) : F := l.foldl (· + ·) 0.0

/-- A Rust `while c(s) { s = body(s) }`; the model gives it fuel. -/
def whileFuel {m : Type → Type} [Monad m] [MonadExceptOf Err m] {σ : Type}
    (cond : σ → Bool) (body : σ → m σ) : Nat → σ → m σ
  | 0, _ => throw Err.fuel
  | n + 1, s => if cond s then body s >>= whileFuel cond body n else pure s

/-- `forM`-style fold: `for x in l { s = body(s, x) }`. -/
def forFold {m : Type → Type} [Monad m] {α σ : Type} (body : σ → α → m σ) : List α → σ → m σ
  | [], s => pure s
  | x :: xs, s => body s x >>= forFold body xs

/-- Collect `n` results of a monadic action given the index. -/
def collectN {m : Type → Type} [Monad m] {α : Type} (f : Nat → m α) : Nat → m (List α)
  | 0 => pure []
  | n + 1 => do
    let l ← collectN f n
    let a ← f n
    pure (l ++ [a])

/-! ## Predicates on runs -/

/-- Every normal result satisfies `Q`, every failure satisfies `E`. -/
def RSat {α : Type} (r : Res α) (Q : α → Prop) (E : Err → Prop) : Prop :=
  match r with
  | .ok a => Q a
  | .error e => E e

/-- Started on the random stream `s`, every normal result and remaining stream satisfy `Q`,
every failure satisfies `E`. -/
def Sat {F α : Type} (m : M F α) (s : Tape F) (Q : α → Tape F → Prop) (E : Err → Prop) : Prop :=
  match m s with
  | .ok (a, s') => Q a s'
  | .error e => E e

section
variable {F α β σ : Type} {Q Q' : α → Prop} {E E' : Err → Prop}

@[simp] theorem rsat_ok (a : α) : RSat (.ok a : Res α) Q E ↔ Q a := Iff.rfl
@[simp] theorem rsat_pure (a : α) : RSat (pure a : Res α) Q E ↔ Q a := Iff.rfl
@[simp] theorem rsat_error (e : Err) : RSat (.error e : Res α) Q E ↔ E e := Iff.rfl
@[simp] theorem rsat_throw (e : Err) : RSat (throw e : Res α) Q E ↔ E e := Iff.rfl
@[simp] theorem rsat_rpanic (m : String) : RSat (rpanic m : Res α) Q E ↔ E (.panic m) := Iff.rfl

@[simp] theorem rsat_bind (r : Res α) (f : α → Res β) (Q : β → Prop) :
    RSat (r >>= f) Q E ↔ RSat r (fun a => RSat (f a) Q E) E := by
  cases r <;> rfl

@[simp] theorem rsat_map (r : Res α) (f : α → β) (Q : β → Prop) :
    RSat (f <$> r) Q E ↔ RSat r (fun a => Q (f a)) E := by
  cases r <;> rfl

@[simp] theorem rsat_assert (b : Bool) (m : String) (Q : Unit → Prop) :
    RSat (rassert b m) Q E ↔ (b = true → Q ()) ∧ (b = false → E (.panic m)) := by
  cases b <;> simp [rassert]

theorem rsat_vget (v : List α) (i : Nat) :
    RSat (vget v i) Q E ↔
      (∀ a, v[i]? = some a → Q a) ∧ (v[i]? = none → E (.panic "index out of bounds")) := by
  unfold vget
  cases h : v[i]? <;> simp

theorem rsat_mono {r : Res α} (h : RSat r Q E) (hQ : ∀ a, Q a → Q' a)
    (hE : ∀ e, E e → E' e) : RSat r Q' E' := by
  cases r with
  | ok a => exact hQ a h
  | error e => exact hE e h

theorem rsat_iff (r : Res α) :
    RSat r Q E ↔ (∀ a, r = .ok a → Q a) ∧ (∀ e, r = .error e → E e) := by
  cases r <;> simp

theorem rsat_of_ok {r : Res α} {a : α} (h : RSat r Q E) (e : r = .ok a) : Q a := by
  subst e; exact h

theorem rsat_trivial (r : Res α) : RSat r (fun _ => True) (fun _ => True) := by
  cases r <;> trivial

variable {R R' : α → Tape F → Prop} {s : Tape F}

@[simp] theorem sat_pure (a : α) : Sat (pure a : M F α) s R E ↔ R a s := Iff.rfl

@[simp] theorem sat_bind (m : M F α) (f : α → M F β) (R : β → Tape F → Prop) :
    Sat (m >>= f) s R E ↔ Sat m s (fun a s' => Sat (f a) s' R E) E := by
  simp only [Sat, bind, StateT.bind, Except.bind]
  cases m s <;> rfl

@[simp] theorem sat_map (m : M F α) (f : α → β) (R : β → Tape F → Prop) :
    Sat (f <$> m) s R E ↔ Sat m s (fun a s' => R (f a) s') E := by
  simp only [Sat, Functor.map, StateT.map, bind, Except.bind, pure, Except.pure]
  cases m s <;> rfl

@[simp] theorem sat_throw (e : Err) : Sat (throw e : M F α) s R E ↔ E e := Iff.rfl

@[simp] theorem sat_lift (r : Res α) :
    Sat (liftM r : M F α) s R E ↔ RSat r (fun a => R a s) E := by
  cases r <;> rfl

@[simp] theorem sat_monadLift (r : Res α) :
    Sat (MonadLift.monadLift r : M F α) s R E ↔ RSat r (fun a => R a s) E := by
  cases r <;> rfl

@[simp] theorem sat_random (R : F → Tape F → Prop) :
    Sat (random : M F F) s R E ↔ R (s 0) (fun n => s (n + 1)) := Iff.rfl

theorem sat_mono {m : M F α} (h : Sat m s R E) (hR : ∀ a s', R a s' → R' a s')
    (hE : ∀ e, E e → E' e) : Sat m s R' E' := by
  unfold Sat at *
  cases hm : m s with
  | ok p => rw [hm] at h; exact hR _ _ h
  | error e => rw [hm] at h; exact hE _ h

theorem sat_of_ok {m : M F α} {a : α} {s' : Tape F} (h : Sat m s R E) (e : m s = .ok (a, s')) :
    R a s' := by
  unfold Sat at h; rw [e] at h; exact h

theorem sat_of_error {m : M F α} {er : Err} (h : Sat m s R E) (e : m s = .error er) : E er := by
  unfold Sat at h; rw [e] at h; exact h

theorem sat_iff (m : M F α) :
    Sat m s R E ↔ (∀ a s', m s = .ok (a, s') → R a s') ∧ (∀ e, m s = .error e → E e) := by
  unfold Sat
  cases m s with
  | ok p => obtain ⟨a, s'⟩ := p; simp
  | error e => simp

theorem sat_trivial (m : M F α) : Sat m s (fun _ _ => True) (fun _ => True) := by
  unfold Sat; cases m s <;> trivial

theorem sat_and {m : M F α} (h : Sat m s R E) (h' : Sat m s R' E') :
    Sat m s (fun a t => R a t ∧ R' a t) (fun e => E e ∧ E' e) := by
  rw [sat_iff] at *
  exact ⟨fun a t e => ⟨h.1 a t e, h'.1 a t e⟩, fun e he => ⟨h.2 e he, h'.2 e he⟩⟩

theorem rsat_and {r : Res α} (h : RSat r Q E) (h' : RSat r Q' E') :
    RSat r (fun a => Q a ∧ Q' a) (fun e => E e ∧ E' e) := by
  cases r with
  | ok a => exact ⟨h, h'⟩
  | error e => exact ⟨h, h'⟩

/-- Invariant rule for `while` loops. -/
theorem sat_whileFuel {cond : σ → Bool} {body : σ → M F σ} (I : σ → Tape F → Prop)
    (hfuel : E .fuel)
    (hbody : ∀ a t, I a t → cond a = true → Sat (body a) t I E) :
    ∀ (n : Nat) (a : σ) (t : Tape F), I a t →
      Sat (whileFuel cond body n a) t (fun b t' => I b t' ∧ cond b = false) E := by
  intro n
  induction n with
  | zero => intro a t _; simpa [whileFuel] using hfuel
  | succ n ih =>
    intro a t hI
    unfold whileFuel
    by_cases hc : cond a = true
    · simp only [hc, if_true, sat_bind]
      exact sat_mono (hbody a t hI hc) (fun b t' hb => ih b t' hb) (fun _ h => h)
    · simp only [hc]
      simp only [Bool.not_eq_true] at hc
      exact ⟨hI, hc⟩

/-- Invariant rule for `for` loops. -/
theorem sat_forFold {body : σ → α → M F σ} (I : σ → Tape F → Prop) :
    ∀ (l : List α), (∀ a ∈ l, ∀ x t, I x t → Sat (body x a) t I E) →
      ∀ (x : σ) (t : Tape F), I x t → Sat (forFold body l x) t I E := by
  intro l
  induction l with
  | nil => intro _ x t h; exact h
  | cons y ys ih =>
    intro hb x t h
    unfold forFold
    rw [sat_bind]
    exact sat_mono (hb y (by simp) x t h)
      (fun b t' hb' => ih (fun a ha => hb a (by simp [ha])) b t' hb') (fun _ h => h)

/-- Invariant rule for `for` loops over lists with a position-dependent invariant:
`I done s t` where `done` is the part of the list already processed. -/
theorem sat_forFold_idx {body : σ → α → M F σ} (I : List α → σ → Tape F → Prop) :
    ∀ (l done : List α),
      (∀ d a r, done ++ l = d ++ a :: r → ∀ x t, I d x t →
        Sat (body x a) t (fun y t' => I (d ++ [a]) y t') E) →
      ∀ (x : σ) (t : Tape F), I done x t →
        Sat (forFold body l x) t (fun y t' => I (done ++ l) y t') E := by
  intro l
  induction l with
  | nil => intro done _ x t h; simpa [forFold] using h
  | cons y ys ih =>
    intro done hb x t h
    unfold forFold
    rw [sat_bind]
    refine sat_mono (hb done y ys rfl x t h) (fun b t' hb' => ?_) (fun _ h => h)
    have := ih (done ++ [y]) (fun d a r e x t hI => hb d a r (by simpa using e) x t hI) b t' hb'
    simpa using this

/-- Rule for `collectN`. -/
theorem sat_collectN {f : Nat → M F α} (I : Nat → List α → Tape F → Prop)
    (N : Nat) (h0 : ∀ t, s = t → I 0 [] t)
    (hf : ∀ n l t, n < N → I n l t → Sat (f n) t (fun a t' => I (n + 1) (l ++ [a]) t') E) :
    ∀ n, n ≤ N → Sat (collectN f n) s (fun l t => I n l t) E := by
  intro n
  induction n with
  | zero => intro _; exact h0 s rfl
  | succ n ih =>
    intro hn
    unfold collectN
    simp only [sat_bind, sat_pure]
    exact sat_mono (ih (by omega)) (fun l t hI => hf n l t (by omega) hI) (fun _ h => h)

end

end RustBCA
