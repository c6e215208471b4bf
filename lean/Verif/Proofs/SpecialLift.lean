import Verif.Spec.SpecialRun
import Verif.Props.Special
import Verif.Props.Stopping
import Verif.Props.FreePaths

/-! # Lifting runs from the real numbers to numbers with special values (helper lemmas for C95) -/

namespace RustBCA
open Scalar Spec

set_option linter.unusedSimpArgs false
set_option linter.unusedVariables false

theorem Spec.RegularParticle.Z_pos {p : Particle ℝ} (h : RegularParticle p) : 0 < p.Z := h.sound.Z
theorem Spec.RegularParticle.m_pos {p : Particle ℝ} (h : RegularParticle p) : 0 < p.m := h.sound.m
theorem Spec.RegularParticle.Es_nonneg {p : Particle ℝ} (h : RegularParticle p) : 0 ≤ p.Es := h.sound.Es
theorem Spec.RegularParticle.E_nonneg {p : Particle ℝ} (h : RegularParticle p) : 0 ≤ p.E := h.sound.E
theorem Spec.RegularTarget.Z_pos {mat : Material ℝ} (h : RegularTarget mat) : ∀ Z ∈ mat.Z, 0 < Z := h.sound.Z
theorem Spec.RegularTarget.m_pos {mat : Material ℝ} (h : RegularTarget mat) : ∀ m ∈ mat.m, 0 < m := h.sound.m

/-- Whenever `r` succeeds, `r'` succeeds with the corresponding result. -/
def RLift {α β : Type} (f : α → β) (r : Res α) (r' : Res β) : Prop := ∀ a, r = .ok a → r' = .ok (f a)

/-- The same for computations drawing random numbers, started on the stream `t`. -/
def MLift {α β : Type} (f : α → β) (m : M ℝ α) (m' : M XReal β) (t : Tape ℝ) : Prop :=
  ∀ a t1, m t = .ok (a, t1) → m' (liftTape t) = .ok (f a, liftTape t1)

section
variable {α β γ δ : Type} {f : α → β} {g : γ → δ}

theorem RLift.bind {r : Res α} {r' : Res β} {k : α → Res γ} {k' : β → Res δ} (h : RLift f r r')
    (hk : ∀ a, r = .ok a → RLift g (k a) (k' (f a))) : RLift g (r >>= k) (r' >>= k') := by
  intro c hc
  cases hr : r with
  | error e => rw [hr] at hc; cases hc
  | ok a =>
    rw [hr] at hc
    rw [h a hr]
    exact hk a hr c hc

theorem RLift.pure {a : α} {b : β} (h : b = f a) : RLift f (pure a) (pure b) := by
  intro c hc
  cases hc
  rw [h]; rfl

theorem RLift.of_map {r : Res α} {r' : Res β} (h : r' = r.map f) : RLift f r r' := by
  intro a ha
  rw [h, ha]; rfl

theorem RLift.map {r : Res α} {r' : Res β} {k : α → γ} {k' : β → δ} (h : RLift f r r')
    (hk : ∀ a, r = .ok a → k' (f a) = g (k a)) : RLift g (k <$> r) (k' <$> r') := by
  intro c hc
  cases hr : r with
  | error e => rw [hr] at hc; cases hc
  | ok a =>
    rw [hr] at hc
    rw [h a hr]
    cases hc
    show Except.ok (k' (f a)) = _
    rw [hk a hr]

theorem RLift.vget (l : List α) (i : Nat) : RLift f (vget l i) (vget (l.map f) i) := by
  intro a ha
  unfold RustBCA.vget at ha ⊢
  rw [List.getElem?_map]
  cases h : l[i]? with
  | none => rw [h] at ha; cases ha
  | some b => rw [h] at ha; cases ha; rfl

theorem RLift.ite {c c' : Bool} {r1 r2 : Res α} {s1 s2 : Res β} (hc : c' = c)
    (h1 : c = true → RLift f r1 s1) (h2 : c = false → RLift f r2 s2) :
    RLift f (if c = true then r1 else r2) (if c' = true then s1 else s2) := by
  subst hc
  cases c'
  · simpa using h2 rfl
  · simpa using h1 rfl

theorem MLift.bind {m : M ℝ α} {m' : M XReal β} {k : α → M ℝ γ} {k' : β → M XReal δ} {t : Tape ℝ}
    (h : MLift f m m' t) (hk : ∀ a t1, m t = .ok (a, t1) → MLift g (k a) (k' (f a)) t1) :
    MLift g (m >>= k) (m' >>= k') t := by
  intro c t2 hc
  simp only [Bind.bind, StateT.bind, Except.bind] at hc ⊢
  cases hr : m t with
  | error e => rw [hr] at hc; cases hc
  | ok x =>
    obtain ⟨a, t1⟩ := x
    rw [hr] at hc
    rw [h a t1 hr]
    exact hk a t1 hr c t2 hc

theorem MLift.pure {a : α} {b : β} {t : Tape ℝ} (h : b = f a) : MLift f (pure a : M ℝ α) (pure b : M XReal β) t := by
  intro c t1 hc
  cases hc
  rw [h]; rfl

theorem MLift.lift {r : Res α} {r' : Res β} {t : Tape ℝ} (h : RLift f r r') :
    MLift f (liftM r : M ℝ α) (liftM r' : M XReal β) t := by
  intro c t1 hc
  cases hr : r with
  | error e => rw [hr] at hc; cases hc
  | ok a =>
    rw [hr] at hc
    cases hc
    rw [h _ hr]; rfl

/-- a first computation whose results correspond in a way that depends on them -/
theorem MLift.lift_bind {r : Res α} {r' : Res β} {k : α → M ℝ γ} {k' : β → M XReal δ} {t : Tape ℝ}
    (h : ∀ a, r = .ok a → ∃ b, r' = .ok b ∧ MLift g (k a) (k' b) t) :
    MLift g ((liftM r : M ℝ α) >>= k) ((liftM r' : M XReal β) >>= k') t := by
  intro c t2 hc
  cases hr : r with
  | error e => rw [hr] at hc; cases hc
  | ok a =>
    obtain ⟨b, hb, hk⟩ := h a hr
    rw [hr] at hc
    rw [hb]
    exact hk c t2 hc

theorem MLift.random {t : Tape ℝ} : MLift XReal.fin (random : M ℝ ℝ) (random : M XReal XReal) t := by
  intro c t1 hc
  cases hc
  rfl

theorem MLift.ite {c c' : Bool} {r1 r2 : M ℝ α} {s1 s2 : M XReal β} {t : Tape ℝ} (hc : c' = c)
    (h1 : c = true → MLift f r1 s1 t) (h2 : c = false → MLift f r2 s2 t) :
    MLift f (if c = true then r1 else r2) (if c' = true then s1 else s2) t := by
  subst hc
  cases c'
  · simpa using h2 rfl
  · simpa using h1 rfl

/-- collecting draws; `P` is a property of streams that drawing keeps -/
theorem MLift.collectN {P : Tape ℝ → Prop} {step : Nat → M ℝ α} {step' : Nat → M XReal β}
    (h : ∀ k t, P t → MLift f (step k) (step' k) t)
    (hP : ∀ k t a t1, P t → step k t = .ok (a, t1) → P t1) :
    ∀ n t, P t → MLift (List.map f) (collectN step n) (collectN step' n) t ∧
      ∀ a t1, collectN step n t = .ok (a, t1) → P t1 := by
  intro n
  induction n with
  | zero =>
    intro t ht
    refine ⟨MLift.pure rfl, fun a t1 h => ?_⟩
    cases h
    exact ht
  | succ n ih =>
    intro t ht
    obtain ⟨i1, i2⟩ := ih t ht
    refine ⟨?_, ?_⟩
    · unfold RustBCA.collectN
      refine MLift.bind i1 fun l t1 hl => ?_
      refine MLift.bind (h n t1 (i2 l t1 hl)) fun a t2 ha => ?_
      exact MLift.pure (by simp)
    · intro l t2 hl
      unfold RustBCA.collectN at hl
      simp only [Bind.bind, StateT.bind, Except.bind] at hl
      cases h1 : RustBCA.collectN step n t with
      | error e => rw [h1] at hl; cases hl
      | ok x =>
        obtain ⟨l1, t1⟩ := x
        rw [h1] at hl
        simp only at hl
        cases h2 : step n t1 with
        | error e => rw [h2] at hl; cases hl
        | ok y =>
          obtain ⟨a, t3⟩ := y
          rw [h2] at hl
          cases hl
          exact hP n t1 a t3 (i2 l1 t1 h1) h2

/-- a loop over a list, with an invariant of the state before each pass -/
theorem MLift.forFold {ι κ : Type} {e : ι → κ} {body : α → ι → M ℝ α} {body' : β → κ → M XReal β}
    (I : α → Tape ℝ → Prop) : ∀ (l : List ι) (s : α) (t : Tape ℝ), I s t →
      (∀ k i s' t', l[k]? = some i → RustBCA.forFold body (l.take k) s t = .ok (s', t') → I s' t' →
        MLift f (body s' i) (body' (f s') (e i)) t' ∧ ∀ s'' t'', body s' i t' = .ok (s'', t'') → I s'' t'') →
      MLift f (RustBCA.forFold body l s) (RustBCA.forFold body' (l.map e) (f s)) t ∧
        ∀ s'' t'', RustBCA.forFold body l s t = .ok (s'', t'') → I s'' t'' := by
  intro l
  induction l with
  | nil =>
    intro s t hI _
    refine ⟨MLift.pure rfl, fun s'' t'' h => ?_⟩
    cases h
    exact hI
  | cons i l ih =>
    intro s t hI h
    obtain ⟨h0, h0'⟩ := h 0 i s t rfl rfl hI
    have key : ∀ s1 t1, body s i t = .ok (s1, t1) →
        MLift f (RustBCA.forFold body l s1) (RustBCA.forFold body' (l.map e) (f s1)) t1 ∧
        ∀ s'' t'', RustBCA.forFold body l s1 t1 = .ok (s'', t'') → I s'' t'' := by
      intro s1 t1 h1
      refine ih s1 t1 (h0' s1 t1 h1) fun k j s' t' hj hrun => ?_
      refine h (k + 1) j s' t' hj ?_
      show (body s i >>= RustBCA.forFold body (l.take k)) t = _
      simp only [Bind.bind, StateT.bind, Except.bind, h1]
      exact hrun
    refine ⟨MLift.bind h0 fun s1 t1 h1 => (key s1 t1 h1).1, ?_⟩
    intro s'' t'' hrun
    change (body s i >>= RustBCA.forFold body l) t = _ at hrun
    simp only [Bind.bind, StateT.bind, Except.bind] at hrun
    cases hb : body s i t with
    | error e => rw [hb] at hrun; cases hrun
    | ok x =>
      obtain ⟨s1, t1⟩ := x
      rw [hb] at hrun
      exact (key s1 t1 hb).2 s'' t'' hrun
end

namespace XReal

/-! ## Constants and sums -/

theorem AMU_fin : AMU XReal = fin (AMU ℝ) := rfl
theorem C_fin : C XReal = fin (C ℝ) := rfl
theorem ME_fin : ME XReal = fin (ME ℝ) := rfl
theorem ANGSTROM_fin : ANGSTROM XReal = fin (ANGSTROM ℝ) := rfl

theorem sqrtpi_fin : SQRTPI XReal = fin (SQRTPI ℝ) := by
  have hp : 0 < Real.sqrt Real.pi := Real.sqrt_pos.2 Real.pi_pos
  have h2 : (2.0:ℝ)/Real.sqrt Real.pi ≠ 0 := by
    have : (2.0:ℝ) ≠ 0 := by norm_num
    exact div_ne_zero this hp.ne'
  unfold SQRTPI FRAC_2_SQRT_PI
  simp only [fin_lit, fin_pi, fin_sqrt Real.pi_pos.le, fin_div hp.ne', fin_div h2]
  rfl

theorem scharff_fin : LINDHARD_SCHARFF_PREFACTOR XReal = fin (LINDHARD_SCHARFF_PREFACTOR ℝ) := rfl

theorem bethe_fin : BETHE_BLOCH_PREFACTOR XReal = fin (BETHE_BLOCH_PREFACTOR ℝ) := by
  have h1 : (4.0:ℝ)*Real.pi*EPS0 ℝ ≠ 0 := by
    have := EPS0_pos; have := Real.pi_pos
    have h4 : (4.0:ℝ) ≠ 0 := by norm_num
    positivity
  unfold BETHE_BLOCH_PREFACTOR
  simp only [fin_lit, fin_pi, Q_fin, EPS0_fin, ME_fin, C_fin, fin_mul, fin_div h1, fin_div ME_pos.ne',
    fin_div C_pos.ne']
  rfl

theorem foldl_fin : ∀ (l : List ℝ) (a : ℝ), (l.map fin).foldl (· + ·) (fin a) = fin (l.foldl (· + ·) a) := by
  intro l
  induction l with
  | nil => intro a; rfl
  | cons x l ih => intro a; exact ih (a + x)

theorem fsum_fin (l : List ℝ) : fsum (l.map fin) = fin (fsum l) := foldl_fin l _

theorem zip_fin (l l' : List ℝ) : ((l.map fin).zip (l'.map fin)).map (fun x : XReal × XReal => x.1*x.2) =
    ((l.zip l').map fun x => x.1*x.2).map fin := by
  rw [List.zip_map, List.map_map, List.map_map]
  rfl

theorem weighted_sum_fin (l l' : List ℝ) :
    Material.weighted_sum (l.map fin) (l'.map fin) = fin (Material.weighted_sum l l') := by
  unfold Material.weighted_sum
  rw [zip_fin, fsum_fin]

theorem bragg_sum_fin (l l' : List ℝ) : bragg_sum (l.map fin) (l'.map fin) = fin (bragg_sum l l') := by
  unfold bragg_sum
  rw [zip_fin, fsum_fin]

theorem cumulative_fin : ∀ (l : List ℝ) (a : ℝ),
    Material.cumulative (fin a) (l.map fin) = (Material.cumulative a l).map fin := by
  intro l
  induction l with
  | nil => intro a; rfl
  | cons x l ih =>
    intro a
    show (fin a + fin x) :: Material.cumulative (fin a + fin x) (l.map fin) = _
    rw [fin_add, ih]
    rfl

theorem choose_index_fin (r : ℝ) : ∀ l : List ℝ,
    Material.choose_index (fin r) (l.map fin) = Material.choose_index r l := by
  intro l
  induction l with
  | nil => rfl
  | cons x l ih =>
    show (if (fin r <. fin x) = true then _ else _) = _
    rw [ih]
    rfl

/-! ## Powers of zero -/

theorem fin_powf' {a b : ℝ} (ha : 0 ≤ a) (hb : 0 < b) : Scalar.powf (fin a) (fin b) = fin (a ^ b) := by
  rcases ha.lt_or_eq with h | rfl
  · exact fin_powf h
  · show (if (0:ℝ) < 0 then _ else if (0:ℝ) = 0 then _ else _) = _
    rw [if_neg (lt_irrefl _), if_pos rfl, if_neg hb.ne', if_neg hb.not_gt, Real.zero_rpow hb.ne']

end XReal
end RustBCA
