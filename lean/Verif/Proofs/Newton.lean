import Verif.Proofs.Screening
import Verif.Model.Bca

/-! # Newton's method for the screened turning-point equation (helper lemmas) -/

namespace RustBCA
open Scalar Spec

/-- Derivative of `Spec.closest`. -/
noncomputable def dclosest (df : ℝ → ℝ) (eps beta x : ℝ) : ℝ := beta^2/x^2 - df x/eps + 1

section
variable {l : List (ℝ × ℝ)} {eps beta : ℝ}

theorem expsum_tangent (l : List (ℝ × ℝ)) (h : PosTerms l) (x y : ℝ) :
    expsum l x + dexpsum l x*(y - x) ≤ expsum l y := by
  induction l with
  | nil => simp
  | cons cd l ih =>
    have h1 := h cd (by simp)
    have h2 := ih (fun c hc => h c (by simp [hc]))
    simp only [expsum_cons, dexpsum_cons]
    have h3 := Real.add_one_le_exp (-cd.2*(y - x))
    have h4 : Real.exp (-cd.2*y) = Real.exp (-cd.2*x)*Real.exp (-cd.2*(y - x)) := by
      rw [← Real.exp_add]; ring_nf
    have h5 := mul_le_mul_of_nonneg_left h3 (mul_pos h1.1 (Real.exp_pos (-cd.2*x))).le
    rw [h4]
    nlinarith

theorem closest_hasDerivAt (l : List (ℝ × ℝ)) (eps beta : ℝ) {x : ℝ} (hx : 0 < x) :
    HasDerivAt (closest (expsum l) eps beta) (dclosest (dexpsum l) eps beta x) x := by
  have h1 := ((hasDerivAt_id x).sub ((expsum_hasDerivAt l x).div_const eps)).sub
    ((hasDerivAt_inv hx.ne').const_mul (beta^2))
  have e : closest (expsum l) eps beta =
      (id - fun y => expsum l y/eps) - fun y => beta^2*y⁻¹ := by
    funext y; simp [closest, div_eq_mul_inv]
  rw [e, show dclosest (dexpsum l) eps beta x = 1 - dexpsum l x/eps - beta^2*(-(x^2)⁻¹) by
    unfold dclosest; field_simp; ring]
  exact h1

theorem dclosest_ge_one (h : PosTerms l) (he : 0 < eps) (beta x : ℝ) :
    1 ≤ dclosest (dexpsum l) eps beta x := by
  unfold dclosest
  have h1 := div_nonpos_of_nonpos_of_nonneg (dexpsum_nonpos l h x) he.le
  have h2 : 0 ≤ beta^2/x^2 := by positivity
  linarith

theorem dclosest_anti (h : PosTerms l) (he : 0 < eps) (beta : ℝ) {x y : ℝ} (hx : 0 < x)
    (hxy : x ≤ y) : dclosest (dexpsum l) eps beta y ≤ dclosest (dexpsum l) eps beta x := by
  unfold dclosest
  have h1 : dexpsum l x/eps ≤ dexpsum l y/eps :=
    div_le_div_of_nonneg_right (dexpsum_mono l h hxy) he.le
  have h2 : beta^2/y^2 ≤ beta^2/x^2 :=
    div_le_div_of_nonneg_left (by positivity) (by positivity) (by gcongr)
  linarith

theorem closest_tangent (h : PosTerms l) (he : 0 < eps) (beta : ℝ) {x y : ℝ} (hx : 0 < x)
    (hy : 0 < y) : closest (expsum l) eps beta y ≤
      closest (expsum l) eps beta x + dclosest (dexpsum l) eps beta x*(y - x) := by
  unfold closest dclosest
  have h1 := div_le_div_of_nonneg_right (expsum_tangent l h x y) he.le
  have h2 : -(beta^2/y) ≤ -(beta^2/x) + beta^2/x^2*(y - x) := by
    rw [← sub_nonneg]
    have : -(beta^2/x) + beta^2/x^2*(y - x) - -(beta^2/y) = beta^2*(y - x)^2/(x^2*y) := by
      field_simp; ring
    rw [this]; positivity
  have h3 : (expsum l x + dexpsum l x*(y - x))/eps = expsum l x/eps + dexpsum l x/eps*(y - x) := by
    ring
  rw [h3] at h1
  nlinarith

/-- A slope of at least one. -/
theorem closest_slope (h : PosTerms l) (he : 0 < eps) (beta : ℝ) {x y : ℝ} (hx : 0 < x)
    (hxy : x ≤ y) : y - x ≤ closest (expsum l) eps beta y - closest (expsum l) eps beta x := by
  have hy : 0 < y := lt_of_lt_of_le hx hxy
  have h1 := closest_tangent h he beta hy hx
  have h2 := dclosest_ge_one h he beta y
  nlinarith

theorem closest_strictMono (h : PosTerms l) (he : 0 < eps) (beta : ℝ) :
    StrictMonoOn (closest (expsum l) eps beta) (Set.Ioi 0) := by
  intro x hx y _ hxy
  have := closest_slope h he beta hx hxy.le
  linarith

theorem closest_root (h : PosTerms l) (hl : l ≠ []) (he : 0 < eps) (hb : 0 < beta) :
    ∃ x, beta < x ∧ x ≤ beta + expsum l 0/eps ∧ closest (expsum l) eps beta x = 0 := by
  have hf0 := expsum_pos l h hl 0
  have hX : 0 < expsum l 0/eps := div_pos hf0 he
  set X := beta + expsum l 0/eps with hXdef
  have hlow : closest (expsum l) eps beta beta < 0 := by
    unfold closest
    have := div_pos (expsum_pos l h hl beta) he
    have e : beta^2/beta = beta := by field_simp
    rw [e]; linarith
  have hhigh : 0 ≤ closest (expsum l) eps beta X := by
    unfold closest
    have h1 : expsum l X/eps ≤ expsum l 0/eps :=
      div_le_div_of_nonneg_right ((expsum_strictAnti l h hl).antitone (by positivity)) he.le
    have h2 : beta^2/X ≤ beta := by
      rw [div_le_iff₀ (by positivity)]; nlinarith
    linarith
  have hcont : ContinuousOn (closest (expsum l) eps beta) (Set.Icc beta X) := fun y hy =>
    (closest_hasDerivAt l eps beta (lt_of_lt_of_le hb hy.1)).continuousAt.continuousWithinAt
  obtain ⟨x, hx, hx0⟩ := intermediate_value_Icc (by linarith : beta ≤ X) hcont
    ⟨hlow.le, hhigh⟩
  refine ⟨x, lt_of_le_of_ne hx.1 ?_, hx.2, hx0⟩
  rintro rfl
  linarith

/-- One Newton step. -/
noncomputable def nstep (l : List (ℝ × ℝ)) (eps beta x : ℝ) : ℝ :=
  x - closest (expsum l) eps beta x/dclosest (dexpsum l) eps beta x

theorem nstep_pos (h : PosTerms l) (hl : l ≠ []) (he : 0 < eps) (beta : ℝ) {x : ℝ} (hx : 0 < x) :
    0 < nstep l eps beta x := by
  have hd := dclosest_ge_one h he beta x
  have hd0 : 0 < dclosest (dexpsum l) eps beta x := by linarith
  have e : nstep l eps beta x = (x*dclosest (dexpsum l) eps beta x
      - closest (expsum l) eps beta x)/dclosest (dexpsum l) eps beta x := by
    unfold nstep; field_simp
  rw [e]
  apply div_pos _ hd0
  have h1 := div_pos (expsum_pos l h hl x) he
  have h2 := div_nonpos_of_nonpos_of_nonneg (dexpsum_nonpos l h x) he.le
  have e2 : x*dclosest (dexpsum l) eps beta x - closest (expsum l) eps beta x
      = 2*(beta^2/x) - x*(dexpsum l x/eps) + expsum l x/eps := by
    unfold closest dclosest; field_simp; ring
  rw [e2]
  have h3 : 0 ≤ beta^2/x := by positivity
  nlinarith

theorem nstep_le_root (h : PosTerms l) (he : 0 < eps) (beta : ℝ) {x r : ℝ} (hx : 0 < x)
    (hr : 0 < r) (hroot : closest (expsum l) eps beta r = 0) : nstep l eps beta x ≤ r := by
  have hd := dclosest_ge_one h he beta x
  have hd0 : 0 < dclosest (dexpsum l) eps beta x := by linarith
  have h1 := closest_tangent h he beta hx hr
  rw [hroot] at h1
  unfold nstep
  rw [sub_le_iff_le_add, ← sub_le_iff_le_add', le_div_iff₀ hd0]
  nlinarith

theorem closest_nonpos_of_le_root (h : PosTerms l) (he : 0 < eps) (beta : ℝ) {x r : ℝ}
    (hx : 0 < x) (hxr : x ≤ r) (hroot : closest (expsum l) eps beta r = 0) :
    closest (expsum l) eps beta x ≤ 0 := by
  have := closest_slope h he beta hx hxr
  linarith

theorem nstep_ge (h : PosTerms l) (he : 0 < eps) (beta : ℝ) {x r : ℝ}
    (hx : 0 < x) (hxr : x ≤ r) (hroot : closest (expsum l) eps beta r = 0) :
    x ≤ nstep l eps beta x := by
  have h1 := closest_nonpos_of_le_root h he beta hx hxr hroot
  have hd := dclosest_ge_one h he beta x
  unfold nstep
  have := div_nonpos_of_nonpos_of_nonneg h1 (by linarith : 0 ≤ dclosest (dexpsum l) eps beta x)
  linarith

/-- The distance to the root after a step, from the size of the step. -/
theorem nstep_accuracy (h : PosTerms l) (he : 0 < eps) (beta : ℝ) {x r : ℝ}
    (hx : 0 < x) (hr : 0 < r) (hroot : closest (expsum l) eps beta r = 0) :
    r - nstep l eps beta x ≤ |nstep l eps beta x - x| * dclosest (dexpsum l) eps beta x := by
  have hd := dclosest_ge_one h he beta x
  have hd0 : 0 < dclosest (dexpsum l) eps beta x := by linarith
  rcases le_total x r with hxr | hxr
  · have h1 := nstep_ge h he beta hx hxr hroot
    have h2 := closest_slope h he beta hx hxr
    rw [hroot] at h2
    rw [abs_of_nonneg (by linarith)]
    have e : (nstep l eps beta x - x)*dclosest (dexpsum l) eps beta x
        = -closest (expsum l) eps beta x := by unfold nstep; field_simp; ring
    rw [e]; linarith
  · have h1 := nstep_le_root h he beta hx hr hroot
    rw [abs_of_nonpos (by linarith)]
    have : r - nstep l eps beta x ≤ -(nstep l eps beta x - x) := by linarith
    nlinarith

/-- The Newton sequence. -/
noncomputable def nseq (l : List (ℝ × ℝ)) (eps beta x0 : ℝ) : ℕ → ℝ
  | 0 => x0
  | n + 1 => nstep l eps beta (nseq l eps beta x0 n)

theorem nseq_pos (h : PosTerms l) (hl : l ≠ []) (he : 0 < eps) (beta : ℝ) {x0 : ℝ} (hx : 0 < x0)
    (n : ℕ) : 0 < nseq l eps beta x0 n := by
  induction n with
  | zero => exact hx
  | succ n ih => exact nstep_pos h hl he beta ih

theorem nseq_le_root (h : PosTerms l) (hl : l ≠ []) (he : 0 < eps) (beta : ℝ) {x0 r : ℝ}
    (hx : 0 < x0) (hr : 0 < r) (hroot : closest (expsum l) eps beta r = 0) (n : ℕ) :
    nseq l eps beta x0 (n + 1) ≤ r :=
  nstep_le_root h he beta (nseq_pos h hl he beta hx n) hr hroot

theorem nseq_mono (h : PosTerms l) (hl : l ≠ []) (he : 0 < eps) (beta : ℝ) {x0 r : ℝ}
    (hx : 0 < x0) (hr : 0 < r) (hroot : closest (expsum l) eps beta r = 0) (n : ℕ) :
    nseq l eps beta x0 (n + 1) ≤ nseq l eps beta x0 (n + 2) :=
  nstep_ge h he beta (nseq_pos h hl he beta hx (n + 1))
    (nseq_le_root h hl he beta hx hr hroot n) hroot

/-- Some step is small, and it comes early. -/
theorem nseq_small_step (h : PosTerms l) (hl : l ≠ []) (he : 0 < eps) (beta : ℝ) {x0 r tol : ℝ}
    (hx : 0 < x0) (hr : 0 < r) (hroot : closest (expsum l) eps beta r = 0) (ht : 0 < tol)
    (K : ℕ) (hK : r ≤ K*Real.sqrt tol) :
    ∃ k, k ≤ K ∧ (nseq l eps beta x0 (k + 1) - nseq l eps beta x0 k)^2 < tol := by
  by_contra hcon
  push Not at hcon
  have hs : ∀ k, 1 ≤ k → k ≤ K →
      Real.sqrt tol ≤ nseq l eps beta x0 (k + 1) - nseq l eps beta x0 k := by
    intro k hk hkK
    obtain ⟨j, rfl⟩ : ∃ j, k = j + 1 := ⟨k - 1, by omega⟩
    have h1 := nseq_mono h hl he beta hx hr hroot j
    have h2 := hcon (j + 1) hkK
    exact Real.sqrt_le_iff.mpr ⟨by linarith, h2⟩
  have hsum : ∀ k, k ≤ K → nseq l eps beta x0 1 + k*Real.sqrt tol ≤ nseq l eps beta x0 (k + 1) := by
    intro k
    induction k with
    | zero => intro _; simp
    | succ k ih =>
      intro hk
      have h1 := ih (by omega)
      have h2 := hs (k + 1) (by omega) hk
      push_cast
      linarith
  have h1 := hsum K le_rfl
  have h2 := nseq_le_root h hl he beta hx hr hroot K
  have h3 := nseq_pos h hl he beta hx 1
  linarith

end

/-- The loop of the code, for any scalar: what an `Ok` means. -/
theorem newton_loop_ok {F : Type} [Scalar F] (f df : F → Res F) (a tol : F) (n : ℕ) (x0 x : F)
    (h : newton_loop f df a tol n x0 = .ok (.ok x)) :
    ∃ k, k < n ∧ ∃ xs : ℕ → F, xs 0 = x0 ∧ xs (k + 1) = x ∧
      (∀ i, i ≤ k → ∃ fx dfx, f (xs i*a) = .ok fx ∧ df (xs i*a) = .ok dfx ∧
        xs (i + 1) = xs i - fx/dfx) ∧
      (∀ i, i ≤ k → ((xs (i + 1) - xs i)*(xs (i + 1) - xs i) <. tol) = decide (i = k)) := by
  induction n generalizing x0 with
  | zero => simp [newton_loop, pure, Except.pure] at h
  | succ n ih =>
    unfold newton_loop at h
    cases hf : f (x0*a) with
    | error e => simp [hf, bind, Except.bind] at h
    | ok fx =>
      cases hdf : df (x0*a) with
      | error e => simp [hf, hdf, bind, Except.bind] at h
      | ok dfx =>
        simp only [hf, hdf, bind, Except.bind, pure, Except.pure] at h
        by_cases hs : ((x0 - fx/dfx - x0)*(x0 - fx/dfx - x0) <. tol) = true
        · rw [if_pos hs] at h
          simp only [Except.ok.injEq] at h
          refine ⟨0, by omega, fun i => if i = 0 then x0 else x, rfl, by simp, ?_, ?_⟩
          · intro i hi
            have : i = 0 := by omega
            subst this
            exact ⟨fx, dfx, hf, hdf, by simpa using h.symm⟩
          · intro i hi
            have : i = 0 := by omega
            subst this
            simp only [Nat.zero_add, one_ne_zero, if_false, if_true, decide_true, ← h]
            exact hs
        · rw [if_neg hs] at h
          obtain ⟨k, hk, xs, h0, hlast, hstep, hsmall⟩ := ih _ h
          refine ⟨k + 1, by omega, fun i => match i with | 0 => x0 | j + 1 => xs j, rfl, hlast,
            ?_, ?_⟩
          · intro i hi
            cases i with
            | zero => exact ⟨fx, dfx, hf, hdf, h0⟩
            | succ j => exact hstep j (by omega)
          · intro i hi
            cases i with
            | zero =>
              simp only [h0]
              simpa using hs
            | succ j =>
              have := hsmall j (by omega)
              simp only [Nat.add_right_cancel_iff]
              exact this

/-- With real functions the loop follows the Newton sequence and stops at the first small step. -/
theorem newton_loop_real (l : List (ℝ × ℝ)) (eps beta : ℝ) (f df : ℝ → Res ℝ) (a tol : ℝ)
    (P : ℝ → Prop)
    (hf : ∀ x, P x → f (x*a) = .ok (closest (expsum l) eps beta x))
    (hdf : ∀ x, P x → df (x*a) = .ok (dclosest (dexpsum l) eps beta x)) :
    ∀ (n : ℕ) (x0 : ℝ), (∀ i, P (nseq l eps beta x0 i)) → ∀ k, k < n →
      (∀ i, i < k → ¬ (nseq l eps beta x0 (i + 1) - nseq l eps beta x0 i)^2 < tol) →
      (nseq l eps beta x0 (k + 1) - nseq l eps beta x0 k)^2 < tol →
      newton_loop f df a tol n x0 = .ok (.ok (nseq l eps beta x0 (k + 1))) := by
  intro n
  have shift : ∀ x0 i, nseq l eps beta (nstep l eps beta x0) i = nseq l eps beta x0 (i + 1) := by
    intro x0 i
    induction i with
    | zero => rfl
    | succ i ih => simp only [nseq, ih]
  induction n with
  | zero => intro x0 _ k hk; omega
  | succ n ih =>
    intro x0 hP k hk hbig hsmall
    have e : x0 - closest (expsum l) eps beta x0/dclosest (dexpsum l) eps beta x0
      = nstep l eps beta x0 := rfl
    unfold newton_loop
    simp only [hf x0 (hP 0), hdf x0 (hP 0), bind, Except.bind, e]
    cases k with
    | zero =>
      have : ((nstep l eps beta x0 - x0)*(nstep l eps beta x0 - x0) <. tol) = true := by
        rw [lt_real]; simpa [nseq, pow_two] using hsmall
      rw [if_pos this]; rfl
    | succ k =>
      have : ¬ ((nstep l eps beta x0 - x0)*(nstep l eps beta x0 - x0) <. tol) = true := by
        rw [lt_real]; simpa [nseq, pow_two] using hbig 0 (by omega)
      rw [if_neg this]
      have := ih (nstep l eps beta x0) (fun i => by rw [shift]; exact hP (i + 1)) k (by omega)
        (fun i hi => by rw [shift, shift]; exact hbig (i + 1) (by omega))
        (by rw [shift, shift]; exact hsmall)
      rw [this, shift]

end RustBCA
