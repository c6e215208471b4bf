import Verif.Spec.Potentials
import Mathlib.Analysis.SpecialFunctions.ExpDeriv
import Mathlib.Analysis.Calculus.Deriv.MeanValue
import Mathlib.Analysis.Calculus.Deriv.Inv
import Mathlib.Analysis.Convex.Deriv

/-! # Screening functions are sums of decaying exponentials (helper lemmas) -/

namespace RustBCA
open Scalar Spec

/-- `sum c exp(-d x)` over pairs `(c, d)`. -/
noncomputable def expsum (l : List (ℝ × ℝ)) (x : ℝ) : ℝ :=
  (l.map fun cd => cd.1*Real.exp (-cd.2*x)).sum

/-- its derivative -/
noncomputable def dexpsum (l : List (ℝ × ℝ)) (x : ℝ) : ℝ :=
  (l.map fun cd => -cd.2*cd.1*Real.exp (-cd.2*x)).sum

@[simp] theorem expsum_nil (x : ℝ) : expsum [] x = 0 := rfl
@[simp] theorem dexpsum_nil (x : ℝ) : dexpsum [] x = 0 := rfl
@[simp] theorem expsum_cons (cd : ℝ × ℝ) (l : List (ℝ × ℝ)) (x : ℝ) :
    expsum (cd :: l) x = cd.1*Real.exp (-cd.2*x) + expsum l x := by simp [expsum]
@[simp] theorem dexpsum_cons (cd : ℝ × ℝ) (l : List (ℝ × ℝ)) (x : ℝ) :
    dexpsum (cd :: l) x = -cd.2*cd.1*Real.exp (-cd.2*x) + dexpsum l x := by simp [dexpsum]

/-- all coefficients and rates positive -/
def PosTerms (l : List (ℝ × ℝ)) : Prop := ∀ cd ∈ l, 0 < cd.1 ∧ 0 < cd.2

theorem expsum_nonneg (l : List (ℝ × ℝ)) (h : PosTerms l) (x : ℝ) : 0 ≤ expsum l x := by
  induction l with
  | nil => simp
  | cons cd l ih =>
    have h1 := h cd (by simp)
    have h2 := ih (fun c hc => h c (by simp [hc]))
    simp only [expsum_cons]
    have := mul_pos h1.1 (Real.exp_pos (-cd.2*x))
    linarith

theorem expsum_pos (l : List (ℝ × ℝ)) (h : PosTerms l) (hl : l ≠ []) (x : ℝ) :
    0 < expsum l x := by
  cases l with
  | nil => exact absurd rfl hl
  | cons cd l =>
    have h1 := h cd (by simp)
    have h2 := expsum_nonneg l (fun c hc => h c (by simp [hc])) x
    simp only [expsum_cons]
    have := mul_pos h1.1 (Real.exp_pos (-cd.2*x))
    linarith

theorem dexpsum_nonpos (l : List (ℝ × ℝ)) (h : PosTerms l) (x : ℝ) : dexpsum l x ≤ 0 := by
  induction l with
  | nil => simp
  | cons cd l ih =>
    have h1 := h cd (by simp)
    have h2 := ih (fun c hc => h c (by simp [hc]))
    simp only [dexpsum_cons]
    have := mul_pos (mul_pos h1.2 h1.1) (Real.exp_pos (-cd.2*x))
    linarith

theorem dexpsum_neg (l : List (ℝ × ℝ)) (h : PosTerms l) (hl : l ≠ []) (x : ℝ) :
    dexpsum l x < 0 := by
  cases l with
  | nil => exact absurd rfl hl
  | cons cd l =>
    have h1 := h cd (by simp)
    have h2 := dexpsum_nonpos l (fun c hc => h c (by simp [hc])) x
    simp only [dexpsum_cons]
    have := mul_pos (mul_pos h1.2 h1.1) (Real.exp_pos (-cd.2*x))
    linarith

theorem expsum_hasDerivAt (l : List (ℝ × ℝ)) (x : ℝ) :
    HasDerivAt (expsum l) (dexpsum l x) x := by
  induction l with
  | nil => exact hasDerivAt_const x (0 : ℝ)
  | cons cd l ih =>
    have h1 : HasDerivAt (fun y => cd.1*Real.exp (-cd.2*y)) (-cd.2*cd.1*Real.exp (-cd.2*x)) x := by
      have h2 : HasDerivAt (fun y => -cd.2*y) (-cd.2) x := by
        simpa using (hasDerivAt_id x).const_mul (-cd.2)
      have h3 := (h2.exp).const_mul cd.1
      rw [show -cd.2*cd.1*Real.exp (-cd.2*x) = cd.1*(Real.exp (-cd.2*x)*(-cd.2)) by ring]
      exact h3
    have h4 := h1.add ih
    have e : expsum (cd :: l) = (fun y => cd.1*Real.exp (-cd.2*y)) + expsum l := by
      funext y; simp
    rw [e, dexpsum_cons]
    exact h4

theorem dexpsum_mono (l : List (ℝ × ℝ)) (h : PosTerms l) : Monotone (dexpsum l) := by
  induction l with
  | nil => intro x y _; simp
  | cons cd l ih =>
    intro x y hxy
    have h1 := h cd (by simp)
    have h2 := ih (fun c hc => h c (by simp [hc])) hxy
    simp only [dexpsum_cons]
    have h3 : Real.exp (-cd.2*y) ≤ Real.exp (-cd.2*x) := by
      apply Real.exp_le_exp.mpr
      nlinarith [h1.2]
    have h4 : cd.2*cd.1*Real.exp (-cd.2*y) ≤ cd.2*cd.1*Real.exp (-cd.2*x) :=
      mul_le_mul_of_nonneg_left h3 (mul_pos h1.2 h1.1).le
    linarith

theorem expsum_strictAnti (l : List (ℝ × ℝ)) (h : PosTerms l) (hl : l ≠ []) :
    StrictAnti (expsum l) :=
  strictAnti_of_hasDerivAt_neg (fun x => expsum_hasDerivAt l x)
    (fun x => dexpsum_neg l h hl x)

/-- the terms of each screening function -/
def screening_terms : InteractionPotential ℝ → List (ℝ × ℝ)
  | .MOLIERE => [(0.35, 0.3), (0.55, 1.2), (0.10, 6.0)]
  | .KR_C | .TRIDYN => [(0.190945, 0.278544), (0.473674, 0.637174), (0.335381, 1.919249)]
  | .ZBL => [(0.02817, 0.20162), (0.28022, 0.40290), (0.50986, 0.94229), (0.18175, 3.1998)]
  | .LENZ_JENSEN => [(0.01018, 0.206), (0.24330, 0.3876), (0.7466, 1.038)]
  | _ => []

theorem screening_terms_pos (V : InteractionPotential ℝ) : PosTerms (screening_terms V) := by
  intro cd h
  cases V <;> simp only [screening_terms, List.mem_cons, List.not_mem_nil, or_false] at h <;>
    (try rcases h with h | h | h | h) <;> (try rcases h with h | h | h) <;>
    (try subst h) <;> (try norm_num) <;> exact h.elim

theorem screening_terms_ne (V : InteractionPotential ℝ) (h : Screened V) :
    screening_terms V ≠ [] := by cases h <;> simp [screening_terms]

theorem phi_expsum (V : InteractionPotential ℝ) (h : Screened V) (x : ℝ) :
    phi x V = .ok (expsum (screening_terms V) x) := by
  cases h <;> simp only [phi, screening_terms, moliere, kr_c, zbl, lenz_jensen, expsum_cons,
    expsum_nil, exp_real, Except.ok.injEq] <;> norm_num <;> ring

theorem dphi_dexpsum (V : InteractionPotential ℝ) (h : Screened V) (x : ℝ) :
    dphi x V = .ok (dexpsum (screening_terms V) x) := by
  cases h <;> simp only [dphi, screening_terms, diff_moliere, diff_kr_c, diff_zbl,
    diff_lenz_jensen, dexpsum_cons, dexpsum_nil, exp_real, Except.ok.injEq] <;> norm_num <;> ring

end RustBCA
