import Verif.Props.Cpr

/-!
# The hypotheses of C87 are met

A solver that honours its contract, and a head-on Lennard-Jones collision.
-/

namespace RustBCA.CprExample
open Scalar Spec

open Classical in
/-- Lists the zeros in `[lb, ub]` if there are finitely many, and fails otherwise. -/
noncomputable def find (f : ℝ → Res ℝ) (lb ub : ℝ) : Res (Anyhow (List ℝ)) :=
  if h : {y : ℝ | lb ≤ y ∧ y ≤ ub ∧ f y = .ok 0}.Finite then .ok (.ok h.toFinset.toList)
  else .ok (.error "infinitely many")

noncomputable def rcpr : Rcpr ℝ where
  enabled := true
  real_polynomial_roots := fun _ _ => .error "not used"
  find_roots_with_secant_polishing := fun _ f lb ub _ => find f lb ub
  find_roots_with_newton_polishing := fun _ f _ lb ub _ => find f lb ub

theorem find_spec (f : ℝ → Res ℝ) (F : ℝ → ℝ) (lb ub : ℝ) (hlb : 0 < lb) (roots : List ℝ)
    (hf : ∀ r, 0 < r → f r = .ok (F r)) (h : find f lb ub = .ok (.ok roots)) (y : ℝ) :
    y ∈ roots ↔ lb ≤ y ∧ y ≤ ub ∧ F y = 0 := by
  unfold find at h
  split at h
  · rename_i hfin
    have e := Except.ok.inj (Except.ok.inj h)
    rw [← e, Finset.mem_toList, Set.Finite.mem_toFinset]
    constructor
    · rintro ⟨h1, h2, h3⟩
      rw [hf y (lt_of_lt_of_le hlb h1)] at h3
      exact ⟨h1, h2, Except.ok.inj h3⟩
    · rintro ⟨h1, h2, h3⟩
      refine ⟨h1, h2, ?_⟩
      rw [hf y (lt_of_lt_of_le hlb h1), h3]
  · simp at h

/-- The solver honours both contracts. -/
theorem honours (rf : Rootfinder ℝ) :
    FindsAllRoots (fun g f lb ub => rcpr.find_roots_with_secant_polishing g f lb ub rf) ∧
    FindsAllRootsNewton (fun g f d lb ub => rcpr.find_roots_with_newton_polishing g f d lb ub rf) :=
  ⟨fun g f G F lb ub roots _ hf hlb _ h y => find_spec f F lb ub hlb roots hf h y,
    fun g f d G F dF lb ub roots _ hf _ _ hlb _ h y => find_spec f F lb ub hlb roots hf h y⟩

theorem doca_value (r : ℝ) : doca_lennard_jones r 0 8 1 1 = (r^6 + 1)*(r^6 - 1/2) := by
  unfold doca_lennard_jones
  simp only [powf_real, powi_real]
  have h12 : (12.0:ℝ) = ((12:ℕ):ℝ) := by norm_num
  have h6 : (6.0:ℝ) = ((6:ℕ):ℝ) := by norm_num
  have h10 : (10.0:ℝ) = ((10:ℕ):ℝ) := by norm_num
  rw [h12, h6, h10, Real.rpow_natCast, Real.rpow_natCast, Real.rpow_natCast, Real.rpow_natCast,
    show (4.0:ℝ) = 4 by norm_num, show (1.0:ℝ) = 1 by norm_num,
    show (2:ℤ) = ((2:ℕ):ℤ) from rfl, zpow_natCast]
  norm_num
  ring

/-- Head on, with equal masses and 16 times the well depth: there is a turning point. -/
theorem turning : ∃ r : ℝ, 1e-15 ≤ r ∧ TurningPoint (lennard_jones r 1 1) (16*1/(1 + 1)) 0 r := by
  obtain ⟨r, hr, h6⟩ : ∃ r : ℝ, 0 < r ∧ r^6 = 1/2 := by
    refine ⟨(1/2 : ℝ)^((1:ℝ)/6), by positivity, ?_⟩
    rw [← Real.rpow_natCast, ← Real.rpow_mul (by norm_num)]
    norm_num
  have hr15 : (1e-15:ℝ) ≤ r := by
    by_contra h
    push Not at h
    have h1 : r^6 ≤ (1e-15:ℝ)^6 := pow_le_pow_left₀ hr.le h.le 6
    rw [h6] at h1
    norm_num at h1
  refine ⟨r, hr15, ?_⟩
  have e8 : (16*1/(1 + 1) : ℝ) = 8 := by norm_num
  rw [e8]
  have h := lj_factor r 0 8 1 1 hr (by norm_num) (by norm_num)
  rw [doca_value, h6] at h
  have hp : (r/1)^12 ≠ 0 := by positivity
  exact (zero_iff_turning hp).1 (by rw [← h]; norm_num)

theorem finite_zeros (lb ub : ℝ) (hlb : 0 < lb) : {y : ℝ | lb ≤ y ∧ y ≤ ub ∧
    (.ok (doca_lennard_jones y 0 8 1 1) : Res ℝ) = .ok 0}.Finite := by
  apply Set.Subsingleton.finite
  rintro x ⟨hx, _, hx0⟩ y ⟨hy, _, hy0⟩
  have hx := lt_of_lt_of_le hlb hx
  have hy := lt_of_lt_of_le hlb hy
  have h1 := Except.ok.inj hx0
  have h2 := Except.ok.inj hy0
  rw [doca_value] at h1 h2
  have e1 : x^6 = 1/2 := by
    rcases mul_eq_zero.1 h1 with h | h
    · have : 0 < x^6 := by positivity
      linarith
    · linarith
  have e2 : y^6 = 1/2 := by
    rcases mul_eq_zero.1 h2 with h | h
    · have : 0 < y^6 := by positivity
      linarith
    · linarith
  exact (pow_left_inj₀ hx.le hy.le (by norm_num)).1 (e1.trans e2.symm)

/-- C87's hypotheses are met and the root finder succeeds, with either polishing. -/
theorem succeeds (rf : Rootfinder ℝ) (b : Bool) : ∃ x,
    cpr_rootfinder rcpr 1 1 1 1 16 0 (.LENNARD_JONES_12_6 1 1) rf b = .ok (.ok x) ∧
    OutermostTurningPoint (fun r => lennard_jones r 1 1) (16*1/(1 + 1)) 0
      (x*screening_length 1 1 (.LENNARD_JONES_12_6 1 1)) := by
  have hb : ∀ b, (∀ x, cpr_rootfinder rcpr 1 1 1 1 16 0 (.LENNARD_JONES_12_6 1 1) rf b = .ok (.ok x) →
      OutermostTurningPoint (fun r => lennard_jones r 1 1) (16*1/(1 + 1)) 0
        (x*screening_length 1 1 (.LENNARD_JONES_12_6 1 1))) ∧
      (∀ e, cpr_rootfinder rcpr 1 1 1 1 16 0 (.LENNARD_JONES_12_6 1 1) rf b = .ok (.error e) →
      ∀ r, 1e-15 ≤ r → ¬ TurningPoint (lennard_jones r 1 1) (16*1/(1 + 1)) 0 r) := by
    intro b
    cases b with
    | true =>
      exact C87_cpr rcpr _ (.lennard_jones_12_6 one_pos one_pos) 1 1 1 1 16 0 one_pos one_pos
        one_pos one_pos (by norm_num) le_rfl _ (fun r => rfl) rf (honours rf).1
    | false =>
      exact C87_cpr_newton rcpr _ 1 1 (Or.inl rfl) one_pos one_pos 1 1 1 1 16 0 one_pos one_pos
        one_pos one_pos (by norm_num) le_rfl _ (fun r => rfl) rf (honours rf).2
  obtain ⟨h1, h2⟩ := hb b
  have hres : ∃ R, cpr_rootfinder rcpr 1 1 1 1 16 0 (.LENNARD_JONES_12_6 1 1) rf b = .ok R := by
    have hf := finite_zeros 1e-15 (0 + crossing_point_doca (.LENNARD_JONES_12_6 1 1)) (by norm_num)
    have e8 : (16*1/(1 + 1) : ℝ) = 8 := by norm_num
    have hcall : find (fun r => distance_of_closest_approach_function r
        (screening_length 1 1 (.LENNARD_JONES_12_6 1 1)) 1 1 (16*1/(1 + 1)) 0 (.LENNARD_JONES_12_6 1 1))
        1e-15 (0 + crossing_point_doca (.LENNARD_JONES_12_6 1 1)) = .ok (.ok hf.toFinset.toList) := by
      rw [e8]
      exact dif_pos hf
    unfold cpr_rootfinder
    cases b <;> simp only [rcpr] <;> rw [hcall] <;> simp only [ Bool.false_eq_true, if_false, if_true, bind, Except.bind,
      unwrapA] <;>
      (cases max_root hf.toFinset.toList with
       | none => exact ⟨_, rfl⟩
       | some m => simp only [isNaN_real, Bool.false_eq_true, if_false]; exact ⟨_, rfl⟩)
  obtain ⟨R, hR⟩ := hres
  cases R with
  | error e =>
    obtain ⟨r, hr, ht⟩ := turning
    exact absurd ht (h2 e hR r hr)
  | ok x => exact ⟨x, hR, h1 x hR⟩

/-- The premises of the KRC_MORSE statement are met, for instance head on for large energies: the
Kr-C energy at 10 Angstrom is some number. -/
example (D alpha k x0 : ℝ) (_hD : 0 < D) (ha : 0 < alpha) : ∃ E0 : ℝ, 0 < E0 ∧
    ∃ U K : ℝ → ℝ,
    (∀ r, interaction_potential r (screening_length 1 1 (.KRC_MORSE D alpha 1e-10 k x0)) 1 1
      (.KRC_MORSE D alpha 1e-10 k x0) = .ok (U r)) ∧
    (∀ r, interaction_potential r (screening_length 1 1 (.KRC_MORSE D alpha 1e-10 k x0)) 1 1 .KR_C
      = .ok (K r)) ∧
    alpha*(1e-10 - 1e-9) ≤ Real.log 2 ∧
    K (0 + 1e-9) ≤ E0*1/(1 + 1)*(1 - 0^2/(0 + 1e-9)^2) := by
  obtain ⟨U, K, hU, hK, _⟩ := C83_krc_morse (screening_length 1 1 (.KRC_MORSE D alpha 1e-10 k x0)) 1 1
    D alpha 1e-10 k x0
  refine ⟨2*max 1 (K (0 + 1e-9)), by positivity, U, K, hU, hK, ?_, ?_⟩
  · have h1 : 0 ≤ Real.log 2 := Real.log_nonneg (by norm_num)
    have h2 : alpha*(1e-10 - 1e-9) ≤ 0 := mul_nonpos_of_nonneg_of_nonpos ha.le (by norm_num)
    linarith
  · have h1 : K (0 + 1e-9) ≤ max 1 (K (0 + 1e-9)) := le_max_right _ _
    have e : (2*max 1 (K (0 + 1e-9)))*1/(1 + 1)*(1 - 0^2/(0 + 1e-9)^2) = max 1 (K (0 + 1e-9)) := by
      ring
    rw [e]; exact h1

end RustBCA.CprExample
