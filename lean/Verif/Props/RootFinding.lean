import Verif.Proofs.Screened

/-!
# C19-C22: screening functions, the turning-point equation, Newton's method
-/

set_option linter.unusedVariables false

namespace RustBCA
open Scalar Spec

/-! ## C19 -/

/-- **C19.** Every screened potential has a screening function that is positive, strictly
decreasing, starts at 1 (within 1e-4 for Lenz-Jensen), and whose reported derivative is its
derivative. -/
theorem C19_screening_functions (V : InteractionPotential ℝ) (hV : Screened V) :
    ∃ f df : ℝ → ℝ, (∀ x, phi x V = .ok (f x)) ∧ (∀ x, dphi x V = .ok (df x)) ∧
      (∀ x, HasDerivAt f (df x) x) ∧ (∀ x, 0 < f x) ∧ (∀ x, df x < 0) ∧ StrictAnti f ∧
      (∀ x, 0 ≤ x → f x ≤ f 0) ∧
      |f 0 - 1| ≤ 1e-4 ∧ (V ≠ .LENZ_JENSEN → f 0 = 1) := by
  have hp := screening_terms_pos V
  have hn := screening_terms_ne V hV
  refine ⟨expsum (screening_terms V), dexpsum (screening_terms V), phi_expsum V hV,
    dphi_dexpsum V hV, expsum_hasDerivAt _, expsum_pos _ hp hn, dexpsum_neg _ hp hn,
    expsum_strictAnti _ hp hn, fun x hx => (expsum_strictAnti _ hp hn).antitone hx, ?_, ?_⟩
  · cases hV <;> simp only [screening_terms, expsum_cons, expsum_nil, mul_zero, Real.exp_zero] <;>
      norm_num [abs_le]
  · intro h
    cases hV <;> simp only [screening_terms, expsum_cons, expsum_nil, mul_zero, Real.exp_zero] <;>
      first | exact absurd rfl h | norm_num

/-- Non-screened potentials have no screening function: the code refuses. -/
theorem C19_others_refused {F : Type} [Scalar F] (x : F) (V : InteractionPotential F)
    (hV : ¬ Screened V) : (∃ m, phi x V = .error (.panic m)) ∧ ∃ m, dphi x V = .error (.panic m) := by
  cases V <;> first
    | exact absurd (by constructor) hV
    | exact ⟨⟨_, rfl⟩, ⟨_, rfl⟩⟩

/-- **C19, the potential energy.** A screened potential between positive charges is repulsive,
strictly decreasing with distance, and at most 1.0001 times the bare Coulomb energy. -/
theorem C19_repulsive (V : InteractionPotential ℝ) (hV : Screened V) (a Za Zb : ℝ)
    (ha : 0 < a) (hA : 0 < Za) (hB : 0 < Zb) :
    ∃ U : ℝ → ℝ, (∀ r, interaction_potential r a Za Zb V = .ok (U r)) ∧
      StrictAntiOn U (Set.Ioi 0) ∧
      ∀ r, 0 < r → 0 < U r ∧ U r ≤ 1.0001*(Za*Zb*(Q ℝ)^2/(4*Real.pi*EPS0 ℝ*r)) := by
  have hp := screening_terms_pos V
  have hn := screening_terms_ne V hV
  have := Real.pi_pos; have := Q_pos; have := EPS0_pos
  have hk : 0 < Za*Zb*Q ℝ*Q ℝ/4/Real.pi/EPS0 ℝ := by positivity
  refine ⟨_, fun r => potential_screened V hV r a Za Zb, ?_, ?_⟩
  · intro x hx y hy hxy
    have hx' : (0:ℝ) < x := hx
    have hy' : (0:ℝ) < y := hy
    have h1 : expsum (screening_terms V) (y/a) < expsum (screening_terms V) (x/a) :=
      expsum_strictAnti _ hp hn (by gcongr)
    have h2 := expsum_pos _ hp hn (y/a)
    have h3 : Za*Zb*Q ℝ*Q ℝ/4/Real.pi/EPS0 ℝ/y < Za*Zb*Q ℝ*Q ℝ/4/Real.pi/EPS0 ℝ/x :=
      div_lt_div_of_pos_left hk hx' hxy
    exact mul_lt_mul'' h3 h1 (div_pos hk hy').le h2.le
  · intro r hr
    have h1 := expsum_pos _ hp hn (r/a)
    refine ⟨mul_pos (div_pos hk hr) h1, ?_⟩
    have h2 : expsum (screening_terms V) (r/a) ≤ 1.0001 := by
      refine le_trans ((expsum_strictAnti _ hp hn).antitone (by positivity : (0:ℝ) ≤ r/a)) ?_
      cases hV <;> simp only [screening_terms, expsum_cons, expsum_nil, mul_zero,
        Real.exp_zero] <;> norm_num
    have h3 := mul_le_mul_of_nonneg_left h2 (div_pos hk hr).le
    refine le_trans h3 (le_of_eq ?_)
    field_simp

/-! ## C20 -/

/-- **C20.** For a screened potential the distance-of-closest-approach function is strictly
increasing on positive distances and has exactly one zero there, beyond the impact parameter and no
further beyond it than 1.0001 times the head-on Coulomb distance. -/
theorem C20_unique_turning_point (V : InteractionPotential ℝ) (hV : Screened V)
    (a Za Zb Er p : ℝ) (hA : 0 < Za) (hB : 0 < Zb) (hE : 0 < Er) (hp : 0 < p) :
    ∃ f : ℝ → ℝ, (∀ r, distance_of_closest_approach_function r a Za Zb Er p V = .ok (f r)) ∧
      StrictMonoOn f (Set.Ioi 0) ∧
      ∃ r, 0 < r ∧ f r = 0 ∧ (∀ s, 0 < s → f s = 0 → s = r) ∧ p < r ∧
        r ≤ p + 1.0001*(Za*Zb*(Q ℝ)^2/(4*Real.pi*EPS0 ℝ*Er)) := by
  have hpos := screening_terms_pos V
  have hn := screening_terms_ne V hV
  have hs := screening_length_pos V hV hA hB
  have he := reduced_energy_pos V hV hA hB hE
  have hb : 0 < p/screening_length Za Zb V := div_pos hp hs
  set s := screening_length Za Zb V with hsdef
  set g := closest (expsum (screening_terms V)) (reduced_energy Za Zb Er V) (p/s) with hg
  have hmono : StrictMonoOn (fun r => g (r/s)) (Set.Ioi 0) := by
    intro x hx y hy hxy
    have hx' : (0:ℝ) < x := hx
    have hy' : (0:ℝ) < y := hy
    exact closest_strictMono hpos he (p/s) (show x/s ∈ Set.Ioi 0 from div_pos hx' hs)
      (show y/s ∈ Set.Ioi 0 from div_pos hy' hs) (by gcongr)
  obtain ⟨x, hx1, hx2, hx0⟩ := closest_root hpos hn he hb
  have hxpos : 0 < x := hb.trans hx1
  have hxs : x*s/s = x := by field_simp
  refine ⟨fun r => g (r/s), fun r => doca_screened V hV r a Za Zb Er p, hmono, x*s, mul_pos hxpos hs, ?_,
    ?_, ?_, ?_⟩
  · simp only [hxs]; exact hx0
  · intro t ht ht0
    by_contra hne
    rcases lt_or_gt_of_ne hne with h | h
    · have := hmono ht (mul_pos hxpos hs : 0 < x*s) h
      simp only [hxs] at this
      simp only at ht0
      rw [ht0, hg, hx0] at this; exact lt_irrefl _ this
    · have := hmono (mul_pos hxpos hs : 0 < x*s) ht h
      simp only [hxs] at this
      simp only at ht0
      rw [ht0, hg, hx0] at this; exact lt_irrefl _ this
  · have := (div_lt_iff₀ hs).mp hx1
    linarith
  · have h1 := mul_le_mul_of_nonneg_right hx2 hs.le
    refine le_trans h1 ?_
    have h2 : expsum (screening_terms V) 0 ≤ 1.0001 := by
      clear_value g
      cases hV <;> simp only [screening_terms, expsum_cons, expsum_nil, mul_zero,
        Real.exp_zero] <;> norm_num
    have := Real.pi_pos; have := Q_pos; have := EPS0_pos
    have e : (p/s + expsum (screening_terms V) 0/reduced_energy Za Zb Er V)*s
        = p + expsum (screening_terms V) 0*(Za*Zb*(Q ℝ)^2/(4*Real.pi*EPS0 ℝ*Er)) := by
      unfold reduced_energy
      rw [← hsdef, lindhard_eq]
      field_simp
    rw [e]
    have h3 : 0 < Za*Zb*(Q ℝ)^2/(4*Real.pi*EPS0 ℝ*Er) := by positivity
    have := mul_le_mul_of_nonneg_right h2 h3.le
    linarith

/-! ## C21, C22 -/

/-- A Newton-Raphson sequence for `f` with derivative `df`. -/
def NewtonSequence (f df : ℝ → ℝ) (x : ℕ → ℝ) : Prop := ∀ k, x (k + 1) = x k - f (x k)/df (x k)

/-- What `newton_rootfinder` works on, in units of the screening length. -/
noncomputable def newton_start (eps beta : ℝ) : ℝ :=
  if 5 < eps then 0.5/eps + Real.sqrt (0.5/eps*(0.5/eps) + beta*beta) else beta

theorem newton_start_pos {eps beta : ℝ} (he : 0 < eps) (hb : 0 < beta) :
    0 < newton_start eps beta := by
  unfold newton_start
  split
  · have : 0 ≤ Real.sqrt (0.5/eps*(0.5/eps) + beta*beta) := Real.sqrt_nonneg _
    have : 0 < 0.5/eps := by positivity
    linarith
  · exact hb

/-- **C21.** The iterates of `newton_rootfinder` for a screened potential.  There is a Newton
sequence `x` for the (dimensionless) turning-point function of the code such that all iterates are
positive, from the first iteration on they increase and stay below the root, and
`newton_rootfinder` with any iteration budget `n` and tolerance returns exactly the iterate after
the first step whose square is below the tolerance. -/
theorem C21_newton_iterates (V : InteractionPotential ℝ) (hV : Screened V)
    (Za Zb Ma Mb E0 p : ℝ) (hA : 0 < Za) (hB : 0 < Zb) (hMa : 0 < Ma) (hMb : 0 < Mb)
    (hE : 0 < E0) (hp : 0 < p) :
    ∃ (x : ℕ → ℝ) (F dF : ℝ → ℝ) (root : ℝ),
      (∀ y, distance_of_closest_approach_function (y*screening_length Za Zb V)
        (screening_length Za Zb V) Za Zb (E0*Mb/(Ma + Mb)) p V = .ok (F y)) ∧
      (∀ y, 0 < y → HasDerivAt F (dF y) y) ∧
      NewtonSequence F dF x ∧ 0 < root ∧ F root = 0 ∧
      (∀ k, 0 < x k) ∧ (∀ k, x (k + 1) ≤ root) ∧ (∀ k, x (k + 1) ≤ x (k + 2)) ∧
      (∀ tol n k, k < n → (∀ i, i < k → ¬ (x (i + 1) - x i)^2 < tol) →
        (x (k + 1) - x k)^2 < tol →
        newton_rootfinder Za Zb Ma Mb E0 p V n tol = .ok (.ok (x (k + 1)))) ∧
      (∀ tol n y, newton_rootfinder Za Zb Ma Mb E0 p V n tol = .ok (.ok y) →
        ∃ k, k < n ∧ y = x (k + 1) ∧ (x (k + 1) - x k)^2 < tol) ∧
      (∀ tol, 0 < tol → ∀ n : ℕ, root + Real.sqrt tol < n*Real.sqrt tol →
        ∃ k, k < n ∧ newton_rootfinder Za Zb Ma Mb E0 p V n tol = .ok (.ok (x (k + 1)))) ∧
      (∀ k, root - x (k + 1) ≤ |x (k + 1) - x k| * dF (x k)) ∧
      (∀ k, root - x (k + 1) ≤ |F (x (k + 1))|) := by
  have hEr : 0 < E0*Mb/(Ma + Mb) := by positivity
  have hpos := screening_terms_pos V
  have hn := screening_terms_ne V hV
  have hs := screening_length_pos V hV hA hB
  have he := reduced_energy_pos V hV hA hB hEr
  have hb : 0 < p/screening_length Za Zb V := div_pos hp hs
  set s := screening_length Za Zb V with hsdef
  set l := screening_terms V with hl
  set eps := reduced_energy Za Zb (E0*Mb/(Ma + Mb)) V with heps
  set beta := p/s with hbeta
  obtain ⟨root, hr1, hr2, hr0⟩ := closest_root hpos hn he hb
  have hrpos : 0 < root := hb.trans hr1
  set x0 := newton_start eps beta with hx0
  have hx0pos : 0 < x0 := newton_start_pos he hb
  have hys : ∀ y : ℝ, y*s/s = y := fun y => by field_simp
  have hF : ∀ y, distance_of_closest_approach_function (y*s) s Za Zb (E0*Mb/(Ma + Mb)) p V
      = .ok (closest (expsum l) eps beta y) := by
    intro y; rw [doca_screened V hV, ← hsdef, hys]
  have hdF : ∀ y, diff_distance_of_closest_approach_function (y*s) s Za Zb (E0*Mb/(Ma + Mb)) p V
      = .ok (dclosest (dexpsum l) eps beta y) := by
    intro y; rw [ddoca_screened V hV, ← hsdef, hys]
  have hre : LINDHARD_REDUCED_ENERGY_PREFACTOR ℝ*s*Mb/(Ma+Mb)/Za/Zb*E0 = eps := by
    rw [heps, reduced_energy, ← hsdef]; field_simp
  have hrun : ∀ n tol, newton_rootfinder Za Zb Ma Mb E0 p V n tol =
      newton_loop (fun r => distance_of_closest_approach_function r s Za Zb (E0*Mb/(Ma + Mb)) p V)
        (fun r => diff_distance_of_closest_approach_function r s Za Zb (E0*Mb/(Ma + Mb)) p V)
        s tol n x0 := by
    intro n tol
    unfold newton_rootfinder
    simp only [← hsdef, hre]
    rw [hx0, newton_start]
    have e5 : (Scalar.lt (5.0 : ℝ) eps = true) ↔ 5 < eps := by rw [lt_real]; norm_num
    simp only [e5]
    rfl
  have hloop : ∀ tol n k, k < n →
      (∀ i, i < k → ¬ (nseq l eps beta x0 (i + 1) - nseq l eps beta x0 i)^2 < tol) →
      (nseq l eps beta x0 (k + 1) - nseq l eps beta x0 k)^2 < tol →
      newton_rootfinder Za Zb Ma Mb E0 p V n tol = .ok (.ok (nseq l eps beta x0 (k + 1))) := by
    intro tol n k hk h1 h2
    rw [hrun]
    exact newton_loop_real l eps beta _ _ s tol (fun _ => True) (fun y _ => hF y)
      (fun y _ => hdF y) n x0 (fun _ => trivial) k hk h1 h2
  refine ⟨nseq l eps beta x0, closest (expsum l) eps beta,
    dclosest (dexpsum l) eps beta, root, hF, fun y hy => closest_hasDerivAt l eps beta hy,
    fun k => rfl, hrpos, hr0, nseq_pos hpos hn he beta hx0pos,
    nseq_le_root hpos hn he beta hx0pos hrpos hr0, nseq_mono hpos hn he beta hx0pos hrpos hr0,
    hloop, ?_, ?_, ?_, ?_⟩
  · intro tol n y hy
    rw [hrun] at hy
    obtain ⟨k, hk, xs, h0, hlast, hstep, hsmall⟩ := newton_loop_ok _ _ _ _ _ _ _ hy
    have hxs : ∀ i, i ≤ k + 1 → xs i = nseq l eps beta x0 i := by
      intro i
      induction i with
      | zero => intro _; exact h0
      | succ i ih =>
        intro hi
        obtain ⟨fx, dfx, h1, h2, h3⟩ := hstep i (by omega)
        rw [hF] at h1
        rw [hdF] at h2
        simp only [Except.ok.injEq] at h1 h2
        rw [h3, ← h1, ← h2, ih (by omega)]; rfl
    have h4 := hsmall k le_rfl
    simp only [decide_true, lt_real] at h4
    rw [hxs k (by omega), hxs (k + 1) le_rfl] at h4
    exact ⟨k, hk, by rw [← hlast, hxs (k + 1) le_rfl], by rw [pow_two]; exact h4⟩
  · intro tol ht n hnt
    have hK : root ≤ (n - 1 : ℕ)*Real.sqrt tol := by
      have hsq := Real.sqrt_nonneg tol
      have hn1 : 1 ≤ n := by
        by_contra h0
        have : n = 0 := by omega
        subst this; simp at hnt; linarith
      have : ((n - 1 : ℕ) : ℝ) = n - 1 := by push_cast [hn1]; ring
      rw [this]; linarith
    have hex := nseq_small_step hpos hn he beta hx0pos hrpos hr0 ht (n - 1) hK
    classical
    have hfind := Nat.find_spec hex
    have hn1 : 1 ≤ n := by
      by_contra h0
      have : n = 0 := by omega
      subst this
      have hsq := Real.sqrt_nonneg tol
      simp at hnt; linarith
    refine ⟨Nat.find hex, by have := hfind.1; omega, hloop tol n _ (by have := hfind.1; omega)
      (fun i hi hlt => ?_) hfind.2⟩
    exact Nat.find_min hex hi ⟨by have := hfind.1; omega, hlt⟩
  · intro k
    exact nstep_accuracy hpos he beta (nseq_pos hpos hn he beta hx0pos k) hrpos hr0
  · intro k
    have h1 := nseq_le_root hpos hn he beta hx0pos hrpos hr0 k
    have h2 := closest_slope hpos he beta (nseq_pos hpos hn he beta hx0pos (k + 1)) h1
    rw [hr0] at h2
    have := neg_le_abs (closest (expsum l) eps beta (nseq l eps beta x0 (k + 1)))
    linarith

/-- **C21, convergence.** For every tolerance there is a number of iterations from which on
`newton_rootfinder` succeeds. -/
theorem C21_newton_converges (V : InteractionPotential ℝ) (hV : Screened V)
    (Za Zb Ma Mb E0 p tol : ℝ) (hA : 0 < Za) (hB : 0 < Zb) (hMa : 0 < Ma) (hMb : 0 < Mb)
    (hE : 0 < E0) (hp : 0 < p) (ht : 0 < tol) :
    ∃ N : ℕ, ∀ n, N ≤ n → ∃ x, newton_rootfinder Za Zb Ma Mb E0 p V n tol = .ok (.ok x) := by
  obtain ⟨x, F, dF, root, _, _, _, hr, _, _, _, _, _, _, hconv, _⟩ :=
    C21_newton_iterates V hV Za Zb Ma Mb E0 p hA hB hMa hMb hE hp
  have hst : 0 < Real.sqrt tol := Real.sqrt_pos.mpr ht
  obtain ⟨N, hN⟩ := exists_nat_gt ((root + Real.sqrt tol)/Real.sqrt tol)
  refine ⟨N, fun n hn => ?_⟩
  have h1 := (div_lt_iff₀ hst).mp hN
  have h2 : (N : ℝ)*Real.sqrt tol ≤ n*Real.sqrt tol := by gcongr
  obtain ⟨k, _, hk⟩ := hconv tol ht n (by linarith)
  exact ⟨_, hk⟩

/-- **C21, accuracy.** A result of `newton_rootfinder` is positive, at most the true root, and
within a distance of it that can be computed from the result alone (the value of the
turning-point function there), and that is also at most the last step times the slope there. -/
theorem C21_newton_accuracy (V : InteractionPotential ℝ) (hV : Screened V)
    (Za Zb Ma Mb E0 p tol x : ℝ) (n : ℕ) (hA : 0 < Za) (hB : 0 < Zb) (hMa : 0 < Ma) (hMb : 0 < Mb)
    (hE : 0 < E0) (hp : 0 < p)
    (run : newton_rootfinder Za Zb Ma Mb E0 p V n tol = .ok (.ok x)) :
    ∃ (F dF : ℝ → ℝ) (root prev : ℝ),
      (∀ y, distance_of_closest_approach_function (y*screening_length Za Zb V)
        (screening_length Za Zb V) Za Zb (E0*Mb/(Ma + Mb)) p V = .ok (F y)) ∧
      (∀ y, 0 < y → HasDerivAt F (dF y) y) ∧
      0 < root ∧ F root = 0 ∧ 0 < x ∧ x ≤ root ∧ root - x ≤ |F x| ∧
      0 < prev ∧ (x - prev)^2 < tol ∧ root - x ≤ |x - prev| * dF prev := by
  obtain ⟨xs, F, dF, root, hF, hd, _, hr, hr0, hpos, hle, _, _, hres, _, hacc, hacc2⟩ :=
    C21_newton_iterates V hV Za Zb Ma Mb E0 p hA hB hMa hMb hE hp
  obtain ⟨k, _, rfl, hsm⟩ := hres tol n x run
  exact ⟨F, dF, root, xs k, hF, hd, hr, hr0, hpos _, hle k, hacc2 k, hpos k, hsm, hacc k⟩

/-- **C21, in place.** The distance of closest approach the simulation uses for a screened pair of
potentials is the result of `newton_rootfinder` with 100 iterations and tolerance 1e-6, whatever
root finder was chosen in the options, and it panics only if that fails. -/
theorem C21_distance_of_closest_approach (rcpr : Rcpr ℝ) (p1 p2 : Particle ℝ)
    (g : BinaryCollisionGeometry ℝ) (o : Options ℝ) (row : List (InteractionPotential ℝ))
    (V : InteractionPotential ℝ) (hV : Screened V)
    (hrow : o.interaction_potential[p1.interaction_index]? = some row)
    (hcell : row[p2.interaction_index]? = some V)
    (hE : 0 ≤ p1.E) (hm1 : 0 < p1.m) (hm2 : 0 < p2.m) :
    distance_of_closest_approach rcpr p1 p2 g o =
      (newton_rootfinder p1.Z p2.Z p1.m p2.m p1.E g.impact_parameter V 100 1e-6 >>= unwrapA) := by
  have hEr : ¬ (p1.E*p2.m/(p1.m + p2.m) < 0) := by
    have : 0 ≤ p1.E*p2.m/(p1.m + p2.m) := by positivity
    linarith
  have hb : (p1.E*p2.m/(p1.m + p2.m) <. energy_threshold_single_root V) = false := by
    have h0 : energy_threshold_single_root V = 0 := by
      cases hV <;> simp only [energy_threshold_single_root] <;> norm_num
    rw [h0, lt_real_false]; exact not_lt.mp hEr
  unfold distance_of_closest_approach
  simp only [vget, hrow, hcell, bind, Except.bind]
  simp only [hb, Bool.false_eq_true, if_false]
  cases hV <;> rfl

/-- **C22.** `newton_rootfinder` returns `Ok` only after a Newton step whose square is below the
tolerance, which is the first such step, within the iteration budget (every scalar). -/
theorem C22_ok_means_small_step {F : Type} [Scalar F] (Za Zb Ma Mb E0 p tol x : F)
    (V : InteractionPotential F) (n : ℕ)
    (run : newton_rootfinder Za Zb Ma Mb E0 p V n tol = .ok (.ok x)) :
    ∃ k, k < n ∧ ∃ xs : ℕ → F, xs (k + 1) = x ∧
      (∀ i, i ≤ k → ∃ fx dfx,
        distance_of_closest_approach_function (xs i*screening_length Za Zb V)
          (screening_length Za Zb V) Za Zb (E0*Mb/(Ma + Mb)) p V = .ok fx ∧
        diff_distance_of_closest_approach_function (xs i*screening_length Za Zb V)
          (screening_length Za Zb V) Za Zb (E0*Mb/(Ma + Mb)) p V = .ok dfx ∧
        xs (i + 1) = xs i - fx/dfx) ∧
      (∀ i, i ≤ k → ((xs (i + 1) - xs i)*(xs (i + 1) - xs i) <. tol) = decide (i = k)) := by
  obtain ⟨k, hk, xs, _, h1, h2, h3⟩ := newton_loop_ok _ _ _ _ _ _ _ run
  exact ⟨k, hk, xs, h1, h2, h3⟩

/-- **C22, empty budget.** With no iterations allowed the answer is `Err`. -/
theorem C22_no_budget {F : Type} [Scalar F] (Za Zb Ma Mb E0 p tol : F)
    (V : InteractionPotential F) :
    ∃ m, newton_rootfinder Za Zb Ma Mb E0 p V 0 tol = .ok (.error m) := ⟨_, rfl⟩

/-- The hypotheses of C20 and C21 are met: hydrogen on tungsten-like numbers, any screened
potential; the root finder then succeeds for some budget. -/
example : ∃ N : ℕ, ∀ n, N ≤ n → ∃ x,
    newton_rootfinder 1 74 1 184 10 2 (.KR_C : InteractionPotential ℝ) n 1e-6 = .ok (.ok x) :=
  C21_newton_converges _ .kr_c 1 74 1 184 10 2 1e-6 (by norm_num) (by norm_num) (by norm_num)
    (by norm_num) (by norm_num) (by norm_num) (by norm_num)

end RustBCA
