import Verif.Proofs.NewtonAccuracy
import Verif.Props.RootFinding
import Verif.Spec.Deflection

/-!
# C92: the root finder of screened potentials never gives up
-/

namespace RustBCA
open Scalar Spec

set_option linter.unusedVariables false

/-- the reduced energy of the code is the centre-of-mass energy in units of `Za Zb e²/(4 π ε0 a)` -/
theorem reduced_energy_eq (V : InteractionPotential ℝ) (hV : Screened V) (Za Zb Er : ℝ)
    (hA : 0 < Za) (hB : 0 < Zb) :
    reduced_energy Za Zb Er V = Er/(coulombConstant Za Zb/screening_length Za Zb V) := by
  have h1 := screening_length_pos V hV hA hB
  have := Real.pi_pos; have hq := Q_pos; have h0 := EPS0_pos
  unfold Q at hq
  unfold EPS0 at h0
  unfold reduced_energy coulombConstant
  rw [lindhard_eq]
  unfold Q EPS0
  field_simp

theorem closest_root' (V : InteractionPotential ℝ) (hV : Screened V) {eps beta : ℝ} (he : 0 < eps)
    (hb : 0 ≤ beta) :
    ∃ x, 0 < x ∧ beta < x ∧ closest (expsum (screening_terms V)) eps beta x = 0 := by
  have h := screening_terms_pos V
  have hl := screening_terms_ne V hV
  rcases hb.lt_or_eq with hb | rfl
  · obtain ⟨x, h1, _, h2⟩ := closest_root h hl he hb
    exact ⟨x, hb.trans h1, h1, h2⟩
  · -- head on: between a small and a large distance
    obtain ⟨h1, h2, h3⟩ := screening_at_zero V hV
    obtain ⟨y, hy⟩ : ∃ y, y = min 0.1 (0.5/eps) := ⟨_, rfl⟩
    have hy0 : 0 < y := by rw [hy]; exact lt_min (by norm_num) (by positivity)
    have hy1 : y ≤ 0.1 := by rw [hy]; exact min_le_left _ _
    have hy2 : y ≤ 0.5/eps := by rw [hy]; exact min_le_right _ _
    have hlow : closest (expsum (screening_terms V)) eps 0 y ≤ 0 := by
      unfold closest
      obtain ⟨_, _, g3, _⟩ := screening_bounds V hV hy0.le
      have : 0.5/eps ≤ expsum (screening_terms V) y/eps :=
        div_le_div_of_nonneg_right (by linarith) he.le
      have e : (0:ℝ)^2/y = 0 := by simp
      rw [e]; linarith
    have hX : 0 < 1.0001/eps := by positivity
    have hhigh : 0 ≤ closest (expsum (screening_terms V)) eps 0 (1.0001/eps) := by
      unfold closest
      have : expsum (screening_terms V) (1.0001/eps)/eps ≤ 1.0001/eps :=
        div_le_div_of_nonneg_right (screening_bounds V hV hX.le).2.1 he.le
      have e : (0:ℝ)^2/(1.0001/eps) = 0 := by simp
      rw [e]; linarith
    have hyX : y ≤ 1.0001/eps := hy2.trans (div_le_div_of_nonneg_right (by norm_num) he.le)
    have hcont : ContinuousOn (closest (expsum (screening_terms V)) eps 0) (Set.Icc y (1.0001/eps)) :=
      fun z hz => (closest_hasDerivAt _ eps 0 (lt_of_lt_of_le hy0 hz.1)).continuousAt.continuousWithinAt
    obtain ⟨x, hx, hx0⟩ := intermediate_value_Icc hyX hcont ⟨hlow, hhigh⟩
    exact ⟨x, lt_of_lt_of_le hy0 hx.1, lt_of_lt_of_le hy0 hx.1, hx0⟩

/-- the run of the root finder, in reduced units -/
theorem newton_run (V : InteractionPotential ℝ) (hV : Screened V) (Za Zb Ma Mb E0 p : ℝ)
    (hA : 0 < Za) (hB : 0 < Zb) (hMa : 0 < Ma) (hMb : 0 < Mb) (n : ℕ) (tol : ℝ) :
    newton_rootfinder Za Zb Ma Mb E0 p V n tol =
      newton_loop (fun r => distance_of_closest_approach_function r (screening_length Za Zb V) Za Zb
          (E0*Mb/(Ma + Mb)) p V)
        (fun r => diff_distance_of_closest_approach_function r (screening_length Za Zb V) Za Zb
          (E0*Mb/(Ma + Mb)) p V)
        (screening_length Za Zb V) tol n
        (newton_start (reduced_energy Za Zb (E0*Mb/(Ma + Mb)) V) (p/screening_length Za Zb V)) := by
  have hs := screening_length_pos V hV hA hB
  have hre : LINDHARD_REDUCED_ENERGY_PREFACTOR ℝ*screening_length Za Zb V*Mb/(Ma+Mb)/Za/Zb*E0
      = reduced_energy Za Zb (E0*Mb/(Ma + Mb)) V := by
    rw [reduced_energy]; field_simp
  unfold newton_rootfinder
  simp only [hre]
  rw [newton_start]
  generalize reduced_energy Za Zb (E0*Mb/(Ma + Mb)) V = eps
  have e5 : (Scalar.lt (5.0 : ℝ) eps = true) ↔ 5 < eps := by rw [lt_real]; norm_num
  simp only [e5]
  rfl

/-- the step that ends the search, in reduced units -/
theorem newton_finds (V : InteractionPotential ℝ) (hV : Screened V) (Za Zb Ma Mb E0 p : ℝ)
    (hA : 0 < Za) (hB : 0 < Zb) (hMa : 0 < Ma) (hMb : 0 < Mb) (n m : ℕ) (tol : ℝ) (hm : m < n) (x0 : ℝ)
    (hx0 : x0 = newton_start (reduced_energy Za Zb (E0*Mb/(Ma + Mb)) V) (p/screening_length Za Zb V))
    (hsmall : (nseq (screening_terms V) (reduced_energy Za Zb (E0*Mb/(Ma + Mb)) V)
        (p/screening_length Za Zb V) x0 (m + 1)
      - nseq (screening_terms V) (reduced_energy Za Zb (E0*Mb/(Ma + Mb)) V)
        (p/screening_length Za Zb V) x0 m)^2 < tol) :
    ∃ k, k ≤ m ∧ newton_rootfinder Za Zb Ma Mb E0 p V n tol = .ok (.ok
        (nseq (screening_terms V) (reduced_energy Za Zb (E0*Mb/(Ma + Mb)) V)
          (p/screening_length Za Zb V) x0 (k + 1))) ∧
      (nseq (screening_terms V) (reduced_energy Za Zb (E0*Mb/(Ma + Mb)) V)
        (p/screening_length Za Zb V) x0 (k + 1)
      - nseq (screening_terms V) (reduced_energy Za Zb (E0*Mb/(Ma + Mb)) V)
        (p/screening_length Za Zb V) x0 k)^2 < tol := by
  have hs := screening_length_pos V hV hA hB
  have hys : ∀ y : ℝ, y*screening_length Za Zb V/screening_length Za Zb V = y := fun y => by field_simp
  classical
  have hex : ∃ k, (nseq (screening_terms V) (reduced_energy Za Zb (E0*Mb/(Ma + Mb)) V)
        (p/screening_length Za Zb V) x0 (k + 1)
      - nseq (screening_terms V) (reduced_energy Za Zb (E0*Mb/(Ma + Mb)) V)
        (p/screening_length Za Zb V) x0 k)^2 < tol := ⟨m, hsmall⟩
  have hk := Nat.find_spec hex
  have hkm : Nat.find hex ≤ m := Nat.find_min' hex hsmall
  refine ⟨Nat.find hex, hkm, ?_, hk⟩
  rw [newton_run V hV Za Zb Ma Mb E0 p hA hB hMa hMb, ← hx0]
  refine newton_loop_real _ _ _ _ _ _ tol (fun _ => True) (fun y _ => ?_) (fun y _ => ?_) n x0
    (fun _ => trivial) _ (lt_of_le_of_lt hkm hm) (fun i hi => Nat.find_min hex hi) hk
  · rw [doca_screened V hV, hys]
  · rw [ddoca_screened V hV, hys]

/-- **C92.** For every screened potential, all atoms, every positive impact parameter and every
centre-of-mass energy of at least `10^-25 Za Zb e²/(4 π ε0 a)` (for every pair of atoms of the
periodic table this is less than `10^-18` eV), the root finder the simulation uses, Newton's method
with 100 iterations and tolerance `10^-6`, succeeds.  Above five times that unit of energy it succeeds
within 12 iterations, also for head-on collisions (in exact arithmetic). -/
theorem C92_newton_succeeds (V : InteractionPotential ℝ) (hV : Screened V)
    (Za Zb Ma Mb E0 p : ℝ) (hA : 0 < Za) (hB : 0 < Zb) (hMa : 0 < Ma) (hMb : 0 < Mb)
    (tol : ℝ) (ht : 1e-6 ≤ tol) (n : ℕ) :
    (0 < p → 1e-25*(coulombConstant Za Zb/screening_length Za Zb V) ≤ E0*Mb/(Ma + Mb) → 100 ≤ n →
      ∃ x, newton_rootfinder Za Zb Ma Mb E0 p V n tol = .ok (.ok x)) ∧
    (0 ≤ p → 5*(coulombConstant Za Zb/screening_length Za Zb V) < E0*Mb/(Ma + Mb) → 12 ≤ n →
      ∃ x, newton_rootfinder Za Zb Ma Mb E0 p V n tol = .ok (.ok x)) := by
  have hs := screening_length_pos V hV hA hB
  have hk0 : 0 < coulombConstant Za Zb := by
    unfold coulombConstant
    have := Real.pi_pos
    positivity
  have hu : 0 < coulombConstant Za Zb/screening_length Za Zb V := by positivity
  have hre := reduced_energy_eq V hV Za Zb (E0*Mb/(Ma + Mb)) hA hB
  have h := screening_terms_pos V
  have hl := screening_terms_ne V hV
  have htt : (1e-3:ℝ)^2 ≤ tol := le_trans (by norm_num) ht
  have high : ∀ n : ℕ, 0 ≤ p → 5*(coulombConstant Za Zb/screening_length Za Zb V) < E0*Mb/(Ma + Mb) →
      12 ≤ n → ∃ x, newton_rootfinder Za Zb Ma Mb E0 p V n tol = .ok (.ok x) := by
    intro n hp hE hn
    have he : 5 < reduced_energy Za Zb (E0*Mb/(Ma + Mb)) V := by
      rw [hre, lt_div_iff₀ hu]; exact hE
    have he0 : 0 < reduced_energy Za Zb (E0*Mb/(Ma + Mb)) V := by linarith
    have hb : 0 ≤ p/screening_length Za Zb V := div_nonneg hp hs.le
    obtain ⟨x0, hx0⟩ : ∃ x0, x0 = newton_start (reduced_energy Za Zb (E0*Mb/(Ma + Mb)) V)
      (p/screening_length Za Zb V) := ⟨_, rfl⟩
    obtain ⟨r, hr, _, hroot⟩ := closest_root' V hV he0 hb
    have hx0' := hx0
    rw [newton_start, if_pos he] at hx0'
    obtain ⟨g1, g2, g3⟩ := start_high_facts he hb hx0'
    have hx0p : 0 < x0 := lt_of_lt_of_le (by positivity) g1
    have hP := start_high V hV he hb g1 g2 g3
    have hx1 := nstep_pos h hl he0 (p/screening_length Za Zb V) hx0p
    have hsm := nseq_fast_small h hl he0 (p/screening_length Za Zb V) (t := 1e-3) hx1
      (nstep_le_root h he0 _ hx0p hr hroot) hr hroot hP 10 (by norm_num)
    rw [nseq_shift, nseq_shift] at hsm
    obtain ⟨k, _, hrun, _⟩ := newton_finds V hV Za Zb Ma Mb E0 p hA hB hMa hMb n 11 tol (by omega) x0 hx0
      (lt_of_lt_of_le hsm htt)
    exact ⟨_, hrun⟩
  refine ⟨fun hp hE hn => ?_, high n⟩
  rcases le_or_gt (reduced_energy Za Zb (E0*Mb/(Ma + Mb)) V) 5 with h5 | h5
  · have he : 1e-25 ≤ reduced_energy Za Zb (E0*Mb/(Ma + Mb)) V := by
      rw [hre, le_div_iff₀ hu]; exact hE
    have he0 : 0 < reduced_energy Za Zb (E0*Mb/(Ma + Mb)) V := lt_of_lt_of_le (by norm_num) he
    have hb : 0 < p/screening_length Za Zb V := div_pos hp hs
    obtain ⟨r, hr, hbr, hroot⟩ := closest_root' V hV he0 hb.le
    have hP := start_low V hV he0 hb
    have hP' : -closest (expsum (screening_terms V)) (reduced_energy Za Zb (E0*Mb/(Ma + Mb)) V)
        (p/screening_length Za Zb V) (p/screening_length Za Zb V)
        *dclosest (dexpsum (screening_terms V)) (reduced_energy Za Zb (E0*Mb/(Ma + Mb)) V)
        (p/screening_length Za Zb V) (p/screening_length Za Zb V) ≤ 1e52 := by
      refine hP.trans ?_
      generalize reduced_energy Za Zb (E0*Mb/(Ma + Mb)) V = e at *
      have k1 : 1/e ≤ 1e25 := by
        rw [div_le_iff₀ he0]; nlinarith
      have k2 : 0 < 1/e := by positivity
      have k3 : 1.0001/e = 1.0001*(1/e) := by ring
      have k4 : 1.4/e = 1.4*(1/e) := by ring
      rw [k3, k4]
      nlinarith
    have hsm := nseq_fast_small h hl he0 (p/screening_length Za Zb V) (t := 1e-3) hb hbr.le hr hroot hP' 99
      (by norm_num)
    obtain ⟨k, _, hrun, _⟩ := newton_finds V hV Za Zb Ma Mb E0 p hA hB hMa hMb n 99 tol (by omega)
      (p/screening_length Za Zb V) (by rw [newton_start, if_neg (not_lt.2 h5)]) (lt_of_lt_of_le hsm htt)
    exact ⟨_, hrun⟩
  · exact high n hp.le (by rw [hre, lt_div_iff₀ hu] at h5; exact h5) (by omega)

/-- an `Ok` is a member of the Newton sequence after a small step -/
theorem newton_result (V : InteractionPotential ℝ) (hV : Screened V) (Za Zb Ma Mb E0 p : ℝ)
    (hA : 0 < Za) (hB : 0 < Zb) (hMa : 0 < Ma) (hMb : 0 < Mb) (n : ℕ) (tol y : ℝ)
    (run : newton_rootfinder Za Zb Ma Mb E0 p V n tol = .ok (.ok y)) (x0 : ℝ)
    (hx0 : x0 = newton_start (reduced_energy Za Zb (E0*Mb/(Ma + Mb)) V) (p/screening_length Za Zb V)) :
    ∃ k, y = nseq (screening_terms V) (reduced_energy Za Zb (E0*Mb/(Ma + Mb)) V)
        (p/screening_length Za Zb V) x0 (k + 1) ∧
      (nseq (screening_terms V) (reduced_energy Za Zb (E0*Mb/(Ma + Mb)) V)
        (p/screening_length Za Zb V) x0 (k + 1)
      - nseq (screening_terms V) (reduced_energy Za Zb (E0*Mb/(Ma + Mb)) V)
        (p/screening_length Za Zb V) x0 k)^2 < tol := by
  have hs := screening_length_pos V hV hA hB
  have hys : ∀ y : ℝ, y*screening_length Za Zb V/screening_length Za Zb V = y := fun y => by field_simp
  rw [newton_run V hV Za Zb Ma Mb E0 p hA hB hMa hMb, ← hx0] at run
  obtain ⟨k, hk, xs, h0, hlast, hstep, hsmall⟩ := newton_loop_ok _ _ _ _ _ _ _ run
  have hxs : ∀ i, i ≤ k + 1 → xs i = nseq (screening_terms V) (reduced_energy Za Zb (E0*Mb/(Ma + Mb)) V)
      (p/screening_length Za Zb V) x0 i := by
    intro i
    induction i with
    | zero => intro _; exact h0
    | succ i ih =>
      intro hi
      obtain ⟨fx, dfx, h1, h2, h3⟩ := hstep i (by omega)
      rw [doca_screened V hV, hys] at h1
      rw [ddoca_screened V hV, hys] at h2
      rw [h3, ← Except.ok.inj h1, ← Except.ok.inj h2, ih (by omega)]; rfl
  have h4 := hsmall k le_rfl
  simp only [decide_true, lt_real] at h4
  rw [hxs k (by omega), hxs (k + 1) le_rfl] at h4
  exact ⟨k, by rw [← hlast, hxs (k + 1) le_rfl], by rw [pow_two]; exact h4⟩

/-- what the root finder returns, in reduced units -/
theorem newton_accurate (V : InteractionPotential ℝ) (hV : Screened V) (Za Zb Ma Mb E0 p : ℝ)
    (hA : 0 < Za) (hB : 0 < Zb) (hMa : 0 < Ma) (hMb : 0 < Mb) (hE : 0 < E0) (n : ℕ) (tol x : ℝ)
    (ht : tol ≤ 1e-6) (hp : 0 < p) (run : newton_rootfinder Za Zb Ma Mb E0 p V n tol = .ok (.ok x)) (r : ℝ)
    (hr : 0 < r) (hroot : closest (expsum (screening_terms V)) (reduced_energy Za Zb (E0*Mb/(Ma + Mb)) V)
      (p/screening_length Za Zb V) r = 0) : 0.998*r ≤ x ∧ x ≤ r := by
  have hs := screening_length_pos V hV hA hB
  have h := screening_terms_pos V
  have hl := screening_terms_ne V hV
  have he := reduced_energy_pos V hV hA hB (by positivity : 0 < E0*Mb/(Ma + Mb))
  have hb : 0 < p/screening_length Za Zb V := div_pos hp hs
  obtain ⟨x0, hx0⟩ : ∃ x0, x0 = newton_start (reduced_energy Za Zb (E0*Mb/(Ma + Mb)) V)
    (p/screening_length Za Zb V) := ⟨_, rfl⟩
  obtain ⟨k, rfl, hsm⟩ := newton_result V hV Za Zb Ma Mb E0 p hA hB hMa hMb n tol x run x0 hx0
  have hx0p : 0 < x0 := by rw [hx0]; exact newton_start_pos he hb
  replace hsm := lt_of_lt_of_le hsm ht
  obtain ⟨r', hr', hbr, hroot'⟩ := closest_root' V hV he hb.le
  have err : r' = r := by
    have hm := closest_strictMono h he (p/screening_length Za Zb V)
    exact hm.injOn hr' hr (hroot'.trans hroot.symm)
  rw [err] at hbr
  refine ⟨?_, nseq_le_root h hl he _ hx0p hr hroot k⟩
  rcases le_or_gt (reduced_energy Za Zb (E0*Mb/(Ma + Mb)) V) 5 with h5 | h5
  · rw [newton_start, if_neg (not_lt.2 h5)] at hx0
    have hle : ∀ n, nseq (screening_terms V) (reduced_energy Za Zb (E0*Mb/(Ma + Mb)) V)
        (p/screening_length Za Zb V) x0 n ≤ r := by
      intro n
      cases n with
      | zero => rw [hx0] at *; exact hbr.le
      | succ n => exact nseq_le_root h hl he _ hx0p hr hroot n
    have hge : ∀ n, p/screening_length Za Zb V ≤ nseq (screening_terms V)
        (reduced_energy Za Zb (E0*Mb/(Ma + Mb)) V) (p/screening_length Za Zb V) x0 n := by
      intro n
      induction n with
      | zero => exact hx0.ge
      | succ n ih => exact ih.trans (nstep_ge h he _ (lt_of_lt_of_le hb ih) (hle n) hroot)
    have := accurate_low V hV he h5 hb.le (lt_of_lt_of_le hb (hge k)) (hge k) (hle k) hroot hsm
    simp only [nseq]
    linarith
  · rw [newton_start, if_pos h5] at hx0
    obtain ⟨g1, g2, g3⟩ := start_high_facts h5 hb.le hx0
    obtain ⟨q1, q2⟩ := first_accurate V hV h5 hb.le hr hroot g1 g2 g3
    cases k with
    | zero => exact accurate_high_first V hV h5 hb.le hr hroot g1 g2 g3 hsm
    | succ k =>
      have hmono : ∀ j, nstep (screening_terms V) (reduced_energy Za Zb (E0*Mb/(Ma + Mb)) V)
          (p/screening_length Za Zb V) x0 ≤ nseq (screening_terms V)
          (reduced_energy Za Zb (E0*Mb/(Ma + Mb)) V) (p/screening_length Za Zb V) x0 (j + 1) := by
        intro j
        induction j with
        | zero => exact le_rfl
        | succ j ih => exact ih.trans (nseq_mono h hl he _ hx0p hr hroot j)
      exact accurate_high_later V hV h5 hb.le hr hbr.le hroot (q1.trans (hmono k))
        (fun h4 => (q2 h4).trans (hmono k)) (nseq_le_root h hl he _ hx0p hr hroot k) hsm

/-- **C92, accuracy.** What the root finder returns is at most the distance of closest approach and not
more than 0.2 per cent below it. -/
theorem C92_accuracy (V : InteractionPotential ℝ) (hV : Screened V) (Za Zb Ma Mb E0 p : ℝ)
    (hA : 0 < Za) (hB : 0 < Zb) (hMa : 0 < Ma) (hMb : 0 < Mb) (hE : 0 < E0) (hp : 0 < p) (n : ℕ) (tol x : ℝ)
    (ht : tol ≤ 1e-6) (run : newton_rootfinder Za Zb Ma Mb E0 p V n tol = .ok (.ok x)) (U : ℝ → ℝ)
    (hU : ∀ r, interaction_potential r (screening_length Za Zb V) Za Zb V = .ok (U r)) (r : ℝ) (hr : 0 < r)
    (htp : TurningPoint (U r) (E0*Mb/(Ma + Mb)) p r) :
    0.998*r ≤ x*screening_length Za Zb V ∧ x*screening_length Za Zb V ≤ r := by
  have hs := screening_length_pos V hV hA hB
  have hEr : 0 < E0*Mb/(Ma + Mb) := by positivity
  have hroot : closest (expsum (screening_terms V)) (reduced_energy Za Zb (E0*Mb/(Ma + Mb)) V)
      (p/screening_length Za Zb V) (r/screening_length Za Zb V) = 0 := by
    rw [closest_eq V hV hA hB hEr hr]
    have h2 := hU r
    rw [potential_screened V hV] at h2
    rw [Except.ok.inj h2]
    unfold TurningPoint at htp
    rw [htp, mul_zero]
  obtain ⟨h1, h2⟩ := newton_accurate V hV Za Zb Ma Mb E0 p hA hB hMa hMb hE n tol x ht hp run _
    (div_pos hr hs) hroot
  constructor
  · have := mul_le_mul_of_nonneg_right h1 hs.le
    rwa [mul_assoc, div_mul_cancel₀ _ hs.ne'] at this
  · exact (le_div_iff₀ hs).1 h2

/-- **C92, in a run.** The distance of closest approach of a collision with a screened potential is
always found: whatever root finder the options name, the code returns a positive number, in units of the
screening length, that is at most the turning point of the two atoms and at most 0.2 per cent below it. -/
theorem C92_distance_of_closest_approach (rcpr : Rcpr ℝ) (p1 p2 : Particle ℝ)
    (g : BinaryCollisionGeometry ℝ) (o : Options ℝ) (row : List (InteractionPotential ℝ))
    (V : InteractionPotential ℝ) (hV : Screened V)
    (hrow : o.interaction_potential[p1.interaction_index]? = some row)
    (hcell : row[p2.interaction_index]? = some V)
    (hA : 0 < p1.Z) (hB : 0 < p2.Z) (hm1 : 0 < p1.m) (hm2 : 0 < p2.m) (hp : 0 < g.impact_parameter)
    (hE : 1e-25*(coulombConstant p1.Z p2.Z/screening_length p1.Z p2.Z V) ≤ p1.E*p2.m/(p1.m + p2.m))
    (U : ℝ → ℝ) (hU : ∀ r, interaction_potential r (screening_length p1.Z p2.Z V) p1.Z p2.Z V = .ok (U r)) :
    ∃ x, distance_of_closest_approach rcpr p1 p2 g o = .ok x ∧ 0 < x ∧
      ∀ r, 0 < r → TurningPoint (U r) (p1.E*p2.m/(p1.m + p2.m)) g.impact_parameter r →
        0.998*r ≤ x*screening_length p1.Z p2.Z V ∧ x*screening_length p1.Z p2.Z V ≤ r := by
  have hs := screening_length_pos V hV hA hB
  have hk0 : 0 < coulombConstant p1.Z p2.Z := by
    unfold coulombConstant
    have := Real.pi_pos
    positivity
  have hEr : 0 < p1.E*p2.m/(p1.m + p2.m) := lt_of_lt_of_le (by positivity) hE
  have hE0 : 0 < p1.E := by
    by_contra hc
    push Not at hc
    have : p1.E*p2.m/(p1.m + p2.m) ≤ 0 := by
      apply div_nonpos_of_nonpos_of_nonneg _ (by positivity)
      exact mul_nonpos_of_nonpos_of_nonneg hc hm2.le
    linarith
  obtain ⟨x, hx⟩ := (C92_newton_succeeds V hV p1.Z p2.Z p1.m p2.m p1.E g.impact_parameter hA hB hm1 hm2
    1e-6 le_rfl 100).1 hp hE le_rfl
  refine ⟨x, ?_, ?_⟩
  · rw [C21_distance_of_closest_approach rcpr p1 p2 g o row V hV hrow hcell hE0.le hm1 hm2, hx]
    rfl
  · have hx0 : 0 < x := by
      obtain ⟨_, _, _, _, _, _, _, _, hx0, _⟩ := C21_newton_accuracy V hV p1.Z p2.Z p1.m p2.m
        p1.E g.impact_parameter 1e-6 x 100 hA hB hm1 hm2 hE0 hp hx
      exact hx0
    exact ⟨hx0, fun r hr ht => C92_accuracy V hV p1.Z p2.Z p1.m p2.m p1.E g.impact_parameter hA hB hm1 hm2
      hE0 hp 100 1e-6 x le_rfl hx U hU r hr ht⟩

end RustBCA
