import Verif.Props.SpecialRefuted

/-!
# C92 and C93 at work

Two atoms of charge and mass 1 with the ZBL potential.
-/

namespace RustBCA
open Scalar Spec XReal

namespace SpecialExample

/-- The unit of energy of two hydrogen atoms, about 61 eV. -/
noncomputable def unit : ℝ := coulombConstant 1 1/screening_length 1 1 (.ZBL : InteractionPotential ℝ)

theorem unit_pos : 0 < unit := by
  have := screening_length_pos (.ZBL : InteractionPotential ℝ) .zbl (Za := 1) (Zb := 1) one_pos one_pos
  have hk0 : 0 < coulombConstant 1 1 := by
    unfold coulombConstant
    have := Real.pi_pos
    positivity
  unfold unit
  positivity

/-- An atom at rest at the origin, or with energy `E`. -/
def atom {F : Type} (zero one E : F) : Particle F where
  m := one
  Z := one
  E := E
  Ec := zero
  Es := zero
  Ed := zero
  pos := ⟨zero, zero, zero⟩
  dir := ⟨one, zero, zero⟩
  pos_old := ⟨zero, zero, zero⟩
  dir_old := ⟨one, zero, zero⟩
  pos_origin := ⟨zero, zero, zero⟩
  energy_origin := E
  asymptotic_deflection := zero
  stopped := false
  left := false
  incident := true
  first_step := true
  trajectory := []
  energies := []
  track_trajectories := false
  number_collision_events := 0
  backreflected := false
  interaction_index := 0
  weight := one
  tag := 0
  tracked_vector := ⟨zero, zero, zero⟩

def options {F : Type} [Scalar F] (si : ScatteringIntegral) : Options F :=
  { Options.default_options true with
    interaction_potential := [[.ZBL]]
    scattering_integral := [[si]] }

noncomputable def geometry (p : ℝ) : BinaryCollisionGeometry XReal where
  phi_azimuthal := fin 0
  impact_parameter := fin p
  mfp := fin 1

/-- The collision with energy `E` and impact parameter `p`. -/
theorem encounter (si : ScatteringIntegral) (E p : ℝ) :
    Encounter fin (InteractionPotential.lift .ZBL) si 1 1 1 1 E p (atom (fin 0) (fin 1) (fin E))
      (atom (fin 0) (fin 1) (fin 0)) (geometry p) (options si) where
  Z1_eq := rfl
  Z2_eq := rfl
  m1_eq := rfl
  m2_eq := rfl
  E_eq := rfl
  p_eq := rfl
  potential := ⟨_, rfl, rfl⟩
  integral := ⟨_, rfl, rfl⟩

end SpecialExample

open SpecialExample

/-- C92: a collision at the unit of energy. -/
example : ∃ x, newton_rootfinder 1 1 1 1 (2*unit) 1e-11 (.ZBL : InteractionPotential ℝ) 100 1e-6 = .ok (.ok x) :=
  (C92_newton_succeeds .ZBL .zbl 1 1 1 1 (2*unit) 1e-11 one_pos one_pos one_pos one_pos 1e-6 le_rfl 100).1
    (by norm_num) (by
      have := unit_pos
      show 1e-25*unit ≤ 2*unit*1/(1 + 1)
      linarith) le_rfl

/-- C93: all four scattering integrals at the unit of energy. -/
example (rcpr : Rcpr XReal) (si : ScatteringIntegral) (hsi : si ∈ [ScatteringIntegral.MENDENHALL_WELLER,
    .GAUSS_LEGENDRE, .GAUSS_MEHLER 10, .MAGIC]) :
    ∃ theta psi psi' T d x : ℝ, calculate_binary_collision rcpr (atom (fin 0) (fin 1) (fin (2*unit)))
      (atom (fin 0) (fin 1) (fin 0)) (geometry 1e-11) (options si) = .ok (.ok
        { theta := fin theta
          psi := fin psi
          psi_recoil := fin psi'
          recoil_energy := fin T
          asymptotic_deflection := fin d
          normalized_distance_of_closest_approach := fin x }) ∧ T ≤ 2*unit := by
  have hu := unit_pos
  obtain ⟨theta, psi, psi', T, d, x, h, _, _, _, _, _, _, _, hT, _⟩ := C93_collision_partial rcpr _ _ _ _ .ZBL .zbl si
    1 1 1 1 (2*unit) 1e-11 (encounter si _ _) one_pos one_pos one_pos one_pos (by norm_num) (by
      show 1e-25*unit ≤ 2*unit*1/(1 + 1)
      linarith) (by
      simp only [List.mem_cons, List.not_mem_nil, or_false] at hsi
      rcases hsi with rfl | rfl | rfl | rfl
      · exact Or.inl rfl
      · exact Or.inr (Or.inl rfl)
      · exact Or.inr (Or.inr (Or.inl ⟨10, by norm_num, rfl⟩))
      · refine Or.inr (Or.inr (Or.inr ⟨rfl, by simp, ?_⟩))
        show 2*unit*1/(1 + 1) ≤ 5*unit
        linarith)
  exact ⟨theta, psi, psi', T, d, x, h, by norm_num at hT; exact hT⟩

/-- C93: the same collision, head on. -/
example (rcpr : Rcpr XReal) : calculate_binary_collision rcpr (atom (fin 0) (fin 1) (fin (2*unit)))
    (atom (fin 0) (fin 1) (fin 0)) (geometry 0) (options .MENDENHALL_WELLER)
      = .error (.panic "Numerical error: exceeded maximum number of Newton-Raphson iterations") :=
  C93_refuted_head_on rcpr _ _ _ _ .ZBL .zbl _ 1 1 1 1 _ (encounter _ _ _) one_pos one_pos one_pos one_pos
    (by have := unit_pos; linarith) (by
      have := unit_pos
      show 2*unit*1/(1 + 1) ≤ 5*unit
      linarith)

/-- C93: the same collision, with many Gauss-Mehler points. -/
example (rcpr : Rcpr XReal) : ∃ N : ℕ, ∀ n, N ≤ n → calculate_binary_collision rcpr
    (atom (fin 0) (fin 1) (fin (2*unit))) (atom (fin 0) (fin 1) (fin 0)) (geometry 1e-11) (options (.GAUSS_MEHLER n))
      = .error (.panic "Numerical error: Gauss-Mehler scattering integrand complex.") := by
  have hu := unit_pos
  obtain ⟨N, hN⟩ := C93_refuted_gauss_mehler .ZBL .zbl 1 1 1 1 (2*unit) 1e-11 one_pos one_pos one_pos one_pos
    (by norm_num) (by
      show 1e-25*unit ≤ 2*unit*1/(1 + 1)
      linarith) (Or.inl (by simp))
  exact ⟨N, fun n hn => hN n hn rcpr _ _ _ _ (encounter _ _ _)⟩

/-- C93: 2000 units of energy, MAGIC. -/
example (rcpr : Rcpr XReal) : ∃ p, 0 < p ∧ calculate_binary_collision rcpr
    (atom (fin 0) (fin 1) (fin (2000*unit))) (atom (fin 0) (fin 1) (fin 0)) (geometry p) (options .MAGIC)
      = .ok (.error "Numerical error: CoM deflection angle is NaN.") := by
  have hu := unit_pos
  obtain ⟨B, hB⟩ := C93_refuted_magic .ZBL .zbl (by simp) 1 1 1 1 (2000*unit) one_pos one_pos one_pos one_pos (by
    show 1000*unit ≤ 2000*unit*1/(1 + 1)
    linarith)
  exact ⟨max B 1, lt_max_of_lt_right one_pos, hB _ (le_max_left _ _) rcpr _ _ _ _ (encounter _ _ _)⟩

end RustBCA
