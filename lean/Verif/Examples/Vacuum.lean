import Verif.Props.Vacuum
import Verif.Props.Lib

/-! # C88: targets built by the program meet the hypotheses; a call of `simple_bca` that never
returns -/

set_option linter.unusedSimpArgs false
set_option linter.unusedVariables false

namespace RustBCA
open Scalar Spec

/-- The target that `Material::<Mesh0D>::new` makes of positive densities and complete tables is
uniform, and its barrier is thicker than the interatomic spacing. -/
theorem uniform_of_mesh0d {ext : Ext ℝ} {Z m Ec Es Eb n : List ℝ} {k : Nat} {idx : List Nat}
    {model : SurfaceBindingModel} {unit : String} {u : ℝ} {mat : Material ℝ} {mesh : Mesh0D ℝ}
    (hu : length_unit_of ext unit = .ok u) (hu0 : 0 < u) (hn : ∀ a ∈ n, 0 < a) (hne : n ≠ [])
    (hZ : n.length ≤ Z.length) (hm : n.length ≤ m.length) (hEc : n.length ≤ Ec.length)
    (hEs : n.length ≤ Es.length) (hk : n.length ≤ k) (hidx : n.length ≤ idx.length)
    (h : mesh0d_material ext (compound_parameters Z m Ec Es Eb k idx model) unit n =
      .ok (mat, mesh)) :
    UniformTarget mat mesh ((n.sum/u^3)^(-(1/3) : ℝ)) ∧
      (n.sum/u^3)^(-(1/3) : ℝ) ≤ mesh.energy_barrier_thickness ∧
      mesh.energy_barrier_thickness = (n.sum/u^3)^(-(1/3) : ℝ)/Real.sqrt Real.pi*2 := by
  have hsum0 : 0 < n.sum := by
    cases n with
    | nil => exact absurd rfl hne
    | cons a l =>
      rw [List.sum_cons]
      have := hn a (by simp)
      have := List.sum_nonneg (l := l) (fun x hx => (hn x (by simp [hx])).le)
      linarith
  have hp3 : powi u 3 = u^3 := by
    rw [powi_real, show (3:ℤ) = ((3:ℕ):ℤ) from rfl, zpow_natCast]
  obtain ⟨N, hN⟩ : ∃ N, N = n.sum/u^3 := ⟨_, rfl⟩
  have hN0 : 0 < N := by rw [hN]; positivity
  have hsum : (n.map (· / powi u 3)).sum = N := by rw [sum_map_div, hp3, hN]
  have h30 : (-1.0/3.0 : ℝ) = -(1/3) := by norm_num
  have h2 : (2.0 : ℝ) = 2 := by norm_num
  have hpi : 0 < Real.sqrt Real.pi := Real.sqrt_pos.2 Real.pi_pos
  have hpi2 : Real.sqrt Real.pi < 2 := by
    rw [Real.sqrt_lt' (by norm_num)]
    have := Real.pi_lt_d2
    linarith
  simp only [mesh0d_material, Mesh0D.new, hu, Material.new, compound_parameters, energy_unit_of,
    mass_unit_of, bind, Except.bind, pure, Except.pure, Except.ok.injEq, Prod.mk.injEq] at h
  obtain ⟨h1, h3⟩ := h
  subst h1 h3
  have hs : 0 < N^(-(1/3) : ℝ) := Real.rpow_pos_of_pos hN0 _
  have hbt : barrier_thickness (fsum (convert_densities u n))
      = N^(-(1/3) : ℝ)/Real.sqrt Real.pi*2 := by
    rw [barrier_thickness, SQRTPI_real, powf_real, h30, h2, convert_densities, fsum_real, hsum]
  have hle : N^(-(1/3) : ℝ) ≤ N^(-(1/3) : ℝ)/Real.sqrt Real.pi*2 := by
    rw [div_mul_eq_mul_div, le_div_iff₀ hpi]
    exact mul_le_mul_of_nonneg_left hpi2.le hs.le
  rw [← hN]
  refine ⟨⟨rfl, ?_, ⟨?_, ?_, ?_, ?_, ?_, ?_⟩, hs, ?_, ?_⟩, ?_, hbt⟩
  · simp only [concentrations_of, convert_densities, fsum_real, hsum]
    refine ⟨?_, by rw [sum_map_div, hsum]; exact div_self hN0.ne'⟩
    intro c hc
    obtain ⟨d, hd, rfl⟩ := List.mem_map.mp hc
    obtain ⟨e, he, rfl⟩ := List.mem_map.mp hd
    have := hn e he
    rw [hp3]
    positivity
  all_goals first
    | (simp only [concentrations_of, convert_densities, List.length_map, List.length_replicate]
       assumption)
    | skip
  · simp only [convert_densities]
    rw [hsum, ← Real.rpow_natCast, ← Real.rpow_mul hN0.le]
    norm_num
    rw [Real.rpow_neg_one]
    exact inv_mul_cancel₀ hN0.ne'
  · rw [hbt]; positivity
  · show _ ≤ barrier_thickness (fsum (convert_densities u n))
    rw [hbt]; exact hle

/-- **C88 refuted** for a library call: `simple_bca` with an ion that starts in front of the barrier
(at a distance of `c` barrier thicknesses, `1 ≤ c < 10`) parallel to the surface never returns,
for any target, energies, scattering data and random numbers. -/
theorem C88_refuted_simple_bca (rcpr : Rcpr ℝ) (fuel : Nat) (ext : Ext ℝ)
    (x y z uy uz E1 Z1 m1 Ec1 Es1 Z2 m2 Ec2 Es2 n2 Eb2 c : ℝ) (t : Tape ℝ) (hu : Unit01 t)
    (hE : 0 < E1) (hE1 : 0 < Ec1) (hE2 : 0 < Ec2) (hn : 0 < n2) (hc : 1 ≤ c) (hc10 : c < 10)
    (hx : x = -c*((n2/(ANGSTROM ℝ)^3)^(-(1/3) : ℝ)/Real.sqrt Real.pi*2)) :
    simple_bca rcpr fuel ext x y z 0 uy uz E1 Z1 m1 Ec1 Es1 Z2 m2 Ec2 Es2 n2 Eb2 t
      = .error .fuel := by
  obtain ⟨mat, mesh, hmat⟩ := mesh0d_material_total ext [Z2] [m2] [Ec2] [Es2] [Eb2] [n2] 1 [0]
    .AVERAGE (unit := "ANGSTROM") (u := ANGSTROM ℝ) rfl
  obtain ⟨hU, -, hb⟩ := uniform_of_mesh0d (u := ANGSTROM ℝ) rfl ANGSTROM_pos
    (by simpa using hn) (by simp) (by simp) (by simp) (by simp) (by simp) (by simp) (by simp) hmat
  rw [List.sum_singleton] at hb hU
  rw [← hb] at hx
  have ht := hU.thickness
  have e0 : (0.0 : ℝ) = 0 := by norm_num
  have hrun := C88_refuted_parallel (rcpr := rcpr) (o := Options.default_options true) hU rfl rfl
    (ion_literal (m1*AMU ℝ) Z1 (E1*EV ℝ) (Ec1*EV ℝ) (Es1*EV ℝ) x y z 0 uy uz 1.0 0
      ⟨0.0, 0.0, 0.0⟩) t
    ⟨rfl, rfl, by show x ≤ _; rw [hx]; nlinarith, by show _ < x; rw [hx]; nlinarith⟩ rfl rfl
    hu fuel
  unfold simple_bca
  simp only [rassert, e0, (lt_real _ _).2 hE, (lt_real _ _).2 hE1, (lt_real _ _).2 hE2, if_true,
    bind, StateT.bind, Except.bind, liftM, monadLift, MonadLift.monadLift, StateT.lift, pure,
    Except.pure, hmat]
  simp only [e0] at hrun
  rw [hrun]

/-- The hypotheses of `C88_outward_run` and `C88_inward` are met: a target of density 1 and ions that
start at three barrier thicknesses, away from and towards it. -/
example (rcpr : Rcpr ℝ) (ext : Ext ℝ) (t : Tape ℝ) (hu : Unit01 t) (ux : ℝ) (h1 : -1 ≤ ux)
    (h2 : ux ≤ 1) : ∃ (mat : Material ℝ) (mesh : Mesh0D ℝ) (p : Particle ℝ), p.dir = ⟨ux, 0, 0⟩ ∧
      (ux < 0 → ∃ fuel q t', single_ion_bca rcpr fuel p mat (Options.default_options true) t
        = .ok ([q], t') ∧ q.left = true ∧ q.E = p.E) ∧
      (0 < ux → ∃ k q t', QuietPasses rcpr mat (Options.default_options true) k p t q t' ∧
        -mesh.energy_barrier_thickness < q.pos.x) := by
  obtain ⟨mat, mesh, hmat⟩ := mesh0d_material_total ext [1] [1] [1] [1] [1] [1] 1 [0]
    .AVERAGE (unit := "M") (u := (1.0:ℝ)) rfl
  obtain ⟨hU, hle, hb⟩ := uniform_of_mesh0d (u := (1.0:ℝ)) rfl (by norm_num)
    (by simp) (by simp) (by simp) (by simp) (by simp) (by simp) (by simp) (by simp) hmat
  have ht := hU.thickness
  have e0 : (0.0 : ℝ) = 0 := by norm_num
  have hp : InFront mesh (ion_literal 1 1 1 1 1 (-3*mesh.energy_barrier_thickness) 0 0 ux 0 0 1.0 0
      ⟨0, 0, 0⟩) := by
    refine ⟨rfl, rfl, ?_, ?_⟩
    · show -3*mesh.energy_barrier_thickness ≤ _
      linarith
    · show _ < -3*mesh.energy_barrier_thickness
      linarith
  refine ⟨mat, mesh, ion_literal 1 1 1 1 1 (-3*mesh.energy_barrier_thickness) 0 0 ux 0 0 1.0 0
      ⟨0, 0, 0⟩, rfl, fun hux => ?_, fun hux => ?_⟩
  · obtain ⟨fuel, q, t', h1, h2, h3, h4, _⟩ := C88_outward_run (rcpr := rcpr)
      (o := Options.default_options true) hU rfl rfl _ t hp (ge_of_eq e0) hux.le hux hu
    exact ⟨fuel, q, t', h1, h2, h4⟩
  · have hpos : 0 < ([1].sum/(1.0:ℝ)^3)^(-(1/3) : ℝ)*ux := mul_pos hU.spacing_pos hux
    obtain ⟨n, hn⟩ := exists_nat_gt ((-mesh.energy_barrier_thickness
      - (-3*mesh.energy_barrier_thickness))/(([1].sum/(1.0:ℝ)^3)^(-(1/3) : ℝ)*ux))
    obtain ⟨k, q, t', _, h3, h4, _⟩ := C88_inward (rcpr := rcpr)
      (o := Options.default_options true) hU hle rfl rfl n _ t hp e0 hux.le h2 hux h2
      ((div_lt_iff₀ hpos).mp hn) hu
    exact ⟨k, q, t', h3, h4⟩

end RustBCA
