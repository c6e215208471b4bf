import Verif.Props.Main
import Verif.Examples.Lib
import Verif.Examples.Input
import Verif.Examples.Run

/-!
# A run of the program that succeeds

Non-vacuity of C78: `RustBCA 0D target.toml` with two ions that start beyond the simulation
boundary of a one-species target.
-/

set_option linter.unusedSimpArgs false
set_option linter.unusedVariables false

namespace RustBCA.MainExample
open Scalar Spec LibExample

/-- Two ions of one species, 100 Å outside the target. -/
noncomputable def pp : ParticleParameters ℝ where
  length_unit := "ANGSTROM"
  energy_unit := "EV"
  mass_unit := "AMU"
  N := [2]
  m := [4]
  Z := [2]
  E := [.POINT 1000]
  Ec := [1]
  Es := [0]
  pos := [(.POINT (-100), .POINT 0, .POINT 0)]
  dir := [(.POINT 0.6, .POINT 0.8, .POINT 0)]
  interaction_index := [0]

noncomputable def mp : MaterialParameters ℝ :=
  compound_parameters [1] [1] [1] [1] [1] 1 [0] .AVERAGE

noncomputable def record : InputRecord ℝ (Mesh0DInput ℝ) where
  options := Options.default_options true
  material_parameters := mp
  particle_parameters := pp
  geometry_input := ⟨"ANGSTROM", [1], 1.0⟩

noncomputable def files : Files ℝ where
  mesh0D := fun f => if f = "target.toml" then some record else none
  mesh1D := fun _ => none
  mesh2D := fun _ => none
  homogeneous2D := fun _ => none
  sphere := fun _ => none
  ball := fun _ => none
  trimesh := fun _ => none

/-- A world in which that is the only file. -/
noncomputable def world (rcpr : Rcpr ℝ) (parry : Parry ℝ) : World ℝ where
  ext := InputExample.ext
  parry := parry
  sampler := InputExample.sampler
  files := files
  parry3d := false
  rcpr := rcpr
  fuel := 2
  splits := []
  tape := zeros
  tapes := fun _ => zeros
  grid := none
  list_output := true
  fmt := fun _ => "1"

noncomputable def one : ParticleInput ℝ :=
  ⟨4*AMU ℝ, 2, 1000*EV ℝ, 1*EV ℝ, 0*EV ℝ, (-100)*ANGSTROM ℝ, 0*ANGSTROM ℝ, 0*ANGSTROM ℝ,
      0.6*ANGSTROM ℝ, 0.8*ANGSTROM ℝ, 0*ANGSTROM ℝ, 0, 1.0, 0⟩

theorem point_six : ((0.6:ℝ) ==. 1.0) = false := by rw [eq_real_false]; norm_num

theorem far (ext : Ext ℝ) {mat : Material ℝ} {mesh : Mesh0D ℝ}
    (hm : mesh0d_material ext mp "ANGSTROM" [1] = .ok (mat, mesh)) :
    mesh.energy_barrier_thickness < 1/10^9 := by
  have hb := (mesh0d_material_ok (u := ANGSTROM ℝ) rfl hm).2.2.2
  rw [hb, barrier_thickness, SQRTPI_real]
  simp only [List.map_cons, List.map_nil, fsum, List.foldl_cons, List.foldl_nil]
  rw [powi_real, show (3:ℤ) = ((3:ℕ):ℤ) from rfl, zpow_natCast, powf_real, ANGSTROM]
  have e : (0.0 + 1/(1e-10:ℝ)^3) = (10:ℝ)^(30:ℝ) := by norm_num
  rw [e, ← Real.rpow_mul (by norm_num)]
  have e2 : (30 * (-1.0/3.0) : ℝ) = -10 := by norm_num
  rw [e2, Real.rpow_neg (by norm_num)]
  have hpi : 1 < Real.sqrt Real.pi := by
    rw [Real.lt_sqrt (by norm_num)]
    have := Real.pi_gt_three
    linarith
  rw [div_mul_eq_mul_div, div_lt_iff₀ (by linarith)]
  norm_num
  linarith

/-- The ion of the example, by itself. -/
theorem ion_ok (rcpr : Rcpr ℝ) : ∃ mat mesh,
    mesh0d_material InputExample.ext (compound_parameters [1] [1] [1] [1] [1] (0+1) [0] .AVERAGE) "ANGSTROM" [1] =
      .ok (mat, mesh) ∧
    ∃ out, run_ion rcpr 2 mat (Options.default_options true) one zeros = .ok out := by
  obtain ⟨mat, mesh, sp, hm, g1, g2, g3, g4, g5, g6, g7, g8, g9⟩ := target_facts InputExample.ext
    1 1 1 1 1 1 (ANGSTROM ℝ) 0 "ANGSTROM" .AVERAGE rfl (by unfold ANGSTROM; norm_num) one_pos
  have hfar := far InputExample.ext hm
  refine ⟨mat, mesh, hm, ?_⟩
  have hA : (0:ℝ) < ANGSTROM ℝ := by unfold ANGSTROM; norm_num
  have hs : Scalar.sqrt (0.6*ANGSTROM ℝ*(0.6*ANGSTROM ℝ) + 0.8*ANGSTROM ℝ*(0.8*ANGSTROM ℝ) +
      0*ANGSTROM ℝ*(0*ANGSTROM ℝ)) = ANGSTROM ℝ := by
    show Real.sqrt _ = _
    rw [show 0.6*ANGSTROM ℝ*(0.6*ANGSTROM ℝ) + 0.8*ANGSTROM ℝ*(0.8*ANGSTROM ℝ) +
      0*ANGSTROM ℝ*(0*ANGSTROM ℝ) = (ANGSTROM ℝ)^2 by
        generalize ANGSTROM ℝ = a
        rw [show (0.6:ℝ) = 3/5 by norm_num, show (0.8:ℝ) = 4/5 by norm_num]; ring]
    exact Real.sqrt_sq hA.le
  have h1 : (Scalar.abs ((0.6*ANGSTROM ℝ)/ANGSTROM ℝ) <. 1.0 - epsilon) = true := by
    rw [mul_div_assoc, div_self hA.ne', lt_real, abs_real, epsilon_real]
    norm_num [abs_of_pos]
  have h2 : ((1000*EV ℝ) >. 0.0) = true := by rw [lt_real]; unfold EV Q; norm_num
  obtain ⟨p, hp, e1, e2, e3, e4, e5, e6, e7⟩ : ∃ p,
      Particle.from_input one (Options.default_options true) = .ok p ∧
      p.first_step = true ∧ p.dir_old = p.dir ∧ p.asymptotic_deflection = 0 ∧
      p.stopped = false ∧ p.left = false ∧ p.pos = ⟨(-100)*ANGSTROM ℝ, 0, 0⟩ ∧
      p.incident = true := by
    unfold Particle.from_input
    simp only [one, hs, h1, h2, rassert, if_true, bind, Except.bind, pure, Except.pure]
    refine ⟨_, rfl, rfl, rfl, by norm_num, rfl, rfl, ?_, rfl⟩
    simp
  have hx : p.pos.x = -1/10^8 := by
    rw [e6]; unfold ANGSTROM; norm_num
  obtain ⟨q, hq, -⟩ := one_pass rcpr p mat true zeros _ 1 sp p.pos false false e1 e2 e3
    ⟨_, g6 _ _ _⟩ e4 e5 g1 g2 g3 (by simp [zeros]) g4 rfl
    (by simp [zeros])
    (by rw [g5, hx]; norm_num)
    (by
      rw [g7, hx]
      simp only [Except.ok.injEq, decide_eq_false_iff_not, not_lt]
      linarith)
    (by
      rw [g6, hx]
      simp only [Except.ok.injEq, decide_eq_false_iff_not, not_lt]
      linarith)
    (.inl rfl)
  refine ⟨[q], ?_⟩
  simp only [run_ion, hp, bind, Except.bind, hq, pure, Except.pure]

theorem run (rcpr : Rcpr ℝ) (parry : Parry ℝ) :
    ∃ s, main (world rcpr parry) ["RustBCA", "0D", "target.toml"] = .ok s := by
  obtain ⟨mat, mesh, hm, hion⟩ := ion_ok rcpr
  have hmat : Material.new InputExample.ext mp
      (Mesh0D.toGeom <$> Mesh0D.new InputExample.ext record.geometry_input) = .ok mat := by
    have h := hm
    unfold mesh0d_material at h
    cases hn : Mesh0D.new InputExample.ext (⟨"ANGSTROM", [1], 1.0⟩ : Mesh0DInput ℝ) with
    | error e => rw [hn] at h; simp [bind, Except.bind] at h
    | ok m =>
      rw [hn] at h
      simp only [bind, Except.bind, pure, Except.pure] at h
      rw [show record.geometry_input = ⟨"ANGSTROM", [1], 1.0⟩ from rfl, hn]
      simp only [Functor.map, Except.map]
      cases hq : Material.new InputExample.ext
          (compound_parameters [1] [1] [1] [1] [1] (0+1) [0] .AVERAGE : MaterialParameters ℝ)
          (.ok m.toGeom) with
      | error e => rw [hq] at h; cases h
      | ok q =>
        rw [hq] at h
        rw [← (Prod.mk.inj (Except.ok.inj h)).1]
        exact hq
  have hcomp : complete_material mat = .ok mat := by
    have h := hm
    simp only [mesh0d_material, Mesh0D.new, Material.new, compound_parameters, energy_unit_of,
      mass_unit_of, length_unit_of, bind, Except.bind, pure, Except.pure, Except.ok.injEq,
      Prod.mk.injEq] at h
    rw [← h.1]
    rfl
  have hidx : max_unwrap mat.interaction_index = .ok 0 := by
    have h := hm
    simp only [mesh0d_material, Mesh0D.new, Material.new, compound_parameters, energy_unit_of,
      mass_unit_of, length_unit_of, bind, Except.bind, pure, Except.pure, Except.ok.injEq,
      Prod.mk.injEq] at h
    rw [← h.1]
    rfl
  have hin : input InputExample.ext InputExample.sampler rcpr.enabled (Options.default_options true)
      (.ok mat) pp zeros = .ok (⟨[one, one], mat, Options.default_options true,
        ⟨ANGSTROM ℝ, EV ℝ, AMU ℝ⟩⟩, zeros) := by
    refine InputExample.input_ok_of (p' := pp) (mi := 0) (pi := 0) Nat.one_pos Nat.one_pos hcomp
      rfl rfl ?_ rfl hidx Nat.one_pos rfl Nat.one_pos rfl rfl rfl rfl ?_
    · cases rcpr.enabled <;> rfl
    · simp only [make_particle_inputs, pp, forFold, List.length_cons, List.length_nil,
        List.range, List.range.loop, vget, List.getElem?_cons_zero, List.getElem?_cons_succ,
        bind, StateT.bind, liftM, monadLift, MonadLift.monadLift, StateT.lift, Except.bind,
        pure, Except.pure, StateT.pure, collectN, make_particle_input, draw, draw_ux, point_six,
        rassert, one, Bool.not_false, if_true, List.nil_append, List.append_nil,
        List.cons_append]
  have hloop : ∃ s, physics_loop_run rcpr 2 ⟨none, true, ⟨ANGSTROM ℝ, EV ℝ, AMU ℝ⟩, fun _ => "1"⟩
      mat (Options.default_options true) [] (fun _ => zeros) [one, one] = .ok s := by
    refine (C65_fails_only_in_physics (by simp) _ [] _).2 ⟨Nat.one_pos, ?_, ?_⟩
    · simp [Options.default_options]
    · intro a ha
      obtain ⟨out, ho⟩ := hion
      simp only [List.zipIdx_cons, List.zipIdx_nil, List.mem_cons, List.not_mem_nil, or_false] at ha
      rcases ha with rfl | rfl <;> exact ⟨out, ho⟩
  obtain ⟨s, hs⟩ := hloop
  refine ⟨s, (C78_main_runs_what_was_asked _ _ _).2 ⟨record.options, mp, pp,
    Mesh0D.toGeom <$> Mesh0D.new InputExample.ext record.geometry_input,
    ⟨[one, one], mat, Options.default_options true, ⟨ANGSTROM ℝ, EV ℝ, AMU ℝ⟩⟩,
    AsksFor.mesh0D "RustBCA" "target.toml" record rfl, ⟨⟨zeros, ?_⟩, hs⟩⟩⟩
  show RustBCA.input InputExample.ext InputExample.sampler rcpr.enabled
    (Options.default_options true) (Material.new InputExample.ext mp
      (Mesh0D.toGeom <$> Mesh0D.new InputExample.ext record.geometry_input)) pp zeros = _
  rw [hmat]
  exact hin

/-- C78 on this run: both ions are reported. -/
example (rcpr : Rcpr ℝ) (parry : Parry ℝ) : ∃ s units refl sput dep,
    main (world rcpr parry) ["RustBCA", "0D", "target.toml"] = .ok s ∧
    columnSums (s.summary.rows units) = (refl, sput, dep) ∧ refl + dep = 2 ∧
    (linesOf .reflected s.ops).length = refl := by
  obtain ⟨s, hs⟩ := run rcpr parry
  obtain ⟨o, m, p, g, ha, units, refl, sput, dep, h1, -, -, -, h2, h3⟩ :=
    C78_every_requested_ion_reported hs
  refine ⟨s, units, refl, sput, dep, hs, h1, ?_, (h3 rfl).1⟩
  rw [h2]
  generalize hargs : ["RustBCA", "0D", "target.toml"] = args at ha
  cases ha with
  | mesh0D prog f r h =>
    simp only [List.cons.injEq, true_and, and_true] at hargs
    obtain ⟨-, rfl⟩ := hargs
    obtain rfl := Option.some.inj (show some record = some r from h)
    rfl
  | _ => simp at hargs

end RustBCA.MainExample
