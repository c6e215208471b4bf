import Verif.Props.Units
import Verif.Props.Meshes
import Verif.Examples.Main

/-!
# The same run in Ångström, eV and amu and in nm, keV and kg

Non-vacuity of C104.
-/

set_option linter.unusedSimpArgs false
set_option linter.unusedVariables false

namespace RustBCA.UnitsExample
open Scalar Spec

/-- Samplers of the form `rand_distr` uses (with a uniform number in place of the standard normal
one). -/
noncomputable def sampler : Sampler ℝ where
  normal mean std := do
    let r ← random
    pure (mean + std*r)
  uniform min max := do
    let r ← random
    pure (min + (max - min)*r)

theorem scale_free : ScaleFree sampler := by
  constructor
  · intro c mean std t _
    simp only [sampler, random, bind, StateT.bind, Except.bind, pure, StateT.pure, Except.pure,
      Except.map]
    congr 2; ring
  · intro c mean std t _
    simp only [sampler, random, bind, StateT.bind, Except.bind, pure, StateT.pure, Except.pure,
      Except.map]
    congr 2; ring

/-- The ions of `MainExample.pp` in nm, keV and kg. -/
noncomputable def pp : ParticleParameters ℝ where
  length_unit := "NM"
  energy_unit := "KEV"
  mass_unit := "KG"
  N := [2]
  m := [4*AMU ℝ]
  Z := [2]
  E := [.POINT 1]
  Ec := [1/1000]
  Es := [0]
  pos := [(.POINT (-10), .POINT 0, .POINT 0)]
  dir := [(.POINT 0.6, .POINT 0.8, .POINT 0)]
  interaction_index := [0]

/-- Its material in keV and kg. -/
noncomputable def mp : MaterialParameters ℝ :=
  { MainExample.mp with
    energy_unit := "KEV"
    mass_unit := "KG"
    Eb := [1/1000]
    Es := [1/1000]
    Ec := [1/1000]
    Ed := [0]
    m := [AMU ℝ] }

/-- The same input file in the other units: a target of 1000 atoms per nm³. -/
noncomputable def record : InputRecord ℝ (Mesh0DInput ℝ) where
  options := Options.default_options true
  material_parameters := mp
  particle_parameters := pp
  geometry_input := ⟨"NM", [1/(1/10)^3], 1.0⟩

theorem kev : (EV ℝ)*1e3 = 1000*EV ℝ := by
  rw [show (1e3:ℝ) = 1000 by norm_num]; ring

theorem nm : NM ℝ = 10*ANGSTROM ℝ := by unfold NM ANGSTROM; norm_num

theorem one' : (1.0:ℝ) = 1 := by norm_num

theorem same_ions : SameIons InputExample.ext (ANGSTROM ℝ) (EV ℝ) (AMU ℝ) (NM ℝ) (EV ℝ*1e3) 1.0
    MainExample.pp pp where
  units := ⟨rfl, rfl, rfl⟩
  units' := ⟨rfl, rfl, rfl⟩
  N := rfl
  Z := rfl
  m := by
    simp only [SameValues, MainExample.pp, pp, List.map_cons, List.map_nil, one']
    simp
  E := by
    refine .cons ?_ .nil
    show (1000:ℝ)*EV ℝ = 1*(EV ℝ*1e3)
    rw [kev]; ring
  Ec := by
    simp only [SameValues, MainExample.pp, pp, List.map_cons, List.map_nil, kev]
    congr 1; ring
  Es := by
    simp only [SameValues, MainExample.pp, pp, List.map_cons, List.map_nil, zero_mul]
  pos := by
    refine .cons ⟨?_, ?_, ?_⟩ .nil
    · show (-100:ℝ)*ANGSTROM ℝ = (-10)*NM ℝ
      rw [nm]; ring
    · show (0:ℝ)*ANGSTROM ℝ = 0*NM ℝ
      simp
    · show (0:ℝ)*ANGSTROM ℝ = 0*NM ℝ
      simp
  dir := rfl
  interaction_index := rfl

theorem same_parameters : SameParameters InputExample.ext MainExample.mp mp where
  energies := by
    refine ⟨EV ℝ, EV ℝ*1e3, rfl, rfl, ?_, ?_, ?_, ?_⟩ <;>
      simp only [SameValues, MainExample.mp, mp, compound_parameters, List.map_cons, List.map_nil, kev,
        List.replicate]
    · congr 1; ring
    · congr 1; ring
    · congr 1; ring
    · congr 1
      rw [show (0.0:ℝ) = 0 by norm_num]; ring
  masses := by
    refine ⟨AMU ℝ, 1.0, rfl, rfl, ?_⟩
    simp only [SameValues, MainExample.mp, mp, compound_parameters, List.map_cons, List.map_nil, one']
    congr 1; ring
  Z := rfl
  interaction_index := rfl
  surface := rfl
  bulk := rfl

theorem same_target : Mesh0D.new InputExample.ext record.geometry_input =
    Mesh0D.new InputExample.ext MainExample.record.geometry_input := by
  refine C41_mesh0D InputExample.ext _ _ (ANGSTROM ℝ) (1/10) (by unfold ANGSTROM; norm_num) (by norm_num)
    rfl ?_ rfl rfl
  show Except.ok (NM ℝ) = Except.ok (ANGSTROM ℝ/(1/10))
  rw [nm]; congr 1; ring

/-- The world of `MainExample` with these samplers. -/
noncomputable def world (rcpr : Rcpr ℝ) (parry : Parry ℝ) : World ℝ :=
  { MainExample.world rcpr parry with sampler := sampler }

theorem no_draws (s s' : Sampler ℝ) (lu eu mu : ℝ) :
    make_particle_inputs s lu eu mu MainExample.pp = make_particle_inputs s' lu eu mu MainExample.pp := by
  funext t
  simp only [make_particle_inputs, MainExample.pp, forFold, List.length_cons, List.length_nil,
    List.range, List.range.loop, vget, List.getElem?_cons_zero, List.getElem?_cons_succ,
    bind, StateT.bind, liftM, monadLift, MonadLift.monadLift, StateT.lift, Except.bind,
    pure, Except.pure, StateT.pure, collectN, make_particle_input, draw, draw_ux,
    MainExample.point_six, rassert, Bool.not_false, if_true, List.nil_append, List.append_nil,
    List.cons_append]

theorem input_no_draws (s s' : Sampler ℝ) (cpr : Bool) (o : Options ℝ) (mat : Res (Material ℝ)) :
    input InputExample.ext s cpr o mat MainExample.pp = input InputExample.ext s' cpr o mat MainExample.pp := by
  have hcp : complete_particles MainExample.pp = .ok MainExample.pp := rfl
  have ok : ∀ {α β : Type} (a : α) (f : α → M ℝ β), (liftM (Except.ok a : Res α) : M ℝ α) >>= f = f a :=
    fun _ _ => rfl
  unfold input
  simp only [hcp, ok, no_draws s s']

/-- C104 for these two files: the run in the first units succeeds (`MainExample.run`), so the one in
the second does too, with the same particles. -/
example (rcpr : Rcpr ℝ) (parry : Parry ℝ) : ∃ s s',
    run_file (world rcpr parry) (some MainExample.record)
      (fun g => Mesh0D.toGeom <$> Mesh0D.new InputExample.ext g) = .ok s ∧
    run_file (world rcpr parry) (some record)
      (fun g => Mesh0D.toGeom <$> Mesh0D.new InputExample.ext g) = .ok s' ∧
    s'.processed = s.processed ∧ s'.summary = s.summary := by
  obtain ⟨he, hp⟩ := C104_units (world rcpr parry) (world rcpr parry) MainExample.record record
    (fun g => Mesh0D.toGeom <$> Mesh0D.new InputExample.ext g)
    (fun g => Mesh0D.toGeom <$> Mesh0D.new InputExample.ext g) (ANGSTROM ℝ) (EV ℝ) (AMU ℝ) (NM ℝ)
    (EV ℝ*1e3) 1.0 rfl scale_free (by unfold ANGSTROM; norm_num) (by unfold EV Q; norm_num)
    (by unfold NM; norm_num) (by unfold EV Q; norm_num) same_ions same_parameters
    (by simp only [same_target]) rfl (.inl ⟨rfl, rfl⟩)
  obtain ⟨s, hs⟩ := MainExample.run rcpr parry
  have hrun : run_file (world rcpr parry) (some MainExample.record)
      (fun g => Mesh0D.toGeom <$> Mesh0D.new InputExample.ext g) = .ok s := by
    rw [← hs]
    show _ = run_file (MainExample.world rcpr parry) (some MainExample.record)
      (fun g => Mesh0D.toGeom <$> Mesh0D.new InputExample.ext g)
    simp only [run_file, world, MainExample.world, MainExample.record, bind, Except.bind, pure, Except.pure,
      input_no_draws sampler InputExample.sampler]
  cases h' : run_file (world rcpr parry) (some record)
      (fun g => Mesh0D.toGeom <$> Mesh0D.new InputExample.ext g) with
  | error e => rw [(he e).2 h'] at hrun; cases hrun
  | ok s' => exact ⟨s, s', hrun, rfl, (hp s s' hrun h').1, (hp s s' hrun h').2.1⟩

/-- The hypotheses of C104_refuted_hdf5 hold for these samplers. -/
example (o : Options ℝ) : ∃ q e, make_particle_input_hdf5 sampler (ANGSTROM ℝ) 1 1 4 2 1 0 (.POINT 1000)
    (.POINT (-1), .POINT 0, .POINT 0) (.POINT (1/2), .UNIFORM (1/2) 1, .POINT 0) 0 (fun _ => 1/2) =
      .ok (q, fun _ => 1/2) ∧ Particle.from_input q o = .error e :=
  (C104_refuted_hdf5 sampler 1 1 4 2 1 0 1000 (-1) 0 0 0 o (by norm_num) (fun _ => 1/2) (fun _ => 1/2) (3/4)
    ⟨by norm_num, by norm_num⟩ (by
      simp only [sampler, random, bind, StateT.bind, Except.bind, pure, StateT.pure, Except.pure]
      norm_num)).2

end RustBCA.UnitsExample
