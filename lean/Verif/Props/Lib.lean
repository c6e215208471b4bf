import Verif.Props.Yields
import Verif.Props.FreePaths
import Mathlib.Analysis.Real.Pi.Bounds

/-!
# C57, C59, C60, C66-C68: the entry points for one ion and for lists of ions
-/

set_option linter.unusedSectionVars false
set_option linter.unusedSimpArgs false
set_option linter.unusedVariables false

namespace RustBCA
open Scalar Spec
variable {F : Type} [Scalar F]

/-! ## Tools -/

theorem m_bind_ok {α β : Type} {m : M F α} {f : α → M F β} {t : Tape F} {r : β × Tape F} :
    (m >>= f) t = .ok r ↔ ∃ a t', m t = .ok (a, t') ∧ f a t' = .ok r := by
  simp only [bind, StateT.bind, Except.bind]
  cases h : m t with
  | error e => simp
  | ok v => obtain ⟨a, t'⟩ := v; simp

theorem m_lift_ok {α : Type} {x : Res α} {t : Tape F} {r : α × Tape F} :
    (liftM x : M F α) t = .ok r ↔ x = .ok r.1 ∧ t = r.2 := by
  obtain ⟨a, t'⟩ := r
  cases x <;> simp [liftM, monadLift, MonadLift.monadLift, StateT.lift, bind, Except.bind, pure,
    Except.pure]

theorem m_pure_ok {α : Type} {x : α} {t : Tape F} {r : α × Tape F} :
    (pure x : M F α) t = .ok r ↔ r = (x, t) := by
  simp only [pure, StateT.pure, Except.pure, Except.ok.injEq]
  exact eq_comm

theorem rassert_ok {b : Bool} {m : String} {u : Unit} : rassert b m = .ok u ↔ b = true := by
  cases b <;> simp [rassert]

/-- A loop that simulates each element and adds what the simulation returned to its state. -/
theorem forFold_collect {α β σ : Type} {sim : α → M F (List β)} {upd : σ → List β → σ}
    {l : List α} {s s' : σ} {t t' : Tape F}
    (h : (forFold (fun s a => sim a >>= fun out => pure (upd s out)) l s : M F σ) t =
      .ok (s', t')) :
    ∃ outs, List.Forall₂ (fun a out => ∃ t t', sim a t = .ok (out, t')) l outs ∧
      s' = outs.foldl upd s := by
  induction l generalizing s t with
  | nil =>
    simp only [forFold, m_pure_ok, Prod.mk.injEq] at h
    exact ⟨[], .nil, h.1⟩
  | cons a l ih =>
    simp only [forFold, m_bind_ok, m_pure_ok, Prod.mk.injEq] at h
    obtain ⟨s1, t1, ⟨out, t2, hsim, rfl, rfl⟩, hrest⟩ := h
    obtain ⟨outs, h1, h2⟩ := ih hrest
    exact ⟨out :: outs, .cons ⟨t, _, hsim⟩ h1, h2⟩

theorem foldl_append_map {α β : Type} (f : α → List β) (l : List α) (s : List β) :
    l.foldl (fun s a => s ++ f a) s = s ++ (l.map f).flatten := by
  induction l generalizing s with
  | nil => simp
  | cons a l ih => simp [ih]

/-- The material the entry points build. -/
theorem mesh0d_material_ok {ext : Ext F} {Z m Ec Es Eb n : List F} {k : Nat} {idx : List Nat}
    {model : SurfaceBindingModel} {unit : String} {u : F} {mat : Material F} {mesh : Mesh0D F}
    (hu : length_unit_of ext unit = .ok u)
    (h : mesh0d_material ext (compound_parameters Z m Ec Es Eb k idx model) unit n =
      .ok (mat, mesh)) :
    HalfSpace mat Z m Ec Es Eb n u model ∧ mat.interaction_index = idx ∧
      mat.geometry = mesh.toGeom ∧
      mesh.energy_barrier_thickness = barrier_thickness (fsum (n.map (· / powi u 3))) := by
  simp only [mesh0d_material, Mesh0D.new, hu, Material.new, compound_parameters, energy_unit_of,
    mass_unit_of, bind, Except.bind, pure, Except.pure, Except.ok.injEq, Prod.mk.injEq] at h
  obtain ⟨h1, h2⟩ := h
  subst h1 h2
  exact ⟨⟨rfl, rfl, rfl, rfl, rfl, fun _ _ _ => rfl, fun _ _ _ => rfl, rfl,
    fun _ _ _ => rfl⟩, rfl, rfl, rfl⟩

/-- And it never refuses. -/
theorem mesh0d_material_total (ext : Ext F) (Z m Ec Es Eb n : List F) (k : Nat) (idx : List Nat)
    (model : SurfaceBindingModel) {unit : String} {u : F}
    (hu : length_unit_of ext unit = .ok u) :
    ∃ mat mesh, mesh0d_material ext (compound_parameters Z m Ec Es Eb k idx model) unit n =
      .ok (mat, mesh) := by
  simp only [mesh0d_material, Mesh0D.new, hu, Material.new, compound_parameters, energy_unit_of,
    mass_unit_of, bind, Except.bind, pure, Except.pure]
  exact ⟨_, _, rfl⟩

theorem ion_literal_fresh (m Z E Ec Es x y z ux uy uz weight : F) (tag : Int) (tv : Vec3 F) :
    FreshIon (ion_literal m Z E Ec Es x y z ux uy uz weight tag tv) m Z E Ec Es ⟨x, y, z⟩
      ⟨ux, uy, uz⟩ :=
  ⟨rfl, rfl, rfl, rfl, rfl, rfl, rfl, rfl, rfl, rfl, rfl, rfl⟩

/-- What of a cascade is reported: the ion, then the recoils that left. -/
theorem reported_of_cascade {rcpr : Rcpr F} {fuel : Nat} {mat : Material F} {options : Options F}
    {ion : Particle F} {out : List (Particle F)} (hi : ion.incident = true)
    (hs : ion.stopped = false) (hl : ion.left = false)
    (h : CascadeOf rcpr fuel mat options ion out) :
    ∃ q recoils, out = q :: recoils ∧ SameParticle ion q ∧
      (∀ r ∈ recoils, r.incident = false) ∧
      out.filter (fun p => p.incident || p.left) = q :: recoils.filter (·.left) ∧
      out.filter reported = q :: recoils.filter (·.left) := by
  obtain ⟨t, t', hr⟩ := h
  obtain ⟨q, rest, rfl, hq, hrest⟩ := C02_ion_first _ _ _ _ _ _ _ _ hs hl hr
  have hqi : q.incident = true := by rw [hq.incident, hi]
  have e : ∀ l : List (Particle F), (∀ r ∈ l, r.incident = false) →
      l.filter (fun p => p.incident || p.left) = l.filter (·.left) ∧
      l.filter reported = l.filter (·.left) := by
    intro l hl
    constructor
    · apply List.filter_congr
      intro p hp; simp [hl p hp]
    · apply List.filter_congr
      intro p hp; simp [reported, hl p hp]
  refine ⟨q, rest, rfl, hq, hrest, ?_, ?_⟩
  · rw [List.filter_cons_of_pos (by simp [hqi]), (e rest hrest).1]
  · rw [List.filter_cons_of_pos (by simp [reported, hqi]), (e rest hrest).2]

/-! ## C59 -/

/-- **C59** `simple_bca` returns one row for the ion and one for each recoil that left the target, in
the order of the cascade, in amu, eV and Angstrom; the cascade is that of the ion described by
the arguments in the half space `x > 0` of the atoms described by the arguments. -/
theorem C59_simple_bca {rcpr : Rcpr F} {fuel : Nat} {ext : Ext F}
    {x y z ux uy uz E1 Z1 m1 Ec1 Es1 Z2 m2 Ec2 Es2 n2 Eb2 : F} {tape tape' : Tape F}
    {rows : List (List F)}
    (h : simple_bca rcpr fuel ext x y z ux uy uz E1 Z1 m1 Ec1 Es1 Z2 m2 Ec2 Es2 n2 Eb2 tape =
      .ok (rows, tape')) :
    ∃ mat ion q recoils,
      HalfSpace mat [Z2] [m2] [Ec2] [Es2] [Eb2] [n2] (ANGSTROM F) .AVERAGE ∧
      FreshIon ion (m1*AMU F) Z1 (E1*EV F) (Ec1*EV F) (Es1*EV F) ⟨x, y, z⟩ ⟨ux, uy, uz⟩ ∧
      CascadeOf rcpr fuel mat (Options.default_options true) ion (q :: recoils) ∧
      SameParticle ion q ∧ (∀ r ∈ recoils, r.incident = false) ∧
      rows = row q (q.E/EV F) q.pos :: (recoils.filter (·.left)).map (fun r => row r (r.E/EV F) r.pos) := by
  simp only [simple_bca, m_bind_ok, m_lift_ok, m_pure_ok] at h
  obtain ⟨_, _, _, _, _, _, _, _, _, ⟨mat, mesh⟩, _, ⟨hm, -⟩, out, t1, hrun, heq⟩ := h
  obtain ⟨hmat, -⟩ := mesh0d_material_ok (u := ANGSTROM F) rfl hm
  have hc : CascadeOf rcpr fuel mat (Options.default_options true) _ out := ⟨_, _, hrun⟩
  obtain ⟨q, recoils, hout, hq, hrec, hf, -⟩ := reported_of_cascade rfl rfl rfl hc
  subst hout
  refine ⟨mat, _, q, recoils, hmat, ion_literal_fresh _ _ _ _ _ _ _ _ _ _ _ _ _ _, hc, hq, hrec, ?_⟩
  have : rows = _ := (Prod.mk.inj heq).1
  rw [this, hf]
  rfl

/-- **C59** `simple_compound_bca` likewise, for a target of several species. -/
theorem C59_simple_compound_bca {rcpr : Rcpr F} {fuel : Nat} {ext : Ext F}
    {x y z ux uy uz E1 Z1 m1 Ec1 Es1 : F} {Z2 m2 Ec2 Es2 n2 Eb2 : List F} {tape tape' : Tape F}
    {rows : List (List F)}
    (h : simple_compound_bca rcpr fuel ext x y z ux uy uz E1 Z1 m1 Ec1 Es1 Z2 m2 Ec2 Es2 n2 Eb2 tape =
      .ok (rows, tape')) :
    ∃ mat ion q recoils,
      HalfSpace mat Z2 m2 Ec2 Es2 Eb2 n2 (ANGSTROM F) .AVERAGE ∧
      FreshIon ion (m1*AMU F) Z1 (E1*EV F) (Ec1*EV F) (Es1*EV F) ⟨x, y, z⟩ ⟨ux, uy, uz⟩ ∧
      CascadeOf rcpr fuel mat (Options.default_options true) ion (q :: recoils) ∧
      SameParticle ion q ∧ (∀ r ∈ recoils, r.incident = false) ∧
      rows = row q (q.E/EV F) q.pos :: (recoils.filter (·.left)).map (fun r => row r (r.E/EV F) r.pos) := by
  simp only [simple_compound_bca, m_bind_ok, m_lift_ok, m_pure_ok] at h
  obtain ⟨_, _, _, _, _, _, ⟨mat, mesh⟩, _, ⟨hm, -⟩, out, t1, hrun, heq⟩ := h
  obtain ⟨hmat, -⟩ := mesh0d_material_ok (u := ANGSTROM F) rfl hm
  have hc : CascadeOf rcpr fuel mat (Options.default_options true) _ out := ⟨_, _, hrun⟩
  obtain ⟨q, recoils, hout, hq, hrec, hf, -⟩ := reported_of_cascade rfl rfl rfl hc
  subst hout
  refine ⟨mat, _, q, recoils, hmat, ion_literal_fresh _ _ _ _ _ _ _ _ _ _ _ _ _ _, hc, hq, hrec, ?_⟩
  have : rows = _ := (Prod.mk.inj heq).1
  rw [this, hf]
  rfl

/-- **C59** For one species the two functions do the same. -/
theorem C59_compound_of_one (rcpr : Rcpr F) (fuel : Nat) (ext : Ext F)
    (x y z ux uy uz E1 Z1 m1 Ec1 Es1 Z2 m2 Ec2 Es2 n2 Eb2 : F) (h : (Ec2 >. 0.0) = true) :
    simple_compound_bca rcpr fuel ext x y z ux uy uz E1 Z1 m1 Ec1 Es1 [Z2] [m2] [Ec2] [Es2] [n2] [Eb2] =
      simple_bca rcpr fuel ext x y z ux uy uz E1 Z1 m1 Ec1 Es1 Z2 m2 Ec2 Es2 n2 Eb2 := by
  funext tape
  simp only [simple_bca, simple_compound_bca, h, rassert, if_true]
  rfl

/-- **C59** `simple_bca` refuses an ion energy or cutoff energies that are not positive. -/
theorem C59_refused (rcpr : Rcpr F) (fuel : Nat) (ext : Ext F)
    (x y z ux uy uz E1 Z1 m1 Ec1 Es1 Z2 m2 Ec2 Es2 n2 Eb2 : F) (tape : Tape F)
    (h : ¬ ((E1 >. 0.0) = true ∧ (Ec1 >. 0.0) = true ∧ (Ec2 >. 0.0) = true)) :
    ∃ msg, simple_bca rcpr fuel ext x y z ux uy uz E1 Z1 m1 Ec1 Es1 Z2 m2 Ec2 Es2 n2 Eb2 tape =
      .error (.panic msg) := by
  simp only [simple_bca, bind, StateT.bind, Except.bind, liftM, monadLift, MonadLift.monadLift,
    StateT.lift, rassert, pure, Except.pure]
  cases h1 : (E1 >. 0.0) with
  | false => exact ⟨_, rfl⟩
  | true =>
    cases h2 : (Ec1 >. 0.0) with
    | false => exact ⟨_, rfl⟩
    | true =>
      cases h3 : (Ec2 >. 0.0) with
      | false => exact ⟨_, rfl⟩
      | true => exact absurd ⟨h1, h2, h3⟩ h

/-- **C59** finding: `simple_compound_bca` gives only the first species an interaction index, so
choosing any other species as collision partner panics. -/
theorem C59_compound_second_species {ext : Ext F} {Z2 m2 Ec2 Es2 n2 Eb2 : List F}
    {mat : Material F} {mesh : Mesh0D F}
    (hm : mesh0d_material ext
      (compound_parameters Z2 m2 Ec2 Es2 Eb2 Z2.length [0] .AVERAGE) "ANGSTROM" n2 = .ok (mat, mesh))
    (i : Nat) (hi : 0 < i) : ∀ s, mat.species i ≠ .ok s := by
  obtain ⟨-, hidx, -⟩ := mesh0d_material_ok (u := ANGSTROM F) rfl hm
  intro s hs
  simp only [Material.species, bind, Except.bind] at hs
  rw [hidx] at hs
  have hv : vget [0] i = .error (.panic "index out of bounds") := by
    unfold vget
    rw [List.getElem?_eq_none (by simp; omega)]
  rw [hv] at hs
  repeat' split at hs
  all_goals simp_all

/-! ## C66: the list functions -/

theorem simple_list_body_eq (rcpr : Rcpr F) (fuel : Nat) (ext : Ext F)
    (x Z1 m1 Ec1 Es1 Z2 m2 Ec2 Es2 n2 Eb2 : F) :
    simple_list_body rcpr fuel ext x Z1 m1 Ec1 Es1 Z2 m2 Ec2 Es2 n2 Eb2 =
      fun s a => (simple_bca rcpr fuel ext x 0.0 0.0 a.2.1 a.2.2.1 a.2.2.2 a.1 Z1 m1 Ec1 Es1
          Z2 m2 Ec2 Es2 n2 Eb2 >>= fun out => pure ((fun s out => s ++ out) s out)) := rfl

/-- **C66** `simple_bca_list_py` is `simple_bca` on each ion, in order, the results joined. -/
theorem C66_simple_list {rcpr : Rcpr F} {fuel : Nat} {ext : Ext F}
    {energies usx usy usz : List F} {Z1 m1 Ec1 Es1 Z2 m2 Ec2 Es2 n2 Eb2 : F}
    {tape tape' : Tape F} {rows : List (List F)}
    (h : simple_bca_list_py rcpr fuel ext energies usx usy usz Z1 m1 Ec1 Es1 Z2 m2 Ec2 Es2 n2 Eb2
      tape = .ok (rows, tape')) :
    usx.length = energies.length ∧ usy.length = energies.length ∧ usz.length = energies.length ∧
    ∃ results, List.Forall₂ (fun (a : F × F × F × F) result => ∃ t t',
        simple_bca rcpr fuel ext (list_start_x n2) 0.0 0.0 a.2.1 a.2.2.1 a.2.2.2 a.1 Z1 m1 Ec1 Es1
          Z2 m2 Ec2 Es2 n2 Eb2 t = .ok (result, t'))
        (energies.zip (usx.zip (usy.zip usz))) results ∧
      rows = results.flatten := by
  simp only [simple_bca_list_py, m_bind_ok, m_lift_ok, rassert_ok, beq_iff_eq] at h
  obtain ⟨_, _, ⟨h1, -⟩, _, _, ⟨h2, -⟩, _, _, ⟨h3, -⟩, hrun⟩ := h
  refine ⟨h1.symm, h2.symm, h3.symm, ?_⟩
  rw [simple_list_body_eq] at hrun
  obtain ⟨outs, ho, hs⟩ := forFold_collect (upd := fun s out => s ++ out) hrun
  refine ⟨outs, ho, ?_⟩
  rw [hs, foldl_append_map (fun a => a)]
  simp

theorem velocity_body_eq (rcpr : Rcpr F) (fuel : Nat) (Z1 m1 Ec1 Es1 x : F) (m : Material F) :
    velocity_body rcpr fuel Z1 m1 Ec1 Es1 x m =
      fun s (velocity : Vec3 F) => (single_ion_bca rcpr fuel
          (ion_literal (m1*AMU F) Z1
            (0.5*m1*AMU F*sqrt (velocity.x*velocity.x + velocity.y*velocity.y + velocity.z*velocity.z)*
              sqrt (velocity.x*velocity.x + velocity.y*velocity.y + velocity.z*velocity.z))
            (Ec1*EV F) (Es1*EV F) x 0.0 0.0
            (velocity.x/sqrt (velocity.x*velocity.x + velocity.y*velocity.y + velocity.z*velocity.z))
            (velocity.y/sqrt (velocity.x*velocity.x + velocity.y*velocity.y + velocity.z*velocity.z))
            (velocity.z/sqrt (velocity.x*velocity.x + velocity.y*velocity.y + velocity.z*velocity.z))
            1.0 0 ⟨0.0, 0.0, 0.0⟩) m (Options.default_options true)
          >>= fun out => pure ((fun s out => s ++ (out.filter reported).map output_row) s out)) := rfl

/-- What each velocity of the C list functions contributes: the ion with that velocity and kinetic
energy, and the recoils of its cascade that left. -/
def VelocityRows (rcpr : Rcpr F) (fuel : Nat) (Z1 m1 Ec1 Es1 x : F) (mat : Material F)
    (v : Vec3 F) (rows : List (List F)) : Prop :=
  ∃ ion q recoils,
    FreshIon ion (m1*AMU F) Z1 (0.5*m1*AMU F*v.magnitude*v.magnitude) (Ec1*EV F) (Es1*EV F)
      ⟨x, 0.0, 0.0⟩ ⟨v.x/v.magnitude, v.y/v.magnitude, v.z/v.magnitude⟩ ∧
    CascadeOf rcpr fuel mat (Options.default_options true) ion (q :: recoils) ∧
    SameParticle ion q ∧ (∀ r ∈ recoils, r.incident = false) ∧
    rows = row q (q.E/EV F) q.pos :: (recoils.filter (·.left)).map (fun r => row r (r.E/EV F) r.pos)

theorem velocity_loop {rcpr : Rcpr F} {fuel : Nat} {Z1 m1 Ec1 Es1 x : F} {mat : Material F}
    {velocities : List (Vec3 F)} {t t' : Tape F} {rows : List (List F)}
    (h : forFold (velocity_body rcpr fuel Z1 m1 Ec1 Es1 x mat) velocities [] t = .ok (rows, t')) :
    ∃ results, List.Forall₂ (VelocityRows rcpr fuel Z1 m1 Ec1 Es1 x mat) velocities results ∧
      rows = results.flatten := by
  rw [velocity_body_eq] at h
  obtain ⟨outs, ho, hs⟩ := forFold_collect
    (upd := fun s (out : List (Particle F)) => s ++ (out.filter reported).map output_row) h
  refine ⟨outs.map fun out => (out.filter reported).map output_row, ?_, ?_⟩
  · rw [List.forall₂_map_right_iff]
    refine ho.imp fun v out ⟨t, t', hr⟩ => ?_
    have hc : CascadeOf rcpr fuel mat (Options.default_options true) _ out := ⟨_, _, hr⟩
    obtain ⟨q, recoils, hout, hq, hrec, -, hf⟩ := reported_of_cascade rfl rfl rfl hc
    subst hout
    refine ⟨_, q, recoils, ion_literal_fresh _ _ _ _ _ _ _ _ _ _ _ _ _ _, hc, hq, hrec, ?_⟩
    rw [hf]; rfl
  · rw [hs, foldl_append_map (fun out : List (Particle F) => (out.filter reported).map output_row)]
    simp

/-- **C66** `simple_bca_list_c`: for each velocity, in order, the ion and the recoils that left. -/
theorem C66_simple_bca_list_c {rcpr : Rcpr F} {fuel : Nat} {ext : Ext F}
    {velocities : List (Vec3 F)} {Z1 m1 Ec1 Es1 Z2 m2 n2 Ec2 Es2 Eb2 : F}
    {tape tape' : Tape F} {rows : List (List F)}
    (h : simple_bca_list_c rcpr fuel ext velocities Z1 m1 Ec1 Es1 Z2 m2 n2 Ec2 Es2 Eb2 tape =
      .ok (rows, tape')) :
    ∃ mat results, HalfSpace mat [Z2] [m2] [Ec2] [Es2] [Eb2] [n2] (ANGSTROM F) .AVERAGE ∧
      List.Forall₂ (VelocityRows rcpr fuel Z1 m1 Ec1 Es1 (list_start_x n2) mat)
        velocities results ∧
      rows = results.flatten := by
  simp only [simple_bca_list_c, m_bind_ok, m_lift_ok] at h
  obtain ⟨⟨mat, mesh⟩, _, ⟨hm, -⟩, hrun⟩ := h
  obtain ⟨hmat, -⟩ := mesh0d_material_ok (u := ANGSTROM F) rfl hm
  obtain ⟨results, h1, h2⟩ := velocity_loop hrun
  exact ⟨mat, results, hmat, h1, h2⟩

/-- **C66** `compound_bca_list_c`: for each velocity, in order, the ion and the recoils that
left. -/
theorem C66_compound_bca_list_c {rcpr : Rcpr F} {fuel : Nat} {ext : Ext F}
    {velocities : List (Vec3 F)} {Z1 m1 Ec1 Es1 : F} {Z2 m2 n2 Ec2 Es2 Eb2 : List F}
    {tape tape' : Tape F} {rows : List (List F)}
    (h : compound_bca_list_c rcpr fuel ext velocities Z1 m1 Ec1 Es1 Z2 m2 n2 Ec2 Es2 Eb2 tape =
      .ok (rows, tape')) :
    ∃ mat results, HalfSpace mat Z2 m2 Ec2 Es2 Eb2 n2 (ANGSTROM F) .AVERAGE ∧
      List.Forall₂ (VelocityRows rcpr fuel Z1 m1 Ec1 Es1 (list_start_x (fsum n2)) mat)
        velocities results ∧
      rows = results.flatten := by
  simp only [compound_bca_list_c, m_bind_ok, m_lift_ok] at h
  obtain ⟨⟨mat, mesh⟩, _, ⟨hm, -⟩, hrun⟩ := h
  obtain ⟨hmat, -⟩ := mesh0d_material_ok (u := ANGSTROM F) rfl hm
  obtain ⟨results, h1, h2⟩ := velocity_loop hrun
  exact ⟨mat, results, hmat, h1, h2⟩

/-! ### The Python list functions -/

theorem push_py_foldl (l : List (Particle F)) (s : PyOutput F) :
    l.foldl push_py s = ⟨s.total_output ++ (l.filter reported).map python_row,
      s.incident ++ (l.filter reported).map (·.incident),
      s.stopped ++ (l.filter reported).map (·.stopped)⟩ := by
  induction l generalizing s with
  | nil => simp
  | cons p l ih =>
    rw [List.foldl_cons, ih]
    unfold push_py
    by_cases hp : reported p = true
    · simp [hp]
    · simp [hp]

theorem py_body_eq (rcpr : Rcpr F) (fuel : Nat) (x : F) (m : Material F) :
    py_body rcpr fuel x m = fun s (a : IonArgs F) =>
      ((liftM (Particle.default_incident a.m a.Z a.E a.Ec a.Es x a.ux a.uy a.uz) >>= fun p =>
        single_ion_bca rcpr fuel p m (Options.default_options true)) >>= fun out =>
      pure ((fun s out => List.foldl push_py s out) s out)) := by
  funext s a
  simp only [py_body, bind_assoc]

theorem default_incident_ok {m Z E Ec Es x ux uy uz : F} {p : Particle F}
    (h : Particle.default_incident m Z E Ec Es x ux uy uz = .ok p) :
    FreshIon p (m*AMU F) Z (E*EV F) (Ec*EV F) (Es*EV F) ⟨x, 0.0, 0.0⟩
      ⟨ux/sqrt (ux*ux + uy*uy + uz*uz), uy/sqrt (ux*ux + uy*uy + uz*uz),
        uz/sqrt (ux*ux + uy*uy + uz*uz)⟩ ∧
    (E >. 0.0) = true ∧
    (abs (ux/sqrt (ux*ux + uy*uy + uz*uz)) <. 1.0 - epsilon) = true := by
  simp only [Particle.default_incident, rassert, bind, Except.bind, pure, Except.pure] at h
  split at h
  · simp at h
  · rename_i h1
    split at h
    · simp at h
    · rename_i h2
      simp only [Except.ok.injEq] at h
      split at h1
      · rename_i hb1
        split at h2
        · rename_i hb2
          subst h
          exact ⟨⟨rfl, rfl, rfl, rfl, rfl, rfl, rfl, rfl, rfl, rfl, rfl, rfl⟩, hb2, hb1⟩
        · simp at h2
      · simp at h1

/-- What one ion of the Python list functions contributes: rows and flags of the ion and of the
recoils of its cascade that left.  The energy of a stopped particle is reported as zero. -/
def PyRows (rcpr : Rcpr F) (fuel : Nat) (x : F) (mat : Material F) (a : IonArgs F)
    (emitted : List (Particle F)) : Prop :=
  ∃ ion q recoils,
    FreshIon ion (a.m*AMU F) a.Z (a.E*EV F) (a.Ec*EV F) (a.Es*EV F) ⟨x, 0.0, 0.0⟩
      ⟨a.ux/sqrt (a.ux*a.ux + a.uy*a.uy + a.uz*a.uz),
       a.uy/sqrt (a.ux*a.ux + a.uy*a.uy + a.uz*a.uz),
       a.uz/sqrt (a.ux*a.ux + a.uy*a.uy + a.uz*a.uz)⟩ ∧ (a.E >. 0.0) = true ∧
    CascadeOf rcpr fuel mat (Options.default_options true) ion (q :: recoils) ∧
    SameParticle ion q ∧ (∀ r ∈ recoils, r.incident = false) ∧
    emitted = q :: recoils.filter (·.left)

theorem py_loop {rcpr : Rcpr F} {fuel : Nat} {x : F} {mat : Material F}
    {ions : List (IonArgs F)} {t t' : Tape F} {o : PyOutput F}
    (h : forFold (py_body rcpr fuel x mat) ions ⟨[], [], []⟩ t = .ok (o, t')) :
    ∃ results : List (List (Particle F)), List.Forall₂ (PyRows rcpr fuel x mat) ions results ∧
      o.total_output = results.flatten.map python_row ∧
      o.incident = results.flatten.map (·.incident) ∧
      o.stopped = results.flatten.map (·.stopped) := by
  rw [py_body_eq] at h
  obtain ⟨outs, ho, hs⟩ := forFold_collect (upd := fun s out => List.foldl push_py s out) h
  have hs' : o = outs.flatten.foldl push_py ⟨[], [], []⟩ := by
    rw [hs, List.foldl_flatten]
  rw [push_py_foldl] at hs'
  refine ⟨outs.map (fun out => out.filter reported), ?_, ?_⟩
  · rw [List.forall₂_map_right_iff]
    refine ho.imp fun a out ⟨t, t', hr⟩ => ?_
    simp only [m_bind_ok, m_lift_ok] at hr
    obtain ⟨p, t2, ⟨hp, -⟩, hr⟩ := hr
    obtain ⟨hf, hE, -⟩ := default_incident_ok hp
    have hc : CascadeOf rcpr fuel mat (Options.default_options true) p out := ⟨_, _, hr⟩
    obtain ⟨q, recoils, hout, hq, hrec, -, hfl⟩ :=
      reported_of_cascade hf.incident hf.stopped hf.left hc
    subst hout
    exact ⟨p, q, recoils, hf, hE, hc, hq, hrec, hfl⟩
  · rw [hs', ← List.filter_flatten]
    simp

theorem check_lengths_ok {energies ux uy uz Z1 m1 Ec1 Es1 Z2 m2 Ec2 Es2 Eb2 : List F} {u : Unit}
    (h : check_lengths energies ux uy uz Z1 m1 Ec1 Es1 Z2 m2 Ec2 Es2 Eb2 = .ok u) :
    (ux.length = energies.length ∧ uy.length = energies.length ∧ uz.length = energies.length ∧
      Z1.length = energies.length ∧ m1.length = energies.length ∧ Es1.length = energies.length ∧
      Ec1.length = energies.length) ∧
    m2.length = Z2.length ∧ Ec2.length = Z2.length ∧ Es2.length = Z2.length ∧
      Eb2.length = Z2.length := by
  have key : RSat (check_lengths energies ux uy uz Z1 m1 Ec1 Es1 Z2 m2 Ec2 Es2 Eb2)
      (fun _ => (ux.length = energies.length ∧ uy.length = energies.length ∧
        uz.length = energies.length ∧
        Z1.length = energies.length ∧ m1.length = energies.length ∧ Es1.length = energies.length ∧
        Ec1.length = energies.length) ∧
        m2.length = Z2.length ∧ Ec2.length = Z2.length ∧ Es2.length = Z2.length ∧
        Eb2.length = Z2.length) (fun _ => True) := by
    unfold check_lengths
    simp only [rsat_bind, rsat_assert, beq_iff_eq]
    intros
    tauto
  rw [h] at key; exact key

theorem zip_ions_length {E ux uy uz Z Ec Es m : List F} (h1 : ux.length = E.length)
    (h2 : uy.length = E.length) (h3 : uz.length = E.length) (h4 : Z.length = E.length)
    (h5 : Ec.length = E.length) (h6 : Es.length = E.length) (h7 : m.length = E.length) :
    (zip_ions E ux uy uz Z Ec Es m).length = E.length := by
  simp [zip_ions, h1, h2, h3, h4, h5, h6, h7]

theorem zip_ions_spec (E ux uy uz Z Ec Es m : List F) :
    IonsOf (zip_ions E ux uy uz Z Ec Es m) E ux uy uz Z Ec Es m := by
  intro i a
  cases a
  unfold zip_ions
  simp only [List.getElem?_map, Option.map_eq_some_iff, List.getElem?_zip_eq_some, Prod.exists,
    IonArgs.mk.injEq]
  constructor
  · rintro ⟨e, x, y, z, zz, c, s, mm, h, rfl, rfl, rfl, rfl, rfl, rfl, rfl, rfl⟩
    exact h
  · intro h
    exact ⟨_, _, _, _, _, _, _, _, h, rfl, rfl, rfl, rfl, rfl, rfl, rfl, rfl⟩

/-- **C66** `compound_bca_list_py`: unequal list lengths are refused; the two returned lists are
aligned, and hold, ion by ion, the ion and the recoils of its cascade that left. -/
theorem C66_compound_bca_list_py {rcpr : Rcpr F} {fuel : Nat} {ext : Ext F}
    {energies ux uy uz Z1 m1 Ec1 Es1 Z2 m2 Ec2 Es2 n2 Eb2 : List F} {tape tape' : Tape F}
    {rows : List (List F)} {incident : List Bool}
    (h : compound_bca_list_py rcpr fuel ext energies ux uy uz Z1 m1 Ec1 Es1 Z2 m2 Ec2 Es2 n2 Eb2
      tape = .ok ((rows, incident), tape')) :
    (∀ l ∈ [ux, uy, uz, Z1, m1, Ec1, Es1], l.length = energies.length) ∧
    (∀ l ∈ [m2, Ec2, Es2, n2, Eb2], l.length = Z2.length) ∧
    ∃ ions mat results, ions.length = energies.length ∧
      IonsOf ions energies ux uy uz Z1 Ec1 Es1 m1 ∧ HalfSpace mat Z2 m2 Ec2 Es2 Eb2 n2 (ANGSTROM F) .INDIVIDUAL ∧
      List.Forall₂ (PyRows rcpr fuel (list_start_x (fsum n2)) mat) ions results ∧
      rows = results.flatten.map (fun q => row q (if q.stopped then 0.0 else q.E/EV F) q.pos) ∧
      incident = results.flatten.map (·.incident) := by
  simp only [compound_bca_list_py, m_bind_ok, m_lift_ok, m_pure_ok, rassert_ok, beq_iff_eq] at h
  obtain ⟨_, _, ⟨hchk, -⟩, _, _, ⟨hn, -⟩, ⟨mat, mesh⟩, _, ⟨hm, -⟩, o, t2, hrun, heq⟩ := h
  obtain ⟨⟨h1, h2, h3, h4, h5, h6, h7⟩, g1, g2, g3, g4⟩ := check_lengths_ok hchk
  obtain ⟨hmat, -⟩ := mesh0d_material_ok (u := ANGSTROM F) rfl hm
  obtain ⟨results, hr, ha, hb, hc⟩ := py_loop hrun
  simp only [Prod.mk.injEq] at heq
  refine ⟨by simp [h1, h2, h3, h4, h5, h6, h7], by simp [g1, g2, g3, g4, hn],
    _, mat, results, zip_ions_length h1 h2 h3 h4 h7 h6 h5, zip_ions_spec _ _ _ _ _ _ _ _, hmat, hr,
    ?_, ?_⟩
  · rw [heq.1.1, ha]; rfl
  · rw [heq.1.2, hb]

/-- **C66** `compound_bca_list_1D_py`: the three returned lists are aligned. -/
theorem C66_compound_bca_list_1D_py {rcpr : Rcpr F} {fuel : Nat} {ext : Ext F}
    {ux uy uz energies Z1 m1 Ec1 Es1 Z2 m2 Ec2 Es2 Eb2 : List F} {n2 : List (List F)}
    {dx : List F} {tape tape' : Tape F}
    {rows : List (List F)} {incident stopped : List Bool}
    (h : compound_bca_list_1D_py rcpr fuel ext ux uy uz energies Z1 m1 Ec1 Es1 Z2 m2 Ec2 Es2 Eb2
      n2 dx tape = .ok ((rows, incident, stopped), tape')) :
    (∀ l ∈ [ux, uy, uz, Z1, m1, Ec1, Es1], l.length = energies.length) ∧
    (∀ l ∈ [m2, Ec2, Es2, Eb2], l.length = Z2.length) ∧
    (∀ l ∈ n2.head?, l.length = Z2.length) ∧
    dx.length = n2.length ∧
    ∃ ions mesh mat results, ions.length = energies.length ∧
      IonsOf ions energies ux uy uz Z1 Ec1 Es1 m1 ∧
      Mesh1D.new ext ⟨"ANGSTROM", dx, n2, List.replicate n2.length 1.0⟩ = .ok mesh ∧
      mat.geometry = mesh.toGeom ∧ mat.Z = Z2 ∧ mat.m = m2.map (· * AMU F) ∧
      mat.Ec = Ec2.map (· * EV F) ∧ mat.Es = Es2.map (· * EV F) ∧ mat.Eb = Eb2.map (· * EV F) ∧
      List.Forall₂ (PyRows rcpr fuel (-mesh.top_energy_barrier_thickness/2.0) mat) ions results ∧
      rows = results.flatten.map (fun q => row q (if q.stopped then 0.0 else q.E/EV F) q.pos) ∧
      incident = results.flatten.map (·.incident) ∧
      stopped = results.flatten.map (·.stopped) := by
  simp only [compound_bca_list_1D_py, m_bind_ok, m_lift_ok, m_pure_ok, rassert_ok,
    beq_iff_eq] at h
  obtain ⟨_, _, ⟨hchk, -⟩, first, _, ⟨hf, -⟩, _, _, ⟨hfl, -⟩, _, _, ⟨hdx, -⟩, mesh, _,
    ⟨hmesh, -⟩, mat, _, ⟨hm, -⟩, o, t2, hrun, heq⟩ := h
  obtain ⟨⟨h1, h2, h3, h4, h5, h6, h7⟩, g1, g2, g3, g4⟩ := check_lengths_ok hchk
  have hhead : ∀ l ∈ n2.head?, l.length = Z2.length := by
    intro l hl
    cases n2 with
    | nil => simp at hl
    | cons a t =>
      simp only [List.head?_cons, Option.mem_def, Option.some.injEq] at hl
      subst hl
      simp only [vget, List.getElem?_cons_zero, Except.ok.injEq] at hf
      rw [hf]; exact hfl
  obtain ⟨results, hr, ha, hb, hc⟩ := py_loop hrun
  simp only [Prod.mk.injEq] at heq
  simp only [Material.new, compound_parameters, energy_unit_of, mass_unit_of, bind, Except.bind,
    pure, Except.pure, Except.ok.injEq] at hm
  subst hm
  refine ⟨by simp [h1, h2, h3, h4, h5, h6, h7], by simp [g1, g2, g3, g4], hhead,
    hdx, _, mesh, _, results, zip_ions_length h1 h2 h3 h4 h7 h6 h5, zip_ions_spec _ _ _ _ _ _ _ _, hmesh, rfl, rfl, rfl, rfl,
    rfl, rfl, hr, ?_, ?_, ?_⟩
  · rw [heq.1.1, ha]; rfl
  · rw [heq.1.2.1, hb]
  · rw [heq.1.2.2, hc]

theorem fortran_body_eq (rcpr : Rcpr F) (fuel : Nat) (x : F) (m : Material F)
    (options : Options F) :
    fortran_body rcpr fuel x m options = fun s (a : IonArgs F) => (single_ion_bca rcpr fuel
      (ion_literal (a.m*AMU F) a.Z (a.E*EV F) (a.Ec*EV F) (a.Es*EV F) x 0.0 0.0
        a.ux a.uy a.uz 1.0 0 ⟨0.0, 0.0, 0.0⟩) m options >>= fun out =>
      pure ((fun s out => s ++ (out.filter reported).map fortran_row) s out)) := rfl

/-- **C66** `compound_bca_list_fortran`: ion by ion, the six-column rows of the ion and of the
recoils that left. -/
theorem C66_compound_bca_list_fortran {rcpr : Rcpr F} {fuel : Nat} {ext : Ext F}
    {track_recoils : Bool} {ux uy uz E1 Z1 m1 Ec1 Es1 : List F} {Z2 m2 Ec2 Es2 Eb2 n2 : List F}
    {tape tape' : Tape F} {rows : List (List F)}
    (h : compound_bca_list_fortran rcpr fuel ext track_recoils ux uy uz E1 Z1 m1 Ec1 Es1
      Z2 m2 Ec2 Es2 Eb2 n2 tape = .ok (rows, tape')) :
    ∃ ions mat results, IonsOf ions E1 ux uy uz Z1 Ec1 Es1 m1 ∧
      HalfSpace mat Z2 m2 Ec2 Es2 Eb2 n2 (ANGSTROM F) .INDIVIDUAL ∧
      List.Forall₂ (fun (a : IonArgs F) result => ∃ ion q recoils,
        FreshIon ion (a.m*AMU F) a.Z (a.E*EV F) (a.Ec*EV F) (a.Es*EV F)
          ⟨list_start_x (fsum n2), 0.0, 0.0⟩ ⟨a.ux, a.uy, a.uz⟩ ∧
        CascadeOf rcpr fuel mat (Options.default_options track_recoils) ion (q :: recoils) ∧
        SameParticle ion q ∧ (∀ r ∈ recoils, r.incident = false) ∧
        result = (q :: recoils.filter (·.left)).map (fun p =>
          [p.Z, p.m/AMU F, p.E/EV F, p.dir.x, p.dir.y, p.dir.z]))
        ions results ∧
      rows = results.flatten := by
  simp only [compound_bca_list_fortran, m_bind_ok, m_lift_ok] at h
  obtain ⟨⟨mat, mesh⟩, _, ⟨hm, -⟩, hrun⟩ := h
  obtain ⟨hmat, -⟩ := mesh0d_material_ok (u := ANGSTROM F) rfl hm
  rw [fortran_body_eq] at hrun
  obtain ⟨outs, ho, hs⟩ := forFold_collect
    (upd := fun s (out : List (Particle F)) => s ++ (out.filter reported).map fortran_row) hrun
  refine ⟨_, mat, outs.map fun out => (out.filter reported).map fortran_row,
    zip_ions_spec _ _ _ _ _ _ _ _, hmat, ?_, ?_⟩
  · rw [List.forall₂_map_right_iff]
    refine ho.imp fun v out ⟨t, t', hr⟩ => ?_
    have hc : CascadeOf rcpr fuel mat (Options.default_options track_recoils) _ out := ⟨_, _, hr⟩
    obtain ⟨q, recoils, hout, hq, hrec, -, hf⟩ := reported_of_cascade rfl rfl rfl hc
    subst hout
    refine ⟨_, q, recoils, ion_literal_fresh _ _ _ _ _ _ _ _ _ _ _ _ _ _, hc, hq, hrec, ?_⟩
    rw [hf]; rfl
  · rw [hs, foldl_append_map (fun out : List (Particle F) => (out.filter reported).map fortran_row)]
    simp

/-! ## C57 -/

theorem push_tagged_foldl (l : List (Particle F)) (s : OutputTaggedBCA F) :
    l.foldl push_tagged s = ⟨s.len, s.particles ++ (l.filter reported).map tagged_row,
      s.weights ++ (l.filter reported).map (·.weight),
      s.tags ++ (l.filter reported).map (·.tag),
      s.incident ++ (l.filter reported).map (·.incident)⟩ := by
  induction l generalizing s with
  | nil => simp
  | cons p l ih =>
    rw [List.foldl_cons, ih]
    unfold push_tagged
    by_cases hp : reported p = true
    · simp [hp]
    · simp [hp]

theorem tagged_body_eq (rcpr : Rcpr F) (fuel : Nat) (input : InputTaggedBCA F) (x : F)
    (m : Material F) :
    tagged_body rcpr fuel input x m = fun s (vi : Vec3 F × Nat) =>
      ((liftM (tagged_ion input x vi.1 vi.2) >>= fun p =>
        single_ion_bca rcpr fuel p m (Options.default_options true)) >>= fun out =>
      pure ((fun s out => List.foldl push_tagged s out) s out)) := by
  funext s a
  simp only [tagged_body, bind_assoc]

theorem tagged_ion_ok {input : InputTaggedBCA F} {x : F} {v : Vec3 F} {i : Nat} {p : Particle F}
    (h : tagged_ion input x v i = .ok p) :
    FreshIon p (input.m1*AMU F) input.Z1 (0.5*input.m1*AMU F*v.magnitude*v.magnitude)
      (input.Ec1*EV F) (input.Es1*EV F) ⟨x, 0.0, 0.0⟩
      ⟨v.x/v.magnitude, v.y/v.magnitude, v.z/v.magnitude⟩ ∧
    input.weights[i]? = some p.weight ∧ input.tags[i]? = some p.tag ∧
      input.positions[i]? = some p.tracked_vector := by
  have key : RSat (tagged_ion input x v i) (fun p =>
      FreshIon p (input.m1*AMU F) input.Z1 (0.5*input.m1*AMU F*v.magnitude*v.magnitude)
        (input.Ec1*EV F) (input.Es1*EV F) ⟨x, 0.0, 0.0⟩
        ⟨v.x/v.magnitude, v.y/v.magnitude, v.z/v.magnitude⟩ ∧
      input.weights[i]? = some p.weight ∧ input.tags[i]? = some p.tag ∧
        input.positions[i]? = some p.tracked_vector) (fun _ => True) := by
    unfold tagged_ion
    simp only [rsat_bind, rsat_pure]
    refine (rsat_vget _ _).2 ⟨fun w hw => (rsat_vget _ _).2 ⟨fun t ht => (rsat_vget _ _).2
      ⟨fun q hq => ⟨ion_literal_fresh _ _ _ _ _ _ _ _ _ _ _ _ _ _, hw, ht, hq⟩, fun _ => trivial⟩,
      fun _ => trivial⟩, fun _ => trivial⟩
  rw [h] at key; exact key

/-- One reported particle of the tagged list function: the particle `q`, and the index `i` of the
velocity in whose cascade it appeared. -/
structure TaggedEntry (F : Type) where
  q : Particle F
  i : Nat

/-- The entries of cascade number `i`: the ion and the recoils that left; all carry the ion's
tag, weight and tracked vector. -/
def TaggedCascade (rcpr : Rcpr F) (fuel : Nat) (input : InputTaggedBCA F) (mat : Material F)
    (vi : Vec3 F × Nat) (entries : List (TaggedEntry F)) : Prop :=
  ∃ ion q recoils,
    FreshIon ion (input.m1*AMU F) input.Z1
      (0.5*input.m1*AMU F*vi.1.magnitude*vi.1.magnitude) (input.Ec1*EV F) (input.Es1*EV F)
      ⟨list_start_x (fsum input.n2), 0.0, 0.0⟩
      ⟨vi.1.x/vi.1.magnitude, vi.1.y/vi.1.magnitude, vi.1.z/vi.1.magnitude⟩ ∧
    CascadeOf rcpr fuel mat (Options.default_options true) ion (q :: recoils) ∧
    SameParticle ion q ∧ (∀ r ∈ recoils, r.incident = false) ∧
    entries = (q :: recoils.filter (·.left)).map (⟨·, vi.2⟩)

/-- **C57** The four arrays returned by `compound_tagged_bca_list_c` have the length `len` and are
aligned: entry `k` of each describes the same particle `q`, which is the ion of, or a recoil that
left in, the cascade of velocity number `i`, and its tag, weight and position columns are those
given for velocity `i`. -/
theorem C57_tagged_arrays {rcpr : Rcpr F} {fuel : Nat} {ext : Ext F} {input : InputTaggedBCA F}
    {tape tape' : Tape F} {o : OutputTaggedBCA F}
    (h : compound_tagged_bca_list_c rcpr fuel ext input tape = .ok (o, tape')) :
    ∃ mat results, HalfSpace mat input.Z2 input.m2 input.Ec2 input.Es2 input.Eb2 input.n2
        (ANGSTROM F) .AVERAGE ∧
      List.Forall₂ (TaggedCascade rcpr fuel input mat) input.velocities.zipIdx results ∧
      o.len = results.flatten.length ∧
      o.incident = results.flatten.map (·.q.incident) ∧
      o.tags.map some = results.flatten.map (fun e => input.tags[e.i]?) ∧
      o.weights.map some = results.flatten.map (fun e => input.weights[e.i]?) ∧
      o.particles.map some = results.flatten.map (fun e => (input.positions[e.i]?).map
        (fun position => row e.q (e.q.E/EV F) position)) := by
  simp only [compound_tagged_bca_list_c, m_bind_ok, m_lift_ok, m_pure_ok, Prod.mk.injEq] at h
  obtain ⟨⟨mat, mesh⟩, _, ⟨hm, -⟩, o1, _, hrun, heq, -⟩ := h
  obtain ⟨hmat, -⟩ := mesh0d_material_ok (u := ANGSTROM F) rfl hm
  rw [tagged_body_eq] at hrun
  obtain ⟨outs, ho, hs⟩ := forFold_collect (upd := fun s out => List.foldl push_tagged s out) hrun
  have hs' : o1 = outs.flatten.foldl push_tagged ⟨0, [], [], [], []⟩ := by
    rw [hs, List.foldl_flatten]
  rw [push_tagged_foldl] at hs'
  -- per cascade: the emitted particles with their index
  have hper : ∃ results, List.Forall₂ (fun (vi : Vec3 F × Nat) (e : List (TaggedEntry F)) =>
      TaggedCascade rcpr fuel input mat vi e) input.velocities.zipIdx results ∧
      List.Forall₂ (fun (out : List (Particle F)) (e : List (TaggedEntry F)) =>
        out.filter reported = e.map (·.q) ∧ ∀ x ∈ e, input.tags[x.i]? = some x.q.tag ∧
          input.weights[x.i]? = some x.q.weight ∧
          input.positions[x.i]? = some x.q.tracked_vector) outs results := by
    clear hs hs' hrun heq
    generalize input.velocities.zipIdx = l at ho
    induction ho with
    | nil => exact ⟨[], .nil, .nil⟩
    | @cons vi out l outs hr _ ih =>
      obtain ⟨results, hr1, hr2⟩ := ih
      obtain ⟨t, t', hr⟩ := hr
      simp only [m_bind_ok, m_lift_ok] at hr
      obtain ⟨p, t2, ⟨hp, -⟩, hr⟩ := hr
      obtain ⟨hf, hw, ht, hpos⟩ := tagged_ion_ok hp
      have hc : CascadeOf rcpr fuel mat (Options.default_options true) p out := ⟨_, _, hr⟩
      obtain ⟨q, recoils, hout, hq, hrec, -, hfl⟩ :=
        reported_of_cascade hf.incident hf.stopped hf.left hc
      subst hout
      refine ⟨(q :: recoils.filter (·.left)).map (⟨·, vi.2⟩) :: results,
        .cons ⟨p, q, recoils, hf, hc, hq, hrec, rfl⟩ hr1, .cons ⟨?_, ?_⟩ hr2⟩
      · rw [hfl, List.map_map]
        exact (List.map_id _).symm
      · intro x hx
        simp only [List.mem_map, List.mem_cons, List.mem_filter] at hx
        obtain ⟨y, hy, rfl⟩ := hx
        rcases hy with rfl | ⟨hy, -⟩
        · exact ⟨by rw [ht, hq.tag], by rw [hw, hq.weight], by rw [hpos, hq.tracked_vector]⟩
        · obtain ⟨_, _, h1, h2, h3⟩ :=
            C04_recoils_are_target_atoms _ _ _ _ _ _ _ _ hf.stopped hf.left hr y hy
          exact ⟨by rw [ht, h1], by rw [hw, h2], by rw [hpos, h3]⟩
  obtain ⟨results, hr1, hr2⟩ := hper
  have hflat : outs.flatten.filter reported = results.flatten.map (·.q) ∧
      ∀ x ∈ results.flatten, input.tags[x.i]? = some x.q.tag ∧
          input.weights[x.i]? = some x.q.weight ∧
          input.positions[x.i]? = some x.q.tracked_vector := by
    clear hr1 hs hs' ho hrun heq
    induction hr2 with
    | nil => simp
    | @cons out e outs results hx _ ih =>
      simp only [List.flatten_cons, List.filter_append, List.map_append, hx.1, ih.1, true_and]
      intro x hm
      rcases List.mem_append.1 hm with hm | hm
      · exact hx.2 x hm
      · exact ih.2 x hm
  obtain ⟨hfl, hprop⟩ := hflat
  rw [hfl] at hs'
  refine ⟨mat, results, hmat, hr1, ?_, ?_, ?_, ?_, ?_⟩
  · rw [heq, hs']; simp only [List.nil_append, List.length_map]
  · rw [heq, hs']; simp only [List.nil_append, List.map_map]; rfl
  · rw [heq, hs']
    simp only [List.nil_append, List.map_map]
    apply List.map_congr_left
    intro x hx
    exact (hprop x hx).1.symm
  · rw [heq, hs']
    simp only [List.nil_append, List.map_map]
    apply List.map_congr_left
    intro x hx
    exact (hprop x hx).2.1.symm
  · rw [heq, hs']
    simp only [List.nil_append, List.map_map]
    apply List.map_congr_left
    intro x hx
    simp only [Function.comp]
    rw [(hprop x hx).2.2]
    rfl

/-! ## C60 -/

/-- **C60, partial.** What holds: nothing is freed when nothing was returned (an empty `Vec` has no
allocation), one array is freed for each array returned, and the alignments are right. -/
theorem C60_drop_partial (len : Nat) :
    (drop_output_bca 0 = [] ∧ drop_output_tagged_bca 0 = []) ∧
    (0 < len → (drop_output_bca len).map (·.align) = [8] ∧
      (drop_output_tagged_bca len).map (·.align) = [8, 8, 4, 1]) := by
  refine ⟨⟨rfl, rfl⟩, fun h => ?_⟩
  simp [drop_output_bca, drop_output_tagged_bca, h]

/-- **C60 is false of the code.** For every non-empty output, whatever capacity the vectors had
(at least their length), the layouts passed to `dealloc` for the rows, the weights and the tags
are not those the arrays were allocated with, and the one for the flags is right only if the
capacity equals the length. -/
theorem C60_wrong_layouts (len cap : Nat) (h : 0 < len) (hc : len ≤ cap) :
    (∀ l ∈ drop_output_bca len, l ≠ vecLayout cap 72 8) ∧
    ∃ l1 l2 l3 l4, drop_output_tagged_bca len = [l1, l2, l3, l4] ∧
      l1 ≠ vecLayout cap 72 8 ∧ l2 ≠ vecLayout cap 8 8 ∧ l3 ≠ vecLayout cap 4 4 ∧
      (l4 = vecLayout cap 1 1 ↔ cap = len) := by
  simp only [drop_output_bca, drop_output_tagged_bca, h, if_true, vecLayout]
  refine ⟨?_, _, _, _, _, rfl, ?_, ?_, ?_, ?_⟩
  · intro l hl
    simp only [List.mem_singleton] at hl
    subst hl
    simp only [ne_eq, Layout.mk.injEq]; omega
  · simp only [ne_eq, Layout.mk.injEq]; omega
  · simp only [ne_eq, Layout.mk.injEq]; omega
  · simp only [ne_eq, Layout.mk.injEq]; omega
  · simp only [Layout.mk.injEq, mul_one, and_true]; exact eq_comm

/-! ## C67: reflecting one ion -/

theorem unpack_ok {d : PyDict F} {key : String} {x : F} (h : unpack d key = .ok x) :
    d key = some (.float x) := by
  unfold unpack at h
  split at h
  · simp [rpanic] at h
  · simp [rpanic] at h
  · rename_i y hy
    simp only [Except.ok.injEq] at h
    rw [hy, h]

theorem unpack_ion_ok {d : PyDict F} {i : IonDict F} (h : unpack_ion d = .ok i) :
    IonEntries d i.Z i.m i.Ec i.Es := by
  unfold unpack_ion at h
  simp only [bind, Except.bind, pure, Except.pure] at h
  repeat (split at h; · simp at h)
  simp only [Except.ok.injEq] at h
  subst h
  rename_i h1 _ _ h2 _ _ h3 _ _ h4
  exact ⟨unpack_ok h1, unpack_ok h2, unpack_ok h3, unpack_ok h4⟩

theorem unpack_target_ok {d : PyDict F} {t : TargetDict F} (h : unpack_target d = .ok t) :
    TargetEntries d t.Z t.m t.Ec t.Es t.Eb t.n := by
  unfold unpack_target at h
  simp only [bind, Except.bind, pure, Except.pure] at h
  repeat (split at h; · simp at h)
  simp only [Except.ok.injEq] at h
  subst h
  rename_i h1 _ _ h2 _ _ h3 _ _ h4 _ _ h5 _ _ h6
  exact ⟨⟨unpack_ok h1, unpack_ok h2, unpack_ok h3, unpack_ok h4⟩, unpack_ok h5, unpack_ok h6⟩

/-- **C67** `reflect_single_ion_py` simulates one ion of the species of its first dictionary, moving
with the given velocity (so that its energy is `m v^2/2`), on a half space of the species of the
second, without recoils. It returns zero velocity unless the ion left moving away from the
surface with positive energy, and then the velocity along its final direction that carries its
final energy; it refuses `vx ≤ 0`. -/
theorem C67_reflect_single_ion_py {rcpr : Rcpr F} {fuel : Nat} {ext : Ext F}
    {ion target : PyDict F} {vx vy vz : F} {tape tape' : Tape F} {v : F × F × F}
    (h : reflect_single_ion_py rcpr fuel ext ion target vx vy vz tape = .ok (v, tape')) :
    (vx >. 0.0) = true ∧ ∃ Z m Ec Es Z2 m2 Ec2 Es2 Eb2 n2 mat p q v2 s, IonEntries ion Z m Ec Es ∧
      TargetEntries target Z2 m2 Ec2 Es2 Eb2 n2 ∧
      HalfSpace mat [Z2] [m2] [Ec2] [Es2] [Eb2] [n2] 1.0 .AVERAGE ∧
      v2 = powf vx 2.0 + powf vy 2.0 + powf vz 2.0 ∧
      s = sqrt (vx/sqrt v2*(vx/sqrt v2) + vy/sqrt v2*(vy/sqrt v2) + vz/sqrt v2*(vz/sqrt v2)) ∧
      FreshIon p (m*AMU F) Z (0.5*m*AMU F*v2/EV F*EV F) (Ec*EV F) (Es*EV F)
        ⟨-barrier_thickness (fsum [n2/powi 1.0 3]), 0.0, 0.0⟩
        ⟨vx/sqrt v2/s, vy/sqrt v2/s, vz/sqrt v2/s⟩ ∧
      CascadeOf rcpr fuel mat (Options.default_options false) p [q] ∧ SameParticle p q ∧
      (ReflectedBack q → v = (q.dir.x*sqrt (2.0*q.E/p.m), q.dir.y*sqrt (2.0*q.E/p.m),
        q.dir.z*sqrt (2.0*q.E/p.m))) ∧
      (¬ ReflectedBack q → v = (0.0, 0.0, 0.0)) := by
  simp only [reflect_single_ion_py, m_bind_ok, m_lift_ok, rassert_ok] at h
  obtain ⟨i, _, ⟨hi, -⟩, tg, _, ⟨htg, -⟩, _, _, ⟨hvx, -⟩, ⟨mat, mesh⟩, _, ⟨hm, -⟩, p, _, ⟨hp, -⟩, out, _,
    hrun, o, _, ⟨ho, -⟩, hres⟩ := h
  obtain ⟨hmat, -, -, hb⟩ := mesh0d_material_ok (u := (1.0:F)) rfl hm
  obtain ⟨hf, -, -⟩ := default_incident_ok hp
  obtain ⟨q, rest, rfl, hq, -⟩ := C02_ion_first _ _ _ _ _ _ _ _ hf.stopped hf.left hrun
  have hlen := C03_no_recoils _ _ _ _ _ _ _ _ hf.stopped hf.left rfl hrun
  have hrest : rest = [] := by
    cases rest with
    | nil => rfl
    | cons _ _ => simp at hlen
  subst hrest
  have hoq : o = q := by
    simp only [vget, List.getElem?_cons_zero, Except.ok.injEq] at ho
    exact ho.symm
  subst hoq
  simp only [hb] at hf
  refine ⟨hvx, i.Z, i.m, i.Ec, i.Es, tg.Z, tg.m, tg.Ec, tg.Es, tg.Eb, tg.n, mat, p, o, _, _,
    unpack_ion_ok hi, unpack_target_ok htg, hmat, rfl, rfl, hf, ⟨_, _, hrun⟩, hq, fun hr => ?_,
    fun hr => ?_⟩
  · have := (reflected_iff o).2 hr
    unfold reflected_particle at this
    rw [if_pos this, m_pure_ok, Prod.mk.injEq] at hres
    rw [hres.1, hf.m]
  · have : ¬ (reflected_particle o = true) := fun h => hr ((reflected_iff o).1 h)
    unfold reflected_particle at this
    rw [if_neg this, m_pure_ok, Prod.mk.injEq] at hres
    exact hres.1

/-- **C67** Over the reals: the ion simulated has the kinetic energy and the direction of the velocity
given; the velocity returned points away from the surface or is zero, and carries the ion's final
kinetic energy. -/
theorem C67_reflected_velocity {rcpr : Rcpr ℝ} {fuel : Nat} {ext : Ext ℝ}
    {ion target : PyDict ℝ} {vx vy vz : ℝ} {tape tape' : Tape ℝ} {v : ℝ × ℝ × ℝ}
    (h : reflect_single_ion_py rcpr fuel ext ion target vx vy vz tape = .ok (v, tape'))
    (hm : ∀ m, ion "m" = some (.float m) → 0 < m) :
    ∃ m mat p q, ion "m" = some (.float m) ∧ p.m = m*AMU ℝ ∧
      p.E = p.m*(vx^2 + vy^2 + vz^2)/2 ∧
      p.dir = times (1/Real.sqrt (vx^2 + vy^2 + vz^2)) ⟨vx, vy, vz⟩ ∧
      CascadeOf rcpr fuel mat (Options.default_options false) p [q] ∧
      (v = (0, 0, 0) ∨ (v.1 < 0 ∧ 0 < q.E ∧
        (Spec.IsUnit q.dir → p.m*(v.1^2 + v.2.1^2 + v.2.2^2)/2 = q.E))) := by
  obtain ⟨hvx, Z, m, Ec, Es, Z2, m2, Ec2, Es2, Eb2, n2, mat, p, q, v2, s, hi, -, -, hv2, hs, hf, hc, hq,
    h1, h2⟩ := C67_reflect_single_ion_py h
  have hv0 : 0 < vx := by
    rw [lt_real] at hvx; norm_num at hvx; exact hvx
  have hv2' : v2 = vx^2 + vy^2 + vz^2 := by
    rw [hv2]
    simp only [powf_real, show (2.0:ℝ) = 2 by norm_num, Real.rpow_two]
  have hv2p : 0 < v2 := by rw [hv2']; positivity
  have hsq : 0 < Real.sqrt v2 := Real.sqrt_pos.2 hv2p
  have hsm : Real.sqrt v2*Real.sqrt v2 = v2 := Real.mul_self_sqrt hv2p.le
  have hs1 : s = 1 := by
    rw [hs]
    simp only [sqrt_real]
    rw [← Real.sqrt_one]
    congr 1
    have : vx/Real.sqrt v2*(vx/Real.sqrt v2) + vy/Real.sqrt v2*(vy/Real.sqrt v2)
        + vz/Real.sqrt v2*(vz/Real.sqrt v2) = (vx^2 + vy^2 + vz^2)/(Real.sqrt v2*Real.sqrt v2) := by
      field_simp
    rw [this, hsm, ← hv2', div_self hv2p.ne']
  have hAMU : (0:ℝ) < AMU ℝ := by unfold AMU; norm_num
  have hEV : (0:ℝ) < EV ℝ := by unfold EV Q; norm_num
  have hpm := hf.m
  refine ⟨m, mat, p, q, hi.2.1, hpm, ?_, ?_, hc, ?_⟩
  · rw [hf.E, hf.m, hv2', div_mul_cancel₀ _ hEV.ne', show (0.5:ℝ) = 1/2 by norm_num]
    ring
  · rw [hf.dir, hs1, ← hv2']
    simp only [times, sqrt_real, Vec3.mk.injEq]
    refine ⟨?_, ?_, ?_⟩ <;> ring
  by_cases hr : ReflectedBack q
  · right
    have hv := h1 hr
    have hE : 0 < q.E := by
      have := hr.2.2.2; simp only [lt_real] at this; norm_num at this; exact this
    have hx : q.dir.x < 0 := by
      have := hr.2.2.1; simp only [lt_real] at this; norm_num at this; exact this
    have hmp : 0 < p.m := by
      rw [hpm]
      exact mul_pos (hm m hi.2.1) hAMU
    have h20 : (2.0:ℝ) = 2 := by norm_num
    have hpos : 0 < 2*q.E/p.m := by positivity
    rw [h20] at hv
    simp only [sqrt_real] at hv
    refine ⟨?_, hE, fun hu => ?_⟩
    · rw [hv]; exact mul_neg_of_neg_of_pos hx (Real.sqrt_pos.2 hpos)
    · rw [hv]
      have hs := Real.sq_sqrt hpos.le
      unfold Spec.IsUnit Spec.inner at hu
      simp only
      have : (q.dir.x*Real.sqrt (2*q.E/p.m))^2 + (q.dir.y*Real.sqrt (2*q.E/p.m))^2 +
          (q.dir.z*Real.sqrt (2*q.E/p.m))^2 = 2*q.E/p.m := by
        rw [mul_pow, mul_pow, mul_pow, hs]
        linear_combination (2*q.E/p.m)*hu
      rw [this]
      field_simp
  · left
    rw [h2 hr]
    norm_num

/-- **C67** `reflect_single_ion_c` returns the ion's final direction, and energy 0 if the ion is at
`x ≥ 0`, its final energy in eV otherwise; it refuses `E1 ≤ 0`. -/
theorem C67_reflect_single_ion_c {rcpr : Rcpr F} {fuel : Nat} {ext : Ext F}
    {ux uy uz E1 Z1 m1 Ec1 Es1 : F} {Z2 m2 Ec2 Es2 Eb2 n2 : List F} {tape tape' : Tape F}
    {r : F × F × F × F}
    (h : reflect_single_ion_c rcpr fuel ext ux uy uz E1 Z1 m1 Ec1 Es1 Z2 m2 Ec2 Es2 Eb2 n2 tape =
      .ok (r, tape')) :
    (E1 >. 0.0) = true ∧ ∃ mat ion q,
      HalfSpace mat Z2 m2 Ec2 Es2 Eb2 n2 (ANGSTROM F) .AVERAGE ∧
      FreshIon ion (m1*AMU F) Z1 (E1*EV F) (Ec1*EV F) (Es1*EV F)
        ⟨list_start_x (fsum n2), 0.0, 0.0⟩ ⟨ux, uy, uz⟩ ∧
      CascadeOf rcpr fuel mat (Options.default_options false) ion [q] ∧ SameParticle ion q ∧
      r = (q.dir.x, q.dir.y, q.dir.z, if (q.pos.x >=. 0.0) = true then 0.0 else q.E/EV F) := by
  simp only [reflect_single_ion_c, m_bind_ok, m_lift_ok, rassert_ok, m_pure_ok] at h
  obtain ⟨_, _, ⟨hE, -⟩, ⟨mat, mesh⟩, _, ⟨hm, -⟩, out, _, hrun, o, _, ⟨ho, -⟩, heq⟩ := h
  obtain ⟨hmat, -⟩ := mesh0d_material_ok (u := ANGSTROM F) rfl hm
  obtain ⟨q, rest, rfl, hq, -⟩ := C02_ion_first _ _ _ _ _ _ _ _ rfl rfl hrun
  have hlen := C03_no_recoils _ _ _ _ _ _ _ _ rfl rfl rfl hrun
  have hrest : rest = [] := by
    cases rest with
    | nil => rfl
    | cons _ _ => simp at hlen
  subst hrest
  have hoq : o = q := by
    simp only [vget, List.getElem?_cons_zero, Except.ok.injEq] at ho
    exact ho.symm
  subst hoq
  exact ⟨hE, mat, _, o, hmat, ion_literal_fresh _ _ _ _ _ _ _ _ _ _ _ _ _ _, ⟨_, _, hrun⟩, hq,
    (Prod.mk.inj heq).1⟩

/-! ## C68: where the ions start -/

theorem sum_map_div (l : List ℝ) (c : ℝ) : (l.map (· / c)).sum = l.sum / c := by
  induction l with
  | nil => simp
  | cons a l ih => simp [ih, add_div]

/-- **C68** finding: the C and Python list functions start their ions *inside* the energy barrier
(so no surface energy is ever gained on entry), outside the material; `sputtering_yield`,
`reflection_coefficient` and `reflect_single_ion_py` start them at the edge of the barrier, which
counts as outside. -/
theorem C68_start_positions (ext : Ext ℝ) (Z m Ec Es Eb n : List ℝ) (k : Nat) (idx : List Nat)
    (model : SurfaceBindingModel) (hn : 0 < n.sum) :
    (∀ mat mesh, mesh0d_material ext (compound_parameters Z m Ec Es Eb k idx model) "ANGSTROM" n =
        .ok (mat, mesh) → ∀ y z,
      mat.geometry.inside_energy_barrier (list_start_x (fsum n)) y z = .ok true ∧
      mat.geometry.inside (list_start_x (fsum n)) y z = .ok false) ∧
    (∀ mat mesh, mesh0d_material ext (compound_parameters Z m Ec Es Eb k idx model) "M" n =
        .ok (mat, mesh) → ∀ y z,
      mat.geometry.inside_energy_barrier (-mesh.energy_barrier_thickness) y z = .ok false ∧
      mat.geometry.inside (-mesh.energy_barrier_thickness) y z = .ok false ∧
      mat.geometry.inside_simulation_boundary (-mesh.energy_barrier_thickness) y z = .ok true) := by
  have h30 : (-1.0/3.0 : ℝ) = -(1/3) := by norm_num
  have h2 : (2.0 : ℝ) = 2 := by norm_num
  have h10 : (10.0 : ℝ) = 10 := by norm_num
  have h00 : (0.0 : ℝ) = 0 := by norm_num
  have hlt0 : (10:ℝ)^(-(1/3) : ℝ) < 1/2 := by
    have h8 : (8:ℝ)^(-(1/3) : ℝ) = 1/2 := by
      rw [Real.rpow_neg (by norm_num), show (8:ℝ) = 2^(3:ℝ) by norm_num,
        ← Real.rpow_mul (by norm_num)]
      norm_num
    rw [← h8]
    exact Real.rpow_lt_rpow_of_neg (by norm_num) (by norm_num) (by norm_num)
  have hpi : 0 < Real.sqrt Real.pi := Real.sqrt_pos.2 Real.pi_pos
  have hpi2 : Real.sqrt Real.pi < 2 := by
    rw [Real.sqrt_lt' (by norm_num)]
    have := Real.pi_le_four; have := Real.pi_lt_d2
    linarith
  constructor
  · intro mat mesh h y z
    obtain ⟨-, -, hg, ht⟩ := mesh0d_material_ok (u := ANGSTROM ℝ) rfl h
    have hsum : fsum (n.map (· / powi (ANGSTROM ℝ) 3)) = n.sum*10^30 := by
      rw [fsum_real, sum_map_div, ANGSTROM, powi_real,
        show (3:ℤ) = ((3:ℕ):ℤ) from rfl, zpow_natCast]
      norm_num [div_eq_mul_inv]
    obtain ⟨N, hN⟩ : ∃ N, N = n.sum*10^30 := ⟨_, rfl⟩
    have hN0 : 0 < N := by rw [hN]; positivity
    rw [hsum, ← hN] at ht
    have hp : 0 < N^(-(1/3) : ℝ) := Real.rpow_pos_of_pos hN0 _
    have hx : list_start_x (fsum n) = -(2*10^(-(1/3) : ℝ)*N^(-(1/3) : ℝ)) := by
      unfold list_start_x
      rw [powf_real, fsum_real, h30, show n.sum*10e30 = 10*N by rw [hN]; norm_num; ring,
        Real.mul_rpow (by norm_num) hN0.le, h2]
      ring
    have hb : mesh.energy_barrier_thickness = N^(-(1/3) : ℝ)/Real.sqrt Real.pi*2 := by
      rw [ht, barrier_thickness, SQRTPI_real, powf_real, h30, h2]
    have hlt : 10^(-(1/3) : ℝ)*N^(-(1/3) : ℝ) < N^(-(1/3) : ℝ)/Real.sqrt Real.pi := by
      rw [lt_div_iff₀ hpi]
      have h10p : 0 < (10:ℝ)^(-(1/3) : ℝ) := by positivity
      have : (10:ℝ)^(-(1/3) : ℝ)*Real.sqrt Real.pi < 1 := by nlinarith
      nlinarith
    have h10p : 0 < (10:ℝ)^(-(1/3) : ℝ) := by positivity
    rw [hg]
    simp only [Mesh0D.toGeom, Except.ok.injEq]
    refine ⟨?_, ?_⟩
    · rw [lt_real, hx, hb]
      linarith
    · rw [lt_real_false, hx, h00]
      have := mul_pos h10p hp
      linarith
  · intro mat mesh h y z
    obtain ⟨-, -, hg, ht⟩ := mesh0d_material_ok (u := (1.0 : ℝ)) rfl h
    have hsum : fsum (n.map (· / powi (1.0 : ℝ) 3)) = n.sum := by
      rw [fsum_real, sum_map_div, powi_real,
        show (3:ℤ) = ((3:ℕ):ℤ) from rfl, zpow_natCast]
      norm_num
    have hb : 0 < mesh.energy_barrier_thickness := by
      rw [ht, hsum, barrier_thickness, SQRTPI_real, powf_real, h30, h2]
      have := Real.rpow_pos_of_pos hn (-(1/3))
      positivity
    rw [hg]
    simp only [Mesh0D.toGeom, Except.ok.injEq]
    refine ⟨?_, ?_, ?_⟩
    · rw [lt_real_false]
    · rw [lt_real_false, h00]; linarith
    · rw [lt_real, h10]; linarith

end RustBCA
