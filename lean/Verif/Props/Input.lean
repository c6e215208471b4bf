import Verif.Spec.Input
import Verif.Spec.Vectors
import Verif.Props.Geometry

/-!
# C42-C46: what `input` accepts
-/

set_option linter.unusedSectionVars false
set_option linter.unusedSimpArgs false
set_option linter.unusedVariables false

namespace RustBCA
open Scalar Spec

variable {F : Type} [Scalar F]

/-- Everything an accepted input has passed. -/
structure InputFacts (ext : Ext F) (sampler : Sampler F) (cpr : Bool) (options : Options F)
    (material : Res (Material F)) (p : ParticleParameters F) (t : Tape F) (acc : Accepted F)
    (t' : Tape F) (m0 : Material F) (p' : ParticleParameters F) (mi pi : Nat) : Prop where
  hm0 : material = .ok m0
  hm : complete_material m0 = .ok acc.material
  threads : 0 < options.num_threads
  chunks : 0 < options.num_chunks
  opts : acc.options = options
  co : check_options options = .ok ()
  cm : check_matrices options = .ok ()
  cc : check_compatibility cpr options = .ok ()
  hp : complete_particles p = .ok p'
  hmi : max_unwrap acc.material.interaction_index = .ok mi
  mi_lt : mi < options.interaction_potential.length
  hpi : max_unwrap p'.interaction_index = .ok pi
  pi_lt : pi < options.interaction_potential.length
  lu : length_unit_of ext p'.length_unit = .ok acc.output_units.length_unit
  eu : energy_unit_of ext p'.energy_unit = .ok acc.output_units.energy_unit
  mu : mass_unit_of ext p'.mass_unit = .ok acc.output_units.mass_unit
  arr : make_particle_inputs sampler acc.output_units.length_unit acc.output_units.energy_unit
    acc.output_units.mass_unit p' t = .ok (acc.particle_input_array, t')

theorem input_facts {ext : Ext F} {sampler : Sampler F} {cpr : Bool} {options : Options F}
    {material : Res (Material F)} {p : ParticleParameters F} {t : Tape F} {acc : Accepted F}
    {t' : Tape F} (run : input ext sampler cpr options material p t = .ok (acc, t')) :
    ∃ m0 p' mi pi, InputFacts ext sampler cpr options material p t acc t' m0 p' mi pi := by
  have key : Sat (input ext sampler cpr options material p) t
      (fun acc t' => ∃ m0 p' mi pi,
        InputFacts ext sampler cpr options material p t acc t' m0 p' mi pi) (fun _ => True) := by
    unfold input
    simp only [sat_bind, sat_lift, rsat_assert]
    refine rsat_mono (rsat_eq _) (fun m0 h0 => ?_) (fun _ _ => trivial)
    refine ⟨fun h1 => ⟨fun h2 => ?_, fun _ => trivial⟩, fun _ => trivial⟩
    refine rsat_mono (rsat_eq _) (fun m1 h3 => ?_) (fun _ _ => trivial)
    refine rsat_mono (rsat_eq _) (fun u h4 => ?_) (fun _ _ => trivial)
    refine rsat_mono (rsat_eq _) (fun u' h5 => ?_) (fun _ _ => trivial)
    refine rsat_mono (rsat_eq _) (fun u'' h6 => ?_) (fun _ _ => trivial)
    refine rsat_mono (rsat_eq _) (fun p' h7 => ?_) (fun _ _ => trivial)
    refine rsat_mono (rsat_eq _) (fun mi h8 => ?_) (fun _ _ => trivial)
    refine ⟨fun h9 => ?_, fun _ => trivial⟩
    refine rsat_mono (rsat_eq _) (fun pi h10 => ?_) (fun _ _ => trivial)
    refine ⟨fun h11 => ?_, fun _ => trivial⟩
    refine rsat_mono (rsat_eq _) (fun lu h12 => ?_) (fun _ _ => trivial)
    refine rsat_mono (rsat_eq _) (fun eu h13 => ?_) (fun _ _ => trivial)
    refine rsat_mono (rsat_eq _) (fun mu h14 => ?_) (fun _ _ => trivial)
    split
    · simp
    · simp only [sat_bind]
      refine sat_mono (sat_eq _ _) (fun arr t2 h15 => ?_) (fun _ _ => trivial)
      simp only [sat_pure]
      exact ⟨m0, p', mi, pi, ⟨h0, h3, by simpa using h1, by simpa using h2, rfl, h4, h5, h6, h7, h8,
        by simpa using h9, h10, by simpa using h11, h12, h13, h14, h15⟩⟩
  exact sat_of_ok key run

/-! ## C44 -/

/-- **C44** Mutually exclusive options are rejected: whatever `input` accepts runs free-flight
paths only with INTERPOLATED stopping and without weak collisions, gaseous targets without weak
collisions, and at least one thread and one chunk. -/
theorem C44_options_compatible {ext : Ext F} {sampler : Sampler F} {cpr : Bool}
    {options : Options F} {material : Res (Material F)} {p : ParticleParameters F} {t t' : Tape F}
    {acc : Accepted F} (run : input ext sampler cpr options material p t = .ok (acc, t')) :
    (acc.options.high_energy_free_flight_paths = true →
      acc.options.electronic_stopping_mode = .INTERPOLATED ∧
      acc.options.weak_collision_order = 0) ∧
    (acc.options.mean_free_path_model = .GASEOUS → acc.options.weak_collision_order = 0) ∧
    0 < acc.options.num_threads ∧ 0 < acc.options.num_chunks := by
  obtain ⟨m0, p', mi, pi, h⟩ := input_facts run
  rw [h.opts]
  have key : RSat (check_options options) (fun _ =>
      (options.high_energy_free_flight_paths = true →
        options.electronic_stopping_mode = .INTERPOLATED ∧ options.weak_collision_order = 0) ∧
      (options.mean_free_path_model = .GASEOUS → options.weak_collision_order = 0))
      (fun _ => True) := by
    unfold check_options
    cases hf : options.high_energy_free_flight_paths <;>
      cases hg : options.mean_free_path_model <;>
      simp [MeanFreePathModel.isGaseous] <;> tauto
  obtain ⟨k1, k2⟩ := rsat_of_ok key h.co
  exact ⟨k1, k2, h.threads, h.chunks⟩

/-- **C44** conversely such options are never what stops `input`: the option checks pass exactly
for compatible options. -/
theorem C44_check_iff (options : Options F) :
    check_options options = .ok () ↔
      (options.high_energy_free_flight_paths = true →
        options.electronic_stopping_mode = .INTERPOLATED ∧ options.weak_collision_order = 0) ∧
      (options.mean_free_path_model = .GASEOUS → options.weak_collision_order = 0) := by
  unfold check_options
  cases hf : options.high_energy_free_flight_paths <;>
    cases hg : options.mean_free_path_model <;>
    by_cases h1 : options.electronic_stopping_mode = .INTERPOLATED <;>
    by_cases h2 : options.weak_collision_order = 0 <;>
    simp [MeanFreePathModel.isGaseous, rassert, bind, Except.bind, pure, Except.pure, h1, h2]

/-! ## C42 -/

theorem max_unwrap_ge {l : List Nat} {m : Nat} (h : max_unwrap l = .ok m) : ∀ x ∈ l, x ≤ m := by
  have mono : ∀ (l : List Nat) (a : Nat), a ≤ l.foldl max a := by
    intro l
    induction l with
    | nil => intro a; exact le_rfl
    | cons b l ih => intro a; exact le_trans (le_max_left a b) (ih _)
  have key : ∀ (l : List Nat) (a : Nat), ∀ x ∈ l, x ≤ l.foldl max a := by
    intro l
    induction l with
    | nil => intro a x hx; cases hx
    | cons b l ih =>
      intro a x hx
      rcases List.mem_cons.1 hx with rfl | hx
      · exact le_trans (le_max_right a x) (mono l _)
      · exact ih _ x hx
  cases l with
  | nil => cases h
  | cons a l =>
    have : l.foldl max a = m := by simpa [max_unwrap, pure, Except.pure] using h
    intro x hx
    rcases List.mem_cons.1 hx with rfl | hx
    · rw [← this]; exact mono l x
    · rw [← this]; exact key l a x hx

theorem check_matrices_rows {options : Options F} (h : check_matrices options = .ok ()) :
    ∀ i, i < options.interaction_potential.length →
      (∃ row, options.interaction_potential[i]? = some row ∧
        row.length = options.interaction_potential.length) ∧
      (∃ row, options.scattering_integral[i]? = some row ∧
        row.length = options.scattering_integral.length) ∧
      (∃ row, options.root_finder[i]? = some row ∧
        row.length = options.root_finder.length) := by
  have key : RSat (check_matrices options) (fun _ => ∀ i, i < options.interaction_potential.length →
      (∃ row, options.interaction_potential[i]? = some row ∧
        row.length = options.interaction_potential.length) ∧
      (∃ row, options.scattering_integral[i]? = some row ∧
        row.length = options.scattering_integral.length) ∧
      (∃ row, options.root_finder[i]? = some row ∧
        row.length = options.root_finder.length)) (fun _ => True) := by
    unfold check_matrices
    have := rsat_forFold (E := fun _ => True) (body := fun (_ : Unit) i => do
        let row ← vget options.interaction_potential i
        rassert (options.interaction_potential.length == row.length)
          "Input error: interaction matrix not square."
        let row ← vget options.scattering_integral i
        rassert (options.scattering_integral.length == row.length)
          "Input error: scattering intergral matrix not square."
        let row ← vget options.root_finder i
        rassert (options.root_finder.length == row.length)
          "Input error: rootfinder matrix not square.")
      (fun (rest : List Nat) (_ : Unit) => ∀ i, i < options.interaction_potential.length →
        i ∉ rest →
        (∃ row, options.interaction_potential[i]? = some row ∧
          row.length = options.interaction_potential.length) ∧
        (∃ row, options.scattering_integral[i]? = some row ∧
          row.length = options.scattering_integral.length) ∧
        (∃ row, options.root_finder[i]? = some row ∧
          row.length = options.root_finder.length))
      (by
        intro rest a s hI
        simp only [rsat_bind, rsat_assert]
        refine rsat_mono (rsat_vget_some _ _) (fun r1 h1 => ?_) (fun _ _ => trivial)
        refine ⟨fun l1 => ?_, fun _ => trivial⟩
        refine rsat_mono (rsat_vget_some _ _) (fun r2 h2 => ?_) (fun _ _ => trivial)
        refine ⟨fun l2 => ?_, fun _ => trivial⟩
        refine rsat_mono (rsat_vget_some _ _) (fun r3 h3 => ?_) (fun _ _ => trivial)
        refine ⟨fun l3 => ?_, fun _ => trivial⟩
        intro i hi hn
        by_cases e : i = a
        · subst e
          exact ⟨⟨r1, h1, by simpa using (beq_iff_eq.1 l1).symm⟩,
            ⟨r2, h2, by simpa using (beq_iff_eq.1 l2).symm⟩,
            ⟨r3, h3, by simpa using (beq_iff_eq.1 l3).symm⟩⟩
        · exact hI i hi (by simp [e, hn]))
      (List.range options.interaction_potential.length) ()
      (fun i hi hn => absurd (List.mem_range.2 hi) hn)
    exact rsat_mono this (fun _ hq i hi => hq i hi (by simp)) (fun _ _ => trivial)
  exact rsat_of_ok key h

theorem check_matrices_entries {options : Options F} (h : check_matrices options = .ok ())
    {i j : Nat} (hi : i < options.interaction_potential.length)
    (hj : j < options.interaction_potential.length) :
    (∃ V, Entry options.interaction_potential i j V) ∧
    (∃ s, Entry options.scattering_integral i j s) ∧
    (∃ r, Entry options.root_finder i j r) := by
  obtain ⟨⟨r1, h1, l1⟩, ⟨r2, h2, l2⟩, ⟨r3, h3, l3⟩⟩ := check_matrices_rows h i hi
  obtain ⟨-, ⟨s2, k2, -⟩, ⟨s3, k3, -⟩⟩ := check_matrices_rows h j hj
  have j2 : j < options.scattering_integral.length := (List.getElem?_eq_some_iff.1 k2).1
  have j3 : j < options.root_finder.length := (List.getElem?_eq_some_iff.1 k3).1
  refine ⟨⟨r1[j]'(by omega), r1, h1, List.getElem?_eq_getElem (by omega)⟩,
    ⟨r2[j]'(by omega), r2, h2, List.getElem?_eq_getElem (by omega)⟩,
    ⟨r3[j]'(by omega), r3, h3, List.getElem?_eq_getElem (by omega)⟩⟩

/-! ## C45 -/

theorem draw_drawn (sampler : Sampler F) (unit : F) (d : Distr F) (t : Tape F) :
    Sat (draw sampler unit d) t (fun v _ => Drawn sampler unit d v) (fun _ => True) := by
  cases d with
  | POINT x => simp [draw, Drawn]
  | NORMAL a b =>
    simp only [draw, sat_bind, sat_pure]
    exact sat_mono (sat_eq _ _) (fun v t' h => ⟨t, v, t', h, rfl⟩) (fun _ _ => trivial)
  | UNIFORM a b =>
    simp only [draw, sat_bind, sat_pure]
    exact sat_mono (sat_eq _ _) (fun v t' h => ⟨t, v, t', h, rfl⟩) (fun _ _ => trivial)

theorem draw_ux_drawn (sampler : Sampler F) (unit : F) (d : Distr F) (t : Tape F) :
    Sat (draw_ux sampler unit d) t (fun v _ => Drawn sampler unit d v) (fun _ => True) := by
  cases d with
  | POINT x => simp [draw_ux, Drawn]
  | NORMAL a b => exact draw_drawn sampler unit (.NORMAL a b) t
  | UNIFORM a b => exact draw_drawn sampler unit (.UNIFORM a b) t

theorem make_particle_input_sat (sampler : Sampler F) (lu eu mu m Z Ec Es : F) (E : Distr F)
    (pos dir : Distr F × Distr F × Distr F) (ii : Nat) (t : Tape F) :
    Sat (make_particle_input sampler lu eu mu m Z Ec Es E pos dir ii) t (fun q _ =>
      q.m = m*mu ∧ q.Z = Z ∧ Drawn sampler eu E q.E ∧ q.Ec = Ec*eu ∧ q.Es = Es*eu ∧
      Drawn sampler lu pos.1 q.x ∧ Drawn sampler lu pos.2.1 q.y ∧ Drawn sampler lu pos.2.2 q.z ∧
      Drawn sampler lu dir.1 q.ux ∧ Drawn sampler lu dir.2.1 q.uy ∧
      Drawn sampler lu dir.2.2 q.uz ∧ q.interaction_index = ii) (fun _ => True) := by
  unfold make_particle_input
  simp only [sat_bind]
  refine sat_mono (draw_drawn _ _ _ _) (fun e t1 h1 => ?_) (fun _ _ => trivial)
  refine sat_mono (draw_drawn _ _ _ _) (fun x t2 h2 => ?_) (fun _ _ => trivial)
  refine sat_mono (draw_drawn _ _ _ _) (fun y t3 h3 => ?_) (fun _ _ => trivial)
  refine sat_mono (draw_drawn _ _ _ _) (fun z t4 h4 => ?_) (fun _ _ => trivial)
  refine sat_mono (draw_ux_drawn _ _ _ _) (fun ux t5 h5 => ?_) (fun _ _ => trivial)
  refine sat_mono (draw_drawn _ _ _ _) (fun uy t6 h6 => ?_) (fun _ _ => trivial)
  refine sat_mono (draw_drawn _ _ _ _) (fun uz t7 h7 => ?_) (fun _ _ => trivial)
  simp only [sat_pure]
  exact ⟨trivial, trivial, h1, trivial, trivial, h2, h3, h4, h5, h6, h7, trivial⟩

/-- An ion of species `i`, in terms of parameters whose index list is already completed. -/
structure IonRaw (sampler : Sampler F) (lu eu mu : F)
    (p : ParticleParameters F) (i : Nat) (q : ParticleInput F) : Prop where
  m : ∃ m, p.m[i]? = some m ∧ q.m = m*mu
  Z : p.Z[i]? = some q.Z
  E : ∃ d, p.E[i]? = some d ∧ Drawn sampler eu d q.E
  Ec : ∃ e, p.Ec[i]? = some e ∧ q.Ec = e*eu
  Es : ∃ e, p.Es[i]? = some e ∧ q.Es = e*eu
  pos : ∃ dx dy dz, p.pos[i]? = some (dx, dy, dz) ∧ Drawn sampler lu dx q.x ∧
    Drawn sampler lu dy q.y ∧ Drawn sampler lu dz q.z
  dir : ∃ dx dy dz, p.dir[i]? = some (dx, dy, dz) ∧ Drawn sampler lu dx q.ux ∧
    Drawn sampler lu dy q.uy ∧ Drawn sampler lu dz q.uz
  interaction_index : p.interaction_index[i]? = some q.interaction_index

/-- The blocks of ions produced so far: one block per species, in order, of the requested size. -/
def Blocks (sampler : Sampler F) (lu eu mu : F) (p : ParticleParameters F) (n : Nat)
    (acc : List (ParticleInput F)) : Prop :=
  ∃ blocks : List (List (ParticleInput F)), acc = blocks.flatten ∧ blocks.length = n ∧
    ∀ i b, blocks[i]? = some b →
      p.N[i]? = some b.length ∧ ∀ q ∈ b, IonRaw sampler lu eu mu p i q

theorem make_particle_inputs_sat (sampler : Sampler F) (lu eu mu : F)
    (p : ParticleParameters F) (t : Tape F) :
    Sat (make_particle_inputs sampler lu eu mu p) t
      (fun acc _ => Blocks sampler lu eu mu p p.Z.length acc) (fun _ => True) := by
  unfold make_particle_inputs
  have := sat_forFold_idx (E := fun _ => True) (body := fun (acc : List (ParticleInput F)) i => (do
    let N_ ← liftM (vget p.N i)
    let m ← liftM (vget p.m i)
    let Z ← liftM (vget p.Z i)
    let E ← liftM (vget p.E i)
    let Ec ← liftM (vget p.Ec i)
    let Es ← liftM (vget p.Es i)
    let interaction_index ← liftM (vget p.interaction_index i)
    let pos ← liftM (vget p.pos i)
    let dir ← liftM (vget p.dir i)
    let l ← collectN (fun _ => make_particle_input sampler lu eu mu
      m Z Ec Es E pos dir interaction_index) N_
    pure (acc ++ l) : M F (List (ParticleInput F))))
    (fun done acc _ => Blocks sampler lu eu mu p done.length acc)
    (List.range p.Z.length) []
    (by
      intro d a r hd acc t hB
      have ha : a = d.length := by
        have h1 : (List.range p.Z.length)[d.length]? = some a := by
          rw [show List.range p.Z.length = d ++ a :: r from hd]
          simp
        rw [List.getElem?_range (by
          have := congrArg List.length hd
          simp at this; omega)] at h1
        exact (Option.some.inj h1).symm
      simp only [sat_bind, sat_lift]
      refine rsat_mono (rsat_vget_some _ _) (fun N_ h1 => ?_) (fun _ _ => trivial)
      refine rsat_mono (rsat_vget_some _ _) (fun m h2 => ?_) (fun _ _ => trivial)
      refine rsat_mono (rsat_vget_some _ _) (fun Z h3 => ?_) (fun _ _ => trivial)
      refine rsat_mono (rsat_vget_some _ _) (fun E h4 => ?_) (fun _ _ => trivial)
      refine rsat_mono (rsat_vget_some _ _) (fun Ec h5 => ?_) (fun _ _ => trivial)
      refine rsat_mono (rsat_vget_some _ _) (fun Es h6 => ?_) (fun _ _ => trivial)
      refine rsat_mono (rsat_vget_some _ _) (fun ii h7 => ?_) (fun _ _ => trivial)
      refine rsat_mono (rsat_vget_some _ _) (fun pos h8 => ?_) (fun _ _ => trivial)
      refine rsat_mono (rsat_vget_some _ _) (fun dir h9 => ?_) (fun _ _ => trivial)
      have hc := sat_collectN (s := t) (E := fun _ => True)
        (f := fun _ => make_particle_input sampler lu eu mu m Z Ec Es E pos dir ii)
        (fun n l _ => l.length = n ∧ ∀ q ∈ l, IonRaw sampler lu eu mu p a q) N_
        (fun _ _ => ⟨rfl, fun q hq => by cases hq⟩)
        (by
          intro n l t hn hl
          refine sat_mono (make_particle_input_sat sampler lu eu mu m Z Ec Es E pos dir ii t)
            (fun q t' hq => ?_) (fun _ _ => trivial)
          refine ⟨by simp [hl.1], fun q' hq' => ?_⟩
          rcases List.mem_append.1 hq' with hq' | hq'
          · exact hl.2 q' hq'
          · obtain rfl : q' = q := by simpa using hq'
            obtain ⟨k1, k2, k3, k4, k5, k6, k7, k8, k9, k10, k11, k12⟩ := hq
            obtain ⟨px, py, pz⟩ := pos
            obtain ⟨dx, dy, dz⟩ := dir
            exact ⟨⟨m, h2, k1⟩, by rw [h3, k2], ⟨E, h4, k3⟩, ⟨Ec, h5, k4⟩, ⟨Es, h6, k5⟩,
              ⟨px, py, pz, h8, k6, k7, k8⟩, ⟨dx, dy, dz, h9, k9, k10, k11⟩, by rw [h7, k12]⟩)
        N_ le_rfl
      refine sat_mono hc (fun l t' hl => ?_) (fun _ _ => trivial)
      simp only [sat_pure]
      obtain ⟨blocks, e1, e2, e3⟩ := hB
      refine ⟨blocks ++ [l], by simp [e1], by simp [e2], ?_⟩
      intro i b hb
      rcases Nat.lt_or_ge i blocks.length with hi | hi
      · rw [List.getElem?_append_left hi] at hb
        exact e3 i b hb
      · rw [List.getElem?_append_right hi] at hb
        have : i - blocks.length = 0 := by
          by_contra hne
          rw [List.getElem?_eq_none (by simp; omega)] at hb
          cases hb
        rw [this] at hb
        obtain rfl : l = b := by simpa using hb
        obtain rfl : i = a := by omega
        exact ⟨by rw [h1, hl.1], hl.2⟩)
    [] t ⟨[], rfl, rfl, fun i b hb => by simp at hb⟩
  exact sat_mono this (fun acc _ h => by simpa using h) (fun _ _ => trivial)

/-- The completed particle parameters: only the index list may change. -/
theorem complete_particles_ok {p p' : ParticleParameters F} (h : complete_particles p = .ok p') :
    p' = { p with
      interaction_index := if p.interaction_index.length ≤ 1 then List.replicate p.Z.length 0
        else p.interaction_index } ∧
    p.Z.length = p.m.length ∧ p.Z.length = p.E.length ∧ p.Z.length = p.pos.length ∧
    p.Z.length = p.dir.length := by
  have key : RSat (complete_particles p) (fun p' => p' = { p with
      interaction_index := if p.interaction_index.length ≤ 1 then List.replicate p.Z.length 0
        else p.interaction_index } ∧
      p.Z.length = p.m.length ∧ p.Z.length = p.E.length ∧ p.Z.length = p.pos.length ∧
      p.Z.length = p.dir.length) (fun _ => True) := by
    unfold complete_particles
    simp only [rsat_bind, rsat_assert, rsat_pure]
    refine ⟨fun h1 => ⟨fun h2 => ⟨fun h3 => ⟨fun h4 => ?_, ?_⟩, ?_⟩, ?_⟩, ?_⟩ <;>
      try exact fun _ => trivial
    refine ⟨?_, by simpa using h1, by simpa using h2, by simpa using h3, by simpa using h4⟩
    split <;> rfl
  have := rsat_of_ok key h
  exact this

theorem IonRaw.ionOf {sampler : Sampler F} {lu eu mu : F} {p p' : ParticleParameters F}
    (h : complete_particles p = .ok p') {i : Nat} {q : ParticleInput F}
    (hq : IonRaw sampler lu eu mu p' i q) : IonOf sampler lu eu mu p i q := by
  obtain ⟨rfl, -⟩ := complete_particles_ok h
  obtain ⟨k1, k2, k3, k4, k5, k6, k7, k8⟩ := hq
  refine ⟨k1, k2, k3, k4, k5, k6, k7, ?_⟩
  simp only at k8
  unfold indexOf
  split
  · rename_i hl
    rw [if_pos hl] at k8
    rw [List.getElem?_replicate] at k8
    split at k8
    · simpa using k8
    · cases k8
  · rename_i hl
    rw [if_neg hl] at k8; exact k8

/-- **C45** The requested number of ions is generated, in order: whatever `input` accepts consists
of one block per species in input order, block `i` has exactly the requested number `N_i` of ions,
and every ion in it has the mass, charge, cutoff, binding energy, position and direction stated for
species `i`, converted by the chosen units. -/
theorem C45_requested_ions {ext : Ext F} {sampler : Sampler F} {cpr : Bool}
    {options : Options F} {material : Res (Material F)} {p : ParticleParameters F} {t t' : Tape F}
    {acc : Accepted F} (run : input ext sampler cpr options material p t = .ok (acc, t')) :
    length_unit_of ext p.length_unit = .ok acc.output_units.length_unit ∧
    energy_unit_of ext p.energy_unit = .ok acc.output_units.energy_unit ∧
    mass_unit_of ext p.mass_unit = .ok acc.output_units.mass_unit ∧
    ∃ blocks : List (List (ParticleInput F)),
      acc.particle_input_array = blocks.flatten ∧
      blocks.length = p.Z.length ∧
      ∀ i b, blocks[i]? = some b → p.N[i]? = some b.length ∧
        ∀ q ∈ b, IonOf sampler acc.output_units.length_unit acc.output_units.energy_unit
          acc.output_units.mass_unit p i q := by
  obtain ⟨m0, p', mi, pi, h⟩ := input_facts run
  obtain ⟨blocks, e1, e2, e3⟩ := sat_of_ok (make_particle_inputs_sat sampler _ _ _ p' t) h.arr
  have hp := complete_particles_ok h.hp
  have hlu := h.lu
  have heu := h.eu
  have hmu := h.mu
  rw [hp.1] at hlu heu hmu
  refine ⟨hlu, heu, hmu, blocks, e1, by rw [e2, hp.1], fun i b hb => ?_⟩
  obtain ⟨k1, k2⟩ := e3 i b hb
  refine ⟨by rw [hp.1] at k1; exact k1, fun q hq => (k2 q hq).ionOf h.hp⟩

/-- **C45** in particular the number of ions is the sum of the requested numbers of the species. -/
theorem C45_count {ext : Ext F} {sampler : Sampler F} {cpr : Bool}
    {options : Options F} {material : Res (Material F)} {p : ParticleParameters F} {t t' : Tape F}
    {acc : Accepted F} (run : input ext sampler cpr options material p t = .ok (acc, t')) :
    acc.particle_input_array.length = (p.N.take p.Z.length).sum := by
  obtain ⟨-, -, -, blocks, e1, e2, e3⟩ := C45_requested_ions run
  rw [e1, List.length_flatten, ← e2]
  congr 1
  refine List.ext_getElem? fun i => ?_
  rcases Nat.lt_or_ge i blocks.length with hi | hi
  · have := (e3 i blocks[i] (List.getElem?_eq_getElem hi)).1
    rw [List.getElem?_map, List.getElem?_eq_getElem hi, List.getElem?_take, if_pos hi, this]
    rfl
  · rw [List.getElem?_eq_none (by simpa using hi), List.getElem?_take, if_neg (by omega)]

/-- The unit names accepted, and what they mean. -/
theorem C45_units (ext : Ext ℝ) :
    length_unit_of ext "ANGSTROM" = .ok (1e-10 : ℝ) ∧ length_unit_of ext "NM" = .ok (1e-9 : ℝ) ∧
    length_unit_of ext "MICRON" = .ok (1e-6 : ℝ) ∧ length_unit_of ext "MM" = .ok (1e-3 : ℝ) ∧
    length_unit_of ext "CM" = .ok (1e-2 : ℝ) ∧ length_unit_of ext "M" = .ok (1 : ℝ) ∧
    energy_unit_of ext "J" = .ok (1 : ℝ) ∧ energy_unit_of ext "EV" = .ok (1.602176634e-19 : ℝ) ∧
    energy_unit_of ext "KEV" = .ok (1000*1.602176634e-19 : ℝ) ∧
    energy_unit_of ext "MEV" = .ok (1000000*1.602176634e-19 : ℝ) ∧
    mass_unit_of ext "KG" = .ok (1 : ℝ) ∧ mass_unit_of ext "AMU" = .ok (1.66053906660e-27 : ℝ) := by
  have hk : (EV ℝ)*1e3 = 1000*1.602176634e-19 := by unfold EV Q; norm_num
  have hm : (EV ℝ)*1e6 = 1000000*1.602176634e-19 := by unfold EV Q; norm_num
  have h1 : (1.0:ℝ) = 1 := by norm_num
  refine ⟨rfl, rfl, rfl, rfl, rfl, ?_, ?_, rfl, ?_, ?_, ?_, rfl⟩
  · simp only [length_unit_of, h1]
  · simp only [energy_unit_of, h1]
  · simp only [energy_unit_of, hk]
  · simp only [energy_unit_of, hm]
  · simp only [mass_unit_of, h1]

/-! ## C42 -/

/-- **C42** Accepted inputs never index outside the interaction matrices: for every interaction
index `i` of an accepted ion or of the target and every interaction index `j` of the target, the
interaction potential, the scattering integral and the root finder of the pair exist. -/
theorem C42_lookups_in_range {ext : Ext F} {sampler : Sampler F} {cpr : Bool}
    {options : Options F} {material : Res (Material F)} {p : ParticleParameters F} {t t' : Tape F}
    {acc : Accepted F} (run : input ext sampler cpr options material p t = .ok (acc, t')) :
    ∀ i ∈ acc.particle_input_array.map (·.interaction_index) ++ acc.material.interaction_index,
    ∀ j ∈ acc.material.interaction_index,
      (∃ V, Entry acc.options.interaction_potential i j V) ∧
      (∃ s, Entry acc.options.scattering_integral i j s) ∧
      (∃ r, Entry acc.options.root_finder i j r) := by
  obtain ⟨m0, p', mi, pi, h⟩ := input_facts run
  rw [h.opts]
  intro i hi j hj
  have hj' : j < options.interaction_potential.length :=
    lt_of_le_of_lt (max_unwrap_ge h.hmi j hj) h.mi_lt
  refine check_matrices_entries h.cm ?_ hj'
  rcases List.mem_append.1 hi with hi | hi
  · obtain ⟨q, hq, rfl⟩ := List.mem_map.1 hi
    obtain ⟨blocks, e1, e2, e3⟩ := sat_of_ok (make_particle_inputs_sat sampler _ _ _ p' t) h.arr
    rw [e1] at hq
    obtain ⟨b, hb, hqb⟩ := List.mem_flatten.1 hq
    obtain ⟨k, hk⟩ := List.mem_iff_getElem?.1 hb
    have := (e3 k b hk).2 q hqb
    exact lt_of_le_of_lt (max_unwrap_ge h.hpi _
      (List.mem_iff_getElem?.2 ⟨k, this.interaction_index⟩)) h.pi_lt
  · exact lt_of_le_of_lt (max_unwrap_ge h.hmi i hi) h.mi_lt

/-- `Particle::from_input` hands the index on. -/
theorem from_input_index {q : ParticleInput F} {o : Options F} {b : Particle F}
    (h : Particle.from_input q o = .ok b) : b.interaction_index = q.interaction_index := by
  have key : RSat (Particle.from_input q o)
      (fun b => b.interaction_index = q.interaction_index) (fun _ => True) := by
    unfold Particle.from_input
    simp only [rsat_bind, rsat_assert, rsat_pure]
    exact ⟨fun _ => ⟨fun _ => trivial, fun _ => trivial⟩, fun _ => trivial⟩
  have := rsat_of_ok key h
  exact this

/-! ## C46 -/

theorem from_input_ok_iff (q : ParticleInput ℝ) (o : Options ℝ) :
    (∃ b, Particle.from_input q o = .ok b) ↔
      |q.ux/Real.sqrt (q.ux*q.ux + q.uy*q.uy + q.uz*q.uz)| < 1 - (2:ℝ)^(-52:ℤ) ∧ 0 < q.E := by
  have h1 : (1.0:ℝ) = 1 := by norm_num
  have h0 : (0.0:ℝ) = 0 := by norm_num
  unfold Particle.from_input
  simp only [sqrt_real, abs_real, epsilon_real, h1, h0]
  by_cases a : |q.ux/Real.sqrt (q.ux*q.ux + q.uy*q.uy + q.uz*q.uz)| < 1 - (2:ℝ)^(-52:ℤ)
  · by_cases b : 0 < q.E
    · have a' := (lt_real _ _).2 a
      have b' := (lt_real _ _).2 b
      simp only [a', b', rassert, if_true, bind, Except.bind, pure, Except.pure]
      exact ⟨fun _ => ⟨a, b⟩, fun _ => ⟨_, rfl⟩⟩
    · have a' := (lt_real _ _).2 a
      have b' := (lt_real_false _ _).2 (not_lt.1 b)
      simp only [a', b', rassert, if_true, bind, Except.bind, pure, Except.pure]
      constructor
      · rintro ⟨x, hx⟩; simp at hx
      · exact fun h => absurd h.2 b
  · have a' := (lt_real_false _ _).2 (not_lt.1 a)
    simp only [a', rassert, if_true, bind, Except.bind, pure, Except.pure]
    constructor
    · rintro ⟨x, hx⟩; simp at hx
    · exact fun h => absurd h.1 a

/-- The direction of a particle input. -/
def inputDir {F : Type} (q : ParticleInput F) : Vec3 F := ⟨q.ux, q.uy, q.uz⟩

/-- **C46** `Particle::from_input` accepts exactly the inputs with positive energy whose normalised
x-direction is strictly below `1 - epsilon` in magnitude (epsilon = 2⁻⁵²). -/
theorem C46_accepts_iff (q : ParticleInput ℝ) (o : Options ℝ) :
    (∃ b, Particle.from_input q o = .ok b) ↔
      0 < q.E ∧ |q.ux/norm (inputDir q)| < 1 - (2:ℝ)^(-52:ℤ) := by
  rw [from_input_ok_iff, and_comm]; rfl

theorem from_input_fields {q : ParticleInput F} {o : Options F} {b : Particle F}
    (h : Particle.from_input q o = .ok b) :
    b.dir = ⟨q.ux/sqrt (q.ux*q.ux + q.uy*q.uy + q.uz*q.uz),
      q.uy/sqrt (q.ux*q.ux + q.uy*q.uy + q.uz*q.uz),
      q.uz/sqrt (q.ux*q.ux + q.uy*q.uy + q.uz*q.uz)⟩ ∧
    b.E = q.E ∧ b.pos = ⟨q.x, q.y, q.z⟩ ∧ b.m = q.m ∧ b.Z = q.Z ∧ b.incident = true := by
  have key : RSat (Particle.from_input q o) (fun b => b.dir =
      ⟨q.ux/sqrt (q.ux*q.ux + q.uy*q.uy + q.uz*q.uz),
        q.uy/sqrt (q.ux*q.ux + q.uy*q.uy + q.uz*q.uz),
        q.uz/sqrt (q.ux*q.ux + q.uy*q.uy + q.uz*q.uz)⟩ ∧
      b.E = q.E ∧ b.pos = ⟨q.x, q.y, q.z⟩ ∧ b.m = q.m ∧ b.Z = q.Z ∧ b.incident = true)
      (fun _ => True) := by
    unfold Particle.from_input
    simp only [rsat_bind, rsat_assert, rsat_pure, and_self, implies_true]
  have := rsat_of_ok key h
  exact this

/-- **C46** the accepted particle's direction is a unit vector parallel to the input direction, and
never along the x axis (no gimbal lock). -/
theorem C46_direction {q : ParticleInput ℝ} {o : Options ℝ} {b : Particle ℝ}
    (hu : inputDir q ≠ ⟨0, 0, 0⟩) (h : Particle.from_input q o = .ok b) :
    Spec.IsUnit b.dir ∧ times (norm (inputDir q)) b.dir = inputDir q ∧ 0 < norm (inputDir q) ∧
      |b.dir.x| < 1 := by
  obtain ⟨hd, -⟩ := from_input_fields h
  have hacc := (C46_accepts_iff q o).1 ⟨b, h⟩
  have hpos : 0 < q.ux*q.ux + q.uy*q.uy + q.uz*q.uz := by
    by_contra hn
    apply hu
    have hx := mul_self_nonneg q.ux
    have hy := mul_self_nonneg q.uy
    have hz := mul_self_nonneg q.uz
    have e1 : q.ux = 0 := mul_self_eq_zero.1 (by linarith)
    have e2 : q.uy = 0 := mul_self_eq_zero.1 (by linarith)
    have e3 : q.uz = 0 := mul_self_eq_zero.1 (by linarith)
    unfold inputDir; rw [e1, e2, e3]
  have hn : norm (inputDir q) = Real.sqrt (q.ux*q.ux + q.uy*q.uy + q.uz*q.uz) := rfl
  have hs : 0 < Real.sqrt (q.ux*q.ux + q.uy*q.uy + q.uz*q.uz) := Real.sqrt_pos.2 hpos
  have hsq := Real.mul_self_sqrt hpos.le
  rw [sqrt_real] at hd
  rw [hn] at hacc ⊢
  generalize Real.sqrt (q.ux*q.ux + q.uy*q.uy + q.uz*q.uz) = n at hd hs hsq hacc ⊢
  refine ⟨?_, ?_, hs, ?_⟩
  · rw [hd]; unfold Spec.IsUnit Spec.inner; simp only
    have : q.ux/n*(q.ux/n) + q.uy/n*(q.uy/n) + q.uz/n*(q.uz/n)
        = (q.ux*q.ux + q.uy*q.uy + q.uz*q.uz)/(n*n) := by field_simp
    rw [this, hsq, div_self hpos.ne']
  · rw [hd]; unfold times inputDir; simp only
    congr 1 <;> field_simp
  · rw [hd]; simp only
    refine lt_trans hacc.2 ?_
    have : (0:ℝ) < (2:ℝ)^(-52:ℤ) := by positivity
    linarith

/-- **C46** scaling the input direction by any positive factor changes nothing. -/
theorem C46_scaling (q : ParticleInput ℝ) (o : Options ℝ) (c : ℝ) (hc : 0 < c) :
    Particle.from_input { q with ux := c*q.ux, uy := c*q.uy, uz := c*q.uz } o =
      Particle.from_input q o := by
  have hs : Real.sqrt (c*q.ux*(c*q.ux) + c*q.uy*(c*q.uy) + c*q.uz*(c*q.uz)) =
      c*Real.sqrt (q.ux*q.ux + q.uy*q.uy + q.uz*q.uz) := by
    rw [show c*q.ux*(c*q.ux) + c*q.uy*(c*q.uy) + c*q.uz*(c*q.uz) =
      c^2*(q.ux*q.ux + q.uy*q.uy + q.uz*q.uz) by ring, Real.sqrt_mul (by positivity),
      Real.sqrt_sq hc.le]
  have hd : ∀ x : ℝ, c*x/(c*Real.sqrt (q.ux*q.ux + q.uy*q.uy + q.uz*q.uz)) =
      x/Real.sqrt (q.ux*q.ux + q.uy*q.uy + q.uz*q.uz) := fun x => mul_div_mul_left _ _ hc.ne'
  unfold Particle.from_input
  simp only [sqrt_real, hs, hd]

/-- **C46** consequently the length unit by which `input` multiplies the direction components (along
with the positions) does not matter. -/
theorem C46_direction_point (q : ParticleInput ℝ) (o : Options ℝ) (dx dy dz u : ℝ) (hu : 0 < u)
    (h : q.ux = dx*u ∧ q.uy = dy*u ∧ q.uz = dz*u) :
    Particle.from_input q o = Particle.from_input { q with ux := dx, uy := dy, uz := dz } o := by
  rw [← C46_scaling { q with ux := dx, uy := dy, uz := dz } o u hu]
  obtain ⟨h1, h2, h3⟩ := h
  congr 1
  cases q
  simp only at h1 h2 h3
  simp only [h1, h2, h3, mul_comm]

/-! ## C43 -/

theorem rsat_ite_both {α : Type} {c : Prop} [Decidable c] {a b : Res α} {Q : α → Prop}
    {E : Err → Prop} (ha : RSat a Q E) (hb : RSat b Q E) : RSat (if c then a else b) Q E := by
  by_cases h : c
  · rw [if_pos h]; exact ha
  · rw [if_neg h]; exact hb

theorem sat_notImpl_mono {α : Type} {r : Res α} (h : RSat r (fun _ => True) (fun _ => False)) :
    RSat r (fun _ => True) (fun e => ¬ NotImplemented e) :=
  rsat_mono h (fun _ h => h) (fun _ h => h.elim)

theorem numErr_ok : ¬ NotImplemented
    (.panic "Numerical error: r is NaN in distance of closest approach function.") := by
  simp [NotImplemented]

theorem screened_ok (r a Za Zb : F) :
    RSat (screened_coulomb r a Za Zb .KR_C) (fun _ => True) (fun e => ¬ NotImplemented e) ∧
    RSat (screened_coulomb r a Za Zb .ZBL) (fun _ => True) (fun e => ¬ NotImplemented e) := by
  constructor <;> simp [screened_coulomb, phi]

theorem tungsten_ok (r : F) :
    RSat (tungsten_tungsten_cubic_spline r) (fun _ => True) (fun e => ¬ NotImplemented e) := by
  unfold tungsten_tungsten_cubic_spline
  simp only
  split
  · exact (screened_ok _ _ _ _).2
  · split <;> simp

theorem doca_tungsten_ok (r p e : F) :
    RSat (doca_tungsten_tungsten_cubic_spline r p e) (fun _ => True)
      (fun e => ¬ NotImplemented e) := by
  unfold doca_tungsten_tungsten_cubic_spline
  simp only
  split
  · split
    · exact numErr_ok
    · simp [screened_doca_singularity_free, doca_function_transformed, phi]
  · simp only [rsat_bind]
    exact rsat_mono (tungsten_ok r) (fun _ _ => trivial) (fun _ h => h)

theorem krc_ok (r ip e a Za Zb D alpha r0 k x0 : F) :
    RSat (doca_krc_morse r ip e a Za Zb D alpha r0 k x0) (fun _ => True)
      (fun e => ¬ NotImplemented e) := by
  simp [doca_krc_morse, krc_morse, screened_coulomb, phi]

theorem doca_fun_ok (r a Za Zb e ip : F) (V : InteractionPotential F)
    (hV : ∀ Z1 Z2, V ≠ .COULOMB Z1 Z2) :
    RSat (distance_of_closest_approach_function r a Za Zb e ip V) (fun _ => True)
      (fun e => ¬ NotImplemented e) := by
  cases V with
  | COULOMB Z1 Z2 => exact absurd rfl (hV Z1 Z2)
  | WW => exact doca_tungsten_ok _ _ _
  | KRC_MORSE D alpha r0 k x0 => exact krc_ok _ _ _ _ _ _ _ _ _ _ _
  | _ => simp [distance_of_closest_approach_function, doca_function, phi]

theorem doca_sf_ok (r a Za Zb e ip : F) (V : InteractionPotential F)
    (hV : ∀ Z1 Z2, V ≠ .COULOMB Z1 Z2) :
    RSat (distance_of_closest_approach_function_singularity_free r a Za Zb e ip V) (fun _ => True)
      (fun e => ¬ NotImplemented e) := by
  unfold distance_of_closest_approach_function_singularity_free
  split
  · exact numErr_ok
  · cases V with
    | COULOMB Z1 Z2 => exact absurd rfl (hV Z1 Z2)
    | WW => exact doca_tungsten_ok _ _ _
    | KRC_MORSE D alpha r0 k x0 => exact krc_ok _ _ _ _ _ _ _ _ _ _ _
    | _ => simp [screened_doca_singularity_free, doca_function_transformed, phi]

theorem scaling_ok (r a : F) (V : InteractionPotential F) (hV : ∀ Z1 Z2, V ≠ .COULOMB Z1 Z2) :
    RSat (scaling_function r a V) (fun _ => True) (fun e => ¬ NotImplemented e) := by
  cases V with
  | COULOMB Z1 Z2 => exact absurd rfl (hV Z1 Z2)
  | _ => simp [scaling_function]

/-- Potentials with a derivative of the distance-of-closest-approach function. -/
def HasDeriv : InteractionPotential F → Prop
  | .FOUR_EIGHT .. | .WW | .KRC_MORSE .. | .COULOMB .. => False
  | _ => True

theorem diff_fun_ok (r a Za Zb e ip : F) (V : InteractionPotential F) (hV : HasDeriv V) :
    RSat (diff_distance_of_closest_approach_function r a Za Zb e ip V) (fun _ => True)
      (fun e => ¬ NotImplemented e) := by
  cases V <;> first
    | exact hV.elim
    | simp [diff_distance_of_closest_approach_function, diff_doca_function, dphi]

theorem newton_loop_impl {f df : F → Res F} {a tol : F}
    (hf : ∀ r, RSat (f r) (fun _ => True) (fun e => ¬ NotImplemented e))
    (hd : ∀ r, RSat (df r) (fun _ => True) (fun e => ¬ NotImplemented e)) :
    ∀ (n : Nat) (x : F), RSat (newton_loop f df a tol n x)
      (fun res => ∀ m, res = .error m → ¬ NotImplemented (.panic m)) (fun e => ¬ NotImplemented e) := by
  intro n
  induction n with
  | zero =>
    intro x
    simp only [newton_loop, rsat_pure]
    intro m hm
    obtain rfl : _ = m := Except.error.inj hm
    simp [NotImplemented]
  | succ n ih =>
    intro x
    simp only [newton_loop, rsat_bind]
    refine rsat_mono (hf _) (fun fx _ => ?_) (fun _ h => h)
    refine rsat_mono (hd _) (fun dfx _ => ?_) (fun _ h => h)
    split
    · simp
    · exact ih _

theorem unwrapA_ok {α : Type} {res : Anyhow α}
    (h : ∀ m, res = .error m → ¬ NotImplemented (.panic m)) :
    RSat (unwrapA res) (fun _ => True) (fun e => ¬ NotImplemented e) := by
  cases res with
  | ok a => simp [unwrapA]
  | error m => simpa [unwrapA] using h m rfl

theorem newton_rootfinder_ok (Za Zb Ma Mb E0 p : F) (V : InteractionPotential F) (hV : HasDeriv V)
    (n : Nat) (tol : F) :
    RSat (do let r ← newton_rootfinder Za Zb Ma Mb E0 p V n tol; unwrapA r) (fun _ => True)
      (fun e => ¬ NotImplemented e) := by
  simp only [rsat_bind, newton_rootfinder]
  refine rsat_mono (newton_loop_impl (fun r => doca_fun_ok _ _ _ _ _ _ V ?_)
    (fun r => diff_fun_ok _ _ _ _ _ _ V hV) _ _) (fun res h => unwrapA_ok h) (fun _ h => h)
  rintro Z1 Z2 rfl; exact hV

theorem cpr_rootfinder_ok {rcpr : Rcpr F} (hr : OnlyPropagates rcpr) (Za Zb Ma Mb E0 p : F)
    (V : InteractionPotential F) (hV : ∀ Z1 Z2, V ≠ .COULOMB Z1 Z2) (rf : Rootfinder F) (df : Bool)
    (hd : df = true ∨ HasDeriv V) :
    RSat (do let r ← cpr_rootfinder rcpr Za Zb Ma Mb E0 p V rf df; unwrapA r) (fun _ => True)
      (fun e => ¬ NotImplemented e) := by
  simp only [rsat_bind, cpr_rootfinder]
  have hg : ∀ r, RSat (do
      let u ← distance_of_closest_approach_function_singularity_free r (screening_length Za Zb V)
        Za Zb (E0*Mb/(Ma + Mb)) p V
      let w ← scaling_function r p V
      pure (u*w)) (fun _ => True) (fun e => ¬ NotImplemented e) := by
    intro r
    simp only [rsat_bind, rsat_pure]
    refine rsat_mono (doca_sf_ok _ _ _ _ _ _ V hV) (fun _ _ => ?_) (fun _ h => h)
    exact rsat_mono (scaling_ok _ _ V hV) (fun _ _ => trivial) (fun _ h => h)
  have fin : ∀ res : Anyhow (List F), (∀ m, res = .error m → ¬ NotImplemented (.panic m)) →
      RSat (unwrapA res) (fun roots => RSat (match max_root roots with
        | none => pure (.error "Numerical error: CPR rootfinder failed to find root.")
        | some r =>
          if isNaN (r/screening_length Za Zb V) = true then
            pure (.error "Numerical error: CPR rootfinder failed to find root.")
          else pure (.ok (r/screening_length Za Zb V)) : Res (Anyhow F))
        (fun r => RSat (unwrapA r) (fun _ => True) (fun e => ¬ NotImplemented e))
        (fun e => ¬ NotImplemented e)) (fun e => ¬ NotImplemented e) := by
    intro res h
    refine rsat_mono (unwrapA_ok h) (fun roots _ => ?_) (fun _ h => h)
    cases max_root roots with
    | none => simp [unwrapA, NotImplemented]
    | some r =>
      simp only
      split
      · simp [unwrapA, NotImplemented]
      · simp [unwrapA]
  cases df with
  | true =>
    simp only [if_true]
    exact rsat_mono (hr.secant _ _ _ _ _ hg (fun r => doca_fun_ok _ _ _ _ _ _ V hV)) fin
      (fun _ h => h)
  | false =>
    have hV' : HasDeriv V := hd.resolve_left (by simp)
    simp only [Bool.false_eq_true, if_false]
    exact rsat_mono (hr.newton _ _ _ _ _ _ hg (fun r => doca_fun_ok _ _ _ _ _ _ V hV)
      (fun r => diff_fun_ok _ _ _ _ _ _ V hV')) fin (fun _ h => h)

theorem polynomial_rootfinder_ok {rcpr : Rcpr F} (hr : OnlyPropagates rcpr) (Za Zb Ma Mb E0 p : F)
    (V : InteractionPotential F) (thr : F) (hV : CanSolve V (.POLYNOMIAL thr))
    (hC : ∀ Z1 Z2, V ≠ .COULOMB Z1 Z2) :
    RSat (do let r ← polynomial_rootfinder rcpr Za Zb Ma Mb E0 p V thr; unwrapA r) (fun _ => True)
      (fun e => ¬ NotImplemented e) := by
  have hc : RSat (polynomial_coefficients (E0*Mb/(Ma + Mb)) p V) (fun _ => True)
      (fun e => ¬ NotImplemented e) := by
    cases V <;> first
      | exact absurd rfl (hC _ _)
      | exact hV.elim
      | simp [polynomial_coefficients]
  have hi : ∀ x, RSat (inverse_transform x V) (fun _ => True) (fun e => ¬ NotImplemented e) := by
    intro x
    cases V <;> first
      | exact absurd rfl (hC _ _)
      | exact hV.elim
      | simp [inverse_transform]
  simp only [rsat_bind, polynomial_rootfinder]
  refine rsat_mono hc (fun c _ => ?_) (fun _ h => h)
  refine rsat_mono (unwrapA_ok (fun m hm => hr.polynomial _ _ m hm)) (fun roots _ => ?_)
    (fun _ h => h)
  cases max_root roots with
  | none => simp [unwrapA, NotImplemented]
  | some r =>
    simp only [rsat_bind]
    refine rsat_mono (hi r) (fun x _ => ?_) (fun _ h => h)
    split
    · simp [unwrapA, NotImplemented]
    · simp [unwrapA]

/-- The entry-wise facts the compatibility check establishes. -/
theorem check_compatibility_entry {cpr : Bool} {options : Options F}
    (h : check_compatibility cpr options = .ok ()) {i j : Nat} {V : InteractionPotential F}
    {si : ScatteringIntegral} {rf : Rootfinder F}
    (hV : Entry options.interaction_potential i j V) (hs : Entry options.scattering_integral i j si)
    (hr : Entry options.root_finder i j rf) :
    rootfinder_enabled cpr rf = true ∧ compatible V rf = true := by
  have inner : ∀ rows : (List (InteractionPotential F) × List ScatteringIntegral) ×
      List (Rootfinder F), RSat (forFold (fun (_ : Unit) (entry : (InteractionPotential F ×
        ScatteringIntegral) × Rootfinder F) => do
      rassert (rootfinder_enabled cpr entry.2)
        "Input error: CPR rootfinder not enabled. Build with --features cpr_rootfinder"
      rassert (compatible entry.1.1 entry.2) "Input error: cannot use potential with rootfinder.")
      ((rows.1.1.zip rows.1.2).zip rows.2) ())
      (fun _ => ∀ e ∈ (rows.1.1.zip rows.1.2).zip rows.2,
        rootfinder_enabled cpr e.2 = true ∧ compatible e.1.1 e.2 = true) (fun _ => True) := by
    intro rows
    generalize (rows.1.1.zip rows.1.2).zip rows.2 = l
    induction l with
    | nil => simp [forFold]
    | cons e l ih =>
      simp only [forFold, rsat_bind, rsat_assert]
      refine ⟨fun h1 => ⟨fun h2 => ?_, fun _ => trivial⟩, fun _ => trivial⟩
      refine rsat_mono ih (fun _ hq x hx => ?_) (fun _ h => h)
      rcases List.mem_cons.1 hx with rfl | hx
      · exact ⟨h1, h2⟩
      · exact hq x hx
  have outer : ∀ l : List ((List (InteractionPotential F) × List ScatteringIntegral) ×
      List (Rootfinder F)), RSat (forFold (fun (_ : Unit) rows =>
        forFold (fun (_ : Unit) (entry : (InteractionPotential F ×
          ScatteringIntegral) × Rootfinder F) => do
        rassert (rootfinder_enabled cpr entry.2)
          "Input error: CPR rootfinder not enabled. Build with --features cpr_rootfinder"
        rassert (compatible entry.1.1 entry.2) "Input error: cannot use potential with rootfinder.")
        ((rows.1.1.zip rows.1.2).zip rows.2) ()) l ())
      (fun _ => ∀ rows ∈ l, ∀ e ∈ (rows.1.1.zip rows.1.2).zip rows.2,
        rootfinder_enabled cpr e.2 = true ∧ compatible e.1.1 e.2 = true) (fun _ => True) := by
    intro l
    induction l with
    | nil => simp [forFold]
    | cons e l ih =>
      rw [forFold, rsat_bind]
      refine rsat_mono (inner e) (fun _ h1 => ?_) (fun _ h => h)
      refine rsat_mono ih (fun _ hq x hx => ?_) (fun _ h => h)
      rcases List.mem_cons.1 hx with rfl | hx
      · exact h1
      · exact hq x hx
  have := rsat_of_ok (outer _) h
  obtain ⟨r1, a1, b1⟩ := hV
  obtain ⟨r2, a2, b2⟩ := hs
  obtain ⟨r3, a3, b3⟩ := hr
  have m1 : ((r1, r2), r3) ∈ (options.interaction_potential.zip
      options.scattering_integral).zip options.root_finder :=
    List.mem_iff_getElem?.2 ⟨i, by simp [List.getElem?_zip_eq_some, a1, a2, a3]⟩
  have m2 : ((V, si), rf) ∈ (r1.zip r2).zip r3 :=
    List.mem_iff_getElem?.2 ⟨j, by simp [List.getElem?_zip_eq_some, b1, b2, b3]⟩
  exact this _ m1 _ m2

theorem compatible_iff (V : InteractionPotential F) (rf : Rootfinder F) :
    compatible V rf = true ↔ ¬ MustRefuse V rf := by
  cases V <;> cases rf <;> simp [compatible, MustRefuse]

/-- **C43** (what `input` refuses) No accepted run pairs a Lennard-Jones or Morse potential with a
Newton-type root finder, or the polynomial root finder with a potential that is not a polynomial;
and CPR and POLYNOMIAL are accepted only by a build that has them. -/
theorem C43_accepted_pairs {ext : Ext F} {sampler : Sampler F} {cpr : Bool}
    {options : Options F} {material : Res (Material F)} {p : ParticleParameters F} {t t' : Tape F}
    {acc : Accepted F} (run : input ext sampler cpr options material p t = .ok (acc, t'))
    {i j : Nat} {V : InteractionPotential F} {si : ScatteringIntegral} {rf : Rootfinder F}
    (hV : Entry acc.options.interaction_potential i j V)
    (hs : Entry acc.options.scattering_integral i j si)
    (hr : Entry acc.options.root_finder i j rf) :
    ¬ MustRefuse V rf ∧
      (cpr = false → rf = .DEFAULTNEWTON ∨ ∃ n tol, rf = .NEWTON n tol) := by
  obtain ⟨m0, p', mi, pi, h⟩ := input_facts run
  rw [h.opts] at *
  obtain ⟨hen, hcomp⟩ := check_compatibility_entry h.cc hV hs hr
  refine ⟨(compatible_iff V rf).1 hcomp, fun hc => ?_⟩
  subst hc
  cases rf <;> simp_all [rootfinder_enabled]

/-- **C43** (what the table does not refuse) The compatibility check passes whenever every entry of
the matrices is a pair that need not be refused and is available in this build. -/
theorem C43_check_passes {cpr : Bool} {options : Options F}
    (ok : ∀ i j V si rf, Entry options.interaction_potential i j V →
      Entry options.scattering_integral i j si → Entry options.root_finder i j rf →
      ¬ MustRefuse V rf ∧
      (cpr = false → rf = .DEFAULTNEWTON ∨ ∃ n tol, rf = .NEWTON n tol)) :
    check_compatibility cpr options = .ok () := by
  have inner : ∀ l : List ((InteractionPotential F × ScatteringIntegral) × Rootfinder F),
      (∀ e ∈ l, rootfinder_enabled cpr e.2 = true ∧ compatible e.1.1 e.2 = true) →
      forFold (fun (_ : Unit) (entry : (InteractionPotential F × ScatteringIntegral) ×
        Rootfinder F) => (do
      rassert (rootfinder_enabled cpr entry.2)
        "Input error: CPR rootfinder not enabled. Build with --features cpr_rootfinder"
      rassert (compatible entry.1.1 entry.2) "Input error: cannot use potential with rootfinder."
        : Res Unit)) l () = .ok () := by
    intro l
    induction l with
    | nil => intro _; rfl
    | cons e l ih =>
      intro h
      obtain ⟨h1, h2⟩ := h e (by simp)
      simp only [forFold, h1, h2, rassert, if_true, bind, Except.bind, pure, Except.pure]
      have := ih fun x hx => h x (by simp [hx])
      simpa only [rassert, bind, Except.bind, pure, Except.pure] using this
  have outer : ∀ l : List ((List (InteractionPotential F) × List ScatteringIntegral) ×
      List (Rootfinder F)),
      (∀ rows ∈ l, ∀ e ∈ (rows.1.1.zip rows.1.2).zip rows.2,
        rootfinder_enabled cpr e.2 = true ∧ compatible e.1.1 e.2 = true) →
      forFold (fun (_ : Unit) (rows : (List (InteractionPotential F) × List ScatteringIntegral) ×
          List (Rootfinder F)) =>
        forFold (fun (_ : Unit) (entry : (InteractionPotential F ×
          ScatteringIntegral) × Rootfinder F) => (do
        rassert (rootfinder_enabled cpr entry.2)
          "Input error: CPR rootfinder not enabled. Build with --features cpr_rootfinder"
        rassert (compatible entry.1.1 entry.2) "Input error: cannot use potential with rootfinder."
          : Res Unit))
        ((rows.1.1.zip rows.1.2).zip rows.2) ()) l () = .ok () := by
    intro l
    induction l with
    | nil => intro _; rfl
    | cons e l ih =>
      intro h
      rw [forFold, inner _ (h e (by simp))]
      exact ih fun x hx => h x (by simp [hx])
  refine outer _ ?_
  rintro ⟨⟨r1, r2⟩, r3⟩ hrow ⟨⟨V, si⟩, rf⟩ he
  obtain ⟨i, hi⟩ := List.mem_iff_getElem?.1 hrow
  obtain ⟨j, hj⟩ := List.mem_iff_getElem?.1 he
  simp only [List.getElem?_zip_eq_some] at hi hj
  obtain ⟨g1, g2⟩ := ok i j V si rf ⟨r1, hi.1.1, hj.1.1⟩ ⟨r2, hi.1.2, hj.1.2⟩ ⟨r3, hi.2, hj.2⟩
  refine ⟨?_, (compatible_iff V rf).2 g1⟩
  cases cpr
  · rcases g2 rfl with rfl | ⟨n, tol, rfl⟩ <;> rfl
  · rfl

/-- **C43** (for the potentials that have what their root finder needs) If `input` accepts the
options, then for every pair looked up, with finite relative energy, the distance of closest
approach never fails because something is not implemented: not for want of the `cpr_rootfinder`
feature, of a derivative, or of a polynomial form.

Missing for the full property: `input` also accepts WW, KRC_MORSE and FOUR_EIGHT with
Newton-type root finders, for which `CanSolve` is false; see `C43_refuted`. -/
theorem C43_rootfinder_implemented_partial {ext : Ext F} {sampler : Sampler F}
    {options : Options F} {material : Res (Material F)} {p : ParticleParameters F} {t t' : Tape F}
    {acc : Accepted F} {rcpr : Rcpr F} (hrc : OnlyPropagates rcpr)
    (run : input ext sampler rcpr.enabled options material p t = .ok (acc, t'))
    (p1 p2 : Particle F) (g : BinaryCollisionGeometry F)
    {V : InteractionPotential F} {si : ScatteringIntegral} {rf : Rootfinder F}
    (hV : Entry acc.options.interaction_potential p1.interaction_index p2.interaction_index V)
    (hs : Entry acc.options.scattering_integral p1.interaction_index p2.interaction_index si)
    (hr : Entry acc.options.root_finder p1.interaction_index p2.interaction_index rf)
    (hE : (p1.E*p2.m/(p1.m + p2.m) <. infinity) = true)
    (can : CanSolve V rf) :
    RSat (distance_of_closest_approach rcpr p1 p2 g acc.options) (fun _ => True)
      (fun e => ¬ NotImplemented e) := by
  obtain ⟨m0, p', mi, pi, h⟩ := input_facts run
  rw [h.opts] at *
  obtain ⟨hen, hcomp⟩ := check_compatibility_entry h.cc hV hs hr
  obtain ⟨rowV, hV1, hV2⟩ := hV
  obtain ⟨rowR, hr1, hr2⟩ := hr
  unfold distance_of_closest_approach
  simp only [rsat_bind, rsat_vget, hV1, hV2, hr1, hr2, Option.some.injEq, forall_eq', reduceCtorEq,
    false_implies, and_true, rsat_pure]
  by_cases hC : ∃ Z1 Z2, V = .COULOMB Z1 Z2
  · obtain ⟨Z1, Z2, rfl⟩ := hC; simp
  · have hC' : ∀ Z1 Z2, V ≠ .COULOMB Z1 Z2 := fun Z1 Z2 e => hC ⟨Z1, Z2, e⟩
    have main : ∀ rf', (rf' = rf ∨ (HasDeriv V ∧ ∃ n tol, rf' = .NEWTON n tol)) →
        RSat (match rf' with
          | .NEWTON max_iterations tolerance => do
            let r ← newton_rootfinder p1.Z p2.Z p1.m p2.m p1.E g.impact_parameter V
              max_iterations tolerance
            unwrapA r
          | .DEFAULTNEWTON => do
            let r ← newton_rootfinder p1.Z p2.Z p1.m p2.m p1.E g.impact_parameter V 100 1e-3
            unwrapA r
          | .POLYNOMIAL complex_threshold =>
            if rcpr.enabled = true then do
              let r ← polynomial_rootfinder rcpr p1.Z p2.Z p1.m p2.m p1.E g.impact_parameter V
                complex_threshold
              unwrapA r
            else rpanic "Input error: unimplemented root-finder."
          | .CPR n0 nmax eps ct tt fz il derivative_free =>
            if rcpr.enabled = true then do
              let r ← cpr_rootfinder rcpr p1.Z p2.Z p1.m p2.m p1.E g.impact_parameter V
                (.CPR n0 nmax eps ct tt fz il derivative_free) derivative_free
              unwrapA r
            else rpanic "Input error: unimplemented root-finder.") (fun _ => True)
          (fun e => ¬ NotImplemented e) := by
      rintro rf' (rfl | ⟨hd, n, tol, rfl⟩)
      · cases rf' with
        | NEWTON n tol =>
          refine newton_rootfinder_ok _ _ _ _ _ _ V ?_ _ _
          cases V <;> first | exact absurd rfl (hC' _ _) | exact can.elim | trivial
        | DEFAULTNEWTON =>
          refine newton_rootfinder_ok _ _ _ _ _ _ V ?_ _ _
          cases V <;> first | exact absurd rfl (hC' _ _) | exact can.elim | trivial
        | POLYNOMIAL thr =>
          have : rcpr.enabled = true := by simpa [rootfinder_enabled] using hen
          simp only [this, if_true]
          exact polynomial_rootfinder_ok hrc _ _ _ _ _ _ V thr can hC'
        | CPR n0 nmax eps ct tt fz il df =>
          have : rcpr.enabled = true := by simpa [rootfinder_enabled] using hen
          simp only [this, if_true]
          refine cpr_rootfinder_ok hrc _ _ _ _ _ _ V hC' _ df ?_
          cases V <;> first
            | exact absurd rfl (hC' _ _)
            | exact Or.inl can
            | exact Or.inr trivial
      · exact newton_rootfinder_ok _ _ _ _ _ _ V hd _ _
    cases V <;> first
      | exact absurd rfl (hC' _ _)
      | (simp only [energy_threshold_single_root, hE, if_true, rsat_bind]
         simp only [rsat_vget, rsat_bind, hr1, hr2, Option.some.injEq, forall_eq', reduceCtorEq, false_implies, and_true]
         exact main rf (Or.inl rfl))
      | (simp only [energy_threshold_single_root, rsat_bind]
         refine rsat_ite_both ?_ ?_
         · simp only [rsat_vget, rsat_bind, hr1, hr2, Option.some.injEq, forall_eq',
             reduceCtorEq, false_implies, and_true]
           exact main rf (Or.inl rfl)
         · exact main (.NEWTON 100 1e-6) (Or.inr ⟨trivial, 100, _, rfl⟩))

end RustBCA

namespace RustBCA
open Scalar Spec

/-- The distance-of-closest-approach functions of the three attractive potentials without a
derivative are themselves defined everywhere (exact arithmetic). -/
theorem doca_fun_defined (r a Za Zb e ip : ℝ) (V : InteractionPotential ℝ)
    (hV : V = .WW ∨ (∃ D al r0 k x0, V = .KRC_MORSE D al r0 k x0) ∨ ∃ al be, V = .FOUR_EIGHT al be) :
    ∃ v, distance_of_closest_approach_function r a Za Zb e ip V = .ok v := by
  rcases hV with rfl | ⟨D, al, r0, k, x0, rfl⟩ | ⟨al, be, rfl⟩
  · simp only [distance_of_closest_approach_function, doca_tungsten_tungsten_cubic_spline]
    split
    · exact ⟨_, rfl⟩
    · unfold tungsten_tungsten_cubic_spline
      simp only
      split
      · exact ⟨_, rfl⟩
      · split <;> exact ⟨_, rfl⟩
  · exact ⟨_, rfl⟩
  · exact ⟨_, rfl⟩

/-- WW, KRC_MORSE and FOUR_EIGHT can never be solved with a Newton root finder: every collision
panics because no derivative is implemented. -/
theorem C43_newton_never_works (rcpr : Rcpr ℝ) (p1 p2 : Particle ℝ) (g : BinaryCollisionGeometry ℝ)
    (options : Options ℝ) (V : InteractionPotential ℝ) (rf : Rootfinder ℝ)
    (hV : V = .WW ∨ (∃ D al r0 k x0, V = .KRC_MORSE D al r0 k x0) ∨ ∃ al be, V = .FOUR_EIGHT al be)
    (hrf : rf = .DEFAULTNEWTON ∨ ∃ n tol, rf = .NEWTON (n + 1) tol)
    (hE : Entry options.interaction_potential p1.interaction_index p2.interaction_index V)
    (hR : Entry options.root_finder p1.interaction_index p2.interaction_index rf) :
    distance_of_closest_approach rcpr p1 p2 g options =
      .error (.panic "Input error: potential does not have an implemented derivative.") := by
  have hd : ∀ r a Za Zb e ip, diff_distance_of_closest_approach_function r a Za Zb e ip V =
      .error (.panic "Input error: potential does not have an implemented derivative.") := by
    rcases hV with rfl | ⟨D, al, r0, k, x0, rfl⟩ | ⟨al, be, rfl⟩ <;> intros <;> rfl
  have hn : ∀ Za Zb Ma Mb E0 p n tol, newton_rootfinder Za Zb Ma Mb E0 p V (n + 1) tol =
      .error (.panic "Input error: potential does not have an implemented derivative.") := by
    intro Za Zb Ma Mb E0 p n tol
    simp only [newton_rootfinder, newton_loop]
    obtain ⟨v, hv⟩ := doca_fun_defined
      ((if (LINDHARD_REDUCED_ENERGY_PREFACTOR ℝ*screening_length Za Zb V*Mb/(Ma+Mb)/Za/Zb*E0 >. 5.0)
          = true then
        0.5/(LINDHARD_REDUCED_ENERGY_PREFACTOR ℝ*screening_length Za Zb V*Mb/(Ma+Mb)/Za/Zb*E0) +
        sqrt (0.5/(LINDHARD_REDUCED_ENERGY_PREFACTOR ℝ*screening_length Za Zb V*Mb/(Ma+Mb)/Za/Zb*E0)*
        (0.5/(LINDHARD_REDUCED_ENERGY_PREFACTOR ℝ*screening_length Za Zb V*Mb/(Ma+Mb)/Za/Zb*E0)) +
        p/screening_length Za Zb V*(p/screening_length Za Zb V)) else p/screening_length Za Zb V)*
        screening_length Za Zb V) (screening_length Za Zb V) Za Zb (E0*Mb/(Ma + Mb)) p V hV
    rw [hv, hd]; rfl
  obtain ⟨rowV, hV1, hV2⟩ := hE
  obtain ⟨rowR, hR1, hR2⟩ := hR
  have hlook : (do let row ← vget options.root_finder p1.interaction_index
                   vget row p2.interaction_index : Res (Rootfinder ℝ)) = .ok rf := by
    simp [vget, hR1, hR2, bind, Except.bind]
  unfold distance_of_closest_approach
  simp only [vget, hV1, hV2, bind, Except.bind]
  simp only [vget, bind, Except.bind] at hlook
  have hn1 : ∀ Za Zb Ma Mb E0 p tol, newton_rootfinder Za Zb Ma Mb E0 p V 100 tol =
      .error (.panic "Input error: potential does not have an implemented derivative.") :=
    fun Za Zb Ma Mb E0 p tol => hn Za Zb Ma Mb E0 p 99 tol
  rcases hV with rfl | ⟨D, al, r0, k, x0, rfl⟩ | ⟨al, be, rfl⟩
  all_goals
    simp only [energy_threshold_single_root]
    by_cases hc : (p1.E*p2.m/(p1.m + p2.m) <. infinity) = true
    · simp only [hc, if_true, hlook]
      rcases hrf with rfl | ⟨n, tol, rfl⟩
      · simp only [hn1]
      · simp only [hn]
    · simp only [hc, Bool.false_eq_true, if_false, pure, Except.pure, hn1]


/-! ## C64 -/

variable {F : Type} [Scalar F]

theorem complete_material_index {m0 m1 : Material F} (h : complete_material m0 = .ok m1) :
    m1.interaction_index = if m0.interaction_index.length ≤ 1 then
      List.replicate m0.m.length 0 else m0.interaction_index := by
  have key : RSat (complete_material m0) (fun m1 => m1.interaction_index =
      if m0.interaction_index.length ≤ 1 then List.replicate m0.m.length 0
      else m0.interaction_index) (fun _ => True) := by
    unfold complete_material
    simp only [rsat_bind, rsat_assert]
    refine ⟨fun _ => ⟨fun _ => ⟨fun _ => ?_, fun _ => trivial⟩, fun _ => trivial⟩, fun _ => trivial⟩
    by_cases hl : m0.interaction_index.length ≤ 1
    · simp only [if_pos hl]
      refine rsat_ite_both ?_ rfl
      simp only [rsat_bind]
      exact rsat_mono (rsat_trivial _) (fun _ _ => rfl) (fun _ _ => trivial)
    · simp only [if_neg hl]
      refine rsat_ite_both ?_ rfl
      simp only [rsat_bind]
      exact rsat_mono (rsat_trivial _) (fun _ _ => rfl) (fun _ _ => trivial)
  have := rsat_of_ok key h
  exact this

/-- **C64** (for lists with at least two entries) the interaction indices the user gives are the
ones used: every accepted ion of species `i` carries the `i`-th given index, and the target keeps
its list.

Missing for the full property: a list with a single entry is silently replaced by zeros
(input.rs:406-408, 484-486), see `C64_refuted`. -/
theorem C64_indices_honoured_partial {ext : Ext F} {sampler : Sampler F} {cpr : Bool}
    {options : Options F} {m0 : Material F} {p : ParticleParameters F} {t t' : Tape F}
    {acc : Accepted F} (run : input ext sampler cpr options (.ok m0) p t = .ok (acc, t')) :
    (2 ≤ m0.interaction_index.length → acc.material.interaction_index = m0.interaction_index) ∧
    (2 ≤ p.interaction_index.length → ∃ blocks : List (List (ParticleInput F)),
      acc.particle_input_array = blocks.flatten ∧ blocks.length = p.Z.length ∧
      ∀ (i : Nat) (b : List (ParticleInput F)), blocks[i]? = some b →
        ∀ q ∈ b, p.interaction_index[i]? = some q.interaction_index) := by
  obtain ⟨m0', p', mi, pi, h⟩ := input_facts run
  obtain rfl : m0 = m0' := Except.ok.inj h.hm0
  constructor
  · intro h2
    rw [complete_material_index h.hm, if_neg (by omega)]
  · intro h2
    obtain ⟨-, -, -, blocks, e1, e2, e3⟩ := C45_requested_ions run
    refine ⟨blocks, e1, e2, fun i b hb q hq => ?_⟩
    have := ((e3 i b hb).2 q hq).interaction_index
    unfold indexOf at this
    rwa [if_neg (by omega)] at this

/-- **C64 refuted** in general: a single-species target (or ion) given interaction index 1 is
simulated with index 0. -/
theorem C64_refuted {ext : Ext F} {sampler : Sampler F} {cpr : Bool}
    {options : Options F} {m0 : Material F} {p : ParticleParameters F} {t t' : Tape F}
    {acc : Accepted F} (run : input ext sampler cpr options (.ok m0) p t = .ok (acc, t'))
    (hm : m0.interaction_index = [1]) (hp : p.interaction_index = [1]) :
    (∀ i ∈ acc.material.interaction_index, i = 0) ∧
    (∀ q ∈ acc.particle_input_array, q.interaction_index = 0) := by
  obtain ⟨m0', p', mi, pi, h⟩ := input_facts run
  obtain rfl : m0 = m0' := Except.ok.inj h.hm0
  constructor
  · intro i hi
    rw [complete_material_index h.hm, if_pos (by simp [hm])] at hi
    exact List.eq_of_mem_replicate hi
  · intro q hq
    obtain ⟨-, -, -, blocks, e1, e2, e3⟩ := C45_requested_ions run
    rw [e1] at hq
    obtain ⟨b, hb, hqb⟩ := List.mem_flatten.1 hq
    obtain ⟨k, hk⟩ := List.mem_iff_getElem?.1 hb
    have := ((e3 k b hk).2 q hqb).interaction_index
    unfold indexOf at this
    rw [if_pos (by simp [hp])] at this
    exact (Option.some.inj this).symm

end RustBCA
