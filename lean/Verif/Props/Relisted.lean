import Verif.Spec.Relisted
import Verif.Proofs.Relational
import Verif.Props.Materials
import Verif.Model.Physics
import Mathlib.Tactic.Linarith
import Mathlib.Tactic.Ring

/-!
# C112: listing the species in another way
-/

set_option linter.unusedVariables false
set_option linter.unusedSectionVars false
set_option linter.unusedSimpArgs false

namespace RustBCA
open Scalar Spec

/-- sums over the species -/
theorem relisted_sum {l l' : List (Row × ℝ)} (h : Relisted l l') (f : Row → ℝ) :
    (l'.map fun q => f q.1*q.2).sum = (l.map fun q => f q.1*q.2).sum := by
  induction h with
  | nil => rfl
  | same r x hx h ih => simp only [List.map_cons, List.sum_cons, ih]
  | part r x y hx hy h ih =>
    simp only [List.map_cons, List.sum_cons] at ih ⊢
    rw [ih]; ring
  | nothing r h ih =>
    simp only [List.map_cons, List.sum_cons, ih]; ring

/-- the search for the struck species -/
theorem relisted_choose {l l' : List (Row × ℝ)} (h : Relisted l l') :
    ∀ s r : ℝ, s ≤ r →
      (∃ i j, Material.choose_index r (Material.cumulative s (l.map Prod.snd)) = some i ∧
        Material.choose_index r (Material.cumulative s (l'.map Prod.snd)) = some j ∧
        ∃ a b, l[i]? = some a ∧ l'[j]? = some b ∧ a.1 = b.1) ∨
      (Material.choose_index r (Material.cumulative s (l.map Prod.snd)) = none ∧
        Material.choose_index r (Material.cumulative s (l'.map Prod.snd)) = none) := by
  induction h with
  | nil => intro s r _; exact .inr ⟨rfl, rfl⟩
  | same a x hx h ih =>
    intro s r hs
    simp only [List.map_cons, Material.cumulative, Material.choose_index]
    by_cases hr : (r <. s + x) = true
    · simp only [hr, if_true]
      exact .inl ⟨0, 0, rfl, rfl, _, _, rfl, rfl, rfl⟩
    · simp only [hr, Bool.false_eq_true, if_false]
      have hr' : s + x ≤ r := not_lt.1 (fun c => hr ((lt_real _ _).2 c))
      rcases ih (s + x) r hr' with ⟨i, j, h1, h2, u, v, h3, h4, h5⟩ | ⟨h1, h2⟩
      · rw [h1, h2]
        exact .inl ⟨i + 1, j + 1, rfl, rfl, u, v, h3, h4, h5⟩
      · rw [h1, h2]; exact .inr ⟨rfl, rfl⟩
  | part a x y hx hy h ih =>
    intro s r hs
    simp only [List.map_cons, Material.cumulative, Material.choose_index] at ih ⊢
    by_cases hr : (r <. s + x) = true
    · have h1 : (r <. s + (x + y)) = true := (lt_real _ _).2 (by have := (lt_real _ _).1 hr; linarith)
      simp only [hr, h1, if_true]
      exact .inl ⟨0, 0, rfl, rfl, _, _, rfl, rfl, rfl⟩
    · have hr' : s + x ≤ r := not_lt.1 (fun c => hr ((lt_real _ _).2 c))
      simp only [hr, Bool.false_eq_true, if_false]
      have := ih (s + x) r hr'
      rw [show s + x + y = s + (x + y) by ring] at this
      rcases this with ⟨i, j, h1, h2, u, v, h3, h4, h5⟩ | ⟨h1, h2⟩
      · rw [h1, h2]
        refine .inl ⟨i, j + 1, rfl, rfl, ?_⟩
        cases i with
        | zero =>
          simp only [List.getElem?_cons_zero, Option.some.injEq] at h3
          subst h3
          exact ⟨_, v, rfl, h4, h5⟩
        | succ i => exact ⟨u, v, h3, h4, h5⟩
      · rw [h1, h2]; exact .inr ⟨rfl, rfl⟩
  | nothing a h ih =>
    intro s r hs
    simp only [List.map_cons, Material.cumulative, Material.choose_index, add_zero] at ih ⊢
    have hr : (r <. s) = false := by
      rw [lt_real_false]; exact hs
    simp only [hr, Bool.false_eq_true, if_false]
    rcases ih s r hs with ⟨i, j, h1, h2, u, v, h3, h4, h5⟩ | ⟨h1, h2⟩
    · rw [h1, h2]
      exact .inl ⟨i, j + 1, rfl, rfl, u, v, h3, h4, h5⟩
    · rw [h1, h2]; exact .inr ⟨rfl, rfl⟩

theorem relisted_nonneg {l l' : List (Row × ℝ)} (h : Relisted l l') :
    (∀ q ∈ l, 0 ≤ q.2) ∧ ∀ q ∈ l', 0 ≤ q.2 := by
  induction h with
  | nil => simp
  | same a x hx h ih =>
    refine ⟨?_, ?_⟩ <;> intro q hq <;> rcases List.mem_cons.1 hq with rfl | hq
    · exact hx
    · exact ih.1 q hq
    · exact hx
    · exact ih.2 q hq
  | part a x y hx hy h ih =>
    refine ⟨?_, ?_⟩ <;> intro q hq <;> rcases List.mem_cons.1 hq with rfl | hq
    · exact add_nonneg hx hy
    · exact ih.1 q (List.mem_cons_of_mem _ hq)
    · exact hx
    · exact ih.2 q hq
  | nothing a h ih =>
    refine ⟨ih.1, ?_⟩
    intro q hq
    rcases List.mem_cons.1 hq with rfl | hq
    · exact le_rfl
    · exact ih.2 q hq

/-- the search from the start, for every random number -/
theorem relisted_choose0 {rows rows' : List Row} {d d' : List ℝ} (hd : d.length = rows.length)
    (hd' : d'.length = rows'.length) (h : Relisted (rows.zip d) (rows'.zip d'))
    (first : rows'.head? = rows.head?) (r : ℝ) :
    (∃ i j a, Material.choose_index r (Material.cumulative (0.0:ℝ) d) = some i ∧
      Material.choose_index r (Material.cumulative (0.0:ℝ) d') = some j ∧
      rows[i]? = some a ∧ rows'[j]? = some a) ∨
    (Material.choose_index r (Material.cumulative (0.0:ℝ) d) = none ∧
      Material.choose_index r (Material.cumulative (0.0:ℝ) d') = none) := by
  have e0 : (0.0:ℝ) = 0 := by norm_num
  rw [e0]
  have s1 : (rows.zip d).map Prod.snd = d := List.map_snd_zip (by omega)
  have s2 : (rows'.zip d').map Prod.snd = d' := List.map_snd_zip (by omega)
  by_cases hr : 0 ≤ r
  · have := relisted_choose h 0 r hr
    rw [s1, s2] at this
    rcases this with ⟨i, j, h1, h2, a, b, h3, h4, h5⟩ | h
    · refine .inl ⟨i, j, a.1, h1, h2, ?_, ?_⟩
      · rw [List.getElem?_zip_eq_some] at h3; exact h3.1
      · rw [List.getElem?_zip_eq_some] at h4; rw [h5]; exact h4.1
    · exact .inr h
  · have hr' : r < 0 := lt_of_not_ge hr
    obtain ⟨n1, n2⟩ := relisted_nonneg h
    cases rows with
    | nil =>
      cases rows' with
      | nil =>
        obtain rfl := List.length_eq_zero_iff.1 hd
        obtain rfl := List.length_eq_zero_iff.1 hd'
        exact .inr ⟨rfl, rfl⟩
      | cons a l => simp at first
    | cons a l =>
      cases rows' with
      | nil => simp at first
      | cons b l' =>
        simp only [List.head?_cons, Option.some.injEq] at first
        subst first
        obtain ⟨x, ds, rfl⟩ : ∃ x ds, d = x :: ds := List.exists_cons_of_length_eq_add_one (by simpa using hd)
        obtain ⟨x', ds', rfl⟩ : ∃ x ds, d' = x :: ds := List.exists_cons_of_length_eq_add_one (by simpa using hd')
        have p1 : 0 ≤ x := n1 (b, x) (by simp)
        have p2 : 0 ≤ x' := n2 (b, x') (by simp)
        have q1 : (r <. 0 + x) = true := (lt_real _ _).2 (by linarith)
        have q2 : (r <. 0 + x') = true := (lt_real _ _).2 (by linarith)
        refine .inl ⟨0, 0, b, ?_, ?_, rfl, rfl⟩
        · simp only [Material.cumulative, Material.choose_index, q1, if_true]
        · simp only [Material.cumulative, Material.choose_index, q2, if_true]

variable {mat mat' : Material ℝ} {rows rows' : List Row}

theorem amounts_rel {a a' : Res (List ℝ)} (h : SameAmounts rows rows' a a') :
    RRel (fun d d' => d.length = rows.length ∧ d'.length = rows'.length ∧
      Relisted (rows.zip d) (rows'.zip d')) a a' := by
  rcases h with ⟨d, d', rfl, rfl, h⟩ | ⟨e, rfl, rfl⟩
  · exact h
  · exact (rfl : e = e)

theorem weighted_eq {d d' : List ℝ} (h : Relisted (rows.zip d) (rows'.zip d')) (f : Row → ℝ) :
    Material.weighted_sum (rows'.map f) d' = Material.weighted_sum (rows.map f) d := by
  have key : ∀ (rows : List Row) (d : List ℝ), Material.weighted_sum (rows.map f) d
      = ((rows.zip d).map fun q => f q.1*q.2).sum := by
    intro rows d
    rw [Material.weighted_sum, fsum_real, List.zip_map_left, List.map_map]
    rfl
  rw [key, key, relisted_sum h]

theorem total_eq {d d' : List ℝ} (hd : d.length = rows.length) (hd' : d'.length = rows'.length)
    (h : Relisted (rows.zip d) (rows'.zip d')) : fsum d' = fsum d := by
  have key : ∀ (rows : List Row) (d : List ℝ), d.length = rows.length →
      fsum d = ((rows.zip d).map fun q => (1:ℝ)*q.2).sum := by
    intro rows d hd
    rw [fsum_real]
    conv_lhs => rw [← List.map_snd_zip (l₁ := rows) (l₂ := d) (by omega)]
    exact congrArg _ (List.map_congr_left fun q _ => (one_mul _).symm)
  rw [key rows' d' hd', key rows d hd]
  exact relisted_sum h fun _ => 1

namespace Spec.SameMixture
variable (h : SameMixture mat mat' rows rows')
include h

theorem total (x y z : ℝ) : mat'.total_number_density x y z = mat.total_number_density x y z := by
  simp only [Material.total_number_density]
  rcases h.densities x y z with ⟨d, d', h1, h2, h3, h4, h5⟩ | ⟨e, h1, h2⟩
  · rw [h1, h2]; exact congrArg Except.ok (total_eq h3 h4 h5)
  · rw [h1, h2]

theorem mean_free_path (x y z : ℝ) : mat'.mfp x y z = mat.mfp x y z := by
  simp only [Material.mfp, h.total]

theorem averages (f : Row → ℝ) (x y z : ℝ) :
    (Material.weighted_sum (rows'.map f) <$> mat'.geometry.get_concentrations x y z)
      = (Material.weighted_sum (rows.map f) <$> mat.geometry.get_concentrations x y z) := by
  rcases h.concentrations x y z with ⟨d, d', h1, h2, h3, h4, h5⟩ | ⟨e, h1, h2⟩
  · rw [h1, h2]; exact congrArg Except.ok (weighted_eq h5 f)
  · rw [h1, h2]; rfl

theorem average_mass (x y z : ℝ) : mat'.average_mass x y z = mat.average_mass x y z := by
  simp only [Material.average_mass, h.species.m, h.species'.m, h.averages]

theorem average_Z (x y z : ℝ) : mat'.average_Z x y z = mat.average_Z x y z := by
  simp only [Material.average_Z, h.species.Z, h.species'.Z, h.averages]

theorem average_Eb (x y z : ℝ) :
    mat'.average_bulk_binding_energy x y z = mat.average_bulk_binding_energy x y z := by
  simp only [Material.average_bulk_binding_energy, h.species.Eb, h.species'.Eb, h.averages]

theorem actual_Es (p : Particle ℝ) (x y z : ℝ) :
    mat'.actual_surface_binding_energy p x y z = mat.actual_surface_binding_energy p x y z := by
  have hz : (fsum mat'.Es ==. 0.0) = (fsum mat.Es ==. 0.0) := by
    have e : ∀ s : ℝ, (s ==. 0.0) = true ↔ s = 0 := fun s => by rw [eq_real]; norm_num
    rw [Bool.eq_iff_iff, e, e, h.species.Es, h.species'.Es, fsum_real, fsum_real]
    exact h.no_binding
  simp only [Material.actual_surface_binding_energy]
  rcases h.concentrations x y z with ⟨d, d', h1, h2, h3, h4, h5⟩ | ⟨e, h1, h2⟩
  · have hw := weighted_eq h5 Row.Es
    rw [← h.species.Es, ← h.species'.Es] at hw
    rw [h1, h2]
    simp only [bind, Except.bind, h.surface_binding_model, hz, hw]
  · rw [h1, h2]; rfl

/-- the species found is the same up to its place in the list -/
theorem choose (x y z : ℝ) : MRel (fun s s' : Species ℝ =>
      s' = { s with species_index := s'.species_index } ∧
      rows'[s'.species_index]? = rows[s.species_index]? ∧ (rows[s.species_index]?).isSome)
    (mat.choose x y z) (mat'.choose x y z) := by
  have species : ∀ i j (a : Row), rows[i]? = some a → rows'[j]? = some a →
      RRel (fun s s' : Species ℝ => s' = { s with species_index := s'.species_index } ∧
      rows'[s'.species_index]? = rows[s.species_index]? ∧ (rows[s.species_index]?).isSome)
      (mat.species i) (mat'.species j) := by
    intro i j a hi hj
    simp only [Material.species, h.species.Z, h.species.m, h.species.Ec, h.species.Es, h.species.Ed,
      h.species.interaction_index, h.species'.Z, h.species'.m, h.species'.Ec, h.species'.Es, h.species'.Ed,
      h.species'.interaction_index, vget, List.getElem?_map, hi, hj, Option.map_some, bind, Except.bind,
      pure, Except.pure]
    exact ⟨rfl, by rw [hi, hj], by rw [hi]; rfl⟩
  unfold Material.choose
  refine MRel.bind_same rfl fun r => ?_
  simp only [Material.get_cumulative_concentrations]
  rcases h.concentrations x y z with ⟨d, d', h1, h2, h3, h4, h5⟩ | ⟨e, h1, h2⟩
  · rw [h1, h2]
    simp only [bind, Except.bind, pure, Except.pure]
    refine MRel.bind (R := fun c c' => c = Material.cumulative 0.0 d ∧ c' = Material.cumulative 0.0 d')
      (MRel.lift ⟨rfl, rfl⟩) fun c c' hc => ?_
    obtain ⟨rfl, rfl⟩ := hc
    rcases relisted_choose0 h3 h4 h5 h.first r with ⟨i, j, a, e1, e2, e3, e4⟩ | ⟨e1, e2⟩
    · rw [e1, e2]; exact MRel.lift (species i j a e3 e4)
    · rw [e1, e2]; exact MRel.lift (by simp [RRel, rpanic])
  · rw [h1, h2]
    refine MRel.bind (R := fun _ _ => False) (MRel.lift (rfl : e = e)) fun c c' hc => hc.elim

/-- cross sections: one for each species of the list -/
theorem stopping (p : Particle ℝ) (mode : ElectronicStoppingMode) :
    RRel (fun s s' => ∃ f : ℝ → ℝ, s = rows.map (fun r => f r.Z) ∧ s' = rows'.map (fun r => f r.Z))
      (mat.electronic_stopping_cross_sections p mode) (mat'.electronic_stopping_cross_sections p mode) := by
  simp only [Material.electronic_stopping_cross_sections, Material.electronic_stopping_correction_factor,
    Material.number_densities, h.ck]
  refine RRel.bind_same rfl fun ck => ?_
  refine RRel.bind (amounts_rel (h.densities _ _ _)) fun d d' hd => ?_
  refine RRel.pure ⟨fun Zb => Material.stopping_power mode ck (Material.S_high p.E p.m p.Z Zb)
    (Material.S_low p.E p.m p.Z Zb), ?_, ?_⟩
  · have : (d.zip mat.Z).map Prod.snd = mat.Z := List.map_snd_zip (by rw [h.species.Z]; simp; omega)
    rw [show (fun x : ℝ × ℝ => match x with
        | (_, Zb) => Material.stopping_power mode ck (Material.S_high p.E p.m p.Z Zb)
          (Material.S_low p.E p.m p.Z Zb)) = (fun Zb => Material.stopping_power mode ck
            (Material.S_high p.E p.m p.Z Zb) (Material.S_low p.E p.m p.Z Zb)) ∘ Prod.snd from rfl,
      ← List.map_map, this, h.species.Z, List.map_map]
    rfl
  · have : (d'.zip mat'.Z).map Prod.snd = mat'.Z := List.map_snd_zip (by rw [h.species'.Z]; simp; omega)
    rw [show (fun x : ℝ × ℝ => match x with
        | (_, Zb) => Material.stopping_power mode ck (Material.S_high p.E p.m p.Z Zb)
          (Material.S_low p.E p.m p.Z Zb)) = (fun Zb => Material.stopping_power mode ck
            (Material.S_high p.E p.m p.Z Zb) (Material.S_low p.E p.m p.Z Zb)) ∘ Prod.snd from rfl,
      ← List.map_map, this, h.species'.Z, List.map_map]
    rfl

theorem bragg {d d' : List ℝ} (hd : Relisted (rows.zip d) (rows'.zip d')) (f : ℝ → ℝ) :
    bragg_sum (rows'.map fun r => f r.Z) d' = bragg_sum (rows.map fun r => f r.Z) d :=
  weighted_eq hd fun r => f r.Z

theorem ffp (p : Particle ℝ) : ffp_limits p mat' = ffp_limits p mat := by
  refine (RRel.eq ?_).symm
  unfold ffp_limits
  simp only [h.average_mass, h.average_Z, Material.electronic_stopping_correction_factor, h.ck, h.total,
    Material.number_densities]
  refine RRel.bind_same rfl fun Mb => ?_
  refine RRel.bind_same rfl fun Zb => ?_
  refine RRel.bind (amounts_rel (h.densities _ _ _)) fun _ _ _ => ?_
  refine RRel.bind_same rfl fun ck => ?_
  refine RRel.bind_same rfl fun total => ?_
  refine RRel.bind (h.stopping p _) fun s s' hs => ?_
  obtain ⟨f, rfl, rfl⟩ := hs
  refine RRel.bind (amounts_rel (h.densities _ _ _)) fun d d' hd => ?_
  have hb := h.bragg hd.2.2 f
  unfold bragg_sum at hb
  rw [hb]
  exact RRel.of_eq rfl

theorem flight (p : Particle ℝ) (o : Options ℝ) : determine_mfp_phi_impact_parameter p mat' o
    = determine_mfp_phi_impact_parameter p mat o := by
  have hd : ∀ density : ℝ, (do
      let densities ← liftM (mat'.geometry.get_densities p.pos.x p.pos.y p.pos.z)
      if fsum densities <. density then exponential else pure 1.0 : M ℝ ℝ) = (do
      let densities ← liftM (mat.geometry.get_densities p.pos.x p.pos.y p.pos.z)
      if fsum densities <. density then exponential else pure 1.0 : M ℝ ℝ) := by
    intro density
    rcases h.densities p.pos.x p.pos.y p.pos.z with ⟨d, d', h1, h2, h3, h4, h5⟩ | ⟨e, h1, h2⟩
    · rw [h1, h2]
      show (if fsum d' <. density then exponential else pure 1.0 : M ℝ ℝ)
        = (if fsum d <. density then exponential else pure 1.0 : M ℝ ℝ)
      rw [total_eq h3 h4 h5]
    · rw [h1, h2]
  unfold determine_mfp_phi_impact_parameter
  simp only [h.mean_free_path, h.ffp, hd]

theorem partner (p : Particle ℝ) (g : BinaryCollisionGeometry ℝ) (o : Options ℝ) :
    MRel (fun a b : Nat × Particle ℝ => b.2 = a.2 ∧ rows'[b.1]? = rows[a.1]? ∧ (rows[a.1]?).isSome)
      (choose_collision_partner p mat g o) (choose_collision_partner p mat' g o) := by
  unfold choose_collision_partner
  refine MRel.bind (h.choose _ _ _) fun s s' hs => ?_
  obtain ⟨h1, h2⟩ := hs
  rw [h1]
  exact MRel.pure ⟨rfl, h2⟩

theorem keep (p p2 : Particle ℝ) (o : Options ℝ) : keep_recoil p p2 mat' o = keep_recoil p p2 mat o := by
  simp only [keep_recoil, h.total, Material.closest_point, h.closest]

theorem boundary_condition (p : Particle ℝ) :
    boundary_condition_planar p mat' = boundary_condition_planar p mat := by
  simp only [boundary_condition_planar, Material.inside_simulation_boundary, Material.inside_energy_barrier,
    h.boundary, h.barrier, surface_binding_energy, h.actual_Es, surface_entering, surface_leaving,
    Material.closest_point, h.closest, h.surface_binding_model]

theorem subtract (p : Particle ℝ) (dist x0 sZ : ℝ) (i j : Nat) (o : Options ℝ)
    (hij : rows'[j]? = rows[i]?) :
    subtract_electronic_stopping_energy p mat' dist x0 sZ j o
      = subtract_electronic_stopping_energy p mat dist x0 sZ i o := by
  refine (RRel.eq ?_).symm
  unfold subtract_electronic_stopping_energy
  simp only [Material.inside, Material.number_densities, h.inside]
  refine RRel.bind_same rfl fun _ => ?_
  refine RRel.bind_same rfl fun inside => ?_
  refine RRel.ite rfl ?_ (RRel.of_eq rfl)
  refine RRel.bind_same rfl fun row => ?_
  have hv : ∀ {β : Type} (f : Row → β), vget (rows'.map f) j = vget (rows.map f) i := by
    intro β f
    simp only [vget, List.getElem?_map, hij]
  refine RRel.bind_same (by rw [h.species.interaction_index, h.species'.interaction_index, hv]) fun ti => ?_
  refine RRel.bind_same rfl fun V => ?_
  refine RRel.bind (h.stopping p _) fun s s' hs => ?_
  obtain ⟨f, rfl, rfl⟩ := hs
  refine RRel.bind (amounts_rel (h.densities _ _ _)) fun d d' hd => ?_
  rw [h.bragg hd.2.2 f, hv]
  exact RRel.of_eq rfl

/-- The variables of a pass are the same but for the place of the struck species. -/
theorem apply (o : Options ℝ) (k : Nat) (g : BinaryCollisionGeometry ℝ) (i j : Nat)
    (hij : rows'[j]? = rows[i]?) (p2 : Particle ℝ) (r : BinaryCollisionResult ℝ) (s : StepState ℝ) (n : Nat)
    (hn : rows'[n]? = rows[s.strong_collision_index]?) :
    RRel (fun s s' : StepState ℝ => ∃ n, s' = { s with strong_collision_index := n } ∧
        rows'[n]? = rows[s.strong_collision_index]?)
      (apply_collision mat o k g i p2 r s)
      (apply_collision mat' o k g j p2 r { s with strong_collision_index := n }) := by
  unfold apply_collision
  simp only [h.average_Eb, h.keep]
  by_cases hk : (k == 0) = true
  · simp only [hk, if_true]
    refine RRel.bind_same rfl fun eb => ?_
    refine RRel.bind_same rfl fun kp => ?_
    exact RRel.pure ⟨j, rfl, hij⟩
  · simp only [hk, if_false]
    refine RRel.bind_same rfl fun eb => ?_
    refine RRel.bind_same rfl fun kp => ?_
    exact RRel.pure ⟨n, rfl, hn⟩

theorem collide (rcpr : Rcpr ℝ) (o : Options ℝ) (gk : BinaryCollisionGeometry ℝ × Nat) (s s' : StepState ℝ)
    (hs : ∃ n, s' = { s with strong_collision_index := n } ∧ rows'[n]? = rows[s.strong_collision_index]?) :
    MRel (fun s s' : StepState ℝ => ∃ n, s' = { s with strong_collision_index := n } ∧
        rows'[n]? = rows[s.strong_collision_index]?)
      (collision_step rcpr mat o s gk) (collision_step rcpr mat' o s' gk) := by
  obtain ⟨n, rfl, hn⟩ := hs
  unfold collision_step
  refine MRel.bind (h.partner _ _ _) fun a b hab => ?_
  obtain ⟨i, p2⟩ := a
  obtain ⟨j, p2'⟩ := b
  obtain ⟨rfl, hij, -⟩ := hab
  simp only [Material.inside, Material.inside_energy_barrier, h.inside, h.barrier]
  refine MRel.bind_same rfl fun inside => ?_
  refine MRel.bind_same rfl fun barrier => ?_
  refine MRel.ite rfl ?_ (MRel.pure ⟨n, rfl, hn⟩)
  refine MRel.bind_same rfl fun res => ?_
  refine MRel.bind_same rfl fun r => ?_
  exact MRel.lift (h.apply o _ _ _ _ hij _ _ _ _ hn)

theorem pass (rcpr : Rcpr ℝ) (o : Options ℝ) (p : Particle ℝ) (ps : List (Particle ℝ)) :
    MRel Eq (trajectory_step rcpr mat o p ps) (trajectory_step rcpr mat' o p ps) := by
  unfold trajectory_step
  rw [h.flight]
  refine MRel.bind_same rfl fun a => ?_
  refine MRel.bind (MRel.forFold (fun x y gk hxy => h.collide rcpr o gk x y hxy) _ _ _
    ⟨0, rfl, by simpa [List.head?_eq_getElem?] using h.first⟩) fun s s' hs => ?_
  obtain ⟨n, rfl, hn⟩ := hs
  refine MRel.lift ?_
  unfold finish_step
  refine RRel.bind_same rfl fun g0 => ?_
  refine RRel.bind_same (h.subtract _ _ _ _ _ _ _ hn).symm fun r => ?_
  refine RRel.bind_same (h.boundary_condition _).symm fun q => ?_
  exact RRel.of_eq rfl

end Spec.SameMixture

theorem mrel_eq {α : Type} {m m' : M ℝ α} (h : MRel Eq m m') : m' = m := by
  funext t
  have := h t
  refine (RRel.eq (RRel.mono this ?_)).symm
  rintro ⟨a, b⟩ ⟨c, d⟩ ⟨h1, h2⟩
  exact Prod.ext h1 h2

/-- **C112.** Two targets that differ only in how their species are listed give, with the same random
numbers, the same result: the same particles, all their fields equal, or the same failure. -/
theorem C112_same_run (h : SameMixture mat mat' rows rows') (rcpr : Rcpr ℝ) (fuel : Nat) (ion : Particle ℝ)
    (o : Options ℝ) (tape : Tape ℝ) :
    single_ion_bca rcpr fuel ion mat' o tape = single_ion_bca rcpr fuel ion mat o tape := by
  have e1 : trajectory_step rcpr mat' o = trajectory_step rcpr mat o := by
    funext p ps
    exact mrel_eq (h.pass rcpr o p ps)
  simp only [single_ion_bca, cascade_body, traj_body, e1]
  have e2 : traj_body rcpr mat' o = traj_body rcpr mat o := by
    funext s
    simp only [traj_body, e1]
  have e3 : cascade_body rcpr mat' o fuel = cascade_body rcpr mat o fuel := by
    funext s
    simp only [cascade_body, e2]
  rw [e3]

/-- **C112, whole runs.** All outputs of the run are the same. -/
theorem C112_run (h : SameMixture mat mat' rows rows') (rcpr : Rcpr ℝ) (fuel : Nat) (cfg : OutputConfig ℝ)
    (o : Options ℝ) (splits : List Split) (tapes : Nat → Tape ℝ) (inputs : List (ParticleInput ℝ)) :
    physics_loop_run rcpr fuel cfg mat' o splits tapes inputs
      = physics_loop_run rcpr fuel cfg mat o splits tapes inputs := by
  have e : run_ion rcpr fuel mat' o = run_ion rcpr fuel mat o := by
    funext i t
    simp only [run_ion, C112_same_run h]
  simp only [physics_loop_run, e]

theorem relisted_map {l l' : List (Row × ℝ)} (h : Relisted l l') (g : Row → Row) (c : ℝ) (hc : 0 ≤ c) :
    Relisted (l.map fun q => (g q.1, q.2*c)) (l'.map fun q => (g q.1, q.2*c)) := by
  induction h with
  | nil => exact .nil
  | same r x hx h ih => exact .same _ _ (mul_nonneg hx hc) ih
  | part r x y hx hy h ih =>
    simp only [List.map_cons] at ih ⊢
    rw [add_mul]
    exact .part _ _ _ (mul_nonneg hx hc) (mul_nonneg hy hc) ih
  | nothing r h ih =>
    simp only [List.map_cons, zero_mul]
    exact .nothing _ ih

theorem same_densities_map {d d' : List ℝ} (h : SameDensities rows rows' d d') (g : Row → Row) (c : ℝ)
    (hc : 0 ≤ c) : SameDensities (rows.map g) (rows'.map g) (d.map (· * c)) (d'.map (· * c)) := by
  obtain ⟨h1, h2, h3⟩ := h
  refine ⟨by simpa using h1, by simpa using h2, ?_⟩
  have key : ∀ (rows : List Row) (d : List ℝ), (rows.map g).zip (d.map (· * c))
      = (rows.zip d).map fun q => (g q.1, q.2*c) := by
    intro rows d
    rw [List.zip_map]
    rfl
  rw [key, key]
  exact relisted_map h3 g c hc

theorem densities_converted {d d' : List ℝ} (h : SameDensities rows rows' d d') (g : Row → Row) {u : ℝ}
    (hu : 0 < u) : SameDensities (rows.map g) (rows'.map g) (convert_densities u d) (convert_densities u d') := by
  have := same_densities_map h g (powi u 3)⁻¹ (by
    rw [powi_real, show (3:ℤ) = ((3:ℕ):ℤ) from rfl, zpow_natCast]; positivity)
  simpa only [convert_densities, div_eq_mul_inv] using this

theorem same_densities_total {d d' : List ℝ} (h : SameDensities rows rows' d d') : fsum d' = fsum d :=
  total_eq h.1 h.2.1 h.2.2

theorem densities_nonneg {d d' : List ℝ} (h : SameDensities rows rows' d d') : 0 ≤ fsum d := by
  rw [fsum_real]
  refine List.sum_nonneg fun x hx => ?_
  obtain ⟨i, hi, rfl⟩ := List.getElem_of_mem hx
  have hr : i < rows.length := by rw [← h.1]; exact hi
  exact (relisted_nonneg h.2.2).1 (rows[i], d[i]) (by
    refine List.mem_iff_getElem.2 ⟨i, by simp [hr, hi], ?_⟩
    simp)

theorem concentrations_same {d d' : List ℝ} (h : SameDensities rows rows' d d') :
    SameDensities rows rows' (concentrations_of d) (concentrations_of d') := by
  have := same_densities_map h id (fsum d)⁻¹ (inv_nonneg.2 (densities_nonneg h))
  simpa only [concentrations_of, same_densities_total h, div_eq_mul_inv, List.map_id] using this

/-- a row of the table in the program's units -/
def Spec.Row.inUnits (energy mass : ℝ) (r : Row) : Row :=
  ⟨r.Z, r.m*mass, r.Eb*energy, r.Es*energy, r.Ec*energy, r.Ed*energy, r.interaction_index⟩

/-- the queries of two geometries for the two lists -/
structure GeomSame (g g' : Geom ℝ) (rows rows' : List Row) : Prop where
  densities : ∀ x y z, SameAmounts rows rows' (g.get_densities x y z) (g'.get_densities x y z)
  concentrations : ∀ x y z, SameAmounts rows rows' (g.get_concentrations x y z) (g'.get_concentrations x y z)
  ck : ∀ x y z, g'.get_ck x y z = g.get_ck x y z
  inside : ∀ x y z, g'.inside x y z = g.inside x y z
  boundary : ∀ x y z, g'.inside_simulation_boundary x y z = g.inside_simulation_boundary x y z
  barrier : ∀ x y z, g'.inside_energy_barrier x y z = g.inside_energy_barrier x y z
  closest : ∀ x y z, g'.closest_point x y z = g.closest_point x y z

theorem material_mixture {ext : Ext ℝ} {p p' : MaterialParameters ℝ}
    (hp : SameParametersRelisted p p' rows rows') {g g' : Geom ℝ}
    (hg : ∀ f : Row → Row, GeomSame g g' (rows.map f) (rows'.map f))
    (h : Material.new ext p (.ok g) = .ok mat) (h' : Material.new ext p' (.ok g') = .ok mat') :
    ∃ f : Row → Row, SameMixture mat mat' (rows.map f) (rows'.map f) := by
  unfold Material.new at h h'
  rw [hp.energy_unit, hp.mass_unit] at h'
  cases he : energy_unit_of ext p.energy_unit with
  | error e => rw [he] at h; cases h
  | ok ue =>
    cases hm : mass_unit_of ext p.mass_unit with
    | error e => rw [he, hm] at h; cases h
    | ok um =>
      rw [he, hm] at h h'
      simp only [bind, Except.bind, pure, Except.pure, Except.ok.injEq] at h h'
      subst h h'
      have zero : ∀ l : List Row, ((l.map (Spec.Row.inUnits ue um)).map Row.Es).sum = (l.map Row.Es).sum*ue := by
        intro l
        rw [List.map_map]
        exact List.sum_map_mul_right l Row.Es ue
      have sp : ∀ {q : MaterialParameters ℝ} {l : List Row} (G : Geom ℝ), ListsSpecies q l → HasSpecies
          { m := q.m.map (· * um), Z := q.Z, Eb := q.Eb.map (· * ue), Es := q.Es.map (· * ue),
            Ec := q.Ec.map (· * ue), Ed := q.Ed.map (· * ue), interaction_index := q.interaction_index,
            geometry := G, surface_binding_model := q.surface_binding_model,
            bulk_binding_model := q.bulk_binding_model } (l.map (Spec.Row.inUnits ue um)) := by
        intro q l G hq
        constructor <;> simp only [hq.Z, hq.m, hq.Eb, hq.Es, hq.Ec, hq.Ed, hq.interaction_index, List.map_map] <;> rfl
      refine ⟨Spec.Row.inUnits ue um, ?_⟩
      exact {
        species := sp g hp.lists
        species' := sp g' hp.lists'
        first := by rw [List.head?_map, List.head?_map, hp.first]
        no_binding := by
          rw [zero, zero, mul_eq_zero, mul_eq_zero, hp.no_binding]
        surface_binding_model := hp.surface_binding_model
        densities := (hg (Spec.Row.inUnits ue um)).densities
        concentrations := (hg (Spec.Row.inUnits ue um)).concentrations
        ck := (hg (Spec.Row.inUnits ue um)).ck
        inside := (hg (Spec.Row.inUnits ue um)).inside
        boundary := (hg (Spec.Row.inUnits ue um)).boundary
        barrier := (hg (Spec.Row.inUnits ue um)).barrier
        closest := (hg (Spec.Row.inUnits ue um)).closest }

/-- **C112, from the input file, homogeneous targets.** The table of species and the list of densities
are relisted in the same way: every ion gives the same result with the same random numbers. -/
theorem C112_mesh0d (ext : Ext ℝ) (p p' : MaterialParameters ℝ) (hp : SameParametersRelisted p p' rows rows')
    (input : Mesh0DInput ℝ) (d' : List ℝ) (hd : SameDensities rows rows' input.densities d')
    (unit : ∀ u, length_unit_of ext input.length_unit = .ok u → 0 < u)
    (h : Material.new ext p (Mesh0D.toGeom <$> Mesh0D.new ext input) = .ok mat)
    (h' : Material.new ext p' (Mesh0D.toGeom <$> Mesh0D.new ext { input with densities := d' }) = .ok mat')
    (rcpr : Rcpr ℝ) (fuel : Nat) (ion : Particle ℝ) (o : Options ℝ) (tape : Tape ℝ) :
    single_ion_bca rcpr fuel ion mat' o tape = single_ion_bca rcpr fuel ion mat o tape := by
  unfold Mesh0D.new at h h'
  cases hu : length_unit_of ext input.length_unit with
  | error e =>
    rw [hu] at h
    unfold Material.new at h
    cases he : energy_unit_of ext p.energy_unit with
    | error e => rw [he] at h; cases h
    | ok ue =>
      cases hm : mass_unit_of ext p.mass_unit with
      | error e => rw [he, hm] at h; cases h
      | ok um => rw [he, hm] at h; cases h
  | ok u =>
    rw [hu] at h
    simp only [hu] at h'
    have hpos := unit u hu
    obtain ⟨f, hf⟩ := material_mixture hp (g := Mesh0D.toGeom _) (g' := Mesh0D.toGeom _) (by
      intro f
      have hc := densities_converted hd f hpos
      have hcc := concentrations_same hc
      have ht := same_densities_total hc
      exact {
        densities := fun _ _ _ => .inl ⟨_, _, rfl, rfl, hc⟩
        concentrations := fun _ _ _ => .inl ⟨_, _, rfl, rfl, hcc⟩
        ck := fun _ _ _ => rfl
        inside := fun _ _ _ => rfl
        boundary := fun _ _ _ => by simp only [Mesh0D.toGeom, ht]
        barrier := fun _ _ _ => by simp only [Mesh0D.toGeom, ht]
        closest := fun _ _ _ => rfl }) h h'
    exact C112_same_run hf rcpr fuel ion o tape

/-- the two descriptions of one layer -/
structure LayerSame (rows rows' : List Row) (a b : Layer1D ℝ) : Prop where
  top : b.top = a.top
  bottom : b.bottom = a.bottom
  ck : b.electronic_stopping_correction_factor = a.electronic_stopping_correction_factor
  densities : SameDensities rows rows' a.densities b.densities
  concentrations : SameDensities rows rows' a.concentrations b.concentrations

theorem layers_rel {u : ℝ} :
    ∀ (rs rs' : List ((ℝ × List ℝ) × ℝ)), List.Forall₂ (fun r r' : (ℝ × List ℝ) × ℝ =>
        r'.1.1 = r.1.1 ∧ SameDensities rows rows' r.1.2 r'.1.2 ∧ r'.2 = r.2) rs rs' →
      ∀ s s' : List (Layer1D ℝ) × ℝ × ℝ, List.Forall₂ (LayerSame rows rows') s.1 s'.1 → s'.2 = s.2 →
      RRel (fun t t' : List (Layer1D ℝ) × ℝ × ℝ => List.Forall₂ (LayerSame rows rows') t.1 t'.1 ∧ t'.2 = t.2)
        (forFold (Mesh1D.layerStep u) rs s) (forFold (Mesh1D.layerStep u) rs' s') := by
  intro rs rs' h
  induction h with
  | nil => intro s s' h1 h2; exact ⟨h1, h2⟩
  | cons hr h ih =>
    intro s s' h1 h2
    rename_i r r' rs rs'
    obtain ⟨⟨th, d⟩, ck⟩ := r
    obtain ⟨⟨th', d'⟩, ck'⟩ := r'
    obtain ⟨l, s2, s3⟩ := s
    obtain ⟨l', s2', s3'⟩ := s'
    obtain ⟨rfl, hd, rfl⟩ := hr
    obtain ⟨rfl, rfl⟩ := Prod.mk.inj h2
    simp only [forFold]
    refine RRel.bind (R := fun t t' : List (Layer1D ℝ) × ℝ × ℝ =>
      List.Forall₂ (LayerSame rows rows') t.1 t'.1 ∧ t'.2 = t.2) ?_ fun t t' ht => ih t t' ht.1 ht.2
    simp only [Mesh1D.layerStep, Layer1D.new]
    refine RRel.bind (R := LayerSame rows rows') (RRel.bind_same rfl fun _ => RRel.pure ?_)
      fun a b hab => RRel.pure ⟨List.rel_append h1 (.cons hab .nil), rfl⟩
    exact ⟨rfl, rfl, rfl, hd, concentrations_same hd⟩

theorem vget_rel {α β : Type} {R : α → β → Prop} {l : List α} {l' : List β} (h : List.Forall₂ R l l') (i : Nat) :
    RRel R (vget l i) (vget l' i) := by
  unfold vget
  induction h generalizing i with
  | nil => simp [RRel]
  | cons hr h ih =>
    cases i with
    | zero => exact hr
    | succ i => exact ih i

theorem find_rel {l l' : List (Layer1D ℝ)} (h : List.Forall₂ (LayerSame rows rows') l l') (x y z : ℝ) :
    (∃ a b, l.find? (fun q => q.contains x y z) = some a ∧ l'.find? (fun q => q.contains x y z) = some b ∧
      LayerSame rows rows' a b) ∨
    (l.find? (fun q => q.contains x y z) = none ∧ l'.find? (fun q => q.contains x y z) = none) := by
  induction h with
  | nil => exact .inr ⟨rfl, rfl⟩
  | cons hr h ih =>
    rename_i a b l l'
    have hc : b.contains x y z = a.contains x y z := by simp only [Layer1D.contains, hr.top, hr.bottom]
    simp only [List.find?_cons, hc]
    cases a.contains x y z
    · exact ih
    · exact .inl ⟨a, b, rfl, rfl, hr⟩

/-- the two descriptions of a layered target -/
structure Mesh1DSame (rows rows' : List Row) (g g' : Mesh1D ℝ) : Prop where
  layers : List.Forall₂ (LayerSame rows rows') g.layers g'.layers
  rest : g' = { g with layers := g'.layers }

theorem mesh1d_rel (ext : Ext ℝ) (input : Mesh1DInput ℝ) (ds : List (List ℝ)) (f : Row → Row)
    (hd : List.Forall₂ (SameDensities rows rows') input.densities ds)
    (unit : ∀ u, length_unit_of ext input.length_unit = .ok u → 0 < u) :
    RRel (Mesh1DSame (rows.map f) (rows'.map f)) (Mesh1D.new ext input)
      (Mesh1D.new ext { input with densities := ds }) := by
  unfold Mesh1D.new
  simp only
  cases hu : length_unit_of ext input.length_unit with
  | error e => exact (rfl : e = e)
  | ok u =>
    have hpos := unit u hu
    simp only [bind, Except.bind]
    have hc : List.Forall₂ (SameDensities (rows.map f) (rows'.map f))
        (input.densities.map (convert_densities u)) (ds.map (convert_densities u)) := by
      rw [List.forall₂_map_left_iff, List.forall₂_map_right_iff]
      exact hd.imp fun a b h => densities_converted h f hpos
    generalize input.densities.map (convert_densities u) = D at *
    generalize ds.map (convert_densities u) = D' at *
    have hall : ∀ {D D' : List (List ℝ)}, List.Forall₂ (SameDensities (rows.map f) (rows'.map f)) D D' →
        (D.all fun row => row.length == (D.headD []).length) = true ∧
        (D'.all fun row => row.length == (D'.headD []).length) = true := by
      intro D D' h
      have l1 : ∀ d ∈ D, d.length = rows.length := by
        intro d hd
        obtain ⟨i, hi, rfl⟩ := List.getElem_of_mem hd
        have := (List.forall₂_iff_get.1 h).2 i hi (by rw [← h.length_eq]; exact hi)
        simpa using this.1
      have l2 : ∀ d ∈ D', d.length = rows'.length := by
        intro d hd
        obtain ⟨i, hi, rfl⟩ := List.getElem_of_mem hd
        have := (List.forall₂_iff_get.1 h).2 i (by rw [h.length_eq]; exact hi) hi
        simpa using this.2.1
      constructor
      · cases D with
        | nil => rfl
        | cons a l =>
          refine List.all_eq_true.2 fun d hd => ?_
          simp only [List.headD_cons, beq_iff_eq]
          rw [l1 d hd, l1 a List.mem_cons_self]
      · cases D' with
        | nil => rfl
        | cons a l =>
          refine List.all_eq_true.2 fun d hd => ?_
          simp only [List.headD_cons, beq_iff_eq]
          rw [l2 d hd, l2 a List.mem_cons_self]
    obtain ⟨a1, a2⟩ := hall hc
    refine RRel.bind_same (by rw [a1, a2]) fun _ => ?_
    refine RRel.bind_same (by rw [hc.length_eq]) fun _ => ?_
    have hz : List.Forall₂ (fun r r' : (ℝ × List ℝ) × ℝ => r'.1.1 = r.1.1 ∧
        SameDensities (rows.map f) (rows'.map f) r.1.2 r'.1.2 ∧ r'.2 = r.2)
        ((input.layer_thicknesses.zip D).zip input.electronic_stopping_correction_factors)
        ((input.layer_thicknesses.zip D').zip input.electronic_stopping_correction_factors) := by
      generalize input.layer_thicknesses = T
      generalize input.electronic_stopping_correction_factors = K
      clear a1 a2
      induction hc generalizing T K with
      | nil => simp
      | cons hr h ih =>
        cases T with
        | nil => simp
        | cons t T =>
          cases K with
          | nil => simp
          | cons k K =>
            simp only [List.zip_cons_cons]
            exact .cons ⟨rfl, hr, rfl⟩ (ih T K)
    refine RRel.bind (layers_rel _ _ hz _ _ .nil rfl) fun t t' ht => ?_
    obtain ⟨l, s2, s3⟩ := t
    obtain ⟨l', s2', s3'⟩ := t'
    obtain ⟨hl, h2⟩ := ht
    obtain ⟨rfl, rfl⟩ := Prod.mk.inj h2
    simp only at hl ⊢
    refine RRel.bind (vget_rel hl 0) fun a b hab => ?_
    rw [← hl.length_eq]
    refine RRel.bind (vget_rel hl _) fun a2 b2 hab2 => ?_
    refine RRel.pure ⟨hl, ?_⟩
    simp only [same_densities_total hab.densities, same_densities_total hab2.densities]

theorem mesh1d_geom {g g' : Mesh1D ℝ} (h : Mesh1DSame rows rows' g g') :
    GeomSame g.toGeom g'.toGeom rows rows' := by
  have hl : ∀ x y z, RRel (LayerSame rows rows') (g.find_layer x y z) (g'.find_layer x y z) := by
    intro x y z
    obtain ⟨h1, h2⟩ := h
    rw [h2]
    generalize g'.layers = L at *
    simp only [Mesh1D.find_layer, Mesh1D.inside]
    refine RRel.ite rfl ?_ (RRel.ite rfl (vget_rel h1 0) (by rw [← h1.length_eq]; exact vget_rel h1 _))
    rcases find_rel h1 x y z with ⟨a, b, e1, e2, e3⟩ | ⟨e1, e2⟩
    · rw [e1, e2]; exact e3
    · rw [e1, e2]; simp [RRel, rpanic]
  have amounts : ∀ (q : Layer1D ℝ → List ℝ), (∀ a b, LayerSame rows rows' a b → SameDensities rows rows' (q a) (q b)) →
      ∀ x y z, SameAmounts rows rows' (q <$> g.find_layer x y z) (q <$> g'.find_layer x y z) := by
    intro q hq x y z
    have := hl x y z
    cases e1 : g.find_layer x y z with
    | error e =>
      cases e2 : g'.find_layer x y z with
      | error e' =>
        rw [e1, e2] at this
        have : e = e' := this
        subst this
        exact .inr ⟨e, rfl, rfl⟩
      | ok b => rw [e1, e2] at this; exact this.elim
    | ok a =>
      cases e2 : g'.find_layer x y z with
      | error e' => rw [e1, e2] at this; exact this.elim
      | ok b =>
        rw [e1, e2] at this
        exact .inl ⟨_, _, rfl, rfl, hq a b this⟩
  refine {
    densities := amounts _ fun a b h => h.densities
    concentrations := amounts _ fun a b h => h.concentrations
    ck := ?_
    inside := ?_
    boundary := ?_
    barrier := ?_
    closest := ?_ }
  · intro x y z
    refine (RRel.eq ?_).symm
    exact RRel.bind (hl x y z) fun a b hab => hab.ck.symm
  all_goals
    intro x y z
    rw [h.rest]
    rfl

/-- **C112, from the input file, layered targets.** -/
theorem C112_mesh1d (ext : Ext ℝ) (p p' : MaterialParameters ℝ) (hp : SameParametersRelisted p p' rows rows')
    (input : Mesh1DInput ℝ) (ds : List (List ℝ)) (hd : List.Forall₂ (SameDensities rows rows') input.densities ds)
    (unit : ∀ u, length_unit_of ext input.length_unit = .ok u → 0 < u)
    (h : Material.new ext p (Mesh1D.toGeom <$> Mesh1D.new ext input) = .ok mat)
    (h' : Material.new ext p' (Mesh1D.toGeom <$> Mesh1D.new ext { input with densities := ds }) = .ok mat')
    (rcpr : Rcpr ℝ) (fuel : Nat) (ion : Particle ℝ) (o : Options ℝ) (tape : Tape ℝ) :
    single_ion_bca rcpr fuel ion mat' o tape = single_ion_bca rcpr fuel ion mat o tape := by
  have hr := fun f => mesh1d_rel ext input ds f hd unit
  have err : ∀ {q : MaterialParameters ℝ} {m : Material ℝ} {e}, Material.new ext q (.error e) ≠ .ok m := by
    intro q m e h
    unfold Material.new at h
    cases he : energy_unit_of ext q.energy_unit with
    | error e => rw [he] at h; cases h
    | ok ue =>
      cases hm : mass_unit_of ext q.mass_unit with
      | error e => rw [he, hm] at h; cases h
      | ok um => rw [he, hm] at h; cases h
  cases e1 : Mesh1D.new ext input with
  | error e => rw [e1] at h; exact (err h).elim
  | ok g =>
    cases e2 : Mesh1D.new ext { input with densities := ds } with
    | error e => rw [e2] at h'; exact (err h').elim
    | ok g' =>
      rw [e1] at h
      rw [e2] at h'
      obtain ⟨f, hf⟩ := material_mixture hp (fun f => mesh1d_geom (by
        have := hr f
        rw [e1, e2] at this
        exact this)) h h'
      exact C112_same_run hf rcpr fuel ion o tape

end RustBCA
