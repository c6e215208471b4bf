import Verif.Spec.Materials
import Verif.Spec.Cascade
import Mathlib.Tactic.Linarith
import Mathlib.Tactic.NormNum

/-!
# C27-C29: the composition of the target
-/

set_option linter.unusedSectionVars false
set_option linter.unusedSimpArgs false

namespace RustBCA
open Scalar Spec

theorem fsum_real (l : List ℝ) : fsum l = l.sum := by
  have h : ∀ (l : List ℝ) (a : ℝ), l.foldl (fun a b : ℝ => a + b) a = a + l.sum := by
    intro l
    induction l with
    | nil => intro a; simp
    | cons x xs ih => intro a; simp only [List.foldl_cons, List.sum_cons, ih]; ring
  have := h l 0.0
  rw [show (0.0 : ℝ) = 0 by norm_num, zero_add] at this
  unfold fsum
  rw [← this, show (0.0 : ℝ) = 0 by norm_num]

/-! ## C27 -/

theorem choose_index_iff (u : ℝ) : ∀ (cs : List ℝ) (a : ℝ) (i : Nat), (∀ c ∈ cs, 0 ≤ c) → a ≤ u →
    (Material.choose_index u (Material.cumulative a cs) = some i ↔
      i < cs.length ∧ a + (cs.take i).sum ≤ u ∧ u < a + (cs.take (i + 1)).sum) := by
  intro cs
  induction cs with
  | nil => intro a i _ _; simp [Material.cumulative, Material.choose_index]
  | cons c cs ih =>
    intro a i hnn ha
    have hnn' : ∀ x ∈ cs, 0 ≤ x := fun x hx => hnn x (by simp [hx])
    simp only [Material.cumulative, Material.choose_index]
    by_cases h : u < a + c
    · rw [if_pos (by simpa using h)]
      cases i with
      | zero => simpa using ⟨ha, h⟩
      | succ i =>
        simp only [Option.some.injEq, List.take_succ_cons, List.sum_cons]
        constructor
        · intro h0; exact absurd h0 (by omega)
        · rintro ⟨_, h1, _⟩
          have : 0 ≤ (cs.take i).sum := List.sum_nonneg fun x hx => hnn' x (List.mem_of_mem_take hx)
          linarith
    · rw [if_neg (by simpa using h)]
      cases i with
      | zero =>
        simp only [Option.map_eq_some_iff]
        constructor
        · rintro ⟨j, _, h0⟩; omega
        · rintro ⟨_, _, h1⟩; simp at h1; exact absurd h1 h
      | succ i =>
        simp only [Option.map_eq_some_iff, Nat.add_right_cancel_iff, exists_eq_right]
        rw [ih (a + c) i hnn' (not_lt.mp h)]
        simp only [List.length_cons, Nat.add_lt_add_iff_right, List.take_succ_cons, List.sum_cons,
          ← add_assoc]

theorem choose_index_some (u : ℝ) : ∀ (cs : List ℝ) (a : ℝ), u < a + cs.sum → a ≤ u →
    ∃ i, Material.choose_index u (Material.cumulative a cs) = some i := by
  intro cs
  induction cs with
  | nil => intro a h1 h2; simp at h1; linarith
  | cons c cs ih =>
    intro a h1 h2
    simp only [Material.cumulative, Material.choose_index]
    by_cases h : u < a + c
    · exact ⟨0, by rw [if_pos (by simpa using h)]⟩
    · obtain ⟨i, hi⟩ := ih (a + c) (by simpa [add_assoc] using h1) (not_lt.mp h)
      exact ⟨i + 1, by rw [if_neg (by simpa using h), hi]; rfl⟩

section
variable {F : Type} [Scalar F]

theorem vget_ok {α : Type} {l : List α} {i : Nat} (h : i < l.length) : vget l i = .ok l[i] := by
  unfold vget; rw [List.getElem?_eq_getElem h]

theorem vget_some {α : Type} {l : List α} {i : Nat} {a : α} (h : vget l i = .ok a) :
    l[i]? = some a := by
  unfold vget at h
  cases h2 : l[i]? with
  | none => rw [h2] at h; cases h
  | some b => rw [h2] at h; cases h; rfl

/-- The parameters in `s` are those of one and the same species. -/
def OneSpecies (mat : Material F) (s : Species F) : Prop :=
  mat.Z[s.species_index]? = some s.Z ∧ mat.m[s.species_index]? = some s.m ∧
  mat.Ec[s.species_index]? = some s.Ec ∧ mat.Es[s.species_index]? = some s.Es ∧
  mat.Ed[s.species_index]? = some s.Ed ∧
  mat.interaction_index[s.species_index]? = some s.interaction_index

theorem species_one (mat : Material F) (i : Nat) :
    RSat (mat.species i) (fun s => s.species_index = i ∧ OneSpecies mat s) (fun _ => True) := by
  unfold Material.species OneSpecies
  simp only [rsat_bind, rsat_pure, rsat_vget, implies_true, and_true]
  intro Z hZ m hm Ec hEc Es hEs Ed hEd ii hii
  exact ⟨trivial, hZ, hm, hEc, hEs, hEd, hii⟩

/-- **C27, one species.** For every scalar: whatever `choose` returns, all parameters belong to one
species, and exactly one random number is used. -/
theorem C27_one_species (mat : Material F) (x y z : F) (t t' : Tape F) (s : Species F)
    (run : mat.choose x y z t = .ok (s, t')) : OneSpecies mat s ∧ t' = fun n => t (n + 1) := by
  have h : Sat (mat.choose x y z) t
      (fun s t' => OneSpecies mat s ∧ t' = fun n => t (n + 1)) (fun _ => True) := by
    unfold Material.choose
    simp only [sat_bind, sat_random, sat_lift]
    refine rsat_mono (rsat_trivial _) (fun cs _ => ?_) (fun _ _ => trivial)
    split
    · simp only [sat_lift]
      exact rsat_mono (species_one mat _) (fun s hs => ⟨hs.2, trivial⟩) (fun _ _ => trivial)
    · simp
  exact sat_of_ok h run

end

/-- **C27.** For concentrations that are non-negative and add up to one and a random number in
`[0, 1)`, `choose` succeeds; it returns species `i` exactly when the random number lies in the
`i`-th interval; the species has positive concentration; and all parameters are its. -/
theorem C27_choose (mat : Material ℝ) (x y z : ℝ) (t : Tape ℝ) (cs : List ℝ)
    (hcs : mat.geometry.get_concentrations x y z = .ok cs) (hc : Concentrations cs)
    (htab : Tabulated mat cs.length) (hu0 : 0 ≤ t 0) (hu1 : t 0 < 1) :
    ∃ s, mat.choose x y z t = .ok (s, fun n => t (n + 1)) ∧
      (∀ i, s.species_index = i ↔ InInterval cs (t 0) i) ∧
      (∃ c, cs[s.species_index]? = some c ∧ 0 < c) ∧ OneSpecies mat s := by
  obtain ⟨hnn, hsum⟩ := hc
  obtain ⟨i, hi⟩ := choose_index_some (t 0) cs 0 (by rw [hsum]; simpa using hu1) hu0
  have hiff := fun j => choose_index_iff (t 0) cs 0 j hnn hu0
  have hin := (hiff i).mp hi
  have hlt := hin.1
  have hsp : mat.species i = .ok ⟨i, mat.Z[i]'(hlt.trans_le htab.Z), mat.m[i]'(hlt.trans_le htab.m),
      mat.Ec[i]'(hlt.trans_le htab.Ec), mat.Es[i]'(hlt.trans_le htab.Es),
      mat.Ed[i]'(hlt.trans_le htab.Ed),
      mat.interaction_index[i]'(hlt.trans_le htab.interaction_index)⟩ := by
    unfold Material.species
    rw [vget_ok (hlt.trans_le htab.Z), vget_ok (hlt.trans_le htab.m),
      vget_ok (hlt.trans_le htab.Ec), vget_ok (hlt.trans_le htab.Es),
      vget_ok (hlt.trans_le htab.Ed), vget_ok (hlt.trans_le htab.interaction_index)]
    rfl
  obtain ⟨s, hs⟩ : ∃ s, mat.species i = .ok s := ⟨_, hsp⟩
  have h1 := rsat_of_ok (species_one mat i) hs
  refine ⟨s, ?_, fun j => ?_, ?_, h1.2⟩
  · have hz : (0.0 : ℝ) = 0 := by norm_num
    unfold Material.choose Material.get_cumulative_concentrations
    rw [hcs, hz]
    simp only [bind, StateT.bind, Except.bind, random, liftM, monadLift, MonadLift.monadLift,
      StateT.lift, pure, Except.pure, hi, hs]
  · rw [h1.1]
    constructor
    · rintro rfl; simpa [InInterval] using hin
    · intro hj
      have : Material.choose_index (t 0) (Material.cumulative 0 cs) = some j :=
        (hiff j).mpr (by simpa [InInterval] using hj)
      rw [hi] at this; exact Option.some.inj this
  · rw [h1.1]
    refine ⟨cs[i], List.getElem?_eq_getElem hlt, ?_⟩
    have := List.sum_take_succ cs i hlt
    linarith [hin.2.1, hin.2.2]

/-- The intervals of C27 have the concentrations as lengths: `InInterval` describes
`[a, a + c_i)` with `a` the sum of the concentrations before. -/
theorem C27_interval_length (cs : List ℝ) (i : Nat) (h : i < cs.length) (u : ℝ) :
    InInterval cs u i ↔ (cs.take i).sum ≤ u ∧ u < (cs.take i).sum + cs[i] := by
  unfold InInterval
  rw [List.sum_take_succ cs i h]
  exact ⟨fun h => h.2, fun h' => ⟨h, h'⟩⟩

/-! ## C28 -/

theorem weighted_sum_eq (l cs : List ℝ) : Material.weighted_sum l cs = average cs l := by
  unfold Material.weighted_sum average
  rw [fsum_real, List.zip_eq_zipWith, List.map_zipWith]

theorem average_bounds (lo hi : ℝ) : ∀ (cs vs : List ℝ), (∀ c ∈ cs, 0 ≤ c) →
    cs.length ≤ vs.length → (∀ v ∈ vs, lo ≤ v ∧ v ≤ hi) →
    lo*cs.sum ≤ average cs vs ∧ average cs vs ≤ hi*cs.sum := by
  intro cs
  induction cs with
  | nil => intro vs _ _ _; simp [average]
  | cons c cs ih =>
    intro vs hc hl hv
    cases vs with
    | nil => simp at hl
    | cons v vs =>
      obtain ⟨h1, h2⟩ := ih vs (fun x hx => hc x (by simp [hx])) (by simpa using hl)
        (fun x hx => hv x (by simp [hx]))
      obtain ⟨h3, h4⟩ := hv v (by simp)
      have h5 := hc c (by simp)
      simp only [average, List.zipWith_cons_cons, List.sum_cons] at *
      constructor
      · nlinarith
      · nlinarith

/-- **C28.** Each of the three averages is the concentration-weighted sum over the species and lies
between any bounds the species' values obey. -/
theorem C28_averages (mat : Material ℝ) (x y z : ℝ) (cs : List ℝ)
    (hcs : mat.geometry.get_concentrations x y z = .ok cs) (hc : Concentrations cs) :
    (mat.average_Z x y z = .ok (average cs mat.Z) ∧
      (cs.length ≤ mat.Z.length → ∀ lo hi, (∀ v ∈ mat.Z, lo ≤ v ∧ v ≤ hi) →
        lo ≤ average cs mat.Z ∧ average cs mat.Z ≤ hi)) ∧
    (mat.average_mass x y z = .ok (average cs mat.m) ∧
      (cs.length ≤ mat.m.length → ∀ lo hi, (∀ v ∈ mat.m, lo ≤ v ∧ v ≤ hi) →
        lo ≤ average cs mat.m ∧ average cs mat.m ≤ hi)) ∧
    (mat.average_bulk_binding_energy x y z = .ok (average cs mat.Eb) ∧
      (cs.length ≤ mat.Eb.length → ∀ lo hi, (∀ v ∈ mat.Eb, lo ≤ v ∧ v ≤ hi) →
        lo ≤ average cs mat.Eb ∧ average cs mat.Eb ≤ hi)) := by
  have hb : ∀ vs : List ℝ, cs.length ≤ vs.length → ∀ lo hi, (∀ v ∈ vs, lo ≤ v ∧ v ≤ hi) →
      lo ≤ average cs vs ∧ average cs vs ≤ hi := by
    intro vs hl lo hi hv
    have := average_bounds lo hi cs vs hc.1 hl hv
    rw [hc.2] at this; simpa using this
  refine ⟨⟨?_, hb _⟩, ⟨?_, hb _⟩, ⟨?_, hb _⟩⟩
  · unfold Material.average_Z; rw [hcs, ← weighted_sum_eq]; rfl
  · unfold Material.average_mass; rw [hcs, ← weighted_sum_eq]; rfl
  · unfold Material.average_bulk_binding_energy; rw [hcs, ← weighted_sum_eq]; rfl

/-! ## C79 -/

/-- **C79.** For a target with at least one species and non-negative cutoff energies,
`minimum_cutoff_energy` is one of the cutoff energies and no species has a smaller one. -/
theorem C79_minimum_cutoff (mat : Material ℝ) (hne : mat.Ec ≠ []) (hnn : ∀ e ∈ mat.Ec, 0 ≤ e) :
    mat.minimum_cutoff_energy ∈ mat.Ec ∧ ∀ e ∈ mat.Ec, mat.minimum_cutoff_energy ≤ e := by
  have key : ∀ (l : List ℝ) (a : ℝ),
      let r := l.foldl (fun m e => if m >. e then e else m) a
      (r = a ∨ r ∈ l) ∧ r ≤ a ∧ ∀ e ∈ l, r ≤ e := by
    intro l
    induction l with
    | nil => intro a; simp
    | cons b l ih =>
      intro a
      simp only [List.foldl_cons]
      by_cases h : b < a
      · have hb : (a >. b) = true := (lt_real _ _).2 h
        rw [if_pos hb]
        obtain ⟨h1, h2, h3⟩ := ih b
        refine ⟨Or.inr ?_, h2.trans h.le, ?_⟩
        · rcases h1 with h1 | h1
          · rw [h1]; simp
          · exact List.mem_cons_of_mem _ h1
        · intro e he
          rcases List.mem_cons.1 he with rfl | he
          · exact h2
          · exact h3 e he
      · have hb : ¬ (a >. b) = true := fun hh => h ((lt_real _ _).1 hh)
        rw [if_neg hb]
        obtain ⟨h1, h2, h3⟩ := ih a
        refine ⟨?_, h2, ?_⟩
        · rcases h1 with h1 | h1
          · exact Or.inl h1
          · exact Or.inr (List.mem_cons_of_mem _ h1)
        · intro e he
          rcases List.mem_cons.1 he with rfl | he
          · exact h2.trans (not_lt.1 h)
          · exact h3 e he
  obtain ⟨h1, -, h3⟩ := key mat.Ec (fsum mat.Ec)
  refine ⟨?_, h3⟩
  rcases h1 with h1 | h1
  · -- the sum itself: then it is no larger than any element, so it equals each of them
    obtain ⟨b, l, hbl⟩ : ∃ b l, mat.Ec = b :: l := List.exists_cons_of_ne_nil hne
    have hle : mat.minimum_cutoff_energy ≤ b := h3 b (by rw [hbl]; simp)
    have hge : b ≤ fsum mat.Ec := by
      rw [fsum_real, hbl, List.sum_cons]
      have : 0 ≤ l.sum := List.sum_nonneg fun e he => hnn e (by rw [hbl]; simp [he])
      linarith
    have e : mat.minimum_cutoff_energy = fsum mat.Ec := h1
    have : mat.minimum_cutoff_energy = b := le_antisymm hle (by rw [e]; exact hge)
    rw [this, hbl]; simp
  · exact h1

/-! ## C29 -/

/-- **C29, PLANAR and ISOTROPIC.** For every scalar, the surface binding energy depends on the
model only through its calculation. -/
theorem C29_variants {F : Type} [Scalar F] (mat : Material F) (p : Particle F) (x y z : F)
    (model : SurfaceBindingModel) (h : calculation model = calculation mat.surface_binding_model) :
    { mat with surface_binding_model := model }.actual_surface_binding_energy p x y z
      = mat.actual_surface_binding_energy p x y z := by
  unfold Material.actual_surface_binding_energy
  cases hm : mat.surface_binding_model <;> rw [hm] at h <;> cases model <;>
    simp only [calculation] at h <;> (try subst h) <;> (try cases h) <;> rfl

/-- **C29 (partial).** INDIVIDUAL and TARGET give the documented energy always, AVERAGE gives it
whenever the sum of the target's surface energies vanishes exactly if their average does (for
example if all are positive). Missing: AVERAGE for other targets, where it fails
(`C29_refuted`). -/
theorem C29_documented_partial (mat : Material ℝ) (p : Particle ℝ) (x y z : ℝ) (cs : List ℝ)
    (hcs : mat.geometry.get_concentrations x y z = .ok cs)
    (hav : calculation mat.surface_binding_model = .AVERAGE →
      (mat.Es.sum = 0 ↔ average cs mat.Es = 0)) :
    mat.actual_surface_binding_energy p x y z
      = .ok (documented (calculation mat.surface_binding_model) p.Es (average cs mat.Es)) := by
  have key : ∀ c : SurfaceBindingCalculation,
      (c = .AVERAGE → (mat.Es.sum = 0 ↔ average cs mat.Es = 0)) →
      (match c with
        | .INDIVIDUAL => (pure p.Es : Res ℝ)
        | .TARGET => if p.Es ==. 0.0 then pure 0.0 else pure (Material.weighted_sum mat.Es cs)
        | .AVERAGE => if (p.Es ==. 0.0) || (fsum mat.Es ==. 0.0) then pure 0.0
          else pure (0.5*(p.Es + Material.weighted_sum mat.Es cs)))
      = .ok (documented c p.Es (average cs mat.Es)) := by
    intro c hc
    have hz : (0.0 : ℝ) = 0 := by norm_num
    cases c with
    | INDIVIDUAL => rfl
    | TARGET =>
      simp only [documented, hz, weighted_sum_eq]
      by_cases h : p.Es = 0 <;> simp [h, pure, Except.pure]
    | AVERAGE =>
      have hc := hc rfl
      simp only [documented, hz, weighted_sum_eq, fsum_real]
      by_cases h : p.Es = 0
      · simp [h, pure, Except.pure]
      · by_cases h2 : mat.Es.sum = 0
        · simp [h, h2, hc.mp h2, pure, Except.pure]
        · have h3 : ¬ average cs mat.Es = 0 := fun h' => h2 (hc.mpr h')
          simp [h, h2, h3, pure, Except.pure]
          ring
  have := key (calculation mat.surface_binding_model) hav
  unfold Material.actual_surface_binding_energy
  rw [hcs]
  cases hm : mat.surface_binding_model <;> rw [hm] at this <;> simp only [calculation] at this <;>
    exact this

/-- For positive surface energies of all species (and concentrations as in C27) the documented
energy is what AVERAGE gives too. -/
theorem C29_positive_targets_partial (mat : Material ℝ) (p : Particle ℝ) (x y z : ℝ) (cs : List ℝ)
    (hcs : mat.geometry.get_concentrations x y z = .ok cs) (hc : Concentrations cs)
    (hl : cs.length ≤ mat.Es.length) (hpos : ∀ e ∈ mat.Es, 0 < e) (hne : mat.Es ≠ []) :
    mat.actual_surface_binding_energy p x y z
      = .ok (documented (calculation mat.surface_binding_model) p.Es (average cs mat.Es)) := by
  refine C29_documented_partial mat p x y z cs hcs (fun _ => ?_)
  have h1 : 0 < mat.Es.sum := List.sum_pos _ hpos hne
  obtain ⟨lo, hlo, hlb⟩ : ∃ lo > 0, ∀ e ∈ mat.Es, lo ≤ e := by
    clear h1 hl hcs hne
    generalize mat.Es = l at hpos
    induction l with
    | nil => exact ⟨1, by norm_num, by simp⟩
    | cons a l ih =>
      obtain ⟨lo, h1, h2⟩ := ih (fun e he => hpos e (by simp [he]))
      refine ⟨min lo a, lt_min h1 (hpos a (by simp)), fun e he => ?_⟩
      rcases List.mem_cons.mp he with rfl | he
      · exact min_le_right _ _
      · exact (min_le_left _ _).trans (h2 e he)
  obtain ⟨hi, hub⟩ : ∃ hi, ∀ e ∈ mat.Es, e ≤ hi := by
    clear h1 hl hcs hne hpos hlb
    generalize mat.Es = l
    induction l with
    | nil => exact ⟨0, by simp⟩
    | cons a l ih =>
      obtain ⟨hi, h2⟩ := ih
      refine ⟨max hi a, fun e he => ?_⟩
      rcases List.mem_cons.mp he with rfl | he
      · exact le_max_right _ _
      · exact (h2 e he).trans (le_max_left _ _)
  have h2 := (average_bounds lo hi cs mat.Es hc.1 hl fun v hv => ⟨hlb v hv, hub v hv⟩).1
  rw [hc.2] at h2
  constructor <;> intro h <;> linarith

/-- **C29 is false of the code for AVERAGE.** A two-species target whose second species has surface
energy 4 but concentration 0 here: the target average is 0, so the documented energy is 0, but the
code returns half the particle's. -/
theorem C29_refuted : ∃ (mat : Material ℝ) (p : Particle ℝ) (cs : List ℝ),
    mat.surface_binding_model = .AVERAGE ∧ Concentrations cs ∧ Tabulated mat cs.length ∧
    (∀ e ∈ mat.Es, 0 ≤ e) ∧ mat.geometry.get_concentrations 0 0 0 = .ok cs ∧
    documented .AVERAGE p.Es (average cs mat.Es) = 0 ∧
    mat.actual_surface_binding_energy p 0 0 0 = .ok 3 := by
  let geom : Geom ℝ := (⟨[1, 0], [1, 0], 1, 1⟩ : Mesh0D ℝ).toGeom
  let mat : Material ℝ := ⟨[1, 1], [1, 1], [0, 0], [0, 4], [0, 0], [0, 0], [0, 0], geom,
    .AVERAGE, .AVERAGE⟩
  let p : Particle ℝ := Particle.new 1 1 1 0 6 0 0 0 0 1 0 0 true false 0
  refine ⟨mat, p, [1, 0], rfl, ⟨by simp, by simp⟩, ⟨?_, ?_, ?_, ?_, ?_, ?_⟩, ?_, rfl, ?_, ?_⟩
  all_goals try exact le_refl _
  · simp [mat]
  · simp [documented, average, mat]
  · simp only [Material.actual_surface_binding_energy, mat, geom, Mesh0D.toGeom, bind, Except.bind,
      fsum_real, weighted_sum_eq, p, Particle.new]
    norm_num [average, pure, Except.pure, Scalar.eq]

end RustBCA
