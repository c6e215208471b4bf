import Verif.Props.Run
import Verif.Props.Cascade
import Verif.Spec.Output
import Std.Data.String.ToNat

/-!
# Properties of the outputs (C49-C52)
-/

set_option linter.unusedSectionVars false
set_option linter.unusedVariables false
set_option linter.unusedSimpArgs false

namespace RustBCA
open Scalar Spec
variable {F : Type} [Scalar F]

/-! ## The summary table -/

theorem vmodify_ok {α : Type} (v : List α) (i : Nat) (g : α → α) (h : i < v.length) :
    vmodify v i g = .ok (v.modify i g) := by
  unfold vmodify
  rw [List.getElem?_eq_getElem h]
  simp only [Except.ok.injEq]
  apply List.ext_getElem?
  intro j
  rw [List.getElem?_modify, List.getElem?_set]
  by_cases hij : i = j
  · subst hij; simp [h]
  · simp [hij]

theorem modify_add_zero (v : List Nat) (i : Nat) : v.modify i (fun x => x) = v := by
  apply List.ext_getElem?
  intro j
  rw [List.getElem?_modify]
  by_cases hij : i = j <;> simp [hij]

theorem sum_modify (v : List Nat) (i k : Nat) (h : i < v.length) :
    (v.modify i (· + k)).sum = v.sum + k := by
  induction v generalizing i with
  | nil => simp at h
  | cons a v ih =>
    cases i with
    | zero => simp; omega
    | succ i =>
      simp only [List.modify_succ_cons, List.sum_cons]
      rw [ih i (by simpa using h)]; omega

/-- 1 for true, 0 for false. -/
def bit (b : Bool) : Nat := if b then 1 else 0

/-- The columns of the summary have the same length. -/
structure SummaryPerSpecies.Even (s : SummaryPerSpecies F) : Prop where
  reflected : s.reflected.length = s.m.length
  sputtered : s.sputtered.length = s.m.length
  deposited : s.deposited.length = s.m.length

theorem position_lt {masses : List F} {m : F} {i : Nat}
    (h : SummaryPerSpecies.position masses m = some i) :
    ∃ hi : i < masses.length, (masses[i] ==. m) = true := by
  unfold SummaryPerSpecies.position at h
  obtain ⟨hi, h1, _⟩ := List.findIdx?_eq_some_iff_getElem.1 h
  exact ⟨hi, h1⟩

theorem position_none {masses : List F} {m : F}
    (h : SummaryPerSpecies.position masses m = none) : ∀ x ∈ masses, (x ==. m) = false := by
  unfold SummaryPerSpecies.position at h
  rw [List.findIdx?_eq_none_iff] at h
  exact h

/-- What `update` does: count the particle in its mass' row, or in a new row. -/
theorem summary_update (s : SummaryPerSpecies F) (p : Particle F) (hs : s.Even) :
    (∃ i, SummaryPerSpecies.position s.m p.m = some i ∧ s.update p = .ok
      ⟨s.m, s.sputtered.modify i (· + bit (Sputtered p)),
        s.reflected.modify i (· + bit (Reflected p)),
        s.deposited.modify i (· + bit (Deposited p))⟩) ∨
    (SummaryPerSpecies.position s.m p.m = none ∧ s.update p = .ok
      ⟨s.m ++ [p.m], s.sputtered ++ [bit (Sputtered p)], s.reflected ++ [bit (Reflected p)],
        s.deposited ++ [bit (Deposited p)]⟩) := by
  unfold SummaryPerSpecies.update
  cases hpos : SummaryPerSpecies.position s.m p.m with
  | some i =>
    left
    obtain ⟨hi, _⟩ := position_lt hpos
    refine ⟨i, rfl, ?_⟩
    have h1 : i < s.reflected.length := by rw [hs.reflected]; exact hi
    have h2 : i < s.sputtered.length := by rw [hs.sputtered]; exact hi
    have h3 : i < s.deposited.length := by rw [hs.deposited]; exact hi
    cases hp : p.incident <;> cases hl : p.left <;>
      simp [vmodify_ok _ _ _ h1, vmodify_ok _ _ _ h2, vmodify_ok _ _ _ h3, Sputtered, Reflected,
        Deposited, hp, hl, bit, modify_add_zero, bind, Except.bind, pure, Except.pure]
  | none =>
    right
    refine ⟨rfl, ?_⟩
    cases hp : p.incident <;> cases hl : p.left <;>
      simp [Sputtered, Reflected, Deposited, hp, hl, bit, pure, Except.pure]

theorem summary_update_even {s s' : SummaryPerSpecies F} {p : Particle F} (hs : s.Even)
    (h : s.update p = .ok s') : s'.Even := by
  rcases summary_update s p hs with ⟨i, _, e⟩ | ⟨_, e⟩
  · rw [e] at h; obtain rfl := Except.ok.inj h
    exact ⟨by simp [hs.reflected], by simp [hs.sputtered], by simp [hs.deposited]⟩
  · rw [e] at h; obtain rfl := Except.ok.inj h
    exact ⟨by simp [hs.reflected], by simp [hs.sputtered], by simp [hs.deposited]⟩

theorem summary_update_ok (s : SummaryPerSpecies F) (p : Particle F) (hs : s.Even) :
    ∃ s', s.update p = .ok s' := by
  rcases summary_update s p hs with ⟨i, _, e⟩ | ⟨_, e⟩ <;> exact ⟨_, e⟩

theorem summary_update_sums {s s' : SummaryPerSpecies F} {p : Particle F} (hs : s.Even)
    (h : s.update p = .ok s') :
    s'.reflected.sum = s.reflected.sum + bit (Reflected p) ∧
    s'.sputtered.sum = s.sputtered.sum + bit (Sputtered p) ∧
    s'.deposited.sum = s.deposited.sum + bit (Deposited p) := by
  rcases summary_update s p hs with ⟨i, hpos, e⟩ | ⟨_, e⟩
  · rw [e] at h; obtain rfl := Except.ok.inj h
    obtain ⟨hi, _⟩ := position_lt hpos
    exact ⟨sum_modify _ _ _ (by rw [hs.reflected]; exact hi),
      sum_modify _ _ _ (by rw [hs.sputtered]; exact hi),
      sum_modify _ _ _ (by rw [hs.deposited]; exact hi)⟩
  · rw [e] at h; obtain rfl := Except.ok.inj h
    simp

theorem new_even : (SummaryPerSpecies.new : SummaryPerSpecies F).Even := ⟨rfl, rfl, rfl⟩

theorem countP_append_one {α : Type} (c : α → Bool) (l : List α) (a : α) :
    (l ++ [a]).countP c = l.countP c + bit (c a) := by
  rw [List.countP_append]
  cases h : c a <;> simp [bit, h]

/-- Everything known about the summary after processing `ps`. -/
theorem summary_fold (ps : List (Particle F)) :
    ∃ s, forFold SummaryPerSpecies.update ps (SummaryPerSpecies.new : SummaryPerSpecies F) = .ok s ∧
      s.Even ∧ s.reflected.sum = ps.countP Reflected ∧ s.sputtered.sum = ps.countP Sputtered ∧
      s.deposited.sum = ps.countP Deposited := by
  induction ps using List.reverseRecOn with
  | nil => exact ⟨_, rfl, new_even, rfl, rfl, rfl⟩
  | append_singleton ps p ih =>
    obtain ⟨s, h1, h2, h3, h4, h5⟩ := ih
    obtain ⟨s', h6⟩ := summary_update_ok s p h2
    obtain ⟨h7, h8, h9⟩ := summary_update_sums h2 h6
    refine ⟨s', forFold_ok_append.2 ⟨s, h1, forFold_ok_cons.2 ⟨s', h6, rfl⟩⟩,
      summary_update_even h2 h6, ?_, ?_, ?_⟩
    · rw [h7, h3, countP_append_one]
    · rw [h8, h4, countP_append_one]
    · rw [h9, h5, countP_append_one]

/-- The table with a row per mass. -/
structure Table (ps : List (Particle F)) (s : SummaryPerSpecies F) : Prop where
  reflected : s.reflected = s.m.map (countMass Reflected ps)
  sputtered : s.sputtered = s.m.map (countMass Sputtered ps)
  deposited : s.deposited = s.m.map (countMass Deposited ps)
  distinct : s.m.Pairwise fun a b => (a ==. b) = false
  covered : ∀ p ∈ ps, ∃ x ∈ s.m, (x ==. p.m) = true
  used : ∀ x ∈ s.m, ∃ p ∈ ps, p.m = x

theorem Table.even {ps : List (Particle F)} {s : SummaryPerSpecies F} (h : Table ps s) : s.Even :=
  ⟨by rw [h.reflected]; simp, by rw [h.sputtered]; simp, by rw [h.deposited]; simp⟩

theorem countMass_append (c : Particle F → Bool) (ps : List (Particle F)) (p : Particle F) (m : F) :
    countMass c (ps ++ [p]) m = countMass c ps m + bit ((m ==. p.m) && c p) := by
  unfold countMass; rw [countP_append_one]

section
variable [ScalarOrd F]

theorem eq_false_of {a b c : F} (h1 : (a ==. c) = true) (h2 : (a ==. b) = false) :
    (b ==. c) = false := by
  cases h : (b ==. c) with
  | false => rfl
  | true =>
    have := ScalarOrd.eq_trans a c b h1 (ScalarOrd.eq_symm _ _ h)
    rw [h2] at this; exact absurd this (by simp)

/-- At most one row has a given mass. -/
theorem row_unique {ms : List F} (hd : ms.Pairwise fun a b => (a ==. b) = false) {m : F} {i j : Nat}
    (hi : i < ms.length) (hj : j < ms.length) (h1 : (ms[i] ==. m) = true)
    (h2 : (ms[j] ==. m) = true) : i = j := by
  rw [List.pairwise_iff_getElem] at hd
  rcases Nat.lt_trichotomy i j with h | h | h
  · have := hd i j hi hj h
    have h3 := ScalarOrd.eq_trans _ _ _ h1 (ScalarOrd.eq_symm _ _ h2)
    rw [this] at h3; simp at h3
  · exact h
  · have := hd j i hj hi h
    have h3 := ScalarOrd.eq_trans _ _ _ h2 (ScalarOrd.eq_symm _ _ h1)
    rw [this] at h3; simp at h3

theorem column_bump {ms : List F} (hd : ms.Pairwise fun a b => (a ==. b) = false) {p : Particle F}
    {i : Nat} (hpos : SummaryPerSpecies.position ms p.m = some i) (c : Particle F → Bool)
    (ps : List (Particle F)) :
    (ms.map (countMass c ps)).modify i (· + bit (c p)) = ms.map (countMass c (ps ++ [p])) := by
  obtain ⟨hi, hm⟩ := position_lt hpos
  apply List.ext_getElem
  · simp
  · intro j h1 h2
    have hj : j < ms.length := by simpa using h2
    rw [List.getElem_modify, List.getElem_map, List.getElem_map, countMass_append]
    by_cases hij : i = j
    · subst hij; simp [hm]
    · rw [if_neg hij]
      have : (ms[j] ==. p.m) = false := by
        cases h : (ms[j] ==. p.m) with
        | false => rfl
        | true => exact absurd (row_unique hd hi hj hm h) hij
      simp [this, bit]

theorem column_new {ms : List F} {p : Particle F}
    (hpos : SummaryPerSpecies.position ms p.m = none) (c : Particle F → Bool)
    (ps : List (Particle F)) (hp : (p.m ==. p.m) = true)
    (hcov : ∀ q ∈ ps, ∃ x ∈ ms, (x ==. q.m) = true) :
    ms.map (countMass c ps) ++ [bit (c p)] = (ms ++ [p.m]).map (countMass c (ps ++ [p])) := by
  have hn := position_none hpos
  rw [List.map_append]
  congr 1
  · apply List.map_congr_left
    intro x hx
    rw [countMass_append, hn x hx]; simp [bit]
  · have : countMass c ps p.m = 0 := by
      unfold countMass
      rw [List.countP_eq_zero]
      intro q hq hc
      obtain ⟨x, hx, hxq⟩ := hcov q hq
      simp only [Bool.and_eq_true] at hc
      have := ScalarOrd.eq_trans _ _ _ hxq (ScalarOrd.eq_symm _ _ hc.1)
      rw [hn x hx] at this; simp at this
    simp [countMass_append, this, hp]

theorem summary_table (ps : List (Particle F)) (hnan : ∀ p ∈ ps, Scalar.isNaN p.m = false) :
    ∃ s, forFold SummaryPerSpecies.update ps (SummaryPerSpecies.new : SummaryPerSpecies F) = .ok s ∧
      Table ps s := by
  induction ps using List.reverseRecOn with
  | nil => exact ⟨_, rfl, rfl, rfl, rfl, List.Pairwise.nil, by simp, by simp [SummaryPerSpecies.new]⟩
  | append_singleton ps p ih =>
    obtain ⟨s, h1, h2⟩ := ih (fun q hq => hnan q (by simp [hq]))
    have hpp := ScalarOrd.eq_refl p.m (hnan p (by simp))
    obtain ⟨s', h6⟩ := summary_update_ok s p h2.even
    refine ⟨s', forFold_ok_append.2 ⟨s, h1, forFold_ok_cons.2 ⟨s', h6, rfl⟩⟩, ?_⟩
    rcases summary_update s p h2.even with ⟨i, hpos, e⟩ | ⟨hpos, e⟩
    · rw [e] at h6; obtain rfl := Except.ok.inj h6
      refine ⟨?_, ?_, ?_, h2.distinct, ?_, ?_⟩
      · simp only [h2.reflected, column_bump h2.distinct hpos]
      · simp only [h2.sputtered, column_bump h2.distinct hpos]
      · simp only [h2.deposited, column_bump h2.distinct hpos]
      · intro q hq
        rcases List.mem_append.1 hq with hq | hq
        · exact h2.covered q hq
        · rw [List.mem_singleton] at hq; subst hq
          obtain ⟨hi, hm⟩ := position_lt hpos
          exact ⟨_, List.getElem_mem hi, hm⟩
      · intro x hx
        obtain ⟨q, hq, e⟩ := h2.used x hx
        exact ⟨q, by simp [hq], e⟩
    · rw [e] at h6; obtain rfl := Except.ok.inj h6
      refine ⟨?_, ?_, ?_, ?_, ?_, ?_⟩
      · simp only [h2.reflected, column_new hpos _ _ hpp h2.covered]
      · simp only [h2.sputtered, column_new hpos _ _ hpp h2.covered]
      · simp only [h2.deposited, column_new hpos _ _ hpp h2.covered]
      · rw [List.pairwise_append]
        refine ⟨h2.distinct, by simp, fun a ha b hb => ?_⟩
        rw [List.mem_singleton] at hb; subst hb
        exact position_none hpos a ha
      · intro q hq
        rcases List.mem_append.1 hq with hq | hq
        · obtain ⟨x, hx, e⟩ := h2.covered q hq
          exact ⟨x, by simp [hx], e⟩
        · rw [List.mem_singleton] at hq; subst hq
          exact ⟨q.m, by simp, hpp⟩
      · intro x hx
        rcases List.mem_append.1 hx with hx | hx
        · obtain ⟨q, hq, e⟩ := h2.used x hx
          exact ⟨q, by simp [hq], e⟩
        · rw [List.mem_singleton] at hx; subst hx
          exact ⟨p, by simp, rfl⟩

end

theorem zip_columns {α : Type} (a : List α) (b c d : List Nat) (hb : b.length = a.length)
    (hc : c.length = a.length) (hd : d.length = a.length) (g : α → α) :
    ((((a.zip b).zip c).zip d).map fun (((m, r), sp), d) => (g m, r, sp, d)).map (·.2.1) = b ∧
    ((((a.zip b).zip c).zip d).map fun (((m, r), sp), d) => (g m, r, sp, d)).map (·.2.2.1) = c ∧
    ((((a.zip b).zip c).zip d).map fun (((m, r), sp), d) => (g m, r, sp, d)).map (·.2.2.2) = d := by
  induction a generalizing b c d with
  | nil => simp_all
  | cons x a ih =>
    match b, c, d, hb, hc, hd with
    | b :: bs, c :: cs, d :: ds, hb, hc, hd =>
      obtain ⟨h1, h2, h3⟩ := ih bs cs ds (by simpa using hb) (by simpa using hc) (by simpa using hd)
      simp only [List.zip_cons_cons, List.map_cons, List.cons.injEq, true_and]
      exact ⟨h1, h2, h3⟩

theorem rows_sums {s : SummaryPerSpecies F} (hs : s.Even) (u : OutputUnits F) :
    columnSums (s.rows u) = (s.reflected.sum, s.sputtered.sum, s.deposited.sum) := by
  obtain ⟨h1, h2, h3⟩ := zip_columns s.m s.reflected s.sputtered s.deposited hs.reflected
    hs.sputtered hs.deposited (fun m => m/u.mass_unit)
  unfold columnSums SummaryPerSpecies.rows
  rw [h1, h2, h3]

/-! ## From the run to its outputs -/

theorem forFold_run {cfg : OutputConfig F} {options : Options F} {n : Nat}
    (ps : List (Particle F)) :
    ∀ {s s' : RunState F}, forFold (process_particle cfg options n) ps s = .ok s' →
      forFold SummaryPerSpecies.update ps s.summary = .ok s'.summary ∧
      s'.ops = if cfg.list_output then
        s.ops ++ (ps.map fun p => output_lists cfg.fmt p options cfg.units).flatten else s.ops := by
  induction ps with
  | nil =>
    intro s s' h
    obtain rfl : s = s' := by simpa [forFold, pure, Except.pure] using h
    exact ⟨rfl, by cases cfg.list_output <;> simp⟩
  | cons p ps ih =>
    intro s s' h
    obtain ⟨m, h1, h2⟩ := forFold_ok_cons.1 h
    obtain ⟨g1, g2⟩ := ih h2
    obtain ⟨_, k2, _, k4⟩ := process_particle_ok h1
    refine ⟨forFold_ok_cons.2 ⟨_, k2, g1⟩, ?_⟩
    rw [g2, k4]
    cases cfg.list_output <;> simp

/-- A successful run: its particles, its summary and the lines of its list files. -/
theorem run_outputs {α : Type} {cfg : OutputConfig F} {options : Options F}
    {sim : α → Res (List (Particle F))} {splits : List Split} {ions : List α} {s : RunState F}
    (run : physics_loop cfg options sim splits ions = .ok s) :
    (∃ outs, Simulated sim ions outs ∧ s.processed = outs.flatten) ∧
    forFold SummaryPerSpecies.update s.processed SummaryPerSpecies.new = .ok s.summary ∧
    ∀ f, linesOf f s.ops = if cfg.list_output then
      (s.processed.map fun p => linesOf f (output_lists cfg.fmt p options cfg.units)).flatten
      else [] := by
  obtain ⟨h1, h2, h3⟩ := physics_loop_ok.1 run
  obtain ⟨ps, t', h4, h5, hv⟩ := chunks_to_one _ h3 (SameView.refl _)
  rw [withSplits_fst, (C47_chunks_partition _ h2 ions).1] at h4
  obtain ⟨outs, ho, rfl⟩ := (seq_collect_ok _ _ _).1 h4
  have hp : s.processed = outs.flatten := by
    rw [← hv.processed, forFold_processed _ h5]; simp
  obtain ⟨g1, g2⟩ := forFold_run _ h5
  refine ⟨⟨outs, ho, hp⟩, ?_, fun f => ?_⟩
  · rw [hp, ← hv.summary]; exact g1
  · rw [← hv.lines f, g2, hp]
    cases cfg.list_output with
    | false => rfl
    | true =>
      simp only [if_true, List.nil_append]
      generalize outs.flatten = ps
      induction ps with
      | nil => rfl
      | cons p ps ih => simp only [List.map_cons, List.flatten_cons, linesOf_append, ih]

/-- Every cascade of a run contains exactly one incident particle, and all its particles are
finished. -/
theorem run_ion_incident {rcpr : Rcpr F} {fuel : Nat} {material : Material F} {options : Options F}
    {input : ParticleInput F} {tape : Tape F} {out : List (Particle F)}
    (h : run_ion rcpr fuel material options input tape = .ok out) :
    out.countP (·.incident) = 1 ∧ ∀ p ∈ out, Finished p := by
  unfold run_ion at h
  simp only [bind, Except.bind, pure, Except.pure] at h
  cases hp : Particle.from_input input options with
  | error e => rw [hp] at h; simp at h
  | ok ion =>
    rw [hp] at h; simp only at h
    have hion : ion.stopped = false ∧ ion.left = false ∧ ion.incident = true := by
      unfold Particle.from_input at hp
      simp only [bind, Except.bind, pure, Except.pure, rassert] at hp
      split at hp
      · simp at hp
      · split at hp
        · simp at hp
        · obtain rfl := Except.ok.inj hp
          exact ⟨rfl, rfl, rfl⟩
    cases hr : single_ion_bca rcpr fuel ion material options tape with
    | error e => rw [hr] at h; simp at h
    | ok r =>
      rw [hr] at h
      obtain rfl : r.1 = out := by simpa using h
      obtain ⟨h1, h2, h3⟩ := hion
      obtain ⟨q, rest, e, hsame, hrest⟩ := C02_ion_first _ _ _ _ _ _ _ _ h1 h2 hr
      refine ⟨?_, (C01_exactly_one_fate _ _ _ _ _ _ _ _ h1 h2 hr).2⟩
      rw [e, List.countP_cons_of_pos (by rw [hsame.incident, h3])]
      rw [List.countP_eq_zero.2 (fun r hr => by simp [hrest r hr])]

theorem simulated_incident {α : Type} {sim : α → Res (List (Particle F))} {ions : List α}
    {outs : List (List (Particle F))} (h : Simulated sim ions outs)
    (hone : ∀ a out, sim a = .ok out → out.countP (·.incident) = 1) :
    outs.flatten.countP (·.incident) = ions.length := by
  induction h with
  | nil => rfl
  | cons h1 _ ih =>
    rw [List.flatten_cons, List.countP_append, ih, hone _ _ h1, List.length_cons]; omega

theorem countP_incident (ps : List (Particle F)) :
    ps.countP Reflected + ps.countP Deposited = ps.countP (·.incident) := by
  induction ps with
  | nil => rfl
  | cons p ps ih =>
    simp only [List.countP_cons, Reflected, Deposited] at ih ⊢
    by_cases hi : p.incident = true <;> by_cases hl : p.left = true <;> simp [hi, hl] <;> omega

/-! ## C49 -/

/-- **C49** (the plain counter) A `Summary` to which particles are added, in whatever order, counts
the ions that left as reflected, the target atoms that left as sputtered, nothing else, and keeps
the number of incident ions it was given. -/
theorem C49_summary_counter (n : Nat) (ps : List (Particle F)) :
    ps.foldl Summary.add (Summary.new n) =
      ⟨n, ps.countP Sputtered, ps.countP Reflected⟩ := by
  have : ∀ (ps : List (Particle F)) (a b : Nat), ps.foldl Summary.add ⟨n, a, b⟩ =
      ⟨n, a + ps.countP Sputtered, b + ps.countP Reflected⟩ := by
    intro ps
    induction ps with
    | nil => intro a b; rfl
    | cons p ps ih =>
      intro a b
      rw [List.foldl_cons]
      cases hi : p.incident <;> cases hl : p.left <;>
        simp [Summary.add, hi, hl, ih, List.countP_cons, Sputtered, Reflected] <;> omega
  simpa [Summary.new] using this ps 0 0

/-- **C49** In summary.output the reflected and the deposited column together add up to the number
of ions, and the sputtered column adds up to the number of recoils that left. -/
theorem C49_summary_balances {rcpr : Rcpr F} {fuel : Nat} {cfg : OutputConfig F}
    {material : Material F} {options : Options F} {splits : List Split} {tapes : Nat → Tape F}
    {inputs : List (ParticleInput F)} {s : RunState F}
    (run : physics_loop_run rcpr fuel cfg material options splits tapes inputs = .ok s) :
    ∃ refl sput dep, columnSums (s.summary.rows cfg.units) = (refl, sput, dep) ∧
      refl + dep = inputs.length ∧
      sput = s.processed.countP (fun p => !p.incident && p.left) ∧
      refl = s.processed.countP (fun p => p.incident && p.left) ∧
      dep = s.processed.countP (fun p => p.incident && p.stopped) := by
  obtain ⟨⟨outs, ho, hp⟩, hsum, -⟩ := run_outputs run
  obtain ⟨s', h1, h2, h3, h4, h5⟩ := summary_fold s.processed
  rw [hsum] at h1
  obtain rfl := Except.ok.inj h1
  have hfin : ∀ p ∈ s.processed, Finished p := by
    intro p hpm
    rw [hp, List.mem_flatten] at hpm
    obtain ⟨out, hout, hpo⟩ := hpm
    obtain ⟨i, hi, rfl⟩ := List.getElem_of_mem hout
    have hl := ho.length_eq
    exact (run_ion_incident (List.forall₂_iff_get.1 ho |>.2 i (by omega) hi)).2 p hpo
  refine ⟨_, _, _, rows_sums h2 cfg.units, ?_, h4, h3, ?_⟩
  · rw [h3, h5, countP_incident, hp,
      simulated_incident ho (fun a out h => (run_ion_incident h).1)]
    simp
  · rw [h5]
    apply List.countP_congr
    intro p hpm
    rcases hfin p hpm with ⟨a, b⟩ | ⟨a, b⟩ <;> simp [Deposited, a, b]

/-! ## C50 -/

/-- **C50** Whatever particles are processed (their masses being numbers), the summary has columns
of equal length, no mass occurs twice, every particle's mass has a row, and the row of a mass holds
the number of particles with this mass and fate. -/
theorem C50_one_row_per_mass [ScalarOrd F] (ps : List (Particle F))
    (hnan : ∀ p ∈ ps, Scalar.isNaN p.m = false) :
    ∃ s, forFold SummaryPerSpecies.update ps (SummaryPerSpecies.new : SummaryPerSpecies F) = .ok s ∧
      s.reflected.length = s.m.length ∧ s.sputtered.length = s.m.length ∧
      s.deposited.length = s.m.length ∧
      (s.m.Pairwise fun a b => (a ==. b) = false) ∧
      (∀ p ∈ ps, ∃ x ∈ s.m, (x ==. p.m) = true) ∧
      (∀ x ∈ s.m, ∃ p ∈ ps, p.m = x) ∧
      ∀ (i : Nat) (m : F), s.m[i]? = some m →
        s.reflected[i]? = some (ps.countP fun p => (m ==. p.m) && p.incident && p.left) ∧
        s.deposited[i]? = some (ps.countP fun p => (m ==. p.m) && p.incident && !p.left) ∧
        s.sputtered[i]? = some (ps.countP fun p => (m ==. p.m) && !p.incident && p.left) := by
  obtain ⟨s, h, t⟩ := summary_table ps hnan
  refine ⟨s, h, t.even.reflected, t.even.sputtered, t.even.deposited, t.distinct, t.covered, t.used,
    fun i m hi => ?_⟩
  rw [t.reflected, t.deposited, t.sputtered]
  simp only [List.getElem?_map, hi, Option.map_some, countMass, Reflected, Deposited, Sputtered,
    Bool.and_assoc, and_self]

/-- **C50** columns of equal length for every sequence of particles, NaN masses included. -/
theorem C50_equal_columns (ps : List (Particle F)) :
    ∃ s, forFold SummaryPerSpecies.update ps (SummaryPerSpecies.new : SummaryPerSpecies F) = .ok s ∧
      s.reflected.length = s.m.length ∧ s.sputtered.length = s.m.length ∧
      s.deposited.length = s.m.length := by
  obtain ⟨s, h1, h2, -⟩ := summary_fold ps
  exact ⟨s, h1, h2.1, h2.2, h2.3⟩

/-- **C50** the order of processing does not matter: every row of one table is in the other (with
an equal mass and equal counts), and the tables have equally many rows. -/
theorem C50_order_independent [ScalarOrd F] {ps ps' : List (Particle F)} (hperm : ps.Perm ps')
    (hnan : ∀ p ∈ ps, Scalar.isNaN p.m = false) {s s' : SummaryPerSpecies F}
    (h : forFold SummaryPerSpecies.update ps SummaryPerSpecies.new = .ok s)
    (h' : forFold SummaryPerSpecies.update ps' SummaryPerSpecies.new = .ok s') :
    s.m.length = s'.m.length ∧
    ∀ (i : Nat) (m : F), s.m[i]? = some m → ∃ (j : Nat) (m' : F), s'.m[j]? = some m' ∧
      (m ==. m') = true ∧ s'.reflected[j]? = s.reflected[i]? ∧
      s'.deposited[j]? = s.deposited[i]? ∧ s'.sputtered[j]? = s.sputtered[i]? := by
  have hnan' : ∀ p ∈ ps', Scalar.isNaN p.m = false := fun p hp => hnan p (hperm.mem_iff.2 hp)
  obtain ⟨s1, e1, t⟩ := summary_table ps hnan
  obtain ⟨s2, e2, t'⟩ := summary_table ps' hnan'
  rw [h] at e1; obtain rfl := Except.ok.inj e1
  rw [h'] at e2; obtain rfl := Except.ok.inj e2
  have key : ∀ {qs qs' : List (Particle F)} {a b : SummaryPerSpecies F}, qs.Perm qs' →
      Table qs a → Table qs' b → ∀ (i : Nat) (hi : i < a.m.length),
        ∃ (j : Nat) (hj : j < b.m.length), (a.m[i] ==. b.m[j]) = true := by
    intro qs qs' a b hp ta tb i hi
    obtain ⟨q, hq, e⟩ := ta.used _ (List.getElem_mem hi)
    obtain ⟨x, hx, hxe⟩ := tb.covered q (hp.mem_iff.1 hq)
    obtain ⟨j, hj, rfl⟩ := List.getElem_of_mem hx
    exact ⟨j, hj, by rw [← e]; exact ScalarOrd.eq_symm _ _ hxe⟩
  have hcount : ∀ (c : Particle F → Bool) (m m' : F), (m ==. m') = true →
      countMass c ps' m' = countMass c ps m := by
    intro c m m' hm
    unfold countMass
    rw [hperm.countP_eq]
    apply List.countP_congr
    intro p _
    have : (m' ==. p.m) = (m ==. p.m) := by
      cases h1 : (m ==. p.m) with
      | true => exact ScalarOrd.eq_trans _ _ _ (ScalarOrd.eq_symm _ _ hm) h1
      | false =>
        cases h2 : (m' ==. p.m) with
        | false => rfl
        | true => rw [ScalarOrd.eq_trans _ _ _ hm h2] at h1; simp at h1
    rw [this]
  have hle : ∀ {qs qs' : List (Particle F)} {a b : SummaryPerSpecies F}, qs.Perm qs' →
      Table qs a → Table qs' b → a.m.length ≤ b.m.length := by
    intro qs qs' a b hp ta tb
    choose f hf using fun i : Fin a.m.length => key hp ta tb i.1 i.2
    have hinj : Function.Injective fun i : Fin a.m.length => (⟨f i, (hf i).1⟩ : Fin b.m.length) := by
      intro i j hij
      have hij' : f i = f j := by simpa using hij
      obtain ⟨h1, h2⟩ := hf i
      obtain ⟨h3, h4⟩ := hf j
      apply Fin.ext
      refine row_unique ta.distinct i.2 j.2 h2 ?_
      simpa only [hij'] using h4
    have := Fintype.card_le_of_injective _ hinj
    simpa using this
  refine ⟨Nat.le_antisymm (hle hperm t t') (hle hperm.symm t' t), fun i m hi => ?_⟩
  obtain ⟨hi', rfl⟩ := List.getElem?_eq_some_iff.1 hi
  obtain ⟨j, hj, hm⟩ := key hperm t t' i hi'
  refine ⟨j, _, List.getElem?_eq_getElem hj, hm, ?_, ?_, ?_⟩
  · rw [t.reflected, t'.reflected]
    simp [List.getElem?_map, List.getElem?_eq_getElem hi', List.getElem?_eq_getElem hj,
      hcount _ _ _ hm]
  · rw [t.deposited, t'.deposited]
    simp [List.getElem?_map, List.getElem?_eq_getElem hi', List.getElem?_eq_getElem hj,
      hcount _ _ _ hm]
  · rw [t.sputtered, t'.sputtered]
    simp [List.getElem?_map, List.getElem?_eq_getElem hi', List.getElem?_eq_getElem hj,
      hcount _ _ _ hm]

/-! ## C51 -/

/-- The lines `output_lists` writes to each of the seven files. -/
theorem output_lists_lines (fmt : F → String) (p : Particle F) (options : Options F)
    (u : OutputUnits F) :
    linesOf .reflected (output_lists fmt p options u) =
      (if p.incident && p.left then [reflectedLine fmt u p] else []) ∧
    linesOf .deposited (output_lists fmt p options u) =
      (if p.incident && p.stopped then [depositedLine fmt u p] else []) ∧
    linesOf .sputtered (output_lists fmt p options u) =
      (if !p.incident && p.left then [sputteredLine fmt u p] else []) ∧
    linesOf .displacements (output_lists fmt p options u) =
      (if !p.incident && options.track_displacements && (p.energy_origin >. p.Ed) then
        [displacementLine fmt u p] else []) ∧
    linesOf .trajectory_data (output_lists fmt p options u) =
      (if p.track_trajectories then [toString p.trajectory.length] else []) ∧
    linesOf .trajectory (output_lists fmt p options u) =
      (if p.track_trajectories then p.trajectory.map (trajectoryLine fmt u p) else []) ∧
    linesOf .energy_loss (output_lists fmt p options u) =
      (if p.incident && options.track_energy_losses then p.energies.map (energyLossLine fmt u p)
        else []) := by
  have hmap : ∀ {α : Type} (f g : OutFile) (h : α → String) (l : List α),
      linesOf f (l.map fun a => OutOp.write g (h a)) = if g = f then l.map h else [] := by
    intro α f g h l
    induction l with
    | nil => simp [linesOf]
    | cons a l ih =>
      simp only [linesOf, List.map_cons, List.filterMap_cons] at ih ⊢
      by_cases hg : g = f
      · simp only [if_pos hg] at ih ⊢; rw [ih]
      · simp only [if_neg hg] at ih ⊢; rw [ih]
  have hone : ∀ (f g : OutFile) (l : String), linesOf f [OutOp.write g l] =
      if g = f then [l] else [] := by
    intro f g l; exact hmap f g (fun _ : Unit => l) [()]
  have hcons : ∀ {α : Type} (f g : OutFile) (l : String) (h : α → OutOp) (xs : List α),
      linesOf f (OutOp.write g l :: xs.map h) = linesOf f [OutOp.write g l] ++ linesOf f (xs.map h) :=
    fun f g l h xs => linesOf_append f [_] _
  have hif : ∀ (f : OutFile) (b : Bool) (ops : List OutOp),
      linesOf f (if b then ops else []) = if b then linesOf f ops else [] := by
    intro f b ops; cases b <;> rfl
  unfold output_lists
  simp only [linesOf_append, hif, hcons, hone, hmap, reduceCtorEq, if_false,
    if_true, ite_self, List.append_nil, List.nil_append]
  exact ⟨rfl, rfl, rfl, rfl, trivial, rfl, rfl⟩

/-- **C51** a finished particle adds one line to exactly one of reflected, deposited and sputtered
output, or to none of them if it is a recoil that stopped. -/
theorem C51_one_line (fmt : F → String) (p : Particle F) (options : Options F) (u : OutputUnits F)
    (hp : Finished p) :
    let ops := output_lists fmt p options u
    (p.incident = true ∧ p.left = true ∧ linesOf .reflected ops = [reflectedLine fmt u p] ∧
      linesOf .deposited ops = [] ∧ linesOf .sputtered ops = []) ∨
    (p.incident = true ∧ p.stopped = true ∧ linesOf .reflected ops = [] ∧
      linesOf .deposited ops = [depositedLine fmt u p] ∧ linesOf .sputtered ops = []) ∨
    (p.incident = false ∧ p.left = true ∧ linesOf .reflected ops = [] ∧
      linesOf .deposited ops = [] ∧ linesOf .sputtered ops = [sputteredLine fmt u p]) ∨
    (p.incident = false ∧ p.stopped = true ∧ linesOf .reflected ops = [] ∧
      linesOf .deposited ops = [] ∧ linesOf .sputtered ops = []) := by
  obtain ⟨h1, h2, h3, -⟩ := output_lists_lines fmt p options u
  simp only [h1, h2, h3]
  cases hi : p.incident <;> rcases hp with ⟨a, b⟩ | ⟨a, b⟩ <;> simp [a, b]

theorem flatten_if {α β : Type} (l : List α) (c : α → Bool) (g : α → β) :
    (l.map fun a => if c a then [g a] else []).flatten = (l.filter c).map g := by
  induction l with
  | nil => rfl
  | cons a l ih =>
    rw [List.map_cons, List.flatten_cons, ih]
    cases h : c a <;> simp [h]

theorem processed_finished {rcpr : Rcpr F} {fuel : Nat} {cfg : OutputConfig F}
    {material : Material F} {options : Options F} {splits : List Split} {tapes : Nat → Tape F}
    {inputs : List (ParticleInput F)} {s : RunState F}
    (run : physics_loop_run rcpr fuel cfg material options splits tapes inputs = .ok s) :
    ∀ p ∈ s.processed, Finished p := by
  obtain ⟨⟨outs, ho, hp⟩, -⟩ := run_outputs run
  intro p hpm
  rw [hp, List.mem_flatten] at hpm
  obtain ⟨out, hout, hpo⟩ := hpm
  obtain ⟨i, hi, rfl⟩ := List.getElem_of_mem hout
  have hl := ho.length_eq
  exact (run_ion_incident (List.forall₂_iff_get.1 ho |>.2 i (by omega) hi)).2 p hpo

/-- **C51** the list files of a run: reflected.output has one line for every ion that left,
deposited.output one for every ion that stopped, sputtered.output one for every recoil that left,
in processing order; and the numbers of lines are the column sums of the summary. -/
theorem C51_files_agree_with_summary {rcpr : Rcpr F} {fuel : Nat} {cfg : OutputConfig F}
    {material : Material F} {options : Options F} {splits : List Split} {tapes : Nat → Tape F}
    {inputs : List (ParticleInput F)} {s : RunState F} (hlist : cfg.list_output = true)
    (run : physics_loop_run rcpr fuel cfg material options splits tapes inputs = .ok s) :
    linesOf .reflected s.ops = (s.processed.filter fun p => p.incident && p.left).map
      (reflectedLine cfg.fmt cfg.units) ∧
    linesOf .deposited s.ops = (s.processed.filter fun p => p.incident && p.stopped).map
      (depositedLine cfg.fmt cfg.units) ∧
    linesOf .sputtered s.ops = (s.processed.filter fun p => !p.incident && p.left).map
      (sputteredLine cfg.fmt cfg.units) ∧
    columnSums (s.summary.rows cfg.units) = ((linesOf .reflected s.ops).length,
      (linesOf .sputtered s.ops).length, (linesOf .deposited s.ops).length) := by
  obtain ⟨-, -, hl⟩ := run_outputs run
  have e1 : linesOf .reflected s.ops = (s.processed.filter fun p => p.incident && p.left).map
      (reflectedLine cfg.fmt cfg.units) := by
    rw [hl, hlist, if_pos rfl, ← flatten_if]
    simp only [(output_lists_lines cfg.fmt _ options cfg.units).1]
  have e2 : linesOf .deposited s.ops = (s.processed.filter fun p => p.incident && p.stopped).map
      (depositedLine cfg.fmt cfg.units) := by
    rw [hl, hlist, if_pos rfl, ← flatten_if]
    simp only [(output_lists_lines cfg.fmt _ options cfg.units).2.1]
  have e3 : linesOf .sputtered s.ops = (s.processed.filter fun p => !p.incident && p.left).map
      (sputteredLine cfg.fmt cfg.units) := by
    rw [hl, hlist, if_pos rfl, ← flatten_if]
    simp only [(output_lists_lines cfg.fmt _ options cfg.units).2.2.1]
  refine ⟨e1, e2, e3, ?_⟩
  obtain ⟨refl, sput, dep, h, -, h2, h3, h4⟩ := C49_summary_balances run
  rw [h, e1, e2, e3, h2, h3, h4]
  simp only [List.length_map, List.countP_eq_length_filter]

/-- **C51** the other list files: displacements.output has one line for every recoil displaced with
more than its displacement energy (if tracked), energy_loss.output one line per recorded loss of an
ion (if tracked). -/
theorem C51_other_files {α : Type} {cfg : OutputConfig F} {options : Options F}
    {sim : α → Res (List (Particle F))} {splits : List Split} {ions : List α} {s : RunState F}
    (hlist : cfg.list_output = true)
    (run : physics_loop cfg options sim splits ions = .ok s) :
    linesOf .displacements s.ops = (s.processed.filter fun p =>
      !p.incident && options.track_displacements && (p.energy_origin >. p.Ed)).map
        (displacementLine cfg.fmt cfg.units) ∧
    linesOf .energy_loss s.ops = ((s.processed.filter fun p =>
      p.incident && options.track_energy_losses).map fun p =>
        p.energies.map (energyLossLine cfg.fmt cfg.units p)).flatten := by
  obtain ⟨-, -, hl⟩ := run_outputs run
  constructor
  · rw [hl, hlist, if_pos rfl, ← flatten_if]
    simp only [(output_lists_lines cfg.fmt _ options cfg.units).2.2.2.1]
  · rw [hl, hlist, if_pos rfl]
    simp only [(output_lists_lines cfg.fmt _ options cfg.units).2.2.2.2.2.2]
    generalize s.processed = ps
    induction ps with
    | nil => rfl
    | cons p ps ih =>
      rw [List.map_cons, List.flatten_cons, ih, List.filter_cons]
      by_cases h : (p.incident && options.track_energy_losses) = true
      · rw [if_pos h, if_pos h]; rfl
      · rw [if_neg h, if_neg h]; rfl

/-! ## C52 -/

theorem decode_ok (groups : List (List String)) :
    decodeTrajectories (groups.map fun g => toString g.length) groups.flatten = some groups := by
  induction groups with
  | nil => rfl
  | cons g gs ih =>
    rw [List.map_cons, List.flatten_cons, decodeTrajectories]
    have : (toString g.length).toNat? = some g.length := Nat.toNat?_repr g.length
    rw [this]
    simp only [List.length_append]
    rw [if_neg (by omega), List.drop_left, List.take_left, ih]
    rfl

/-- **C52** trajectories.output and trajectory_data.output can be decoded: reading the counts one
after the other and taking as many lines each time gives back exactly the trajectories of the
tracked particles, one list of lines per particle, and nothing is missing or left over. -/
theorem C52_trajectories_decodable {α : Type} {cfg : OutputConfig F} {options : Options F}
    {sim : α → Res (List (Particle F))} {splits : List Split} {ions : List α} {s : RunState F}
    (hlist : cfg.list_output = true)
    (run : physics_loop cfg options sim splits ions = .ok s) :
    decodeTrajectories (linesOf .trajectory_data s.ops) (linesOf .trajectory s.ops) =
      some ((s.processed.filter (·.track_trajectories)).map fun p =>
        p.trajectory.map (trajectoryLine cfg.fmt cfg.units p)) := by
  obtain ⟨-, -, hl⟩ := run_outputs run
  rw [hl, hl, hlist, if_pos rfl, if_pos rfl]
  simp only [(output_lists_lines cfg.fmt _ options cfg.units).2.2.2.2.1,
    (output_lists_lines cfg.fmt _ options cfg.units).2.2.2.2.2.1]
  rw [flatten_if, ← decode_ok]
  congr 1
  · rw [List.map_map]
    apply List.map_congr_left
    intro p _
    simp
  · generalize s.processed = ps
    induction ps with
    | nil => rfl
    | cons p ps ih =>
      rw [List.map_cons, List.flatten_cons, ih, List.filter_cons]
      cases h : p.track_trajectories <;> simp

end RustBCA
