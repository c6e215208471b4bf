import Verif.Spec.CMemory
import Verif.Spec.Lib
import Verif.Props.Lib
import Mathlib.Data.Set.Finite.Basic

/-!
# C126: the arrays of the C interface
-/

set_option linter.unusedSectionVars false
set_option linter.unusedSimpArgs false
set_option linter.unusedVariables false

namespace RustBCA
open Scalar Spec
variable {F : Type} [Scalar F]

/-! ## Tools -/

theorem c_bind_ok {α β : Type} (x : CCall F α) (f : α → CCall F β) (s s' : Tape F × Memory F) (b : β) :
    (x >>= f) s = .ok (b, s') ↔ ∃ a s1, x s = .ok (a, s1) ∧ f a s1 = .ok (b, s') := by
  show (x s >>= fun y => f y.1 y.2) = _ ↔ _
  cases hx : x s with
  | error e => simp [bind, Except.bind]
  | ok y =>
    simp only [bind, Except.bind, Except.ok.injEq]
    constructor
    · intro h; exact ⟨y.1, y.2, rfl, h⟩
    · rintro ⟨a, s1, e, h⟩; subst e; exact h

theorem c_bind_at {α β : Type} {x : CCall F α} (f : α → CCall F β) {s s1 : Tape F × Memory F} {a : α} (h : x s = .ok (a, s1)) :
    (x >>= f) s = f a s1 := by
  show (x s >>= fun y => f y.1 y.2) = _
  rw [h]; rfl

theorem c_bind_err {α β : Type} {x : CCall F α} (f : α → CCall F β) {s : Tape F × Memory F} {e : CErr} (h : x s = .error e) :
    (x >>= f) s = .error e := by
  show (x s >>= fun y => f y.1 y.2) = _
  rw [h]; rfl

theorem call_ok {α : Type} (m : M F α) (t t' : Tape F) (mem mem' : Memory F) (a : α) :
    callRust m (t, mem) = .ok (a, (t', mem')) ↔ m t = .ok (a, t') ∧ mem' = mem := by
  unfold callRust
  cases h : m t with
  | error e => simp
  | ok y =>
    obtain ⟨a', t1⟩ := y
    simp only [Except.ok.injEq, Prod.mk.injEq]
    constructor
    · rintro ⟨rfl, rfl, rfl⟩; exact ⟨⟨rfl, rfl⟩, rfl⟩
    · rintro ⟨⟨rfl, rfl⟩, rfl⟩; exact ⟨rfl, rfl, rfl⟩

theorem call_err {α : Type} {m : M F α} {t : Tape F} (mem : Memory F) {e : Err} (h : m t = .error e) :
    callRust m (t, mem) = .error (.err e) := by
  unfold callRust; rw [h]

section
variable {α : Type} (view : Cells F → Option (List α)) (size align : ℕ)

theorem raw_ok (ptr len : ℕ) (s s' : Tape F × Memory F) (l : List α) :
    from_raw_parts view size align ptr len s = .ok (l, s') ↔ s' = s ∧ l.length = len ∧ HoldsArray view size align s.2 ptr l := by
  unfold from_raw_parts HoldsArray
  by_cases h1 : ptr ≠ 0 ∧ ptr % align = 0
  · rw [if_pos h1]
    by_cases h2 : len = 0
    · rw [if_pos h2]
      subst h2
      simp only [Except.ok.injEq, Prod.mk.injEq]
      constructor
      · rintro ⟨rfl, rfl⟩; exact ⟨rfl, rfl, h1, by simp, fun h => absurd rfl h⟩
      · rintro ⟨rfl, h, _⟩; exact ⟨(List.length_eq_zero_iff.1 h).symm, rfl⟩
    · rw [if_neg h2]
      cases hb : s.2 ptr with
      | none =>
        simp only [Option.bind_none]
        constructor
        · intro h; cases h
        · rintro ⟨_, hl, _, _, h⟩
          obtain ⟨b, _, h, _⟩ := h (by rintro rfl; exact h2 hl.symm)
          cases h
      | some b =>
        simp only [Option.bind_some]
        cases hv : view b.cells with
        | none =>
          simp only
          constructor
          · intro h; cases h
          · rintro ⟨_, hl, _, _, h⟩
            obtain ⟨b', _, h, h'⟩ := h (by rintro rfl; exact h2 hl.symm)
            cases h
            rw [hv] at h'; cases h'
        | some l0 =>
          simp only
          by_cases h3 : len ≤ l0.length ∧ len*size < 2^63
          · rw [if_pos h3]
            simp only [Except.ok.injEq, Prod.mk.injEq]
            constructor
            · rintro ⟨rfl, rfl⟩
              refine ⟨rfl, by simp [h3.1], h1, ?_, fun _ => ⟨b, l0.drop len, rfl, by rw [List.take_append_drop, hv]⟩⟩
              rw [List.length_take, min_eq_left h3.1]; exact h3.2
            · rintro ⟨rfl, hl, _, _, h⟩
              obtain ⟨b', rest, h, h'⟩ := h (by rintro rfl; exact h2 hl.symm)
              cases h
              rw [hv] at h'
              obtain rfl := Option.some.inj h'
              exact ⟨by rw [← hl, List.take_left], rfl⟩
          · rw [if_neg h3]
            constructor
            · intro h; cases h
            · rintro ⟨_, hl, _, h4, h⟩
              obtain ⟨b', rest, h, h'⟩ := h (by rintro rfl; exact h2 hl.symm)
              cases h
              rw [hv] at h'
              obtain rfl := Option.some.inj h'
              refine absurd ⟨?_, ?_⟩ h3
              · rw [← hl]; simp
              · rw [← hl]; exact h4
  · rw [if_neg h1]
    constructor
    · intro h; cases h
    · rintro ⟨_, _, h, _⟩; exact absurd h h1

theorem raw_or (ptr len : ℕ) (s : Tape F × Memory F) :
    (∃ l, from_raw_parts view size align ptr len s = .ok (l, s)) ∨ from_raw_parts view size align ptr len s = .error .ub := by
  unfold from_raw_parts
  split
  · split
    · exact Or.inl ⟨_, rfl⟩
    · split
      · split
        · exact Or.inl ⟨_, rfl⟩
        · exact Or.inr rfl
      · exact Or.inr rfl
  · exact Or.inr rfl

end

theorem f64_ok (ptr len : ℕ) (s s' : Tape F × Memory F) (l : List F) :
    raw_f64 ptr len s = .ok (l, s') ↔ s' = s ∧ l.length = len ∧ HoldsF64 s.2 ptr l := raw_ok _ _ _ _ _ _ _ _

theorem triple_ok (ptr len : ℕ) (s s' : Tape F × Memory F) (l : List (Vec3 F)) :
    raw_triple ptr len s = .ok (l, s') ↔ s' = s ∧ l.length = len ∧ HoldsTriples s.2 ptr l := raw_ok _ _ _ _ _ _ _ _

theorem i32_ok (ptr len : ℕ) (s s' : Tape F × Memory F) (l : List Int) :
    raw_i32 ptr len s = .ok (l, s') ↔ s' = s ∧ l.length = len ∧ HoldsI32 s.2 ptr l := raw_ok _ _ _ _ _ _ _ _

theorem leak_ok {malloc : Memory F → ℕ} (hm : Allocates malloc) (cap : ℕ → ℕ) (size align len : ℕ) (cells : Cells F) (t : Tape F)
    (mem : Memory F) (hfin : {a | mem a ≠ none}.Finite) :
    ∃ ptr mem', leak malloc cap size align len cells (t, mem) = .ok (ptr, (t, mem')) ∧ NewBlock mem mem' ptr len cells ⟨cap len*size, align⟩ ∧
      {a | mem' a ≠ none}.Finite := by
  unfold leak NewBlock
  by_cases h : len = 0
  · rw [if_pos h]
    exact ⟨_, _, rfl, ⟨fun _ => rfl, fun h' => absurd h h'⟩, hfin⟩
  · rw [if_neg h]
    refine ⟨_, _, rfl, ⟨fun h' => absurd h' h, fun _ => ⟨hm mem hfin, if_pos rfl, fun a ha => if_neg ha⟩⟩, ?_⟩
    refine (hfin.insert (malloc mem)).subset fun a ha => ?_
    by_cases h' : a = malloc mem
    · exact Or.inl h'
    · right
      simp only [Set.mem_ofPred_eq, if_neg h'] at ha
      exact ha

/-! ## What follows the reading -/

section
variable {malloc : Memory F → ℕ} (cap : ℕ → ℕ) {mem : Memory F} {t : Tape F}

/-- A list function, and its result left in memory. -/
theorem rows_left (hm : Allocates malloc) (hfin : {a | mem a ≠ none}.Finite) {β : Type} (size align : ℕ) (m : M F (List (List F)))
    (g : List (List F) → ℕ → β) :
    (∀ rows t', m t = .ok (rows, t') → ∃ ptr mem',
      (callRust m >>= fun rows => leak malloc cap size align rows.length (.rows rows) >>= fun ptr => pure (g rows ptr) : CCall F β)
        (t, mem) = .ok (g rows ptr, (t', mem')) ∧ NewBlock mem mem' ptr rows.length (.rows rows) ⟨cap rows.length*size, align⟩ ∧ {a | mem' a ≠ none}.Finite) ∧
    (∀ e, m t = .error e →
      (callRust m >>= fun rows => leak malloc cap size align rows.length (.rows rows) >>= fun ptr => pure (g rows ptr) : CCall F β)
        (t, mem) = .error (.err e)) := by
  refine ⟨fun rows t' h => ?_, fun e h => ?_⟩
  · obtain ⟨ptr, mem', h1, h2, h3⟩ := leak_ok hm cap size align rows.length (.rows rows) t' mem hfin
    refine ⟨ptr, mem', ?_, h2, h3⟩
    rw [c_bind_at _ ((call_ok m t t' mem mem rows).2 ⟨h, rfl⟩), c_bind_at _ h1]
    rfl
  · rw [c_bind_err _ (call_err mem h)]

end

/-- The six arrays of a target, read. -/
theorem target_reads {n : ℕ} {pZ pm pn pEc pEs pEb : ℕ} {Z m ns Ec Es Eb : List F} {mem : Memory F}
    (h : HoldsTarget mem n pZ pm pn pEc pEs pEb Z m ns Ec Es Eb) (t : Tape F) {β : Type}
    (k : List F → List F → List F → List F → List F → List F → CCall F β) :
    (raw_f64 pZ n >>= fun Z => raw_f64 pm n >>= fun m => raw_f64 pn n >>= fun ns => raw_f64 pEc n >>= fun Ec =>
      raw_f64 pEs n >>= fun Es => raw_f64 pEb n >>= fun Eb => k Z m ns Ec Es Eb) (t, mem) = k Z m ns Ec Es Eb (t, mem) := by
  obtain ⟨⟨l1, l2, l3, l4, l5, l6⟩, a1, a2, a3, a4, a5, a6⟩ := h
  have f := fun (ptr : ℕ) (l : List F) (hl : l.length = n) (h : HoldsF64 mem ptr l) =>
    (f64_ok ptr n (t, mem) (t, mem) l).2 ⟨rfl, hl, h⟩
  rw [c_bind_at _ (f _ _ l1 a1), c_bind_at _ (f _ _ l2 a2), c_bind_at _ (f _ _ l3 a3), c_bind_at _ (f _ _ l4 a4),
      c_bind_at _ (f _ _ l5 a5), c_bind_at _ (f _ _ l6 a6)]

/-- A result after reading the six arrays: they are there. -/
theorem target_read {n : ℕ} {pZ pm pn pEc pEs pEb : ℕ} {mem : Memory F} {t : Tape F} {β : Type} {s' : Tape F × Memory F} {b : β}
    {k : List F → List F → List F → List F → List F → List F → CCall F β}
    (h : (raw_f64 pZ n >>= fun Z => raw_f64 pm n >>= fun m => raw_f64 pn n >>= fun ns => raw_f64 pEc n >>= fun Ec =>
      raw_f64 pEs n >>= fun Es => raw_f64 pEb n >>= fun Eb => k Z m ns Ec Es Eb) (t, mem) = .ok (b, s')) :
    ∃ Z m ns Ec Es Eb, HoldsTarget mem n pZ pm pn pEc pEs pEb Z m ns Ec Es Eb ∧ k Z m ns Ec Es Eb (t, mem) = .ok (b, s') := by
  simp only [c_bind_ok, f64_ok] at h
  obtain ⟨Z, _, ⟨rfl, l1, a1⟩, m, _, ⟨rfl, l2, a2⟩, ns, _, ⟨rfl, l3, a3⟩, Ec, _, ⟨rfl, l4, a4⟩, Es, _, ⟨rfl, l5, a5⟩, Eb, _,
    ⟨rfl, l6, a6⟩, h⟩ := h
  exact ⟨Z, m, ns, Ec, Es, Eb, ⟨⟨l1, l2, l3, l4, l5, l6⟩, a1, a2, a3, a4, a5, a6⟩, h⟩

section
variable {malloc : Memory F → ℕ} (cap : ℕ → ℕ) (rcpr : Rcpr F) (fuel : ℕ) (ext : Ext F) {mem : Memory F} {t : Tape F}

/-- **C126, one species.** If the caller's array holds `len` velocities, `simple_bca_list_c` runs on these. -/
theorem C126_simple (hm : Allocates malloc) (hfin : {a | mem a ≠ none}.Finite) (input : InputSimpleBCA F) (v : List (Vec3 F))
    (hlen : v.length = input.len) (hv : HoldsTriples mem input.velocities v) :
    AnswersWith cap (simple_bca_list_mem malloc cap rcpr fuel ext input)
      (simple_bca_list_c rcpr fuel ext v input.Z1 input.m1 input.Ec1 input.Es1 input.Z2 input.m2 input.n2 input.Ec2 input.Es2
        input.Eb2) t mem := by
  have hr := fun t => (triple_ok input.velocities input.len (t, mem) (t, mem) v).2 ⟨rfl, hlen, hv⟩
  unfold AnswersWith simple_bca_list_mem simple_bca_list_c
  rw [hlen]
  cases hmat : mesh0d_material ext (compound_parameters [input.Z2] [input.m2] [input.Ec2] [input.Es2] [input.Eb2] input.len [0]
    .AVERAGE) "ANGSTROM" [input.n2] with
  | error e =>
    refine ⟨fun rows t' h => (by cases h), fun e' h => ?_⟩
    rw [show e' = e from by injection h with h; exact h.symm]
    exact c_bind_err _ (call_err mem rfl)
  | ok mm =>
    obtain ⟨m, mesh⟩ := mm
    have h0 := rows_left cap hm hfin 72 8 (t := t)
      (forFold (velocity_body rcpr fuel input.Z1 input.m1 input.Ec1 input.Es1 (list_start_x input.n2) m) v [])
      (fun rows ptr => (⟨rows.length, ptr⟩ : OutputBCA))
    refine ⟨fun rows t' h => ?_, fun e h => ?_⟩
    · obtain ⟨ptr, mem', h1, h2, h3⟩ := h0.1 rows t' h
      refine ⟨⟨rows.length, ptr⟩, mem', ?_, rfl, h2, h3⟩
      refine Eq.trans (c_bind_at _ ((call_ok _ t t mem mem (m, mesh)).2 ⟨rfl, rfl⟩)) ?_
      refine Eq.trans (c_bind_at _ (hr t)) h1
    · refine Eq.trans (c_bind_at _ ((call_ok _ t t mem mem (m, mesh)).2 ⟨rfl, rfl⟩)) ?_
      exact Eq.trans (c_bind_at _ (hr t)) (h0.2 e h)

/-- **C126, several species.** If the caller's arrays hold `num_species_target` numbers each and `len` velocities,
`compound_bca_list_c` runs on these. -/
theorem C126_compound (hm : Allocates malloc) (hfin : {a | mem a ≠ none}.Finite) (input : InputCompoundBCA F) (v : List (Vec3 F))
    {Z m n Ec Es Eb : List F} (hlen : v.length = input.len) (hv : HoldsTriples mem input.velocities v)
    (ht : HoldsTarget mem input.num_species_target input.Z2 input.m2 input.n2 input.Ec2 input.Es2 input.Eb2 Z m n Ec Es Eb) :
    AnswersWith cap (compound_bca_list_mem malloc cap rcpr fuel ext input)
      (compound_bca_list_c rcpr fuel ext v input.Z1 input.m1 input.Ec1 input.Es1 Z m n Ec Es Eb) t mem := by
  have l1 := ht.lengths.1
  have hr := (triple_ok input.velocities input.len (t, mem) (t, mem) v).2 ⟨rfl, hlen, hv⟩
  have hreads : compound_bca_list_mem malloc cap rcpr fuel ext input (t, mem) =
      (callRust (liftM (mesh0d_material ext (compound_parameters Z m Ec Es Eb input.num_species_target
        (List.replicate input.num_species_target 0) .AVERAGE) "ANGSTROM" n)) >>= fun mm =>
        raw_triple input.velocities input.len >>= fun velocities =>
        callRust (forFold (velocity_body rcpr fuel input.Z1 input.m1 input.Ec1 input.Es1 (list_start_x (fsum n)) mm.1) velocities []) >>=
        fun rows => leak malloc cap 72 8 rows.length (.rows rows) >>= fun ptr => pure ⟨rows.length, ptr⟩) (t, mem) := by
    exact target_reads ht t _
  unfold AnswersWith
  rw [hreads]
  unfold compound_bca_list_c
  rw [l1]
  cases hmat : mesh0d_material ext (compound_parameters Z m Ec Es Eb input.num_species_target
        (List.replicate input.num_species_target 0) .AVERAGE) "ANGSTROM" n with
  | error e =>
    refine ⟨fun rows t' h => (by cases h), fun e' h => ?_⟩
    rw [show e' = e from by injection h with h; exact h.symm]
    exact c_bind_err _ (call_err mem rfl)
  | ok mm =>
    have h0 := rows_left cap hm hfin 72 8 (t := t)
      (forFold (velocity_body rcpr fuel input.Z1 input.m1 input.Ec1 input.Es1 (list_start_x (fsum n)) mm.1) v [])
      (fun rows ptr => (⟨rows.length, ptr⟩ : OutputBCA))
    refine ⟨fun rows t' h => ?_, fun e h => ?_⟩
    · obtain ⟨ptr, mem', h1, h2, h3⟩ := h0.1 rows t' h
      refine ⟨⟨rows.length, ptr⟩, mem', ?_, rfl, h2, h3⟩
      refine Eq.trans (c_bind_at _ ((call_ok _ t t mem mem mm).2 ⟨rfl, rfl⟩)) ?_
      exact Eq.trans (c_bind_at _ hr) h1
    · refine Eq.trans (c_bind_at _ ((call_ok _ t t mem mem mm).2 ⟨rfl, rfl⟩)) ?_
      exact Eq.trans (c_bind_at _ hr) (h0.2 e h)

/-- **C126, tagged ions.** If the caller's arrays hold what they are declared to hold, `compound_tagged_bca_list_c` runs on these,
and leaves its four arrays, all of the reported length, in four new blocks. -/
theorem C126_tagged (hm : Allocates malloc) (hfin : {a | mem a ≠ none}.Finite) (input : InputTaggedPtr F) (v pos : List (Vec3 F))
    (tags : List Int) (weights : List F) {Z m n Ec Es Eb : List F} (hlen : v.length = input.len)
    (hv : HoldsTriples mem input.velocities v) (hplen : pos.length = input.len) (hp : HoldsTriples mem input.positions pos)
    (htlen : tags.length = input.len) (htags : HoldsI32 mem input.tags tags) (hwlen : weights.length = input.len)
    (hw : HoldsF64 mem input.weights weights)
    (ht : HoldsTarget mem input.num_species_target input.Z2 input.m2 input.n2 input.Ec2 input.Es2 input.Eb2 Z m n Ec Es Eb) :
    let run := compound_tagged_bca_list_c rcpr fuel ext
      ⟨pos, v, input.Z1, input.m1, input.Ec1, input.Es1, Z, m, n, Ec, Es, Eb, tags, weights⟩
    let call := compound_tagged_bca_list_mem malloc cap rcpr fuel ext input
    (∀ out t', run t = .ok (out, t') → ∃ ptrs mem1 mem2 mem3 mem', call (t, mem) = .ok (ptrs, (t', mem')) ∧
      ptrs.len = out.len ∧
      NewBlock mem mem1 ptrs.particles out.len (.rows out.particles) ⟨cap out.len*72, 8⟩ ∧
      NewBlock mem1 mem2 ptrs.tags out.len (.i32 out.tags) ⟨cap out.len*4, 4⟩ ∧
      NewBlock mem2 mem3 ptrs.weights out.len (.f64 out.weights) ⟨cap out.len*8, 8⟩ ∧
      NewBlock mem3 mem' ptrs.incident out.len (.bool out.incident) ⟨cap out.len*1, 1⟩) ∧
    (∀ e, run t = .error e → call (t, mem) = .error (.err e)) := by
  intro run call
  have l1 := ht.lengths.1
  have hr := (triple_ok input.velocities input.len (t, mem) (t, mem) v).2 ⟨rfl, hlen, hv⟩
  have hr1 := (triple_ok input.positions input.len (t, mem) (t, mem) pos).2 ⟨rfl, hplen, hp⟩
  have hr2 := (i32_ok input.tags input.len (t, mem) (t, mem) tags).2 ⟨rfl, htlen, htags⟩
  have hr3 := (f64_ok input.weights input.len (t, mem) (t, mem) weights).2 ⟨rfl, hwlen, hw⟩
  have hreads : call (t, mem) =
      (callRust (liftM (mesh0d_material ext (compound_parameters Z m Ec Es Eb input.num_species_target
        (List.replicate input.num_species_target 0) .AVERAGE) "ANGSTROM" n)) >>= fun mm =>
        raw_triple input.velocities input.len >>= fun velocities =>
        callRust (forFold (tagged_body rcpr fuel
          ⟨pos, velocities, input.Z1, input.m1, input.Ec1, input.Es1, Z, m, n, Ec, Es, Eb, tags, weights⟩
          (list_start_x (fsum n)) mm.1) velocities.zipIdx ⟨0, [], [], [], []⟩) >>= fun out =>
        leak malloc cap 72 8 out.particles.length (.rows out.particles) >>= fun particles =>
        leak malloc cap 4 4 out.tags.length (.i32 out.tags) >>= fun tags =>
        leak malloc cap 8 8 out.weights.length (.f64 out.weights) >>= fun weights =>
        leak malloc cap 1 1 out.incident.length (.bool out.incident) >>= fun incident =>
        pure ⟨out.particles.length, particles, weights, tags, incident⟩) (t, mem) := by
    refine Eq.trans (target_reads ht t _) ?_
    refine Eq.trans (c_bind_at _ hr1) ?_
    refine Eq.trans (c_bind_at _ hr2) ?_
    exact c_bind_at _ hr3
  have hrun : run = (liftM (mesh0d_material ext (compound_parameters Z m Ec Es Eb input.num_species_target
        (List.replicate input.num_species_target 0) .AVERAGE) "ANGSTROM" n) >>= fun mm =>
      forFold (tagged_body rcpr fuel
          ⟨pos, v, input.Z1, input.m1, input.Ec1, input.Es1, Z, m, n, Ec, Es, Eb, tags, weights⟩
          (list_start_x (fsum n)) mm.1) v.zipIdx ⟨0, [], [], [], []⟩ >>= fun out =>
      pure { out with len := out.particles.length }) := by
    simp only [run, compound_tagged_bca_list_c, l1]
  rw [hreads, hrun]
  cases hmat : mesh0d_material ext (compound_parameters Z m Ec Es Eb input.num_species_target
        (List.replicate input.num_species_target 0) .AVERAGE) "ANGSTROM" n with
  | error e =>
    refine ⟨fun rows t' h => (by cases h), fun e' h => ?_⟩
    rw [show e' = e from by injection h with h; exact h.symm]
    exact c_bind_err _ (call_err mem rfl)
  | ok mm =>
    have hmm := (call_ok (liftM (Except.ok mm : Res _) : M F _) t t mem mem mm).2 ⟨rfl, rfl⟩
    cases hfold : forFold (tagged_body rcpr fuel
          ⟨pos, v, input.Z1, input.m1, input.Ec1, input.Es1, Z, m, n, Ec, Es, Eb, tags, weights⟩
          (list_start_x (fsum n)) mm.1) v.zipIdx ⟨0, [], [], [], []⟩ t with
    | error e =>
      refine ⟨fun rows t' h => ?_, fun e' h => ?_⟩
      · obtain ⟨mm', _, h1, h2⟩ := m_bind_ok.1 h
        obtain ⟨e, rfl⟩ := m_lift_ok.1 h1
        obtain rfl : mm = mm' := by injection e
        obtain ⟨_, _, h3, _⟩ := m_bind_ok.1 h2
        rw [hfold] at h3; cases h3
      · have : e' = e := by
          have h' : (Except.error e : Except Err (OutputTaggedBCA F × Tape F)) = Except.error e' := by
            rw [← h]
            show _ = (do let x ← forFold (tagged_body rcpr fuel
              ⟨pos, v, input.Z1, input.m1, input.Ec1, input.Es1, Z, m, n, Ec, Es, Eb, tags, weights⟩
              (list_start_x (fsum n)) mm.1) v.zipIdx ⟨0, [], [], [], []⟩ t; _)
            rw [hfold]; rfl
          injection h' with h'; exact h'.symm
        subst this
        refine Eq.trans (c_bind_at _ hmm) ?_
        refine Eq.trans (c_bind_at _ hr) ?_
        exact c_bind_err _ (call_err mem hfold)
    | ok o =>
      obtain ⟨o, t1⟩ := o
      obtain ⟨p1, m1, e1, n1, f1⟩ := leak_ok hm cap 72 8 o.particles.length (.rows o.particles) t1 mem hfin
      obtain ⟨p2, m2, e2, n2, f2⟩ := leak_ok hm cap 4 4 o.tags.length (.i32 o.tags) t1 m1 f1
      obtain ⟨p3, m3, e3, n3, f3⟩ := leak_ok hm cap 8 8 o.weights.length (.f64 o.weights) t1 m2 f2
      obtain ⟨p4, m4, e4, n4, f4⟩ := leak_ok hm cap 1 1 o.incident.length (.bool o.incident) t1 m3 f3
      refine ⟨fun out t' h => ?_, fun e' h => ?_⟩
      · obtain ⟨mm', _, h1, h2⟩ := m_bind_ok.1 h
        obtain ⟨e, rfl⟩ := m_lift_ok.1 h1
        obtain rfl : mm = mm' := by injection e
        obtain ⟨o', t2, h3, h4⟩ := m_bind_ok.1 h2
        rw [hfold] at h3
        obtain ⟨rfl, rfl⟩ : o = o' ∧ t1 = t2 := by injection h3 with h3; exact ⟨congrArg Prod.fst h3, congrArg Prod.snd h3⟩
        obtain ⟨rfl, rfl⟩ := m_pure_ok.1 h4
        obtain ⟨_, results, _, _, q0, q1, q2, q3, q4⟩ := C57_tagged_arrays (show run t = _ from by rw [hrun, hmat]; exact h)
        have q1 := congrArg List.length q1
        have q2 := congrArg List.length q2
        have q3 := congrArg List.length q3
        simp only [List.length_map] at q1 q2 q3
        rw [q2, ← q0] at n2
        rw [q3, ← q0] at n3
        rw [q1, ← q0] at n4
        refine ⟨⟨o.particles.length, p1, p3, p2, p4⟩, m1, m2, m3, m4, ?_, rfl, n1, n2, n3, n4⟩
        refine Eq.trans (c_bind_at _ hmm) ?_
        refine Eq.trans (c_bind_at _ hr) ?_
        refine Eq.trans (c_bind_at _ ((call_ok _ t t1 mem mem o).2 ⟨hfold, rfl⟩)) ?_
        rw [c_bind_at _ e1, c_bind_at _ e2, c_bind_at _ e3, c_bind_at _ e4]
        rfl
      · exfalso
        have h' : (Except.error e' : Except Err (OutputTaggedBCA F × Tape F)) =
            Except.ok ({ o with len := o.particles.length }, t1) := by
          rw [← h]
          show (do let x ← forFold (tagged_body rcpr fuel
            ⟨pos, v, input.Z1, input.m1, input.Ec1, input.Es1, Z, m, n, Ec, Es, Eb, tags, weights⟩
            (list_start_x (fsum n)) mm.1) v.zipIdx ⟨0, [], [], [], []⟩ t; _) = _
          rw [hfold]; rfl
        cases h'

/-- **C126, Fortran.** If the caller's arrays hold as many numbers as the two counts say, `compound_bca_list_fortran` runs on these;
it reports the number of rows as a 32-bit integer, which is right below 2³¹ rows. -/
theorem C126_fortran (hm : Allocates malloc) (hfin : {a | mem a ≠ none}.Finite) (k n : ℕ) (hk : k < 2^31) (hn : n < 2^31)
    (track : Bool) {pux puy puz pE1 pZ1 pm1 pEc1 pEs1 pZ2 pm2 pEc2 pEs2 pEb2 pn2 : ℕ}
    {ux uy uz E1 Z1 m1 Ec1 Es1 Z2 m2 Ec2 Es2 Eb2 n2 : List F}
    (hl : ux.length = k ∧ uy.length = k ∧ uz.length = k ∧ E1.length = k ∧ Z1.length = k ∧ m1.length = k ∧ Ec1.length = k ∧
      Es1.length = k)
    (h1 : HoldsF64 mem pux ux) (h2 : HoldsF64 mem puy uy) (h3 : HoldsF64 mem puz uz) (h4 : HoldsF64 mem pE1 E1)
    (h5 : HoldsF64 mem pZ1 Z1) (h6 : HoldsF64 mem pm1 m1) (h7 : HoldsF64 mem pEc1 Ec1) (h8 : HoldsF64 mem pEs1 Es1)
    (ht : HoldsTarget mem n pZ2 pm2 pn2 pEc2 pEs2 pEb2 Z2 m2 n2 Ec2 Es2 Eb2) :
    let run := compound_bca_list_fortran rcpr fuel ext track ux uy uz E1 Z1 m1 Ec1 Es1 Z2 m2 Ec2 Es2 Eb2 n2
    let call := compound_bca_list_fortran_mem malloc cap rcpr fuel ext k track pux puy puz pE1 pZ1 pm1 pEc1 pEs1 n pZ2 pm2 pEc2
      pEs2 pEb2 pn2
    (∀ rows t', run t = .ok (rows, t') → ∃ count ptr mem', call (t, mem) = .ok ((count, ptr), (t', mem')) ∧
      (rows.length < 2^31 → count = rows.length) ∧
      NewBlock mem mem' ptr rows.length (.rows rows) ⟨cap rows.length*48, 8⟩) ∧
    (∀ e, run t = .error e → call (t, mem) = .error (.err e)) := by
  intro run call
  have hcount : ∀ j : ℕ, j < 2^31 → as_usize (j : ℤ) = j := fun j hj => by unfold as_usize; omega
  obtain ⟨l1, l2, l3, l4, l5, l6, l7, l8⟩ := hl
  have f := fun (ptr : ℕ) (l : List F) (hl : l.length = k) (h : HoldsF64 mem ptr l) =>
    (f64_ok ptr k (t, mem) (t, mem) l).2 ⟨rfl, hl, h⟩
  have hcall : call (t, mem) = (callRust run >>= fun rows => leak malloc cap 48 8 rows.length (.rows rows) >>= fun ptr =>
      pure (as_c_int rows.length, ptr)) (t, mem) := by
    simp only [call, compound_bca_list_fortran_mem, hcount k hk, hcount n hn]
    rw [c_bind_at _ (f _ _ l1 h1), c_bind_at _ (f _ _ l2 h2), c_bind_at _ (f _ _ l3 h3), c_bind_at _ (f _ _ l5 h5),
      c_bind_at _ (f _ _ l6 h6), c_bind_at _ (f _ _ l4 h4), c_bind_at _ (f _ _ l7 h7), c_bind_at _ (f _ _ l8 h8)]
    exact target_reads ht t _
  have h0 := rows_left cap hm hfin 48 8 (t := t) run (fun rows ptr => (as_c_int rows.length, ptr))
  refine ⟨fun rows t' h => ?_, fun e h => hcall.trans (h0.2 e h)⟩
  obtain ⟨ptr, mem', e1, e2, _⟩ := h0.1 rows t' h
  exact ⟨_, ptr, mem', hcall.trans e1, fun hr => by unfold as_c_int; omega, e2⟩

/-- **C126, one reflection.** `reflect_single_ion_c` runs on the numbers in the caller's arrays, and allocates nothing that
stays. -/
theorem C126_reflect (n : ℕ) (hn : n < 2^31) (ux uy uz E1 Z1 m1 Ec1 Es1 : F) {pZ2 pm2 pEc2 pEs2 pEb2 pn2 : ℕ}
    {Z2 m2 Ec2 Es2 Eb2 n2 : List F} (ht : HoldsTarget mem n pZ2 pm2 pn2 pEc2 pEs2 pEb2 Z2 m2 n2 Ec2 Es2 Eb2) :
    reflect_single_ion_mem rcpr fuel ext n ux uy uz E1 Z1 m1 Ec1 Es1 pZ2 pm2 pEc2 pEs2 pEb2 pn2 (t, mem) =
      callRust (reflect_single_ion_c rcpr fuel ext ux uy uz E1 Z1 m1 Ec1 Es1 Z2 m2 Ec2 Es2 Eb2 n2) (t, mem) := by
  have hcount : as_usize (n : ℤ) = n := by unfold as_usize; omega
  unfold reflect_single_ion_mem
  simp only [hcount]
  cases hE : E1 >. (0.0 : F) with
  | true =>
    have ha : callRust (liftM (rassert true "assertion failed: E1 > &mut 0.0") : M F Unit) (t, mem) = .ok ((), (t, mem)) := rfl
    exact Eq.trans (c_bind_at _ ha) (target_reads ht t _)
  | false =>
    unfold reflect_single_ion_c
    rw [hE]
    rfl

/-- **C126, one ion.** `simple_bca_c` leaves the rows of `simple_bca`. -/
theorem C126_one_ion (hm : Allocates malloc) (hfin : {a | mem a ≠ none}.Finite)
    (x y z ux uy uz E1 Z1 m1 Ec1 Es1 Z2 m2 Ec2 Es2 n2 Eb2 : F) :
    AnswersWith cap (simple_bca_mem malloc cap rcpr fuel ext x y z ux uy uz E1 Z1 m1 Ec1 Es1 Z2 m2 Ec2 Es2 n2 Eb2)
      (simple_bca rcpr fuel ext x y z ux uy uz E1 Z1 m1 Ec1 Es1 Z2 m2 Ec2 Es2 n2 Eb2) t mem := by
  have h0 := rows_left cap hm hfin 72 8 (t := t)
    (simple_bca rcpr fuel ext x y z ux uy uz E1 Z1 m1 Ec1 Es1 Z2 m2 Ec2 Es2 n2 Eb2)
    (fun rows ptr => (⟨rows.length, ptr⟩ : OutputBCA))
  refine ⟨fun rows t' h => ?_, h0.2⟩
  obtain ⟨ptr, mem', h1, h2, h3⟩ := h0.1 rows t' h
  exact ⟨⟨rows.length, ptr⟩, mem', h1, rfl, h2, h3⟩

/-! ## The other direction: the arrays have to be there -/

/-- **C126, the caller's duty (one species).** `simple_bca_list_c` never answers unless its array holds `len` velocities. -/
theorem C126_simple_duty (input : InputSimpleBCA F) {out : OutputBCA} {s' : Tape F × Memory F}
    (h : simple_bca_list_mem malloc cap rcpr fuel ext input (t, mem) = .ok (out, s')) :
    ∃ v : List (Vec3 F), v.length = input.len ∧ HoldsTriples mem input.velocities v := by
  unfold simple_bca_list_mem at h
  obtain ⟨⟨m, _⟩, ⟨t1, mem1⟩, h1, h2⟩ := (c_bind_ok _ _ _ _ _).1 h
  obtain ⟨_, rfl⟩ := (call_ok _ _ _ _ _ _).1 h1
  obtain ⟨v, _, h3, _⟩ := (c_bind_ok _ _ _ _ _).1 h2
  obtain ⟨_, hl, hv⟩ := (triple_ok _ _ _ _ _).1 h3
  exact ⟨v, hl, hv⟩

/-- **C126, the caller's duty (several species).** `compound_bca_list_c` never answers unless its seven arrays are as long as
declared. -/
theorem C126_compound_duty (input : InputCompoundBCA F) {out : OutputBCA} {s' : Tape F × Memory F}
    (h : compound_bca_list_mem malloc cap rcpr fuel ext input (t, mem) = .ok (out, s')) :
    ∃ (v : List (Vec3 F)) (Z m n Ec Es Eb : List F), v.length = input.len ∧ HoldsTriples mem input.velocities v ∧
      HoldsTarget mem input.num_species_target input.Z2 input.m2 input.n2 input.Ec2 input.Es2 input.Eb2 Z m n Ec Es Eb := by
  unfold compound_bca_list_mem at h
  obtain ⟨Z, m, n, Ec, Es, Eb, ht, h⟩ := target_read h
  obtain ⟨⟨mm, _⟩, ⟨t1, mem1⟩, h1, h2⟩ := (c_bind_ok _ _ _ _ _).1 h
  obtain ⟨_, rfl⟩ := (call_ok _ _ _ _ _ _).1 h1
  obtain ⟨v, _, h3, _⟩ := (c_bind_ok _ _ _ _ _).1 h2
  obtain ⟨_, hl, hv⟩ := (triple_ok _ _ _ _ _).1 h3
  exact ⟨v, Z, m, n, Ec, Es, Eb, hl, hv, ht⟩

/-- **C126, the caller's duty (tagged ions).** -/
theorem C126_tagged_duty (input : InputTaggedPtr F) {out : OutputTaggedPtr} {s' : Tape F × Memory F}
    (h : compound_tagged_bca_list_mem malloc cap rcpr fuel ext input (t, mem) = .ok (out, s')) :
    ∃ (v pos : List (Vec3 F)) (tags : List Int) (weights Z m n Ec Es Eb : List F), v.length = input.len ∧
      HoldsTriples mem input.velocities v ∧ pos.length = input.len ∧ HoldsTriples mem input.positions pos ∧
      tags.length = input.len ∧ HoldsI32 mem input.tags tags ∧ weights.length = input.len ∧ HoldsF64 mem input.weights weights ∧
      HoldsTarget mem input.num_species_target input.Z2 input.m2 input.n2 input.Ec2 input.Es2 input.Eb2 Z m n Ec Es Eb := by
  unfold compound_tagged_bca_list_mem at h
  obtain ⟨Z, m, n, Ec, Es, Eb, ht, h⟩ := target_read h
  obtain ⟨pos, s1, h1, h⟩ := (c_bind_ok _ _ _ _ _).1 h
  obtain ⟨rfl, hpl, hp⟩ := (triple_ok _ _ _ _ _).1 h1
  obtain ⟨tags, s2, h2, h⟩ := (c_bind_ok _ _ _ _ _).1 h
  obtain ⟨rfl, htl, htg⟩ := (i32_ok _ _ _ _ _).1 h2
  obtain ⟨weights, s3, h3, h⟩ := (c_bind_ok _ _ _ _ _).1 h
  obtain ⟨rfl, hwl, hw⟩ := (f64_ok _ _ _ _ _).1 h3
  obtain ⟨⟨mm, _⟩, ⟨t1, mem1⟩, h4, h6⟩ := (c_bind_ok _ _ _ _ _).1 h
  obtain ⟨_, rfl⟩ := (call_ok _ _ _ _ _ _).1 h4
  obtain ⟨v, _, h5, _⟩ := (c_bind_ok _ _ _ _ _).1 h6
  obtain ⟨_, hl, hv⟩ := (triple_ok _ _ _ _ _).1 h5
  exact ⟨v, pos, tags, weights, Z, m, n, Ec, Es, Eb, hl, hv, hpl, hp, htl, htg, hwl, hw, ht⟩

/-- **C126, the caller's duty (Fortran).** -/
theorem C126_fortran_duty (k n : ℕ) (hk : k < 2^31) (hn : n < 2^31) (track : Bool)
    {pux puy puz pE1 pZ1 pm1 pEc1 pEs1 pZ2 pm2 pEc2 pEs2 pEb2 pn2 : ℕ} {out : ℤ × ℕ} {s' : Tape F × Memory F}
    (h : compound_bca_list_fortran_mem malloc cap rcpr fuel ext k track pux puy puz pE1 pZ1 pm1 pEc1 pEs1 n pZ2 pm2 pEc2
      pEs2 pEb2 pn2 (t, mem) = .ok (out, s')) :
    (∀ p ∈ [pux, puy, puz, pE1, pZ1, pm1, pEc1, pEs1], ∃ l : List F, l.length = k ∧ HoldsF64 mem p l) ∧
    ∃ Z2 m2 n2 Ec2 Es2 Eb2 : List F, HoldsTarget mem n pZ2 pm2 pn2 pEc2 pEs2 pEb2 Z2 m2 n2 Ec2 Es2 Eb2 := by
  have hcount : ∀ j : ℕ, j < 2^31 → as_usize (j : ℤ) = j := fun j hj => by unfold as_usize; omega
  simp only [compound_bca_list_fortran_mem, hcount k hk, hcount n hn] at h
  obtain ⟨l1, s1, h1, h⟩ := (c_bind_ok _ _ _ _ _).1 h
  obtain ⟨rfl, a1⟩ := (f64_ok _ _ _ _ _).1 h1
  obtain ⟨l2, s2, h2, h⟩ := (c_bind_ok _ _ _ _ _).1 h
  obtain ⟨rfl, a2⟩ := (f64_ok _ _ _ _ _).1 h2
  obtain ⟨l3, s3, h3, h⟩ := (c_bind_ok _ _ _ _ _).1 h
  obtain ⟨rfl, a3⟩ := (f64_ok _ _ _ _ _).1 h3
  obtain ⟨l4, s4, h4, h⟩ := (c_bind_ok _ _ _ _ _).1 h
  obtain ⟨rfl, a4⟩ := (f64_ok _ _ _ _ _).1 h4
  obtain ⟨l5, s5, h5, h⟩ := (c_bind_ok _ _ _ _ _).1 h
  obtain ⟨rfl, a5⟩ := (f64_ok _ _ _ _ _).1 h5
  obtain ⟨l6, s6, h6, h⟩ := (c_bind_ok _ _ _ _ _).1 h
  obtain ⟨rfl, a6⟩ := (f64_ok _ _ _ _ _).1 h6
  obtain ⟨l7, s7, h7, h⟩ := (c_bind_ok _ _ _ _ _).1 h
  obtain ⟨rfl, a7⟩ := (f64_ok _ _ _ _ _).1 h7
  obtain ⟨l8, s8, h8, h⟩ := (c_bind_ok _ _ _ _ _).1 h
  obtain ⟨rfl, a8⟩ := (f64_ok _ _ _ _ _).1 h8
  obtain ⟨Z, m, n, Ec, Es, Eb, ht, _⟩ := target_read h
  refine ⟨fun p hp => ?_, Z, m, n, Ec, Es, Eb, ht⟩
  simp only [List.mem_cons, List.not_mem_nil, or_false] at hp
  rcases hp with rfl | rfl | rfl | rfl | rfl | rfl | rfl | rfl
  exacts [⟨l1, a1⟩, ⟨l2, a2⟩, ⟨l3, a3⟩, ⟨l6, a6⟩, ⟨l4, a4⟩, ⟨l5, a5⟩, ⟨l7, a7⟩, ⟨l8, a8⟩]

/-- A slice of negative length, as a `usize`, is undefined behaviour whatever is in memory. -/
theorem raw_negative (ptr : ℕ) (k : ℤ) (h1 : -2^31 ≤ k) (h2 : k < 0) (s : Tape F × Memory F) :
    raw_f64 ptr (as_usize k) s = .error .ub := by
  have h : 2^63 ≤ as_usize k := by unfold as_usize; omega
  rcases raw_or Cells.asF64 8 8 ptr (as_usize k) s with ⟨l, hl⟩ | hl
  · exfalso
    obtain ⟨_, hlen, hh⟩ := (raw_ok _ _ _ _ _ _ _ _).1 hl
    have := hh.2.1
    omega
  · exact hl

/-- **C126, negative counts.** With a negative number of ions `compound_bca_list_fortran` has undefined behaviour, whatever the
arrays. -/
theorem C126_negative (k n : ℤ) (h1 : -2^31 ≤ k) (h2 : k < 0) (track : Bool) (s : Tape F × Memory F)
    (pux puy puz pE1 pZ1 pm1 pEc1 pEs1 pZ2 pm2 pEc2 pEs2 pEb2 pn2 : ℕ) :
    compound_bca_list_fortran_mem malloc cap rcpr fuel ext k track pux puy puz pE1 pZ1 pm1 pEc1 pEs1 n pZ2 pm2 pEc2 pEs2 pEb2 pn2 s =
      .error .ub := by
  unfold compound_bca_list_fortran_mem
  exact c_bind_err _ (raw_negative pux k h1 h2 s)

/-- **C126, null pointers.** A null pointer is undefined behaviour even for an array of length zero. -/
theorem C126_null (input : InputCompoundBCA F) (h : input.Z2 = 0) (s : Tape F × Memory F) :
    compound_bca_list_mem malloc cap rcpr fuel ext input s = .error .ub := by
  unfold compound_bca_list_mem
  refine c_bind_err _ ?_
  unfold raw_f64 from_raw_parts
  rw [if_neg (fun h' => h'.1 h)]

end

/-! ## Afterwards -/

/-- **C126, nothing else changes.** What memory held before a call, at any address, it holds after it. -/
theorem C126_untouched {mem mem' : Memory F} {ptr len : ℕ} {cells : Cells F} {layout : Layout} (h : NewBlock mem mem' ptr len cells layout)
    {a : ℕ} {b : Block F} (ha : mem a = some b) : mem' a = some b := by
  by_cases h0 : len = 0
  · rw [h.1 h0]; exact ha
  · obtain ⟨h1, _, h2⟩ := h.2 h0
    rw [h2 a (by rintro rfl; rw [h1] at ha; cases ha)]; exact ha

/-- Arrays stay readable. -/
theorem still_holds {α : Type} {view : Cells F → Option (List α)} {size align : ℕ} {mem mem' : Memory F} {ptr len : ℕ}
    {cells : Cells F} {layout : Layout} (h : NewBlock mem mem' ptr len cells layout) {p : ℕ} {l : List α}
    (hp : HoldsArray view size align mem p l) : HoldsArray view size align mem' p l := by
  refine ⟨hp.1, hp.2.1, fun hl => ?_⟩
  obtain ⟨b, rest, h1, h2⟩ := hp.2.2 hl
  exact ⟨b, rest, C126_untouched h h1, h2⟩

/-- **C126, an empty output is freed.** -/
theorem C126_drop_empty {out : OutputBCA} (h : out.len = 0) (s : Tape F × Memory F) : drop_output_bca_mem out s = .ok ((), s) := by
  unfold drop_output_bca_mem
  rw [if_neg (by omega)]
  rfl

/-- **C126, a non-empty output is not freed.** Passing the output of a list function to `drop_output_bca` is undefined behaviour as
soon as it has a row, whatever else was called in between; freeing the block with the layout it was allocated with would have
been defined. -/
theorem C126_drop (cap : ℕ → ℕ) (hcap : ∀ n, n ≤ cap n) {mem mem1 mem2 : Memory F} {out : OutputBCA} {rows : List (List F)}
    (hnew : NewBlock mem mem1 out.particles rows.length (.rows rows) ⟨cap rows.length*72, 8⟩) (hlen : out.len = rows.length)
    (hne : rows ≠ []) (hlater : mem2 out.particles = mem1 out.particles) (t : Tape F) :
    drop_output_bca_mem out (t, mem2) = .error .ub ∧
    ∃ mem3, dealloc out.particles ⟨cap rows.length*72, 8⟩ (t, mem2) = .ok ((), (t, mem3)) ∧ mem3 out.particles = none ∧
      ∀ a, a ≠ out.particles → mem3 a = mem2 a := by
  have h0 : 0 < rows.length := List.length_pos_iff.2 hne
  obtain ⟨_, h1, _⟩ := hnew.2 (by omega)
  have hb : mem2 out.particles = some ⟨.rows rows, some ⟨cap rows.length*72, 8⟩⟩ := hlater.trans h1
  constructor
  · unfold drop_output_bca_mem dealloc
    rw [hlen, if_pos h0]
    simp only [hb]
    rw [if_neg]
    intro h
    simp only [Option.some.injEq, Layout.mk.injEq, and_true] at h
    have := hcap rows.length
    omega
  · unfold dealloc
    simp only [hb]
    exact ⟨_, if_pos trivial, if_pos rfl, fun a ha => if_neg ha⟩

/-- **C126, a non-empty tagged output is not freed** either. -/
theorem C126_drop_tagged (cap : ℕ → ℕ) (hcap : ∀ n, n ≤ cap n) {mem mem1 mem2 : Memory F} {out : OutputTaggedPtr}
    {rows : List (List F)} (hnew : NewBlock mem mem1 out.particles out.len (.rows rows) ⟨cap out.len*72, 8⟩) (hne : 0 < out.len)
    (hlater : mem2 out.particles = mem1 out.particles) (t : Tape F) : drop_output_tagged_bca_mem out (t, mem2) = .error .ub := by
  obtain ⟨_, h1, _⟩ := hnew.2 (by omega)
  have hb : mem2 out.particles = some ⟨.rows rows, some ⟨cap out.len*72, 8⟩⟩ := hlater.trans h1
  unfold drop_output_tagged_bca_mem
  rw [if_pos hne]
  refine c_bind_err _ ?_
  unfold dealloc
  simp only [hb]
  rw [if_neg]
  intro h
  simp only [Option.some.injEq, Layout.mk.injEq, and_true] at h
  have := hcap out.len
  omega

theorem C126_drop_tagged_empty {out : OutputTaggedPtr} (h : out.len = 0) (s : Tape F × Memory F) :
    drop_output_tagged_bca_mem out s = .ok ((), s) := by
  unfold drop_output_tagged_bca_mem
  rw [if_neg (by omega)]
  rfl

end RustBCA
