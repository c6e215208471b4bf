import Verif.Props.BulkPolygon
import Verif.Props.Run
import Verif.Props.Input
import Verif.Model.Physics

/-!
# C130: the whole run ends
-/

set_option linter.unusedVariables false
set_option linter.unusedSectionVars false

namespace RustBCA
open Scalar Spec

/-! ## The outputs never run on for ever -/

theorem ends_vget {α : Type} (l : List α) (i : ℕ) : Ends (vget l i) := by
  unfold vget
  split
  · exact ends_ok _
  · exact ends_panic _

theorem ends_vmodify {α : Type} (l : List α) (i : ℕ) (g : α → α) : Ends (vmodify l i g) := by
  unfold vmodify
  split
  · exact ends_ok _
  · exact ends_panic _

theorem ends_vmodify2 {α : Type} (l : List (List α)) (i j : ℕ) (g : α → α) : Ends (vmodify2 l i j g) := by
  unfold vmodify2
  split
  · exact ends_bind (ends_vmodify _ _ _) fun _ => ends_pure _
  · exact ends_panic _

theorem ends_assert (b : Bool) (m : String) : Ends (rassert b m) := by
  unfold rassert
  exact ends_ite (ends_ok _) (ends_panic _)

theorem ends_bump {α : Type} (b : Bool) (h : List α) (i : ℤ) (g : α → α) : Ends (Distributions.bump b h i g) := by
  unfold Distributions.bump
  exact ends_ite (ends_vmodify _ _ _) (ends_pure _)

theorem ends_forFold {α σ : Type} {body : σ → α → Res σ} (l : List α) (h : ∀ s, ∀ a ∈ l, Ends (body s a)) :
    ∀ s : σ, Ends (forFold body l s) := by
  induction l with
  | nil => intro s; exact ends_pure _
  | cons a l ih =>
    intro s
    exact ends_bind (h s a List.mem_cons_self) (ih fun s b hb => h s b (List.mem_cons_of_mem _ hb))

variable {F : Type} [Scalar F]

theorem ends_bin_floor (r : List F) (v : F) : Ends (Distributions.bin_floor r v) :=
  ends_bind (ends_vget _ _) fun _ => ends_bind (ends_vget _ _) fun _ => ends_pure _

theorem ends_bin_trunc (r : List F) (v : F) : Ends (Distributions.bin_trunc r v) :=
  ends_bind (ends_vget _ _) fun _ => ends_bind (ends_vget _ _) fun _ => ends_pure _

theorem ends_update_loss (u : OutputUnits F) (n : ℕ) (d : Distributions F) (loss : EnergyLoss F) :
    Ends (Distributions.update_loss u n d loss) :=
  ends_bind (ends_vget _ _) fun _ => ends_bind (ends_vget _ _) fun _ => ends_bind (ends_bin_trunc _ _) fun _ =>
    ends_bind (ends_bump _ _ _ _) fun _ => ends_bind (ends_bump _ _ _ _) fun _ => ends_pure _

theorem ends_distributions (d : Distributions F) (p : Particle F) (u : OutputUnits F) (b : Bool) (n : ℕ) :
    Ends (d.update p u b n) := by
  unfold Distributions.update
  refine ends_bind (ends_bin_floor _ _) fun _ => ends_bind (ends_bin_floor _ _) fun _ => ends_bind ?_ fun _ => ends_bind ?_ fun _ =>
    ends_bind ?_ fun _ => ends_ite (ends_forFold _ (fun s a _ => ends_update_loss _ _ _ _) _) (ends_pure _)
  · exact ends_ite (ends_ite (ends_bind (ends_vmodify2 _ _ _ _) fun _ => ends_pure _) (ends_pure _)) (ends_pure _)
  · exact ends_ite (ends_ite (ends_bind (ends_vmodify2 _ _ _ _) fun _ => ends_pure _) (ends_pure _)) (ends_pure _)
  · exact ends_ite (ends_bind (ends_bin_trunc _ _) fun _ => ends_bind (ends_bin_trunc _ _) fun _ => ends_bind (ends_bin_trunc _ _)
      fun _ => ends_bind (ends_bump _ _ _ _) fun _ => ends_bind (ends_bump _ _ _ _) fun _ => ends_bind (ends_bump _ _ _ _) fun _ =>
      ends_pure _) (ends_pure _)

theorem ends_summary (s : SummaryPerSpecies F) (p : Particle F) : Ends (s.update p) := by
  unfold SummaryPerSpecies.update
  split
  · split
    · exact ends_bind (ends_vmodify _ _ _) fun _ => ends_pure _
    · exact ends_bind (ends_vmodify _ _ _) fun _ => ends_pure _
    · exact ends_bind (ends_vmodify _ _ _) fun _ => ends_pure _
    · exact ends_pure _
  · dsimp only
    split <;> exact ends_pure _

theorem ends_process (cfg : OutputConfig F) (o : Options F) (n : ℕ) (s : RunState F) (p : Particle F) :
    Ends (process_particle cfg o n s p) := by
  unfold process_particle
  refine ends_bind (ends_summary _ _) fun _ => ends_bind ?_ fun _ => ends_pure _
  cases s.distributions with
  | none => exact ends_pure _
  | some d => exact ends_bind (ends_distributions _ _ _ _ _) fun _ => ends_pure _

/-! ## The loop over the ions -/

theorem ends_collect {α β : Type} {f : α → Res (List β)} : ∀ l : List α, (∀ x ∈ l, Ends (f x)) → Ends (seq_collect f l) := by
  intro l
  induction l with
  | nil => intro _; exact ends_pure _
  | cons x l ih =>
    intro h
    exact ends_bind (h x List.mem_cons_self) fun _ => ends_bind (ih fun y hy => h y (List.mem_cons_of_mem _ hy)) fun _ => ends_pure _

theorem ends_par {α β : Type} {f : α → Res (List β)} : ∀ (sp : Split) (l : List α), (∀ x ∈ l, Ends (f x)) →
    Ends (par_collect f sp l) := by
  intro sp
  induction sp with
  | leaf => intro l h; exact ends_collect l h
  | node mid a b iha ihb =>
    intro l h
    exact ends_bind (iha _ fun x hx => h x (List.mem_of_mem_take hx)) fun _ =>
      ends_bind (ihb _ fun x hx => h x (List.mem_of_mem_drop hx)) fun _ => ends_pure _

/-- **C130, the loop.** If following every ion ends, the loop over the ions ends: with every number of threads, every way of
splitting the work, all outputs. -/
theorem C130_loop {α : Type} (cfg : OutputConfig F) (o : Options F) (sim : α → Res (List (Particle F))) (splits : List Split)
    (ions : List α) (h : ∀ x ∈ ions, sim x ≠ .error .fuel) : physics_loop cfg o sim splits ions ≠ .error .fuel := by
  have hs : ∀ x ∈ ions, Ends (sim x) := by
    intro x hx
    have := h x hx
    unfold Ends
    cases hr : sim x with
    | ok a => trivial
    | error e =>
      show e ≠ .fuel
      rintro rfl
      exact this hr
  have key : Ends (physics_loop cfg o sim splits ions) := by
    unfold physics_loop
    refine ends_bind (ends_assert _ _) fun _ => ends_bind (ends_assert _ _) fun _ => ?_
    refine ends_forFold _ (fun s c hc' => ?_) _
    obtain ⟨c, sp⟩ := c
    have hmem : c ∈ chunks (ions.length/o.num_chunks) ions := by
      unfold withSplits at hc'
      obtain ⟨⟨c', i⟩, h1, h2⟩ := List.mem_map.1 hc'
      obtain ⟨rfl, -⟩ := Prod.mk.inj h2
      exact (List.mem_zipIdx h1).2.2 ▸ List.getElem_mem _
    have hsub : ∀ x ∈ c, x ∈ ions := by
      intro x hx
      by_cases h0 : ions.length/o.num_chunks = 0
      · unfold chunks at hmem
        rw [dif_pos (.inl h0)] at hmem
        cases hmem
      · rw [← (C47_chunks_partition (ions.length/o.num_chunks) (Nat.pos_of_ne_zero h0) ions).1]
        exact List.mem_flatten.2 ⟨c, hmem, hx⟩
    unfold process_chunk
    refine ends_bind ?_ fun ps => ends_bind (ends_forFold _ (fun s p _ => ends_process _ _ _ _ _) _) fun _ => ends_pure _
    exact ends_ite (ends_par _ _ fun x hx => hs x (hsub x hx)) (ends_collect _ fun x hx => hs x (hsub x hx))
  intro he
  rw [he] at key
  exact key rfl

/-! ## A campaign in a 2D target -/

section
variable {parse : String → Option ℝ} {mat : Material ℝ} {n : ℕ}

/-- An ion of the input file that the run can follow: positive mass, charge and cutoff energy, at least the cutoff energy, a
nonnegative binding energy, and a start inside the material. -/
structure Followable (inside : ℝ → ℝ → Prop) (mat : Material ℝ) (o : Options ℝ) (q : ParticleInput ℝ) : Prop where
  m : 0 < q.m
  Z : 0 < q.Z
  Ec : 0 < q.Ec
  E : q.Ec ≤ q.E
  Es : 0 ≤ q.Es
  inside : inside q.x q.y
  tables : ScreenedWithAll mat o q.interaction_index

/-- The particle made of an input. -/
theorem from_input_followed {q : ParticleInput ℝ} {o : Options ℝ} {b : Particle ℝ} (h : Particle.from_input q o = .ok b) :
    b.m = q.m ∧ b.Z = q.Z ∧ b.Ec = q.Ec ∧ b.E = q.E ∧ b.Es = q.Es ∧ b.pos.x = q.x ∧ b.pos.y = q.y ∧
      b.interaction_index = q.interaction_index ∧ b.stopped = false ∧ b.left = false ∧ inner b.dir b.dir ≤ 1 ∧
      b.asymptotic_deflection = 0 := by
  have key : RSat (Particle.from_input q o) (fun b => b.m = q.m ∧ b.Z = q.Z ∧ b.Ec = q.Ec ∧ b.E = q.E ∧ b.Es = q.Es ∧
      b.pos.x = q.x ∧ b.pos.y = q.y ∧ b.interaction_index = q.interaction_index ∧ b.stopped = false ∧ b.left = false ∧
      inner b.dir b.dir ≤ 1 ∧ b.asymptotic_deflection = 0) (fun _ => True) := by
    unfold Particle.from_input
    simp only [rsat_bind, rsat_assert, rsat_pure, true_and, implies_true, and_true]
    intro _ _
    constructor
    · simp only [Spec.inner, sqrt_real]
      set S := q.ux*q.ux + q.uy*q.uy + q.uz*q.uz with hS
      have hS0 : 0 ≤ S := by nlinarith [mul_self_nonneg q.ux, mul_self_nonneg q.uy, mul_self_nonneg q.uz]
      have hsq := Real.mul_self_sqrt hS0
      have e : q.ux/√S*(q.ux/√S) + q.uy/√S*(q.uy/√S) + q.uz/√S*(q.uz/√S) = S/(√S*√S) := by
        rw [hS, div_mul_div_comm, div_mul_div_comm, div_mul_div_comm, ← add_div, ← add_div]
      rw [e, hsq]
      exact div_self_le_one S
    · norm_num
  rw [h] at key
  exact key

/-- A bound for all the ions of a list. -/
theorem bound_all {α : Type} {P : α → ℕ → Prop} (hmono : ∀ a n m, n ≤ m → P a n → P a m) (l : List α) (h : ∀ a ∈ l, ∃ n, P a n) :
    ∃ n, ∀ a ∈ l, P a n := by
  induction l with
  | nil => exact ⟨0, fun a ha => nomatch ha⟩
  | cons a l ih =>
    obtain ⟨n, hn⟩ := h a List.mem_cons_self
    obtain ⟨m, hm⟩ := ih fun b hb => h b (List.mem_cons_of_mem _ hb)
    refine ⟨max n m, fun b hb => ?_⟩
    rcases List.mem_cons.1 hb with rfl | hb
    · exact hmono _ _ _ (le_max_left _ _) hn
    · exact hmono _ _ _ (le_max_right _ _) (hm b hb)

/-- If every ion ends within a number of passes that does not depend on the random numbers, the run does. -/
theorem campaign_ends (rcpr : Rcpr ℝ) (o : Options ℝ) (inputs : List (ParticleInput ℝ))
    (h : ∀ q ∈ inputs, ∀ b, Particle.from_input q o = .ok b →
      ∃ N, ∀ fuel, N ≤ fuel → ∀ tape, OpenUnit tape → single_ion_bca rcpr fuel b mat o tape ≠ .error .fuel) :
    ∃ N, ∀ fuel, N ≤ fuel → ∀ cfg splits tapes, (∀ i, OpenUnit (tapes i)) →
      physics_loop_run rcpr fuel cfg mat o splits tapes inputs ≠ .error .fuel := by
  obtain ⟨N, hN⟩ := bound_all (P := fun q N => ∀ fuel, N ≤ fuel → ∀ tape, OpenUnit tape →
      run_ion rcpr fuel mat o q tape ≠ .error .fuel) (fun _ _ _ hle hP fuel hf => hP fuel (hle.trans hf)) inputs (by
    intro q hq
    cases hb : Particle.from_input q o with
    | error e =>
      refine ⟨0, fun fuel _ tape _ he => ?_⟩
      have hE : Ends (Particle.from_input q o) := by
        unfold Particle.from_input
        exact ends_bind (ends_assert _ _) fun _ => ends_bind (ends_assert _ _) fun _ => ends_pure _
      unfold run_ion at he
      rw [hb] at he hE
      cases he
      exact hE rfl
    | ok b =>
      obtain ⟨N, hN⟩ := h q hq b hb
      refine ⟨N, fun fuel hf tape ht he => ?_⟩
      unfold run_ion at he
      rw [hb] at he
      simp only [bind, Except.bind] at he
      cases hr : single_ion_bca rcpr fuel b mat o tape with
      | error e =>
        rw [hr] at he
        cases he
        exact hN fuel hf tape ht hr
      | ok r => rw [hr] at he; cases he)
  refine ⟨N, fun fuel hf cfg splits tapes ht => C130_loop _ _ _ _ _ fun x hx => ?_⟩
  obtain ⟨q, i⟩ := x
  exact hN q (by
    have h2 := (List.mem_zipIdx hx).2.2
    exact h2 ▸ List.getElem_mem _) fuel hf _ (ht i)

/-- **C130, homogeneous 2D targets.** With local stopping the run of any list of ions, in a target whose simulated part is cut out of
the material, ends: for every number of threads and chunks, every way of splitting the work and every output. -/
theorem C130_homogeneous2D {g : HomogeneousMesh2D ℝ} (rcpr : Rcpr ℝ) (o : Options ℝ) {eb : ℝ} (h : CutOut parse g mat n)
    (hff : o.high_energy_free_flight_paths = false) (hmode : o.electronic_stopping_mode = .LOW_ENERGY_LOCAL) (hV : AllScreened o)
    (hrec : o.track_recoils = false ∨ (BoundBy mat eb ∧ 0 < eb)) (htab : ∀ j ∈ mat.interaction_index, ScreenedWithAll mat o j)
    (inputs : List (ParticleInput ℝ))
    (hq : ∀ q ∈ inputs, Followable (fun x y => Geo.polygon_contains g.boundary (x, y) = true) mat o q) :
    ∃ N, ∀ fuel, N ≤ fuel → ∀ cfg splits tapes, (∀ i, OpenUnit (tapes i)) →
      physics_loop_run rcpr fuel cfg mat o splits tapes inputs ≠ .error .fuel := by
  refine campaign_ends rcpr o inputs fun q hm b hb => ?_
  obtain ⟨e1, e2, e3, e4, e5, e6, e7, e8, e9, e10, e11, -⟩ := from_input_followed hb
  have hq := hq q hm
  exact C127_homogeneous2D rcpr o h hff hmode hV hrec (e8 ▸ hq.tables) htab
    ⟨e1 ▸ hq.m, e2 ▸ hq.Z, e4 ▸ (hq.Ec.le.trans hq.E), e5 ▸ hq.Es, e11⟩ (e3 ▸ hq.Ec) (by rw [e3, e4]; exact hq.E)
    (by rw [e6, e7]; exact hq.inside) e9 e10

/-- **C130, targets of triangles.** -/
theorem C130_mesh2D {g : Mesh2D ℝ} {d ck : ℝ} (rcpr : Rcpr ℝ) (o : Options ℝ) {eb : ℝ} (h : CutOutMesh parse g mat n d ck)
    (hd : 0 < d) (hck : 0 < ck)
    (hff : o.high_energy_free_flight_paths = false) (hmode : o.electronic_stopping_mode = .LOW_ENERGY_LOCAL) (hV : AllScreened o)
    (hrec : o.track_recoils = false ∨ (BoundBy mat eb ∧ 0 < eb)) (htab : ∀ j ∈ mat.interaction_index, ScreenedWithAll mat o j)
    (inputs : List (ParticleInput ℝ))
    (hq : ∀ q ∈ inputs, Followable (fun x y => Geo.polygon_contains g.boundary (x, y) = true) mat o q) :
    ∃ N, ∀ fuel, N ≤ fuel → ∀ cfg splits tapes, (∀ i, OpenUnit (tapes i)) →
      physics_loop_run rcpr fuel cfg mat o splits tapes inputs ≠ .error .fuel := by
  refine campaign_ends rcpr o inputs fun q hm b hb => ?_
  obtain ⟨e1, e2, e3, e4, e5, e6, e7, e8, e9, e10, e11, -⟩ := from_input_followed hb
  have hq := hq q hm
  exact C127_mesh2D rcpr o h hd hck hff hmode hV hrec (e8 ▸ hq.tables) htab
    ⟨e1 ▸ hq.m, e2 ▸ hq.Z, e4 ▸ (hq.Ec.le.trans hq.E), e5 ▸ hq.Es, e11⟩ (e3 ▸ hq.Ec) (by rw [e3, e4]; exact hq.E)
    (by rw [e6, e7]; exact hq.inside) e9 e10

end

end RustBCA
