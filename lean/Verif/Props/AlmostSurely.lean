import Verif.Spec.AlmostSurely
import Verif.Props.Bulk
import Verif.Props.NoPanicMesh
import Verif.Props.Recoils
import Verif.Proofs.PassDraws

/-!
# C125: with probability one every run ends
-/

set_option linter.unusedSimpArgs false
set_option linter.unusedVariables false
set_option linter.unusedSectionVars false

namespace RustBCA
open Scalar Spec

/-! ## The argument, for any kind of pass -/

section
variable {rcpr : Rcpr ℝ} {mat : Material ℝ} {o : Options ℝ} {W : ℕ} {δ eb : ℝ} {Good : Particle ℝ → Prop}

/-- What a pass of a good particle does. -/
structure EndingPass (rcpr : Rcpr ℝ) (mat : Material ℝ) (o : Options ℝ) (W : ℕ) (δ eb : ℝ) (Good : Particle ℝ → Prop)
    (x : Particle ℝ) (t : Tape ℝ) (q : Particle ℝ) (new : List (Particle ℝ)) (k : ℕ) : Prop where
  run : trajectory_step rcpr mat o x [] t = .ok ((q, new), after k t)
  pos : 1 ≤ k
  le : k ≤ W
  new : ∀ r ∈ new, Good r ∧ r.E + eb ≤ x.E
  ends : (q.stopped = true ∨ q.left = true) ∨ (Good q ∧ q.first_step = false ∧ q.E ≤ x.E ∧
    (x.first_step = false → (∀ i < k, t i ≤ Real.exp (-1)) → q.E ≤ x.E - δ))

/-- The trajectory of `x` on `t` ends, and the particles it sets in motion are good and have energy `E - eb` at most. -/
def EndsWith (rcpr : Rcpr ℝ) (mat : Material ℝ) (o : Options ℝ) (eb : ℝ) (Good : Particle ℝ → Prop) (E : ℝ) (x : Particle ℝ)
    (t : Tape ℝ) : Prop :=
  ∃ r more j, Path rcpr mat o x t r more (after j t) ∧ ∀ y ∈ more, Good y ∧ y.E + eb ≤ E

theorem ends_mono {E E' : ℝ} {x : Particle ℝ} {t : Tape ℝ} (h : EndsWith rcpr mat o eb Good E x t) (hE : E ≤ E') :
    EndsWith rcpr mat o eb Good E' x t := by
  obtain ⟨r, more, j, h1, h2⟩ := h
  exact ⟨r, more, j, h1, fun y hy => ⟨(h2 y hy).1, (h2 y hy).2.trans hE⟩⟩

theorem ends_step (hlive : ∀ x, Good x → 0 ≤ x.E ∧ x.stopped = false ∧ x.left = false) {x q : Particle ℝ} {t : Tape ℝ}
    {new : List (Particle ℝ)} {k : ℕ} (hx : Good x) (h : EndingPass rcpr mat o W δ eb Good x t q new k)
    (hq : ¬ (q.stopped = true ∨ q.left = true) → EndsWith rcpr mat o eb Good x.E q (after k t)) :
    EndsWith rcpr mat o eb Good x.E x t := by
  obtain ⟨_, h1, h2⟩ := hlive x hx
  by_cases hd : q.stopped = true ∨ q.left = true
  · exact ⟨q, new ++ [], k, .step h1 h2 h.run (.finished hd), fun y hy => h.new y (by simpa using hy)⟩
  · obtain ⟨r, more, j, a1, a2⟩ := hq hd
    refine ⟨r, new ++ more, k + j, ?_, fun y hy => ?_⟩
    · rw [← after_after]; exact .step h1 h2 h.run a1
    · rcases List.mem_append.1 hy with hy | hy
      · exact h.new y hy
      · exact a2 y hy

variable (hlive : ∀ x, Good x → 0 ≤ x.E ∧ x.stopped = false ∧ x.left = false)
  (hpass : ∀ x t, Good x → OpenUnit t → ∃ q new k, EndingPass rcpr mat o W δ eb Good x t q new k)
include hlive hpass

/-- The next numbers are small: the particle loses `δ` or its trajectory ends. -/
theorem ends_now {E : ℝ} {x : Particle ℝ} {t : Tape ℝ} (hx : Good x) (hfs : x.first_step = false) (hxE : x.E ≤ E)
    (ht : OpenUnit t) (ha : SmallAgain t) (hs : ∀ i < W, t i ≤ Real.exp (-1))
    (hnext : ∀ y t', Good y → y.first_step = false → y.E ≤ E - δ → OpenUnit t' → SmallAgain t' → EndsWith rcpr mat o eb Good y.E y t') :
    EndsWith rcpr mat o eb Good x.E x t := by
  obtain ⟨q, new, k, h⟩ := hpass x t hx ht
  refine ends_step hlive hx h fun hd => ?_
  obtain ⟨h1, h2, h3, h4⟩ := h.ends.resolve_left hd
  have h5 := h4 hfs fun i hi => hs i (by have := h.le; omega)
  exact ends_mono (hnext q _ h1 h2 (by linarith) (open_after ht _) (again_after ha _)) h3

/-- So it does if there are enough small numbers in a row somewhere ahead. -/
theorem ends_later {E : ℝ}
    (hnext : ∀ y t', Good y → y.first_step = false → y.E ≤ E - δ → OpenUnit t' → SmallAgain t' → EndsWith rcpr mat o eb Good y.E y t') :
    ∀ (m : ℕ) (x : Particle ℝ) (t : Tape ℝ), Good x → x.first_step = false → x.E ≤ E → OpenUnit t → SmallAgain t →
      (∀ i < 2*W, t (m + i) ≤ Real.exp (-1)) → EndsWith rcpr mat o eb Good x.E x t := by
  intro m
  induction m using Nat.strong_induction_on with
  | _ m ih =>
  intro x t hx hfs hxE ht ha hs
  by_cases hm : m = 0
  · subst hm
    exact ends_now hlive hpass hx hfs hxE ht ha (fun i hi => by simpa using hs i (by omega)) hnext
  obtain ⟨q, new, k, h⟩ := hpass x t hx ht
  have hk1 := h.pos
  have hk2 := h.le
  refine ends_step hlive hx h fun hd => ?_
  obtain ⟨h1, h2, h3, _⟩ := h.ends.resolve_left hd
  refine ends_mono ?_ h3
  by_cases hkm : k ≤ m
  · refine ih (m - k) (by omega) q _ h1 h2 (h3.trans hxE) (open_after ht _) (again_after ha _) fun i hi => ?_
    have := hs i hi
    unfold after
    rw [show k + (m - k + i) = m + i by omega]
    exact this
  · refine ends_now hlive hpass h1 h2 (h3.trans hxE) (open_after ht _) (again_after ha _) (fun i hi => ?_) hnext
    have := hs (k - m + i) (by omega)
    unfold after
    rw [show m + (k - m + i) = k + i by omega] at this
    exact this

/-- A trajectory ends. -/
theorem trajectory_ends (hδ : 0 < δ) {x : Particle ℝ} {t : Tape ℝ} (hx : Good x) (ht : OpenUnit t) (ha : SmallAgain t) :
    EndsWith rcpr mat o eb Good x.E x t := by
  have key : ∀ (N : ℕ) (x : Particle ℝ) (t : Tape ℝ), Good x → x.first_step = false → x.E < N*δ → OpenUnit t → SmallAgain t →
      EndsWith rcpr mat o eb Good x.E x t := by
    intro N
    induction N with
    | zero =>
      intro x t hx _ hE
      have := (hlive x hx).1
      simp only [Nat.cast_zero, zero_mul] at hE
      linarith
    | succ N ih =>
      intro x t hx hfs hE ht ha
      obtain ⟨m, _, hm⟩ := ha (2*W) 0
      refine ends_later hlive hpass (E := x.E) ?_ m x t hx hfs le_rfl ht ha hm
      intro y t' hy hyf hyE ht' ha'
      refine ih y t' hy hyf ?_ ht' ha'
      push_cast at hE
      nlinarith
  obtain ⟨q, new, k, h⟩ := hpass x t hx ht
  refine ends_step hlive hx h fun hd => ?_
  obtain ⟨h1, h2, h3, _⟩ := h.ends.resolve_left hd
  obtain ⟨N, hN⟩ := exists_nat_gt (q.E/δ)
  rw [div_lt_iff₀ hδ] at hN
  exact ends_mono (key N q _ h1 h2 hN (open_after ht _) (again_after ha _)) h3

/-- A cascade ends. -/
theorem cascade_ends (hδ : 0 < δ) (heb : 0 < eb) : ∀ (N : ℕ) (l : List (Particle ℝ)) (t : Tape ℝ),
    (∀ x ∈ l, Good x ∧ x.E < N*eb) → OpenUnit t → SmallAgain t → ∃ out j, Cascades rcpr mat o l t out (after j t) := by
  intro N
  induction N with
  | zero =>
    intro l t hl _ _
    cases l with
    | nil => exact ⟨[], 0, by rw [show after 0 t = t by funext i; simp [after]]; exact .nil⟩
    | cons x l =>
      have h := hl x (by simp)
      have := (hlive x h.1).1
      have h2 := h.2
      simp only [Nat.cast_zero, zero_mul] at h2
      linarith
  | succ N ih =>
    intro l
    induction l with
    | nil => intro t _ _ _; exact ⟨[], 0, by rw [show after 0 t = t by funext i; simp [after]]; exact .nil⟩
    | cons x l ihl =>
      intro t hl ht ha
      have hx := hl x (by simp)
      obtain ⟨r, more, j, h1, h2⟩ := trajectory_ends hlive hpass hδ hx.1 ht ha
      obtain ⟨out1, j1, h3⟩ := ih more.reverse (after j t) (fun y hy => by
        have hy := h2 y (List.mem_reverse.1 hy)
        refine ⟨hy.1, ?_⟩
        have := hx.2
        push_cast at this
        linarith [hy.2]) (open_after ht _) (again_after ha _)
      obtain ⟨out2, j2, h4⟩ := ihl (after j1 (after j t)) (fun y hy => hl y (List.mem_cons_of_mem _ hy))
        (open_after (open_after ht _) _) (again_after (again_after ha _) _)
      rw [after_after, after_after] at h4
      rw [after_after] at h3
      exact ⟨_, j + j1 + j2, .cons h1 h3 h4⟩

/-- A run ends. -/
theorem run_ends_again (hδ : 0 < δ) (heb : 0 < eb) {ion : Particle ℝ} (hion : Good ion) {t : Tape ℝ} (ht : OpenUnit t)
    (ha : SmallAgain t) : ∃ fuel out t', single_ion_bca rcpr fuel ion mat o t = .ok (out, t') := by
  obtain ⟨N, hN⟩ := exists_nat_gt (ion.E/eb)
  rw [div_lt_iff₀ heb] at hN
  obtain ⟨out, j, h⟩ := cascade_ends hlive hpass hδ heb N [ion] t (by simpa using ⟨hion, hN⟩) ht ha
  obtain ⟨_, h1, h2⟩ := hlive ion hion
  obtain ⟨fuel, hf⟩ := (C81_depth_first rcpr mat o ion t _ out h1 h2).2 h
  exact ⟨fuel, out, _, hf⟩

end

/-! ## The stopping power has a positive least value -/

/-- Every species takes a positive share. -/
theorem shares_pos (Zs ns : List ℝ) (f : ℝ → ℝ) (hf : ∀ Z ∈ Zs, 0 < f Z) (hn : ∀ n ∈ ns, 0 ≤ n) (hl : ns.length = Zs.length)
    (h : 0 < ns.sum) : 0 < (List.zipWith (fun Zb n => f Zb*n) Zs ns).sum := by
  simpa using (zip_pos Zs ns f 1 hf one_pos hn hl).2 h

theorem shares_nonneg (Zs ns : List ℝ) (f : ℝ → ℝ) (hf : ∀ Z ∈ Zs, 0 ≤ f Z) (hn : ∀ n ∈ ns, 0 ≤ n) :
    0 ≤ (List.zipWith (fun Zb n => f Zb*n) Zs ns).sum := by
  induction Zs generalizing ns with
  | nil => simp
  | cons a Zs ih =>
    cases ns with
    | nil => simp
    | cons b ns =>
      have h1 := ih ns (fun Z hZ => hf Z (List.mem_cons_of_mem _ hZ)) (fun n h => hn n (List.mem_cons_of_mem _ h))
      have h2 := mul_nonneg (hf a (by simp)) (hn b (by simp))
      simp only [List.zipWith_cons_cons, List.sum_cons]
      linarith

theorem shares_continuous (Zs ns : List ℝ) (f : ℝ → ℝ → ℝ) {s : Set ℝ} (hf : ∀ Z ∈ Zs, ContinuousOn (f Z) s) :
    ContinuousOn (fun e => (List.zipWith (fun Zb n => f Zb e*n) Zs ns).sum) s := by
  induction Zs generalizing ns with
  | nil => simp only [List.zipWith_nil_left, List.sum_nil]; exact continuousOn_const
  | cons a Zs ih =>
    cases ns with
    | nil => simp only [List.zipWith_nil_right, List.sum_nil]; exact continuousOn_const
    | cons b ns =>
      simp only [List.zipWith_cons_cons, List.sum_cons]
      exact ((hf a (by simp)).mul continuousOn_const).add (ih ns fun Z hZ => hf Z (List.mem_cons_of_mem _ hZ))

theorem lindhard_scharff_pos {E m Za Zb : ℝ} (hE : 0 < E) (hm : 0 < m) (hA : 0 < Za) (hB : 0 < Zb) : 0 < lindhardScharff E m Za Zb := by
  rw [← S_low_spec]; exact S_low_pos hE hm hA hB

theorem bethe_biersack_pos {E m Za Zb : ℝ} (hE : 0 < E) (hm : 0 < m) (hA : 0 < Za) (hB : 0 < Zb) :
    0 < betheBiersack (relativisticBeta E m) Za Zb := by
  rw [← S_high_spec]; exact S_high_pos hE hm hA hB

theorem lindhard_continuous (m Za Zb : ℝ) : Continuous fun E => lindhardScharff E m Za Zb := by
  unfold lindhardScharff
  fun_prop

theorem beta_continuous (m : ℝ) (hm : 0 < m) : ContinuousOn (fun E => relativisticBeta E m) (Set.Ioi 0) := by
  unfold relativisticBeta
  refine ContinuousOn.sqrt (continuousOn_const.sub (continuousOn_const.div (by fun_prop) fun e he => ?_))
  have : 0 < m*C ℝ^2 := by have := C_pos; positivity
  have : 0 ≤ e/(m*C ℝ^2) := div_nonneg (le_of_lt he) this.le
  positivity

theorem bethe_biersack_continuous {Za Zb : ℝ} (hA : 0 < Za) (hB : 0 < Zb) :
    ContinuousOn (fun b => betheBiersack b Za Zb) (Set.Ioi 0) := by
  unfold betheBiersack
  simp only
  obtain ⟨I, hI⟩ : ∃ I, I = Zb*(if Zb < 13 then 12 + 7/Zb else 9.76 + 58.5*Zb^(-1.19 : ℝ))*Q ℝ := ⟨_, rfl⟩
  obtain ⟨B, hB'⟩ : ∃ B, B = if Zb < 3 then 100*Za/Zb else 5 := ⟨_, rfl⟩
  rw [← hI, ← hB']
  have hB0 : 0 < B := by
    rw [hB']; split
    · positivity
    · norm_num
  have hI0 : 0 < I := by
    have h1 : 0 < Zb ^ (-1.19 : ℝ) := Real.rpow_pos_of_pos hB _
    have h2 := Q_pos
    rw [hI]
    split <;> positivity
  have heb : ∀ b : ℝ, 0 < b → 0 < 2*ME ℝ*(b*C ℝ)^2/I := fun b hb => by
    have := ME_pos; have := C_pos; positivity
  have hceb : ContinuousOn (fun b : ℝ => 2*ME ℝ*(b*C ℝ)^2/I) (Set.Ioi 0) := by fun_prop
  refine ContinuousOn.mul (continuousOn_const.div (by fun_prop) fun b hb => ?_) (ContinuousOn.log ((hceb.add continuousOn_const).add
    (continuousOn_const.div hceb fun b hb => (heb b hb).ne')) fun b hb => ?_)
  · have : (0:ℝ) < b := hb
    positivity
  · have h1 := heb b hb
    have h2 : 0 < B/(2*ME ℝ*(b*C ℝ)^2/I) := div_pos hB0 h1
    linarith

theorem pathStopping_nonneg (mode : ElectronicStoppingMode) {ck Za m E : ℝ} (hck : 0 ≤ ck) {Zs ns : List ℝ} (hZ : ∀ Z ∈ Zs, 0 < Z)
    (hn : ∀ n ∈ ns, 0 ≤ n) (hA : 0 < Za) (hm : 0 < m) (hE : 0 ≤ E) : 0 ≤ pathStopping mode ck Zs ns Za m E := by
  have low := shares_nonneg Zs ns (fun Zb => lindhardScharff E m Za Zb*ck)
    (fun Z h => mul_nonneg (lindhard_nonneg E m Za Z hA (hZ Z h)) hck) hn
  cases mode with
  | INTERPOLATED =>
    refine shares_nonneg Zs ns (fun Zb => 1/(1/betheBiersack (relativisticBeta E m) Za Zb + 1/lindhardScharff E m Za Zb*ck))
      (fun Z hZ' => ?_) hn
    have hZ := hZ Z hZ'
    rcases hE.lt_or_eq with h | h
    · have h1 := (bethe_biersack_pos h hm hA hZ).le
      have h2 := lindhard_nonneg E m Za Z hA hZ
      positivity
    · subst h
      have : betheBiersack (relativisticBeta 0 m) Za Z = 0 := by unfold betheBiersack relativisticBeta; simp
      have h2 : lindhardScharff 0 m Za Z = 0 := by unfold lindhardScharff; simp
      simp [this, h2]
  | LOW_ENERGY_NONLOCAL => exact low
  | LOW_ENERGY_EQUIPARTITION => exact div_nonneg low (by norm_num)
  | LOW_ENERGY_LOCAL => exact le_rfl

/-- In every mode but the local one there is a least stopping power above the cutoff energy, and it is positive. -/
theorem least_stopping (o : Options ℝ) (hmode : o.electronic_stopping_mode ≠ .LOW_ENERGY_LOCAL) {ck Za m Ec : ℝ} (Emax : ℝ)
    (hck : 0 < ck) {Zs ns : List ℝ} (hl : ns.length = Zs.length) (hZ : ∀ Z ∈ Zs, 0 < Z) (hn : ∀ n ∈ ns, 0 ≤ n) (hs : 0 < ns.sum)
    (hA : 0 < Za) (hm : 0 < m) (hEc : 0 < Ec) : ∃ σ, 0 < σ ∧ SlowedUpTo o ck Zs ns σ Emax Za m Ec := by
  generalize hmd : o.electronic_stopping_mode = mode at hmode
  have hpos : ∀ E, 0 < E → 0 < pathStopping mode ck Zs ns Za m E := by
    intro E hE
    have low := shares_pos Zs ns (fun Zb => lindhardScharff E m Za Zb*ck)
      (fun Z h => mul_pos (lindhard_scharff_pos hE hm hA (hZ Z h)) hck) hn hl hs
    cases mode with
    | INTERPOLATED =>
      refine shares_pos Zs ns (fun Zb => 1/(1/betheBiersack (relativisticBeta E m) Za Zb + 1/lindhardScharff E m Za Zb*ck))
        (fun Z hZ' => ?_) hn hl hs
      have h1 := bethe_biersack_pos hE hm hA (hZ Z hZ')
      have h2 := lindhard_scharff_pos hE hm hA (hZ Z hZ')
      positivity
    | LOW_ENERGY_NONLOCAL => exact low
    | LOW_ENERGY_EQUIPARTITION => exact half_pos low
    | LOW_ENERGY_LOCAL => exact absurd rfl hmode
  have hcont : ContinuousOn (fun E => pathStopping mode ck Zs ns Za m E) (Set.Icc Ec Emax) := by
    have hsub : Set.Icc Ec Emax ⊆ Set.Ioi 0 := fun e he => hEc.trans_le he.1
    have low := shares_continuous Zs ns (fun Zb E => lindhardScharff E m Za Zb*ck) (s := Set.Icc Ec Emax)
      fun Z _ => ((lindhard_continuous m Za Z).mul continuous_const).continuousOn
    cases mode with
    | INTERPOLATED =>
      refine shares_continuous Zs ns (fun Zb E => 1/(1/betheBiersack (relativisticBeta E m) Za Zb + 1/lindhardScharff E m Za Zb*ck))
        fun Z hZ' => ?_
      have hZ := hZ Z hZ'
      have hb : ContinuousOn (fun E => betheBiersack (relativisticBeta E m) Za Z) (Set.Icc Ec Emax) := by
        refine (bethe_biersack_continuous hA hZ).comp ((beta_continuous m hm).mono hsub) fun e he => ?_
        have := (beta_pos (Ma := m) (hsub he) hm).1
        rw [beta_spec] at this
        exact this
      have hL := (lindhard_continuous m Za Z).continuousOn (s := Set.Icc Ec Emax)
      refine continuousOn_const.div ((continuousOn_const.div hb fun e he => ?_).add
        ((continuousOn_const.div hL fun e he => ?_).mul continuousOn_const)) fun e he => ?_
      · exact (bethe_biersack_pos (hsub he) hm hA hZ).ne'
      · exact (lindhard_scharff_pos (hsub he) hm hA hZ).ne'
      · have h1 := bethe_biersack_pos (hsub he) hm hA hZ
        have h2 := lindhard_scharff_pos (hsub he) hm hA hZ
        positivity
    | LOW_ENERGY_NONLOCAL => exact low
    | LOW_ENERGY_EQUIPARTITION => exact low.div_const 2
    | LOW_ENERGY_LOCAL => exact absurd rfl hmode
  rcases lt_or_ge Emax Ec with h | h
  · exact ⟨1, one_pos, hEc, fun e h1 h2 => absurd (h1.trans h2) (not_le.2 h)⟩
  · obtain ⟨x, hx, hmin⟩ := isCompact_Icc.exists_isMinOn ⟨Ec, le_rfl, h⟩ hcont
    refine ⟨_, hpos x (hEc.trans_le hx.1), hEc, fun e h1 h2 => ?_⟩
    rw [hmd]
    exact hmin ⟨h1, h2⟩

theorem common_least {α : Type} (P : α → ℝ → Prop) (hP : ∀ a σ σ', σ' ≤ σ → P a σ → P a σ') (l : List α)
    (h : ∀ a ∈ l, ∃ σ, 0 < σ ∧ P a σ) : ∃ σ, 0 < σ ∧ ∀ a ∈ l, P a σ := by
  induction l with
  | nil => exact ⟨1, one_pos, by simp⟩
  | cons a l ih =>
    obtain ⟨σ, h1, h2⟩ := ih fun b hb => h b (List.mem_cons_of_mem _ hb)
    obtain ⟨σ', h3, h4⟩ := h a (by simp)
    refine ⟨min σ σ', lt_min h1 h3, fun b hb => ?_⟩
    rcases List.mem_cons.1 hb with rfl | hb
    · exact hP _ _ _ (min_le_right _ _) h4
    · exact hP _ _ _ (min_le_left _ _) (h2 b hb)

/-! ## Coulomb potentials -/

/-- A particle on its way through a uniform target, with Coulomb potentials. -/
structure Going (mat : Material ℝ) (o : Options ℝ) (ck : ℝ) (ns : List ℝ) (σ Emax : ℝ) (r : Particle ℝ) : Prop where
  sound : SoundParticle r
  slowed : SlowedUpTo o ck mat.Z ns σ Emax r.Z r.m r.Ec
  asym : r.asymptotic_deflection = 0
  stopped : r.stopped = false
  left : r.left = false
  inside : IsInside mat r
  tables : CoulombWithAll mat o r.interaction_index
  E : r.E ≤ Emax

section
variable (rcpr : Rcpr ℝ) {mat : Material ℝ} (o : Options ℝ) {n : ℕ} {ns : List ℝ} {ck s σ eb Emax : ℝ}

set_option maxHeartbeats 1000000 in
theorem going_pass (hr : ReadyTarget mat n) (hm : SoundTarget mat) (hu : SameEverywhere mat ns ck)
    (hn : 0 < ns.sum) (hs : IsSpacing ns.sum s) (hnest : BarrierEncloses mat.geometry) (hend : EndsWithMaterial mat)
    (hrec : o.track_recoils = false ∨ BoundBy mat eb) (heb0 : 0 < eb) (hC : AllCoulomb o) (hσ : 0 < σ)
    (hslow' : ∀ (i : ℕ) (Z m Ec : ℝ), mat.Z[i]? = some Z → mat.m[i]? = some m → mat.Ec[i]? = some Ec →
      SlowedUpTo o ck mat.Z ns σ Emax Z m Ec)
    (htab' : ∀ j ∈ mat.interaction_index, CoulombWithAll mat o j) (x : Particle ℝ) (t : Tape ℝ) (hx : Going mat o ck ns σ Emax x)
    (ht : OpenUnit t) :
    ∃ q new k, EndingPass rcpr mat o (3*(o.weak_collision_order + 1) + 2) (σ*s) eb (Going mat o ck ns σ Emax) x t q new k := by
  have hns : ∀ a ∈ ns, 0 ≤ a := hm.densities 0 0 0 ns (hu.densities 0 0 0)
  have hck : 0 ≤ ck := hm.ck 0 0 0 ck (hu.ck 0 0 0)
  have htot := coulomb_pass_total rcpr hr o x [] hx.tables t (open_unit01 ht)
  obtain ⟨⟨⟨q, new⟩, t'⟩, hrun⟩ : ∃ y, trajectory_step rcpr mat o x [] t = .ok y := by
    cases h : trajectory_step rcpr mat o x [] t with
    | error e => unfold Sat at htot; rw [h] at htot; exact htot.elim
    | ok y => exact ⟨y, rfl⟩
  obtain ⟨k, hk1, hk2, rfl, hfl⟩ := pass_draws rcpr mat o hn hs ht (hu.densities _ _ _) hrun
  have hP := sat_of_ok (pass_sound rcpr o hm hx.sound [] t) hrun
  have hPE := sat_of_ok (trajectory_step_sat rcpr mat o x [] t hx.stopped hx.left) hrun
  have hA := sat_of_ok (coulomb_pass hC x [] t) hrun
  simp only at hP hPE hA
  have hfw : Forwards mat o t x q := by
    intro p1 gs t1 g0 hdet hg0
    rw [hx.asym, hA.1]
    have := (hfl p1 gs t1 hdet g0 (List.mem_of_getElem? hg0)).1
    linarith
  have hnew : ∀ r ∈ new, Going mat o ck ns σ Emax r ∧ r.E + eb ≤ x.E := by
    intro r hr
    obtain ⟨new', h1, h2, h3⟩ := hPE.stack
    rw [List.nil_append] at h1
    subst h1
    rcases hrec with htr | heb
    · rw [h3 htr] at hr; cases hr
    have hfr := h2 r hr
    obtain ⟨i, hi⟩ := hfr.species
    have hcost := (sat_of_ok (pass_cost rcpr o hm heb heb0.le hx.sound [] t) hrun (Or.inr hfw) (Or.inr (hnest _ _ _ hx.inside))).2
    simp only [totalEnergy, List.map_nil, List.sum_nil, List.length_nil, Nat.cast_zero, mul_zero, zero_add] at hcost
    have hle : r.E ≤ (new.map (·.E)).sum := by
      refine List.single_le_sum (fun e he => ?_) _ (List.mem_map_of_mem hr)
      obtain ⟨r', hr', rfl⟩ := List.mem_map.mp he
      exact (hP.stack (by simp) r' hr').E
    have hlen : (1:ℝ) ≤ new.length := by exact_mod_cast List.length_pos_of_mem hr
    have hqE := hP.moving.E
    have hrE : r.E + eb ≤ x.E := by nlinarith
    refine ⟨⟨hP.stack (by simp) r hr, hslow' i _ _ _ hi.1 hi.2.1 hi.2.2.1, hA.2 (by simp) r hr, hfr.stopped, hfr.left, ?_,
      htab' _ (List.mem_of_getElem? hi.2.2.2.2.2), ?_⟩, hrE⟩
    · have := hfr.inside
      rw [← hfr.pos] at this
      exact this
    · have := hx.E
      linarith
  refine ⟨q, new, k, hrun, hk1, hk2, hnew, ?_⟩
  by_cases hd : q.stopped = true ∨ q.left = true
  · exact Or.inl hd
  right
  simp only [not_or, Bool.not_eq_true] at hd
  have hin' : IsInside mat q := hend _ _ _ (hPE.running hd.2)
  have hI := inside_pass rcpr o hu hm hnest hx.sound hrun hx.inside hin'
  obtain ⟨p1, gs, t1, g0, E1, hdet, hg0, hE0, hE1, hE, _⟩ := hI.loss
  have hEc := hI.running hx.stopped hx.left hd.1 hd.2
  obtain ⟨hmfp, hmin⟩ := hfl p1 gs t1 hdet g0 (List.mem_of_getElem? hg0)
  have hEc0 := hx.slowed.1
  rw [hx.asym, hA.1, add_zero, sub_zero] at hE
  have hE' : q.E ≤ E1 - pathStopping o.electronic_stopping_mode ck mat.Z ns x.Z x.m E1*g0.mfp := by
    rcases le_max_iff.1 hE with h | h
    · linarith
    · exact h
  have hS := pathStopping_nonneg o.electronic_stopping_mode (ck := ck) (Za := x.Z) (m := x.m) hck hm.Z hns hx.sound.Z hx.sound.m hE0
  have hSm := mul_nonneg hS hmfp
  have hE1c : x.Ec ≤ E1 := by linarith
  have hσ1 := hx.slowed.2 E1 hE1c (hE1.trans hx.E)
  refine ⟨⟨hI.sound, ?_, hA.1, hd.1, hd.2, hin', ?_, ?_⟩, hI.first_step, by linarith, fun hf hi => ?_⟩
  · rw [hI.Z, hI.m, hI.Ec]; exact hx.slowed
  · rw [hPE.same.interaction_index]; exact hx.tables
  · have := hx.E
    linarith
  · have h1 := hmin hf hi
    have h2 : σ*s ≤ pathStopping o.electronic_stopping_mode ck mat.Z ns x.Z x.m E1*g0.mfp := by
      have := hs.1
      gcongr
    linarith

/-- **C125.** In a target of uniform composition whose simulated volume ends with the material, with Coulomb potentials and
in every stopping mode but the local one, the run of every ion ends if the random numbers are, again and again, small
enough often enough in a row: in solids and gases, with and without free-flight paths. -/
theorem C125_ends {ion : Particle ℝ} (hr : ReadyTarget mat n) (hm : SoundTarget mat) (hu : SameEverywhere mat ns ck) (hck : 0 < ck)
    (hn : 0 < ns.sum) (hnest : BarrierEncloses mat.geometry) (hend : EndsWithMaterial mat)
    (hrec : o.track_recoils = false ∨ BoundBy mat eb) (heb0 : 0 < eb)
    (hmode : o.electronic_stopping_mode ≠ .LOW_ENERGY_LOCAL) (hC : AllCoulomb o) (hEc : 0 < ion.Ec) (hEc' : ∀ E ∈ mat.Ec, 0 < E)
    (htab : CoulombWithAll mat o ion.interaction_index) (htab' : ∀ j ∈ mat.interaction_index, CoulombWithAll mat o j)
    (hion : SoundParticle ion) (hin : IsInside mat ion) (hst : ion.stopped = false) (hlf : ion.left = false)
    (hasy : ion.asymptotic_deflection = 0) (tape : Tape ℝ) (ht : OpenUnit tape) (ha : SmallAgain tape) :
    ∃ fuel out tape', single_ion_bca rcpr fuel ion mat o tape = .ok (out, tape') := by
  have hns : ∀ a ∈ ns, 0 ≤ a := hm.densities 0 0 0 ns (hu.densities 0 0 0)
  have hs := spacing_exists _ hn
  have hmono : ∀ (Z m Ec σ σ' : ℝ), σ' ≤ σ → SlowedUpTo o ck mat.Z ns σ ion.E Z m Ec → SlowedUpTo o ck mat.Z ns σ' ion.E Z m Ec :=
    fun Z m Ec σ σ' h hs => ⟨hs.1, fun e h1 h2 => h.trans (hs.2 e h1 h2)⟩
  obtain ⟨σ1, h1, h2⟩ := least_stopping o hmode ion.E hck hu.length hm.Z hns hn hion.Z hion.m hEc
  obtain ⟨σ2, h3, h4⟩ := common_least (fun (a : ℝ × ℝ × ℝ) σ => SlowedUpTo o ck mat.Z ns σ ion.E a.1 a.2.1 a.2.2)
    (fun a σ σ' h => hmono _ _ _ σ σ' h) (mat.Z.zip (mat.m.zip mat.Ec)) fun a ha =>
      least_stopping o hmode ion.E hck hu.length hm.Z hns hn (hm.Z _ (List.of_mem_zip ha).1)
        (hm.m _ (List.of_mem_zip (List.of_mem_zip ha).2).1) (hEc' _ (List.of_mem_zip (List.of_mem_zip ha).2).2)
  have hσ := lt_min h1 h3
  have hslow' : ∀ (i : ℕ) (Z m Ec : ℝ), mat.Z[i]? = some Z → mat.m[i]? = some m → mat.Ec[i]? = some Ec →
      SlowedUpTo o ck mat.Z ns (min σ1 σ2) ion.E Z m Ec := by
    intro i Z m Ec e1 e2 e3
    refine hmono _ _ _ _ _ (min_le_right _ _) (h4 (Z, m, Ec) ?_)
    refine List.mem_of_getElem? (i := i) ?_
    rw [List.getElem?_zip_eq_some]
    refine ⟨e1, ?_⟩
    rw [List.getElem?_zip_eq_some]
    exact ⟨e2, e3⟩
  exact run_ends_again (W := 3*(o.weak_collision_order + 1) + 2) (Good := Going mat o ck ns (min σ1 σ2) ion.E)
    (fun x hx => ⟨hx.sound.E, hx.stopped, hx.left⟩)
    (fun x t hx ht => going_pass rcpr o hr hm hu hn hs hnest hend hrec heb0 hC hσ hslow' htab' x t hx ht) (mul_pos hσ hs.1) heb0
    ⟨hion, hmono _ _ _ _ _ (min_le_left _ _) h2, hasy, hst, hlf, hin, htab, le_rfl⟩ ht ha

/-- **C125, with probability one.** So the run ends with probability one. -/
theorem C125_almost_surely {ion : Particle ℝ} (hr : ReadyTarget mat n) (hm : SoundTarget mat) (hu : SameEverywhere mat ns ck)
    (hck : 0 < ck) (hn : 0 < ns.sum) (hnest : BarrierEncloses mat.geometry) (hend : EndsWithMaterial mat)
    (hrec : o.track_recoils = false ∨ BoundBy mat eb) (heb0 : 0 < eb)
    (hmode : o.electronic_stopping_mode ≠ .LOW_ENERGY_LOCAL) (hC : AllCoulomb o) (hEc : 0 < ion.Ec) (hEc' : ∀ E ∈ mat.Ec, 0 < E)
    (htab : CoulombWithAll mat o ion.interaction_index) (htab' : ∀ j ∈ mat.interaction_index, CoulombWithAll mat o j)
    (hion : SoundParticle ion) (hin : IsInside mat ion) (hst : ion.stopped = false) (hlf : ion.left = false)
    (hasy : ion.asymptotic_deflection = 0) :
    ∀ᵐ tape ∂randomTape, ∃ fuel out tape', single_ion_bca rcpr fuel ion mat o tape = .ok (out, tape') := by
  filter_upwards [C96_random_numbers, small_again] with tape ht ha
  exact C125_ends rcpr o hr hm hu hck hn hnest hend hrec heb0 hmode hC hEc hEc' htab htab' hion hin hst hlf hasy tape ht ha

end

end RustBCA
