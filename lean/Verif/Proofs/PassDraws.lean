import Verif.Props.NoPanic
import Verif.Props.BulkScreened
import Verif.Proofs.SmallAgain

/-!
# How many random numbers a pass uses, and how far the particle flies if they are small
-/

set_option linter.unusedSimpArgs false
set_option linter.unusedVariables false

namespace RustBCA
open Scalar Spec

theorem after_after {F : Type} (k j : ℕ) (t : Tape F) : after j (after k t) = after (k + j) t := by
  funext i; simp [after, Nat.add_assoc]

theorem open_after {t : Tape ℝ} (h : OpenUnit t) (k : ℕ) : OpenUnit (after k t) := fun i => h _

theorem open_unit01 {t : Tape ℝ} (h : OpenUnit t) : Unit01 t := fun i => ⟨(h i).1.le, (h i).2⟩

theorem again_after {t : Tape ℝ} (h : SmallAgain t) (k : ℕ) : SmallAgain (after k t) := by
  intro w l
  obtain ⟨j, hj, hs⟩ := h w (k + l)
  refine ⟨j - k, by omega, fun i hi => ?_⟩
  have := hs i hi
  unfold after
  rw [show k + (j - k + i) = j + i by omega]
  exact this

/-- What the free flight is: `t1` is what `t` is after `k` numbers, and the flight is at least `s` if they were small. -/
def Flight (t : Tape ℝ) (s : ℝ) (first : Bool) (k : ℕ) (l : ℝ) : Prop :=
  0 ≤ l ∧ (first = false → (∀ i < k, t i ≤ Real.exp (-1)) → s ≤ l)

theorem exponential_draws (t : Tape ℝ) (ht : OpenUnit t) (k : ℕ) :
    Sat (exponential : M ℝ ℝ) (after k t) (fun e t1 => t1 = after (k + 1) t ∧ 0 ≤ e ∧
      ((∀ i < k + 1, t i ≤ Real.exp (-1)) → 1 ≤ e)) (fun _ => True) := by
  unfold exponential
  simp only [sat_bind, sat_random, sat_pure]
  obtain ⟨h0, h1⟩ := ht k
  have e : (after k t) 0 = t k := by simp [after]
  rw [e, ln_real]
  refine ⟨?_, ?_, fun h => ?_⟩
  · funext i; simp [after]; congr 1; omega
  · have := Real.log_nonpos h0.le h1.le
    linarith
  · have := Real.log_le_log h0 (h k (Nat.lt_succ_self k))
    rw [Real.log_exp] at this
    linarith

theorem flight_gas {t : Tape ℝ} (ht : OpenUnit t) (o : Options ℝ) {s : ℝ} {fs : Bool} {k : ℕ} {l : ℝ} (hs : 0 ≤ s)
    (hl : Flight t s fs k l) :
    Sat (if o.mean_free_path_model.isGaseous then do
          let e ← exponential
          pure (l*e)
        else pure l : M ℝ ℝ) (after k t) (fun e t1 => ∃ k', k ≤ k' ∧ k' ≤ k + 1 ∧ t1 = after k' t ∧ Flight t s fs k' e)
      (fun _ => True) := by
  obtain ⟨h0, h1⟩ := hl
  split
  · simp only [sat_bind, sat_pure]
    refine sat_mono (exponential_draws t ht k) (fun e t1 he => ?_) (fun _ _ => trivial)
    obtain ⟨e1, e2, e3⟩ := he
    refine ⟨k + 1, by omega, le_refl _, e1, mul_nonneg h0 e2, fun hf hi => ?_⟩
    have a := h1 hf (fun i hk => hi i (by omega))
    have b := e3 hi
    nlinarith
  · exact ⟨k, le_refl _, by omega, rfl, h0, h1⟩

theorem flight_first {t : Tape ℝ} (ht : OpenUnit t) (p : Particle ℝ) {s m l : ℝ} {k : ℕ} (hm : 0 ≤ m) (hl : 0 ≤ l) (hsl : s ≤ l) :
    Sat (if p.first_step then do
          let r ← random
          pure ({ p with first_step := false }, m*r)
        else pure (p, l) : M ℝ (Particle ℝ × ℝ)) (after k t) (fun r t1 => ∃ k', k ≤ k' ∧ k' ≤ k + 1 ∧ t1 = after k' t ∧
          Flight t s p.first_step k' r.2) (fun _ => True) := by
  by_cases hf : p.first_step = true
  · rw [if_pos hf]
    simp only [sat_bind, sat_random, sat_pure]
    refine ⟨k + 1, by omega, le_refl _, by funext i; simp [after]; congr 1; omega, ?_, fun h => ?_⟩
    · have := (ht k).1
      simp only [after, Nat.add_zero]
      positivity
    · rw [hf] at h; cases h
  · rw [if_neg hf]
    exact ⟨k, le_refl _, by omega, rfl, hl, fun _ _ => hsl⟩

/-- The free flight of a pass. -/
theorem flight_draws (p : Particle ℝ) (mat : Material ℝ) (o : Options ℝ) (t : Tape ℝ) (ht : OpenUnit t) {ns : List ℝ} {s : ℝ}
    (hd : mat.geometry.get_densities p.pos.x p.pos.y p.pos.z = .ok ns) (hn : 0 < ns.sum) (hs : IsSpacing ns.sum s) :
    Sat (determine_mfp_phi_impact_parameter p mat o) t (fun r t1 => ∃ k, 1 ≤ k ∧ k ≤ 2*(o.weak_collision_order + 1) + 2 ∧
      t1 = after k t ∧ ∀ g ∈ r.2, Flight t s p.first_step k g.mfp) (fun _ => True) := by
  have hs0 := hs.1
  obtain ⟨n, hnd⟩ : ∃ n, n = o.weak_collision_order + 1 := ⟨_, rfl⟩
  have hphi : (draw_phis n : M ℝ (List ℝ)) t
      = .ok ((List.range n).map (fun k => 2.0*pi*t k), fun k => t (n + k)) :=
    collect_random (fun _ r => 2.0*pi*r) n t
  unfold determine_mfp_phi_impact_parameter
  rw [sat_bind, sat_lift, mfp_eq mat _ _ _ s ns hd hn hs, rsat_ok, sat_bind, ← hnd]
  rw [sat_iff]
  rw [hphi]
  refine ⟨fun phis t1 hphi' => ?_, fun e he => by cases he⟩
  have hp := Prod.mk.inj (Except.ok.inj hphi')
  obtain rfl : after n t = t1 := hp.2
  by_cases hff : o.high_energy_free_flight_paths = true
  · rw [if_pos hff, sat_bind, sat_lift]
    refine rsat_mono (rsat_trivial _) (fun lim _ => ?_) (fun _ _ => trivial)
    obtain ⟨pmax, ffp⟩ := lim
    simp only
    have hrand : ∀ {α : Type} (f : ℝ → M ℝ α) (Q : α → Tape ℝ → Prop),
        (∀ r, Sat (f r) (after (n + 1) t) Q (fun _ => True)) → Sat (random >>= f) (after n t) Q (fun _ => True) := by
      intro α f Q h
      rw [sat_bind, sat_random]
      have e : (fun i => after n t (i + 1)) = after (n + 1) t := by
        funext i; simp [after]; congr 1; omega
      rw [e]
      exact h _
    by_cases hc : (ffp <. s) = true
    · rw [if_pos hc]
      refine hrand _ _ fun r0 => ?_
      rw [sat_bind]
      refine sat_mono (flight_first (s := s) (m := s) (l := s) (k := n + 1) ht p hs0.le hs0.le le_rfl) (fun pf t2 hpf => ?_)
        (fun _ _ => trivial)
      obtain ⟨k1, a1, a2, rfl, hfl⟩ := hpf
      obtain ⟨q, l⟩ := pf
      dsimp only at hfl
      have hexp' : Sat (exponential : M ℝ ℝ) (after k1 t) (fun e t3 => ∃ k', k1 ≤ k' ∧ k' ≤ k1 + 1 ∧
          t3 = after k' t ∧ Flight t s p.first_step k' (l*e)) (fun _ => True) := by
        refine sat_mono (exponential_draws t ht k1) (fun e t1 he => ?_) (fun _ _ => trivial)
        obtain ⟨e1, e2, e3⟩ := he
        refine ⟨k1 + 1, by omega, le_refl _, e1, mul_nonneg hfl.1 e2, fun hf hi => ?_⟩
        have a := hfl.2 hf (fun i hk => hi i (by omega))
        have b := e3 hi
        have := hfl.1
        nlinarith
      have hone : Sat (pure 1.0 : M ℝ ℝ) (after k1 t) (fun e t3 => ∃ k', k1 ≤ k' ∧ k' ≤ k1 + 1 ∧
          t3 = after k' t ∧ Flight t s p.first_step k' (l*e)) (fun _ => True) := by
        refine ⟨k1, le_rfl, by omega, rfl, ?_⟩
        rw [show (1.0:ℝ) = 1 by norm_num, mul_one]
        exact hfl
      rw [sat_bind]
      refine sat_mono (R := fun e t3 => ∃ k', k1 ≤ k' ∧ k' ≤ k1 + 1 ∧ t3 = after k' t ∧ Flight t s p.first_step k' (l*e))
        (E := fun _ => True) ?_ (fun e t3 he => ?_) (fun _ _ => trivial)
      · cases o.mean_free_path_model with
        | GASEOUS => exact hexp'
        | LIQUID => exact hone
        | THRESHOLD d =>
          simp only [sat_bind, sat_lift]
          refine rsat_mono (rsat_trivial _) (fun ds _ => ?_) (fun _ _ => trivial)
          split
          · exact hexp'
          · exact hone
      obtain ⟨k2, b1, b2, rfl, hfl2⟩ := he
      rw [sat_bind, sat_lift]
      refine rsat_mono (rsat_trivial _) (fun ph _ => ?_) (fun _ _ => trivial)
      rw [sat_pure]
      refine ⟨k2, by omega, by omega, rfl, fun g hg => ?_⟩
      rw [List.mem_singleton.1 hg]
      exact hfl2
    · rw [if_neg hc]
      have hge : s ≤ ffp := by
        rw [Bool.not_eq_true, lt_real_false] at hc
        exact hc
      refine hrand _ _ fun r0 => ?_
      rw [sat_bind]
      refine sat_mono (flight_first (s := s) (m := s) (l := ffp) (k := n + 1) ht p hs0.le (hs0.le.trans hge) hge) (fun pf t2 hpf => ?_)
        (fun _ _ => trivial)
      obtain ⟨k1, a1, a2, rfl, hfl⟩ := hpf
      obtain ⟨q, l⟩ := pf
      simp only at hfl ⊢
      rw [sat_bind]
      refine sat_mono (flight_gas ht o hs0.le hfl) (fun e t3 he => ?_) (fun _ _ => trivial)
      obtain ⟨k2, b1, b2, rfl, hfl2⟩ := he
      rw [sat_bind, sat_lift]
      refine rsat_mono (rsat_trivial _) (fun ph _ => ?_) (fun _ _ => trivial)
      rw [sat_pure]
      refine ⟨k2, by omega, by omega, rfl, fun g hg => ?_⟩
      rw [List.mem_singleton.1 hg]
      exact hfl2
  · rw [if_neg hff, sat_bind]
    have himp := collect_random (fun k r => s/SQRTPI ℝ*sqrt (r + (ofNat k : ℝ))) n (after n t)
    rw [sat_iff, himp]
    refine ⟨fun ips t1 h => ?_, fun e he => by cases he⟩
    obtain rfl : after (n + n) t = t1 := by
      rw [← (Prod.mk.inj (Except.ok.inj h)).2]
      funext i; simp [after, Nat.add_assoc]
    rw [sat_bind]
    refine sat_mono (flight_first (s := s) (m := s) (l := s) (k := n + n) ht p hs0.le hs0.le le_rfl) (fun pf t2 hpf => ?_)
      (fun _ _ => trivial)
    obtain ⟨k1, a1, a2, rfl, hfl⟩ := hpf
    obtain ⟨q, l⟩ := pf
    simp only at hfl ⊢
    rw [sat_bind]
    refine sat_mono (flight_gas ht o hs0.le hfl) (fun e t3 he => ?_) (fun _ _ => trivial)
    obtain ⟨k2, b1, b2, rfl, hfl2⟩ := he
    rw [sat_pure]
    refine ⟨k2, by omega, by omega, rfl, fun g hg => ?_⟩
    obtain ⟨⟨a, b⟩, _, rfl⟩ := List.mem_map.mp hg
    exact hfl2

/-- A collision uses one random number. -/
theorem collision_draws (rcpr : Rcpr ℝ) (mat : Material ℝ) (o : Options ℝ) (s : StepState ℝ)
    (gk : BinaryCollisionGeometry ℝ × Nat) (t : Tape ℝ) :
    Sat (collision_step rcpr mat o s gk) t (fun _ t' => t' = after 1 t) (fun _ => True) := by
  obtain ⟨g, k⟩ := gk
  have hnext : (fun n => t (n + 1)) = after 1 t := by funext i; simp [after, Nat.add_comm]
  have hl : ∀ {α : Type} (r : Res α), Sat (liftM r : M ℝ α) (after 1 t) (fun _ t' => t' = after 1 t) (fun _ => True) := by
    intro α r
    rw [sat_lift]
    exact rsat_mono (rsat_trivial _) (fun _ _ => rfl) (fun _ _ => trivial)
  have hp : Sat (choose_collision_partner s.particle_1 mat g o) t (fun _ t' => t' = after 1 t) (fun _ => True) := by
    unfold choose_collision_partner Material.choose
    simp only [sat_bind, sat_random, hnext, sat_pure]
    rw [sat_lift]
    refine rsat_mono (rsat_trivial _) (fun cs _ => ?_) (fun _ _ => trivial)
    split
    · exact hl _
    · exact hl _
  unfold collision_step
  rw [sat_bind]
  refine sat_mono hp (fun sq t1 h => ?_) (fun _ _ => trivial)
  subst h
  rw [sat_bind, sat_lift]
  refine rsat_mono (rsat_trivial _) (fun i _ => ?_) (fun _ _ => trivial)
  rw [sat_bind, sat_lift]
  refine rsat_mono (rsat_trivial _) (fun b _ => ?_) (fun _ _ => trivial)
  split
  · rw [sat_bind, sat_lift]
    refine rsat_mono (rsat_trivial _) (fun r _ => ?_) (fun _ _ => trivial)
    rw [sat_bind, sat_lift]
    refine rsat_mono (rsat_trivial _) (fun r _ => ?_) (fun _ _ => trivial)
    exact hl _
  · exact rfl

theorem collisions_draw (rcpr : Rcpr ℝ) (mat : Material ℝ) (o : Options ℝ) (l : List (BinaryCollisionGeometry ℝ × Nat))
    (s : StepState ℝ) (t : Tape ℝ) :
    Sat (forFold (collision_step rcpr mat o) l s) t (fun _ t' => t' = after l.length t) (fun _ => True) := by
  induction l generalizing s t with
  | nil => show t = _; funext i; simp [after]
  | cons a l ih =>
    show Sat (collision_step rcpr mat o s a >>= forFold (collision_step rcpr mat o) l) t _ _
    rw [sat_bind]
    refine sat_mono (collision_draws rcpr mat o s a t) (fun x t1 h => ?_) (fun _ _ => trivial)
    subst h
    refine sat_mono (ih x _) (fun y t2 h => ?_) (fun _ _ => trivial)
    rw [h, after_after, List.length_cons, Nat.add_comm]

/-- The random numbers of a pass: at least one, at most `3 (w + 1) + 2`; if they are all small the flight is at least
`s`. -/
theorem pass_draws (rcpr : Rcpr ℝ) (mat : Material ℝ) (o : Options ℝ) {ns : List ℝ} {s : ℝ} (hn : 0 < ns.sum)
    (hs : IsSpacing ns.sum s) {p q : Particle ℝ} {ps qs : List (Particle ℝ)} {t t' : Tape ℝ} (ht : OpenUnit t)
    (hd : mat.geometry.get_densities p.pos.x p.pos.y p.pos.z = .ok ns)
    (run : trajectory_step rcpr mat o p ps t = .ok ((q, qs), t')) :
    ∃ k, 1 ≤ k ∧ k ≤ 3*(o.weak_collision_order + 1) + 2 ∧ t' = after k t ∧
      ∀ p1 gs t1, determine_mfp_phi_impact_parameter p mat o t = .ok ((p1, gs), t1) → ∀ g ∈ gs, Flight t s p.first_step k g.mfp := by
  have key : Sat (trajectory_step rcpr mat o p ps) t (fun _ t' => ∃ k, 1 ≤ k ∧ k ≤ 3*(o.weak_collision_order + 1) + 2 ∧
      t' = after k t ∧ ∀ p1 gs t1, determine_mfp_phi_impact_parameter p mat o t = .ok ((p1, gs), t1) →
        ∀ g ∈ gs, Flight t s p.first_step k g.mfp) (fun _ => True) := by
    unfold trajectory_step
    rw [sat_bind]
    refine sat_mono (sat_and (flight_draws p mat o t ht hd hn hs) (sat_mono (sat_eq _ _) (fun _ _ h => h) (fun _ _ => trivial)))
      (fun r t1 hr => ?_) (fun _ _ => trivial)
    obtain ⟨⟨k, k1, k2, rfl, hk⟩, hrun⟩ := hr
    obtain ⟨p1, gs⟩ := r
    simp only
    rw [sat_bind]
    refine sat_mono (collisions_draw rcpr mat o _ _ _) (fun s' t2 h => ?_) (fun _ _ => trivial)
    rw [after_after] at h
    subst h
    rw [sat_lift]
    refine rsat_mono (rsat_trivial _) (fun z _ => ?_) (fun _ _ => trivial)
    have hlen : (gs.zipIdx.take (o.weak_collision_order + 1)).length ≤ o.weak_collision_order + 1 := List.length_take_le _ _
    refine ⟨_, by omega, by omega, rfl, fun p1' gs' t1' h' g hg => ?_⟩
    rw [hrun] at h'
    obtain ⟨⟨rfl, rfl⟩, rfl⟩ : (p1 = p1' ∧ gs = gs') ∧ _ := by
      have := Except.ok.inj h'
      exact ⟨Prod.mk.inj (Prod.mk.inj this).1, (Prod.mk.inj this).2⟩
    obtain ⟨a, b⟩ := hk g hg
    exact ⟨a, fun hf hi => b hf fun i hik => hi i (by omega)⟩
  exact sat_of_ok key run

end RustBCA
