import Verif.Props.AlmostSurely
import Verif.Props.BulkScreened
import Verif.Props.Lib

/-!
# C125: with probability one a run ends, screened potentials
-/

set_option linter.unusedSimpArgs false
set_option linter.unusedVariables false
set_option linter.unusedSectionVars false

namespace RustBCA
open Scalar Spec

/-! ## The argument, for a quantity other than the energy -/

section
variable {W : ℕ} {δ : ℝ} {Good : Particle ℝ → Prop} {Φ : Particle ℝ → ℝ} {End : Particle ℝ → Tape ℝ → Prop}

/-- A pass of a good particle: it ends here, or the quantity `Φ` does not grow, and drops by `δ` if the numbers used are small. -/
structure FallingPass (W : ℕ) (δ : ℝ) (Good : Particle ℝ → Prop) (Φ : Particle ℝ → ℝ) (End : Particle ℝ → Tape ℝ → Prop)
    (x : Particle ℝ) (t : Tape ℝ) (q : Particle ℝ) (k : ℕ) : Prop where
  pos : 1 ≤ k
  le : k ≤ W
  good : Good q
  first : q.first_step = false
  falls : Φ q ≤ Φ x
  drops : x.first_step = false → (∀ i < k, t i ≤ Real.exp (-1)) → Φ q ≤ Φ x - δ
  ends : End q (after k t) → End x t

variable (hlive : ∀ x, Good x → 0 ≤ Φ x)
  (hpass : ∀ x t, Good x → OpenUnit t → End x t ∨ ∃ q k, FallingPass W δ Good Φ End x t q k)
include hlive hpass

theorem falls_now {E : ℝ} {x : Particle ℝ} {t : Tape ℝ} (hx : Good x) (hfs : x.first_step = false) (hxE : Φ x ≤ E)
    (ht : OpenUnit t) (ha : SmallAgain t) (hs : ∀ i < W, t i ≤ Real.exp (-1))
    (hnext : ∀ y t', Good y → y.first_step = false → Φ y ≤ E - δ → OpenUnit t' → SmallAgain t' → End y t') : End x t := by
  rcases hpass x t hx ht with h | ⟨q, k, h⟩
  · exact h
  · have h5 := h.drops hfs fun i hi => hs i (by have := h.le; omega)
    exact h.ends (hnext q _ h.good h.first (by linarith) (open_after ht _) (again_after ha _))

theorem falls_later {E : ℝ}
    (hnext : ∀ y t', Good y → y.first_step = false → Φ y ≤ E - δ → OpenUnit t' → SmallAgain t' → End y t') :
    ∀ (m : ℕ) (x : Particle ℝ) (t : Tape ℝ), Good x → x.first_step = false → Φ x ≤ E → OpenUnit t → SmallAgain t →
      (∀ i < 2*W, t (m + i) ≤ Real.exp (-1)) → End x t := by
  intro m
  induction m using Nat.strong_induction_on with
  | _ m ih =>
  intro x t hx hfs hxE ht ha hs
  by_cases hm : m = 0
  · subst hm
    exact falls_now hlive hpass hx hfs hxE ht ha (fun i hi => by simpa using hs i (by omega)) hnext
  rcases hpass x t hx ht with h | ⟨q, k, h⟩
  · exact h
  have hk1 := h.pos
  have hk2 := h.le
  refine h.ends ?_
  by_cases hkm : k ≤ m
  · refine ih (m - k) (by omega) q _ h.good h.first (h.falls.trans hxE) (open_after ht _) (again_after ha _) fun i hi => ?_
    have := hs i hi
    unfold after
    rw [show k + (m - k + i) = m + i by omega]
    exact this
  · refine falls_now hlive hpass h.good h.first (h.falls.trans hxE) (open_after ht _) (again_after ha _) (fun i hi => ?_) hnext
    have := hs (k - m + i) (by omega)
    unfold after
    rw [show m + (k - m + i) = k + i by omega] at this
    exact this

/-- It ends. -/
theorem falling_ends (hδ : 0 < δ) {x : Particle ℝ} {t : Tape ℝ} (hx : Good x) (ht : OpenUnit t) (ha : SmallAgain t) : End x t := by
  have key : ∀ (N : ℕ) (x : Particle ℝ) (t : Tape ℝ), Good x → x.first_step = false → Φ x < N*δ → OpenUnit t → SmallAgain t →
      End x t := by
    intro N
    induction N with
    | zero =>
      intro x t hx _ hE
      have := hlive x hx
      simp only [Nat.cast_zero, zero_mul] at hE
      linarith
    | succ N ih =>
      intro x t hx hfs hE ht ha
      obtain ⟨m, _, hm⟩ := ha (2*W) 0
      refine falls_later hlive hpass (E := Φ x) ?_ m x t hx hfs le_rfl ht ha hm
      intro y t' hy hyf hyE ht' ha'
      refine ih y t' hy hyf ?_ ht' ha'
      push_cast at hE
      nlinarith
  rcases hpass x t hx ht with h | ⟨q, k, h⟩
  · exact h
  obtain ⟨N, hN⟩ := exists_nat_gt (Φ q/δ)
  rw [div_lt_iff₀ hδ] at hN
  exact h.ends (key N q _ h.good h.first hN (open_after ht _) (again_after ha _))

end

/-! ## A trajectory alone -/

/-- Followed with enough fuel, the trajectory comes to an end, perhaps to a panic. -/
def Halts (rcpr : Rcpr ℝ) (mat : Material ℝ) (o : Options ℝ) (x : Particle ℝ) (t : Tape ℝ) : Prop :=
  ∃ N, ∀ n, N ≤ n → ∀ i, whileFuel TrajState.running (traj_body rcpr mat o) n ⟨x, [], i⟩ t ≠ .error .fuel

section
variable {rcpr : Rcpr ℝ} {mat : Material ℝ} {o : Options ℝ}

theorem halts_done {x : Particle ℝ} (t : Tape ℝ) (h : x.stopped = true ∨ x.left = true) : Halts rcpr mat o x t := by
  refine ⟨1, fun n hn i => ?_⟩
  obtain ⟨n, rfl⟩ : ∃ m, n = m + 1 := ⟨n - 1, by omega⟩
  have hr : TrajState.running (⟨x, [], i⟩ : TrajState ℝ) = false := by
    unfold TrajState.running
    rcases h with h | h <;> simp [h]
  unfold whileFuel
  rw [hr]
  exact fun h => nomatch h

theorem traj_running {x : Particle ℝ} (h1 : x.stopped = false) (h2 : x.left = false) (ps : List (Particle ℝ)) (i : ℕ) :
    TrajState.running (⟨x, ps, i⟩ : TrajState ℝ) = true := by
  unfold TrajState.running; simp [h1, h2]

theorem halts_panic {x : Particle ℝ} {t : Tape ℝ} (h1 : x.stopped = false) (h2 : x.left = false) {e : Err}
    (h : trajectory_step rcpr mat o x [] t = .error e) (he : e ≠ .fuel) : Halts rcpr mat o x t := by
  refine ⟨1, fun n hn i => ?_⟩
  obtain ⟨n, rfl⟩ : ∃ m, n = m + 1 := ⟨n - 1, by omega⟩
  unfold whileFuel
  rw [traj_running h1 h2, if_pos rfl]
  have hb : traj_body rcpr mat o ⟨x, [], i⟩ t = .error e := by
    show (trajectory_step rcpr mat o x [] t >>= fun y => _) = _
    rw [h]; rfl
  intro hc
  have : (traj_body rcpr mat o ⟨x, [], i⟩ >>= whileFuel TrajState.running (traj_body rcpr mat o) n) t = .error e := by
    show (traj_body rcpr mat o ⟨x, [], i⟩ t >>= fun y => _) = _
    rw [hb]; rfl
  rw [this] at hc
  exact he (Except.error.inj hc)

theorem halts_step {x q : Particle ℝ} {t t' : Tape ℝ} (h1 : x.stopped = false) (h2 : x.left = false)
    (h : trajectory_step rcpr mat o x [] t = .ok ((q, []), t')) (hq : Halts rcpr mat o q t') : Halts rcpr mat o x t := by
  obtain ⟨N, hN⟩ := hq
  refine ⟨N + 1, fun n hn i => ?_⟩
  obtain ⟨n, rfl⟩ : ∃ m, n = m + 1 := ⟨n - 1, by omega⟩
  unfold whileFuel
  rw [traj_running h1 h2, if_pos rfl]
  have hb : traj_body rcpr mat o ⟨x, [], i⟩ t = .ok (⟨q, [], 0⟩, t') := by
    show (trajectory_step rcpr mat o x [] t >>= fun y => _) = _
    rw [h]; rfl
  have : (traj_body rcpr mat o ⟨x, [], i⟩ >>= whileFuel TrajState.running (traj_body rcpr mat o) n) t =
      whileFuel TrajState.running (traj_body rcpr mat o) n ⟨q, [], 0⟩ t' := by
    show (traj_body rcpr mat o ⟨x, [], i⟩ t >>= fun y => _) = _
    rw [hb]; rfl
  rw [this]
  exact hN n (by omega) 0

/-- If recoils are not followed, the end of the ion is the end of the run. -/
theorem run_of_halts (htr : o.track_recoils = false) {ion : Particle ℝ} {t : Tape ℝ} (h1 : ion.stopped = false)
    (h2 : ion.left = false) (h : Halts rcpr mat o ion t) : ∃ fuel, single_ion_bca rcpr fuel ion mat o t ≠ .error .fuel := by
  obtain ⟨N, hN⟩ := h
  refine ⟨N + 2, fun hc => ?_⟩
  have hL := hN (N + 2) (by omega) 1
  obtain ⟨fuel, hf⟩ : ∃ f, f = N + 2 := ⟨_, rfl⟩
  have hbody : ∀ r, whileFuel TrajState.running (traj_body rcpr mat o) fuel ⟨ion, [], 1⟩ t = r →
      cascade_body rcpr mat o fuel ⟨[ion], [], 1⟩ t =
        r >>= fun y => .ok (⟨y.1.particles, [y.1.particle_1], y.1.particle_index⟩, y.2) := by
    rintro r rfl
    rfl
  rw [← hf] at hL hc
  have hrun : single_ion_bca rcpr fuel ion mat o t = (cascade_body rcpr mat o fuel ⟨[ion], [], 1⟩ t >>= fun y =>
      whileFuel (fun s : CascadeState ℝ => decide (0 < s.particle_index)) (cascade_body rcpr mat o fuel) (fuel - 1) y.1 y.2) >>=
      fun z => .ok (z.1.particle_output, z.2) := by
    have : fuel = (fuel - 1) + 1 := by omega
    unfold single_ion_bca
    rw [show (whileFuel (fun s : CascadeState ℝ => decide (0 < s.particle_index)) (cascade_body rcpr mat o fuel) (fuel - 1)) =
      (whileFuel (fun s : CascadeState ℝ => decide (0 < s.particle_index)) (cascade_body rcpr mat o fuel) (fuel - 1)) from rfl]
    have h2 : (whileFuel (fun s : CascadeState ℝ => decide (0 < s.particle_index)) (cascade_body rcpr mat o fuel) fuel
        ⟨[ion], [], 1⟩ : M ℝ _) t = cascade_body rcpr mat o fuel ⟨[ion], [], 1⟩ t >>= fun y =>
        whileFuel (fun s : CascadeState ℝ => decide (0 < s.particle_index)) (cascade_body rcpr mat o fuel) (fuel - 1) y.1 y.2 := by
      obtain ⟨g, hg⟩ : ∃ g, g = cascade_body rcpr mat o fuel := ⟨_, rfl⟩
      rw [← hg, this]
      rfl
    rw [← h2]
    rfl
  cases hl : whileFuel TrajState.running (traj_body rcpr mat o) fuel ⟨ion, [], 1⟩ t with
  | error e =>
    rw [hrun, hbody _ hl] at hc
    rw [hl] at hL
    have : (Except.error e : Except Err (List (Particle ℝ) × Tape ℝ)) = .error .fuel := hc
    exact hL (by rw [Except.error.inj this])
  | ok y =>
    obtain ⟨s, t'⟩ := y
    have hinv : s.particles = [] ∧ s.particle_index = 0 := by
      have key : ∀ (n : ℕ) (s0 : TrajState ℝ) (t0 : Tape ℝ), s0.particles = [] → (s0.particle_index = 0 ∨ s0.running = true) →
          ∀ s t', whileFuel TrajState.running (traj_body rcpr mat o) n s0 t0 = .ok (s, t') → s.particles = [] ∧ s.particle_index = 0 := by
        intro n
        induction n with
        | zero => intro s0 t0 _ _ s t' h; cases h
        | succ n ih =>
          intro s0 t0 hp hi s t' h
          unfold whileFuel at h
          by_cases hr : s0.running = true
          · rw [hr, if_pos rfl] at h
            obtain ⟨s1, t1, e1, e2⟩ := m_bind_ok.1 h
            unfold traj_body at e1
            obtain ⟨⟨q, qs⟩, t2, e3, e4⟩ := m_bind_ok.1 e1
            obtain ⟨rfl, rfl⟩ := m_pure_ok.1 e4
            have hrun' : s0.particle_1.stopped = false ∧ s0.particle_1.left = false := by
              unfold TrajState.running at hr; simpa using hr
            have hPE := sat_of_ok (trajectory_step_sat rcpr mat o s0.particle_1 s0.particles t0 hrun'.1 hrun'.2) e3
            obtain ⟨new, a1, a2, a3⟩ := hPE.stack
            have hqs : qs = [] := by
              simp only at a1
              rw [a1, hp, a3 htr]; rfl
            subst hqs
            exact ih _ _ rfl (Or.inl rfl) s t' e2
          · rw [Bool.not_eq_true] at hr
            rw [hr, if_neg (by simp)] at h
            obtain ⟨rfl, rfl⟩ := m_pure_ok.1 h
            rcases hi with hi | hi
            · exact ⟨hp, hi⟩
            · rw [hr] at hi; cases hi
      exact key _ _ _ rfl (Or.inr (traj_running h1 h2 _ _)) _ _ hl
    rw [hrun, hbody _ hl] at hc
    have e2 : whileFuel (fun s : CascadeState ℝ => decide (0 < s.particle_index)) (cascade_body rcpr mat o fuel) (fuel - 1)
        ⟨s.particles, [s.particle_1], s.particle_index⟩ t' = .ok (⟨s.particles, [s.particle_1], s.particle_index⟩, t') := by
      obtain ⟨m, hm⟩ : ∃ m, fuel - 1 = m + 1 := ⟨fuel - 2, by omega⟩
      rw [hm]
      unfold whileFuel
      simp only [hinv.2]
      rfl
    have : (whileFuel (fun s : CascadeState ℝ => decide (0 < s.particle_index)) (cascade_body rcpr mat o fuel) (fuel - 1)
        ⟨s.particles, [s.particle_1], s.particle_index⟩ t' >>= fun z => Except.ok (z.1.particle_output, z.2)) = .error .fuel := hc
    rw [e2] at this
    cases this

end

/-! ## Screened potentials -/

/-- The square root of the energy falls along the path, and grows by no more along a path backwards. -/
theorem sqrt_falls {e E k L : ℝ} (he : 0 < e) (hE : 0 ≤ E) (hk : 0 < k) (h : e ≤ E - k*Real.sqrt E*L) :
    2*Real.sqrt e/k ≤ 2*Real.sqrt E/k - L := by
  have hr := Real.sqrt_nonneg E
  have hrr := Real.mul_self_sqrt hE
  generalize Real.sqrt E = r at *
  have h1 : Real.sqrt e ≤ r - k*L/2 := by
    rw [Real.sqrt_le_iff]
    constructor
    · rcases le_or_gt L 0 with hL | hL
      · nlinarith
      · have h2 : 0 < r*(r - k*L) := by nlinarith
        have h3 : 0 < r - k*L := by
          by_contra hc
          push Not at hc
          nlinarith
        nlinarith
    · nlinarith [sq_nonneg (k*L)]
  rw [div_le_iff₀ hk, sub_mul, div_mul_cancel₀ _ hk.ne']
  linarith

/-- There is a bound for the distances of closest approach. -/
theorem closest_exists_screened (mat : Material ℝ) (Z m Ec : ℝ) : ∃ K, 0 ≤ K ∧ ClosestBelow mat K Z m Ec := by
  unfold ClosestBelow
  have h : ∀ l l' : List ℝ, ∃ K, 0 ≤ K ∧ ∀ Zb ∈ l, ∀ Mb ∈ l', 2*coulombConstant Z Zb/(Ec*Mb/(m + Mb)) ≤ K := by
    intro l l'
    refine ⟨((l.product l').map fun x => |2*coulombConstant Z x.1/(Ec*x.2/(m + x.2))|).sum, ?_, fun Zb hZ Mb hM => ?_⟩
    · exact List.sum_nonneg fun x hx => by
        obtain ⟨y, _, rfl⟩ := List.mem_map.1 hx
        exact abs_nonneg _
    · refine (le_abs_self _).trans ?_
      refine List.single_le_sum (fun x hx => ?_) _ (List.mem_map.2 ⟨(Zb, Mb), List.mem_product.2 ⟨hZ, hM⟩, rfl⟩)
      obtain ⟨y, _, rfl⟩ := List.mem_map.1 hx
      exact abs_nonneg _
  exact h _ _

/-- A particle on its way through a uniform target, with screened potentials. -/
structure GoingScreened (mat : Material ℝ) (o : Options ℝ) (Z m K : ℝ) (r : Particle ℝ) : Prop where
  sound : SoundParticle r
  Z : r.Z = Z
  m : r.m = m
  Ec : 0 < r.Ec
  E : r.Ec ≤ r.E
  closest : ClosestBelow mat K r.Z r.m r.Ec
  stopped : r.stopped = false
  left : r.left = false
  inside : IsInside mat r
  tables : ScreenedWithAll mat o r.interaction_index

section
variable (rcpr : Rcpr ℝ) {mat : Material ℝ} (o : Options ℝ) {n : ℕ} {ns : List ℝ} {ck s K : ℝ} {ion : Particle ℝ}

set_option maxHeartbeats 1000000 in
/-- **C125, screened potentials.** In a target of uniform composition whose simulated volume ends with the material, with screened
potentials, in the low-energy path-dependent stopping modes, without weak collisions, free-flight paths and recoils, in
solids and in gases, the run of every ion ends (with a result or a panic) if the random numbers are, again and again, small
enough often enough in a row. -/
theorem C125_screened_ends (hr : ReadyTarget mat n) (hm : SoundTarget mat) (hu : SameEverywhere mat ns ck) (hck : 0 < ck)
    (hn : 0 < ns.sum) (hnest : BarrierEncloses mat.geometry) (hend : EndsWithMaterial mat)
    (hff : o.high_energy_free_flight_paths = false) (hw : o.weak_collision_order = 0) (htr : o.track_recoils = false)
    (hmode : o.electronic_stopping_mode = .LOW_ENERGY_NONLOCAL ∨ o.electronic_stopping_mode = .LOW_ENERGY_EQUIPARTITION)
    (hV : AllScreened o) (hEc : 0 < ion.Ec) (htab : ScreenedWithAll mat o ion.interaction_index)
    (hion : SoundParticle ion) (hE : ion.Ec ≤ ion.E) (hin : IsInside mat ion) (hst : ion.stopped = false) (hlf : ion.left = false)
    (tape : Tape ℝ) (ht : OpenUnit tape) (ha : SmallAgain tape) : ∃ fuel, single_ion_bca rcpr fuel ion mat o tape ≠ .error .fuel := by
  have hns : ∀ a ∈ ns, 0 ≤ a := hm.densities 0 0 0 ns (hu.densities 0 0 0)
  obtain ⟨s, hs⟩ : ∃ s, IsSpacing ns.sum s := ⟨_, spacing_exists _ hn⟩
  have hs0 := hs.1
  obtain ⟨K, hK0, hK⟩ := closest_exists_screened mat ion.Z ion.m ion.Ec
  obtain ⟨_, k, hk, hS, _⟩ := C100_low_energy _ hmode ck hck mat.Z ns hu.length hm.Z hns hn ion.Z ion.m hion.Z hion.m
  refine run_of_halts htr hst hlf ?_
  -- the quantity that falls
  obtain ⟨A, hA⟩ : ∃ A, A = max (K + s) ion.asymptotic_deflection := ⟨_, rfl⟩
  refine falling_ends (W := 3*(o.weak_collision_order + 1) + 2) (δ := s)
    (Good := fun r => GoingScreened mat o ion.Z ion.m K r ∧ r.asymptotic_deflection ≤ A)
    (Φ := fun r => 2*Real.sqrt r.E/k - r.asymptotic_deflection + A) ?_ ?_ hs0
    ⟨⟨hion, rfl, rfl, hEc, hE, hK, hst, hlf, hin, htab⟩, by rw [hA]; exact le_max_right _ _⟩ ht ha
  · rintro x ⟨_, hx⟩
    have := Real.sqrt_nonneg x.E
    have : 0 ≤ 2*Real.sqrt x.E/k := by positivity
    linarith
  · rintro x t ⟨hx, hxa⟩ ht
    have hends := screened_pass_ends rcpr hr hm o x hx.sound [] hx.tables t ht
    cases hrun : trajectory_step rcpr mat o x [] t with
    | error e =>
      left
      unfold Sat at hends
      rw [hrun] at hends
      exact halts_panic hx.stopped hx.left hrun hends
    | ok y =>
    obtain ⟨⟨q, new⟩, t'⟩ := y
    obtain ⟨j, hj1, hj2, rfl, hfl⟩ := pass_draws rcpr mat o hn hs ht (hu.densities _ _ _) hrun
    have hPE := sat_of_ok (trajectory_step_sat rcpr mat o x [] t hx.stopped hx.left) hrun
    obtain ⟨new', a1, a2, a3⟩ := hPE.stack
    have hnew : new = [] := by
      simp only at a1
      rw [a1, a3 htr]; rfl
    subst hnew
    by_cases hd : q.stopped = true ∨ q.left = true
    · exact Or.inl (halts_step hx.stopped hx.left hrun (halts_done _ hd))
    right
    simp only [not_or, Bool.not_eq_true] at hd
    have hin' : IsInside mat q := hend _ _ _ (hPE.running hd.2)
    have hI := inside_pass rcpr o hu hm hnest hx.sound hrun hx.inside hin'
    obtain ⟨p1, gs, t1, g0, E1, hdet, hg0, hE0, hE1, hEq, _⟩ := hI.loss
    have hqE := hI.running hx.stopped hx.left hd.1 hd.2
    obtain ⟨hmfp, hmin⟩ := hfl p1 gs t1 hdet g0 (List.mem_of_getElem? hg0)
    have hx0 : 0 < x.E := hx.Ec.trans_le hx.E
    have hqa := screened_deflection rcpr o hu hm hV hw hff hn hs hx.sound hx0 ht hrun K hK0 (fun Zb hZb Mb hMb => by
      refine le_trans ?_ (hx.closest Zb hZb Mb hMb)
      have hMb0 := hm.m Mb hMb
      have hpm := hx.sound.m
      have hEc := hx.Ec
      have hEE := hx.E
      have hk0 : 0 < coulombConstant x.Z Zb := by
        unfold coulombConstant
        have := Real.pi_pos
        have := hx.sound.Z
        have := hm.Z Zb hZb
        positivity
      gcongr)
    have hqpos : 0 < q.E := hx.Ec.trans_le hqE
    have hEq' : q.E ≤ E1 - k*Real.sqrt E1*(g0.mfp + x.asymptotic_deflection - q.asymptotic_deflection) := by
      rw [hx.Z, hx.m, hS E1 hE0] at hEq
      rcases le_max_iff.1 hEq with h | h
      · linarith
      · exact h
    have h1 := sqrt_falls hqpos hE0 hk hEq'
    have h2 : 2*Real.sqrt E1/k ≤ 2*Real.sqrt x.E/k := by
      have := Real.sqrt_le_sqrt hE1
      gcongr
    refine ⟨q, j, hj1, hj2, ⟨⟨hI.sound, hI.Z.trans hx.Z, hI.m.trans hx.m, ?_, ?_, ?_, hd.1, hd.2, hin', ?_⟩, ?_⟩, hI.first_step, ?_,
      fun hf hi => ?_, fun h => halts_step hx.stopped hx.left hrun h⟩
    · rw [hI.Ec]; exact hx.Ec
    · rw [hI.Ec]; exact hqE
    · rw [hI.Z, hI.m, hI.Ec]; exact hx.closest
    · rw [hPE.same.interaction_index]; exact hx.tables
    · rw [hA]; exact hqa.trans (le_max_left _ _)
    · show _ ≤ _
      linarith
    · have := hmin hf hi
      linarith

/-- **C125, screened potentials, with probability one.** So the run ends with probability one. -/
theorem C125_screened_almost_surely (hr : ReadyTarget mat n) (hm : SoundTarget mat) (hu : SameEverywhere mat ns ck) (hck : 0 < ck)
    (hn : 0 < ns.sum) (hnest : BarrierEncloses mat.geometry) (hend : EndsWithMaterial mat)
    (hff : o.high_energy_free_flight_paths = false) (hw : o.weak_collision_order = 0) (htr : o.track_recoils = false)
    (hmode : o.electronic_stopping_mode = .LOW_ENERGY_NONLOCAL ∨ o.electronic_stopping_mode = .LOW_ENERGY_EQUIPARTITION)
    (hV : AllScreened o) (hEc : 0 < ion.Ec) (htab : ScreenedWithAll mat o ion.interaction_index)
    (hion : SoundParticle ion) (hE : ion.Ec ≤ ion.E) (hin : IsInside mat ion) (hst : ion.stopped = false) (hlf : ion.left = false) :
    ∀ᵐ tape ∂randomTape, ∃ fuel, single_ion_bca rcpr fuel ion mat o tape ≠ .error .fuel := by
  filter_upwards [C96_random_numbers, small_again] with tape ht ha
  exact C125_screened_ends rcpr o hr hm hu hck hn hnest hend hff hw htr hmode hV hEc htab hion hE hin hst hlf tape ht ha

/-- **C125, screened potentials: the result.** With probability one the run returns, unless some particle of it moves exactly along
the x axis or lands exactly on the surface. -/
theorem C125_screened_result (hr : ReadyTarget mat n) (hm : RegularTarget mat) (hu : SameEverywhere mat ns ck)
    (hnest : BarrierEncloses mat.geometry) (hend : EndsWithMaterial mat)
    (hff : o.high_energy_free_flight_paths = false) (hw : o.weak_collision_order = 0) (htr : o.track_recoils = false)
    (hmode : o.electronic_stopping_mode = .LOW_ENERGY_NONLOCAL ∨ o.electronic_stopping_mode = .LOW_ENERGY_EQUIPARTITION)
    (hV : AllScreened o) (hEc : 0 < ion.Ec) (htab : ScreenedWithAll mat o ion.interaction_index)
    (hsp : ∀ q i, IsSpecies mat i q → MeetsAll mat o q) (hmeet : MeetsAll mat o ion)
    (hion : RegularParticle ion) (hE : ion.Ec ≤ ion.E) (hin : IsInside mat ion) (hst : ion.stopped = false) (hlf : ion.left = false) :
    ∀ᵐ tape ∂randomTape, Generic rcpr mat o ion tape → ∃ fuel out tape', single_ion_bca rcpr fuel ion mat o tape = .ok (out, tape') := by
  filter_upwards [C96_random_numbers, C125_screened_almost_surely rcpr o hr hm.sound hu (hm.ck_pos 0 0 0 ck (hu.ck 0 0 0))
    (hm.density 0 0 0 ns (hu.densities 0 0 0)) hnest hend hff hw htr hmode hV hEc htab hion.sound hE hin hst hlf] with tape ht hf gen
  obtain ⟨fuel, hf⟩ := hf
  obtain ⟨mat', hmat'⟩ := same_material_exists mat
  obtain ⟨rcpr', _⟩ : ∃ r : Rcpr XReal, True := ⟨⟨false, fun _ _ => .ok [], fun _ _ _ _ _ => .ok (.ok []), fun _ _ _ _ _ _ => .ok (.ok [])⟩, trivial⟩
  rcases C96_never_panics rcpr rcpr' mat mat' hmat' n hr hm o hV hw hsp ion hion hmeet hE hst hlf tape ht gen fuel with
    ⟨out, t', h, _⟩ | ⟨h, _⟩
  · exact ⟨fuel, out, t', h⟩
  · exact absurd h hf

end

end RustBCA
