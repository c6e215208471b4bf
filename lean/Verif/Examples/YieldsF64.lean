import Verif.Props.YieldsF64
import Verif.Proofs.IeeeInterval
import Verif.Examples.NotNaN
import Verif.Props.Lib
import Mathlib.Analysis.Real.Pi.Bounds

/-!
Examples for C123 with Rust's `f64`: two samples whose ions stop in front of the target, on a plain platform; reflected
ions whose energies add up differently in another order.
-/

set_option linter.unusedSimpArgs false

namespace RustBCA.YieldsF64Example
open Scalar Spec
section
variable {F : Type} [Scalar F]

/-- The collision of the first step. -/
def first (n : F) (T : Tape F) : BinaryCollisionGeometry F :=
  ⟨2.0*pi*T 0, powf (0.0 + n) (-1.0/3.0)/SQRTPI F*sqrt (T 1 + ofNat 0), powf (0.0 + n) (-1.0/3.0)*T 2⟩

theorem stops (rcpr : Rcpr F) (p : Particle F) (mat : Material F) (mesh : Mesh0D F) (tr : Bool) (T : Tape F)
    (n c : F) (s : Species F) (xa : F) (hgeo : mat.geometry = mesh.toGeom) (hn : mesh.densities = [n]) (hc : mesh.concentrations = [c])
    (hfs : p.first_step = true) (hst : p.stopped = false) (hl : p.left = false)
    (htc : (T 3 <. 0.0 + c) = true) (hs : mat.species 0 = .ok s)
    (hr : ((recoil_position p.pos p.dir (first n T)).x >. 0.0) = false)
    (hxa : xa = p.pos.x + p.dir_old.x*(powf (0.0 + n) (-1.0/3.0)*T 2 + p.asymptotic_deflection - 0.0))
    (ha : (xa >. 0.0) = false) (hb : (xa >. -10.0*mesh.energy_barrier_thickness) = true)
    (hb2 : (xa >. -mesh.energy_barrier_thickness) = true)
    (hE : (p.Ec <. p.E) = false) (hE2 : (p.E <. p.Ec) = true) (hnan : isNaN p.E = false) :
    ∃ q t, single_ion_bca rcpr 2 p mat (Options.default_options tr) T = .ok ([q], t) ∧ q.left = false ∧
      q.incident = p.incident ∧ q.E = p.E := by
  obtain ⟨q, rest, hq, h2, h3, h4, h5⟩ : ∃ q rest, trajectory_step rcpr mat (Options.default_options tr) p [] T =
      .ok ((q, []), rest) ∧ q.E = p.E ∧ q.left = false ∧ q.stopped = true ∧ q.incident = p.incident := by
    have hdet : determine_mfp_phi_impact_parameter p mat (Options.default_options tr) T =
        .ok (({ p with first_step := false }, [first n T]), fun k => T (k + 3)) := by
      simp only [determine_mfp_phi_impact_parameter, draw_phis, collectN, Material.mfp,
        Material.total_number_density, hgeo, Mesh0D.toGeom, hn, fsum, List.foldl_cons, List.foldl_nil,
        bind, StateT.bind, Functor.map, Except.map,
        Except.bind, pure, StateT.pure, Except.pure, liftM, monadLift, MonadLift.monadLift,
        StateT.lift, random, Options.default_options, hfs, Bool.false_eq_true, if_false, if_true,
        MeanFreePathModel.isGaseous, List.nil_append, List.zip_cons_cons, List.zip_nil_right,
        List.map_cons, List.map_nil, first]
    obtain ⟨q2, hq2, hq2p⟩ : ∃ q2, choose_collision_partner { p with first_step := false } mat
        (first n T) (Options.default_options tr) (fun k => T (k + 3)) =
          .ok ((s.species_index, q2), fun k => T (k + 4)) ∧ q2.pos = recoil_position p.pos p.dir (first n T) := by
      simp only [choose_collision_partner, Material.choose, bind, StateT.bind,
        Except.bind, pure, StateT.pure, Except.pure, liftM, monadLift, MonadLift.monadLift,
        StateT.lift, random, Material.get_cumulative_concentrations, hgeo, Mesh0D.toGeom, hc, Material.cumulative,
        Material.choose_index, htc, if_true, hs]
      exact ⟨_, rfl, rfl⟩
    simp only [trajectory_step, bind, StateT.bind, Except.bind, hdet]
    simp only [show (Options.default_options tr : Options F).weak_collision_order = 0 from rfl,
      List.zipIdx_cons, List.zipIdx_nil, List.take_succ_cons, List.take_zero, forFold,
      collision_step, bind, StateT.bind, Except.bind, hq2, liftM, monadLift, MonadLift.monadLift,
      StateT.lift, Material.inside, Material.inside_energy_barrier, hq2p, hgeo, Mesh0D.toGeom, hr,
      Bool.false_and, Bool.false_eq_true, if_false, pure, StateT.pure, Except.pure]
    have hpos : ({ p with first_step := false }.advance (first n T).mfp 0.0).1.pos.x = xa := by
      rw [hxa]
      unfold Particle.advance
      simp only [hE, Bool.false_eq_true, if_false, first]
    obtain ⟨pd, hpd⟩ : ∃ pd, pd = ({ p with first_step := false } : Particle F).advance (first n T).mfp 0.0 := ⟨_, rfl⟩
    rw [← hpd] at hpos
    have k1 : pd.1.E = p.E := by rw [hpd, Particle.advance_E]
    have k2 : pd.1.Ec = p.Ec := by rw [hpd, Particle.advance_Ec]
    have k3 : pd.1.left = false := by rw [hpd, Particle.advance_left]; exact hl
    have k4 : pd.1.incident = p.incident := by rw [hpd, Particle.advance_incident]
    simp only [finish_step, ← hpd, vget, List.getElem?_cons_zero, bind, Except.bind,
      subtract_electronic_stopping_energy, Material.inside, hgeo, Mesh0D.toGeom, hpos, ha, k1, k2, k3, hnan,
      Bool.not_false,
      rassert, if_true, Bool.false_eq_true, if_false, pure, Except.pure,
      Particle.update_energy_loss_tracker, Options.default_options, Bool.and_false,
      boundary_condition_planar, Material.inside_simulation_boundary, 
      Material.inside_energy_barrier, hb, hb2, hE2, Bool.not_true, Bool.and_self, Particle.update_trajectory_tracker]
    by_cases htt : pd.1.track_trajectories = true <;>
      simp only [htt, if_true, if_false, Bool.not_true, Bool.false_and, Bool.false_eq_true] <;>
      exact ⟨_, _, rfl, rfl, rfl, rfl, k4⟩
  refine ⟨q, rest, ?_, h3, h5, h2⟩
  have hrun : ∀ ps i, TrajState.running (⟨p, ps, i⟩ : TrajState F) = true := by
    intro ps i; simp [TrajState.running, hst, hl]
  have hstop : ∀ ps i, TrajState.running (⟨q, ps, i⟩ : TrajState F) = false := by
    intro ps i; simp [TrajState.running, h4]
  simp only [single_ion_bca, whileFuel, cascade_body, popLast, List.getLast?_singleton,
    List.dropLast_singleton, bind, StateT.bind, Except.bind, pure, StateT.pure, Except.pure, liftM,
    monadLift, MonadLift.monadLift, StateT.lift, hrun, if_true, traj_body, hq, hstop,
    Bool.false_eq_true, if_false, Nat.zero_lt_one, decide_true, List.length_nil, lt_self_iff_false,
    decide_false, List.nil_append]
end
/-! ## Enclosures in 1024ths -/

variable {L : Libm}

def W (a : Ieee L) (i j : ℤ) : Prop := Within a ((i:ℝ)/1024) ((j:ℝ)/1024)

theorem f64_1024 {i : ℤ} (h : |i| ≤ 2^40) : IsF64 ((i:ℝ)/1024) :=
  isF64_of (m := i) (e := -10) (by norm_num; ring) (h.trans (by norm_num)) (by norm_num) (by norm_num)

theorem W.lit {m : Nat} {s : Bool} {e : Nat} (i j : ℤ) (h1 : (i:ℝ)/1024 ≤ OfScientific.ofScientific m s e)
    (h2 : (OfScientific.ofScientific m s e : ℝ) ≤ (j:ℝ)/1024) (hi : |i| ≤ 2^40) (hj : |j| ≤ 2^40) :
    W (OfScientific.ofScientific m s e : Ieee L) i j := within_lit h1 h2 (f64_1024 hi) (f64_1024 hj)

theorem W.real {neg : Bool} {x : ℝ} (i j : ℤ) (h1 : (i:ℝ)/1024 ≤ x) (h2 : x ≤ (j:ℝ)/1024) (hi : |i| ≤ 2^40)
    (hj : |j| ≤ 2^40) : W (L := L) (B64.ofReal neg x) i j := by
  obtain ⟨y, a, b, c, -⟩ := round_within (neg := neg) h1 h2 (f64_1024 hi) (f64_1024 hj)
  exact ⟨y, a, b, c⟩

theorem W.add {a b : Ieee L} {i j k l : ℤ} (ha : W a i j) (hb : W b k l) (h1 : |i + k| ≤ 2^40 := by norm_num)
    (h2 : |j + l| ≤ 2^40 := by norm_num) : W (a + b) (i + k) (j + l) :=
  within_add ha hb (by push_cast; apply le_of_eq; ring) (by push_cast; apply le_of_eq; ring) (f64_1024 h1) (f64_1024 h2)

theorem W.neg {a : Ieee L} {i j : ℤ} (ha : W a i j) : W (-a) (-j) (-i) := by
  have := within_neg ha
  unfold W
  push_cast
  rwa [neg_div, neg_div]

theorem W.sub {a b : Ieee L} {i j k l : ℤ} (ha : W a i j) (hb : W b k l) (h1 : |i - l| ≤ 2^40 := by norm_num)
    (h2 : |j - k| ≤ 2^40 := by norm_num) : W (a - b) (i - l) (j - k) := W.add ha hb.neg h1 h2

theorem W.mul {a b : Ieee L} {i j k l : ℤ} (ha : W a i j) (hb : W b k l) (x y : ℤ) (hi : 0 ≤ i := by norm_num)
    (hk : 0 ≤ k := by norm_num) (h1 : x*1024 ≤ i*k := by norm_num) (h2 : j*l ≤ y*1024 := by norm_num)
    (hx : |x| ≤ 2^40 := by norm_num) (hy : |y| ≤ 2^40 := by norm_num) : W (a*b) x y := by
  have h1' : (x:ℝ)*1024 ≤ i*k := by exact_mod_cast h1
  have h2' : (j:ℝ)*l ≤ y*1024 := by exact_mod_cast h2
  have hi' : (0:ℝ) ≤ i := by exact_mod_cast hi
  have hk' : (0:ℝ) ≤ k := by exact_mod_cast hk
  exact within_mul ha hb (by positivity) (by positivity) (by linarith) (by linarith) (f64_1024 hx) (f64_1024 hy)

theorem W.div {a b : Ieee L} {i j k l : ℤ} (ha : W a i j) (hb : W b k l) (x y : ℤ) (hi : 0 ≤ i := by norm_num)
    (hk : 0 < k := by norm_num) (hl : 0 < l := by norm_num) (h1 : x*l ≤ i*1024 := by norm_num)
    (h2 : j*1024 ≤ y*k := by norm_num)
    (hx : |x| ≤ 2^40 := by norm_num) (hy : |y| ≤ 2^40 := by norm_num) : W (a/b) x y := by
  have h1' : (x:ℝ)*l ≤ i*1024 := by exact_mod_cast h1
  have h2' : (j:ℝ)*1024 ≤ y*k := by exact_mod_cast h2
  have hi' : (0:ℝ) ≤ i := by exact_mod_cast hi
  have hk' : (0:ℝ) < k := by exact_mod_cast hk
  have hl' : (0:ℝ) < l := by exact_mod_cast hl
  refine within_div ha hb (by positivity) (by positivity) ?_ ?_ (f64_1024 hx) (f64_1024 hy)
  · rw [div_div_div_cancel_right₀ (by norm_num), div_le_div_iff₀ (by norm_num) hl']
    linarith
  · rw [div_div_div_cancel_right₀ (by norm_num), div_le_div_iff₀ hk' (by norm_num)]
    linarith

theorem W.sqrt {a : Ieee L} {i j : ℤ} (ha : W a i j) (x y : ℤ) (hi : 0 ≤ i := by norm_num) (hx0 : 0 ≤ x := by norm_num)
    (hy0 : 0 ≤ y := by norm_num)
    (h1 : x*x ≤ i*1024 := by norm_num) (h2 : j*1024 ≤ y*y := by norm_num)
    (hx : |x| ≤ 2^40 := by norm_num) (hy : |y| ≤ 2^40 := by norm_num) : W (Scalar.sqrt a) x y := by
  have h1' : (x:ℝ)*x ≤ i*1024 := by exact_mod_cast h1
  have h2' : (j:ℝ)*1024 ≤ y*y := by exact_mod_cast h2
  have hi' : (0:ℝ) ≤ i := by exact_mod_cast hi
  have hx0' : (0:ℝ) ≤ x := by exact_mod_cast hx0
  have hy0' : (0:ℝ) ≤ y := by exact_mod_cast hy0
  refine within_sqrt ha (by positivity) ?_ ?_ (by positivity) (f64_1024 hx) (f64_1024 hy)
  · apply Real.le_sqrt_of_sq_le
    rw [div_pow, div_le_div_iff₀ (by norm_num) (by norm_num)]
    nlinarith
  · rw [Real.sqrt_le_left (by positivity), div_pow, div_le_div_iff₀ (by norm_num) (by norm_num)]
    nlinarith

theorem W.lt {a b : Ieee L} {i j k l : ℤ} (ha : W a i j) (hb : W b k l) (h : j < k := by norm_num) : (a <. b) = true :=
  within_lt ha hb (by
    have : (j:ℝ) < k := by exact_mod_cast h
    linarith)

theorem W.not_lt {a b : Ieee L} {i j k l : ℤ} (ha : W a i j) (hb : W b k l) (h : l ≤ i := by norm_num) :
    (a <. b) = false :=
  within_not_lt ha hb (by
    have : (l:ℝ) ≤ i := by exact_mod_cast h
    linarith)

theorem W.abs {a : Ieee L} {i j : ℤ} (ha : W a i j) (h : 0 ≤ i := by norm_num) : W (Scalar.abs a) i j :=
  within_abs ha (by
    have : (0:ℝ) ≤ i := by exact_mod_cast h
    positivity)

theorem W.le {a b : Ieee L} {i j k l : ℤ} (ha : W a i j) (hb : W b k l) (h : j ≤ k := by norm_num) : (a <=. b) = true := by
  obtain ⟨x, e1, x1, x2⟩ := ha
  obtain ⟨y, e2, y1, y2⟩ := hb
  show XReal.le (B64.toX a) (B64.toX b) = true
  rw [e1, e2]
  have : (j:ℝ) ≤ k := by exact_mod_cast h
  have h2 : x ≤ y := by linarith
  rcases h2.lt_or_eq with h3 | h3 <;> simp [XReal.le, XReal.lt, XReal.eq, h3, h2]

/-! ## Two samples -/

/-- A platform whose sine and cosine are 1/2 and whose powers of 1 are 1. -/
noncomputable def plain : Libm where
  sin _ := B64.ofReal false (1/2)
  cos _ := B64.ofReal false (1/2)
  exp a := a
  ln a := a
  acos a := a
  asin a := a
  atan2 a _ := a
  powf _ _ := B64.ofReal false 1
  powi a _ := a

noncomputable def ones : PyDict (Ieee plain) := fun _ => some (.float 1.0)

/-- All random numbers 0 but the third, which is 1/2. -/
noncomputable def half : Tape (Ieee plain) := fun k => if k = 2 then 0.5 else 0.0

theorem w0 : W (0.0 : Ieee L) 0 0 := W.lit 0 0 (by norm_num) (by norm_num) (by norm_num) (by norm_num)
theorem w1 : W (1.0 : Ieee L) 1024 1024 := W.lit _ _ (by norm_num) (by norm_num) (by norm_num) (by norm_num)
theorem w2 : W (2.0 : Ieee L) 2048 2048 := W.lit _ _ (by norm_num) (by norm_num) (by norm_num) (by norm_num)
theorem w10 : W (10.0 : Ieee L) 10240 10240 := W.lit _ _ (by norm_num) (by norm_num) (by norm_num) (by norm_num)
theorem whalf : W (0.5 : Ieee L) 512 512 := W.lit _ _ (by norm_num) (by norm_num) (by norm_num) (by norm_num)

theorem wsqrtpi : W (SQRTPI (Ieee L)) 1664 1920 := by
  have hpi : W (pi : Ieee L) 3072 3328 := W.real _ _ (by linarith [Real.pi_gt_three]) (by linarith [Real.pi_lt_d2]) (by norm_num) (by norm_num)
  have h1 : W (sqrt pi : Ieee L) 1728 1856 := hpi.sqrt _ _
  have h2 : W (FRAC_2_SQRT_PI (Ieee L)) 1120 1216 := w2.div h1 _ _
  exact w2.div h2 _ _

theorem wthick (n : Ieee plain) : W (barrier_thickness n) 1024 1280 := by
  have h : W (L := plain) (powf n (-1.0/3.0)) 1024 1024 := W.real _ _ (by norm_num) (by norm_num) (by norm_num) (by norm_num)
  exact (h.div wsqrtpi 512 640).mul w2 _ _

theorem wev : Within (EV (Ieee L)) (2^(-63:ℤ)) (2^(-62:ℤ)) :=
  within_lit (by norm_num) (by norm_num)
    (isF64_of (m := 1) (e := -63) (by norm_num) (by norm_num) (by norm_num) (by norm_num))
    (isF64_of (m := 1) (e := -62) (by norm_num) (by norm_num) (by norm_num) (by norm_num))

theorem slow (L : Libm) : (0.25*EV (Ieee L) <. 1.0*EV (Ieee L)) = true ∧ (1.0*EV (Ieee L) <. 0.25*EV (Ieee L)) = false ∧
    isNaN (0.25*EV (Ieee L)) = false := by
  have f : ∀ e : ℤ, -1074 ≤ e → e ≤ 100 → IsF64 ((2:ℝ)^e) := fun e h1 h2 =>
    isF64_of (m := 1) (e := e) (by norm_num) (by norm_num) h1 h2
  have q : Within (0.25 : Ieee L) (2^(-2:ℤ)) (2^(-2:ℤ)) :=
    within_lit (by norm_num) (by norm_num) (f _ (by norm_num) (by norm_num)) (f _ (by norm_num) (by norm_num))
  have o : Within (1.0 : Ieee L) (2^(0:ℤ)) (2^(0:ℤ)) :=
    within_lit (by norm_num) (by norm_num) (f _ (by norm_num) (by norm_num)) (f _ (by norm_num) (by norm_num))
  have a : Within (0.25*EV (Ieee L)) (2^(-65:ℤ)) (2^(-64:ℤ)) := within_mul q wev (by positivity) (by positivity)
    (by norm_num) (by norm_num) (f _ (by norm_num) (by norm_num)) (f _ (by norm_num) (by norm_num))
  have b : Within (1.0*EV (Ieee L)) (2^(-63:ℤ)) (2^(-62:ℤ)) := within_mul o wev (by positivity) (by positivity)
    (by norm_num) (by norm_num) (f _ (by norm_num) (by norm_num)) (f _ (by norm_num) (by norm_num))
  exact ⟨within_lt a b (by norm_num), within_not_lt b a (by norm_num), within_not_nan a⟩

/-- The component of the direction along the surface normal. -/
theorem wdir {ux uy uz : Ieee L} (hx : W ux 512 513) (hy : W uy 511 512) (hz : W uz 0 0) :
    W (sqrt (ux*ux + uy*uy + uz*uz)) 704 736 ∧ W (ux/sqrt (ux*ux + uy*uy + uz*uz)) 704 768 := by
  have h1 : W (ux*ux) 256 258 := hx.mul hx _ _
  have h2 : W (uy*uy) 254 256 := hy.mul hy _ _
  have h3 : W (uz*uz) 0 0 := hz.mul hz _ _
  have h4 : W (sqrt (ux*ux + uy*uy + uz*uz)) 704 736 := ((h1.add h2).add h3).sqrt _ _
  exact ⟨h4, hx.div h4 _ _⟩

theorem wneg_mul {a b : Ieee L} {i j k l : ℤ} (ha : W a i j) (hb : W b k l) (x : ℤ) (hi : 0 ≤ i := by norm_num)
    (hk : 0 ≤ k := by norm_num) (h1 : x*1024 ≤ i*k := by norm_num) (hx : |x| ≤ 2^40 := by norm_num)
    (hj : |j*l| ≤ 2^40 := by norm_num) :
    W (-a*b) (-(j*l)) (-x) := by
  obtain ⟨u, e1, u1, u2⟩ := ha
  obtain ⟨v, e2, v1, v2⟩ := hb
  have h1' : (x:ℝ)*1024 ≤ i*k := by exact_mod_cast h1
  have hi' : (0:ℝ) ≤ i := by exact_mod_cast hi
  have hk' : (0:ℝ) ≤ k := by exact_mod_cast hk
  have p1 : (i:ℝ)/1024*(k/1024) ≤ u*v := mul_le_mul u1 v1 (by positivity) (le_trans (by positivity) u1)
  have p2 : u*v ≤ (j:ℝ)/1024*(l/1024) := mul_le_mul u2 v2 (le_trans (by positivity) v1) (le_trans (by positivity) (u1.trans u2))
  have hj' : 0 ≤ (j:ℝ)*l := by
    have : 0 ≤ (j:ℝ)/1024*(l/1024) := le_trans (by positivity) (p1.trans p2)
    linarith
  obtain ⟨z, a1, b1, c1, -⟩ := round_within (neg := (B64.isNeg (-a : Ieee L) ^^ B64.isNeg b)) (x := -u*v)
    (lo := ((-(j*l) : ℤ):ℝ)/1024) (hi := ((-x : ℤ):ℝ)/1024)
    (by push_cast; linarith) (by push_cast; linarith) (f64_1024 (by rwa [abs_neg])) (f64_1024 (by rwa [abs_neg]))
  refine ⟨z, ?_, b1, c1⟩
  show B64.toX (B64.ofX _ (XReal.mul (B64.toX (-a : Ieee L)) (B64.toX b))) = _
  have e3 : B64.toX (-a : Ieee L) = .fin (-u) := toX_neg a e1
  rw [e3, e2]
  exact a1

theorem samples (rcpr : Rcpr (Ieee plain)) (ext : Ext (Ieee plain)) : ∃ q : Particle (Ieee plain),
    q.left = false ∧ reflection_samples rcpr 2 ext ones ones 0.25 60.0 2 (fun _ => half) = .ok [[q], [q]] ∧
      ∃ q', q'.left = false ∧ sputtering_samples rcpr 2 ext ones ones 0.25 60.0 2 (fun _ => half) = .ok [[q'], [q']] := by
  obtain ⟨mat, mesh, hm⟩ := mesh0d_material_total (F := Ieee plain) ext [1.0] [1.0] [1.0] [1.0] [1.0] [1.0] 1 [0] .AVERAGE
    (unit := "M") (u := 1.0) rfl
  have h := hm
  simp only [mesh0d_material, Mesh0D.new, show length_unit_of ext "M" = .ok (1.0 : Ieee plain) from rfl,
    Material.new, compound_parameters, energy_unit_of,
    mass_unit_of, bind, Except.bind, pure, Except.pure, Except.ok.injEq, Prod.mk.injEq] at h
  obtain ⟨h1, h2⟩ := h
  have hang : (Scalar.abs (60.0 : Ieee plain) <=. 90.0) = true := by
    have a : W (60.0 : Ieee plain) 61440 61440 := W.lit _ _ (by norm_num) (by norm_num) (by norm_num) (by norm_num)
    have b : W (90.0 : Ieee plain) 92160 92160 := W.lit _ _ (by norm_num) (by norm_num) (by norm_num) (by norm_num)
    exact a.abs.le b
  obtain ⟨ux, hux⟩ : ∃ ux, ux = (incidence (60.0 : Ieee plain)).1 := ⟨_, rfl⟩
  obtain ⟨uy, huy⟩ : ∃ uy, uy = (incidence (60.0 : Ieee plain)).2.1 := ⟨_, rfl⟩
  obtain ⟨uz, huz⟩ : ∃ uz, uz = (incidence (60.0 : Ieee plain)).2.2 := ⟨_, rfl⟩
  have hd : W (1e-6 : Ieee plain) 0 1 := W.lit _ _ (by norm_num) (by norm_num) (by norm_num) (by norm_num)
  have hh : W (L := plain) (B64.ofReal false (1/2)) 512 512 := W.real _ _ (by norm_num) (by norm_num) (by norm_num) (by norm_num)
  have wx : W ux 512 513 := by rw [hux]; exact hh.add hd
  have wy : W uy 511 512 := by rw [huy]; exact hh.sub hd
  have wz : W uz 0 0 := by rw [huz]; exact w0
  obtain ⟨wm, wc⟩ := wdir wx wy wz
  have hgim : (Scalar.abs (ux/sqrt (ux*ux + uy*uy + uz*uz)) <. 1.0 - epsilon) = true := by
    have he : W (epsilon : Ieee plain) 0 1 := W.real _ _ (by norm_num) (by norm_num) (by norm_num) (by norm_num)
    exact wc.abs.lt (w1.sub he)
  have hpos : ((0.25 : Ieee plain) >. 0.0) = true := by
    have a : W (0.25 : Ieee plain) 256 256 := W.lit _ _ (by norm_num) (by norm_num) (by norm_num) (by norm_num)
    exact w0.lt a
  obtain ⟨s1, s2, s3⟩ := slow plain
  have wt : W mesh.energy_barrier_thickness 1024 1280 := by rw [← h2]; exact wthick _
  have wN : ∀ n : Ieee plain, W (powf n (-1.0/3.0)) 1024 1024 := fun n =>
    W.real _ _ (by norm_num) (by norm_num) (by norm_num) (by norm_num)
  have wstep : ∀ n : Ieee plain, W (powf n (-1.0/3.0)*0.5) 512 512 := fun n => (wN n).mul whalf _ _
  obtain ⟨p, hp, hp1, hp2, hp3, hp4, hp5, hp6, hp7, hp8, hp9⟩ : ∃ p : Particle (Ieee plain),
      Particle.default_incident 1.0 1.0 0.25 1.0 1.0 (-mesh.energy_barrier_thickness) ux uy uz = .ok p ∧
      p.first_step = true ∧ p.stopped = false ∧ p.left = false ∧ p.pos.x = -mesh.energy_barrier_thickness ∧
      p.dir.x = ux/sqrt (ux*ux + uy*uy + uz*uz) ∧ p.dir_old.x = ux/sqrt (ux*ux + uy*uy + uz*uz) ∧
      p.asymptotic_deflection = 0.0 ∧ p.E = 0.25*EV (Ieee plain) ∧ p.Ec = 1.0*EV (Ieee plain) := by
    simp only [Particle.default_incident, hgim, hpos, rassert, if_true, bind, Except.bind, pure, Except.pure]
    exact ⟨_, rfl, rfl, rfl, rfl, rfl, rfl, rfl, rfl, rfl, rfl⟩
  have wxa : W (p.pos.x + p.dir_old.x*(powf (0.0 + 1.0/powi (1.0 : Ieee plain) 3) (-1.0/3.0)*half 2 + p.asymptotic_deflection - 0.0))
      (-1280 + 352) (-1024 + 384) := by
    rw [hp4, hp6, hp7]
    exact wt.neg.add (wc.mul (((wstep _).add w0).sub w0) 352 384)
  have wr : W (recoil_position p.pos p.dir (first (1.0/powi (1.0 : Ieee plain) 3) half)).x (-1280 + 352 - 0) (-1024 + 384 - 0) := by
    show W (p.pos.x + powf _ _*half 2*p.dir.x - _*cos _*sqrt (1.0 - p.dir.x*p.dir.x)) _ _
    rw [hp4, hp5]
    have wi : W (powf (0.0 + 1.0/powi (1.0 : Ieee plain) 3) (-1.0/3.0)/SQRTPI (Ieee plain)*sqrt (half 1 + ofNat 0)) 0 0 := by
      have hz : W (ofNat 0 : Ieee plain) 0 0 := W.real _ _ (by norm_num) (by norm_num) (by norm_num) (by norm_num)
      exact ((wN _).div wsqrtpi 512 640).mul ((w0.add hz).sqrt 0 0) _ _
    have wcos : W (cos (2.0*pi*half 0) : Ieee plain) 512 512 := hh
    have wsin : W (sqrt (1.0 - ux/sqrt (ux*ux + uy*uy + uz*uz)*(ux/sqrt (ux*ux + uy*uy + uz*uz)))) 0 1024 :=
      (w1.sub (wc.mul wc 484 576)).sqrt _ _
    exact (wt.neg.add ((wstep _).mul wc 352 384)).sub ((wi.mul wcos 0 0).mul wsin 0 0)
  have wden : W (1.0/powi (1.0 : Ieee plain) 3) 1024 1024 := w1.div w1 _ _
  have hrun : ∀ tr, ∃ q t, single_ion_bca rcpr 2 p mat (Options.default_options tr) half = .ok ([q], t) ∧ q.left = false := by
    intro tr
    obtain ⟨q, t, hq, hl, -⟩ := stops rcpr p mat mesh tr half (1.0/powi (1.0 : Ieee plain) 3)
      (1.0/powi (1.0 : Ieee plain) 3/(0.0 + 1.0/powi (1.0 : Ieee plain) 3)) _ _
      (by rw [← h1, ← h2]) (by rw [← h2]; rfl) (by rw [← h2]; rfl) hp1 hp2 hp3
      (w0.lt (w0.add (wden.div (w0.add wden) 1024 1024))) (by rw [← h1]; rfl)
      (w0.not_lt wr) rfl (w0.not_lt wxa) ((wneg_mul w10 wt 10240).lt wxa) (wt.neg.lt wxa)
      (by rw [hp8, hp9]; exact s2) (by rw [hp8, hp9]; exact s1) (by rw [hp8]; exact s3)
    exact ⟨q, t, hq, hl⟩
  obtain ⟨q, t, hq, hl⟩ := hrun false
  obtain ⟨q', t', hq', hl'⟩ := hrun true
  rw [hux, huy, huz] at hp
  refine ⟨q, hl, ?_, q', hl', ?_⟩
  all_goals
    simp only [reflection_samples, sputtering_samples, check_angle, unpack_ion, unpack_target,
      unpack, ones, rassert, hang, if_true, bind, Except.bind, pure, Except.pure]
    rw [hm]
    simp only [run_samples, collectN, bind, Except.bind, pure, Except.pure, hp, hq, hq',
      List.nil_append, List.cons_append]

/-- **C123** The reflection coefficient of these two samples. -/
example (rcpr : Rcpr (Ieee plain)) (ext : Ext (Ieee plain)) : ∃ r,
    reflection_coefficient rcpr 2 ext ones ones 0.25 60.0 2 (fun _ => half) r ∧ SoundCoefficients plain 0 2 r ∧
      B64.toX r.1 = .fin 0 := by
  obtain ⟨q, hl, h, -⟩ := samples rcpr ext
  obtain ⟨f, hf, hfin⟩ := C58_finishes reflected_particle true [[q], [q]]
  have hr : reflection_coefficient rcpr 2 ext ones ones 0.25 60.0 2 (fun _ => half) (coefficients f 0.25 2) :=
    ⟨_, f, h, hf, hfin, rfl⟩
  have he : B64.toX (0.25 : Ieee plain) = .fin (1/4) := by
    obtain ⟨x, e, x1, x2⟩ : W (0.25 : Ieee plain) 256 256 :=
      W.lit _ _ (by norm_num) (by norm_num) (by norm_num) (by norm_num)
    rw [e, show x = 1/4 by push_cast at x1 x2; linarith]
  obtain ⟨outs, ho, -, hv⟩ := C123_reflection_coefficient plain (by norm_num) (by norm_num) he (by norm_num) hr
  rw [h, Except.ok.injEq] at ho
  subst ho
  have hc : howMany ReflectedBack ([[q], [q]] : List (List (Particle (Ieee plain)))).flatten = 0 := by
    simp [howMany, ReflectedBack, hl]
  rw [hc] at hv
  exact ⟨_, hr, hv, by rw [hv.ratio.value, hv.ratio.zero.2 rfl]⟩

/-- **C123** and the sputtering yield. -/
example (rcpr : Rcpr (Ieee plain)) (ext : Ext (Ieee plain)) : ∃ r,
    sputtering_yield rcpr 2 ext ones ones 0.25 60.0 2 (fun _ => half) r ∧ B64.toX r = .fin 0 := by
  obtain ⟨-, -, -, q, hl, h⟩ := samples rcpr ext
  obtain ⟨r, hr⟩ := C58_sputtering_returns h
  obtain ⟨outs, ho, -, hv⟩ := C123_sputtering_yield plain (by norm_num) (by norm_num) hr
  rw [h, Except.ok.injEq] at ho
  subst ho
  have hc : howMany SputteredAway ([[q], [q]] : List (List (Particle (Ieee plain)))).flatten = 0 := by
    simp [howMany, SputteredAway, hl]
  rw [hc] at hv
  have := hv (by norm_num)
  exact ⟨r, hr, by rw [this.value, this.zero.2 rfl]⟩

/-- **C123** A third of the samples. -/
example (L : Libm) : RoundedRatio L 1 3 (ofNat 1/ofNat 3) := rounded_ratio L (by norm_num) (by norm_num) (by norm_num)

/-- An ion that came back. -/
noncomputable def back (L : Libm) (E : Nat) : Particle (Ieee L) :=
  { NotNaNExample.ion (ofNat E) with
    left := true
    dir := ⟨-1.0, 0.0, 0.0⟩ }

theorem back_counted (L : Libm) {E : Nat} (h : E ≤ 2^53) (h0 : 0 < E) : reflected_particle (back L E) = true := by
  have h1 : ((-1.0 : Ieee L) <. 0.0) = true := (w1.neg).lt w0
  have h2 : ((ofNat E : Ieee L) >. 0.0) = true := by
    show XReal.lt (B64.toX (0.0 : Ieee L)) (B64.toX (ofNat E : Ieee L)) = true
    rw [toX_zero, toX_ofNat L h]
    simpa [XReal.lt] using h0
  simp only [reflected_particle, back, NotNaNExample.ion, ion_literal, h1, h2, Bool.and_self]

/-- **C123** Energies of reflected ions for which the schedule matters. -/
example (L : Libm) : ∃ f f', Pool.Reaches reflected_particle true 3
      (Pool.initial [[back L (2^53)], [back L 1], [back L 1]]) f ∧ f.finished 3 ∧
    Pool.Reaches reflected_particle true 3 (Pool.initial [[back L (2^53)], [back L 1], [back L 1]]) f' ∧ f'.finished 3 ∧
    B64.toX f.energy ≠ B64.toX f'.energy := by
  obtain ⟨f, f', h1, h2, h3, h4, h5, h6⟩ := C123_schedule_matters L (back L (2^53)) (back L 1) (back L 1)
    reflected_particle ⟨back_counted L le_rfl (by norm_num), back_counted L (by norm_num) (by norm_num),
      back_counted L (by norm_num) (by norm_num)⟩
    (by
      have := toX_ofNat L (k := 2^53) le_rfl
      rw [show (((2^53 : ℕ)) : ℝ) = 2^53 by norm_num] at this
      exact this)
    (by have := toX_ofNat L (k := 1) (by norm_num); push_cast at this; exact this)
    (by have := toX_ofNat L (k := 1) (by norm_num); push_cast at this; exact this)
  refine ⟨f, f', h1, h2, h3, h4, ?_⟩
  rw [h5, h6]
  simp

end RustBCA.YieldsF64Example
