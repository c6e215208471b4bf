import Verif.Spec.Surface
import Verif.Props.Motion
import Mathlib.Tactic.Ring
import Mathlib.Tactic.FieldSimp
import Mathlib.Tactic.LinearCombination

/-!
# C30, C31, C33: surfaces and boundaries
-/

set_option linter.unusedSectionVars false
set_option linter.unusedSimpArgs false

namespace RustBCA
open Scalar Spec

/-- The direction after refraction, in terms of square roots. -/
theorem refraction_dir (p : Particle ℝ) (n : Vec3 ℝ) (Es : ℝ) (hE : 0 ≤ p.E) :
    (surface_refraction p n Es).dir =
      plus (times (Real.sqrt p.E/Real.sqrt (p.E + Es)) p.dir)
        (times ((-(Real.sqrt p.E)*inner p.dir n
          + Real.sqrt (p.E*(inner p.dir n)^2 + Es))/Real.sqrt (p.E + Es)) n) := by
  simp only [surface_refraction, Vec3.dot, sqrt_real, powi_real, plus, times, inner,
    Real.sqrt_div hE]
  rw [show (2:ℤ) = ((2:ℕ):ℤ) from rfl, zpow_natCast]

/-- **C30.** For a unit direction and unit normal, and enough energy (`E + Es > 0` and normal energy
at least `-Es`), `surface_refraction` is refraction at a plane: energy changed by exactly `Es`, unit
direction, momentum along the surface conserved, normal energy changed by exactly `Es`. -/
theorem C30_refraction (p : Particle ℝ) (n : Vec3 ℝ) (Es : ℝ) (hu : IsUnit p.dir) (hn : IsUnit n)
    (hE : 0 ≤ p.E) (hE' : 0 < p.E + Es) (hnorm : 0 ≤ normalEnergy p.E p.dir n + Es) :
    Refracted p (surface_refraction p n Es) n Es := by
  have hdir := refraction_dir p n Es hE
  have hqE : (surface_refraction p n Es).E = p.E + Es := rfl
  have hqm : (surface_refraction p n Es).m = p.m := rfl
  unfold normalEnergy at hnorm
  set c := inner p.dir n with hc
  set e := Real.sqrt p.E with he
  set s := Real.sqrt (p.E + Es) with hs
  set w := Real.sqrt (p.E*c^2 + Es) with hw
  have hs0 : 0 < s := Real.sqrt_pos.mpr hE'
  have he2 : e^2 = p.E := Real.sq_sqrt hE
  have hs2 : s^2 = p.E + Es := Real.sq_sqrt hE'.le
  have hw2 : w^2 = p.E*c^2 + Es := Real.sq_sqrt hnorm
  have hin : inner (surface_refraction p n Es).dir n = w/s := by
    rw [hdir]
    have : inner (plus (times (e/s) p.dir) (times ((-e*c + w)/s) n)) n
        = e/s*inner p.dir n + (-e*c + w)/s*inner n n := by
      simp only [inner, plus, times]; ring
    rw [this, ← hc, show inner n n = 1 from hn]
    field_simp; ring
  refine ⟨hqE, ?_, ?_, ?_, ?_, rfl⟩
  · unfold Spec.IsUnit
    rw [hdir]
    have : inner (plus (times (e/s) p.dir) (times ((-e*c + w)/s) n))
        (plus (times (e/s) p.dir) (times ((-e*c + w)/s) n))
        = (e/s)^2*inner p.dir p.dir + 2*(e/s)*((-e*c + w)/s)*inner p.dir n
          + ((-e*c + w)/s)^2*inner n n := by
      simp only [inner, plus, times]; ring
    rw [this, ← hc, show inner n n = 1 from hn, show inner p.dir p.dir = 1 from hu]
    field_simp
    linear_combination (1 - c^2)*he2 - hs2 + hw2
  · rw [hqE, hqm]
    have hsplit : ∀ v : Vec3 ℝ, cross (plus (times (e/s) p.dir) v) n
        = plus (times (e/s) (cross p.dir n)) (cross v n) := by
      intro v; simp only [cross, plus, times, Vec3.mk.injEq]
      refine ⟨by ring, by ring, by ring⟩
    have hm : ∀ (a : ℝ) (v : Vec3 ℝ), cross (times a v) n = times a (cross v n) := by
      intro a v; simp only [cross, times, Vec3.mk.injEq]
      refine ⟨by ring, by ring, by ring⟩
    have hnn : cross n n = ⟨0, 0, 0⟩ := by
      simp only [cross, Vec3.mk.injEq]; refine ⟨by ring, by ring, by ring⟩
    have hroot : Real.sqrt (2*p.m*(p.E + Es))*(e/s) = Real.sqrt (2*p.m*p.E) := by
      rw [mul_comm (2*p.m) (p.E + Es), Real.sqrt_mul hE'.le, ← hs, mul_comm (2*p.m) p.E,
        Real.sqrt_mul hE, ← he]
      field_simp
    unfold momentum
    rw [hdir, hm, hm, hsplit, hm, hnn, ← hroot]
    simp only [times, plus, Vec3.mk.injEq]
    refine ⟨by ring, by ring, by ring⟩
  · unfold normalEnergy
    rw [hin, hqE, div_pow, hs2, ← hc]
    field_simp
    exact hw2
  · rw [hin]; exact div_nonneg (Real.sqrt_nonneg _) hs0.le

/-- Refraction leaves the plane spanned by direction and normal alone up to scale: a closed form
used for the round trip. -/
theorem vec_ext {v w : Vec3 ℝ} (hx : v.x = w.x) (hy : v.y = w.y) (hz : v.z = w.z) : v = w := by
  cases v; cases w; simp_all

/-- **C30, round trip.** Entering through a plane with `Es` and leaving through it again with `-Es`
restores energy and direction. -/
theorem C30_round_trip (p : Particle ℝ) (n : Vec3 ℝ) (Es : ℝ) (hu : IsUnit p.dir) (hn : IsUnit n)
    (hE : 0 < p.E) (hEs : 0 ≤ Es) (hin : 0 ≤ inner p.dir n) :
    surface_refraction (surface_refraction p n Es) n (-Es) = p := by
  have hE' : 0 < p.E + Es := by linarith
  have hnorm : 0 ≤ normalEnergy p.E p.dir n + Es := by
    unfold normalEnergy; positivity
  obtain ⟨h1, h2, h3, h4, h5, h6⟩ := C30_refraction p n Es hu hn hE.le hE' hnorm
  have hdir := refraction_dir p n Es hE.le
  set q := surface_refraction p n Es with hq
  have hdir2 := refraction_dir q n (-Es) (by rw [h1]; exact hE'.le)
  have hE2 : (surface_refraction q n (-Es)).E = p.E := by
    show q.E + -Es = p.E
    rw [h1]; ring
  have hrest : surface_refraction q n (-Es) = { p with
      E := (surface_refraction q n (-Es)).E, dir := (surface_refraction q n (-Es)).dir } := by
    conv_rhs => rw [show p = { q with E := p.E, dir := p.dir } by rw [h6]]
    rfl
  have hd : (surface_refraction q n (-Es)).dir = p.dir := by
    have hq0 : q.E + -Es = p.E := by rw [h1]; ring
    have hw : Real.sqrt (q.E*(inner q.dir n)^2 + -Es) = Real.sqrt p.E*inner p.dir n := by
      have : q.E*(inner q.dir n)^2 + -Es = p.E*(inner p.dir n)^2 := by
        unfold normalEnergy at h4; linarith
      rw [this, Real.sqrt_mul hE.le, Real.sqrt_sq hin]
    rw [hdir2, hw, hq0, h1]
    have hqc : inner q.dir n = Real.sqrt (p.E*(inner p.dir n)^2 + Es)/Real.sqrt (p.E + Es) := by
      rw [hdir]
      have : inner (plus (times (Real.sqrt p.E/Real.sqrt (p.E + Es)) p.dir)
          (times ((-(Real.sqrt p.E)*inner p.dir n
          + Real.sqrt (p.E*(inner p.dir n)^2 + Es))/Real.sqrt (p.E + Es)) n)) n
          = Real.sqrt p.E/Real.sqrt (p.E + Es)*inner p.dir n + (-(Real.sqrt p.E)*inner p.dir n
          + Real.sqrt (p.E*(inner p.dir n)^2 + Es))/Real.sqrt (p.E + Es)*inner n n := by
        simp only [inner, plus, times]; ring
      rw [this, show inner n n = 1 from hn]
      have hs0 : 0 < Real.sqrt (p.E + Es) := Real.sqrt_pos.mpr hE'
      field_simp; ring
    rw [hqc, hdir]
    have hs0 : 0 < Real.sqrt (p.E + Es) := Real.sqrt_pos.mpr hE'
    have he0 : 0 < Real.sqrt p.E := Real.sqrt_pos.mpr hE
    refine vec_ext ?_ ?_ ?_ <;> simp only [plus, times] <;> field_simp <;> ring
  rw [hrest, hE2, hd]

/-! ## C31 -/

theorem binding_leaving {F : Type} [Scalar F] (p : Particle F) (mat : Material F) (Es : F)
    (hb : Barrier mat p true false)
    (hEs : mat.actual_surface_binding_energy p p.pos_old.x p.pos_old.y p.pos_old.z = .ok Es) :
    surface_binding_energy p mat = surface_leaving p mat Es := by
  unfold surface_binding_energy Material.inside_energy_barrier
  simp only [hb.1, hb.2, hEs, bind, Except.bind, pure, Except.pure, Bool.not_true, Bool.false_and,
    Bool.not_false, Bool.and_true, Bool.false_eq_true, if_false, if_true]

theorem binding_entering {F : Type} [Scalar F] (p : Particle F) (mat : Material F) (Es : F)
    (hb : Barrier mat p false true)
    (hEs : mat.actual_surface_binding_energy p p.pos_old.x p.pos_old.y p.pos_old.z = .ok Es) :
    surface_binding_energy p mat = surface_entering p mat Es := by
  unfold surface_binding_energy Material.inside_energy_barrier
  simp only [hb.1, hb.2, hEs, bind, Except.bind, pure, Except.pure, Bool.not_true, Bool.false_and,
    Bool.not_false, Bool.and_true, Bool.false_eq_true, if_false, if_true, Bool.and_false]
  cases surface_entering p mat Es <;> rfl

theorem mag_eq (d : ℝ) (hd : 0 < d) (n : Vec3 ℝ) (hn : IsUnit n) (x y z : ℝ) :
    Real.sqrt ((x + d*n.x - x)*(x + d*n.x - x) + (y + d*n.y - y)*(y + d*n.y - y)
      + (z + d*n.z - z)*(z + d*n.z - z)) = d := by
  have : (x + d*n.x - x)*(x + d*n.x - x) + (y + d*n.y - y)*(y + d*n.y - y)
      + (z + d*n.z - z)*(z + d*n.z - z) = d^2 := by
    have h : n.x*n.x + n.y*n.y + n.z*n.z = 1 := hn
    linear_combination d^2*h
  rw [this, Real.sqrt_sq hd.le]

/-- What leaving does, in terms of the unit vector `n` towards the surface point. -/
theorem leaving_eq (p : Particle ℝ) (mat : Material ℝ) (Es d : ℝ) (n : Vec3 ℝ)
    (hs : SurfaceAt mat p d n) :
    surface_leaving p mat Es =
      if inner p.dir n < 0 then
        if Es < (match mat.surface_binding_model with
          | .ISOTROPIC _ => p.E
          | _ => normalEnergy p.E p.dir n) then
          match mat.surface_binding_model with
          | .ISOTROPIC _ => .ok { p with E := p.E + -Es }
          | _ => .ok (surface_refraction p (times (-1) n) (-Es))
        else .ok { p with dir := mirrored p.dir n, backreflected := true }
      else .ok p := by
  obtain ⟨hd, hn, hc⟩ := hs
  have hdx : ∀ a c : ℝ, (a + d*c - a)/d = c := by intro a c; field_simp; ring
  have hdu : ∀ a c u : ℝ, (a + d*c - a)*u/d = c*u := by intro a c u; field_simp; ring
  have hdm : ∀ a c : ℝ, -(a + d*c - a)/d = -c := by intro a c; field_simp; ring
  have hdk : ∀ a c k : ℝ, k*(a + d*c - a)/d = k*c := by intro a c u; field_simp; ring
  have h2 : (2.0 : ℝ) = 2 := by norm_num
  have h0 : (0.0 : ℝ) = 0 := by norm_num
  have hin : n.x*p.dir.x + n.y*p.dir.y + n.z*p.dir.z = inner p.dir n := by
    unfold inner; ring
  have hin2 : p.E*(n.x*p.dir.x + n.y*p.dir.y + n.z*p.dir.z)
      *(n.x*p.dir.x + n.y*p.dir.y + n.z*p.dir.z) = normalEnergy p.E p.dir n := by
    rw [hin]; unfold normalEnergy; ring
  have hmir : (⟨-2*inner p.dir n*n.x + p.dir.x, -2*inner p.dir n*n.y + p.dir.y,
      -2*inner p.dir n*n.z + p.dir.z⟩ : Vec3 ℝ) = mirrored p.dir n := by
    simp only [mirrored, minus, times, Vec3.mk.injEq]
    refine ⟨by ring, by ring, by ring⟩
  have hneg : (⟨-n.x, -n.y, -n.z⟩ : Vec3 ℝ) = times (-1) n := by
    simp only [times, Vec3.mk.injEq]; refine ⟨by ring, by ring, by ring⟩
  unfold surface_leaving Material.closest_point
  simp only [hc, bind, Except.bind, sqrt_real, mag_eq d hd n hn, hdx, hdu, hdm, hdk, h2, h0, hin,
    lt_real, pure, Except.pure, hmir, hneg]
  have hE2 : p.E*inner p.dir n*inner p.dir n = normalEnergy p.E p.dir n := by
    unfold normalEnergy; ring
  rw [hE2]
  by_cases hcos : inner p.dir n < 0
  · rw [if_pos hcos, if_pos hcos]
    cases mat.surface_binding_model <;> rfl
  · rw [if_neg hcos, if_neg hcos]

/-- **C31, leaving (partial).** A particle crossing the energy barrier outwards and moving away from
the surface point (`inner p.dir n < 0`, `n` towards the surface) either pays exactly `Es`, being
refracted at the surface (or, for ISOTROPIC, keeping its direction), when its normal energy (total
energy for ISOTROPIC) exceeds `Es`, or else is reflected like in a mirror with its energy unchanged,
and marked.
Missing from C31: crossings with the direction pointing back to the surface, see
`C31_leaving_free_refuted`. -/
theorem C31_leaving_partial (p : Particle ℝ) (mat : Material ℝ) (Es d : ℝ) (n : Vec3 ℝ)
    (hb : Barrier mat p true false) (hs : SurfaceAt mat p d n)
    (hEs : mat.actual_surface_binding_energy p p.pos_old.x p.pos_old.y p.pos_old.z = .ok Es)
    (hEs0 : 0 ≤ Es) (hu : IsUnit p.dir) (hE : 0 ≤ p.E) (hout : inner p.dir n < 0) :
    ∃ q, surface_binding_energy p mat = .ok q ∧
      (Isotropic mat.surface_binding_model → Es < p.E → q = { p with E := p.E - Es }) ∧
      (¬ Isotropic mat.surface_binding_model → Es < normalEnergy p.E p.dir n →
        Refracted p q (times (-1) n) (-Es)) ∧
      ((Isotropic mat.surface_binding_model → p.E ≤ Es) →
        (¬ Isotropic mat.surface_binding_model → normalEnergy p.E p.dir n ≤ Es) →
        q = { p with dir := mirrored p.dir n, backreflected := true }) := by
  rw [binding_leaving p mat Es hb hEs, leaving_eq p mat Es d n hs, if_pos hout]
  have hne : ¬ Isotropic mat.surface_binding_model → Es < normalEnergy p.E p.dir n →
      Refracted p (surface_refraction p (times (-1) n) (-Es)) (times (-1) n) (-Es) := by
    intro _ h
    have hn : IsUnit (times (-1) n) := by
      have : n.x*n.x + n.y*n.y + n.z*n.z = 1 := hs.2.1
      unfold Spec.IsUnit inner times; simp only; linarith
    have hc : (inner p.dir n)^2 ≤ 1 := by
      have h1 : p.dir.x*p.dir.x + p.dir.y*p.dir.y + p.dir.z*p.dir.z = 1 := hu
      have h2 : n.x*n.x + n.y*n.y + n.z*n.z = 1 := hs.2.1
      have : 0 ≤ inner (cross p.dir n) (cross p.dir n) := by
        unfold inner
        nlinarith [mul_self_nonneg (cross p.dir n).x, mul_self_nonneg (cross p.dir n).y,
          mul_self_nonneg (cross p.dir n).z]
      have hid : inner (cross p.dir n) (cross p.dir n) + (inner p.dir n)^2 = 1 := by
        unfold inner cross; simp only
        linear_combination (n.x*n.x + n.y*n.y + n.z*n.z)*h1 + h2
      linarith
    have hneq : normalEnergy p.E p.dir (times (-1) n) = normalEnergy p.E p.dir n := by
      unfold normalEnergy inner times; simp only; ring
    have hle : normalEnergy p.E p.dir n ≤ p.E := by
      unfold normalEnergy; nlinarith
    refine C30_refraction p _ _ hu hn hE (by linarith) (by rw [hneq]; linarith)
  cases hm : mat.surface_binding_model with
  | ISOTROPIC c =>
    by_cases h : Es < p.E
    · refine ⟨_, if_pos h, ?_, ?_, ?_⟩
      · intro _ _; rw [sub_eq_add_neg]
      · intro h'; exact absurd trivial h'
      · intro h'; exact absurd (h' trivial) (not_le.mpr h)
    · refine ⟨_, if_neg h, ?_, ?_, ?_⟩
      · intro _ h'; exact absurd h' h
      · intro h'; exact absurd trivial h'
      · intro _ _; rfl
  | PLANAR c =>
    rw [hm] at hne
    by_cases h : Es < normalEnergy p.E p.dir n
    · exact ⟨_, if_pos h, fun h' => h'.elim, hne, fun _ h' => absurd (h' id) (not_le.mpr h)⟩
    · exact ⟨_, if_neg h, fun h' => h'.elim, fun _ h' => absurd h' h, fun _ _ => rfl⟩
  | TARGET =>
    rw [hm] at hne
    by_cases h : Es < normalEnergy p.E p.dir n
    · exact ⟨_, if_pos h, fun h' => h'.elim, hne, fun _ h' => absurd (h' id) (not_le.mpr h)⟩
    · exact ⟨_, if_neg h, fun h' => h'.elim, fun _ h' => absurd h' h, fun _ _ => rfl⟩
  | INDIVIDUAL =>
    rw [hm] at hne
    by_cases h : Es < normalEnergy p.E p.dir n
    · exact ⟨_, if_pos h, fun h' => h'.elim, hne, fun _ h' => absurd (h' id) (not_le.mpr h)⟩
    · exact ⟨_, if_neg h, fun h' => h'.elim, fun _ h' => absurd h' h, fun _ _ => rfl⟩
  | AVERAGE =>
    rw [hm] at hne
    by_cases h : Es < normalEnergy p.E p.dir n
    · exact ⟨_, if_pos h, fun h' => h'.elim, hne, fun _ h' => absurd (h' id) (not_le.mpr h)⟩
    · exact ⟨_, if_neg h, fun h' => h'.elim, fun _ h' => absurd h' h, fun _ _ => rfl⟩

/-- A mirrored unit direction is a unit vector and its normal component is reversed. -/
theorem C31_mirror (u n : Vec3 ℝ) (hu : IsUnit u) (hn : IsUnit n) :
    IsUnit (mirrored u n) ∧ inner (mirrored u n) n = -(inner u n) ∧
      cross (mirrored u n) n = cross u n := by
  have h1 : u.x*u.x + u.y*u.y + u.z*u.z = 1 := hu
  have h2 : n.x*n.x + n.y*n.y + n.z*n.z = 1 := hn
  refine ⟨?_, ?_, ?_⟩
  · unfold Spec.IsUnit mirrored inner minus times; simp only
    linear_combination h1 + 4*(u.x*n.x + u.y*n.y + u.z*n.z)^2*h2
  · unfold mirrored inner minus times; simp only
    linear_combination -2*(u.x*n.x + u.y*n.y + u.z*n.z)*h2
  · simp only [mirrored, cross, minus, times, Vec3.mk.injEq]
    refine ⟨by ring, by ring, by ring⟩

/-- **C31, entering after a reflection.** For every scalar: a particle marked as reflected that
crosses the barrier inwards pays nothing and only loses the mark. -/
theorem C31_reentering {F : Type} [Scalar F] (p : Particle F) (mat : Material F) (Es : F)
    (hb : Barrier mat p false true)
    (hEs : mat.actual_surface_binding_energy p p.pos_old.x p.pos_old.y p.pos_old.z = .ok Es)
    (hr : p.backreflected = true) :
    surface_binding_energy p mat = .ok { p with backreflected := false } := by
  rw [binding_entering p mat Es hb hEs]
  unfold surface_entering
  simp only [hr, if_true]
  rfl

/-- **C31, entering.** Any other particle crossing the barrier inwards gains exactly `Es`: refracted
towards the surface point, or, for ISOTROPIC, with unchanged direction. -/
theorem C31_entering (p : Particle ℝ) (mat : Material ℝ) (Es d : ℝ) (n : Vec3 ℝ)
    (hb : Barrier mat p false true) (hs : SurfaceAt mat p d n)
    (hEs : mat.actual_surface_binding_energy p p.pos_old.x p.pos_old.y p.pos_old.z = .ok Es)
    (hEs0 : 0 ≤ Es) (hu : IsUnit p.dir) (hE : 0 < p.E) (hr : p.backreflected = false) :
    ∃ q, surface_binding_energy p mat = .ok q ∧
      (Isotropic mat.surface_binding_model → q = { p with E := p.E + Es }) ∧
      (¬ Isotropic mat.surface_binding_model → Refracted p q n Es) := by
  rw [binding_entering p mat Es hb hEs]
  obtain ⟨hd, hn, hc⟩ := hs
  have hdx : ∀ a c : ℝ, (a + d*c - a)/d = c := by intro a c; field_simp; ring
  have hr' : Refracted p (surface_refraction p n Es) n Es :=
    C30_refraction p n Es hu hn hE.le (by linarith) (by unfold normalEnergy; positivity)
  unfold surface_entering Material.closest_point
  simp only [hr, Bool.false_eq_true, if_false, hc, bind, Except.bind, sqrt_real, mag_eq d hd n hn,
    hdx]
  cases hm : mat.surface_binding_model
  case ISOTROPIC c => exact ⟨_, rfl, fun _ => rfl, fun h => absurd trivial h⟩
  all_goals exact ⟨_, rfl, fun h => h.elim, fun _ => hr'⟩

/-- **C31, no crossing.** For every scalar: a particle that was and is on the same side of the energy
barrier is not changed by the surface potential; nothing is paid twice. -/
theorem C31_no_crossing {F : Type} [Scalar F] (p : Particle F) (mat : Material F) (Es : F) (b : Bool)
    (hb : Barrier mat p b b)
    (hEs : mat.actual_surface_binding_energy p p.pos_old.x p.pos_old.y p.pos_old.z = .ok Es) :
    surface_binding_energy p mat = .ok p := by
  obtain ⟨h1, h2⟩ := hb
  unfold surface_binding_energy Material.inside_energy_barrier
  simp only [hEs, h1, h2]
  cases b <;> rfl

/-- **C31 is false of the code for a particle whose direction points back.** The particle has
crossed the barrier outwards (its move followed the direction before its last collision) but now
points inwards: it pays nothing and is not marked; after its next move it has crossed the barrier
inwards and is given `Es`. It is back inside with more energy than it had. -/
theorem C31_leaving_free_refuted : ∃ (p q r : Particle ℝ) (mat : Material ℝ) (d : ℝ),
    Barrier mat p true false ∧ p.backreflected = false ∧ IsUnit p.dir ∧
    boundary_condition_planar p mat = .ok q ∧ q.E = p.E ∧ q.left = false ∧ q.stopped = false ∧
    q.backreflected = false ∧
    boundary_condition_planar (q.advance d q.asymptotic_deflection).1 mat = .ok r ∧
    Barrier mat (q.advance d q.asymptotic_deflection).1 false true ∧
    r.E = p.E + p.Es ∧ 0 < p.Es := by
  let geom : Geom ℝ := (⟨[1], [1], 1, 1⟩ : Mesh0D ℝ).toGeom
  let mat : Material ℝ := { CascadeExample.mat with
    geometry := geom, surface_binding_model := .INDIVIDUAL }
  let p : Particle ℝ := { CascadeExample.ion with
    Es := 10, pos := ⟨-2, 0, 0⟩, pos_old := ⟨-1/2, 0, 0⟩, track_trajectories := false,
    dir := ⟨1, 0, 0⟩, dir_old := ⟨1, 0, 0⟩ }
  have hadv : (p.advance (3/2) p.asymptotic_deflection).1
      = { p with pos := ⟨-1/2, 0, 0⟩, pos_old := ⟨-2, 0, 0⟩ } := by
    simp [Particle.advance, p, CascadeExample.ion, Particle.update_trajectory_tracker]
    norm_num
  have h1 : boundary_condition_planar p mat = .ok p := by
    unfold boundary_condition_planar surface_binding_energy
    simp [p, mat, geom, Mesh0D.toGeom, Material.inside_simulation_boundary, Material.closest_point,
      Material.inside_energy_barrier, Material.actual_surface_binding_energy,
      CascadeExample.ion, CascadeExample.mat, surface_leaving, pure, Except.pure, bind, Except.bind,
      Scalar.lt, Scalar.le]
    norm_num
    rw [show Real.sqrt 4 = 2 by
      rw [show (4:ℝ) = 2^2 by norm_num]; exact Real.sqrt_sq (by norm_num)]
    norm_num
  have h2 : RSat (boundary_condition_planar (p.advance (3/2) p.asymptotic_deflection).1 mat)
      (fun r => r.E = 11) (fun _ => False) := by
    rw [hadv]
    unfold boundary_condition_planar surface_binding_energy
    simp [p, mat, geom, Mesh0D.toGeom, Material.inside_simulation_boundary, Material.closest_point,
      Material.inside_energy_barrier, Material.actual_surface_binding_energy,
      CascadeExample.ion, CascadeExample.mat, surface_entering]
    norm_num [surface_refraction]
  cases hr : boundary_condition_planar (p.advance (3/2) p.asymptotic_deflection).1 mat with
  | error e => rw [hr] at h2; exact h2.elim
  | ok r =>
    rw [hr] at h2
    refine ⟨p, p, r, mat, 3/2, ⟨?_, ?_⟩, rfl, ?_, h1, rfl, rfl, rfl, rfl, hr, ?_, ?_, ?_⟩
    · simp [mat, geom, Mesh0D.toGeom, p]; norm_num
    · simp [mat, geom, Mesh0D.toGeom, p]
    · simp [Spec.IsUnit, inner, p]
    · rw [hadv]; constructor <;> simp [mat, geom, Mesh0D.toGeom] <;> norm_num
    · rw [show r.E = 11 from h2]; simp [p, CascadeExample.ion]; norm_num
    · simp [p]

/-! ## C33 -/

section
variable {F : Type} [Scalar F]

/-- What a boundary check may never touch. -/
structure Untouched (p q : Particle F) : Prop where
  same : SameParticle p q
  pos : q.pos = p.pos
  pos_old : q.pos_old = p.pos_old
  dir_old : q.dir_old = p.dir_old
  asymptotic_deflection : q.asymptotic_deflection = p.asymptotic_deflection
  number_collision_events : q.number_collision_events = p.number_collision_events
  energies : q.energies = p.energies
  first_step : q.first_step = p.first_step

theorem Untouched.refl (p : Particle F) : Untouched p p :=
  ⟨⟨rfl, rfl, rfl, rfl, rfl, rfl, rfl, rfl, rfl, rfl, rfl, rfl, rfl⟩, rfl, rfl, rfl, rfl, rfl, rfl,
    rfl⟩

theorem untouched_of (p : Particle F) (E : F) (dir : Vec3 F) (b st gone : Bool)
    (l : List (TrajectoryElement F)) :
    Untouched p { p with
      E := E, dir := dir, backreflected := b, stopped := st, left := gone, trajectory := l } :=
  ⟨⟨rfl, rfl, rfl, rfl, rfl, rfl, rfl, rfl, rfl, rfl, rfl, rfl, rfl⟩, rfl, rfl, rfl, rfl, rfl, rfl,
    rfl⟩

/-- The surface potential changes only energy, direction and the reflection mark. -/
theorem surface_changes (p : Particle F) (mat : Material F) :
    RSat (surface_binding_energy p mat)
      (fun q => ∃ E dir b, q = { p with E := E, dir := dir, backreflected := b }) (fun _ => True) := by
  unfold surface_binding_energy
  simp only [rsat_bind]
  refine rsat_mono (rsat_trivial _) (fun Es _ => ?_) (fun _ _ => trivial)
  refine rsat_mono (rsat_trivial _) (fun b1 _ => ?_) (fun _ _ => trivial)
  refine rsat_mono (rsat_trivial _) (fun b2 _ => ?_) (fun _ _ => trivial)
  have hent : RSat (surface_entering p mat Es)
      (fun q => ∃ E dir b, q = { p with E := E, dir := dir, backreflected := b })
      (fun _ => True) := by
    unfold surface_entering
    split
    · exact ⟨_, _, _, rfl⟩
    · simp only [rsat_bind]
      refine rsat_mono (rsat_trivial _) (fun c _ => ?_) (fun _ _ => trivial)
      split <;> exact ⟨_, _, _, rfl⟩
  have hlv : RSat (surface_leaving p mat Es)
      (fun q => ∃ E dir b, q = { p with E := E, dir := dir, backreflected := b })
      (fun _ => True) := by
    unfold surface_leaving
    simp only [rsat_bind]
    refine rsat_mono (rsat_trivial _) (fun c _ => ?_) (fun _ _ => trivial)
    (repeat' split) <;> exact ⟨_, _, _, rfl⟩
  cases b1 <;> cases b2 <;> simp only [Bool.not_true, Bool.not_false, Bool.and_true, Bool.and_false,
    Bool.false_eq_true, if_false, if_true, rsat_pure]
  · exact ⟨_, _, _, rfl⟩
  · exact hlv
  · refine rsat_mono hent (fun q hq => hq) (fun _ _ => trivial)
  · exact ⟨_, _, _, rfl⟩

/-- **C33.** For every scalar and geometry. A particle still in flight is marked `left` exactly when
it is outside the simulation boundary; marked `stopped` exactly when it is inside it, below its
cutoff and within the energy barrier; in these cases nothing else changes but the trajectory, which
gets the final point if it is tracked; otherwise exactly the surface potential is applied. In every
case position, identity and counters stay the same. -/
theorem C33_boundary (p q : Particle F) (mat : Material F) (sim bar : Bool)
    (hsim : mat.geometry.inside_simulation_boundary p.pos.x p.pos.y p.pos.z = .ok sim)
    (hbar : mat.geometry.inside_energy_barrier p.pos.x p.pos.y p.pos.z = .ok bar)
    (hl : p.left = false) (hst : p.stopped = false)
    (run : boundary_condition_planar p mat = .ok q) :
    (q.left = true ↔ sim = false) ∧
    (q.stopped = true ↔ sim = true ∧ (p.E <. p.Ec) = true ∧ bar = true) ∧
    (q.left = true ∨ q.stopped = true → q.E = p.E ∧ q.dir = p.dir ∧
      q.backreflected = p.backreflected ∧
      q.trajectory = p.trajectory ++ (if p.track_trajectories then [finalElement p] else [])) ∧
    (q.left = false → q.stopped = false → surface_binding_energy p mat = .ok q ∧
      q.trajectory = p.trajectory) ∧
    Untouched p q := by
  unfold boundary_condition_planar Material.inside_simulation_boundary
    Material.inside_energy_barrier at run
  simp only [hsim, hbar, bind, Except.bind, pure, Except.pure] at run
  have hs := surface_changes p mat
  have hup : ∀ r : Particle F, r.update_trajectory_tracker = { r with
      trajectory := r.trajectory ++ (if r.track_trajectories then [finalElement r] else []) } := by
    intro r
    unfold Particle.update_trajectory_tracker finalElement
    split
    · rfl
    · simp
  simp only [hup] at run
  cases sim
  · simp only [Bool.not_false, if_true, Bool.not_true, Bool.and_false, Bool.false_and,
      Bool.false_eq_true, if_false, Except.ok.injEq] at run
    subst run
    exact ⟨by simp, by simp [hst], fun _ => ⟨rfl, rfl, rfl, rfl⟩, by simp,
      untouched_of p _ _ _ _ _ _⟩
  · simp only [Bool.not_true, Bool.false_eq_true, if_false, hl, Bool.not_false, Bool.and_true]
      at run
    by_cases hE : ((p.E <. p.Ec) && bar) = true
    · rw [if_pos hE] at run
      rw [Bool.and_eq_true] at hE
      simp only [Bool.not_true, Bool.and_false, Bool.false_and, Bool.false_eq_true, if_false,
        Except.ok.injEq] at run
      subst run
      exact ⟨by simp [hl], by simp [hE], fun _ => ⟨rfl, rfl, rfl, rfl⟩, by simp,
        untouched_of p _ _ _ _ _ _⟩
    · rw [if_neg hE] at run
      simp only [hst, hl, Bool.not_false, Bool.and_self, if_true] at run
      rw [Bool.and_eq_true] at hE
      obtain ⟨E, dir, b, hq⟩ := rsat_of_ok hs run
      subst hq
      refine ⟨by simp [hl], ?_, by simp [hl, hst], fun _ _ => ⟨run, rfl⟩, untouched_of p _ _ _ _ _ _⟩
      simp only [hst, Bool.false_eq_true, true_and, false_iff]
      exact hE

end

/-! ## C62: entering particles move into the target -/

/-- **C62 (partial).** A particle entering a target whose closest surface point lies ahead
(`inner p.dir n > 0` with `n` towards the surface point) moves on towards it: its direction still
has a positive component along `n`.
Missing: particles that jump across the barrier and the surface in one step, whose closest surface
point lies behind them; these are turned round (`C62_refuted`). -/
theorem C62_entering_partial (p : Particle ℝ) (mat : Material ℝ) (Es d : ℝ) (n : Vec3 ℝ)
    (hb : Barrier mat p false true) (hs : SurfaceAt mat p d n)
    (hEs : mat.actual_surface_binding_energy p p.pos_old.x p.pos_old.y p.pos_old.z = .ok Es)
    (hEs0 : 0 ≤ Es) (hu : IsUnit p.dir) (hE : 0 < p.E) (hr : p.backreflected = false)
    (hin : 0 < inner p.dir n) :
    ∃ q, surface_binding_energy p mat = .ok q ∧ 0 < inner q.dir n ∧
      inner p.dir n ≤ inner q.dir n := by
  obtain ⟨q, h1, h2, h3⟩ := C31_entering p mat Es d n hb hs hEs hEs0 hu hE hr
  refine ⟨q, h1, ?_⟩
  by_cases hi : Isotropic mat.surface_binding_model
  · rw [h2 hi]; exact ⟨hin, le_refl _⟩
  · obtain ⟨r1, r2, r3, r4, r5, r6⟩ := h3 hi
    have hc : (inner p.dir n)^2 ≤ 1 := by
      have h1 : p.dir.x*p.dir.x + p.dir.y*p.dir.y + p.dir.z*p.dir.z = 1 := hu
      have h2 : n.x*n.x + n.y*n.y + n.z*n.z = 1 := hs.2.1
      have : 0 ≤ inner (cross p.dir n) (cross p.dir n) := by
        unfold inner
        nlinarith [mul_self_nonneg (cross p.dir n).x, mul_self_nonneg (cross p.dir n).y,
          mul_self_nonneg (cross p.dir n).z]
      have hid : inner (cross p.dir n) (cross p.dir n) + (inner p.dir n)^2 = 1 := by
        unfold inner cross; simp only
        linear_combination (n.x*n.x + n.y*n.y + n.z*n.z)*h1 + h2
      linarith
    have hle : inner p.dir n ≤ inner q.dir n := by
      unfold normalEnergy at r4
      rw [r1] at r4
      by_contra hlt
      rw [not_le] at hlt
      have h7 : (inner q.dir n)^2 < (inner p.dir n)^2 := by nlinarith
      nlinarith
    exact ⟨hin.trans_le hle, hle⟩

/-- **C62 is false of the code.** On a homogeneous target a particle moving straight into the
surface which crosses both the energy barrier and the surface in one step comes out moving
backwards: its direction is reversed. -/
theorem C62_refuted : ∃ (p q : Particle ℝ) (mat : Material ℝ), Barrier mat p false true ∧
    p.dir = ⟨1, 0, 0⟩ ∧ 0 < p.E ∧ 0 < p.Es ∧ 0 < p.pos.x ∧ p.backreflected = false ∧
    boundary_condition_planar p mat = .ok q ∧ q.left = false ∧ q.stopped = false ∧
    q.dir = ⟨-1, 0, 0⟩ := by
  let geom : Geom ℝ := (⟨[1], [1], 1, 1⟩ : Mesh0D ℝ).toGeom
  let mat : Material ℝ := { CascadeExample.mat with
    geometry := geom, surface_binding_model := .INDIVIDUAL }
  let p : Particle ℝ := { CascadeExample.ion with
    E := 1, Es := 3, pos := ⟨1, 0, 0⟩, pos_old := ⟨-2, 0, 0⟩, track_trajectories := false,
    dir := ⟨1, 0, 0⟩, dir_old := ⟨1, 0, 0⟩ }
  have h4 : Real.sqrt 4 = 2 := by
    rw [show (4:ℝ) = 2^2 by norm_num]; exact Real.sqrt_sq (by norm_num)
  have h2 : RSat (boundary_condition_planar p mat)
      (fun r => r.dir = ⟨-1, 0, 0⟩ ∧ r.left = false ∧ r.stopped = false) (fun _ => False) := by
    unfold boundary_condition_planar surface_binding_energy
    simp [p, mat, geom, Mesh0D.toGeom, Material.inside_simulation_boundary, Material.closest_point,
      Material.inside_energy_barrier, Material.actual_surface_binding_energy,
      CascadeExample.ion, CascadeExample.mat, surface_entering]
    norm_num [surface_refraction, Vec3.dot, h4]
  cases hr : boundary_condition_planar p mat with
  | error e => rw [hr] at h2; exact h2.elim
  | ok r =>
    rw [hr] at h2
    refine ⟨p, r, mat, ⟨?_, ?_⟩, rfl, ?_, ?_, ?_, rfl, hr, h2.2.1, h2.2.2, h2.1⟩
    · simp [mat, geom, Mesh0D.toGeom, p]
    · simp [mat, geom, Mesh0D.toGeom, p]
    all_goals simp [p]

end RustBCA
