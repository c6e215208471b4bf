import Verif.Spec.Energy
import Verif.Proofs.PassTrace
import Verif.Props.Collision
import Verif.Props.Stopping
import Verif.Props.Surface

/-!
# Energies and directions through a pass (helper lemmas for C71-C73, over the reals)
-/

set_option linter.unusedSectionVars false
set_option linter.unusedVariables false

namespace RustBCA
open Scalar Spec

/-! ## Vectors -/

theorem over_norm (x y z : ℝ) :
    (x/Real.sqrt (x*x + y*y + z*z))*(x/Real.sqrt (x*x + y*y + z*z))
      + (y/Real.sqrt (x*x + y*y + z*z))*(y/Real.sqrt (x*x + y*y + z*z))
      + (z/Real.sqrt (x*x + y*y + z*z))*(z/Real.sqrt (x*x + y*y + z*z)) = 1 ∨
    (x = 0 ∧ y = 0 ∧ z = 0) := by
  by_cases h : x*x + y*y + z*z = 0
  · right
    have hx := mul_self_nonneg x
    have hy := mul_self_nonneg y
    have hz := mul_self_nonneg z
    exact ⟨mul_self_eq_zero.1 (by linarith), mul_self_eq_zero.1 (by linarith),
      mul_self_eq_zero.1 (by linarith)⟩
  · left
    have hpos : 0 < x*x + y*y + z*z := lt_of_le_of_ne
      (add_nonneg (add_nonneg (mul_self_nonneg x) (mul_self_nonneg y)) (mul_self_nonneg z))
      (Ne.symm h)
    have hs := Real.mul_self_sqrt hpos.le
    have hs0 : Real.sqrt (x*x + y*y + z*z) ≠ 0 := (Real.sqrt_pos.2 hpos).ne'
    obtain ⟨r, hr⟩ : ∃ r, r = Real.sqrt (x*x + y*y + z*z) := ⟨_, rfl⟩
    rw [← hr] at hs hs0 ⊢
    field_simp
    linarith

theorem normalize_le_one (v : Vec3 ℝ) : Spec.inner v.normalize v.normalize ≤ 1 := by
  unfold Vec3.normalize Vec3.magnitude Spec.inner
  simp only [sqrt_real]
  rcases over_norm v.x v.y v.z with h | ⟨h1, h2, h3⟩
  · exact h.le
  · rw [h1, h2, h3]; simp

/-- Cauchy-Schwarz for a direction at most unit and a unit normal. -/
theorem inner_sq_le (d n : Vec3 ℝ) (hd : Spec.inner d d ≤ 1) (hn : Spec.inner n n = 1) :
    (Spec.inner d n)^2 ≤ 1 := by
  unfold Spec.inner at *
  nlinarith [sq_nonneg (d.x*n.y - d.y*n.x), sq_nonneg (d.x*n.z - d.z*n.x),
    sq_nonneg (d.y*n.z - d.z*n.y)]

theorem refraction_le_one (p : Particle ℝ) (n : Vec3 ℝ) (Es : ℝ) (hE : 0 ≤ p.E)
    (hd : Spec.inner p.dir p.dir ≤ 1) (hE' : 0 ≤ p.E + Es)
    (hn : (Spec.inner n n = 1 ∧ 0 ≤ p.E*(Spec.inner p.dir n)^2 + Es) ∨
      (n = ⟨0, 0, 0⟩ ∧ 0 ≤ Es)) :
    Spec.inner (surface_refraction p n Es).dir (surface_refraction p n Es).dir ≤ 1 := by
  rw [refraction_dir p n Es hE]
  rcases hE'.eq_or_lt with h0 | hpos
  · rw [← h0]
    simp [Spec.inner, plus, times]
  have hA := Real.mul_self_sqrt hE
  have hB := Real.mul_self_sqrt hE'
  have hB0 : 0 < Real.sqrt (p.E + Es) := Real.sqrt_pos.2 hpos
  obtain ⟨A, hAd⟩ : ∃ A, A = Real.sqrt p.E := ⟨_, rfl⟩
  obtain ⟨B, hBd⟩ : ∃ B, B = Real.sqrt (p.E + Es) := ⟨_, rfl⟩
  obtain ⟨c, hc⟩ : ∃ c, c = Spec.inner p.dir n := ⟨_, rfl⟩
  obtain ⟨R, hR⟩ : ∃ R, R = Real.sqrt (p.E*(Spec.inner p.dir n)^2 + Es) := ⟨_, rfl⟩
  rw [← hR, ← hAd, ← hBd, ← hc]
  rw [← hAd] at hA
  rw [← hBd] at hB hB0
  have hexp : Spec.inner (plus (times (A/B) p.dir) (times ((-A*c + R)/B) n))
      (plus (times (A/B) p.dir) (times ((-A*c + R)/B) n)) =
      (A*A*Spec.inner p.dir p.dir + 2*A*(-A*c + R)*c
        + (-A*c + R)*(-A*c + R)*Spec.inner n n)/(B*B) := by
    rw [hc]
    unfold Spec.inner plus times
    field_simp
    ring
  rw [hexp, div_le_one (by positivity)]
  rcases hn with ⟨h1, h2⟩ | ⟨h1, h2⟩
  · have hR2 := Real.mul_self_sqrt h2
    rw [← hR, ← hc] at hR2
    rw [h1, hB]
    have : A*A*Spec.inner p.dir p.dir + 2*A*(-A*c + R)*c + (-A*c + R)*(-A*c + R)*1 =
        A*A*Spec.inner p.dir p.dir + (R*R - A*A*c^2) := by ring
    rw [this, hR2, hA]
    nlinarith
  · have hc0 : c = 0 := by rw [hc, h1]; simp [Spec.inner]
    have hn0 : Spec.inner n n = 0 := by rw [h1]; simp [Spec.inner]
    rw [hc0, hn0, hB, hA]
    nlinarith

/-! ## The surface -/

theorem weighted_nonneg (l cs : List ℝ) (hl : ∀ a ∈ l, 0 ≤ a) (hc : ∀ c ∈ cs, 0 ≤ c) :
    0 ≤ Material.weighted_sum l cs := by
  unfold Material.weighted_sum
  rw [fsum_real]
  refine List.sum_nonneg fun x hx => ?_
  obtain ⟨⟨a, b⟩, hm, rfl⟩ := List.mem_map.mp hx
  exact mul_nonneg (hl a (List.of_mem_zip hm).1) (hc b (List.of_mem_zip hm).2)

theorem weighted_zero (l cs : List ℝ) (hl : ∀ a ∈ l, a = 0) : Material.weighted_sum l cs = 0 := by
  unfold Material.weighted_sum
  rw [fsum_real]
  refine List.sum_eq_zero fun x hx => ?_
  obtain ⟨⟨a, b⟩, hm, rfl⟩ := List.mem_map.mp hx
  simp only [hl a (List.of_mem_zip hm).1, zero_mul]

/-- The surface binding energy used is not negative, and zero if nothing is bound. -/
theorem actual_Es_sound {mat : Material ℝ} {p : Particle ℝ} (hm : SoundTarget mat)
    (hp : 0 ≤ p.Es) (x y z : ℝ) :
    RSat (mat.actual_surface_binding_energy p x y z)
      (fun Es => 0 ≤ Es ∧ (NoSurfaceBinding mat p → Es = 0)) (fun _ => True) := by
  unfold Material.actual_surface_binding_energy
  simp only [rsat_bind]
  refine rsat_mono (rsat_eq _) (fun cs hcs => ?_) (fun _ _ => trivial)
  have hw := weighted_nonneg mat.Es cs hm.Es (hm.concentrations x y z cs hcs)
  have hz : NoSurfaceBinding mat p → Material.weighted_sum mat.Es cs = 0 :=
    fun h => weighted_zero _ _ h.2
  have e0 : (0.0 : ℝ) = 0 := by norm_num
  have e5 : (0.5 : ℝ) = 1/2 := by norm_num
  have hI : RSat (pure p.Es : Res ℝ) (fun Es => 0 ≤ Es ∧ (NoSurfaceBinding mat p → Es = 0))
      (fun _ => True) := ⟨hp, fun h => h.1⟩
  have hT : RSat (if (p.Es ==. 0.0) = true then pure 0.0
      else pure (Material.weighted_sum mat.Es cs) : Res ℝ)
      (fun Es => 0 ≤ Es ∧ (NoSurfaceBinding mat p → Es = 0)) (fun _ => True) := by
    split
    · exact ⟨e0.ge, fun _ => e0⟩
    · exact ⟨hw, hz⟩
  have hA : RSat (if ((p.Es ==. 0.0) || (fsum mat.Es ==. 0.0)) = true then pure 0.0
      else pure (0.5*(p.Es + Material.weighted_sum mat.Es cs)) : Res ℝ)
      (fun Es => 0 ≤ Es ∧ (NoSurfaceBinding mat p → Es = 0)) (fun _ => True) := by
    split
    · exact ⟨e0.ge, fun _ => e0⟩
    · refine ⟨?_, fun h => ?_⟩
      · show 0 ≤ 0.5*(p.Es + Material.weighted_sum mat.Es cs)
        rw [e5]; positivity
      · show 0.5*(p.Es + Material.weighted_sum mat.Es cs) = 0
        rw [hz h, h.1]; norm_num
  cases mat.surface_binding_model with
  | TARGET => exact hT
  | INDIVIDUAL => exact hI
  | AVERAGE => exact hA
  | ISOTROPIC c => cases c <;> first | exact hT | exact hI | exact hA
  | PLANAR c => cases c <;> first | exact hT | exact hI | exact hA

/-- What the surface may do: the particle stays sound and gains at most `Es`; with `Es = 0` its
energy is unchanged. -/
def SurfaceSound (p : Particle ℝ) (Es : ℝ) (q : Particle ℝ) : Prop :=
  0 ≤ q.E ∧ Spec.inner q.dir q.dir ≤ 1 ∧ q.E ≤ p.E + Es ∧ (Es = 0 → q.E = p.E)

theorem entering_sound (p : Particle ℝ) (mat : Material ℝ) (Es : ℝ) (hE : 0 ≤ p.E)
    (hd : Spec.inner p.dir p.dir ≤ 1) (hEs : 0 ≤ Es) :
    RSat (surface_entering p mat Es) (SurfaceSound p Es) (fun _ => True) := by
  unfold surface_entering
  simp only
  split
  · exact ⟨hE, hd, by simp only; linarith, fun _ => rfl⟩
  simp only [rsat_bind]
  refine rsat_mono (rsat_trivial _) (fun c _ => ?_) (fun _ _ => trivial)
  obtain ⟨x2, y2, z2⟩ := c
  simp only [sqrt_real]
  have hn := over_norm (x2 - p.pos.x) (y2 - p.pos.y) (z2 - p.pos.z)
  have href : ∀ n : Vec3 ℝ, (Spec.inner n n = 1 ∨ n = ⟨0, 0, 0⟩) →
      SurfaceSound p Es (surface_refraction p n Es) := by
    intro n hn
    refine ⟨add_nonneg hE hEs, ?_, le_refl _, fun h => ?_⟩
    · refine refraction_le_one p n Es hE hd (by linarith) ?_
      rcases hn with h | h
      · exact Or.inl ⟨h, by positivity⟩
      · exact Or.inr ⟨h, hEs⟩
    · show p.E + Es = p.E
      rw [h, add_zero]
  have hn' : Spec.inner (⟨(x2 - p.pos.x)/Real.sqrt ((x2 - p.pos.x)*(x2 - p.pos.x)
        + (y2 - p.pos.y)*(y2 - p.pos.y) + (z2 - p.pos.z)*(z2 - p.pos.z)),
      (y2 - p.pos.y)/Real.sqrt ((x2 - p.pos.x)*(x2 - p.pos.x)
        + (y2 - p.pos.y)*(y2 - p.pos.y) + (z2 - p.pos.z)*(z2 - p.pos.z)),
      (z2 - p.pos.z)/Real.sqrt ((x2 - p.pos.x)*(x2 - p.pos.x)
        + (y2 - p.pos.y)*(y2 - p.pos.y) + (z2 - p.pos.z)*(z2 - p.pos.z))⟩ : Vec3 ℝ)
      ⟨(x2 - p.pos.x)/Real.sqrt ((x2 - p.pos.x)*(x2 - p.pos.x)
        + (y2 - p.pos.y)*(y2 - p.pos.y) + (z2 - p.pos.z)*(z2 - p.pos.z)),
      (y2 - p.pos.y)/Real.sqrt ((x2 - p.pos.x)*(x2 - p.pos.x)
        + (y2 - p.pos.y)*(y2 - p.pos.y) + (z2 - p.pos.z)*(z2 - p.pos.z)),
      (z2 - p.pos.z)/Real.sqrt ((x2 - p.pos.x)*(x2 - p.pos.x)
        + (y2 - p.pos.y)*(y2 - p.pos.y) + (z2 - p.pos.z)*(z2 - p.pos.z))⟩ = 1 ∨
      (⟨(x2 - p.pos.x)/Real.sqrt ((x2 - p.pos.x)*(x2 - p.pos.x)
        + (y2 - p.pos.y)*(y2 - p.pos.y) + (z2 - p.pos.z)*(z2 - p.pos.z)),
      (y2 - p.pos.y)/Real.sqrt ((x2 - p.pos.x)*(x2 - p.pos.x)
        + (y2 - p.pos.y)*(y2 - p.pos.y) + (z2 - p.pos.z)*(z2 - p.pos.z)),
      (z2 - p.pos.z)/Real.sqrt ((x2 - p.pos.x)*(x2 - p.pos.x)
        + (y2 - p.pos.y)*(y2 - p.pos.y) + (z2 - p.pos.z)*(z2 - p.pos.z))⟩ : Vec3 ℝ)
        = ⟨0, 0, 0⟩ := by
    rcases hn with h | ⟨h1, h2, h3⟩
    · exact Or.inl h
    · right; rw [h1, h2, h3]; simp
  cases mat.surface_binding_model with
  | ISOTROPIC c =>
    exact ⟨add_nonneg hE hEs, hd, le_refl _, fun h => by simp only [h, add_zero]⟩
  | TARGET => exact href _ hn'
  | INDIVIDUAL => exact href _ hn'
  | AVERAGE => exact href _ hn'
  | PLANAR c => exact href _ hn'

theorem leaving_sound (p : Particle ℝ) (mat : Material ℝ) (Es : ℝ) (hE : 0 ≤ p.E)
    (hd : Spec.inner p.dir p.dir ≤ 1) (hEs : 0 ≤ Es) :
    RSat (surface_leaving p mat Es) (fun q => SurfaceSound p 0 q ∨
      (SurfaceSound p Es q ∧ q.E = p.E - Es)) (fun _ => True) := by
  unfold surface_leaving
  simp only [rsat_bind]
  refine rsat_mono (rsat_trivial _) (fun c _ => ?_) (fun _ _ => trivial)
  obtain ⟨x2, y2, z2⟩ := c
  simp only [sqrt_real]
  have hn := over_norm (x2 - p.pos.x) (y2 - p.pos.y) (z2 - p.pos.z)
  obtain ⟨dx, hdx⟩ : ∃ dx, dx = x2 - p.pos.x := ⟨_, rfl⟩
  obtain ⟨dy, hdy⟩ : ∃ dy, dy = y2 - p.pos.y := ⟨_, rfl⟩
  obtain ⟨dz, hdz⟩ : ∃ dz, dz = z2 - p.pos.z := ⟨_, rfl⟩
  rw [← hdx, ← hdy, ← hdz] at hn ⊢
  obtain ⟨mag, hmag⟩ : ∃ mag, mag = Real.sqrt (dx*dx + dy*dy + dz*dz) := ⟨_, rfl⟩
  rw [← hmag] at hn ⊢
  have e0 : (0.0 : ℝ) = 0 := by norm_num
  have e2 : (2.0 : ℝ) = 2 := by norm_num
  obtain ⟨c, hc⟩ : ∃ c, c = dx*p.dir.x/mag + dy*p.dir.y/mag + dz*p.dir.z/mag := ⟨_, rfl⟩
  rw [← hc]
  have hself : SurfaceSound p 0 p := ⟨hE, hd, by linarith, fun _ => rfl⟩
  split
  swap
  · exact Or.inl hself
  rename_i hneg
  rw [lt_real, e0] at hneg
  have hunit : dx/mag*(dx/mag) + dy/mag*(dy/mag) + dz/mag*(dz/mag) = 1 := by
    rcases hn with h | ⟨h1, h2, h3⟩
    · exact h
    · rw [h1, h2, h3] at hc
      simp only [zero_mul, zero_div, add_zero] at hc
      rw [hc] at hneg
      exact absurd hneg (lt_irrefl _)
  have hcn : c = Spec.inner p.dir ⟨dx/mag, dy/mag, dz/mag⟩ := by
    rw [hc]; unfold Spec.inner; ring
  have hc1 : c^2 ≤ 1 := by
    rw [hcn]; exact inner_sq_le p.dir _ hd hunit
  have hunit' : Spec.inner (⟨-dx/mag, -dy/mag, -dz/mag⟩ : Vec3 ℝ) ⟨-dx/mag, -dy/mag, -dz/mag⟩ = 1 := by
    unfold Spec.inner; rw [← hunit]; ring
  have hcn' : (Spec.inner p.dir ⟨-dx/mag, -dy/mag, -dz/mag⟩)^2 = c^2 := by
    rw [hcn]; unfold Spec.inner; ring
  have href : Es < p.E*c*c → SurfaceSound p Es
      (surface_refraction p ⟨-dx/mag, -dy/mag, -dz/mag⟩ (-Es)) ∧
      (surface_refraction p ⟨-dx/mag, -dy/mag, -dz/mag⟩ (-Es)).E = p.E - Es := by
    intro hlt
    have h1 : p.E*c*c ≤ p.E := by nlinarith
    refine ⟨⟨?_, ?_, ?_, ?_⟩, ?_⟩
    · show 0 ≤ p.E + -Es
      linarith
    · refine refraction_le_one p _ (-Es) hE hd (by linarith) (Or.inl ⟨hunit', ?_⟩)
      rw [hcn']; nlinarith
    · show p.E + -Es ≤ p.E + Es
      linarith
    · intro h
      show p.E + -Es = p.E
      rw [h]; ring
    · show p.E + -Es = p.E - Es
      ring
  have hback : SurfaceSound p 0 { p with
      dir := ⟨-2.0*c*dx/mag + p.dir.x, -2.0*c*dy/mag + p.dir.y, -2.0*c*dz/mag + p.dir.z⟩
      backreflected := true } := by
    refine ⟨hE, ?_, by simp only; linarith, fun _ => rfl⟩
    simp only
    have : Spec.inner (⟨-2.0*c*dx/mag + p.dir.x, -2.0*c*dy/mag + p.dir.y,
        -2.0*c*dz/mag + p.dir.z⟩ : Vec3 ℝ) ⟨-2.0*c*dx/mag + p.dir.x, -2.0*c*dy/mag + p.dir.y,
        -2.0*c*dz/mag + p.dir.z⟩ = Spec.inner p.dir p.dir +
        4*c^2*(dx/mag*(dx/mag) + dy/mag*(dy/mag) + dz/mag*(dz/mag)) -
        4*c*Spec.inner p.dir ⟨dx/mag, dy/mag, dz/mag⟩ := by
      rw [e2]; unfold Spec.inner; ring
    rw [this, hunit, ← hcn]
    nlinarith
  cases mat.surface_binding_model with
  | ISOTROPIC k =>
    simp only
    split
    · rename_i h
      rw [lt_real] at h
      refine Or.inr ⟨⟨?_, hd, ?_, ?_⟩, ?_⟩
      · show 0 ≤ p.E + -Es
        linarith
      · show p.E + -Es ≤ p.E + Es
        linarith
      · intro h; show p.E + -Es = p.E
        rw [h]; ring
      · show p.E + -Es = p.E - Es
        ring
    · exact Or.inl hback
  | TARGET =>
    simp only; split
    · rename_i h; rw [lt_real] at h; exact Or.inr (href h)
    · exact Or.inl hback
  | INDIVIDUAL =>
    simp only; split
    · rename_i h; rw [lt_real] at h; exact Or.inr (href h)
    · exact Or.inl hback
  | AVERAGE =>
    simp only; split
    · rename_i h; rw [lt_real] at h; exact Or.inr (href h)
    · exact Or.inl hback
  | PLANAR k =>
    simp only; split
    · rename_i h; rw [lt_real] at h; exact Or.inr (href h)
    · exact Or.inl hback

/-- What the boundary does to energy and direction. -/
structure BoundarySound (mat : Material ℝ) (p q : Particle ℝ) : Prop where
  E : 0 ≤ q.E
  dir : Spec.inner q.dir q.dir ≤ 1
  gain : q.E ≤ p.E ∨ ∃ Es, q.E ≤ p.E + Es ∧
    mat.actual_surface_binding_energy p p.pos_old.x p.pos_old.y p.pos_old.z = .ok Es ∧
    mat.geometry.inside_energy_barrier p.pos_old.x p.pos_old.y p.pos_old.z = .ok false ∧
    mat.geometry.inside_energy_barrier p.pos.x p.pos.y p.pos.z = .ok true
  free : NoSurfaceBinding mat p → q.E = p.E
  m : q.m = p.m
  Z : q.Z = p.Z
  Es : q.Es = p.Es

theorem BoundarySound.same {mat : Material ℝ} {p q : Particle ℝ} (hE : 0 ≤ p.E)
    (hd : Spec.inner p.dir p.dir ≤ 1) (h1 : q.E = p.E) (h2 : q.dir = p.dir) (h3 : q.m = p.m)
    (h4 : q.Z = p.Z) (h5 : q.Es = p.Es) : BoundarySound mat p q :=
  ⟨h1 ▸ hE, h2 ▸ hd, Or.inl h1.le, fun _ => h1, h3, h4, h5⟩

theorem binding_sound {mat : Material ℝ} {p : Particle ℝ} (hm : SoundTarget mat) (hE : 0 ≤ p.E)
    (hd : Spec.inner p.dir p.dir ≤ 1) (hEs : 0 ≤ p.Es) :
    RSat (surface_binding_energy p mat) (BoundarySound mat p) (fun _ => True) := by
  refine rsat_mono (rsat_and (rsat_eq (surface_binding_energy p mat)) (surface_changes p mat))
    (fun q hq => ?_) (fun _ _ => trivial)
  obtain ⟨run, E', dir', b, hfr⟩ := hq
  have key : RSat (surface_binding_energy p mat) (fun q => 0 ≤ q.E ∧ Spec.inner q.dir q.dir ≤ 1 ∧
      (q.E ≤ p.E ∨ ∃ Es, q.E ≤ p.E + Es ∧
        mat.actual_surface_binding_energy p p.pos_old.x p.pos_old.y p.pos_old.z = .ok Es ∧
        mat.geometry.inside_energy_barrier p.pos_old.x p.pos_old.y p.pos_old.z = .ok false ∧
        mat.geometry.inside_energy_barrier p.pos.x p.pos.y p.pos.z = .ok true) ∧
      (NoSurfaceBinding mat p → q.E = p.E)) (fun _ => True) := by
    unfold surface_binding_energy Material.inside_energy_barrier
    simp only [rsat_bind]
    refine rsat_mono (rsat_and (rsat_eq _) (actual_Es_sound hm hEs _ _ _)) (fun Es h => ?_)
      (fun _ _ => trivial)
    obtain ⟨h1, h2, h3⟩ := h
    refine rsat_mono (rsat_eq _) (fun now hnow => ?_) (fun _ _ => trivial)
    refine rsat_mono (rsat_eq _) (fun old hold => ?_) (fun _ _ => trivial)
    cases now <;> cases old
    · simp only [Bool.not_false, Bool.false_and, Bool.true_and, Bool.and_false, Bool.not_true,
        Bool.false_eq_true, if_false]
      exact ⟨hE, hd, Or.inl (le_refl _), fun _ => rfl⟩
    · simp only [Bool.not_false, Bool.false_and, Bool.true_and, Bool.and_false, Bool.not_true,
        Bool.false_eq_true, if_false, if_true, rsat_pure]
      refine rsat_mono (leaving_sound p mat Es hE hd h2) (fun q hq => ?_) (fun _ _ => trivial)
      rcases hq with hq | ⟨hq, he⟩
      · exact ⟨hq.1, hq.2.1, Or.inl (by have := hq.2.2.1; linarith), fun _ => hq.2.2.2 rfl⟩
      · exact ⟨hq.1, hq.2.1, Or.inl (by rw [he]; linarith), fun hf => hq.2.2.2 (h3 hf)⟩
    · simp only [Bool.not_false, Bool.false_and, Bool.true_and, Bool.and_false, Bool.not_true,
        Bool.false_eq_true, if_false, if_true]
      refine rsat_mono (entering_sound p mat Es hE hd h2) (fun q hq => ?_) (fun _ _ => trivial)
      exact ⟨hq.1, hq.2.1, Or.inr ⟨Es, hq.2.2.1, h1, hold, hnow⟩, fun hf => hq.2.2.2 (h3 hf)⟩
    · simp only [Bool.not_false, Bool.false_and, Bool.true_and, Bool.and_false, Bool.not_true,
        Bool.false_eq_true, if_false]
      exact ⟨hE, hd, Or.inl (le_refl _), fun _ => rfl⟩
  obtain ⟨k1, k2, k3, k4⟩ := rsat_of_ok key run
  exact ⟨k1, k2, k3, k4, by rw [hfr], by rw [hfr], by rw [hfr]⟩

theorem utt_same (p : Particle ℝ) : ∃ l, p.update_trajectory_tracker = { p with trajectory := l } := by
  unfold Particle.update_trajectory_tracker
  split
  · exact ⟨_, rfl⟩
  · exact ⟨p.trajectory, rfl⟩

theorem boundary_sound {mat : Material ℝ} {p : Particle ℝ} (hm : SoundTarget mat) (hE : 0 ≤ p.E)
    (hd : Spec.inner p.dir p.dir ≤ 1) (hEs : 0 ≤ p.Es) :
    RSat (boundary_condition_planar p mat) (BoundarySound mat p) (fun _ => True) := by
  unfold boundary_condition_planar
  simp only [rsat_bind]
  refine rsat_mono (rsat_trivial _) (fun sim _ => ?_) (fun _ _ => trivial)
  refine rsat_mono (rsat_trivial _) (fun bar _ => ?_) (fun _ _ => trivial)
  obtain ⟨l1, lf, h1⟩ : ∃ l lf, (if (!sim) = true then
      { p with left := true }.update_trajectory_tracker else p) =
      { p with trajectory := l, left := lf } := by
    split
    · obtain ⟨l, hl⟩ := utt_same { p with left := true }
      exact ⟨l, true, hl⟩
    · exact ⟨p.trajectory, p.left, rfl⟩
  rw [h1]
  simp only
  obtain ⟨l2, st, h2⟩ : ∃ l st, (if ((p.E <. p.Ec) && !lf && bar) = true then
      { p with trajectory := l1, left := lf, stopped := true }.update_trajectory_tracker
      else { p with trajectory := l1, left := lf }) =
      { p with trajectory := l, left := lf, stopped := st } := by
    split
    · obtain ⟨l, hl⟩ := utt_same { p with trajectory := l1, left := lf, stopped := true }
      exact ⟨l, true, hl⟩
    · exact ⟨l1, p.stopped, rfl⟩
  rw [h2]
  simp only
  split
  · refine rsat_mono (binding_sound (p := { p with trajectory := l2, left := lf, stopped := st })
      hm hE hd hEs) (fun q hq => ?_) (fun _ _ => trivial)
    exact ⟨hq.E, hq.dir, hq.gain, hq.free, hq.m, hq.Z, hq.Es⟩
  · exact BoundarySound.same hE hd rfl rfl rfl rfl rfl

/-! ## Electronic stopping -/

theorem S_high_nonneg {E Ma Za Zb : ℝ} (hE : 0 ≤ E) (hM : 0 < Ma) (ha : 0 < Za) (hb : 0 < Zb) :
    0 ≤ Material.S_high E Ma Za Zb := by
  rcases hE.eq_or_lt with h | h
  · subst h
    have hbeta : Material.stopping_beta (0:ℝ) Ma = 0 := by
      unfold Material.stopping_beta
      simp only [sqrt_real, powf_real, zero_div]
      norm_num
    unfold Material.S_high
    simp only [hbeta, div_zero, zero_mul, le_refl]
  · exact (S_high_pos h hM ha hb).le

theorem S_low_nonneg {E Ma Za Zb : ℝ} (hE : 0 ≤ E) (hM : 0 < Ma) (ha : 0 < Za) (hb : 0 < Zb) :
    0 ≤ Material.S_low E Ma Za Zb := by
  rcases hE.eq_or_lt with h | h
  · subst h
    unfold Material.S_low
    simp only [sqrt_real, zero_div, zero_mul, Real.sqrt_zero, mul_zero, le_refl]
  · exact (S_low_pos h hM ha hb).le

theorem stopping_nonneg (mode : ElectronicStoppingMode) {ck sh sl : ℝ} (hck : 0 ≤ ck)
    (hh : 0 ≤ sh) (hl : 0 ≤ sl) : 0 ≤ Material.stopping_power mode ck sh sl := by
  have e1 : (1.0 : ℝ) = 1 := by norm_num
  cases mode <;> simp only [Material.stopping_power, e1] <;> positivity

/-- The stopping step: the loss is not negative if the distance is not (or does not matter). -/
theorem subtract_sound {mat : Material ℝ} {p : Particle ℝ} (hm : SoundTarget mat)
    (hp : SoundParticle p) (d x0 sz : ℝ) (si : Nat) (o : Options ℝ) :
    RSat (subtract_electronic_stopping_energy p mat d x0 sz si o)
      (fun r => (∃ E, r.1 = { p with E := E }) ∧ 0 ≤ r.1.E ∧ p.E - r.2 ≤ r.1.E ∧
        (0 < r.1.E → r.1.E = p.E - r.2) ∧
        (o.electronic_stopping_mode = .LOW_ENERGY_LOCAL ∨ 0 ≤ d → 0 ≤ r.2)) (fun _ => True) := by
  have e0 : (0.0 : ℝ) = 0 := by norm_num
  unfold subtract_electronic_stopping_energy Material.inside
  simp only [rsat_bind, rsat_assert, implies_true, and_true]
  intro _
  refine rsat_mono (rsat_trivial _) (fun ins _ => ?_) (fun _ _ => trivial)
  split
  swap
  · exact ⟨⟨p.E, rfl⟩, hp.E, by simp only [e0]; linarith, fun _ => by simp only [e0]; ring,
      fun _ => by simp only [e0]; exact le_refl _⟩
  simp only [rsat_bind]
  refine rsat_mono (rsat_trivial _) (fun row _ => ?_) (fun _ _ => trivial)
  refine rsat_mono (rsat_trivial _) (fun ti _ => ?_) (fun _ _ => trivial)
  refine rsat_mono (rsat_trivial _) (fun V _ => ?_) (fun _ _ => trivial)
  have hS : RSat (mat.electronic_stopping_cross_sections p o.electronic_stopping_mode)
      (fun S => ∀ s ∈ S, 0 ≤ s) (fun _ => True) := by
    unfold Material.electronic_stopping_cross_sections
      Material.electronic_stopping_correction_factor Material.number_densities
    simp only [rsat_bind]
    refine rsat_mono (rsat_eq _) (fun ck hck => ?_) (fun _ _ => trivial)
    refine rsat_mono (rsat_trivial _) (fun ns _ => ?_) (fun _ _ => trivial)
    intro s hs
    obtain ⟨⟨n, Zb⟩, hmem, rfl⟩ := List.mem_map.mp hs
    have hb := hm.Z Zb (List.of_mem_zip hmem).2
    exact stopping_nonneg _ (hm.ck _ _ _ _ hck) (S_high_nonneg hp.E hp.m hp.Z hb)
      (S_low_nonneg hp.E hp.m hp.Z hb)
  refine rsat_mono hS (fun S hSn => ?_) (fun _ _ => trivial)
  unfold Material.number_densities
  refine rsat_mono (rsat_eq _) (fun ns hns => ?_) (fun _ _ => trivial)
  have hb := bragg_nonneg S ns hSn (hm.densities _ _ _ _ hns)
  have hδ : RSat (match o.electronic_stopping_mode with
      | .INTERPOLATED => pure (bragg_sum S ns*d)
      | .LOW_ENERGY_NONLOCAL => pure (bragg_sum S ns*d)
      | .LOW_ENERGY_LOCAL => do
        let se ← vget S si
        pure (oen_robinson_loss p.Z sz se x0 V)
      | .LOW_ENERGY_EQUIPARTITION => do
        let se ← vget S si
        pure (0.5*oen_robinson_loss p.Z sz se x0 V + 0.5*(bragg_sum S ns*d)) : Res ℝ)
      (fun δ => o.electronic_stopping_mode = .LOW_ENERGY_LOCAL ∨ 0 ≤ d → 0 ≤ δ)
      (fun _ => True) := by
    cases o.electronic_stopping_mode <;> simp only [rsat_bind, rsat_pure, reduceCtorEq, false_or]
    · exact fun h => mul_nonneg hb h
    · refine rsat_mono (rsat_vget_some _ _) (fun se hse => ?_) (fun _ _ => trivial)
      exact fun _ => oen_nonneg _ _ _ _ _ (hSn se (List.mem_of_getElem? hse))
    · exact fun h => mul_nonneg hb h
    · refine rsat_mono (rsat_vget_some _ _) (fun se hse => ?_) (fun _ _ => trivial)
      intro h
      have h1 := oen_nonneg p.Z sz se x0 V (hSn se (List.mem_of_getElem? hse))
      have h2 := mul_nonneg hb h
      have e5 : (0.5 : ℝ) = 1/2 := by norm_num
      rw [e5]; positivity
  refine rsat_mono hδ (fun δ hδ0 => ?_) (fun _ _ => trivial)
  rw [rsat_assert]
  refine ⟨fun _ => ?_, fun _ => trivial⟩
  refine ⟨⟨_, rfl⟩, ?_, ?_, ?_, hδ0⟩
  · simp only
    split
    · exact e0.ge
    · rename_i h
      rw [Bool.not_eq_true, lt_real_false, e0] at h
      linarith
  · simp only
    split
    · rename_i h
      rw [lt_real, e0] at h
      rw [e0]; linarith
    · linarith
  · simp only
    split
    · intro h; rw [e0] at h; exact absurd h (lt_irrefl _)
    · intro _; ring

end RustBCA
