import Verif.Spec.Energy
import Verif.Spec.Stopping
import Verif.Spec.Cascade
import Mathlib.MeasureTheory.Integral.IntervalIntegral.Basic

/-!
# Vocabulary for C100: the electronic range
-/

namespace RustBCA.Spec

/-- The energy barrier encloses the material (true of every geometry of the program: C35). -/
def BarrierEncloses {F : Type} (g : Geom F) : Prop :=
  ∀ x y z, g.inside x y z = .ok true → g.inside_energy_barrier x y z = .ok true

/-- The target has the same number densities `ns` and the same correction factor `ck` everywhere. -/
structure SameEverywhere (mat : Material ℝ) (ns : List ℝ) (ck : ℝ) : Prop where
  densities : ∀ x y z : ℝ, mat.geometry.get_densities x y z = .ok ns
  ck : ∀ x y z : ℝ, mat.geometry.get_ck x y z = .ok ck
  length : ns.length = mat.Z.length

/-- The part of the electronic stopping power (J/m) that is lost along the path, for a projectile of charge `Za`,
mass `m` and energy `E` in a target of number densities `ns` of species of charges `Zs`: Lindhard and Scharff's in
the low-energy modes (half of it with EQUIPARTITION, none with LOCAL), its harmonic sum with Bethe's in INTERPOLATED mode. -/
noncomputable def pathStopping (mode : ElectronicStoppingMode) (ck : ℝ) (Zs ns : List ℝ) (Za m E : ℝ) : ℝ :=
  match mode with
  | .INTERPOLATED => (List.zipWith (fun Zb n =>
      1/(1/betheBiersack (relativisticBeta E m) Za Zb + 1/lindhardScharff E m Za Zb*ck)*n) Zs ns).sum
  | .LOW_ENERGY_NONLOCAL => (List.zipWith (fun Zb n => lindhardScharff E m Za Zb*ck*n) Zs ns).sum
  | .LOW_ENERGY_EQUIPARTITION => (List.zipWith (fun Zb n => lindhardScharff E m Za Zb*ck*n) Zs ns).sum/2
  | .LOW_ENERGY_LOCAL => 0

/-- The length of the path on which the stopping power `S` slows a projectile down from `E0` to `E1`. -/
noncomputable def slowingDown (S : ℝ → ℝ) (E0 E1 : ℝ) : ℝ := ∫ e in E1..E0, 1/S e

/-- The stopping power grows with the energy, up to `Emax`. -/
structure Growing (S : ℝ → ℝ) (Emax : ℝ) : Prop where
  pos : ∀ e, 0 < e → e ≤ Emax → 0 < S e
  mono : ∀ e e', 0 < e → e ≤ e' → e' ≤ Emax → S e ≤ S e'

/-- The particle is inside the material. -/
def IsInside (mat : Material ℝ) (p : Particle ℝ) : Prop :=
  mat.geometry.inside p.pos.x p.pos.y p.pos.z = .ok true

/-- How far apart two points are. -/
noncomputable def apart (a b : Vec3 ℝ) : ℝ := Real.sqrt ((b.x - a.x)^2 + (b.y - a.y)^2 + (b.z - a.z)^2)

/-- `StaysInside … G p n L q`: `n` passes of the trajectory loop, each of them with the property `G`, take `p` to `q`;
before and after each of them the particle is inside the material, and before each it is neither stopped nor gone.
`L` is the sum of the distances between the places where the passes end. -/
inductive StaysInside (rcpr : Rcpr ℝ) (mat : Material ℝ) (o : Options ℝ) (G : Tape ℝ → Particle ℝ → Particle ℝ → Prop)
    (p : Particle ℝ) : ℕ → ℝ → Particle ℝ → Prop
  | start : IsInside mat p → StaysInside rcpr mat o G p 0 0 p
  | pass {n L q ps t r qs t'} : StaysInside rcpr mat o G p n L q → q.stopped = false → q.left = false →
      trajectory_step rcpr mat o q ps t = .ok ((r, qs), t') → G t q r → IsInside mat r →
      StaysInside rcpr mat o G p (n + 1) (L + apart q.pos r.pos) r

end RustBCA.Spec
