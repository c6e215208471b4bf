import Verif.Spec.Vectors
import Verif.Spec.Cascade

/-!
# Vocabulary for C80-C82: recoils and the order in which a cascade is followed
-/

namespace RustBCA.Spec
open Scalar

/-- Lindhard screening length of a pair of charges, 0.8853 a0 (sqrt Za + sqrt Zb)^(-2/3). -/
noncomputable def lindhardLength (Za Zb : ℝ) : ℝ :=
  0.8853*A0 ℝ*(Real.sqrt Za + Real.sqrt Zb)^(-2/3 : ℝ)

/-- The range estimate used for deep recoils (Eckstein 1991, 7.5.3), from the charges and masses of
projectile and recoil, the projectile's energy `E` and the number density `n`. -/
noncomputable def estimatedRange (Za Zb Ma Mb E n : ℝ) : ℝ :=
  let a := lindhardLength Za Zb
  ((4*Real.pi*EPS0 ℝ/Q ℝ/Q ℝ*a*Mb/(Ma + Mb)/Za/Zb*E)^(0.3 : ℝ) + 0.1)^3/n/a/a

/-- The recoil `q` is near enough to the surface to be followed after a collision that left the
projectile as `p`. -/
def NearSurface (mat : Material ℝ) (p q : Particle ℝ) : Prop :=
  ∃ n x y z, mat.total_number_density q.pos.x q.pos.y q.pos.z = .ok n ∧
    mat.geometry.closest_point q.pos.x q.pos.y q.pos.z = .ok (x, y, z) ∧
    norm (minus ⟨x, y, z⟩ q.pos) < estimatedRange p.Z q.Z p.m q.m p.E n

/-- The recoil `q` is to be followed: recoils are asked for, its energy is above its cutoff and,
if deep recoils are to be left out, it is near enough to the surface. -/
def ToFollow (mat : Material ℝ) (o : Options ℝ) (p q : Particle ℝ) : Prop :=
  o.track_recoils = true ∧ q.Ec < q.E ∧
    (o.suppress_deep_recoils = true → NearSurface mat p q)

section
variable {F : Type} [Scalar F] (rcpr : Rcpr F) (mat : Material F) (o : Options F)

/-- `Path p t q recoils t'`: followed alone, the particle `p` ends as `q` after using up the stream
`t` to `t'`, and sets the particles `recoils` in motion, in this order. -/
inductive Path : Particle F → Tape F → Particle F → List (Particle F) → Tape F → Prop
  | finished {p t} : (p.stopped = true ∨ p.left = true) → Path p t p [] t
  | step {p t q new t1 r more t2} : p.stopped = false → p.left = false →
      trajectory_step rcpr mat o p [] t = .ok ((q, new), t1) → Path q t1 r more t2 →
      Path p t r (new ++ more) t2

/-- `Cascades ps t out t'`: the particles `ps` are followed one after the other, each to its end and
then, before the next one, all the recoils it set in motion (the last one first) with all that they
set in motion in turn; `out` lists the final states in this order. -/
inductive Cascades : List (Particle F) → Tape F → List (Particle F) → Tape F → Prop
  | nil {t} : Cascades [] t [] t
  | cons {p ps t q recoils t1 sub t2 out t3} : Path rcpr mat o p t q recoils t1 →
      Cascades recoils.reverse t1 sub t2 → Cascades ps t2 out t3 →
      Cascades (p :: ps) t (q :: (sub ++ out)) t3

end

end RustBCA.Spec
