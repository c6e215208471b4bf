import Verif.Model.Bca

/-!
# Vocabulary for the cascade properties (C01-C10)

Only notions a user of `single_ion_bca` knows: fields of the particles that go in and come out,
the material's species table, and the geometry's answers.
-/

namespace RustBCA
variable {F : Type}

/-- `q` is the same physical particle as `p`: everything that identifies it, where and with what
energy it started, and how it is tracked. -/
structure SameParticle (p q : Particle F) : Prop where
  m : q.m = p.m
  Z : q.Z = p.Z
  Ec : q.Ec = p.Ec
  Es : q.Es = p.Es
  Ed : q.Ed = p.Ed
  interaction_index : q.interaction_index = p.interaction_index
  weight : q.weight = p.weight
  tag : q.tag = p.tag
  tracked_vector : q.tracked_vector = p.tracked_vector
  pos_origin : q.pos_origin = p.pos_origin
  energy_origin : q.energy_origin = p.energy_origin
  track_trajectories : q.track_trajectories = p.track_trajectories
  incident : q.incident = p.incident

/-- `q` has the parameters of species number `i` of the material's table. -/
def IsSpecies (mat : Material F) (i : Nat) (q : Particle F) : Prop :=
  mat.Z[i]? = some q.Z ∧ mat.m[i]? = some q.m ∧ mat.Ec[i]? = some q.Ec ∧
    mat.Es[i]? = some q.Es ∧ mat.Ed[i]? = some q.Ed ∧
    mat.interaction_index[i]? = some q.interaction_index

/-- The final (energy, position) entry a trajectory should end with. -/
def finalElement (p : Particle F) : TrajectoryElement F := ⟨p.E, p.pos.x, p.pos.y, p.pos.z⟩

variable [Scalar F]

/-- One pass of the trajectory loop of `single_ion_bca` takes the moving particle from `p` to `q`
(for some content of the stack and some random numbers). -/
def Pass (rcpr : Rcpr F) (mat : Material F) (options : Options F) (p q : Particle F) : Prop :=
  ∃ stack stack' tape tape',
    trajectory_step rcpr mat options p stack tape = .ok ((q, stack'), tape')

/-- `n` passes of the trajectory loop take the moving particle from `p` to `q`. -/
inductive Passes (rcpr : Rcpr F) (mat : Material F) (options : Options F) :
    Nat → Particle F → Particle F → Prop
  | refl (p) : Passes rcpr mat options 0 p p
  | step {n p q r} : Passes rcpr mat options n p q → Pass rcpr mat options q r →
      Passes rcpr mat options (n + 1) p r

/-- States the outer loop of `single_ion_bca` can be in at the head of the loop. -/
inductive AtLoopHead (rcpr : Rcpr F) (mat : Material F) (options : Options F) (fuel : Nat)
    (ion : Particle F) : CascadeState F → Prop
  | start : AtLoopHead rcpr mat options fuel ion ⟨[ion], [], 1⟩
  | next {s s' tape tape'} : AtLoopHead rcpr mat options fuel ion s → 0 < s.particle_index →
      cascade_body rcpr mat options fuel s tape = .ok (s', tape') →
      AtLoopHead rcpr mat options fuel ion s'

end RustBCA
