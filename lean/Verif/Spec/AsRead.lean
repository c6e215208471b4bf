import Verif.Model.Main

/-!
# The simulated target and ions are the ones the file describes (C113)
-/

namespace RustBCA.Spec
variable {F : Type} [Scalar F]

/-- `mat` is the target the `[material_parameters]` section `mp` and the geometry `g` describe,
with energies in units of `eu` joule and masses in units of `mu` kilogram: every list is the list
of the file, converted, and in its order. -/
structure TargetAsRead (mp : MaterialParameters F) (g : Geom F) (eu mu : F)
    (mat : Material F) : Prop where
  masses : mat.m = mp.m.map (· * mu)
  charges : mat.Z = mp.Z
  bulk : mat.Eb = mp.Eb.map (· * eu)
  surface : mat.Es = mp.Es.map (· * eu)
  cutoff : mat.Ec = mp.Ec.map (· * eu)
  /-- several displacement energies: the list of the file -/
  displacement : 2 ≤ mp.Ed.length → mat.Ed = mp.Ed.map (· * eu)
  /-- one displacement energy: it holds for every species -/
  displacement_one : ∀ ed, mp.Ed = [ed] →
    mat.Ed.length = mp.m.length ∧ ∀ e ∈ mat.Ed, e = ed*eu
  /-- several interaction indices: the list of the file -/
  index : 2 ≤ mp.interaction_index.length → mat.interaction_index = mp.interaction_index
  /-- none or one: every species has index 0 -/
  index_one : mp.interaction_index.length ≤ 1 →
    mat.interaction_index.length = mp.m.length ∧ ∀ i ∈ mat.interaction_index, i = 0
  geometry : mat.geometry = g
  surface_model : mat.surface_binding_model = mp.surface_binding_model
  bulk_model : mat.bulk_binding_model = mp.bulk_binding_model

/-- The four lists of the target whose lengths the program compares are equally long, and there is
at least one displacement energy. -/
structure EquallyLong (mp : MaterialParameters F) : Prop where
  charges : mp.Z.length = mp.m.length
  bulk : mp.Eb.length = mp.m.length
  surface : mp.Es.length = mp.m.length
  displacement : mp.Ed ≠ []

/-- `b` is the ion `q` at the very start: where and with what energy `q` says, no collision yet,
moving, and recorded once (at its start). -/
structure StartsAsRead (q : ParticleInput F) (o : Options F) (b : Particle F) : Prop where
  mass : b.m = q.m
  charge : b.Z = q.Z
  energy : b.E = q.E
  cutoff : b.Ec = q.Ec
  surface : b.Es = q.Es
  place : b.pos = ⟨q.x, q.y, q.z⟩
  came_from : b.pos_old = ⟨q.x, q.y, q.z⟩
  origin : b.pos_origin = ⟨q.x, q.y, q.z⟩
  energy_origin : b.energy_origin = q.E
  index : b.interaction_index = q.interaction_index
  incident : b.incident = true
  moving : b.stopped = false ∧ b.left = false
  no_collisions : b.number_collision_events = 0
  tracked : b.track_trajectories = o.track_trajectories
  trajectory : b.trajectory = [⟨q.E, q.x, q.y, q.z⟩]
  no_losses : b.energies = []

end RustBCA.Spec
