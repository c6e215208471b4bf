import Verif.Model.Main

/-! # Specification vocabulary: the same input written in other units -/

namespace RustBCA.Spec

/-- The same numbers, written in units of `u` and of `u'`. -/
def SameValues (u u' : ℝ) (l l' : List ℝ) : Prop := l.map (· * u) = l'.map (· * u')

/-- The same distribution of a quantity, written in units of `u` and of `u'`. -/
def SameQuantity (u u' : ℝ) : Distr ℝ → Distr ℝ → Prop
  | .POINT x, .POINT x' => x*u = x'*u'
  | .NORMAL mean std, .NORMAL mean' std' => mean*u = mean'*u' ∧ std*u = std'*u'
  | .UNIFORM min max, .UNIFORM min' max' => min*u = min'*u' ∧ max*u = max'*u'
  | _, _ => False

/-- Drawing from a normal or uniform distribution and scaling the distribution's parameters commute
(true of `rand_distr`'s samplers up to rounding: they return `mean + std*z` and
`min + (max - min)*r` for numbers `z`, `r` that depend on the random numbers only). -/
structure ScaleFree (sampler : Sampler ℝ) : Prop where
  normal : ∀ c mean std t, 0 < c → sampler.normal (c*mean) (c*std) t =
    (sampler.normal mean std t).map fun r => (c*r.1, r.2)
  uniform : ∀ c min max t, 0 < c → sampler.uniform (c*min) (c*max) t =
    (sampler.uniform min max t).map fun r => (c*r.1, r.2)

/-- The same particle parameters, written in units `lu`, `eu`, `mu` (length, energy, mass) and in
units `lu'`, `eu'`, `mu'`.  Charges, numbers of ions, directions and indices have no unit. -/
structure SameIons (ext : Ext ℝ) (lu eu mu lu' eu' mu' : ℝ) (p p' : ParticleParameters ℝ) : Prop where
  units : length_unit_of ext p.length_unit = .ok lu ∧ energy_unit_of ext p.energy_unit = .ok eu ∧
    mass_unit_of ext p.mass_unit = .ok mu
  units' : length_unit_of ext p'.length_unit = .ok lu' ∧ energy_unit_of ext p'.energy_unit = .ok eu' ∧
    mass_unit_of ext p'.mass_unit = .ok mu'
  N : p'.N = p.N
  Z : p'.Z = p.Z
  m : SameValues mu mu' p.m p'.m
  E : List.Forall₂ (SameQuantity eu eu') p.E p'.E
  Ec : SameValues eu eu' p.Ec p'.Ec
  Es : SameValues eu eu' p.Es p'.Es
  pos : List.Forall₂ (fun a b => SameQuantity lu lu' a.1 b.1 ∧ SameQuantity lu lu' a.2.1 b.2.1 ∧
    SameQuantity lu lu' a.2.2 b.2.2) p.pos p'.pos
  dir : p'.dir = p.dir
  interaction_index : p'.interaction_index = p.interaction_index

/-- The same material parameters in two sets of units (of their own: they need not be those of the
particles). -/
structure SameParameters (ext : Ext ℝ) (q q' : MaterialParameters ℝ) : Prop where
  energies : ∃ eu eu', energy_unit_of ext q.energy_unit = .ok eu ∧
    energy_unit_of ext q'.energy_unit = .ok eu' ∧ SameValues eu eu' q.Eb q'.Eb ∧
    SameValues eu eu' q.Es q'.Es ∧ SameValues eu eu' q.Ec q'.Ec ∧ SameValues eu eu' q.Ed q'.Ed
  masses : ∃ mu mu', mass_unit_of ext q.mass_unit = .ok mu ∧
    mass_unit_of ext q'.mass_unit = .ok mu' ∧ SameValues mu mu' q.m q'.m
  Z : q'.Z = q.Z
  interaction_index : q'.interaction_index = q.interaction_index
  surface : q'.surface_binding_model = q.surface_binding_model
  bulk : q'.bulk_binding_model = q.bulk_binding_model

/-- The same histogram axes in two sets of units (angles are in degrees in both). -/
structure SameAxes (lu eu lu' eu' : ℝ) (g g' : GridOptions ℝ) : Prop where
  energy : g.energy_min*eu = g'.energy_min*eu' ∧ g.energy_max*eu = g'.energy_max*eu' ∧
    g'.energy_num = g.energy_num
  angle : g'.angle_min = g.angle_min ∧ g'.angle_max = g.angle_max ∧ g'.angle_num = g.angle_num
  x : g.x_min*lu = g'.x_min*lu' ∧ g.x_max*lu = g'.x_max*lu' ∧ g'.x_num = g.x_num
  y : g.y_min*lu = g'.y_min*lu' ∧ g.y_max*lu = g'.y_max*lu' ∧ g'.y_num = g.y_num
  z : g.z_min*lu = g'.z_min*lu' ∧ g.z_max*lu = g'.z_max*lu' ∧ g'.z_num = g.z_num

/-- The same histograms: equal counts, and equal energy losses per length (energy unit over length
unit). -/
structure SameHistograms (lu eu lu' eu' : ℝ) (d d' : Distributions ℝ) : Prop where
  reflected : d'.reflected_ead = d.reflected_ead
  sputtered : d'.sputtered_ead = d.sputtered_ead
  implanted : d'.implanted_x = d.implanted_x ∧ d'.implanted_y = d.implanted_y ∧
    d'.implanted_z = d.implanted_z
  electronic : SameValues (eu/lu) (eu'/lu') d.electronic_energy_loss_x d'.electronic_energy_loss_x
  nuclear : SameValues (eu/lu) (eu'/lu') d.nuclear_energy_loss_x d'.nuclear_energy_loss_x

end RustBCA.Spec
