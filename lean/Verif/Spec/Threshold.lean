import Verif.Model.Bca

/-! # The THRESHOLD model of the mean free path (C75) -/

namespace RustBCA.Spec
open Scalar

/-- enums.rs:147 documents THRESHOLD as "Gaseous if n0 < density, Liquid/Amorphous Solid
otherwise". -/
def documentedModel {F : Type} [Scalar F] (density n0 : F) : MeanFreePathModel F :=
  if n0 <. density then .GASEOUS else .LIQUID

/-- The options with another model of the mean free path. -/
def withModel {F : Type} (o : Options F) (m : MeanFreePathModel F) : Options F :=
  { o with mean_free_path_model := m }

end RustBCA.Spec
