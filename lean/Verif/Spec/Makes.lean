import Verif.Model.Filter
import Verif.Model.File

/-!
# What the sequence of a run makes of a name
-/

set_option autoImplicit false

namespace Detox.Spec

/-- The sequence in use makes `w` of `m`. -/
abbrev Makes (P : Platform) (o : Options) (m w : Bytes) : Prop := sequenceRunFilters P o.sequenceToUse (some m) = .ok (some w)

end Detox.Spec
