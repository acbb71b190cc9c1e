import Verif.Spec.Makes
import Verif.Model.Warnings

/-!
# What the sequence of a run makes of a name without saying anything
-/

set_option autoImplicit false

namespace Detox.Spec

/-- The sequence in use makes `w` of `m`, and no filter prints anything. -/
abbrev MakesSilently (P : Platform) (o : Options) (m w : Bytes) : Prop := sequenceRunFiltersLoud P o.sequenceToUse (some m) = ([], .ok (some w))

end Detox.Spec
