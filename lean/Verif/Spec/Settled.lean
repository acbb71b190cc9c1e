import Verif.Spec.Fits
import Verif.Spec.Tree

/-!
# Names to ignore, and configurations for which one pass is enough
-/

set_option autoImplicit false

namespace Detox.Spec

/-- The names to ignore: those of all the config files in effect, if there are any and all are well written; or else the compiled-in one. -/
inductive IgnoredAre (E : ConfigEnv) (given : Option Bytes) (files : Bytes → Option Bytes) : List Bytes → Prop
  | written (conf : List (Bytes × Bytes × List Rule)) : conf ≠ [] → (conf.map fun f => (f.1, f.2.1)) = configsInEffect E given files →
      (∀ f ∈ conf, Means f.2.1 f.2.2) → IgnoredAre E given files (conf.flatMap fun f => ignored f.2.2)
  | builtin : given = none → configsInEffect E none files = [] → IgnoredAre E given files [lit "{arch}"]

/-- What `R` makes of names of files are names it leaves as they are, and there are no slashes in them. -/
structure Settles (R : Bytes → Bytes → Prop) : Prop where
  again : ∀ m v, (0 : Byte) ∉ m → R m v → R v v
  slash : ∀ m v, (0 : Byte) ∉ m → (0x2F : Byte) ∉ m → R m v → (0x2F : Byte) ∉ v

end Detox.Spec
