import Verif.Spec.DryRun
import Verif.Spec.Complete

/-!
# Running detox again
-/

set_option autoImplicit false

namespace Detox.Spec

/-- `readdir` gives no name that the file system takes for that of an entry, though it is written differently. -/
def Honest (fs : FS) (tr : List Event) : Prop :=
  ∀ h n, Event.readdir h (some n) ∈ tr → ∀ e ∈ fs.entries, fs.norm e.dir n = fs.norm e.dir e.name → n = e.name

/-- An argument that leaves nothing to do: its own name is fine, and if it is a directory, it is in `D`. -/
structure FineArg (R : Bytes → Bytes → Prop) (fs : FS) (D : Ino → Prop) (f : Bytes) : Prop where
  name : ∀ dir name, SplitsAs f dir name → name = lit "." ∨ name = lit ".." ∨ R name name
  dir : ∀ i, fs.lookup f = some i → fs.kind i = .dir → D i

/-- What `-v` prints when there is nothing to do. -/
def scanningLines (o : Options) (args : List Bytes) : List Bytes :=
  if o.verbose = 0 then [] else args.map fun f => lit "Scanning: " ++ f ++ lit "\n"

end Detox.Spec
