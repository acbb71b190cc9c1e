import Verif.Spec.FileSystem
import Verif.Spec.Denote

/-!
# File systems that take names written differently for the same
-/

set_option autoImplicit false

namespace Detox.Spec

/-- The link count `lstat` reports. -/
def FS.linkCount (fs : FS) (i : Ino) : Nat := if fs.kind i = .dir then fs.dirLinks i else fs.names i

/-- Capital and small letters are the same in names. -/
def FS.IgnoresCase (fs : FS) : Prop := ∀ d a b, a.map small = b.map small → fs.norm d a = fs.norm d b

/-- Every entry is where it was, under a name that the file system takes for the one it had; only those whose object has a single link have a name that is written
differently. -/
def FS.Rewritten (fs fs' : FS) : Prop :=
  fs'.entries.length = fs.entries.length ∧ ∀ (k : Nat) (e : Entry), fs.entries[k]? = some e →
    ∃ n, fs'.entries[k]? = some { e with name := n } ∧ fs.norm e.dir n = fs.norm e.dir e.name ∧ (n = e.name ∨ fs.linkCount e.ino ≤ 1)

end Detox.Spec
