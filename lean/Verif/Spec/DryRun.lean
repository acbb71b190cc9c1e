import Verif.Spec.Makes
import Verif.Spec.FileSystem
import Verif.Spec.Run

/-!
# What is said and what is done
-/

set_option autoImplicit false

namespace Detox.Spec

/-- What is written to standard output. -/
def outputs (tr : List Event) : List Bytes :=
  tr.filterMap fun e => match e with
    | .out s => some s
    | _ => none

/-- The calls of `rename`, successful or not. -/
def attempts (tr : List Event) : List (Bytes × Bytes) :=
  tr.filterMap fun e => match e with
    | .rename old new _ => some (old, new)
    | _ => none

/-- The line that announces a rename. -/
def arrow (x : Bytes × Bytes) : Bytes := x.1 ++ lit " -> " ++ x.2 ++ lit "\n"

/-- The place of an entry: its directory, and its name as far as the file system can tell names apart. -/
def FS.slot (fs : FS) (p : Bytes) : Option (Ino × Bytes) := (fs.locate p).map fun x => (x.1, fs.norm x.1 x.2)

/-- The path has to do with the file `f`: it is its name, or the name it should have. -/
def Concerns (R : Bytes → Bytes → Prop) (f p : Bytes) : Prop :=
  p = f ∨ ∃ dir name w, SplitsAs f dir name ∧ R name w ∧ p = dir ++ w

/-- No two of the files have, or should have, the same place. -/
def Apart (R : Bytes → Bytes → Prop) (fs : FS) (args : List Bytes) : Prop :=
  args.Pairwise fun f g => ∀ p q x, Concerns R f p → Concerns R g q → fs.slot p = some x → fs.slot q ≠ some x

end Detox.Spec
