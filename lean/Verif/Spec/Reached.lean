import Verif.Spec.FileSystem

/-!
# Names that are made of a name by applying something again and again
-/

set_option autoImplicit false

namespace Detox.Spec

/-- `b` is reached from `a` by going from one to the next along `S`, any number of times. -/
inductive Reached (S : Bytes → Bytes → Prop) (a : Bytes) : Bytes → Prop
  | here : Reached S a a
  | next (b c : Bytes) : Reached S a b → S b c → Reached S a c

/-- In directory `d`, `b` is what `R` makes of a way of writing `a`: where the case of letters does not matter, for example, there are several. -/
def FS.MadeIn (fs : FS) (R : Bytes → Bytes → Prop) (d : Ino) (a b : Bytes) : Prop := ∃ m, fs.norm d m = fs.norm d a ∧ (0 : Byte) ∉ m ∧ R m b

/-- Every entry is where it was, and has a name that is reached from the name it had. -/
def FS.NamesReached (fs : FS) (R : Bytes → Bytes → Prop) (fs' : FS) : Prop :=
  fs'.entries.length = fs.entries.length ∧ ∀ (k : Nat) (e : Entry), fs.entries[k]? = some e →
    ∃ n, fs'.entries[k]? = some { e with name := n } ∧ Reached (fs.MadeIn R e.dir) e.name n

end Detox.Spec
