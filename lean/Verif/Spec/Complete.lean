import Verif.Spec.Makes
import Verif.Spec.World
import Verif.Spec.Run

/-!
# What a complete scan leaves behind
-/

set_option autoImplicit false

namespace Detox.Spec

/-- The name is made of some name. -/
def CleanedBy (R : Bytes → Bytes → Prop) (n : Bytes) : Prop :=
  ∃ m : Bytes, m ≠ [] ∧ (0x2F : Byte) ∉ m ∧ (0 : Byte) ∉ m ∧ R m n

/-- The name is what the sequence makes of some name. -/
abbrev Cleaned (P : Platform) (o : Options) : Bytes → Prop := CleanedBy (Makes P o)

/-- The user was told that the path is not renamed. -/
def Complained (tr : List Event) (path : Bytes) : Prop :=
  ∃ rest, Event.err (lit "Cannot rename " ++ path ++ lit " to " ++ rest) ∈ tr

/-- The directory was opened, or could not be. -/
def Entered (w : World) (d : Ino) : Prop := ∃ p, (d, p) ∈ w.opened ∨ (d, p) ∈ w.refused

/-- The entry is left as it is on purpose. -/
def LeftAlone (o : Options) (ws : List Bytes) (w : World) (e : Entry) : Prop :=
  Hidden e.name ∨ e.name ∈ ws ∨ (w.fs.kind e.ino ≠ .dir ∧ w.fs.kind e.ino ≠ .reg ∧ o.special = false)

/-- The entry has a clean name, or the user was told that it does not. With `-r`, a directory was entered. -/
def HandledBy (R : Bytes → Bytes → Prop) (o : Options) (tr : List Event) (w : World) (e : Entry) : Prop :=
  (CleanedBy R e.name ∨ ∃ p, (e.dir, p) ∈ w.opened ∧ Complained tr (p ++ lit "/" ++ e.name)) ∧
  (o.recurse = true → w.fs.kind e.ino = .dir → Entered w e.ino)

abbrev Handled (P : Platform) (o : Options) : List Event → World → Entry → Prop := HandledBy (Makes P o) o

/-- The directories below `top`, not counting what is below hidden or ignored entries. -/
inductive ScanBelow (ws : List Bytes) (w : World) (top : Ino) : Ino → Prop
  | top : ScanBelow ws w top top
  | sub (e : Entry) : e ∈ w.fs.entries → ScanBelow ws w top e.dir → w.fs.kind e.ino = .dir → ¬ Hidden e.name → e.name ∉ ws →
      ScanBelow ws w top e.ino

/-- The argument was not found when its turn came, and the user was told. Or the system told what it is: something to be left alone; or its entry
has a clean name now (or one that is the same to the file system), or the user was told that it does not, and a directory was entered. Arguments
that end in a slash, `.` or `..` name no entry. -/
def AnsweredBy (R : Bytes → Bytes → Prop) (o : Options) (tr : List Event) (w : World) (f : Bytes) : Prop :=
  Event.err (f ++ lit ": ") ∈ tr ∨
  ∃ st i, Event.lstat f (some st) ∈ tr ∧ i = Ino.mk st.dev st.ino ∧ w.fs.kind i = st.kind ∧
    ((st.kind ≠ .dir ∧ st.kind ≠ .reg ∧ o.special = false) ∨
     ((∃ dir name, f = dir ++ name ∧ (dir = [] ∨ ∃ d, dir = d ++ [0x2F]) ∧ (name = [] ∨ name = [0x2E] ∨ name = [0x2E, 0x2E])) ∨
      ∃ e ∈ w.fs.entries, e.ino = i ∧ w.fs.dirOf f = some e.dir ∧
        ((∃ n, w.fs.norm e.dir n = w.fs.norm e.dir e.name ∧ CleanedBy R n) ∨ Complained tr f)) ∧
     (st.kind = .dir → Entered w i))

abbrev Answered (P : Platform) (o : Options) : List Event → World → Bytes → Prop := AnsweredBy (Makes P o) o

end Detox.Spec
