import Verif.Spec.DryRun
import Verif.Spec.Tree

/-!
# What a dry run over a tree of directories has to say
-/

set_option autoImplicit false

namespace Detox.Spec

/-- It is announced that the entry is to have the name `v`. -/
def FS.Announced (fs : FS) (tr : List Event) (e : Entry) (v : Bytes) : Prop :=
  ∃ f dir, SplitsAs f dir e.name ∧ fs.IsAt f e ∧ Event.out (arrow (f, dir ++ v)) ∈ tr

/-- The line announces a new name for an entry that is to have it. -/
def FS.Due (fs : FS) (R : Bytes → Bytes → Prop) (o : Options) (args : List Bytes) (s : Bytes) : Prop :=
  ∃ e ∈ fs.entries, fs.Treats o args Hidden e ∧ ∃ f dir v, SplitsAs f dir e.name ∧ fs.IsAt f e ∧ R e.name v ∧ v ≠ e.name ∧ s = arrow (f, dir ++ v)

/-- The entry cannot have the name: it is no name for an entry, or there is something with this name (other than the same file, if it has only one
name). -/
def FS.Taken (fs : FS) (e : Entry) (v : Bytes) : Prop :=
  ¬ (v ≠ [] ∧ (0x2F : Byte) ∉ v ∧ v ≠ [0x2E] ∧ v ≠ [0x2E, 0x2E]) ∨
  ∃ e' ∈ fs.entries, e'.dir = e.dir ∧ fs.norm e.dir v = fs.norm e.dir e'.name ∧ ¬ (e' = e ∧ fs.kind e.ino ≠ .dir ∧ fs.names e.ino ≤ 1)

/-- There is a reason for the message. -/
inductive FS.Complaint (fs : FS) (R : Bytes → Bytes → Prop) (o : Options) (args : List Bytes) (tr : List Event) : Bytes → Prop
  /-- an argument does not exist -/
  | missing (f : Bytes) : f ∈ args → fs.lookup f = none → FS.Complaint fs R o args tr (f ++ lit ": ")
  /-- a directory could not be opened -/
  | unread (p : Bytes) (d : Ino) : Event.opendir p .fail ∈ tr → fs.follow p = some d → fs.kind d = .dir →
      FS.Complaint fs R o args tr (lit "unable to parse: ")
  /-- a new name is taken -/
  | taken (e : Entry) (f dir v : Bytes) : e ∈ fs.entries → fs.Treats o args Hidden e → SplitsAs f dir e.name → fs.IsAt f e → R e.name v → v ≠ e.name →
      fs.Taken e v → FS.Complaint fs R o args tr (lit "Cannot rename " ++ f ++ lit " to " ++ (dir ++ v) ++ lit ": file already exists\n")

end Detox.Spec
