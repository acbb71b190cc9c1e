import Verif.Spec.DryRun

/-!
# What is in the file system after a run over files
-/

set_option autoImplicit false

namespace Detox.Spec

/-- Like `FS.Step`, and a rename fails only if there is no way to do it. -/
def FS.FairStep (fs : FS) (e : Event) (fs' : FS) : Prop :=
  FS.Step fs e fs' ∧ ∀ old new, e = .rename old new false → fs.rename old new = none

/-- The calls of a process that has the file system for itself; renames fail only if there is no way to do them. -/
inductive FS.FairSteps : FS → List Event → FS → Prop
  | nil (fs : FS) : FS.FairSteps fs [] fs
  | cons (fs fs1 fs2 : FS) (e : Event) (tr : List Event) : FS.FairStep fs e fs1 → FS.FairSteps fs1 tr fs2 → FS.FairSteps fs (e :: tr) fs2

/-- The path `f` is that of the entry `e`, and `w` is what the name should be. -/
structure Wants (R : Bytes → Bytes → Prop) (fs : FS) (f dir : Bytes) (e : Entry) (w : Bytes) : Prop where
  intro ::
  name : ∃ name, name ≠ [] ∧ SplitsAs f dir name ∧ fs.locate f = some (e.dir, name) ∧ fs.find e.dir name = some e ∧ R name w ∧ w ≠ name

/-- The entry can have the name: it is one, the system follows the path, and no other entry has it; if the entry itself has it already (names
that are written differently may be the same), the file has no other name anywhere. -/
structure CanHave (fs : FS) (dir : Bytes) (e : Entry) (w : Bytes) : Prop where
  proper : w ≠ [] ∧ w ≠ lit "." ∧ w ≠ lit ".."
  allowed : fs.denied (dir ++ w) = false
  free : ∀ e' ∈ fs.entries, e'.dir = e.dir → fs.norm e.dir e'.name = fs.norm e.dir w → e' = e ∧ fs.names e.ino ≤ 1

/-- The name the last component of `f` should have is one component. -/
def NewNameHasNoSlash (R : Bytes → Bytes → Prop) (f : Bytes) : Prop := ∀ dir name w, SplitsAs f dir name → R name w → (0x2F : Byte) ∉ w

/-- What becomes of an entry: if one of the arguments is its path, and the name can be had, it gets it. Otherwise it stays as it is. -/
inductive Becomes (R : Bytes → Bytes → Prop) (fs : FS) (args : List Bytes) (e : Entry) : Entry → Prop
  | renamed (f dir w : Bytes) : f ∈ args → Wants R fs f dir e w → CanHave fs dir e w → Becomes R fs args e { e with name := w }
  | kept : (∀ f ∈ args, ∀ dir w, Wants R fs f dir e w → ¬ CanHave fs dir e w) → Becomes R fs args e e

end Detox.Spec
