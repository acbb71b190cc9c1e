import Verif.Spec.Ends

/-!
# Runs that are cut short, and run again
-/

set_option autoImplicit false

namespace Detox.Spec

/-- What may be found if the work is not done: only names are different, and each entry has the name it had, or is one to be treated and has the name
it should have. -/
def FS.PartlyCleaned (fs : FS) (R : Bytes → Bytes → Prop) (o : Options) (args : List Bytes) (fs' : FS) : Prop :=
  ∃ new : Entry → Bytes, fs' = { fs with entries := fs.entries.map fun e => { e with name := new e } } ∧ ∀ e ∈ fs.entries,
    new e = e.name ∨ (R e.name (new e) ∧ fs.Treats o args Hidden e)

/-- No directory gets a name that is to be skipped, unless it has one. -/
def FS.StaysInView (fs : FS) (R : Bytes → Bytes → Prop) (skip : Bytes → Prop) : Prop :=
  ∀ e ∈ fs.entries, fs.kind e.ino = .dir → ∀ v, R e.name v → skip v → skip e.name

/-- The arguments have clean names. -/
def FS.ArgsClean (fs : FS) (R : Bytes → Bytes → Prop) (args : List Bytes) : Prop := ∀ f ∈ args, ∀ e, fs.IsAt f e → R e.name e.name

end Detox.Spec
