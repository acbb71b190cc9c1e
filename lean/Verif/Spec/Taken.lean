import Verif.Spec.Tree

/-!
# What is to be done in a tree where new names collide
-/

set_option autoImplicit false

namespace Detox.Spec

/-- Names that are written differently are different. -/
def FS.CaseMatters (fs : FS) : Prop := ∀ d n m, fs.norm d n = fs.norm d m → n = m

/-- The system does what it can: a rename fails only if there is no way to do it, or if the new name is none an entry can have; `opendir` fails only if the
path leads to no directory. -/
structure World.Helps (w : World) (e : Event) : Prop where
  rename : ∀ old new, e = .rename old new false → ∀ fs, w.fs.rename old new = some fs → ∃ dir name, SplitsAs new dir name ∧ ¬ EntryName name
  opendir : ∀ p r, e = .opendir p r → (∀ h, r ≠ .ok h) → ∀ d, w.fs.follow p = some d → w.fs.kind d ≠ .dir

/-- It does so in each call. -/
def World.HelpsIn (w : World) (tr : List Event) : Prop := ∀ t1 e t2 w1, tr = t1 ++ e :: t2 → World.Steps w t1 w1 → w1.Helps e

/-- A name an entry can be given. -/
def FreshName (v : Bytes) : Prop := EntryName v ∧ v ≠ [0x2E] ∧ v ≠ [0x2E, 0x2E]

/-- The entry cannot have its new name: it is none an entry can be given, or another entry of the directory has it. -/
def FS.Barred (fs : FS) (R : Bytes → Bytes → Prop) (e : Entry) : Prop :=
  ∃ v, R e.name v ∧ v ≠ e.name ∧ (¬ FreshName v ∨ ∃ y ∈ fs.entries, y.dir = e.dir ∧ y.name = v)

/-- The tree before and after, as `FS.Cleaned` has it, but for entries that have the name they had because, in the tree as it is then, they cannot have the new one. -/
def FS.CleanedAsFar (fs : FS) (R : Bytes → Bytes → Prop) (o : Options) (args ws : List Bytes) (fs' : FS) : Prop :=
  ∃ new : Entry → Bytes, fs' = { fs with entries := fs.entries.map fun e => { e with name := new e } } ∧ ∀ e ∈ fs.entries,
    (fs.Treats o args (fun n => Hidden n ∨ n ∈ ws) e → R e.name (new e) ∨ (new e = e.name ∧ fs'.Barred R e)) ∧
    (¬ fs.Treats o args Hidden e → new e = e.name) ∧
    (new e = e.name ∨ R e.name (new e))

end Detox.Spec
