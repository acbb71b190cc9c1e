import Verif.Spec.Complete

/-!
# What is to be done in a tree of directories
-/

set_option autoImplicit false

namespace Detox.Spec

/-- The directories to be scanned: those among the arguments, and with `-r` those in them, but for names to be skipped. -/
inductive FS.Scans (fs : FS) (o : Options) (args : List Bytes) (skip : Bytes → Prop) : Ino → Prop
  | arg (f : Bytes) (d : Ino) : f ∈ args → fs.lookup f = some d → fs.kind d = .dir → FS.Scans fs o args skip d
  | sub (e : Entry) : e ∈ fs.entries → FS.Scans fs o args skip e.dir → o.recurse = true → fs.kind e.ino = .dir → ¬ skip e.name →
      FS.Scans fs o args skip e.ino

/-- The path `f` is that of the entry. -/
def FS.IsAt (fs : FS) (f : Bytes) (e : Entry) : Prop :=
  ∃ dir name, SplitsAs f dir name ∧ name ≠ [] ∧ fs.locate f = some (e.dir, name) ∧ fs.find e.dir name = some e

/-- The entry is to be given a clean name: it is an argument, or in a directory to be scanned; and it is of the right kind. -/
def FS.Treats (fs : FS) (o : Options) (args : List Bytes) (skip : Bytes → Prop) (e : Entry) : Prop :=
  (fs.kind e.ino = .dir ∨ fs.kind e.ino = .reg ∨ o.special = true) ∧
  ((∃ f ∈ args, fs.IsAt f e) ∨ (fs.Scans o args skip e.dir ∧ ¬ skip e.name))

/-- If the file system takes the name for that of an entry, or for that the entry should have, it is written in the same way. (Where upper case
matters, all names are like this.) -/
def FS.Literal (fs : FS) (R : Bytes → Bytes → Prop) (n : Bytes) : Prop :=
  ∀ e ∈ fs.entries, ∀ m, m = e.name ∨ R e.name m → fs.norm e.dir n = fs.norm e.dir m → n = m

/-- The names that come up are written as they are in the file system: those of the arguments, and those `readdir` gives. -/
structure FS.LiteralRun (fs : FS) (R : Bytes → Bytes → Prop) (args : List Bytes) (tr : List Event) : Prop where
  args : ∀ f ∈ args, ∀ dir name, SplitsAs f dir name → fs.Literal R name
  entries : ∀ h n, Event.readdir h (some n) ∈ tr → fs.Literal R n

/-- The tree before and after: only names are different. Every entry that is to be treated has the name it should have; entries that are not are as they were.
Names that are to be ignored may be one or the other, as may be what is below them. -/
def FS.Cleaned (fs : FS) (R : Bytes → Bytes → Prop) (o : Options) (args ws : List Bytes) (fs' : FS) : Prop :=
  ∃ new : Entry → Bytes, fs' = { fs with entries := fs.entries.map fun e => { e with name := new e } } ∧ ∀ e ∈ fs.entries,
    (fs.Treats o args (fun n => Hidden n ∨ n ∈ ws) e → R e.name (new e)) ∧
    (¬ fs.Treats o args Hidden e → new e = e.name) ∧
    (new e = e.name ∨ R e.name (new e))

/-! ### No cause for complaint -/

/-- The system does what it can: a rename fails only if there is no way to do it, or if the name is too long for an entry; `opendir` fails only if the
path leads to no directory. -/
structure World.Obliges (w : World) (e : Event) : Prop where
  rename : ∀ old new, e = .rename old new false → ∀ fs, w.fs.rename old new = some fs → ∃ x ∈ fs.entries, ¬ EntryName x.name
  opendir : ∀ p r, e = .opendir p r → (∀ h, r ≠ .ok h) → ∀ d, w.fs.follow p = some d → w.fs.kind d ≠ .dir

/-- It does so in each call. -/
def World.ObligesIn (w : World) (tr : List Event) : Prop := ∀ t1 e t2 w1, tr = t1 ++ e :: t2 → World.Steps w t1 w1 → w1.Obliges e

/-- There is room for the new names: each is one, and not too long; none is that of another entry of the directory (names that are written differently may be the same; then
it must be a file that has only this name), and no two new names in a directory are the same. -/
structure FS.Room (fs : FS) (R : Bytes → Bytes → Prop) (o : Options) (args : List Bytes) : Prop where
  names : ∀ e ∈ fs.entries, EntryName e.name
  proper : ∀ e ∈ fs.entries, fs.Treats o args Hidden e → ∀ v, R e.name v → EntryName v ∧ v ≠ [0x2E] ∧ v ≠ [0x2E, 0x2E]
  free : ∀ e ∈ fs.entries, fs.Treats o args Hidden e → ∀ v, R e.name v → v ≠ e.name → ∀ e' ∈ fs.entries, e'.dir = e.dir →
    fs.norm e.dir v = fs.norm e.dir e'.name → e' = e ∧ fs.kind e.ino ≠ .dir ∧ fs.names e.ino ≤ 1
  apart : ∀ e ∈ fs.entries, fs.Treats o args Hidden e → ∀ e' ∈ fs.entries, fs.Treats o args Hidden e' → e'.dir = e.dir → ∀ v v', R e.name v →
    R e'.name v' → fs.norm e.dir v = fs.norm e.dir v' → e' = e

/-- No entry that is to be renamed is named twice: not by two arguments, and not by an argument and one of the directories to be scanned. -/
structure FS.NamedOnce (fs : FS) (R : Bytes → Bytes → Prop) (o : Options) (args : List Bytes) : Prop where
  twice : args.Pairwise fun f f' => ∀ e, fs.IsAt f e → fs.IsAt f' e → R e.name e.name
  scanned : ∀ f ∈ args, ∀ e, fs.IsAt f e → fs.Scans o args Hidden e.dir → R e.name e.name

end Detox.Spec
