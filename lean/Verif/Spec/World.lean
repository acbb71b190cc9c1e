import Verif.Spec.FileSystem

/-!
# A file system with open directories

`readdir` keeps the promise of POSIX: until it reports the end, it gives every entry that is in the directory from `opendir` on and keeps its
name. It may give other names, more than once, in any order. Names have at most 255 bytes.
-/

set_option autoImplicit false

namespace Detox.Spec

/-- An open directory: which one, and the names that `readdir` still has to give. -/
structure Stream where
  dir : Ino
  owed : List Bytes

structure World where
  fs : FS
  /-- the open directories -/
  streams : Nat → Option Stream
  /-- all directories that were opened, with the path used -/
  opened : List (Ino × Bytes)
  /-- all directories that could not be opened, with the path used -/
  refused : List (Ino × Bytes)

/-- The names in a directory. -/
def FS.namesIn (fs : FS) (d : Ino) : List Bytes := (fs.entries.filter fun e => e.dir = d).map Entry.name

/-- The object a path leads to, following symbolic links. -/
def FS.follow (fs : FS) (p : Bytes) : Option Ino :=
  if p = [] ∨ fs.denied p = true then none else fs.walk walkLimit (fs.start fs.cwd p) (comps p)

/-- `readdir` gives names without slash and NUL, of at most 255 bytes. -/
structure EntryName (n : Bytes) : Prop where
  nonempty : n ≠ []
  slash : (0x2F : Byte) ∉ n
  nul : (0 : Byte) ∉ n
  short : n.length ≤ 255

/-- A name that is no longer in the directory need not be given. -/
def Stream.after (fs : FS) (s : Stream) : Stream := ⟨s.dir, s.owed.filter fun n => n ∈ fs.namesIn s.dir⟩

/-- What a system call with its answer does. -/
inductive World.Step : World → Event → World → Prop
  | lstat (w : World) (p : Bytes) (r : Option Stat) : w.fs.lstat p = r → World.Step w (.lstat p r) w
  | renamed (w : World) (old new : Bytes) (fs : FS) : w.fs.rename old new = some fs →
      World.Step w (.rename old new true) { w with fs := fs, streams := fun k => (w.streams k).map (Stream.after fs) }
  | renameFailed (w : World) (old new : Bytes) : World.Step w (.rename old new false) w
  | opened (w : World) (p : Bytes) (h : Nat) (d : Ino) : w.fs.follow p = some d → w.fs.kind d = .dir → w.streams h = none →
      World.Step w (.opendir p (.ok h)) { w with
        streams := fun k => if k = h then some ⟨d, w.fs.namesIn d⟩ else w.streams k
        opened := (d, p) :: w.opened }
  | refused (w : World) (p : Bytes) (r : OpenRes) : (∀ h, r ≠ .ok h) →
      World.Step w (.opendir p r) { w with refused := (w.fs.follow p).toList.map (fun d => (d, p)) ++ w.refused }
  | entry (w : World) (h : Nat) (s : Stream) (n : Bytes) : w.streams h = some s → EntryName n →
      World.Step w (.readdir h (some n)) { w with
        streams := fun k => if k = h then some ⟨s.dir, s.owed.filter (· ≠ n)⟩ else w.streams k }
  | finished (w : World) (h : Nat) (s : Stream) : w.streams h = some s → s.owed = [] → World.Step w (.readdir h none) w
  | closed (w : World) (h : Nat) :
      World.Step w (.closedir h) { w with streams := fun k => if k = h then none else w.streams k }
  | slurp (w : World) (p r : Option Bytes) : World.Step w (.slurp p r) w
  | out (w : World) (s : Bytes) : World.Step w (.out s) w
  | err (w : World) (s : Bytes) : World.Step w (.err s) w

/-- The calls of a process that has the file system for itself. -/
inductive World.Steps : World → List Event → World → Prop
  | nil (w : World) : World.Steps w [] w
  | cons (w w1 w2 : World) (e : Event) (tr : List Event) : World.Step w e w1 → World.Steps w1 tr w2 → World.Steps w (e :: tr) w2

/-- No directory is open, none was opened yet. -/
def World.start (fs : FS) : World := ⟨fs, fun _ => none, [], []⟩

instance (n : Bytes) : Decidable (EntryName n) :=
  if h : n ≠ [] ∧ (0x2F : Byte) ∉ n ∧ (0 : Byte) ∉ n ∧ n.length ≤ 255 then isTrue ⟨h.1, h.2.1, h.2.2.1, h.2.2.2⟩
  else isFalse fun e => h ⟨e.nonempty, e.slash, e.nul, e.short⟩

/-- Calls made one after the other, if the answers are right (for examples). -/
def World.exec (w : World) : List Event → Option World
  | [] => some w
  | .lstat p r :: tr => if w.fs.lstat p = r then w.exec tr else none
  | .rename old new true :: tr =>
    match w.fs.rename old new with
    | none => none
    | some fs => World.exec { w with fs := fs, streams := fun k => (w.streams k).map (Stream.after fs) } tr
  | .opendir p (.ok h) :: tr =>
    match w.fs.follow p with
    | none => none
    | some d =>
      if w.fs.kind d = .dir ∧ (w.streams h).isNone then
        World.exec { w with
          streams := fun k => if k = h then some ⟨d, w.fs.namesIn d⟩ else w.streams k
          opened := (d, p) :: w.opened } tr
      else none
  | .opendir p _ :: tr => World.exec { w with refused := (w.fs.follow p).toList.map (fun d => (d, p)) ++ w.refused } tr
  | .readdir h (some n) :: tr =>
    match w.streams h with
    | none => none
    | some s =>
      if EntryName n then
        World.exec { w with streams := fun k => if k = h then some ⟨s.dir, s.owed.filter (· ≠ n)⟩ else w.streams k } tr
      else none
  | .readdir h none :: tr =>
    match w.streams h with
    | none => none
    | some s => if s.owed = [] then w.exec tr else none
  | .closedir h :: tr => World.exec { w with streams := fun k => if k = h then none else w.streams k } tr
  | _ :: tr => w.exec tr

/-! ### Trees -/

/-- The directories are a tree: `depth` says how far a directory is from the top. There are no two names for a directory, and names are unique.
Paths of `slack` more components than the tree is deep can be followed. -/
structure FS.Tree (fs : FS) (depth : Ino → Nat) (slack : Nat) : Prop where
  unique : fs.Unique
  level : ∀ e ∈ fs.entries, fs.kind e.ino = .dir → depth e.ino = depth e.dir + 1
  once : ∀ e ∈ fs.entries, ∀ e' ∈ fs.entries, fs.kind e.ino = .dir → e.ino = e'.ino → e = e'
  bound : ∀ d, depth d + slack < walkLimit

/-- The directories in which a name is looked up when a path is followed. Compare `FS.walk`. -/
def FS.uses (fs : FS) : Nat → Ino → List Bytes → List Ino
  | _, _, [] => []
  | 0, _, _ :: _ => []
  | fuel + 1, d, n :: rest =>
    (if n = [0x2E] ∨ n = [0x2E, 0x2E] then [] else [d]) ++
    match fs.step d n with
    | none => []
    | some i =>
      if fs.kind i = .link then fs.uses fuel (fs.start d (fs.target i)) (comps (fs.target i) ++ rest)
      else fs.uses fuel i rest

/-- The path leads to the directory `d`, whatever names there are in directories of depth `level` or more. It does so in few steps. The empty path
leads to the current directory. -/
structure FS.Leads (fs : FS) (depth : Ino → Nat) (slack : Nat) (level : Nat) (p : Bytes) (d : Ino) : Prop where
  walk : fs.walk (depth d + slack) (fs.start fs.cwd p) (comps p) = some d
  uses : ∀ x ∈ fs.uses (depth d + slack) (fs.start fs.cwd p) (comps p), depth x < level
  kind : fs.kind d = .dir
  deep : level ≤ depth d

/-- An argument that means the same whatever names there are in directories of depth `level` or more: its directory part does, or, if its last
component is `.` or `..` or it ends in a slash, it does itself. -/
inductive FS.Steady (fs : FS) (depth : Ino → Nat) (slack : Nat) (level : Nat) (f : Bytes) : Prop
  | name (dir name : Bytes) (x : Ino) : f = dir ++ name → (dir = [] ∨ ∃ d, dir = d ++ [0x2F]) → (0x2F : Byte) ∉ name → name ≠ [] →
      name ≠ [0x2E] → name ≠ [0x2E, 0x2E] → fs.Leads depth slack level dir x → FS.Steady fs depth slack level f
  | self (dir name : Bytes) (d : Ino) : f = dir ++ name → (dir = [] ∨ ∃ d, dir = d ++ [0x2F]) →
      (name = [] ∨ name = [0x2E] ∨ name = [0x2E, 0x2E]) → f ≠ [] → fs.Leads depth slack level f d → FS.Steady fs depth slack level f

end Detox.Spec
