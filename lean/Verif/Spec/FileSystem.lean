import Verif.Model.Sys

/-!
# A POSIX file system, as far as `lstat` and `rename` are concerned

Directories are sets of entries (name → inode). Paths are resolved component by component, following symbolic links in all but
the last component; `lstat` and `rename` do not follow the last one unless the path ends in a slash. Names may be compared
modulo a normalisation chosen per directory (case-insensitive file systems). Any `rename` may fail for any reason. `lstat` fails
exactly if the path does not lead to an object or the system denies access to the path; then `rename` fails, too.

Permissive points (more behaviour than a real system, so what is proved here holds a fortiori): `readdir`, `opendir` may answer
anything; a `rename` that replaces its target is allowed irrespective of the kinds of the two; the loop check for moving a
directory into itself is left out.
-/

set_option autoImplicit false

namespace Detox.Spec

/-- Device and inode number. -/
structure Ino where
  dev : Nat
  num : Nat
  deriving DecidableEq, Repr

/-- A directory entry: in `dir` there is `name`, referring to `ino`. -/
structure Entry where
  dir : Ino
  name : Bytes
  ino : Ino
  deriving DecidableEq, Repr

structure FS where
  entries : List Entry
  root : Ino
  cwd : Ino
  /-- what an object is; this stands for its whole content -/
  kind : Ino → Kind
  /-- text of a symbolic link -/
  target : Ino → Bytes
  /-- link count the system reports for a directory -/
  dirLinks : Ino → Nat
  /-- parent of a directory (what `..` means) -/
  parent : Ino → Ino
  /-- names are the same in a directory if their normal forms are -/
  norm : Ino → Bytes → Bytes
  /-- paths the system refuses to follow (permissions, too long, ...) -/
  denied : Bytes → Bool

/-- The components of a path. -/
def comps : Bytes → List Bytes
  | [] => []
  | c :: p =>
    if c = 0x2F then comps p
    else
      match p with
      | [] => [[c]]
      | d :: _ =>
        if d = 0x2F then [c] :: comps p
        else
          match comps p with
          | [] => [[c]]
          | w :: ws => (c :: w) :: ws

/-- The path ends in a slash. -/
def endsInSlash (p : Bytes) : Bool := p.getLast? = some 0x2F

/-- Where the resolution of a path starts. -/
def FS.start (fs : FS) (cwd : Ino) (p : Bytes) : Ino := if p.head? = some 0x2F then fs.root else cwd

/-- The entry for a name. -/
def FS.find (fs : FS) (d : Ino) (n : Bytes) : Option Entry :=
  fs.entries.find? fun e => e.dir = d && fs.norm d e.name = fs.norm d n

/-- One component, not following a symbolic link. -/
def FS.step (fs : FS) (d : Ino) (n : Bytes) : Option Ino :=
  if fs.kind d ≠ .dir then none
  else if n = [0x2E] then some d
  else if n = [0x2E, 0x2E] then some (fs.parent d)
  else (fs.find d n).map Entry.ino

/-- Components, following symbolic links; at most `fuel` steps in total (the system's `ELOOP` and `ENAMETOOLONG`). -/
def FS.walk (fs : FS) : Nat → Ino → List Bytes → Option Ino
  | _, d, [] => some d
  | 0, _, _ :: _ => none
  | fuel + 1, d, n :: rest =>
    match fs.step d n with
    | none => none
    | some i =>
      if fs.kind i = .link then fs.walk fuel (fs.start d (fs.target i)) (comps (fs.target i) ++ rest)
      else fs.walk fuel i rest

/-- The system's limit on steps. -/
def walkLimit : Nat := 10000

/-- The directory that holds the last component of a path. -/
def FS.dirOf (fs : FS) (p : Bytes) : Option Ino := fs.walk walkLimit (fs.start fs.cwd p) (comps p).dropLast

/-- The object a path leads to, without following a symbolic link at its end. -/
def FS.lookup (fs : FS) (p : Bytes) : Option Ino :=
  if p = [] ∨ fs.denied p = true then none
  else if endsInSlash p then
    match fs.walk walkLimit (fs.start fs.cwd p) (comps p) with
    | none => none
    | some i => if fs.kind i = .dir then some i else none
  else
    match fs.dirOf p, (comps p).getLast? with
    | some d, some n => fs.step d n
    | _, _ => none

/-- Number of names of an object. -/
def FS.names (fs : FS) (i : Ino) : Nat := (fs.entries.filter fun e => e.ino = i).length

/-- `lstat`. -/
def FS.lstat (fs : FS) (p : Bytes) : Option Stat :=
  (fs.lookup p).map fun i =>
    { dev := i.dev, ino := i.num, kind := fs.kind i, nlink := if fs.kind i = .dir then fs.dirLinks i else fs.names i }

/-- The entry a path names, for `rename`: its directory and last component, which must not be `.` or `..`. -/
def FS.locate (fs : FS) (p : Bytes) : Option (Ino × Bytes) :=
  if p = [] ∨ fs.denied p = true then none
  else
    match fs.dirOf p, (comps p).getLast? with
    | some d, some n => if n = [0x2E] ∨ n = [0x2E, 0x2E] ∨ fs.kind d ≠ .dir then none else some (d, n)
    | _, _ => none

/-- Give the entry `e` a new place. -/
def moveEntry (e : Entry) (d : Ino) (n : Bytes) (x : Entry) : Entry := if x = e then { dir := d, name := n, ino := e.ino } else x

/-- A successful `rename`. -/
def FS.rename (fs : FS) (old new : Bytes) : Option FS :=
  match fs.locate old, fs.locate new with
  | some (d1, n1), some (d2, n2) =>
    match fs.find d1 n1 with
    | none => none
    | some e1 =>
      if endsInSlash old = true ∧ fs.kind e1.ino ≠ .dir then none
      else if endsInSlash new = true ∧ fs.kind e1.ino ≠ .dir then none
      else if d1.dev ≠ d2.dev then none
      else
        match fs.find d2 n2 with
        | none => some { fs with entries := fs.entries.map (moveEntry e1 d2 n2) }
        | some e2 =>
          if endsInSlash new = true ∧ fs.lookup new ≠ some e2.ino then none
          else if e2 = e1 then some { fs with entries := fs.entries.map (moveEntry e1 d2 n2) }
          else if e2.ino = e1.ino then some fs
          else some { fs with entries := (fs.entries.filter (· ≠ e2)).map (moveEntry e1 d2 n2) }
  | _, _ => none

/-- What a system call with its answer does to the file system. -/
inductive FS.Step (fs : FS) : Event → FS → Prop
  | lstat (p : Bytes) (r : Option Stat) : fs.lstat p = r → FS.Step fs (.lstat p r) fs
  | renamed (old new : Bytes) (fs' : FS) : fs.rename old new = some fs' → FS.Step fs (.rename old new true) fs'
  | renameFailed (old new : Bytes) : FS.Step fs (.rename old new false) fs
  | opendir (p : Bytes) (r : OpenRes) : FS.Step fs (.opendir p r) fs
  | readdir (h : Nat) (r : Option Bytes) : FS.Step fs (.readdir h r) fs
  | closedir (h : Nat) : FS.Step fs (.closedir h) fs
  | slurp (p r : Option Bytes) : FS.Step fs (.slurp p r) fs
  | out (s : Bytes) : FS.Step fs (.out s) fs
  | err (s : Bytes) : FS.Step fs (.err s) fs

/-- The calls of a process that has the file system for itself. -/
inductive FS.Steps : FS → List Event → FS → Prop
  | nil (fs : FS) : FS.Steps fs [] fs
  | cons (fs fs1 fs2 : FS) (e : Event) (tr : List Event) : FS.Step fs e fs1 → FS.Steps fs1 tr fs2 → FS.Steps fs (e :: tr) fs2

/-- Another process creates a file under a name that is free. -/
inductive FS.Creates : FS → FS → Prop
  | mk (fs : FS) (e : Entry) : fs.kind e.dir = .dir → fs.find e.dir e.name = none →
      FS.Creates fs { fs with entries := fs.entries ++ [e] }

/-- The calls of a process, each with the states before and after it, are not disturbed by anyone else in between. -/
def Undisturbed : List (FS × Event × FS) → Prop
  | a :: b :: l => a.2.2 = b.1 ∧ Undisturbed (b :: l)
  | _ => True

/-- Like `FS.Steps`, but `lstat` may fail even though the path leads to an object (`EIO`, `ENOMEM`, `EOVERFLOW`). -/
inductive FS.FlakySteps : FS → List Event → FS → Prop
  | nil (fs : FS) : FS.FlakySteps fs [] fs
  | cons (fs fs1 fs2 : FS) (e : Event) (tr : List Event) : FS.Step fs e fs1 → FS.FlakySteps fs1 tr fs2 →
      FS.FlakySteps fs (e :: tr) fs2
  | flaky (fs fs2 : FS) (p : Bytes) (tr : List Event) : FS.FlakySteps fs tr fs2 → FS.FlakySteps fs (.lstat p none :: tr) fs2

/-- Calls made one after the other, if the answers are right (for examples). -/
def FS.exec (fs : FS) : List Event → Option FS
  | [] => some fs
  | .lstat p r :: tr => if fs.lstat p = r then fs.exec tr else none
  | .rename old new true :: tr =>
    match fs.rename old new with
    | none => none
    | some fs' => fs'.exec tr
  | _ :: tr => fs.exec tr

/-- No directory has two entries for the same name. -/
def FS.Unique (fs : FS) : Prop :=
  fs.entries.Pairwise fun a b => ¬ (a.dir = b.dir ∧ fs.norm a.dir a.name = fs.norm b.dir b.name)

end Detox.Spec
