import Verif.Model.Base

/-!
# Programs over system calls

A program is a tree of system calls; each call carries a continuation for every possible answer.
The semantics given here is the *open* one: a call may be answered by anything, and the process may stop
(crash, be killed) between any two calls. `Spec/FileSystem.lean` says which answers a POSIX file system
gives.
-/

set_option autoImplicit false

namespace Detox

/-- `st_mode & S_IFMT`, as far as detox looks at it: `S_ISREG`, `S_ISDIR`, anything else. Symbolic
links are `link`; fifos, sockets and devices are `other`. -/
inductive Kind where
  | reg | dir | link | other
  deriving DecidableEq, Repr

/-- The fields of `struct stat` detox reads (file.c:126-128, 172, 217-223; detox.c:95-104). -/
structure Stat where
  dev : Nat
  ino : Nat
  nlink : Nat
  kind : Kind
  deriving DecidableEq, Repr

/-- Answer of `opendir`: a handle, failure, or failure with `EMFILE`. -/
inductive OpenRes where
  | ok (handle : Nat)
  | fail
  | emfile
  deriving DecidableEq, Repr

/-- A program making system calls. `lstat` answers `none` for -1; `rename` answers `true` for success;
`readdir` answers `none` at the end of the directory; `slurp` opens a file (`none`: stdin) and reads
it to the end, answering `none` if it cannot be opened. `out`/`err` write to stdout/stderr. -/
inductive Prog (α : Type) where
  | ret (a : α)
  | exit (status : Nat)
  | ub (u : UB)
  | stuck
  | lstat (path : Bytes) (k : Option Stat → Prog α)
  | rename (old new : Bytes) (k : Bool → Prog α)
  | opendir (path : Bytes) (k : OpenRes → Prog α)
  | readdir (handle : Nat) (k : Option Bytes → Prog α)
  | closedir (handle : Nat) (k : Prog α)
  | slurp (path : Option Bytes) (k : Option Bytes → Prog α)
  | out (s : Bytes) (k : Prog α)
  | err (s : Bytes) (k : Prog α)

namespace Prog

def bind {α β : Type} : Prog α → (α → Prog β) → Prog β
  | ret a, f => f a
  | exit n, _ => exit n
  | ub u, _ => ub u
  | stuck, _ => stuck
  | lstat p k, f => lstat p (fun r => bind (k r) f)
  | rename o n k, f => rename o n (fun r => bind (k r) f)
  | opendir p k, f => opendir p (fun r => bind (k r) f)
  | readdir h k, f => readdir h (fun r => bind (k r) f)
  | closedir h k, f => closedir h (bind k f)
  | slurp p k, f => slurp p (fun r => bind (k r) f)
  | out s k, f => out s (bind k f)
  | err s k, f => err s (bind k f)

/-- A computation without system calls. -/
def ofRes {α : Type} : Res α → Prog α
  | .ok a => ret a
  | .exit n => exit n
  | .ub u => ub u
  | .stuck => stuck

end Prog

/-- A system call with its answer. -/
inductive Event where
  | lstat (path : Bytes) (r : Option Stat)
  | rename (old new : Bytes) (ok : Bool)
  | opendir (path : Bytes) (r : OpenRes)
  | readdir (handle : Nat) (r : Option Bytes)
  | closedir (handle : Nat)
  | slurp (path : Option Bytes) (r : Option Bytes)
  | out (s : Bytes)
  | err (s : Bytes)
  deriving DecidableEq, Repr

/-- How far an execution got. -/
inductive Outcome (α : Type) where
  /-- not finished: more to do, or killed here -/
  | running
  | ret (a : α)
  | exit (status : Nat)
  | ub (u : UB)
  | stuck
  deriving DecidableEq, Repr

/-- `Trace p tr o`: the program may have made exactly the calls `tr`, and then be in state `o`. Every
prefix of an execution is an execution (`stop`), so a statement about all traces covers every point at
which the process may be killed. -/
inductive Trace {α : Type} : Prog α → List Event → Outcome α → Prop
  | stop (p : Prog α) : Trace p [] .running
  | ret (a : α) : Trace (.ret a) [] (.ret a)
  | exit (n : Nat) : Trace (.exit n) [] (.exit n)
  | ub (u : UB) : Trace (.ub u) [] (.ub u)
  | stuck : Trace .stuck [] .stuck
  | lstat (p : Bytes) (k : Option Stat → Prog α) (r : Option Stat) (tr : List Event) (o : Outcome α) :
      Trace (k r) tr o → Trace (.lstat p k) (.lstat p r :: tr) o
  | rename (old new : Bytes) (k : Bool → Prog α) (r : Bool) (tr : List Event) (o : Outcome α) :
      Trace (k r) tr o → Trace (.rename old new k) (.rename old new r :: tr) o
  | opendir (p : Bytes) (k : OpenRes → Prog α) (r : OpenRes) (tr : List Event) (o : Outcome α) :
      Trace (k r) tr o → Trace (.opendir p k) (.opendir p r :: tr) o
  | readdir (h : Nat) (k : Option Bytes → Prog α) (r : Option Bytes) (tr : List Event) (o : Outcome α) :
      Trace (k r) tr o → Trace (.readdir h k) (.readdir h r :: tr) o
  | closedir (h : Nat) (k : Prog α) (tr : List Event) (o : Outcome α) :
      Trace k tr o → Trace (.closedir h k) (.closedir h :: tr) o
  | slurp (p : Option Bytes) (k : Option Bytes → Prog α) (r : Option Bytes) (tr : List Event) (o : Outcome α) :
      Trace (k r) tr o → Trace (.slurp p k) (.slurp p r :: tr) o
  | out (s : Bytes) (k : Prog α) (tr : List Event) (o : Outcome α) :
      Trace k tr o → Trace (.out s k) (.out s :: tr) o
  | err (s : Bytes) (k : Prog α) (tr : List Event) (o : Outcome α) :
      Trace k tr o → Trace (.err s k) (.err s :: tr) o

end Detox
