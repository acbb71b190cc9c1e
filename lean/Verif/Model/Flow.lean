import Verif.Model.Sys

/-!
# Programs that read piece by piece

Like `Model/Sys.lean`, but a file is opened and then read by one call after the other, each of which may give a part of it or fail.
-/

set_option autoImplicit false

namespace Detox

/-- Answer of `read`: bytes, where none means the end of the file; or failure, with `EAGAIN` or something else. -/
inductive ReadRes where
  | data (s : Bytes)
  | fail (again : Bool)
  deriving DecidableEq, Repr

/-- The calls of a program that reads piece by piece: those of `Event`, `fopen`, and `read` on the file named (`none`: stdin). -/
inductive FlowEvent where
  | sys (e : Event)
  | fopen (path : Bytes) (ok : Bool)
  | read (path : Option Bytes) (r : ReadRes)
  deriving DecidableEq, Repr

/-- A program that reads piece by piece. -/
inductive Flow (α : Type) where
  | ret (a : α)
  | exit (status : Nat)
  | ub (u : UB)
  | stuck
  | lstat (path : Bytes) (k : Option Stat → Flow α)
  | fopen (path : Bytes) (k : Bool → Flow α)
  | read (path : Option Bytes) (k : ReadRes → Flow α)
  | out (s : Bytes) (k : Flow α)
  | err (s : Bytes) (k : Flow α)

namespace Flow

def bind {α β : Type} : Flow α → (α → Flow β) → Flow β
  | ret a, f => f a
  | exit n, _ => exit n
  | ub u, _ => ub u
  | stuck, _ => stuck
  | lstat p k, f => lstat p (fun r => bind (k r) f)
  | fopen p k, f => fopen p (fun r => bind (k r) f)
  | read p k, f => read p (fun r => bind (k r) f)
  | out s k, f => out s (bind k f)
  | err s k, f => err s (bind k f)

/-- A computation without system calls. -/
def ofRes {α : Type} : Res α → Flow α
  | .ok a => ret a
  | .exit n => exit n
  | .ub u => ub u
  | .stuck => stuck

end Flow

/-- `FlowTrace p tr o`: the program may have made exactly the calls `tr`, and then be in state `o`; like `Trace`. -/
inductive FlowTrace {α : Type} : Flow α → List FlowEvent → Outcome α → Prop
  | stop (p : Flow α) : FlowTrace p [] .running
  | ret (a : α) : FlowTrace (.ret a) [] (.ret a)
  | exit (n : Nat) : FlowTrace (.exit n) [] (.exit n)
  | ub (u : UB) : FlowTrace (.ub u) [] (.ub u)
  | stuck : FlowTrace .stuck [] .stuck
  | lstat (p : Bytes) (k : Option Stat → Flow α) (r : Option Stat) (tr : List FlowEvent) (o : Outcome α) :
      FlowTrace (k r) tr o → FlowTrace (.lstat p k) (.sys (.lstat p r) :: tr) o
  | fopen (p : Bytes) (k : Bool → Flow α) (r : Bool) (tr : List FlowEvent) (o : Outcome α) :
      FlowTrace (k r) tr o → FlowTrace (.fopen p k) (.fopen p r :: tr) o
  | read (p : Option Bytes) (k : ReadRes → Flow α) (r : ReadRes) (tr : List FlowEvent) (o : Outcome α) :
      FlowTrace (k r) tr o → FlowTrace (.read p k) (.read p r :: tr) o
  | out (s : Bytes) (k : Flow α) (tr : List FlowEvent) (o : Outcome α) :
      FlowTrace k tr o → FlowTrace (.out s k) (.sys (.out s) :: tr) o
  | err (s : Bytes) (k : Flow α) (tr : List FlowEvent) (o : Outcome α) :
      FlowTrace k tr o → FlowTrace (.err s k) (.sys (.err s) :: tr) o

end Detox
