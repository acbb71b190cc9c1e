import Verif.Model.Sys

/-!
# Standard output: what is printed is collected and written later

`Prog` has one event per print statement. Here these statements only add to the buffer of the stream, and the system sees `write` calls, at any time and of any
part of what is waiting, from its beginning. This covers a stream that is fully buffered (a pipe or a file), line buffered (a terminal) or unbuffered, and any size
of the buffer. The answer of the system to `write` may be that it took a part of it, that it failed, or that the process gets `SIGPIPE` and is killed (detox does not
set a handler).

The print statements: detox.c:94, file.c:143, file.c:408-415, parse_options.c:146-238, config_file_dump.c. None of them looks at the result of `printf`, nothing
calls `fflush`, `ferror` or `fclose` for `stdout`, and what waits at the end of `main`, or at `exit`, is written by the library.
-/

set_option autoImplicit false

namespace Detox

/-- What becomes of a `write`. -/
inductive WriteRes where
  /-- that many bytes were taken, from the beginning -/
  | took (n : Nat)
  /-- -1, for example `ENOSPC`, `EIO` or `EPIPE` -/
  | failed
  /-- the reader of the pipe is gone, and so is the process -/
  | killed
  deriving DecidableEq, Repr

/-- What the system sees: the calls of the program other than print statements, and `write` calls for standard output. -/
inductive SysCall where
  | call (e : Event)
  | write (offered : Bytes) (r : WriteRes)
  deriving DecidableEq, Repr

/-- `Stdio b tr sys b'`: while `b` is waiting, the program does `tr`; the system sees `sys`, and in the end `b'` is waiting. After a `write` that failed, any part of
what was waiting may be lost (glibc forgets the buffer; other libraries keep it). -/
inductive Stdio : Bytes → List Event → List SysCall → Bytes → Prop
  | nil (b : Bytes) : Stdio b [] [] b
  | out (b s : Bytes) (tr : List Event) (sys : List SysCall) (b' : Bytes) : Stdio (b ++ s) tr sys b' → Stdio b (.out s :: tr) sys b'
  | call (b : Bytes) (e : Event) (tr : List Event) (sys : List SysCall) (b' : Bytes) : (∀ s, e ≠ .out s) → Stdio b tr sys b' →
      Stdio b (e :: tr) (.call e :: sys) b'
  | took (a b : Bytes) (n : Nat) (tr : List Event) (sys : List SysCall) (b' : Bytes) : a ≠ [] → n ≤ a.length → Stdio (a.drop n ++ b) tr sys b' →
      Stdio (a ++ b) tr (.write a (.took n) :: sys) b'
  | failed (a b kept : Bytes) (tr : List Event) (sys : List SysCall) (b' : Bytes) : a ≠ [] → kept.Sublist (a ++ b) → Stdio kept tr sys b' →
      Stdio (a ++ b) tr (.write a .failed :: sys) b'
  | killed (a b : Bytes) : a ≠ [] → Stdio (a ++ b) [] [.write a .killed] (a ++ b)

/-- The program came to an end of its own: the library writes what is waiting. -/
inductive Outcome.Ends {α : Type} : Outcome α → Prop
  | ret (a : α) : Outcome.Ends (.ret a)
  | exit (n : Nat) : Outcome.Ends (.exit n)

/-- An execution of a program with its standard output: `tr` is what the program does, `sys` what the system sees. -/
structure Ran {α : Type} (p : Prog α) (tr : List Event) (sys : List SysCall) (o : Outcome α) : Prop where
  trace : Trace p tr o
  stdio : ∃ left, Stdio [] tr sys left ∧ (o.Ends → left = [])
  /-- who is killed does not go on -/
  killed : (∃ a, SysCall.write a .killed ∈ sys) → o = .running

end Detox
