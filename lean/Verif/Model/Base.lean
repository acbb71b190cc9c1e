/-!
# Bytes, C strings, outcomes and output buffers

Shared vocabulary of the model of dharple/detox.
-/

set_option autoImplicit false

namespace Detox

/-- A C `char`, as its 8-bit pattern. -/
abbrev Byte := UInt8

/-- Content of a C string (without the terminating NUL), or a raw byte sequence. -/
abbrev Bytes := List Byte

/-- ASCII text to bytes (used only to write literals readably). -/
def lit (s : String) : Bytes := s.toList.map (fun c => UInt8.ofNat c.toNat)

/-- Kinds of C undefined behaviour the model distinguishes. -/
inductive UB where
  /-- read outside an object -/
  | oobRead
  /-- write outside an object -/
  | oobWrite
  /-- `isupper`/`isxdigit`/... called with a negative argument (C11 7.4p1) -/
  | ctypeArg
  /-- a pointer below the start of an array is formed (C11 6.5.6p8) -/
  | ptrBelow
  /-- `atoi` out of range (C11 7.22.1p1) -/
  | atoiRange
  /-- overflow of an `int` (C11 6.5p5); only `Model/Counters.lean` tells -/
  | intOverflow
  deriving DecidableEq, Repr

/-- Outcome of running a piece of the program. -/
inductive Res (α : Type) where
  /-- normal return -/
  | ok (a : α)
  /-- the process called `exit(status)` -/
  | exit (status : Nat)
  /-- undefined behaviour happened -/
  | ub (u : UB)
  /-- the loop bound used by the model was too small (proved never to happen) -/
  | stuck
  deriving DecidableEq, Repr

namespace Res

def bind {α β : Type} (x : Res α) (f : α → Res β) : Res β :=
  match x with
  | ok a => f a
  | exit n => exit n
  | ub u => ub u
  | stuck => stuck

instance : Monad Res where
  pure := ok
  bind := bind

def isOk {α : Type} : Res α → Bool
  | ok _ => true
  | _ => false

@[simp] theorem pure_eq {α : Type} (a : α) : (pure a : Res α) = ok a := rfl
@[simp] theorem bind_ok {α β : Type} (a : α) (f : α → Res β) : (ok a >>= f) = f a := rfl
@[simp] theorem bind_exit {α β : Type} (n : Nat) (f : α → Res β) : ((exit n : Res α) >>= f) = exit n := rfl
@[simp] theorem bind_ub {α β : Type} (u : UB) (f : α → Res β) : ((ub u : Res α) >>= f) = ub u := rfl
@[simp] theorem bind_stuck {α β : Type} (f : α → Res β) : ((stuck : Res α) >>= f) = stuck := rfl

end Res

/-- Implementation-defined choices of the C platform. -/
structure Platform where
  /-- plain `char` is signed (x86) or unsigned (ARM Linux) -/
  charSigned : Bool
  /-- ctype functions are defined for negative `char` values (glibc: yes; ISO C: no) -/
  ctypeNegDefined : Bool
  /-- forming a pointer one below an array start is harmless (flat memory: yes; ISO C: no) -/
  ptrBelowDefined : Bool
  deriving DecidableEq, Repr

/-- x86-64 Linux with glibc. -/
def Platform.linux : Platform := ⟨true, true, true⟩

/-- Strictly conforming reading of ISO C with signed `char`. -/
def Platform.strict : Platform := ⟨true, false, false⟩

/-- Platforms on which the two latent ISO C violations of the code are harmless. -/
def Platform.Benign (P : Platform) : Prop := P.ctypeNegDefined = true ∧ P.ptrBelowDefined = true

instance (P : Platform) : Decidable P.Benign := by unfold Platform.Benign; infer_instance

/-- Conversion of a plain `char` to `unsigned int`: sign extension when `char` is signed. -/
def Platform.charToUInt (P : Platform) (c : Byte) : Nat :=
  if P.charSigned && 128 ≤ c.toNat then 2 ^ 32 - 256 + c.toNat else c.toNat

/-- What a reader of a NUL-terminated string sees in a buffer: the bytes before the first NUL. -/
def cstr (b : Bytes) : Bytes := b.takeWhile (· ≠ 0)

/-- A heap block of `cap` bytes written front to back through a walking pointer
(`*output_walk++ = c`); `data` is what has been written so far. -/
structure OutBuf where
  cap : Nat
  data : Bytes
  deriving DecidableEq, Repr

/-- `wrapped_malloc(n)`; wrapped.c:24-45 (exit on failure is not explored). -/
def OutBuf.alloc (n : Nat) : OutBuf := ⟨n, []⟩

/-- `*output_walk++ = c`: undefined behaviour when the block is full. -/
def OutBuf.push (o : OutBuf) (c : Byte) : Res OutBuf :=
  if o.data.length < o.cap then .ok { o with data := o.data ++ [c] } else .ub .oobWrite

/-- `while (*replace_walk != '\0') { *output_walk++ = *replace_walk++; }` -/
def OutBuf.pushStr (o : OutBuf) : Bytes → Res OutBuf
  | [] => .ok o
  | c :: cs => do
    let o ← o.push c
    o.pushStr cs

/-- `*output_walk = '\0'; return output;` — the caller sees the string up to the first NUL. -/
def OutBuf.finish (o : OutBuf) : Res Bytes := do
  let o' ← o.push 0
  pure (cstr o'.data)

end Detox
