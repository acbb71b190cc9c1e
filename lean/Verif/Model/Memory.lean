import Verif.Model.Sys
import Verif.Model.Filter

/-!
# Memory

The other parts of the model work on values: a string is a list of bytes, a chain of structures is a list. Here the same functions of
`/repo/src` are modelled once more on the level of pointers: every `malloc`, `strdup` and `free` is there, structures refer to each other by
address, and using a block that was freed, freeing it again, or using NULL is a fault.

An address is the number of the allocation, so that the address of a freed block never comes back. The allocator is a parameter: a function
that says which allocations succeed.

Simplifications: `char *` points to the start of a block; the content of a block of `char` is kept as the string in it; a structure is read and
written as a whole.
-/

set_option autoImplicit false

namespace Detox

/-- The address of a block: the number of allocations before it. -/
macro "Addr" : term => `(Nat)

/-- The numbers in a `table_t`, detox_struct.h:39-57. -/
structure TableNumbers where
  length : Nat
  used : Nat := 0
  maxDataLength : Nat := 0
  hits : Nat := 0
  misses : Nat := 0
  overwrites : Nat := 0
  seeks : Nat := 0
  useHash : Bool := true
  builtin : Bool := false
  maxKey : Nat := 0
  deriving DecidableEq, Repr

/-- What a block on the heap holds. A pointer is an `Option Addr`; `none` is NULL. -/
inductive Block where
  /-- `char[size]` with a string in it -/
  | text (size : Nat) (s : Bytes)
  /-- `char *[]`, the block behind `filelist_t.files`; a slot that was never written is `none` as well -/
  | slots (ps : List (Option Addr))
  /-- `filelist_t`, detox_struct.h:27-32 -/
  | filelist (files : Option Addr) (max count ptr : Nat)
  /-- `table_row_t[]` -/
  | rows (rs : List (Nat × Option Addr))
  /-- `table_t` -/
  | table (rows dflt : Option Addr) (n : TableNumbers)
  /-- `filter_t`, detox_struct.h:59-67 -/
  | filter (next : Option Addr) (cleaner : Cleaner) (filename builtin : Option Addr) (removeTrailing : Bool) (maxLength : Nat)
      (table : Option Addr)
  /-- `sequence_t`, detox_struct.h:72-77 -/
  | sequence (next name filters source : Option Addr)
  /-- `config_file_t`, detox_struct.h:82-85 -/
  | config (sequences ignore : Option Addr)
  /-- a structure whose fields are not followed -/
  | other
  deriving DecidableEq, Repr

/-- The heap: for every address that was handed out, the block, or `none` once it was freed. -/
abbrev Heap := List (Option Block)

/-- The live block at an address. -/
def Heap.get (h : Heap) (a : Addr) : Option Block :=
  match h[a]? with
  | some (some b) => some b
  | _ => none

/-- What can go wrong with a pointer. -/
inductive Fault where
  /-- a block that is not there: freed, never allocated, or of another type -/
  | pointer
  /-- NULL -/
  | null
  /-- a place outside the block -/
  | bounds
  deriving DecidableEq, Repr

/-- Programs with memory. The fault, if there is one, ends the program. -/
def Mem (α : Type) : Type := Heap → Prog (Except Fault (α × Heap))

namespace Mem

def pure {α : Type} (a : α) : Mem α := fun h => .ret (.ok (a, h))

def bind {α β : Type} (m : Mem α) (f : α → Mem β) : Mem β := fun h =>
  (m h).bind fun r =>
    match r with
    | .ok (a, h') => f a h'
    | .error e => .ret (.error e)

instance : Monad Mem where
  pure := Mem.pure
  bind := Mem.bind

def fault {α : Type} (e : Fault) : Mem α := fun _ => .ret (.error e)

/-- A computation on values. -/
def ofRes {α : Type} (r : Res α) : Mem α := fun h => (Prog.ofRes r).bind fun a => .ret (.ok (a, h))

def exit {α : Type} (n : Nat) : Mem α := fun _ => .exit n
def stuck {α : Type} : Mem α := fun _ => .stuck
def out (s : Bytes) : Mem Unit := fun h => .out s (.ret (.ok ((), h)))
def err (s : Bytes) : Mem Unit := fun h => .err s (.ret (.ok ((), h)))
def lstat (p : Bytes) : Mem (Option Stat) := fun h => .lstat p fun r => .ret (.ok (r, h))
def rename (old new : Bytes) : Mem Bool := fun h => .rename old new fun r => .ret (.ok (r, h))
def opendir (p : Bytes) : Mem OpenRes := fun h => .opendir p fun r => .ret (.ok (r, h))
def readdir (d : Nat) : Mem (Option Bytes) := fun h => .readdir d fun r => .ret (.ok (r, h))
def closedir (d : Nat) : Mem Unit := fun h => .closedir d (.ret (.ok ((), h)))
def slurp (p : Option Bytes) : Mem (Option Bytes) := fun h => .slurp p fun r => .ret (.ok (r, h))

/-- The block at an address. -/
def load (a : Addr) : Mem Block := fun h =>
  match h.get a with
  | some b => .ret (.ok (b, h))
  | none => .ret (.error .pointer)

/-- Writing a block. -/
def store (a : Addr) (b : Block) : Mem Unit := fun h =>
  match h.get a with
  | some _ => .ret (.ok ((), h.set a (some b)))
  | none => .ret (.error .pointer)

/-- `free(p)` for a pointer that is not NULL. -/
def free (a : Addr) : Mem Unit := fun h =>
  match h.get a with
  | some _ => .ret (.ok ((), h.set a none))
  | none => .ret (.error .pointer)

/-- `free(p)`, and nothing for NULL. -/
def freeOpt (p : Option Addr) : Mem Unit :=
  match p with
  | some a => free a
  | none => pure ()

/-- A pointer that is followed. -/
def deref (p : Option Addr) : Mem Addr :=
  match p with
  | some a => pure a
  | none => fault .null

/-- The string at an address. -/
def text (a : Addr) : Mem Bytes := bind (load a) fun b =>
  match b with
  | .text _ s => pure s
  | _ => fault .pointer

/-- Writing a string with its terminating NUL into a block (`strcpy`, `memcpy`, `snprintf`, or the walking pointer of a filter). -/
def putText (a : Addr) (s : Bytes) : Mem Unit := bind (load a) fun b =>
  match b with
  | .text size _ => if s.length < size then store a (.text size s) else fault .bounds
  | _ => fault .pointer

/-- The number of allocations so far; it bounds the number of steps along a chain of blocks. -/
def size : Mem Nat := fun h => .ret (.ok (h.length, h))

end Mem

/-- The message of wrapped.c:40 and 63, without the text of `strerror`. -/
def outOfMemory : Bytes := lit "detox: out of memory: "

/-- `wrapped_malloc`, wrapped.c:24-45. `A n` says whether the n-th allocation succeeds. -/
def wrappedMalloc (A : Nat → Bool) (b : Block) : Mem Addr := fun h =>
  if A h.length then .ret (.ok (h.length, h ++ [some b])) else .err outOfMemory (.exit 1)

/-- `wrapped_strdup`, wrapped.c:47-68. -/
def wrappedStrdup (A : Nat → Bool) (s : Bytes) : Mem Addr := wrappedMalloc A (.text (s.length + 1) s)

/-- `wrapped_strdup` of what a pointer points to, unless it is NULL: `if (p != NULL) { q = wrapped_strdup(p); }`. -/
def strdupOpt (A : Nat → Bool) (p : Option Addr) : Mem (Option Addr) :=
  match p with
  | none => pure none
  | some a => do
    let s ← Mem.text a
    let c ← wrappedStrdup A s
    pure (some c)

end Detox
