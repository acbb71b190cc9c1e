import Verif.Model.Base

/-!
# File lists — `/repo/src/filelist.c`
-/

set_option autoImplicit false

namespace Detox

/-- `FILELIST_CHUNK`, filelist.c:17. -/
def filelistChunk : Nat := 16

/-- `filelist_t`, detox_struct.h:27-32. `files` is the allocated block of `max` slots; a slot that
was never written (or was zeroed by `memset`) is `none`. -/
structure Filelist where
  files : List (Option Bytes)
  count : Nat
  ptr : Nat
  deriving DecidableEq, Repr

/-- `list->max`. -/
def Filelist.max (l : Filelist) : Nat := l.files.length

/-- `filelist_init`, filelist.c:81-92. -/
def filelistInit : Filelist := ⟨List.replicate filelistChunk none, 0, 0⟩

/-- `filelist_count`, filelist.c:24-31. -/
def filelistCount : Option Filelist → Nat
  | none => 0
  | some l => l.count

/-- `filelist_reset`, filelist.c:137-144. -/
def filelistReset (l : Filelist) : Filelist := { l with ptr := 0 }

/-- The growing step of `filelist_put`, filelist.c:107-126. -/
def filelistGrow (l : Filelist) : Filelist :=
  if l.count = l.max then { l with files := l.files.take l.count ++ List.replicate filelistChunk none }
  else l

/-- `filelist_put`, filelist.c:100-130, on a non-NULL list: a store past the block is undefined. -/
def filelistPut (l : Filelist) (file : Bytes) : Res Filelist :=
  let l := filelistGrow l
  if l.count < l.max then
    .ok (filelistReset { l with files := l.files.set l.count (some file), count := l.count + 1 })
  else .ub .oobWrite

/-- `filelist_get`, filelist.c:62-74. A read past the block is undefined. An unwritten slot inside
the block would be an uninitialised read; it is reported as the same undefined behaviour. -/
def filelistGet (l : Filelist) : Res (Filelist × Option Bytes) :=
  if l.count = 0 then .ok (l, none)
  else if l.ptr = l.count then .ok ({ l with ptr := 0 }, none)
  else
    match l.files[l.ptr]? with
    | some (some f) => .ok ({ l with ptr := l.ptr + 1 }, some f)
    | _ => .ub .oobRead

end Detox
