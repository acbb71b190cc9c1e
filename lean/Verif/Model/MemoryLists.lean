import Verif.Model.Memory
import Verif.Model.Filelist

/-!
# File lists and tables on the heap — `/repo/src/filelist.c`, `/repo/src/table.c`
-/

set_option autoImplicit false

namespace Detox

namespace Mem

/-- The fields of a `filelist_t`. -/
def loadFilelist (a : Addr) : Mem (Option Addr × Nat × Nat × Nat) := bind (load a) fun b =>
  match b with
  | .filelist files max count ptr => pure (files, max, count, ptr)
  | _ => fault .pointer

/-- The block behind `files`. -/
def loadSlots (p : Option Addr) : Mem (List (Option Addr)) := bind (deref p) fun a => bind (load a) fun b =>
  match b with
  | .slots ps => pure ps
  | _ => fault .pointer

/-- The fields of a `table_t`. -/
def loadTable (a : Addr) : Mem (Option Addr × Option Addr × TableNumbers) := bind (load a) fun b =>
  match b with
  | .table rows dflt n => pure (rows, dflt, n)
  | _ => fault .pointer

/-- The block behind `rows`. -/
def loadRows (p : Option Addr) : Mem (List (Nat × Option Addr)) := bind (deref p) fun a => bind (load a) fun b =>
  match b with
  | .rows rs => pure rs
  | _ => fault .pointer

end Mem

/-! ### filelist.c -/

/-- `filelist_init`, filelist.c:81-92. -/
def mFilelistInit (A : Nat → Bool) : Mem Addr := do
  let l ← wrappedMalloc A (.filelist none 0 0 0)
  let fs ← wrappedMalloc A (.slots (List.replicate filelistChunk none))
  Mem.store l (.filelist (some fs) filelistChunk 0 0)
  pure l

/-- `filelist_count`, filelist.c:24-31. -/
def mFilelistCount (list : Option Addr) : Mem Nat :=
  match list with
  | none => pure 0
  | some l => do
    let (_, _, count, _) ← Mem.loadFilelist l
    pure count

/-- `filelist_get`, filelist.c:62-74. A slot that was never written must not be read. -/
def mFilelistGet (list : Option Addr) : Mem (Option Addr) :=
  match list with
  | none => pure none
  | some l => do
    let (files, max, count, ptr) ← Mem.loadFilelist l
    if count = 0 then pure none
    else if ptr = count then do
      Mem.store l (.filelist files max count 0)
      pure none
    else do
      let ps ← Mem.loadSlots files
      match ps[ptr]? with
      | some (some a) => do
        Mem.store l (.filelist files max count (ptr + 1))
        pure (some a)
      | some none => Mem.fault .pointer
      | none => Mem.fault .bounds

/-- The growing step of `filelist_put`, filelist.c:107-126. -/
def mFilelistGrow (A : Nat → Bool) (l : Addr) : Mem Unit := do
  let (files, max, count, ptr) ← Mem.loadFilelist l
  if count = max then do
    let new ← wrappedMalloc A (.slots (List.replicate (max + filelistChunk) none))
    let ps ← Mem.loadSlots files
    if ps.length < count then Mem.fault .bounds
    else do
      Mem.store new (.slots (ps.take count ++ List.replicate (max + filelistChunk - count) none))
      let old ← Mem.deref files
      Mem.free old
      Mem.store l (.filelist (some new) (max + filelistChunk) count ptr)
  else pure ()

/-- `filelist_put`, filelist.c:100-130. `file` is the string it is given. -/
def mFilelistPut (A : Nat → Bool) (list : Option Addr) (file : Bytes) : Mem Unit :=
  match list with
  | none => do
    Mem.err (lit "detox: could not write to a null filelist\n")
    Mem.exit 1
  | some l => do
    mFilelistGrow A l
    let copy ← wrappedStrdup A file
    let (files, max, count, _) ← Mem.loadFilelist l
    let ps ← Mem.loadSlots files
    let a ← Mem.deref files
    if count < ps.length then do
      Mem.store a (.slots (ps.set count (some copy)))
      Mem.store l (.filelist files max (count + 1) 0)
    else Mem.fault .bounds

/-- `filelist_reset`, filelist.c:137-144. -/
def mFilelistReset (list : Option Addr) : Mem Unit :=
  match list with
  | none => pure ()
  | some l => do
    let (files, max, count, _) ← Mem.loadFilelist l
    Mem.store l (.filelist files max count 0)

/-- The loop of `filelist_free`, filelist.c:47-49, from some slot on. A slot that was never written must not be read. -/
def mFreeSlots : List (Option Addr) → Mem Unit
  | [] => pure ()
  | some a :: ps => do
    Mem.free a
    mFreeSlots ps
  | none :: _ => Mem.fault .pointer

/-- `filelist_free`, filelist.c:39-53. -/
def mFilelistFree (list : Option Addr) : Mem Unit :=
  match list with
  | none => pure ()
  | some l => do
    let (files, _, count, _) ← Mem.loadFilelist l
    let ps ← Mem.loadSlots files
    if ps.length < count then Mem.fault .bounds
    else do
      mFreeSlots (ps.take count)
      let a ← Mem.deref files
      Mem.free a
      Mem.free l

/-! ### table.c -/

/-- The table as `table_put` and `table_get` search it: keys, size and kind of search. -/
def tableView (n : TableNumbers) (rs : List (Nat × Option Addr)) : Table :=
  { rows := rs.map fun r => ⟨r.1, none⟩, used := n.used, useHash := n.useHash }

/-- Where `table_put` stores, table.c:130-151. -/
def Table.putSlot (t : Table) (key : Nat) : Option Nat :=
  match t.putProbe key with
  | some o => some o
  | none => t.putScan key

/-- `table_init`, table.c:21-44. -/
def mTableInit (A : Nat → Bool) (maxRows : Int) : Mem Addr := do
  let len := if maxRows ≤ 0 then 500 else maxRows.toNat
  let t ← wrappedMalloc A (.table none none { length := 0, useHash := false })
  let rs ← wrappedMalloc A (.rows (List.replicate len (0, none)))
  Mem.store t (.table (some rs) none { length := len })
  pure t

/-- `table_put`, table.c:116-170. The string that is replaced is not freed. -/
def mTablePut (A : Nat → Bool) (table : Option Addr) (key : Nat) (data : Bytes) : Mem (Option Nat) :=
  match table with
  | none => pure none
  | some t =>
    if key = 0 then pure none
    else do
      let (rows, dflt, n) ← Mem.loadTable t
      if n.length = n.used then pure none
      else do
        let rs ← Mem.loadRows rows
        match (tableView n rs).putSlot key with
        | none => pure none
        | some offset => do
          let hit := match rs[offset]? with
            | some r => decide (r.1 = key)
            | none => false
          let a ← Mem.deref rows
          let copy ← wrappedStrdup A data
          Mem.store a (.rows (rs.set offset (key, some copy)))
          Mem.store t (.table rows dflt { n with
            overwrites := if hit then n.overwrites + 1 else n.overwrites
            used := n.used + 1
            maxKey := if n.maxKey < key then key else n.maxKey
            maxDataLength := if n.maxDataLength < data.length then data.length else n.maxDataLength })
          pure (some offset)

/-- `table_get`, table.c:182-221: the address of the translation. -/
def mTableGet (table : Option Addr) (key : Nat) : Mem (Option Addr) :=
  match table with
  | none => pure none
  | some t =>
    if key = 0 then pure none
    else do
      let (rows, dflt, n) ← Mem.loadTable t
      let rs ← Mem.loadRows rows
      match (tableView n rs).getProbe key with
      | some offset => do
        Mem.store t (.table rows dflt { n with hits := n.hits + 1 })
        match rs[offset]? with
        | some r => pure r.2
        | none => Mem.fault .bounds
      | none =>
        match (tableView n rs).getScan key with
        | none => do
          Mem.store t (.table rows dflt { n with seeks := n.seeks + 1, misses := n.misses + 1 })
          pure none
        | some offset => do
          Mem.store t (.table rows dflt { n with seeks := n.seeks + 1, hits := n.hits + 1 })
          match rs[offset]? with
          | some r => pure r.2
          | none => Mem.fault .bounds

/-- The copying loop of `table_resize`, table.c:69-73. -/
def mCopyRows (A : Nat → Bool) (ret : Addr) : List (Nat × Option Addr) → Mem Unit
  | [] => pure ()
  | (key, some p) :: rs =>
    if 0 < key then do
      let d ← Mem.text p
      let _ ← mTablePut A (some ret) key d
      mCopyRows A ret rs
    else mCopyRows A ret rs
  | (_, none) :: rs => mCopyRows A ret rs

/-- `table_resize`, table.c:46-76. The table it is given stays as it is. -/
def mTableResize (A : Nat → Bool) (table : Option Addr) (rows : Int) (useHash : Bool) : Mem Addr := do
  let ret ← mTableInit A rows
  let (rws, _, n) ← Mem.loadTable ret
  Mem.store ret (.table rws none { n with useHash := useHash })
  match table with
  | none => pure ret
  | some t => do
    let (srcRows, srcDflt, srcN) ← Mem.loadTable t
    let dflt ← strdupOpt A srcDflt
    Mem.store ret (.table rws dflt { n with useHash := useHash, overwrites := srcN.overwrites })
    let rs ← Mem.loadRows srcRows
    mCopyRows A ret rs
    pure ret

/-- The loop of `table_free`, table.c:86-90. -/
def mFreeRows : List (Nat × Option Addr) → Mem Unit
  | [] => pure ()
  | (key, some p) :: rs =>
    if 0 < key then do
      Mem.free p
      mFreeRows rs
    else mFreeRows rs
  | (_, none) :: rs => mFreeRows rs

/-- `table_free`, table.c:78-98. -/
def mTableFree (table : Option Addr) : Mem Unit :=
  match table with
  | none => pure ()
  | some t => do
    let (rows, dflt, n) ← Mem.loadTable t
    if n.builtin then pure ()
    else do
      let rs ← Mem.loadRows rows
      mFreeRows rs
      Mem.freeOpt dflt
      let a ← Mem.deref rows
      Mem.free a
      Mem.free t

end Detox
