import Verif.Model.Base

/-!
# Translation tables — `/repo/src/table.c`, `/repo/src/detox_struct.h:34-57`

Keys are `unsigned int` (modelled by `Nat`; every key the program forms is below 2^32).
`length` is not a separate field: it is the number of allocated rows.
-/

set_option autoImplicit false

namespace Detox

/-- `table_row_t`, detox_struct.h:34-37. An unused row has key 0 and a NULL data pointer. -/
structure Row where
  key : Nat
  data : Option Bytes
  deriving DecidableEq, Repr

/-- The all-zero row left by `memset`, table.c:38. -/
def Row.empty : Row := ⟨0, none⟩

/-- `table_t`, detox_struct.h:39-57. `length` is `rows.length`. -/
structure Table where
  rows : List Row
  used : Nat := 0
  maxDataLength : Nat := 0
  defaultTranslation : Option Bytes := none
  hits : Nat := 0
  misses : Nat := 0
  overwrites : Nat := 0
  seeks : Nat := 0
  useHash : Bool := true
  builtin : Bool := false
  maxKey : Nat := 0
  deriving DecidableEq, Repr

/-- `table->length`. -/
def Table.length (t : Table) : Nat := t.rows.length

/-- `table_init`, table.c:21-44. -/
def tableInit (maxRows : Int) : Table :=
  let n := if maxRows ≤ 0 then 500 else maxRows.toNat
  { rows := List.replicate n Row.empty }

/-- `table_hash`, table.c:100-103. -/
def tableHash (tableLength key : Nat) : Nat := key % tableLength

/-- The hashed probe of `table_put`, table.c:132-138. -/
def Table.putProbe (t : Table) (key : Nat) : Option Nat :=
  if t.useHash then
    let seek := tableHash t.length key
    match t.rows[seek]? with
    | some r => if r.key = 0 ∨ r.key = key then some seek else none
    | none => none
  else none

/-- The linear scan of `table_put`, table.c:141-146: first row that is free or holds the key. -/
def Table.putScan (t : Table) (key : Nat) : Option Nat :=
  t.rows.findIdx? (fun r => r.key = 0 ∨ r.key = key)

/-- `table_put`, table.c:116-170. Result `none` is the C result -1. A NULL table (line 122) cannot
be expressed here. The leak of the overwritten string is not modelled. -/
def tablePut (t : Table) (key : Nat) (data : Bytes) : Table × Option Nat :=
  if key = 0 then (t, none)
  else if t.length = t.used then (t, none)
  else
    match (match t.putProbe key with
           | some o => some o
           | none => t.putScan key) with
    | none => (t, none)
    | some offset =>
      let hit := match t.rows[offset]? with
        | some r => decide (r.key = key)
        | none => false
      ({ t with
          overwrites := if hit then t.overwrites + 1 else t.overwrites
          rows := t.rows.set offset ⟨key, some data⟩
          used := t.used + 1
          maxKey := if t.maxKey < key then key else t.maxKey
          maxDataLength := if t.maxDataLength < data.length then data.length else t.maxDataLength },
       some offset)

/-- The hashed probe of `table_get`, table.c:194-200. -/
def Table.getProbe (t : Table) (key : Nat) : Option Nat :=
  if t.useHash then
    let seek := tableHash t.length key
    match t.rows[seek]? with
    | some r => if r.key = key then some seek else none
    | none => none
  else none

/-- The linear scan of `table_get`, table.c:205-210. -/
def Table.getScan (t : Table) (key : Nat) : Option Nat :=
  t.rows.findIdx? (fun r => r.key = key)

/-- `table_get`, table.c:182-221, returned value only. The cleaning filters use this one. -/
def tableGet (t : Table) (key : Nat) : Option Bytes :=
  if key = 0 then none
  else
    match (match t.getProbe key with
           | some o => some o
           | none => t.getScan key) with
    | none => none
    | some offset => (t.rows[offset]?).bind Row.data

/-- `table_get`, table.c:182-221, with the statistics counters it updates. -/
def tableGetCounting (t : Table) (key : Nat) : Table × Option Bytes :=
  if key = 0 then (t, none)
  else
    match t.getProbe key with
    | some offset => ({ t with hits := t.hits + 1 }, (t.rows[offset]?).bind Row.data)
    | none =>
      let t := { t with seeks := t.seeks + 1 }
      match t.getScan key with
      | none => ({ t with misses := t.misses + 1 }, none)
      | some offset => ({ t with hits := t.hits + 1 }, (t.rows[offset]?).bind Row.data)

/-- The copying loop of `table_resize`, table.c:69-73; the result of `table_put` is ignored. -/
def tableCopyRows (dst : Table) : List Row → Table
  | [] => dst
  | r :: rs =>
    match r.data with
    | some d => if 0 < r.key then tableCopyRows (tablePut dst r.key d).1 rs else tableCopyRows dst rs
    | none => tableCopyRows dst rs

/-- `table_resize`, table.c:46-76, for a non-NULL source table (every caller passes one). -/
def tableResize (t : Table) (rows : Int) (useHash : Bool) : Table :=
  let ret := { tableInit rows with
    useHash := useHash
    defaultTranslation := t.defaultTranslation
    overwrites := t.overwrites }
  tableCopyRows ret t.rows

end Detox
