import Verif.Model.MemoryFile
import Verif.Model.Main

/-!
# Translation tables of filters with pointers — `/repo/src/parse_table.c`, `/repo/src/builtin_table.c`, `/repo/src/filter.c:30-184`,
`/repo/src/sequence.c:28-88`

Simplifications: `stat` and `fopen` of a table file see the same file, so that the path of parse_table.c:65-68, which does not free the table, is
left out; the argument of `start` is not written to `parsed`; the messages are left out as in `readTable`.
-/

set_option autoImplicit false

namespace Detox

namespace Mem

/-- Writing one field of a structure: `f` says what becomes of the block, and is `none` for a block of another type. -/
def update (a : Addr) (f : Block → Option Block) : Mem Unit := bind (load a) fun b =>
  match f b with
  | some b' => store a b'
  | none => fault .pointer

end Mem

/-! ### Fields -/

/-- `table->default_translation = p` -/
def Block.setDefault (p : Option Addr) : Block → Option Block
  | .table rs _ n => some (.table rs p n)
  | _ => none

/-- `filter->next = p` -/
def Block.setNext (p : Option Addr) : Block → Option Block
  | .filter _ c fn bi rt ml t => some (.filter p c fn bi rt ml t)
  | _ => none

/-- `filter->filename = p` -/
def Block.setFilename (p : Option Addr) : Block → Option Block
  | .filter next c _ bi rt ml t => some (.filter next c p bi rt ml t)
  | _ => none

/-- `filter->builtin = p` -/
def Block.setBuiltin (p : Option Addr) : Block → Option Block
  | .filter next c fn _ rt ml t => some (.filter next c fn p rt ml t)
  | _ => none

/-- `filter->remove_trailing = r` -/
def Block.setRemoveTrailing (r : Bool) : Block → Option Block
  | .filter next c fn bi _ ml t => some (.filter next c fn bi r ml t)
  | _ => none

/-- `filter->max_length = n` -/
def Block.setMaxLength (n : Nat) : Block → Option Block
  | .filter next c fn bi rt _ t => some (.filter next c fn bi rt n t)
  | _ => none

/-- `filter->table = p` -/
def Block.setTable (p : Option Addr) : Block → Option Block
  | .filter next c fn bi rt ml _ => some (.filter next c fn bi rt ml p)
  | _ => none

/-! ### builtin_table.c -/

/-- The copying loop of `table_resize`, table.c:69-73, when the rows are the static ones of `builtin_table.c`. -/
def mCopyStatic (A : Nat → Bool) (ret : Addr) : List Row → Mem Unit
  | [] => pure ()
  | r :: rs =>
    match r.data with
    | some d =>
      if 0 < r.key then do
        let _ ← mTablePut A (some ret) r.key d
        mCopyStatic A ret rs
      else mCopyStatic A ret rs
    | none => mCopyStatic A ret rs

/-- `load_builtin_…_table`: `table_resize(&builtin_…_table, 256, 1)`, table.c:46-76. The default translations of the static tables are copied. -/
def mLoadStatic (A : Nat → Bool) (T : Table) : Mem Addr := do
  let ret ← mTableInit A 256
  let (rws, _, n) ← Mem.loadTable ret
  Mem.store ret (.table rws none { n with useHash := true })
  let dflt ← match T.defaultTranslation with
    | none => pure none
    | some d => do
      let c ← wrappedStrdup A d
      pure (some c)
  Mem.store ret (.table rws dflt { n with useHash := true, overwrites := T.overwrites })
  mCopyStatic A ret T.rows
  pure ret

/-! ### parse_table.c -/

/-- The loop of `parse_table`, parse_table.c:86-195; false: a row could not be added. `inside` is `state`. -/
def mParseLines (A : Nat → Bool) (ctype : Bytes) (table work parsed : Addr) : Bool → List Bytes → Mem Bool
  | _, [] => pure true
  | inside, l :: ls => do
    Mem.putText work l
    let line ← Mem.text work
    if peek line = 0x23 then mParseLines A ctype table work parsed inside ls
    else do
      Mem.putText parsed []
      match if inside then insideLine line else baseLine ctype line with
      | .skip => mParseLines A ctype table work parsed inside ls
      | .enter => mParseLines A ctype table work parsed true ls
      | .leave => mParseLines A ctype table work parsed false ls
      | .dflt none => do
        Mem.update table (Block.setDefault none)
        mParseLines A ctype table work parsed inside ls
      | .dflt (some d) => do
        Mem.putText parsed d
        let s ← Mem.text parsed
        let c ← wrappedStrdup A s
        Mem.update table (Block.setDefault (some c))
        mParseLines A ctype table work parsed inside ls
      | .row k d => do
        Mem.putText parsed d
        let s ← Mem.text parsed
        let r ← mTablePut A (some table) k s
        match r with
        | some _ => mParseLines A ctype table work parsed inside ls
        | none => pure false

/-- `parse_table`, parse_table.c:27-202. -/
def mParseTable (A : Nat → Bool) (ctype path : Bytes) : Mem (Option Addr) := do
  let r ← Mem.slurp (some path)
  match r with
  | none => pure none
  | some content => do
    let table ← mTableInit A (tableRowsFor content.length)
    let work ← wrappedMalloc A (.text 1024 [])
    let parsed ← wrappedMalloc A (.text 1024 [])
    let ok ← mParseLines A ctype table work parsed false (fileLines content.length content)
    if ok then do
      Mem.free work
      Mem.free parsed
      pure (some table)
    else do
      mTableFree (some table)
      Mem.free work
      Mem.free parsed
      pure none

/-! ### filter.c -/

/-- `filter_init`, filter.c:69-80. -/
def mFilterInit (A : Nat → Bool) (c : Cleaner) : Mem Addr := wrappedMalloc A (.filter none c none none false 0 none)

/-- `snprintf` into the buffer on the stack, the test, and `parse_table`, filter.c:43-49. -/
def mTryTable (A : Nat → Bool) (ctype path : Bytes) : Mem (Option Addr) :=
  if path.length < maxPathLen then mParseTable A ctype path else pure none

/-- `filter_find_table`, filter.c:30-66. -/
def mFindTable (A : Nat → Bool) (ctype : Bytes) (datadir : Option Bytes) (checkFilename : Bytes) : Mem (Option Addr) := do
  let t1 ← match datadir with
    | some d => mTryTable A ctype (d ++ lit "/detox/" ++ checkFilename)
    | none => pure none
  match t1 with
  | some t => pure (some t)
  | none => do
    let t2 ← mTryTable A ctype (lit "/usr/share/detox/" ++ checkFilename)
    match t2 with
    | some t => pure (some t)
    | none => mTryTable A ctype (lit "/usr/local/share/detox/" ++ checkFilename)

/-- `filter_load_builtin`, filter.c:87-98. -/
def mLoadBuiltin (A : Nat → Bool) (c : Cleaner) : Mem (Option Addr) :=
  match c with
  | .iso8859_1 => do let t ← mLoadStatic A builtin_iso8859_1_table; pure (some t)
  | .utf8 => do let t ← mLoadStatic A builtin_unicode_table; pure (some t)
  | .safe => do let t ← mLoadStatic A builtin_safe_table; pure (some t)
  | _ => pure none

/-- `filter_load_builtin_by_filename`, filter.c:111-124. -/
def mLoadBuiltinByFilename (A : Nat → Bool) (name : Bytes) : Mem (Option Addr) :=
  if name = lit "iso8859_1" then do let t ← mLoadStatic A builtin_iso8859_1_table; pure (some t)
  else if name = lit "unicode" then do let t ← mLoadStatic A builtin_unicode_table; pure (some t)
  else if name = lit "safe" then do let t ← mLoadStatic A builtin_safe_table; pure (some t)
  else if name = lit "cp1252" then do let t ← mLoadStatic A builtin_cp1252_table; pure (some t)
  else pure none

/-- All fields of a `filter_t`. -/
def Mem.loadFilterNames (a : Addr) : Mem (Cleaner × Option Addr × Option Addr) := Mem.bind (Mem.load a) fun b =>
  match b with
  | .filter _ cleaner filename builtin _ _ _ => pure (cleaner, filename, builtin)
  | _ => Mem.fault .pointer

/-- `filter_load_table`, filter.c:131-184. -/
def mLoadTable (A : Nat → Bool) (ctype : Bytes) (datadir : Option Bytes) (filter : Addr) : Mem (Option Addr) := do
  let (cleaner, filename, builtin) ← Mem.loadFilterNames filter
  match defaultTableFilename cleaner with
  | none => pure none
  | some checkFilename =>
    match builtin with
    | some bi => do
      let b ← Mem.text bi
      let t ← mLoadBuiltinByFilename A b
      match t with
      | none => do
        Mem.err (lit "detox: unable to locate builtin table \"" ++ b ++ lit "\"\n")
        Mem.exit 1
      | some t => pure (some t)
    | none =>
      match filename with
      | some fn => do
        let f ← Mem.text fn
        let t ← mParseTable A ctype f
        match t with
        | none => do
          Mem.err (lit "detox: unable to parse file: \"" ++ f ++ lit "\"\n")
          Mem.exit 1
        | some t => pure (some t)
      | none => do
        let t ← mFindTable A ctype datadir checkFilename
        match t with
        | some t => pure (some t)
        | none => do
          let t ← mLoadBuiltin A cleaner
          match t with
          | none => do
            Mem.err (lit "detox: unable to locate translation table or fall back\n")
            Mem.exit 1
          | some t => pure (some t)

/-! ### sequence.c -/

/-- The loop of `sequence_review`, sequence.c:80-87. The first argument bounds the iterations. -/
def mReviewFilters (A : Nat → Bool) (ctype : Bytes) (datadir : Option Bytes) : Nat → Option Addr → Mem Unit
  | _, none => pure ()
  | 0, some _ => Mem.stuck
  | n + 1, some filter => do
    let table ← mLoadTable A ctype datadir filter
    match table with
    | some t => do
      Mem.update filter (Block.setTable (some t))
      let (next, _) ← Mem.loadFilter filter
      mReviewFilters A ctype datadir n next
    | none => do
      let (next, _) ← Mem.loadFilter filter
      mReviewFilters A ctype datadir n next

/-- `sequence_review`, sequence.c:75-88. -/
def mSequenceReview (A : Nat → Bool) (ctype : Bytes) (datadir : Option Bytes) (sequence : Addr) : Mem Unit := do
  let (_, _, filters, _) ← Mem.loadSequence sequence
  let n ← Mem.size
  mReviewFilters A ctype datadir n filters

end Detox
