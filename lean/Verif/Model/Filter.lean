import Verif.Model.Utf8
import Verif.Model.Builtin

/-!
# Filters and sequences — `/repo/src/filter.c`, `/repo/src/sequence.c`
-/

set_option autoImplicit false

namespace Detox

/-- The filter kinds, detox_struct.h:17-25. -/
inductive Cleaner where
  | iso8859_1 | lower | maxLength | safe | uncgi | utf8 | wipeup
  deriving DecidableEq, Repr

/-- `filter_t`, detox_struct.h:59-67; a chain of filters is a `List Filter`. -/
structure Filter where
  cleaner : Cleaner
  filename : Option Bytes := none
  builtin : Option Bytes := none
  removeTrailing : Bool := false
  maxLength : Nat := 0
  table : Option Table := none
  deriving DecidableEq, Repr

/-- `sequence_t`, detox_struct.h:72-77; a chain of sequences is a `List Sequence`. -/
structure Sequence where
  name : Bytes
  filters : List Filter := []
  sourceFilename : Option Bytes := none
  deriving DecidableEq, Repr

/-- `filter_init`, filter.c:69-80. -/
def filterInit (c : Cleaner) : Filter := { cleaner := c }

/-- `filter_run`, filter.c:194-242. The `default` branch (236-238) is unreachable: every
`filter_init` call passes one of the seven constants. A NULL filter (198-201) cannot be expressed. -/
def filterRun (P : Platform) (f : Filter) (filename : Option Bytes) : Res (Option Bytes) :=
  match filename with
  | none => .ok none
  | some s => do
    let r ← match f.cleaner with
      | .iso8859_1 => cleanIso f.table s
      | .lower => cleanLower P s
      | .maxLength => cleanMaxLength P f.maxLength s
      | .safe => cleanSafe P f.table s
      | .uncgi => cleanUncgi P s
      | .utf8 => cleanUtf8 f.table s
      | .wipeup => cleanWipeup f.removeTrailing s
    pure (some r)

/-- The loop of `sequence_run_filters`, sequence.c:116-121. -/
def runFilters (P : Platform) : List Filter → Option Bytes → Res (Option Bytes)
  | [], work => .ok work
  | _ :: _, none => .ok none
  | f :: fs, some s => do
    let hold ← filterRun P f (some s)
    runFilters P fs hold

/-- `sequence_run_filters`, sequence.c:98-124. -/
def sequenceRunFilters (P : Platform) (seq : Option Sequence) (filename : Option Bytes) :
    Res (Option Bytes) :=
  match seq with
  | none => .exit 1
  | some q =>
    match filename with
    | none => .ok none
    | some s => runFilters P q.filters (some s)

/-- What the table loader sees of the world: the outcome of `parse_table` for each path
(`Model/ParseTable.lean` says what that is for given file contents), and the compile-time `DATADIR`. -/
structure TableEnv where
  parseTable : Bytes → Option Table
  datadir : Option Bytes

/-- `MAX_PATH_LEN`, detox_struct.h:15. -/
def maxPathLen : Nat := 256

/-- `snprintf(buf, MAX_PATH_LEN, ...)` followed by the `err < MAX_PATH_LEN` test and `parse_table`. -/
def TableEnv.tryPath (E : TableEnv) (path : Bytes) : Option Table :=
  if path.length < maxPathLen then E.parseTable path else none

/-- `filter_find_table`, filter.c:30-66. -/
def filterFindTable (E : TableEnv) (checkFilename : Bytes) : Option Table :=
  let first := match E.datadir with
    | some d => E.tryPath (d ++ lit "/detox/" ++ checkFilename)
    | none => none
  match first with
  | some t => some t
  | none =>
    match E.tryPath (lit "/usr/share/detox/" ++ checkFilename) with
    | some t => some t
    | none => E.tryPath (lit "/usr/local/share/detox/" ++ checkFilename)

/-- `filter_load_builtin`, filter.c:87-98. -/
def filterLoadBuiltin (f : Filter) : Option Table :=
  match f.cleaner with
  | .iso8859_1 => some load_builtin_iso8859_1_table
  | .utf8 => some load_builtin_unicode_table
  | .safe => some load_builtin_safe_table
  | _ => none

/-- `filter_load_builtin_by_filename`, filter.c:111-124. -/
def filterLoadBuiltinByFilename (name : Bytes) : Option Table :=
  if name = lit "iso8859_1" then some load_builtin_iso8859_1_table
  else if name = lit "unicode" then some load_builtin_unicode_table
  else if name = lit "safe" then some load_builtin_safe_table
  else if name = lit "cp1252" then some load_builtin_cp1252_table
  else none

/-- The default table file of a filter kind, filter.c:137-145. -/
def defaultTableFilename : Cleaner → Option Bytes
  | .iso8859_1 => some (lit "iso8859_1.tbl")
  | .utf8 => some (lit "unicode.tbl")
  | .safe => some (lit "safe.tbl")
  | _ => none

/-- `filter_load_table`, filter.c:131-184. -/
def filterLoadTable (E : TableEnv) (f : Filter) : Res (Option Table) :=
  match defaultTableFilename f.cleaner with
  | none => .ok none
  | some checkFilename =>
    match f.builtin with
    | some b =>
      match filterLoadBuiltinByFilename b with
      | none => .exit 1
      | some t => .ok (some t)
    | none =>
      match f.filename with
      | some fn =>
        match E.parseTable fn with
        | none => .exit 1
        | some t => .ok (some t)
      | none =>
        match filterFindTable E checkFilename with
        | some t => .ok (some t)
        | none =>
          match filterLoadBuiltin f with
          | none => .exit 1
          | some t => .ok (some t)

/-- The loop of `sequence_review`, sequence.c:80-87. -/
def reviewFilters (E : TableEnv) : List Filter → Res (List Filter)
  | [] => .ok []
  | f :: fs => do
    let t ← filterLoadTable E f
    let f' := match t with
      | some t => { f with table := some t }
      | none => f
    let fs' ← reviewFilters E fs
    pure (f' :: fs')

/-- `sequence_review`, sequence.c:75-88. -/
def sequenceReview (E : TableEnv) (q : Sequence) : Res Sequence := do
  let fs ← reviewFilters E q.filters
  pure { q with filters := fs }

/-- The search loop of `sequence_choose_default`, sequence.c:33-40. -/
def sequenceFind (name : Bytes) : List Sequence → Option Sequence
  | [] => none
  | q :: qs => if q.name = name then some q else sequenceFind name qs

/-- `sequence_choose_default`, sequence.c:28-54. -/
def sequenceChooseDefault (qs : List Sequence) (name : Option Bytes) : Option Sequence :=
  match sequenceFind (match name with | none => lit "default" | some n => n) qs with
  | some q => some q
  | none =>
    match name with
    | none => qs.head?
    | some _ => none

end Detox
