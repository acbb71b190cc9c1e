import Verif.Model.Scanf
import Verif.Model.Table

/-!
# Translation table files — `/repo/src/parse_table.c`
-/

set_option autoImplicit false

namespace Detox

/-- `LINE_LENGTH`, parse_table.c:20. -/
def lineLength : Nat := 6

/-- What one line of the file asks for. -/
inductive LineAction where
  /-- nothing -/
  | skip
  /-- `state = INSIDE_STATE` -/
  | enter
  /-- `state = BASE_STATE` -/
  | leave
  /-- assign `default_translation` -/
  | dflt (d : Option Bytes)
  /-- `table_put(table, code, data)` -/
  | row (code : Nat) (data : Bytes)
  deriving DecidableEq, Repr

/-- The argument of `start`, `default` or a row: a quoted string or a token, parse_table.c:113-119,
136-142, 178-184. `rest` is `work + offset` (not at the end), `old` the previous content of `parsed`,
which an empty match leaves in place. -/
def scanArg (rest old : Bytes) : Bytes :=
  if peek rest = 0x22 then (scanUntil 0x22 rest.tail).getD old
  else if peek rest = 0x27 then (scanUntil 0x27 rest.tail).getD old
  else match scanToken rest with
    | some (t, _) => t
    | none => old

/-- One line in `BASE_STATE`, parse_table.c:97-150. `ctype` is `system_ctype`. -/
def baseLine (ctype work : Bytes) : LineAction :=
  match scanToken work with
  | none => .skip
  | some (parsed, rest) =>
    if strncaseeq 5 parsed (lit "start") then
      if rest = [] then .enter
      else
        let arg := scanArg rest parsed
        if strncaseeq arg.length arg ctype then .enter else .skip
    else if strncaseeq 7 parsed (lit "default") then
      if rest = [] then .dflt none
      else .dflt (some (scanArg rest parsed))
    else .skip

/-- One line in `INSIDE_STATE`, parse_table.c:152-186. The buffer `parsed` is empty there (line 95). -/
def insideLine (work : Bytes) : LineAction :=
  let notRow :=
    match scanToken work with
    | some (parsed, _) => if strncaseeq 5 parsed (lit "end") then .leave else .skip
    | none => LineAction.skip
  match scanInt work with
  | none => notRow
  | some (code, rest) =>
    if code < 0 then notRow
    else if rest = [] then .skip
    else .row code.toNat (scanArg rest [])

/-- One iteration of the loop, parse_table.c:86-195. Lines starting with `#` are skipped. The state is
(inside?, table); `none`: `table_put` failed and the load is abandoned (lines 187-194). -/
def parseTableLine (ctype : Bytes) (st : Bool × Table) (work : Bytes) : Option (Bool × Table) :=
  if peek work = 0x23 then some st
  else
    match if st.1 then insideLine work else baseLine ctype work with
    | .skip => some st
    | .enter => some (true, st.2)
    | .leave => some (false, st.2)
    | .dflt d => some (st.1, { st.2 with defaultTranslation := d })
    | .row k d =>
      match tablePut st.2 k d with
      | (t, some _) => some (st.1, t)
      | (_, none) => none

/-- The lines `fgets(work, 1024, f)` delivers, as C strings. The first argument bounds their number. -/
def fileLines : Nat → Bytes → List Bytes
  | 0, _ => []
  | _, [] => []
  | n + 1, c :: s =>
    let p := takeLine 1023 (c :: s)
    cstr p.1 :: fileLines n p.2

/-- The loop over the lines. -/
def parseTableLines (ctype : Bytes) : Bool × Table → List Bytes → Option (Bool × Table)
  | st, [] => some st
  | st, l :: ls =>
    match parseTableLine ctype st l with
    | none => none
    | some st' => parseTableLines ctype st' ls

/-- Number of rows allocated for a file of `size` bytes, parse_table.c:54-67 (`HAVE_STRUCT_STAT_ST_BLOCKS`
is not visible in this file, which does not include config.h). -/
def tableRowsFor (size : Nat) : Nat := if size / lineLength < 500 then 500 else size / lineLength

/-- `parse_table`, parse_table.c:27-202, for a file that exists, can be opened, and holds `content`.
`ctype` is the locale name returned by `setlocale(LC_CTYPE, "")` (or empty). Files of 2^31*6 bytes and
more, where `size` overflows, are not modelled. -/
def parseTableContent (ctype content : Bytes) : Option Table :=
  (parseTableLines ctype (false, tableInit (tableRowsFor content.length)) (fileLines content.length content)).map Prod.snd

/-- `parse_table` on a path, given the readable files. -/
def parseTable (ctype : Bytes) (files : Bytes → Option Bytes) (path : Bytes) : Option Table :=
  (files path).bind (parseTableContent ctype)

end Detox
