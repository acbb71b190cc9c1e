import Verif.Model.GenTable
import Verif.Model.Options

/-!
# check-table — `/repo/src/check_table.c` and `/repo/src/table_dump.c`

The helper program that reviews a table file. As elsewhere, `stat` and `fopen` of a file are one call (`slurp`), and a file that cannot
be read is a missing one; the message with `strerror` for a file that exists and cannot be opened is left out.
-/

set_option autoImplicit false

namespace Detox

/-- What the C library makes of two things: `%0.2f` of `used * 100.0 / length`, and `%s` of a NULL pointer (`none`: undefined, which
it is in ISO C; the GNU C library prints `(null)`). -/
structure CheckEnv where
  percent : Nat → Nat → Bytes
  nullText : Option Bytes

/-- The variables of the loop in `check_table`, check_table.c:91-94: `state`, `table`, `check_max_data_length`, `last`. -/
structure CheckState where
  inside : Bool := false
  table : Table
  longest : Nat := 1
  last : Nat := 0

/-- One line in `BASE_STATE`, check_table.c:107-161: a language that is passed over, or what `parse_table` would do. -/
def checkBaseLine (work : Bytes) : Option Bytes × LineAction :=
  match scanToken work with
  | none => (none, .skip)
  | some (parsed, rest) =>
    if strncaseeq 5 parsed (lit "start") then
      if rest = [] then (none, .enter) else (some (scanArg rest parsed), .skip)
    else if strncaseeq 7 parsed (lit "default") then
      if rest = [] then (none, .dflt none) else (none, .dflt (some (scanArg rest parsed)))
    else (none, .skip)

/-- check_table.c:131 and 312. -/
def skippingMessage (lang : Bytes) : Bytes := lit "skipping language subsection for " ++ lang ++ lit "\n"

/-- check_table.c:199, 209 and 360: `what` and `to` make the difference. -/
def failedMessage (what : Bytes) (code : Nat) (data to : Bytes) : Bytes :=
  lit "Failed to " ++ what ++ lit " row 0x" ++ printfHex false 4 code ++ lit " \"" ++ data ++ lit "\" " ++ to ++ lit " translation table\n"

/-- check_table.c:221-225: the warning, if any. -/
def orderWarning (code last : Nat) : Option Bytes :=
  if code < last then
    some (lit "warning - code 0x" ++ printfHex true 4 code ++ lit " appears after 0x" ++ printfHex true 4 last ++ lit "\n")
  else if code = last then some (lit "warning - code 0x" ++ printfHex true 4 code ++ lit " appears twice in a row\n")
  else none

/-- One iteration of the loop of `check_table`, check_table.c:96-227; lines 167-195 are those of `parse_table`. `none`: it returns
NULL. -/
def checkTableLine (st : CheckState) (work : Bytes) : Prog (Option CheckState) :=
  if peek work = 0x23 then .ret (some st)
  else
    match if st.inside then (none, insideLine work) else checkBaseLine work with
    | (some lang, _) => .out (skippingMessage lang) (.ret (some { st with last := 0 }))
    | (none, .skip) => .ret (some st)
    | (none, .enter) => .ret (some { st with inside := true, last := 0 })
    | (none, .leave) => .ret (some { st with inside := false })
    | (none, .dflt none) => .ret (some { st with table := { st.table with defaultTranslation := none } })
    | (none, .dflt (some d)) =>
      .ret (some { st with
        table := { st.table with defaultTranslation := some d }
        longest := if d.length > st.longest then d.length else st.longest })
    | (none, .row k d) =>
      match tablePut st.table k d with
      | (_, none) => .err (failedMessage (lit "add") k d (lit "to")) (.ret none)
      | (t, some _) =>
        let g := tableGetCounting t k
        if g.2 = some d then
          let next : CheckState := { st with
            table := g.1
            longest := if d.length > st.longest then d.length else st.longest
            last := k }
          match orderWarning k st.last with
          | some w => .out w (.ret (some next))
          | none => .ret (some next)
        else .err (failedMessage (lit "retrieve") k d (lit "in")) (.ret none)

/-- The loop of `check_table`. -/
def checkTableLines : CheckState → List Bytes → Prog (Option CheckState)
  | st, [] => .ret (some st)
  | st, l :: ls =>
    (checkTableLine st l).bind fun r =>
      match r with
      | none => .ret none
      | some st' => checkTableLines st' ls

/-- check_table.c:230. -/
def lengthWarning (table ours : Nat) : Bytes :=
  lit "warning - table max length (" ++ printfDec table ++ lit ") doesn't match our calculation (" ++ printfDec ours ++ lit ")\n"

/-- `check_table`, check_table.c:87-238, once the file is open; `HAVE_STRUCT_STAT_ST_BLOCKS` is as little visible here as in
parse_table.c. -/
def checkContent (useHash : Bool) (content : Bytes) : Prog (Option Table) :=
  (checkTableLines { table := { tableInit (tableRowsFor content.length) with useHash := useHash } }
    (fileLines content.length content)).bind fun r =>
      match r with
      | none => .ret none
      | some st =>
        if st.table.maxDataLength ≠ st.longest then
          .out (lengthWarning st.table.maxDataLength st.longest) (.ret (some st.table))
        else .ret (some st.table)

/-- `check_table`, check_table.c:34-238. -/
def checkTable (useHash : Bool) (filename : Bytes) : Prog (Option Table) :=
  .slurp (some filename) fun r =>
    match r with
    | none => .ret none
    | some content => checkContent useHash content

/-- One iteration of the loop of `check_table_again`, check_table.c:279-367, with its `state` and `table`. Default translations are
not looked at. -/
def checkAgainLine (st : Bool × Table) (work : Bytes) : Prog (Option (Bool × Table)) :=
  if peek work = 0x23 then .ret (some st)
  else
    match if st.1 then (none, insideLine work) else checkBaseLine work with
    | (some lang, _) => .out (skippingMessage lang) (.ret (some st))
    | (none, .skip) => .ret (some st)
    | (none, .enter) => .ret (some (true, st.2))
    | (none, .leave) => .ret (some (false, st.2))
    | (none, .dflt _) => .ret (some st)
    | (none, .row k d) =>
      let g := tableGetCounting st.2 k
      if g.2 = some d then .ret (some (st.1, g.1))
      else .err (failedMessage (lit "retrieve") k d (lit "in resized")) (.ret none)

/-- The loop of `check_table_again`. -/
def checkAgainLines : Bool × Table → List Bytes → Prog (Option (Bool × Table))
  | st, [] => .ret (some st)
  | st, l :: ls =>
    (checkAgainLine st l).bind fun r =>
      match r with
      | none => .ret none
      | some st' => checkAgainLines st' ls

/-- `check_table_again`, check_table.c:240-374. For the number of rows see `loaderRows`. A NULL source (line 261) is not caught. -/
def checkTableAgain (filename : Bytes) (source : Option Table) : Prog (Option Table) :=
  .slurp (some filename) fun r =>
    match r with
    | none => .ret none
    | some content =>
      match source with
      | none => .ub .oobRead
      | some t =>
        (checkAgainLines (false, tableResize t (loaderRows t.used) true) (fileLines content.length content)).bind fun r =>
          match r with
          | none => .ret none
          | some st => .ret (some st.2)

/-- `%s` of a pointer that may be NULL. -/
def printfString (e : CheckEnv) : Option Bytes → Res Bytes
  | some s => .ok s
  | none =>
    match e.nullText with
    | some s => .ok s
    | none => .ub .oobRead

/-- `table_dump`, table_dump.c:18-35, from row `i` on. -/
def tableDump (e : CheckEnv) (verbose : Bool) : Nat → List Row → Res Bytes
  | _, [] => .ok []
  | i, r :: rs =>
    if r.key = 0 then do
      let out ← tableDump e verbose (i + 1) rs
      .ok ((if verbose then lit "index: " ++ printfDec i ++ lit ", " ++ lit "empty\n" else []) ++ out)
    else do
      let d ← printfString e r.data
      let out ← tableDump e verbose (i + 1) rs
      .ok (lit "index: " ++ printfDec i ++ lit ", " ++ lit "key: 0x" ++ printfHex false 4 r.key ++ lit ", data: " ++ d ++ lit "\n" ++ out)

/-- `table_stats`, table_dump.c:37-51. -/
def tableStats (e : CheckEnv) (t : Table) : Res Bytes := do
  let d ← printfString e t.defaultTranslation
  .ok (lit "used: " ++ printfDec t.used ++ lit "\navailable: " ++ printfDec t.length ++ lit "\nused percent: " ++ e.percent t.used t.length ++
    lit "\nhits: " ++ printfDec t.hits ++ lit "\nmisses: " ++ printfDec t.misses ++ lit "\nseeks: " ++ printfDec t.seeks ++
    lit "\noverwrites: " ++ printfDec t.overwrites ++ lit "\nlongest entry: " ++ printfDec t.maxDataLength ++
    lit "\ndefault translation: " ++ d ++ lit "\nmaximum key: 0x" ++ printfHex false 4 t.maxKey ++ lit "\n")

/-- The variables of `main`, check_table.c:381-384. -/
structure CheckOptions where
  builtin : Bool := false
  dump : Bool := false
  useHash : Bool := true
  verbose : Bool := false
  deriving DecidableEq, Repr

/-- `getopt(argc, argv, "bdlhv")` until it returns -1: letters, `none` for an unknown one, and the operands. As `getoptAll`, but
without long options. -/
def getoptShort (posix : Bool) : List Bytes → List (Option Byte) × List Bytes
  | [] => ([], [])
  | a :: rest =>
    if a = lit "--" then ([], rest)
    else if (lit "-").isPrefixOf a && a.length > 1 then
      let r := getoptShort posix rest
      ((a.drop 1).map (fun c => if (lit "bdlhv").contains c then some c else none) ++ r.1, r.2)
    else if posix then ([], a :: rest)
    else
      let r := getoptShort posix rest
      (r.1, a :: r.2)

/-- The loop over the options, check_table.c:386-412. For the message of `getopt` itself see `applyItem`. The status -1 is 255. -/
def checkItems (program : Bytes) : CheckOptions → List (Option Byte) → Prog CheckOptions
  | o, [] => .ret o
  | _, none :: _ => .err (program ++ lit ": ") (.err (lit "unknown option: ?\n") (.exit 255))
  | o, some c :: is =>
    if c = byteOf 'b' then checkItems program { o with builtin := true } is
    else if c = byteOf 'd' then checkItems program { o with dump := true } is
    else if c = byteOf 'h' then .out (lit "check-table [-bdlhv] filename.tbl\n") (.exit 0)
    else if c = byteOf 'l' then checkItems program { o with useHash := false } is
    else checkItems program { o with verbose := true } is

/-- `main`, check_table.c:414-435: the file is checked. -/
def checkFile (e : CheckEnv) (o : CheckOptions) (f : Bytes) : Prog Unit :=
  .out (lit "checking: " ++ f ++ lit "\n")
    ((checkTable o.useHash f).bind fun t =>
    (if o.builtin then checkTableAgain f t else .ret t).bind fun t =>
      match t with
      | none => .exit 0
      | some t =>
        (if o.dump then (Prog.ofRes (tableDump e o.verbose 0 t.rows)).bind fun s => .out s (.ret ()) else .ret ()).bind fun _ =>
        (Prog.ofRes (tableStats e t)).bind fun s => .out s (.exit 0))

/-- `main`, check_table.c:376-436. -/
def checkMain (e : CheckEnv) (program : Bytes) (posix : Bool) (args : List Bytes) : Prog Unit :=
  let g := getoptShort posix args
  (checkItems program {} g.1).bind fun o =>
    match g.2 with
    | [] => .out (lit "please specify a file to operate on\n") (.exit 255)
    | f :: _ => checkFile e o f

end Detox
