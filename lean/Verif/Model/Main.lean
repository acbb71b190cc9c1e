import Verif.Model.Options
import Verif.Model.Config
import Verif.Model.Inline
import Verif.Model.ParseTable

/-!
# The whole program — `/repo/src/detox.c:25-132`, `/repo/src/config_file_dump.c`, and the file accesses of
`/repo/src/filter.c:30-184`
-/

set_option autoImplicit false

namespace Detox

/-! ### Loading tables

`Model/Filter.lean` has these functions with the table files given as a function; here they are read when they are needed. -/

/-- `parse_table`, parse_table.c:27-202: `stat`, open, read. Its messages on stderr about a table that cannot be opened or a row
that does not fit (parse_table.c:66, 186) are left out. -/
def readTable (ctype path : Bytes) : Prog (Option Table) :=
  .slurp (some path) fun r => .ret (r.bind (parseTableContent ctype))

/-- `snprintf` into the buffer, the test, and `parse_table`, filter.c:43-49. -/
def tryTable (ctype path : Bytes) : Prog (Option Table) :=
  if path.length < maxPathLen then readTable ctype path else .ret none

/-- `filter_find_table`, filter.c:30-66. -/
def findTable (ctype : Bytes) (datadir : Option Bytes) (checkFilename : Bytes) : Prog (Option Table) :=
  (match datadir with
    | some d => tryTable ctype (d ++ lit "/detox/" ++ checkFilename)
    | none => .ret none).bind fun t1 =>
  match t1 with
  | some t => .ret (some t)
  | none =>
    (tryTable ctype (lit "/usr/share/detox/" ++ checkFilename)).bind fun t2 =>
    match t2 with
    | some t => .ret (some t)
    | none => tryTable ctype (lit "/usr/local/share/detox/" ++ checkFilename)

/-- `filter_load_table`, filter.c:131-184. -/
def loadTable (ctype : Bytes) (datadir : Option Bytes) (f : Filter) : Prog (Option Table) :=
  match defaultTableFilename f.cleaner with
  | none => .ret none
  | some checkFilename =>
    match f.builtin with
    | some b =>
      match filterLoadBuiltinByFilename b with
      | none => .err (lit "detox: unable to locate builtin table \"" ++ b ++ lit "\"\n") (.exit 1)
      | some t => .ret (some t)
    | none =>
      match f.filename with
      | some fn =>
        (readTable ctype fn).bind fun r =>
          match r with
          | none => .err (lit "detox: unable to parse file: \"" ++ fn ++ lit "\"\n") (.exit 1)
          | some t => .ret (some t)
      | none =>
        (findTable ctype datadir checkFilename).bind fun r =>
          match r with
          | some t => .ret (some t)
          | none =>
            match filterLoadBuiltin f with
            | none => .err (lit "detox: unable to locate translation table or fall back\n") (.exit 1)
            | some t => .ret (some t)

/-- The loop of `sequence_review`, sequence.c:80-87. -/
def loadTables (ctype : Bytes) (datadir : Option Bytes) : List Filter → Prog (List Filter)
  | [] => .ret []
  | f :: fs =>
    (loadTable ctype datadir f).bind fun t =>
    (loadTables ctype datadir fs).bind fun fs' =>
      .ret ((match t with | some t => { f with table := some t } | none => f) :: fs')

/-- `sequence_review`, sequence.c:75-88. -/
def reviewSequence (ctype : Bytes) (datadir : Option Bytes) (q : Sequence) : Prog Sequence :=
  (loadTables ctype datadir q.filters).bind fun fs => .ret { q with filters := fs }

/-! ### `-L` -/

/-- What is printed about the table of a filter, config_file_dump.c:64-68. -/
def dumpTable (f : Filter) : Bytes :=
  match f.builtin, f.filename with
  | some b, _ => lit "\t\tbuiltin table: " ++ b ++ lit "\n"
  | none, some fn => lit "\t\ttranslation table: " ++ fn ++ lit "\n"
  | none, none => []

/-- What is printed for one filter, config_file_dump.c:44-68. -/
def dumpFilter (f : Filter) : Bytes :=
  (match f.cleaner with
    | .uncgi => lit "\tcleaner: uncgi\n"
    | .safe => lit "\tcleaner: safe\n"
    | .wipeup => lit "\tcleaner: wipeup\n" ++ lit "\t\tremove trailing: " ++ lit (if f.removeTrailing then "yes" else "no") ++ lit "\n"
    | .iso8859_1 => lit "\tcleaner: iso8859_1\n"
    | .utf8 => lit "\tcleaner: utf_8\n"
    | .maxLength => lit "\tcleaner: max length\n" ++ lit "\t\tlength: " ++ printDecimal (f.maxLength + 1) f.maxLength ++ lit "\n"
    | .lower => lit "\tcleaner: lower\n") ++
  dumpTable f

/-- What is printed for one sequence, config_file_dump.c:30-70. `count` is its number, `chosen` says whether it is the one in use. -/
def dumpSequence (verbose : Bool) (count : Nat) (chosen : Bool) (q : Sequence) : Bytes :=
  (if verbose then (if count > 0 then lit "\n" else []) ++ lit "sequence name: " else lit "\t") ++
  q.name ++ (if chosen then lit " (*)" else []) ++ lit "\n" ++
  (if verbose then lit "\tsource file: " ++ q.sourceFilename.getD (lit "(null)") ++ lit "\n" ++ q.filters.flatMap dumpFilter else [])

/-- The position of the sequence `sequence_choose_default` returns, sequence.c:28-54. -/
def chosenPosition (qs : List Sequence) (name : Option Bytes) : Option Nat :=
  match qs.findIdx? (·.name = name.getD (lit "default")) with
  | some i => some i
  | none => if name = none ∧ qs ≠ [] then some 0 else none

/-- The loop over the sequences, config_file_dump.c:30-73. -/
def dumpSequences (verbose : Bool) (chosen : Option Nat) : Nat → List Sequence → Bytes
  | _, [] => []
  | i, q :: qs => dumpSequence verbose i (chosen = some i) q ++ dumpSequences verbose chosen (i + 1) qs

/-- The loop over the names to ignore, config_file_dump.c:78-80. The first argument bounds the iterations. -/
def dumpIgnored : Nat → Filelist → Res Bytes
  | 0, _ => .stuck
  | n + 1, l => do
    let p ← filelistGet l
    match p.2 with
    | none => pure []
    | some w => do
      let r ← dumpIgnored n p.1
      pure (lit "\t" ++ w ++ lit "\n" ++ r)

/-- `dump_config_file`, config_file_dump.c:16-82: the text it prints. -/
def dumpConfigFile (c : ConfigFile) (o : Options) : Res Bytes := do
  let head : Bytes := if o.verbose = 0 then lit "available sequences:\n" else []
  let body := dumpSequences (o.verbose ≠ 0) (chosenPosition c.sequences o.sequenceName) 0 c.sequences
  let tail ← match c.filesToIgnore with
    | none => pure []
    | some l =>
      if l.count > 0 then do
        let t ← dumpIgnored (l.count + 1) l
        pure (lit "\nfiles to ignore:\n" ++ t)
      else pure []
  pure (head ++ body ++ tail)

/-! ### `main` -/

/-- What the program sees when it starts: its name and arguments, the environment variables it looks at, and what was configured
when it was built. `ctype` is what `setlocale(LC_CTYPE, "")` returns. -/
structure Invocation where
  program : Bytes
  args : List Bytes
  sequence : Option Bytes := none
  posixlyCorrect : Bool := false
  config : ConfigEnv := { sysconfdir := none, home := none, xdg := none }
  datadir : Option Bytes := none
  ctype : Bytes := lit "C"

/-- The work, detox.c:88-129. `fuel` bounds each directory scan. -/
def detoxWork (P : Platform) (o : Options) (fuel : Nat) : Prog Unit :=
  if o.isInlineMode then inlineMain P o o.files
  else
    match o.files with
    | none => .ret ()
    | some l => (fileLoop P o fuel (l.count + 1) l o.filesToIgnore).bind fun _ => .ret ()

/-- `main` after the options, detox.c:43-86. -/
def detoxConfigured (P : Platform) (I : Invocation) (o : Options) (fuel : Nat) : Prog Unit :=
  (configFileLoad I.config o.checkConfigFile).bind fun c =>
    if o.listSequences then
      (Prog.ofRes (dumpConfigFile c o)).bind fun t => .out t (.exit 0)
    else
      match sequenceChooseDefault c.sequences o.sequenceName with
      | none => .err (lit "detox: no sequence to work with\n") (.exit 1)
      | some q =>
        (reviewSequence I.ctype I.datadir q).bind fun q' =>
          detoxWork P { o with
            filesToIgnore := c.filesToIgnore, sequenceToUse := some q' } fuel

/-- `main`, detox.c:25-132. Returning is exit status 0. -/
def detoxMain (P : Platform) (I : Invocation) (fuel : Nat) : Prog Unit :=
  (parseOptions I.program I.args I.sequence I.posixlyCorrect).bind fun o => detoxConfigured P I o fuel

end Detox
