import Verif.Model.Main
import Verif.Model.EscapeUtf8

/-!
# The warnings — `/repo/src/clean_utf_8.c`, `/repo/src/clean_string.c:297-302`, `/repo/src/parse_table.c:76, 188`

The rest of the model leaves out what the filters and the table reader print on stderr. Here is the whole program with these messages. Texts
obtained from `strerror` are left out, as everywhere.
-/

set_option autoImplicit false

namespace Detox

/-- What was printed on stderr, and what came out. -/
abbrev Said (α : Type) := List Bytes × Res α

def Said.bind {α β : Type} (x : Said α) (f : α → Said β) : Said β :=
  match x.2 with
  | .ok a => (x.1 ++ (f a).1, (f a).2)
  | .exit n => (x.1, .exit n)
  | .ub u => (x.1, .ub u)
  | .stuck => (x.1, .stuck)

/-- The warnings about a character that was decoded, clean_utf_8.c:164-177. -/
def utf8Warnings (t : Table) (v : Nat) : List Bytes :=
  if tableGet t v = none ∧ v = 0 then [lit "detox: warning: UTF-8 encoded NULL encountered\n"]
  else if tableGet t v = none ∧ v > unicodeMax then [lit "detox: warning: unicode character 0x" ++ printfHex true 8 v ++ lit " is invalid\n"]
  else []

/-- The warning when the continuation loop fails, clean_utf_8.c:128-138; the argument is what is left of the string. -/
def utf8CutWarning (rest : Bytes) : Bytes :=
  if rest = [] then lit "detox: warning: UTF-8 sequence ended unexpectedly (null)\n"
  else lit "detox: warning: UTF-8 sequence ended unexpectedly (missing con't)\n"

/-- The main loop of `clean_utf_8`, clean_utf_8.c:83-201, as in `cleanUtf8Loop`. -/
def cleanUtf8LoopLoud (t : Table) : Nat → OutBuf → Bytes → Said OutBuf
  | _, o, [] => ([], .ok o)
  | 0, _, _ :: _ => ([], .stuck)
  | n + 1, o, c :: rest =>
    match utf8Width c with
    | none => Said.bind ([lit "detox: warning: invalid encoding\n"], o.push invalidReplacement) fun o => cleanUtf8LoopLoud t n o rest
    | some w =>
      match eatCont (w - 1) (unpackStart w c) rest with
      | (none, rest') => Said.bind ([utf8CutWarning rest'], o.push invalidReplacement) fun o => cleanUtf8LoopLoud t n o rest'
      | (some v, rest') =>
        match utf8Replacement t v with
        | none => Said.bind (utf8Warnings t v, o.pushStr ((c :: rest).take w)) fun o => cleanUtf8LoopLoud t n o rest'
        | some r => Said.bind (utf8Warnings t v, o.pushStr r) fun o => cleanUtf8LoopLoud t n o rest'

/-- `clean_utf_8`, clean_utf_8.c:60-206. -/
def cleanUtf8Loud (t : Option Table) (s : Bytes) : Said Bytes :=
  match t with
  | none => ([lit "internal error\n"], .exit 1)
  | some t => (cleanUtf8LoopLoud t s.length (OutBuf.alloc (s.length * t.maxDataLength + 1)) s).bind fun o => ([], o.finish)

/-- The warning of `clean_max_length`, clean_string.c:299. The number is printed as it is; the code converts it to `int`, which matters only if an
extension has 2^31 bytes. -/
def maxLengthWarning (maxLength : Nat) (s : Bytes) : Bytes :=
  lit "warning: max_length " ++ printDecimal (maxLength + 1) maxLength ++ lit " is less than required file length for '" ++ s ++
    lit "'.  giving up.\n"

/-- `clean_max_length`, clean_string.c:250-309. -/
def cleanMaxLengthLoud (P : Platform) (maxLength : Nat) (s : Bytes) : Said Bytes :=
  let maxLength := if maxLength = 0 then 256 else maxLength
  if s.length ≤ maxLength then ([], .ok s)
  else
    let output := s.take maxLength
    match strrchrIdx 0x2E s with
    | none => ([], .ok output)
    | some ext0 =>
      if (s.drop ext0).length = 1 then ([], .ok output)
      else
        Said.bind ([], lookBack P s ext0 ext0) fun ext =>
          let extension := s.drop ext
          if maxLength ≤ extension.length then ([maxLengthWarning maxLength s], .ok s)
          else
            let bodyLength := maxLength - extension.length
            ([], .ok (output.take bodyLength ++ extension))

/-- `filter_run`, filter.c:194-242. `clean_iso8859_1` and `clean_safe` print a message only if there is no table (clean_string.c:38-41,
98-101). -/
def filterRunLoud (P : Platform) (f : Filter) (filename : Option Bytes) : Said (Option Bytes) :=
  match filename with
  | none => ([], .ok none)
  | some s =>
    Said.bind
      (match f.cleaner with
      | .iso8859_1 => (if f.table = none then [lit "internal error\n"] else [], cleanIso f.table s)
      | .lower => ([], cleanLower P s)
      | .maxLength => cleanMaxLengthLoud P f.maxLength s
      | .safe => (if f.table = none then [lit "internal error\n"] else [], cleanSafe P f.table s)
      | .uncgi => ([], cleanUncgi P s)
      | .utf8 => cleanUtf8Loud f.table s
      | .wipeup => ([], cleanWipeup f.removeTrailing s))
      fun r => ([], .ok (some r))

/-- The loop of `sequence_run_filters`, sequence.c:116-121. -/
def runFiltersLoud (P : Platform) : List Filter → Option Bytes → Said (Option Bytes)
  | [], work => ([], .ok work)
  | _ :: _, none => ([], .ok none)
  | f :: fs, some s => (filterRunLoud P f (some s)).bind fun hold => runFiltersLoud P fs hold

/-- `sequence_run_filters`, sequence.c:98-124. -/
def sequenceRunFiltersLoud (P : Platform) (seq : Option Sequence) (filename : Option Bytes) : Said (Option Bytes) :=
  match seq with
  | none => ([lit "internal error\n"], .exit 1)
  | some q =>
    match filename with
    | none => ([], .ok none)
    | some s => runFiltersLoud P q.filters (some s)

/-- Print some messages on stderr. -/
def says {α : Type} : List Bytes → Prog α → Prog α
  | [], k => k
  | m :: ms, k => .err m (says ms k)

/-- A computation without system calls but for messages. -/
def Prog.ofSaid {α : Type} (x : Said α) : Prog α := says x.1 (.ofRes x.2)

/-! ### Files and directories -/

/-- `parse_file`, file.c:69-161. -/
def parseFileLoud (P : Platform) (o : Options) (filename : Bytes) : Prog Bytes :=
  let base := basePart filename
  let work := if isProtected base then none else some base
  (Prog.ofSaid (sequenceRunFiltersLoud P o.sequenceToUse work)).bind fun hold =>
    match hold with
    | none => .ret filename
    | some w =>
      if base = w then .ret filename
      else checkAndRename o filename (dirPart filename ++ w)

/-- The loop of `parse_dir`, file.c:205-231. -/
def dirLoopLoud (P : Platform) (o : Options) (recDir : Option Filelist → Bytes → Prog (Option Filelist))
    (h : Nat) (filename : Bytes) : Nat → Stat → Option Filelist → Prog (Option Filelist)
  | 0, _, _ => .stuck
  | m + 1, st, ign =>
    .readdir h fun e =>
      match e with
      | none => .closedir h (.ret ign)
      | some name =>
        (Prog.ofRes (ignoreFile name ign)).bind fun p =>
          if p.2 then dirLoopLoud P o recDir h filename m st p.1
          else
            let newFile := (filename ++ [0x2F] ++ name).take (filename.length + 1023)
            .lstat newFile fun r =>
              let st' := r.getD st
              if st'.kind = .dir then
                (parseFileLoud P o newFile).bind fun work =>
                  if o.recurse then
                    (recDir p.1 work).bind fun ign' => dirLoopLoud P o recDir h filename m st' ign'
                  else dirLoopLoud P o recDir h filename m st' p.1
              else if st'.kind = .reg || o.special then
                (parseFileLoud P o newFile).bind fun _ => dirLoopLoud P o recDir h filename m st' p.1
              else dirLoopLoud P o recDir h filename m st' p.1

/-- `parse_dir`, file.c:166-232. -/
def parseDirLoud (P : Platform) (o : Options) : Nat → Option Filelist → Bytes → Prog (Option Filelist)
  | 0, _, _ => .stuck
  | n + 1, ign, filename =>
    .lstat filename fun r =>
      match r with
      | none => .ret ign
      | some st =>
        if st.kind ≠ .dir then .ret ign
        else
          .opendir filename fun d =>
            match d with
            | .ok h => dirLoopLoud P o (parseDirLoud P o n) h filename n st ign
            | .fail => .err (lit "unable to parse: ") (.ret ign)
            | .emfile => .err (lit "unable to parse: ") (.exit 1)

/-- One command line argument, detox.c:93-110. -/
def processArgLoud (P : Platform) (o : Options) (fuel : Nat) (ign : Option Filelist) (file : Bytes) :
    Prog (Option Filelist) :=
  let body : Prog (Option Filelist) :=
    .lstat file fun r =>
      match r with
      | none => .err (file ++ lit ": ") (.ret ign)
      | some st =>
        if st.kind = .dir then
          (parseFileLoud P o file).bind fun work => parseDirLoud P o fuel ign work
        else if st.kind = .reg then (parseFileLoud P o file).bind fun _ => .ret ign
        else if o.special then (parseFileLoud P o file).bind fun _ => .ret ign
        else .ret ign
  if o.verbose ≠ 0 then .out (lit "Scanning: " ++ file ++ [0x0A]) body else body

/-- The loop over the arguments, detox.c:92-111. -/
def fileLoopLoud (P : Platform) (o : Options) (fuel : Nat) : Nat → Filelist → Option Filelist → Prog (Option Filelist)
  | 0, _, _ => .stuck
  | n + 1, l, ign =>
    (Prog.ofRes (filelistGet l)).bind fun p =>
      match p.2 with
      | none => .ret ign
      | some file => (processArgLoud P o fuel ign file).bind fun ign' => fileLoopLoud P o fuel n p.1 ign'

/-! ### Inline mode -/

/-- One round of the loop of `parse_inline` from line 390 on. -/
def printChunkLoud (P : Platform) (o : Options) (text : Bytes) (newline : Bool) (k : Prog Unit) : Prog Unit :=
  let work := if isProtected text then none else some text
  (Prog.ofSaid (sequenceRunFiltersLoud P o.sequenceToUse work)).bind fun hold =>
    .out (match hold with | some w => w | none => text) (if newline then .out [0x0A] k else k)

/-- The loop of `parse_inline`, file.c:279-417. -/
def inlineLoopLoud (P : Platform) (o : Options) : Nat → Bytes → Prog Unit
  | _, [] => .ret ()
  | 0, _ :: _ => .stuck
  | n + 1, c :: s =>
    (Prog.ofRes (nextChunk P (c :: s))).bind fun r =>
      let next := printChunkLoud P o r.1 r.2.1 (inlineLoopLoud P o n r.2.2.2)
      if r.2.2.1 then .err (lit "detox: warning: stream push back failed\n") next else next

/-- `parse_inline`, file.c:242-426; `none` is stdin. -/
def parseInlineLoud (P : Platform) (o : Options) (inFilename : Option Bytes) : Prog Unit :=
  .slurp inFilename fun r =>
    match r with
    | none => .err (inFilename.getD [] ++ lit ": ") (.ret ())
    | some s => inlineLoopLoud P o s.length s

/-- One argument in inline mode, detox.c:115-124. -/
def inlineArgLoud (P : Platform) (o : Options) (file : Bytes) : Prog Unit :=
  .lstat file fun r =>
    match r with
    | none => .err (file ++ lit ": ") (.ret ())
    | some st => if st.kind = .dir then .err (file ++ lit ": is a directory\n") (.ret ()) else parseInlineLoud P o (some file)

/-- The loop over the arguments in inline mode, detox.c:114-125. -/
def inlineFileLoopLoud (P : Platform) (o : Options) : Nat → Filelist → Prog Unit
  | 0, _ => .stuck
  | n + 1, l =>
    (Prog.ofRes (filelistGet l)).bind fun p =>
      match p.2 with
      | none => .ret ()
      | some file => (inlineArgLoud P o file).bind fun _ => inlineFileLoopLoud P o n p.1

/-- The inline branch of `main`, detox.c:112-129. -/
def inlineMainLoud (P : Platform) (o : Options) (files : Option Filelist) : Prog Unit :=
  match files with
  | none => parseInlineLoud P o none
  | some l => if filelistCount (some l) > 0 then inlineFileLoopLoud P o (l.count + 1) l else parseInlineLoud P o none

/-! ### Loading tables -/

/-- The message about a row that does not fit, parse_table.c:188. -/
def rowMessage (k : Nat) (d : Bytes) : Bytes :=
  lit "Failed to add row 0x" ++ printfHex false 4 k ++ lit " \"" ++ d ++ lit "\" to translation table\n"

/-- The loop over the lines, parse_table.c:86-195: the messages of it. -/
def tableLinesMessages (ctype : Bytes) : Bool × Table → List Bytes → List Bytes
  | _, [] => []
  | st, l :: ls =>
    match parseTableLine ctype st l with
    | none => match insideLine l with | .row k d => [rowMessage k d] | _ => []
    | some st' => tableLinesMessages ctype st' ls

/-- The messages of `parse_table`, parse_table.c:27-202, on a file that can be read. -/
def tableMessages (ctype content : Bytes) : List Bytes :=
  tableLinesMessages ctype (false, tableInit (tableRowsFor content.length)) (fileLines content.length content)

/-- `parse_table`, parse_table.c:27-202. `there` says which files can be examined but not opened. -/
def readTableLoud (there : Bytes → Bool) (ctype path : Bytes) : Prog (Option Table) :=
  .slurp (some path) fun r =>
    match r with
    | none => says (if there path then [lit "Unable to open translation table: "] else []) (.ret none)
    | some content => says (tableMessages ctype content) (.ret (parseTableContent ctype content))

/-- `snprintf` into the buffer, the test, and `parse_table`, filter.c:43-49. -/
def tryTableLoud (there : Bytes → Bool) (ctype path : Bytes) : Prog (Option Table) :=
  if path.length < maxPathLen then readTableLoud there ctype path else .ret none

/-- `filter_find_table`, filter.c:30-66. -/
def findTableLoud (there : Bytes → Bool) (ctype : Bytes) (datadir : Option Bytes) (checkFilename : Bytes) : Prog (Option Table) :=
  (match datadir with
    | some d => tryTableLoud there ctype (d ++ lit "/detox/" ++ checkFilename)
    | none => .ret none).bind fun t1 =>
  match t1 with
  | some t => .ret (some t)
  | none =>
    (tryTableLoud there ctype (lit "/usr/share/detox/" ++ checkFilename)).bind fun t2 =>
    match t2 with
    | some t => .ret (some t)
    | none => tryTableLoud there ctype (lit "/usr/local/share/detox/" ++ checkFilename)

/-- `filter_load_table`, filter.c:131-184. -/
def loadTableLoud (there : Bytes → Bool) (ctype : Bytes) (datadir : Option Bytes) (f : Filter) : Prog (Option Table) :=
  match defaultTableFilename f.cleaner with
  | none => .ret none
  | some checkFilename =>
    match f.builtin with
    | some b =>
      match filterLoadBuiltinByFilename b with
      | none => .err (lit "detox: unable to locate builtin table \"" ++ b ++ lit "\"\n") (.exit 1)
      | some t => .ret (some t)
    | none =>
      match f.filename with
      | some fn =>
        (readTableLoud there ctype fn).bind fun r =>
          match r with
          | none => .err (lit "detox: unable to parse file: \"" ++ fn ++ lit "\"\n") (.exit 1)
          | some t => .ret (some t)
      | none =>
        (findTableLoud there ctype datadir checkFilename).bind fun r =>
          match r with
          | some t => .ret (some t)
          | none =>
            match filterLoadBuiltin f with
            | none => .err (lit "detox: unable to locate translation table or fall back\n") (.exit 1)
            | some t => .ret (some t)

/-- The loop of `sequence_review`, sequence.c:80-87. -/
def loadTablesLoud (there : Bytes → Bool) (ctype : Bytes) (datadir : Option Bytes) : List Filter → Prog (List Filter)
  | [] => .ret []
  | f :: fs =>
    (loadTableLoud there ctype datadir f).bind fun t =>
    (loadTablesLoud there ctype datadir fs).bind fun fs' =>
      .ret ((match t with | some t => { f with table := some t } | none => f) :: fs')

/-- `sequence_review`, sequence.c:75-88. -/
def reviewSequenceLoud (there : Bytes → Bool) (ctype : Bytes) (datadir : Option Bytes) (q : Sequence) : Prog Sequence :=
  (loadTablesLoud there ctype datadir q.filters).bind fun fs => .ret { q with filters := fs }

/-! ### `main` -/

/-- The work, detox.c:88-129. -/
def detoxWorkLoud (P : Platform) (o : Options) (fuel : Nat) : Prog Unit :=
  if o.isInlineMode then inlineMainLoud P o o.files
  else
    match o.files with
    | none => .ret ()
    | some l => (fileLoopLoud P o fuel (l.count + 1) l o.filesToIgnore).bind fun _ => .ret ()

/-- `main` after the options, detox.c:43-86. -/
def detoxConfiguredLoud (there : Bytes → Bool) (P : Platform) (I : Invocation) (o : Options) (fuel : Nat) : Prog Unit :=
  (configFileLoad I.config o.checkConfigFile).bind fun c =>
    if o.listSequences then
      (Prog.ofRes (dumpConfigFile c o)).bind fun t => .out t (.exit 0)
    else
      match sequenceChooseDefault c.sequences o.sequenceName with
      | none => .err (lit "detox: no sequence to work with\n") (.exit 1)
      | some q =>
        (reviewSequenceLoud there I.ctype I.datadir q).bind fun q' =>
          detoxWorkLoud P { o with
            filesToIgnore := c.filesToIgnore, sequenceToUse := some q' } fuel

/-- `main`, detox.c:25-132, with all messages. -/
def detoxMainLoud (there : Bytes → Bool) (P : Platform) (I : Invocation) (fuel : Nat) : Prog Unit :=
  (parseOptions I.program I.args I.sequence I.posixlyCorrect).bind fun o => detoxConfiguredLoud there P I o fuel

end Detox
