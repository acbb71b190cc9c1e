import Verif.Model.Main

/-!
# The locale — `/repo/src/parse_table.c:49`, `/repo/src/clean_string.c:318-342`

detox starts in the "C" locale. The first table file it can `stat` makes `parse_table` call `setlocale(LC_CTYPE, "")`, which puts the locale of the
environment into force for the rest of the run. After that `isupper` and `tolower` answer for the characters of that locale, as far as they are
single bytes. The rest of the model has the "C" locale throughout (the same holds for locales with UTF-8, which have no further letters of one byte).
Here is the whole program with the call. Everything else in it that depends on the locale (white space for `sscanf`, `strncasecmp` on the keywords of
table files, `isxdigit`, which the standard fixes) is as before.
-/

set_option autoImplicit false

namespace Detox

/-- What `isupper` and `tolower` answer for the values of an `unsigned char`. -/
structure Locale where
  upper : Byte → Bool
  lower : Byte → Byte
  /-- NUL is not a letter -/
  nul : upper 0 = false

/-- The "C" locale, and locales with UTF-8. -/
def Locale.c : Locale := ⟨isUpperC, toLowerC, by decide⟩

/-- ISO 8859-1, in which D7, the multiplication sign, is no letter. -/
def Locale.latin1 : Locale where
  upper c := isUpperC c || (0xC0 ≤ c.toNat && c.toNat ≤ 0xDE && c.toNat ≠ 0xD7)
  lower c := if isUpperC c || (0xC0 ≤ c.toNat && c.toNat ≤ 0xDE && c.toNat ≠ 0xD7) then c + 32 else c
  nul := by decide

/-- `isupper((int) c)`. Where `char` is signed, byte FF is -1, which is `EOF`, and that is not a letter. -/
def Locale.isUpper (L : Locale) (P : Platform) (c : Byte) : Res Bool :=
  ctypeCall P (fun c => L.upper c && !(P.charSigned && c = 0xFF)) c

/-- The loop of `clean_lower`, clean_string.c:331-337. -/
def cleanLowerLoopIn (L : Locale) (P : Platform) (o : OutBuf) : Bytes → Res OutBuf
  | [] => .ok o
  | c :: rest => do
    let up ← L.isUpper P c
    if up then do
      let o ← o.push (L.lower c)
      cleanLowerLoopIn L P o rest
    else do
      let o ← o.push c
      cleanLowerLoopIn L P o rest

/-- `clean_lower`, clean_string.c:318-342. -/
def cleanLowerIn (L : Locale) (P : Platform) (s : Bytes) : Res Bytes := do
  let o ← cleanLowerLoopIn L P (OutBuf.alloc (s.length + 1)) s
  o.finish

/-- `filter_run`, filter.c:194-242. -/
def filterRunIn (L : Locale) (P : Platform) (f : Filter) (filename : Option Bytes) : Res (Option Bytes) :=
  match filename, f.cleaner with
  | some s, .lower => do
    let r ← cleanLowerIn L P s
    pure (some r)
  | _, _ => filterRun P f filename

/-- The loop of `sequence_run_filters`, sequence.c:116-121. -/
def runFiltersIn (L : Locale) (P : Platform) : List Filter → Option Bytes → Res (Option Bytes)
  | [], work => .ok work
  | _ :: _, none => .ok none
  | f :: fs, some s => do
    let r ← filterRunIn L P f (some s)
    runFiltersIn L P fs r

/-- `sequence_run_filters`, sequence.c:98-124. -/
def sequenceRunFiltersIn (L : Locale) (P : Platform) (seq : Option Sequence) (filename : Option Bytes) : Res (Option Bytes) :=
  match seq with
  | none => .exit 1
  | some q =>
    match filename with
    | none => .ok none
    | some s => runFiltersIn L P q.filters (some s)

/-! ### The work, for any way of cleaning

`run` is `sequence_run_filters` with the sequence in use. -/

/-- `parse_file`, file.c:69-161. -/
def parseFileBy (run : Option Bytes → Res (Option Bytes)) (o : Options) (filename : Bytes) : Prog Bytes :=
  let base := basePart filename
  let work := if isProtected base then none else some base
  (Prog.ofRes (run work)).bind fun hold =>
    match hold with
    | none => .ret filename
    | some w =>
      if base = w then .ret filename
      else checkAndRename o filename (dirPart filename ++ w)

/-- The loop of `parse_dir`, file.c:205-231. -/
def dirLoopBy (run : Option Bytes → Res (Option Bytes)) (o : Options) (recDir : Option Filelist → Bytes → Prog (Option Filelist))
    (h : Nat) (filename : Bytes) : Nat → Stat → Option Filelist → Prog (Option Filelist)
  | 0, _, _ => .stuck
  | m + 1, st, ign =>
    .readdir h fun e =>
      match e with
      | none => .closedir h (.ret ign)
      | some name =>
        (Prog.ofRes (ignoreFile name ign)).bind fun p =>
          if p.2 then dirLoopBy run o recDir h filename m st p.1
          else
            let newFile := (filename ++ [0x2F] ++ name).take (filename.length + 1023)
            .lstat newFile fun r =>
              let st' := r.getD st
              if st'.kind = .dir then
                (parseFileBy run o newFile).bind fun work =>
                  if o.recurse then
                    (recDir p.1 work).bind fun ign' => dirLoopBy run o recDir h filename m st' ign'
                  else dirLoopBy run o recDir h filename m st' p.1
              else if st'.kind = .reg || o.special then
                (parseFileBy run o newFile).bind fun _ => dirLoopBy run o recDir h filename m st' p.1
              else dirLoopBy run o recDir h filename m st' p.1

/-- `parse_dir`, file.c:166-232. -/
def parseDirBy (run : Option Bytes → Res (Option Bytes)) (o : Options) : Nat → Option Filelist → Bytes → Prog (Option Filelist)
  | 0, _, _ => .stuck
  | n + 1, ign, filename =>
    .lstat filename fun r =>
      match r with
      | none => .ret ign
      | some st =>
        if st.kind ≠ .dir then .ret ign
        else
          .opendir filename fun d =>
            match d with
            | .ok h => dirLoopBy run o (parseDirBy run o n) h filename n st ign
            | .fail => .err (lit "unable to parse: ") (.ret ign)
            | .emfile => .err (lit "unable to parse: ") (.exit 1)

/-- One command line argument, detox.c:93-110. -/
def processArgBy (run : Option Bytes → Res (Option Bytes)) (o : Options) (fuel : Nat) (ign : Option Filelist) (file : Bytes) :
    Prog (Option Filelist) :=
  let body : Prog (Option Filelist) :=
    .lstat file fun r =>
      match r with
      | none => .err (file ++ lit ": ") (.ret ign)
      | some st =>
        if st.kind = .dir then
          (parseFileBy run o file).bind fun work => parseDirBy run o fuel ign work
        else if st.kind = .reg then (parseFileBy run o file).bind fun _ => .ret ign
        else if o.special then (parseFileBy run o file).bind fun _ => .ret ign
        else .ret ign
  if o.verbose ≠ 0 then .out (lit "Scanning: " ++ file ++ [0x0A]) body else body

/-- The loop over the arguments, detox.c:92-111. -/
def fileLoopBy (run : Option Bytes → Res (Option Bytes)) (o : Options) (fuel : Nat) : Nat → Filelist → Option Filelist → Prog (Option Filelist)
  | 0, _, _ => .stuck
  | n + 1, l, ign =>
    (Prog.ofRes (filelistGet l)).bind fun p =>
      match p.2 with
      | none => .ret ign
      | some file => (processArgBy run o fuel ign file).bind fun ign' => fileLoopBy run o fuel n p.1 ign'

/-- One round of the loop of `parse_inline` from line 390 on. -/
def printChunkBy (run : Option Bytes → Res (Option Bytes)) (text : Bytes) (newline : Bool) (k : Prog Unit) : Prog Unit :=
  let work := if isProtected text then none else some text
  (Prog.ofRes (run work)).bind fun hold =>
    .out (match hold with | some w => w | none => text) (if newline then .out [0x0A] k else k)

/-- The loop of `parse_inline`, file.c:279-417. -/
def inlineLoopBy (run : Option Bytes → Res (Option Bytes)) (P : Platform) : Nat → Bytes → Prog Unit
  | _, [] => .ret ()
  | 0, _ :: _ => .stuck
  | n + 1, c :: s =>
    (Prog.ofRes (nextChunk P (c :: s))).bind fun r =>
      let next := printChunkBy run r.1 r.2.1 (inlineLoopBy run P n r.2.2.2)
      if r.2.2.1 then .err (lit "detox: warning: stream push back failed\n") next else next

/-- `parse_inline`, file.c:242-426. -/
def parseInlineBy (run : Option Bytes → Res (Option Bytes)) (P : Platform) (inFilename : Option Bytes) : Prog Unit :=
  .slurp inFilename fun r =>
    match r with
    | none => .err (inFilename.getD [] ++ lit ": ") (.ret ())
    | some s => inlineLoopBy run P s.length s

/-- One argument in inline mode, detox.c:115-124. -/
def inlineArgBy (run : Option Bytes → Res (Option Bytes)) (P : Platform) (file : Bytes) : Prog Unit :=
  .lstat file fun r =>
    match r with
    | none => .err (file ++ lit ": ") (.ret ())
    | some st => if st.kind = .dir then .err (file ++ lit ": is a directory\n") (.ret ()) else parseInlineBy run P (some file)

/-- The loop over the arguments in inline mode, detox.c:114-125. -/
def inlineFileLoopBy (run : Option Bytes → Res (Option Bytes)) (P : Platform) : Nat → Filelist → Prog Unit
  | 0, _ => .stuck
  | n + 1, l =>
    (Prog.ofRes (filelistGet l)).bind fun p =>
      match p.2 with
      | none => .ret ()
      | some file => (inlineArgBy run P file).bind fun _ => inlineFileLoopBy run P n p.1

/-- The inline branch of `main`, detox.c:112-129. -/
def inlineMainBy (run : Option Bytes → Res (Option Bytes)) (P : Platform) (files : Option Filelist) : Prog Unit :=
  match files with
  | none => parseInlineBy run P none
  | some l => if filelistCount (some l) > 0 then inlineFileLoopBy run P (l.count + 1) l else parseInlineBy run P none

/-- The work, detox.c:88-129. -/
def detoxWorkBy (run : Option Bytes → Res (Option Bytes)) (P : Platform) (o : Options) (fuel : Nat) : Prog Unit :=
  if o.isInlineMode then inlineMainBy run P o.files
  else
    match o.files with
    | none => .ret ()
    | some l => (fileLoopBy run o fuel (l.count + 1) l o.filesToIgnore).bind fun _ => .ret ()

/-! ### Loading tables

The first component of a result says whether `setlocale` was called. `there` says which files can be examined but not opened. -/

/-- `parse_table`, parse_table.c:27-202. -/
def readTableIn (there : Bytes → Bool) (ctype path : Bytes) : Prog (Bool × Option Table) :=
  .slurp (some path) fun r => .ret (r.isSome || there path, r.bind (parseTableContent ctype))

/-- `snprintf` into the buffer, the test, and `parse_table`, filter.c:43-49. -/
def tryTableIn (there : Bytes → Bool) (ctype path : Bytes) : Prog (Bool × Option Table) :=
  if path.length < maxPathLen then readTableIn there ctype path else .ret (false, none)

/-- `filter_find_table`, filter.c:30-66. -/
def findTableIn (there : Bytes → Bool) (ctype : Bytes) (datadir : Option Bytes) (checkFilename : Bytes) : Prog (Bool × Option Table) :=
  (match datadir with
    | some d => tryTableIn there ctype (d ++ lit "/detox/" ++ checkFilename)
    | none => .ret (false, none)).bind fun t1 =>
  match t1.2 with
  | some t => .ret (t1.1, some t)
  | none =>
    (tryTableIn there ctype (lit "/usr/share/detox/" ++ checkFilename)).bind fun t2 =>
    match t2.2 with
    | some t => .ret (t1.1 || t2.1, some t)
    | none => (tryTableIn there ctype (lit "/usr/local/share/detox/" ++ checkFilename)).bind fun t3 => .ret (t1.1 || t2.1 || t3.1, t3.2)

/-- `filter_load_table`, filter.c:131-184. -/
def loadTableIn (there : Bytes → Bool) (ctype : Bytes) (datadir : Option Bytes) (f : Filter) : Prog (Bool × Option Table) :=
  match defaultTableFilename f.cleaner with
  | none => .ret (false, none)
  | some checkFilename =>
    match f.builtin with
    | some b =>
      match filterLoadBuiltinByFilename b with
      | none => .err (lit "detox: unable to locate builtin table \"" ++ b ++ lit "\"\n") (.exit 1)
      | some t => .ret (false, some t)
    | none =>
      match f.filename with
      | some fn =>
        (readTableIn there ctype fn).bind fun r =>
          match r.2 with
          | none => .err (lit "detox: unable to parse file: \"" ++ fn ++ lit "\"\n") (.exit 1)
          | some t => .ret (r.1, some t)
      | none =>
        (findTableIn there ctype datadir checkFilename).bind fun r =>
          match r.2 with
          | some t => .ret (r.1, some t)
          | none =>
            match filterLoadBuiltin f with
            | none => .err (lit "detox: unable to locate translation table or fall back\n") (.exit 1)
            | some t => .ret (r.1, some t)

/-- The loop of `sequence_review`, sequence.c:80-87. -/
def loadTablesIn (there : Bytes → Bool) (ctype : Bytes) (datadir : Option Bytes) : List Filter → Prog (Bool × List Filter)
  | [] => .ret (false, [])
  | f :: fs =>
    (loadTableIn there ctype datadir f).bind fun t =>
    (loadTablesIn there ctype datadir fs).bind fun fs' =>
      .ret (t.1 || fs'.1, (match t.2 with | some t => { f with table := some t } | none => f) :: fs'.2)

/-- `sequence_review`, sequence.c:75-88. -/
def reviewSequenceIn (there : Bytes → Bool) (ctype : Bytes) (datadir : Option Bytes) (q : Sequence) : Prog (Bool × Sequence) :=
  (loadTablesIn there ctype datadir q.filters).bind fun fs => .ret (fs.1, { q with filters := fs.2 })

/-! ### `main` -/

/-- `main` after the options, detox.c:43-86. `L` is the locale that `setlocale` puts into force (`Locale.c` if the call fails). -/
def detoxConfiguredIn (L : Locale) (there : Bytes → Bool) (P : Platform) (I : Invocation) (o : Options) (fuel : Nat) : Prog Unit :=
  (configFileLoad I.config o.checkConfigFile).bind fun c =>
    if o.listSequences then
      (Prog.ofRes (dumpConfigFile c o)).bind fun t => .out t (.exit 0)
    else
      match sequenceChooseDefault c.sequences o.sequenceName with
      | none => .err (lit "detox: no sequence to work with\n") (.exit 1)
      | some q =>
        (reviewSequenceIn there I.ctype I.datadir q).bind fun q' =>
          detoxWorkBy (sequenceRunFiltersIn (if q'.1 then L else .c) P (some q'.2)) P { o with
            filesToIgnore := c.filesToIgnore, sequenceToUse := some q'.2 } fuel

/-- `main`, detox.c:25-132. -/
def detoxMainIn (L : Locale) (there : Bytes → Bool) (P : Platform) (I : Invocation) (fuel : Nat) : Prog Unit :=
  (parseOptions I.program I.args I.sequence I.posixlyCorrect).bind fun o => detoxConfiguredIn L there P I o fuel

end Detox
