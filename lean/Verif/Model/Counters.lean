import Verif.Model.Main

/-!
# The counters of the tables — `/repo/src/table.c:182-221`, `/repo/src/detox_struct.h:49-52`

`table_get` counts what it does in three `int`s of the table, and nothing ever reads them. The rest of the model leaves them out. Here is the
whole program with these counters, which overflow when there is enough to look up. Each filter has a table of its own: `table_resize` and
`parse_table` make a new one for each call (filter.c:131-184, builtin_table.c:91-94, 214-217, 404-407, 463-466).
-/

set_option autoImplicit false

namespace Detox

/-- `n++` for an `int`. -/
def countUp (n : Nat) : Res Nat := if n < intMax then .ok (n + 1) else .ub .intOverflow

/-- `table_get`, table.c:182-221. -/
def tableGetCounted (t : Table) (key : Nat) : Res (Table × Option Bytes) :=
  if key = 0 then .ok (t, none)
  else
    match t.getProbe key with
    | some offset => do
      let hits ← countUp t.hits
      pure ({ t with hits := hits }, (t.rows[offset]?).bind Row.data)
    | none => do
      let seeks ← countUp t.seeks
      match t.getScan key with
      | none => do
        let misses ← countUp t.misses
        pure ({ t with seeks := seeks, misses := misses }, none)
      | some offset => do
        let hits ← countUp t.hits
        pure ({ t with seeks := seeks, hits := hits }, (t.rows[offset]?).bind Row.data)

/-! ### Filters -/

/-- The loop of `clean_iso8859_1`, clean_string.c:48-75. -/
def cleanIsoLoopCounted (t : Table) (o : OutBuf) : Bytes → Res (Table × OutBuf)
  | [] => .ok (t, o)
  | c :: rest =>
    if c &&& 0x80 = 0 then do
      let o ← o.push c
      cleanIsoLoopCounted t o rest
    else do
      let g ← tableGetCounted t c.toNat
      match g.2 with
      | some r => do
        let o ← o.pushStr r
        cleanIsoLoopCounted g.1 o rest
      | none =>
        match g.1.defaultTranslation with
        | none => do
          let o ← o.push c
          cleanIsoLoopCounted g.1 o rest
        | some d => do
          let o ← o.pushStr d
          cleanIsoLoopCounted g.1 o rest

/-- The loop of `clean_safe`, clean_string.c:108-128. -/
def cleanSafeLoopCounted (P : Platform) (t : Table) (o : OutBuf) : Bytes → Res (Table × OutBuf)
  | [] => .ok (t, o)
  | c :: rest => do
    let g ← tableGetCounted t (P.charToUInt c)
    match g.2 with
    | some r => do
      let o ← o.pushStr r
      cleanSafeLoopCounted P g.1 o rest
    | none =>
      match g.1.defaultTranslation with
      | none => do
        let o ← o.push c
        cleanSafeLoopCounted P g.1 o rest
      | some d => do
        let o ← o.pushStr d
        cleanSafeLoopCounted P g.1 o rest

/-- Choice of the replacement, clean_utf_8.c:158-181. -/
def utf8ReplacementCounted (t : Table) (v : Nat) : Res (Table × Option Bytes) := do
  let g ← tableGetCounted t v
  let r := g.2
  let r := if r = none ∧ v = 0 then some nullReplacement else r
  let r := if r = none ∧ v > unicodeMax then some [invalidReplacement] else r
  pure (g.1, if r = none then g.1.defaultTranslation else r)

/-- The main loop of `clean_utf_8`, clean_utf_8.c:83-201, as in `cleanUtf8Loop`. -/
def cleanUtf8LoopCounted (t : Table) : Nat → OutBuf → Bytes → Res (Table × OutBuf)
  | _, o, [] => .ok (t, o)
  | 0, _, _ :: _ => .stuck
  | n + 1, o, c :: rest =>
    match utf8Width c with
    | none => do
      let o ← o.push invalidReplacement
      cleanUtf8LoopCounted t n o rest
    | some w =>
      match eatCont (w - 1) (unpackStart w c) rest with
      | (none, rest') => do
        let o ← o.push invalidReplacement
        cleanUtf8LoopCounted t n o rest'
      | (some v, rest') => do
        let g ← utf8ReplacementCounted t v
        match g.2 with
        | none => do
          let o ← o.pushStr ((c :: rest).take w)
          cleanUtf8LoopCounted g.1 n o rest'
        | some r => do
          let o ← o.pushStr r
          cleanUtf8LoopCounted g.1 n o rest'

/-- A filter that uses its table: `clean_iso8859_1`, clean_string.c:29-80; `clean_safe`, 90-133; `clean_utf_8`, clean_utf_8.c:60-206. `loop` is
its loop. -/
def cleanCounted (loop : Table → OutBuf → Bytes → Res (Table × OutBuf)) (t : Option Table) (s : Bytes) : Res (Option Table × Bytes) :=
  match t with
  | none => .exit 1
  | some t => do
    let p ← loop t (OutBuf.alloc (s.length * t.maxDataLength + 1)) s
    let r ← p.2.finish
    pure (some p.1, r)

/-- A filter that does not. -/
def uncounted (t : Option Table) (x : Res Bytes) : Res (Option Table × Bytes) := do
  let r ← x
  pure (t, r)

/-- `filter_run`, filter.c:194-242. -/
def filterRunCounted (P : Platform) (f : Filter) (filename : Option Bytes) : Res (Filter × Option Bytes) :=
  match filename with
  | none => .ok (f, none)
  | some s => do
    let p ← match f.cleaner with
      | .iso8859_1 => cleanCounted cleanIsoLoopCounted f.table s
      | .lower => uncounted f.table (cleanLower P s)
      | .maxLength => uncounted f.table (cleanMaxLength P f.maxLength s)
      | .safe => cleanCounted (cleanSafeLoopCounted P) f.table s
      | .uncgi => uncounted f.table (cleanUncgi P s)
      | .utf8 => cleanCounted (fun t o s => cleanUtf8LoopCounted t s.length o s) f.table s
      | .wipeup => uncounted f.table (cleanWipeup f.removeTrailing s)
    pure ({ f with table := p.1 }, some p.2)

/-- The loop of `sequence_run_filters`, sequence.c:116-121. -/
def runFiltersCounted (P : Platform) : List Filter → Option Bytes → Res (List Filter × Option Bytes)
  | [], work => .ok ([], work)
  | f :: fs, none => .ok (f :: fs, none)
  | f :: fs, some s => do
    let p ← filterRunCounted P f (some s)
    let r ← runFiltersCounted P fs p.2
    pure (p.1 :: r.1, r.2)

/-- `sequence_run_filters`, sequence.c:98-124. The sequence is returned because its counters move. -/
def sequenceRunFiltersCounted (P : Platform) (seq : Option Sequence) (filename : Option Bytes) : Res (Option Sequence × Option Bytes) :=
  match seq with
  | none => .exit 1
  | some q =>
    match filename with
    | none => .ok (some q, none)
    | some s => do
      let p ← runFiltersCounted P q.filters (some s)
      pure (some { q with filters := p.1 }, p.2)

/-! ### Files and directories -/

/-- `parse_file`, file.c:69-161. From here on the sequence in use is passed along; that in `o` is not looked at. -/
def parseFileCounted (P : Platform) (o : Options) (q : Option Sequence) (filename : Bytes) : Prog (Option Sequence × Bytes) :=
  let base := basePart filename
  let work := if isProtected base then none else some base
  (Prog.ofRes (sequenceRunFiltersCounted P q work)).bind fun p =>
    match p.2 with
    | none => .ret (p.1, filename)
    | some w =>
      if base = w then .ret (p.1, filename)
      else (checkAndRename o filename (dirPart filename ++ w)).bind fun new => .ret (p.1, new)

/-- The loop of `parse_dir`, file.c:205-231. -/
def dirLoopCounted (P : Platform) (o : Options)
    (recDir : Option Sequence → Option Filelist → Bytes → Prog (Option Sequence × Option Filelist)) (h : Nat) (filename : Bytes) :
    Nat → Option Sequence → Stat → Option Filelist → Prog (Option Sequence × Option Filelist)
  | 0, _, _, _ => .stuck
  | m + 1, q, st, ign =>
    .readdir h fun e =>
      match e with
      | none => .closedir h (.ret (q, ign))
      | some name =>
        (Prog.ofRes (ignoreFile name ign)).bind fun p =>
          if p.2 then dirLoopCounted P o recDir h filename m q st p.1
          else
            let newFile := (filename ++ [0x2F] ++ name).take (filename.length + 1023)
            .lstat newFile fun r =>
              let st' := r.getD st
              if st'.kind = .dir then
                (parseFileCounted P o q newFile).bind fun work =>
                  if o.recurse then
                    (recDir work.1 p.1 work.2).bind fun x => dirLoopCounted P o recDir h filename m x.1 st' x.2
                  else dirLoopCounted P o recDir h filename m work.1 st' p.1
              else if st'.kind = .reg || o.special then
                (parseFileCounted P o q newFile).bind fun work => dirLoopCounted P o recDir h filename m work.1 st' p.1
              else dirLoopCounted P o recDir h filename m q st' p.1

/-- `parse_dir`, file.c:166-232. -/
def parseDirCounted (P : Platform) (o : Options) : Nat → Option Sequence → Option Filelist → Bytes → Prog (Option Sequence × Option Filelist)
  | 0, _, _, _ => .stuck
  | n + 1, q, ign, filename =>
    .lstat filename fun r =>
      match r with
      | none => .ret (q, ign)
      | some st =>
        if st.kind ≠ .dir then .ret (q, ign)
        else
          .opendir filename fun d =>
            match d with
            | .ok h => dirLoopCounted P o (parseDirCounted P o n) h filename n q st ign
            | .fail => .err (lit "unable to parse: ") (.ret (q, ign))
            | .emfile => .err (lit "unable to parse: ") (.exit 1)

/-- One command line argument, detox.c:93-110. -/
def processArgCounted (P : Platform) (o : Options) (fuel : Nat) (q : Option Sequence) (ign : Option Filelist) (file : Bytes) :
    Prog (Option Sequence × Option Filelist) :=
  let body : Prog (Option Sequence × Option Filelist) :=
    .lstat file fun r =>
      match r with
      | none => .err (file ++ lit ": ") (.ret (q, ign))
      | some st =>
        if st.kind = .dir then
          (parseFileCounted P o q file).bind fun work => parseDirCounted P o fuel work.1 ign work.2
        else if st.kind = .reg then (parseFileCounted P o q file).bind fun work => .ret (work.1, ign)
        else if o.special then (parseFileCounted P o q file).bind fun work => .ret (work.1, ign)
        else .ret (q, ign)
  if o.verbose ≠ 0 then .out (lit "Scanning: " ++ file ++ [0x0A]) body else body

/-- The loop over the arguments, detox.c:92-111. -/
def fileLoopCounted (P : Platform) (o : Options) (fuel : Nat) :
    Nat → Option Sequence → Filelist → Option Filelist → Prog (Option Sequence × Option Filelist)
  | 0, _, _, _ => .stuck
  | n + 1, q, l, ign =>
    (Prog.ofRes (filelistGet l)).bind fun p =>
      match p.2 with
      | none => .ret (q, ign)
      | some file => (processArgCounted P o fuel q ign file).bind fun x => fileLoopCounted P o fuel n x.1 p.1 x.2

/-! ### Inline mode -/

/-- One round of the loop of `parse_inline` from line 390 on. -/
def printChunkCounted (P : Platform) (q : Option Sequence) (text : Bytes) (newline : Bool) : Prog (Option Sequence) :=
  let work := if isProtected text then none else some text
  (Prog.ofRes (sequenceRunFiltersCounted P q work)).bind fun p =>
    .out (match p.2 with | some w => w | none => text) (if newline then .out [0x0A] (.ret p.1) else .ret p.1)

/-- The loop of `parse_inline`, file.c:279-417. -/
def inlineLoopCounted (P : Platform) : Nat → Option Sequence → Bytes → Prog (Option Sequence)
  | _, q, [] => .ret q
  | 0, _, _ :: _ => .stuck
  | n + 1, q, c :: s =>
    (Prog.ofRes (nextChunk P (c :: s))).bind fun r =>
      let next := (printChunkCounted P q r.1 r.2.1).bind fun q => inlineLoopCounted P n q r.2.2.2
      if r.2.2.1 then .err (lit "detox: warning: stream push back failed\n") next else next

/-- `parse_inline`, file.c:242-426. -/
def parseInlineCounted (P : Platform) (q : Option Sequence) (inFilename : Option Bytes) : Prog (Option Sequence) :=
  .slurp inFilename fun r =>
    match r with
    | none => .err (inFilename.getD [] ++ lit ": ") (.ret q)
    | some s => inlineLoopCounted P s.length q s

/-- One argument in inline mode, detox.c:115-124. -/
def inlineArgCounted (P : Platform) (q : Option Sequence) (file : Bytes) : Prog (Option Sequence) :=
  .lstat file fun r =>
    match r with
    | none => .err (file ++ lit ": ") (.ret q)
    | some st => if st.kind = .dir then .err (file ++ lit ": is a directory\n") (.ret q) else parseInlineCounted P q (some file)

/-- The loop over the arguments in inline mode, detox.c:114-125. -/
def inlineFileLoopCounted (P : Platform) : Nat → Option Sequence → Filelist → Prog (Option Sequence)
  | 0, _, _ => .stuck
  | n + 1, q, l =>
    (Prog.ofRes (filelistGet l)).bind fun p =>
      match p.2 with
      | none => .ret q
      | some file => (inlineArgCounted P q file).bind fun q => inlineFileLoopCounted P n q p.1

/-- The inline branch of `main`, detox.c:112-129. -/
def inlineMainCounted (P : Platform) (q : Option Sequence) (files : Option Filelist) : Prog (Option Sequence) :=
  match files with
  | none => parseInlineCounted P q none
  | some l => if filelistCount (some l) > 0 then inlineFileLoopCounted P (l.count + 1) q l else parseInlineCounted P q none

/-! ### `main` -/

/-- The work, detox.c:88-129. -/
def detoxWorkCounted (P : Platform) (o : Options) (fuel : Nat) : Prog Unit :=
  if o.isInlineMode then (inlineMainCounted P o.sequenceToUse o.files).bind fun _ => .ret ()
  else
    match o.files with
    | none => .ret ()
    | some l => (fileLoopCounted P o fuel (l.count + 1) o.sequenceToUse l o.filesToIgnore).bind fun _ => .ret ()

/-- `main` after the options, detox.c:43-86. -/
def detoxConfiguredCounted (P : Platform) (I : Invocation) (o : Options) (fuel : Nat) : Prog Unit :=
  (configFileLoad I.config o.checkConfigFile).bind fun c =>
    if o.listSequences then
      (Prog.ofRes (dumpConfigFile c o)).bind fun t => .out t (.exit 0)
    else
      match sequenceChooseDefault c.sequences o.sequenceName with
      | none => .err (lit "detox: no sequence to work with\n") (.exit 1)
      | some q =>
        (reviewSequence I.ctype I.datadir q).bind fun q' =>
          detoxWorkCounted P { o with
            filesToIgnore := c.filesToIgnore, sequenceToUse := some q' } fuel

/-- `main`, detox.c:25-132. -/
def detoxMainCounted (P : Platform) (I : Invocation) (fuel : Nat) : Prog Unit :=
  (parseOptions I.program I.args I.sequence I.posixlyCorrect).bind fun o => detoxConfiguredCounted P I o fuel

end Detox
