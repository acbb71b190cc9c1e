import Verif.Model.MemoryLists
import Verif.Model.Inline

/-!
# Filters, files and directories with pointers — `/repo/src/clean_string.c`, `clean_utf_8.c`, `filter.c`, `sequence.c`, `file.c`, `detox.c`

What these functions allocate, free and hand on. What the loops of the filters write into a block is computed by the loops of `Model/Clean.lean`
and `Model/Utf8.lean`, with the size of the block as their bound.

Simplifications: a translation table is read as a whole before the loop of a filter, and the numbers of hits and misses in it stay as they are;
the fields of `options_t` do not change at this stage and are passed as a value, together with the two pointers in it.
-/

set_option autoImplicit false

namespace Detox

namespace Mem

/-- The fields of a `filter_t`. -/
def loadFilter (a : Addr) : Mem (Option Addr × Cleaner × Bool × Nat × Option Addr) := bind (load a) fun b =>
  match b with
  | .filter next cleaner _ _ removeTrailing maxLength table => pure (next, cleaner, removeTrailing, maxLength, table)
  | _ => fault .pointer

/-- The fields of a `sequence_t`. -/
def loadSequence (a : Addr) : Mem (Option Addr × Option Addr × Option Addr × Option Addr) := bind (load a) fun b =>
  match b with
  | .sequence next name filters source => pure (next, name, filters, source)
  | _ => fault .pointer

end Mem

/-! ### The filters -/

/-- A string that may be NULL. -/
def mReadOpt (p : Option Addr) : Mem (Option Bytes) :=
  match p with
  | none => pure none
  | some a => do
    let s ← Mem.text a
    pure (some s)

/-- The rows of a table with their strings. -/
def mReadRows : List (Nat × Option Addr) → Mem (List Row)
  | [] => pure []
  | r :: rs => do
    let d ← mReadOpt r.2
    let vs ← mReadRows rs
    pure (⟨r.1, d⟩ :: vs)

/-- A table with its rows and strings. -/
def mReadTable (t : Addr) : Mem Table := do
  let (rows, dflt, n) ← Mem.loadTable t
  let rs ← Mem.loadRows rows
  let vs ← mReadRows rs
  let d ← mReadOpt dflt
  pure { rows := vs, defaultTranslation := d, used := n.used, maxDataLength := n.maxDataLength, hits := n.hits, misses := n.misses,
         overwrites := n.overwrites, seeks := n.seeks, useHash := n.useHash, builtin := n.builtin, maxKey := n.maxKey }

/-- A filter that writes its result into a new block of `n` bytes: `output = wrapped_malloc(n)`, the loop, `*output_walk = '\0'`. -/
def mEmit (A : Nat → Bool) (n : Nat) (loop : OutBuf → Res OutBuf) : Mem Addr := do
  let output ← wrappedMalloc A (.text n [])
  let r ← Mem.ofRes (do
    let o ← loop (OutBuf.alloc n)
    o.finish)
  Mem.putText output r
  pure output

/-- `clean_iso8859_1`, clean_string.c:29-80. -/
def mCleanIso (A : Nat → Bool) (filename : Addr) (table : Option Addr) : Mem Addr :=
  match table with
  | none => Mem.exit 1
  | some t => do
    let s ← Mem.text filename
    let T ← mReadTable t
    mEmit A (s.length * T.maxDataLength + 1) fun o => cleanIsoLoop T o s

/-- `clean_safe`, clean_string.c:90-133. -/
def mCleanSafe (A : Nat → Bool) (P : Platform) (filename : Addr) (table : Option Addr) : Mem Addr :=
  match table with
  | none => Mem.exit 1
  | some t => do
    let s ← Mem.text filename
    let T ← mReadTable t
    mEmit A (s.length * T.maxDataLength + 1) fun o => cleanSafeLoop P T o s

/-- `clean_utf_8`, clean_utf_8.c:60-206. -/
def mCleanUtf8 (A : Nat → Bool) (filename : Addr) (table : Option Addr) : Mem Addr :=
  match table with
  | none => Mem.exit 1
  | some t => do
    let s ← Mem.text filename
    let T ← mReadTable t
    mEmit A (s.length * T.maxDataLength + 1) fun o => cleanUtf8Loop T s.length o s

/-- `clean_uncgi`, clean_string.c:143-175. -/
def mCleanUncgi (A : Nat → Bool) (P : Platform) (filename : Addr) : Mem Addr := do
  let s ← Mem.text filename
  mEmit A (s.length + 1) fun o => cleanUncgiLoop P s.length o s

/-- `clean_lower`, clean_string.c:318-342. -/
def mCleanLower (A : Nat → Bool) (P : Platform) (filename : Addr) : Mem Addr := do
  let s ← Mem.text filename
  mEmit A (s.length + 1) fun o => cleanLowerLoop P o s

/-- `clean_wipeup`, clean_string.c:194-245. -/
def mCleanWipeup (A : Nat → Bool) (filename : Addr) (removeTrailing : Bool) : Mem Addr := do
  let s ← Mem.text filename
  let s := wipeLead s
  let output ← wrappedMalloc A (.text (s.length + 1) [])
  let search ← wrappedStrdup A (wipeSearch removeTrailing)
  let q ← Mem.text search
  let r ← Mem.ofRes (do
    let o ← cleanWipeupLoop q (OutBuf.alloc (s.length + 1)) none s
    o.finish)
  Mem.putText output r
  Mem.free search
  pure output

/-- `clean_max_length`, clean_string.c:250-309. -/
def mCleanMaxLength (A : Nat → Bool) (P : Platform) (filename : Addr) (maxLength : Nat) : Mem Addr := do
  let s ← Mem.text filename
  let maxLength := if maxLength = 0 then 256 else maxLength
  if s.length ≤ maxLength then wrappedStrdup A s
  else do
    let output ← wrappedMalloc A (.text (maxLength + 1) [])
    Mem.putText output (s.take maxLength)
    match strrchrIdx 0x2E s with
    | none => pure output
    | some ext0 =>
      if (s.drop ext0).length = 1 then pure output
      else do
        let ext ← Mem.ofRes (lookBack P s ext0 ext0)
        let extension := s.drop ext
        if maxLength ≤ extension.length then do
          Mem.free output
          wrappedStrdup A s
        else do
          let t ← Mem.text output
          Mem.putText output (t.take (maxLength - extension.length) ++ extension)
          pure output

/-! ### filter.c and sequence.c -/

/-- `filter_run`, filter.c:194-242, for a filter and a name that are not NULL. -/
def mFilterRun (A : Nat → Bool) (P : Platform) (filter filename : Addr) : Mem Addr := do
  let (_, cleaner, removeTrailing, maxLength, table) ← Mem.loadFilter filter
  match cleaner with
  | .iso8859_1 => mCleanIso A filename table
  | .lower => mCleanLower A P filename
  | .maxLength => mCleanMaxLength A P filename maxLength
  | .safe => mCleanSafe A P filename table
  | .uncgi => mCleanUncgi A P filename
  | .utf8 => mCleanUtf8 A filename table
  | .wipeup => mCleanWipeup A filename removeTrailing

/-- The loop of `sequence_run_filters`, sequence.c:116-121. `work` is never NULL, because no filter returns NULL for a name. The first argument
bounds the iterations. -/
def mRunFilters (A : Nat → Bool) (P : Platform) : Nat → Option Addr → Addr → Mem Addr
  | _, none, work => pure work
  | 0, some _, _ => Mem.stuck
  | n + 1, some filter, work => do
    let hold ← mFilterRun A P filter work
    Mem.free work
    let (next, _) ← Mem.loadFilter filter
    mRunFilters A P n next hold

/-- `sequence_run_filters`, sequence.c:98-124. -/
def mSequenceRunFilters (A : Nat → Bool) (P : Platform) (sequence filename : Option Addr) : Mem (Option Addr) :=
  match sequence with
  | none => Mem.exit 1
  | some q =>
    match filename with
    | none => pure none
    | some f => do
      let (_, _, filters, _) ← Mem.loadSequence q
      let s ← Mem.text f
      let work ← wrappedStrdup A s
      let n ← Mem.size
      let r ← mRunFilters A P n filters work
      pure (some r)

/-! ### file.c -/

/-- The comparing loop of `ignore_file`, file.c:41-45. The first argument bounds the iterations. -/
def mIgnoreLoop (filename : Bytes) (list : Option Addr) : Nat → Mem Bool
  | 0 => Mem.stuck
  | n + 1 => do
    let p ← mFilelistGet list
    match p with
    | none => pure false
    | some a => do
      let w ← Mem.text a
      if filename = w then pure true else mIgnoreLoop filename list n

/-- `ignore_file`, file.c:33-48. The name is `dir_entry->d_name`, which is not on the heap. -/
def mIgnoreFile (filename : Bytes) (list : Option Addr) : Mem Bool :=
  if filename.head? = some 0x2E then pure true
  else do
    let n ← mFilelistCount list
    mIgnoreLoop filename list (n + 1)

/-- `parse_file` after the new name has been checked, file.c:142-160. -/
def mAnnounceAndRename (o : Options) (oldFilename newFilename : Addr) : Mem Addr := do
  let old ← Mem.text oldFilename
  let new ← Mem.text newFilename
  if o.verbose ≠ 0 || o.dryRun then Mem.out (old ++ lit " -> " ++ new ++ [0x0A]) else pure ()
  if o.dryRun then do
    Mem.free newFilename
    pure oldFilename
  else do
    let ok ← Mem.rename old new
    if ok then do
      Mem.free oldFilename
      pure newFilename
    else do
      Mem.err (lit "Cannot rename " ++ old ++ lit " to " ++ new ++ lit ": ")
      Mem.free newFilename
      pure oldFilename

/-- `parse_file` from the two `lstat` calls on, file.c:124-160. -/
def mCheckAndRename (o : Options) (oldFilename newFilename : Addr) : Mem Addr := do
  let old ← Mem.text oldFilename
  let r ← Mem.lstat old
  match r with
  | none => do
    Mem.free newFilename
    pure oldFilename
  | some so => do
    let new ← Mem.text newFilename
    let rn ← Mem.lstat new
    if isTaken so rn then do
      Mem.err (lit "Cannot rename " ++ old ++ lit " to " ++ new ++ lit ": file already exists\n")
      Mem.free newFilename
      pure oldFilename
    else mAnnounceAndRename o oldFilename newFilename

/-- `parse_file`, file.c:69-161. A name that is protected, or that the filters leave as it is, is not freed (lines 97-99 and 112-115). -/
def mParseFile (A : Nat → Bool) (P : Platform) (o : Options) (sequence : Option Addr) (filename : Addr) : Mem Addr := do
  let s ← Mem.text filename
  let oldFilename ← wrappedMalloc A (.text (s.length + 1) [])
  Mem.putText oldFilename s
  let work ← wrappedStrdup A (basePart s)
  let name ← Mem.text work
  let work := if isProtected name then none else some work
  let hold ← mSequenceRunFilters A P sequence work
  Mem.freeOpt work
  match hold with
  | none => pure oldFilename
  | some w => do
    let t ← Mem.text w
    let old ← Mem.text oldFilename
    if basePart old = t then pure oldFilename
    else do
      let newFilename ← wrappedMalloc A (.text ((dirPart old).length + t.length + 1) [])
      Mem.putText newFilename (dirPart old ++ t)
      Mem.free w
      mCheckAndRename o oldFilename newFilename

/-- The loop of `parse_dir`, file.c:205-231. Compare `dirLoop`. -/
def mDirLoop (A : Nat → Bool) (P : Platform) (o : Options) (sequence ignore : Option Addr) (recDir : Addr → Mem Unit) (handle : Nat)
    (filename newFile : Addr) : Nat → Stat → Mem Unit
  | 0, _ => Mem.stuck
  | m + 1, st => do
    let e ← Mem.readdir handle
    match e with
    | none => Mem.closedir handle
    | some name => do
      let ignored ← mIgnoreFile name ignore
      if ignored then mDirLoop A P o sequence ignore recDir handle filename newFile m st
      else do
        let dir ← Mem.text filename
        Mem.putText newFile ((dir ++ [0x2F] ++ name).take (dir.length + 1023))
        let path ← Mem.text newFile
        let r ← Mem.lstat path
        let st' := r.getD st
        if st'.kind = .dir then do
          let work ← mParseFile A P o sequence newFile
          if o.recurse then recDir work else pure ()
          Mem.free work
          mDirLoop A P o sequence ignore recDir handle filename newFile m st'
        else if st'.kind = .reg || o.special then do
          let work ← mParseFile A P o sequence newFile
          Mem.free work
          mDirLoop A P o sequence ignore recDir handle filename newFile m st'
        else mDirLoop A P o sequence ignore recDir handle filename newFile m st'

/-- `parse_dir`, file.c:166-232. `new_file` is freed only if the directory cannot be opened. -/
def mParseDir (A : Nat → Bool) (P : Platform) (o : Options) (sequence ignore : Option Addr) : Nat → Addr → Mem Unit
  | 0, _ => Mem.stuck
  | n + 1, filename => do
    let dir ← Mem.text filename
    let r ← Mem.lstat dir
    match r with
    | none => pure ()
    | some st =>
      if st.kind ≠ .dir then pure ()
      else do
        let newFile ← wrappedMalloc A (.text (dir.length + 1024) [])
        let d ← Mem.opendir dir
        match d with
        | .ok h => mDirLoop A P o sequence ignore (mParseDir A P o sequence ignore n) h filename newFile n st
        | .fail => do
          Mem.err (lit "unable to parse: ")
          Mem.free newFile
        | .emfile => do
          Mem.err (lit "unable to parse: ")
          Mem.free newFile
          Mem.exit 1

/-- One round of the loop of `parse_inline` from line 390 on, file.c:390-416. `base` holds the chunk; a chunk that is protected is not freed
(lines 393-395). -/
def mPrintChunk (A : Nat → Bool) (P : Platform) (sequence : Option Addr) (base : Addr) (newline : Bool) : Mem Unit := do
  let text ← Mem.text base
  let work ← wrappedStrdup A text
  let name ← Mem.text work
  let work := if isProtected name then none else some work
  let hold ← mSequenceRunFilters A P sequence work
  Mem.freeOpt work
  match hold with
  | some w => do
    let t ← Mem.text w
    Mem.out t
    Mem.free w
  | none => do
    let t ← Mem.text base
    Mem.out t
  if newline then Mem.out [0x0A] else pure ()

/-- The loop of `parse_inline`, file.c:279-417. Compare `inlineLoop`. -/
def mInlineLoop (A : Nat → Bool) (P : Platform) (sequence : Option Addr) (base : Addr) : Nat → Bytes → Mem Unit
  | _, [] => pure ()
  | 0, _ :: _ => Mem.stuck
  | n + 1, c :: s => do
    let r ← Mem.ofRes (nextChunk P (c :: s))
    Mem.putText base r.1
    if r.2.2.1 then Mem.err (lit "detox: warning: stream push back failed\n") else pure ()
    mPrintChunk A P sequence base r.2.1
    mInlineLoop A P sequence base n r.2.2.2

/-- `parse_inline`, file.c:242-426. `base` is never freed. -/
def mParseInline (A : Nat → Bool) (P : Platform) (sequence : Option Addr) (inFilename : Option Addr) : Mem Unit := do
  let f ← mReadOpt inFilename
  let r ← Mem.slurp f
  match r with
  | none => Mem.err (f.getD [] ++ lit ": ")
  | some s => do
    let base ← wrappedMalloc A (.text inlineBufSize [])
    mInlineLoop A P sequence base s.length s

/-! ### detox.c -/

/-- One command line argument, detox.c:93-110. The result of parse_file is freed for a directory only. -/
def mProcessArg (A : Nat → Bool) (P : Platform) (o : Options) (sequence ignore : Option Addr) (fuel : Nat) (file : Addr) : Mem Unit := do
  let f ← Mem.text file
  if o.verbose ≠ 0 then Mem.out (lit "Scanning: " ++ f ++ [0x0A]) else pure ()
  let r ← Mem.lstat f
  match r with
  | none => Mem.err (f ++ lit ": ")
  | some st =>
    if st.kind = .dir then do
      let work ← mParseFile A P o sequence file
      mParseDir A P o sequence ignore fuel work
      Mem.free work
    else if st.kind = .reg then do
      let _ ← mParseFile A P o sequence file
      pure ()
    else if o.special then do
      let _ ← mParseFile A P o sequence file
      pure ()
    else pure ()

/-- The loop over the arguments, detox.c:92-111. The first argument bounds the iterations. -/
def mFileLoop (A : Nat → Bool) (P : Platform) (o : Options) (sequence ignore files : Option Addr) (fuel : Nat) : Nat → Mem Unit
  | 0 => Mem.stuck
  | n + 1 => do
    let p ← mFilelistGet files
    match p with
    | none => pure ()
    | some file => do
      mProcessArg A P o sequence ignore fuel file
      mFileLoop A P o sequence ignore files fuel n

/-- One argument in inline mode, detox.c:115-124. -/
def mInlineArg (A : Nat → Bool) (P : Platform) (sequence : Option Addr) (file : Addr) : Mem Unit := do
  let f ← Mem.text file
  let r ← Mem.lstat f
  match r with
  | none => Mem.err (f ++ lit ": ")
  | some st => if st.kind = .dir then Mem.err (f ++ lit ": is a directory\n") else mParseInline A P sequence (some file)

/-- The loop over the arguments in inline mode, detox.c:114-125. -/
def mInlineFileLoop (A : Nat → Bool) (P : Platform) (sequence files : Option Addr) : Nat → Mem Unit
  | 0 => Mem.stuck
  | n + 1 => do
    let p ← mFilelistGet files
    match p with
    | none => pure ()
    | some file => do
      mInlineArg A P sequence file
      mInlineFileLoop A P sequence files n

/-- The work, detox.c:88-129. -/
def mDetoxWork (A : Nat → Bool) (P : Platform) (o : Options) (sequence ignore files : Option Addr) (fuel : Nat) : Mem Unit := do
  let n ← mFilelistCount files
  if o.isInlineMode then
    if n > 0 then mInlineFileLoop A P sequence files (n + 1) else mParseInline A P sequence none
  else mFileLoop A P o sequence ignore files fuel (n + 1)

end Detox
