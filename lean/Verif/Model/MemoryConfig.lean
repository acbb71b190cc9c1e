import Verif.Model.MemoryTables

/-!
# Config files with pointers — `/repo/src/config_file_lex.l`, `/repo/src/config_file_yacc.y`, `/repo/src/config_file.c`,
`/repo/src/config_file_spoof.c`, `/repo/src/config_file_dump.c`

The scanner copies strings with `strdup`, whose result it does not check; every other allocation goes through `wrapped.c`. So there are two
allocators: `A` for `wrapped.c`, and `S` for the `strdup` of the scanner.

Simplifications: the static variables of the parser are passed along; `current_name` starts as NULL for every file, because it is set before it
is used; the text that `dump_config_file` prints is put together first.
-/

set_option autoImplicit false

namespace Detox

/-! ### Strings -/

/-- A `char *` that is a string literal or comes from the environment, or points to the heap. -/
inductive CString where
  | fixed (s : Bytes)
  | heap (a : Addr)
  deriving DecidableEq, Repr

/-- The characters of such a string. -/
def Mem.chars : CString → Mem Bytes
  | .fixed s => pure s
  | .heap a => Mem.text a

/-- `strdup`: NULL if there is no memory. `S n` says whether it succeeds as the n-th allocation. -/
def mStrdup (S : Nat → Bool) (s : Bytes) : Mem (Option Addr) := fun h =>
  if S h.length then .ret (.ok (some h.length, h ++ [some (.text (s.length + 1) s)])) else .ret (.ok (none, h))

/-! ### Fields -/

/-- `sequence->next = p` -/
def Block.setSeqNext (p : Option Addr) : Block → Option Block
  | .sequence _ nm fl src => some (.sequence p nm fl src)
  | _ => none

/-- `sequence->name = p` -/
def Block.setSeqName (p : Option Addr) : Block → Option Block
  | .sequence next _ fl src => some (.sequence next p fl src)
  | _ => none

/-- `sequence->filters = p` -/
def Block.setSeqFilters (p : Option Addr) : Block → Option Block
  | .sequence next nm _ src => some (.sequence next nm p src)
  | _ => none

/-- `sequence->source_filename = p` -/
def Block.setSeqSource (p : Option Addr) : Block → Option Block
  | .sequence next nm fl _ => some (.sequence next nm fl p)
  | _ => none

/-- `config_file->sequences = p` -/
def Block.setSequences (p : Option Addr) : Block → Option Block
  | .config _ ign => some (.config p ign)
  | _ => none

/-- `config_file->files_to_ignore = p` -/
def Block.setIgnore (p : Option Addr) : Block → Option Block
  | .config seqs _ => some (.config seqs p)
  | _ => none

/-- The fields of a `config_file_t`. -/
def Mem.loadConfig (a : Addr) : Mem (Option Addr × Option Addr) := Mem.bind (Mem.load a) fun b =>
  match b with
  | .config sequences ignore => pure (sequences, ignore)
  | _ => Mem.fault .pointer

/-! ### The grammar

What the parser does does not depend on what a string is; `σ` is the type of the values of `ID` and `QSTRING`. -/

/-- The tokens, config_file_yacc.y:43-67. -/
inductive TokOf (σ : Type) where
  | kw (k : Kw)
  | opn | cls | eol
  | nvalue (n : Nat)
  | str (s : σ)

/-- What the parser has seen of the current rule. Compare `Phase`. -/
inductive PhaseOf (σ : Type) where
  | top
  | seqKw | seqName (s : σ)
  | seqOpen | seqList | seqClose
  | plain (c : Cleaner)
  | tab (m : Tabled) | tabOpen (m : Tabled) | tabOpt (m : Tabled) (b : Bool) | tabStr (m : Tabled) (b : Bool) (s : σ)
  | tabEol (m : Tabled) (b : Bool) (s : σ)
  | wipe | wipeOpen | wipeOpt | wipeEol
  | maxl | maxlOpen | maxlOpt | maxlVal (n : Nat) | maxlEol (n : Nat)
  | methodEnd
  | ignKw | ignOpen | ignList | ignFile | ignStr (s : σ) | ignClose

/-- Between rules. -/
def PhaseOf.isTop {σ : Type} : PhaseOf σ → Bool
  | .top => true
  | _ => false

/-- The actions of the grammar. -/
inductive ActOf (σ : Type) where
  | none
  /-- `current_name = $2` -/
  | name (s : σ)
  /-- `cf_append_filter(cleaner, builtin, filename, max_length, remove_trailing)`; `none` is the NULL in the grammar -/
  | filter (c : Cleaner) (builtin filename : Option σ) (maxLength : Nat) (removeTrailing : Bool)
  /-- `cf_append_sequence_list()` -/
  | sequence
  /-- `cf_append_ignore_entry($2)` -/
  | ignore (s : σ)

/-- One token, config_file_yacc.y:73-173; `none` is a syntax error. Compare `cfStep`. -/
def grammarStep {σ : Type} (p : PhaseOf σ) (t : TokOf σ) : Option (PhaseOf σ × ActOf σ) :=
  match p, t with
  | .top, .kw .sequence => some (.seqKw, .none)
  | .top, .kw .ignore => some (.ignKw, .none)
  | .seqKw, .str s => some (.seqName s, .none)
  | .seqName s, .opn => some (.seqOpen, .name s)
  | .seqOpen, .kw .uncgi => some (.plain .uncgi, .none)
  | .seqOpen, .kw .lower => some (.plain .lower, .none)
  | .seqOpen, .kw .wipeup => some (.wipe, .none)
  | .seqOpen, .kw .iso8859_1 => some (.tab .iso8859_1, .none)
  | .seqOpen, .kw .utf8 => some (.tab .utf8, .none)
  | .seqOpen, .kw .safe => some (.tab .safe, .none)
  | .seqOpen, .kw .maxLength => some (.maxl, .none)
  | .seqList, .kw .uncgi => some (.plain .uncgi, .none)
  | .seqList, .kw .lower => some (.plain .lower, .none)
  | .seqList, .kw .wipeup => some (.wipe, .none)
  | .seqList, .kw .iso8859_1 => some (.tab .iso8859_1, .none)
  | .seqList, .kw .utf8 => some (.tab .utf8, .none)
  | .seqList, .kw .safe => some (.tab .safe, .none)
  | .seqList, .kw .maxLength => some (.maxl, .none)
  | .seqList, .cls => some (.seqClose, .none)
  | .seqClose, .eol => some (.top, .sequence)
  | .plain c, .eol => some (.seqList, .filter c none none 0 false)
  | .tab m, .eol => some (.seqList, .filter m.cleaner none none 0 false)
  | .tab m, .opn => some (.tabOpen m, .none)
  | .tabOpen m, .cls => some (.methodEnd, .filter m.cleaner none none 0 false)
  | .tabOpen m, .kw .filename => some (.tabOpt m false, .none)
  | .tabOpen m, .kw .builtin => some (.tabOpt m true, .none)
  | .tabOpt m b, .str s => some (.tabStr m b s, .none)
  | .tabStr m b s, .eol => some (.tabEol m b s, .none)
  | .tabEol m true s, .cls => some (.methodEnd, .filter m.cleaner (some s) none 0 false)
  | .tabEol m false s, .cls => some (.methodEnd, .filter m.cleaner none (some s) 0 false)
  | .wipe, .eol => some (.seqList, .filter .wipeup none none 0 false)
  | .wipe, .opn => some (.wipeOpen, .none)
  | .wipeOpen, .cls => some (.methodEnd, .filter .wipeup none none 0 false)
  | .wipeOpen, .kw .removeTrailing => some (.wipeOpt, .none)
  | .wipeOpt, .eol => some (.wipeEol, .none)
  | .wipeEol, .cls => some (.methodEnd, .filter .wipeup none none 0 true)
  | .maxl, .eol => some (.seqList, .filter .maxLength none none 0 false)
  | .maxl, .opn => some (.maxlOpen, .none)
  | .maxlOpen, .cls => some (.methodEnd, .filter .maxLength none none 0 false)
  | .maxlOpen, .kw .length => some (.maxlOpt, .none)
  | .maxlOpt, .nvalue n => some (.maxlVal n, .none)
  | .maxlVal n, .eol => some (.maxlEol n, .none)
  | .maxlEol n, .cls => some (.methodEnd, .filter .maxLength none none n false)
  | .methodEnd, .eol => some (.seqList, .none)
  | .ignKw, .opn => some (.ignOpen, .none)
  | .ignOpen, .kw .filename => some (.ignFile, .none)
  | .ignList, .kw .filename => some (.ignFile, .none)
  | .ignList, .cls => some (.ignClose, .none)
  | .ignFile, .str s => some (.ignStr s, .none)
  | .ignStr s, .eol => some (.ignList, .ignore s)
  | .ignClose, .eol => some (.top, .none)
  | _, _ => none

/-! ### config_file_yacc.y -/

/-- The static variables, config_file_yacc.y:27-31, and where the parser is. The value of a string is a pointer. -/
structure CfVars where
  phase : PhaseOf (Option Addr) := .top
  name : Option Addr := none
  filterRet : Option Addr := none
  filterCurrent : Option Addr := none
  sequenceRet : Option Addr := none
  sequenceCurrent : Option Addr := none
  ignore : Option Addr := none

/-- `sequence_init`, sequence.c:56-66. -/
def mSequenceInit (A : Nat → Bool) (name : Bytes) : Mem Addr := do
  let ret ← wrappedMalloc A (.sequence none none none none)
  let nm ← wrappedStrdup A name
  Mem.update ret (Block.setSeqName (some nm))
  pure ret

/-- The new filter, config_file_yacc.y:327-332. -/
def mNewFilter (A : Nat → Bool) (c : Cleaner) (builtin filename : Option Addr) (maxLength : Nat) (removeTrailing : Bool) : Mem Addr := do
  let work ← mFilterInit A c
  let b ← strdupOpt A builtin
  Mem.update work (Block.setBuiltin b)
  let f ← strdupOpt A filename
  Mem.update work (Block.setFilename f)
  Mem.update work (Block.setMaxLength maxLength)
  Mem.update work (Block.setRemoveTrailing removeTrailing)
  pure work

/-- `cf_append_filter`, config_file_yacc.y:324-341. -/
def mCfAppendFilter (A : Nat → Bool) (v : CfVars) (c : Cleaner) (builtin filename : Option Addr) (maxLength : Nat) (removeTrailing : Bool) :
    Mem CfVars := do
  let work ← mNewFilter A c builtin filename maxLength removeTrailing
  match v.filterRet with
  | none => pure { v with filterRet := some work, filterCurrent := some work }
  | some _ => do
    let cur ← Mem.deref v.filterCurrent
    Mem.update cur (Block.setNext (some work))
    pure { v with filterCurrent := some work }

/-- The search of `cf_append_sequence_list`, config_file_yacc.y:282-292, and of `sequence_choose_default`, sequence.c:33-40. The first argument
bounds the iterations. -/
def mFindSequence (name : Bytes) : Nat → Option Addr → Mem (Option Addr)
  | _, none => pure none
  | 0, some _ => Mem.stuck
  | n + 1, some work => do
    let (next, nm, _, _) ← Mem.loadSequence work
    let a ← Mem.deref nm
    let s ← Mem.text a
    if s = name then pure (some work) else mFindSequence name n next

/-- The sequence to fill, config_file_yacc.y:279-314: the one of that name, or a new one at the end. -/
def mSequenceFor (A : Nat → Bool) (v : CfVars) (name : Bytes) : Mem (Addr × CfVars) := do
  let n ← Mem.size
  let found ← mFindSequence name n v.sequenceRet
  match found with
  | some w => pure (w, v)
  | none => do
    let w ← mSequenceInit A name
    match v.sequenceRet with
    | none => pure (w, { v with sequenceRet := some w, sequenceCurrent := some w })
    | some _ => do
      let cur ← Mem.deref v.sequenceCurrent
      Mem.update cur (Block.setSeqNext (some w))
      pure (w, { v with sequenceCurrent := some w })

/-- `cf_append_sequence_list`, config_file_yacc.y:273-321. What the sequence had before is not freed. -/
def mCfAppendSequenceList (A : Nat → Bool) (file : CString) (v : CfVars) : Mem CfVars := do
  let name ← match v.name with
    | some a => pure a
    | none => wrappedStrdup A (lit "default")
  let s ← Mem.text name
  let (work, v) ← mSequenceFor A { v with name := some name } s
  Mem.update work (Block.setSeqFilters v.filterRet)
  let f ← Mem.chars file
  let src ← wrappedStrdup A f
  Mem.update work (Block.setSeqSource (some src))
  pure { v with filterRet := none, filterCurrent := none }

/-- `cf_append_ignore_entry`, config_file_yacc.y:344-346. -/
def mCfAppendIgnoreEntry (A : Nat → Bool) (v : CfVars) (str : Option Addr) : Mem CfVars := do
  let a ← Mem.deref str
  let s ← Mem.text a
  mFilelistPut A v.ignore s
  pure v

/-- The action of a rule. -/
def mCfAct (A : Nat → Bool) (file : CString) (v : CfVars) : ActOf (Option Addr) → Mem CfVars
  | .none => pure v
  | .name s => pure { v with name := s }
  | .filter c builtin filename maxLength removeTrailing => mCfAppendFilter A v c builtin.join filename.join maxLength removeTrailing
  | .sequence => mCfAppendSequenceList A file v
  | .ignore s => mCfAppendIgnoreEntry A v s

/-- A token with its value, config_file_lex.l:22-66. A quoted string is copied with its closing quote, which is then overwritten (lines 45-54); the
place of the quote is looked at without a check for NULL. -/
def mToken (S : Nat → Bool) (t : Tok) (unterminated : Bool) : Mem (TokOf (Option Addr)) :=
  match t with
  | .kw k => pure (.kw k)
  | .opn => pure .opn
  | .cls => pure .cls
  | .eol => pure .eol
  | .nvalue n => pure (.nvalue n)
  | .ident s => do
    let p ← mStrdup S s
    pure (.str p)
  | .qstring s => do
    let p ← mStrdup S (if unterminated then s else s ++ [0x22])
    let a ← Mem.deref p
    let u ← Mem.text a
    if unterminated then pure (.str p)
    else do
      Mem.putText a u.dropLast
      pure (.str p)

/-- `yyerror`, config_file_yacc.y:257-270. -/
def mYyerror {α : Type} (file : CString) (w : Bytes) (line : Nat) : Mem α := do
  let f ← Mem.chars file
  Mem.err (yyerrorText f w line)
  Mem.exit 1

/-- `yyparse` on the tokens of a file; `last` is the line at the end. Compare `cfRun` and `cfBlame`. -/
def mCfRun (A S : Nat → Bool) (file : CString) (last : Nat) : List Located → CfVars → Mem CfVars
  | [], v => if v.phase.isTop then pure v else mYyerror file [] last
  | { item := .ub u, text := _, line := _ } :: _, _ => Mem.ofRes (.ub u)
  | { item := .tok t un, text := w, line := n } :: rest, v => do
    let tok ← mToken S t un
    if un then Mem.out (lit "Unterminated character string\n") else pure ()
    match grammarStep v.phase tok with
    | none => mYyerror file w n
    | some (p, act) => do
      let v' ← mCfAct A file v act
      mCfRun A S file last rest { v' with phase := p }

/-- `config_file_init`, config_file.c:20-29. -/
def mConfigFileInit (A : Nat → Bool) : Mem Addr := wrappedMalloc A (.config none none)

/-- The walk to the last sequence, config_file_yacc.y:214-219. The first argument bounds the iterations. -/
def mLastSequence : Nat → Addr → Mem Addr
  | 0, _ => Mem.stuck
  | n + 1, cur => do
    let (next, _, _, _) ← Mem.loadSequence cur
    match next with
    | none => pure cur
    | some a => mLastSequence n a

/-- `sequence_ret` and `sequence_current` at the start, config_file_yacc.y:205-219. -/
def mStartSequences (previous : Option Addr) : Mem (Option Addr × Option Addr) :=
  match previous with
  | none => pure (none, none)
  | some c => do
    let (seqs, _) ← Mem.loadConfig c
    match seqs with
    | none => pure (none, none)
    | some q => do
      let n ← Mem.size
      let last ← mLastSequence n q
      pure (some q, some last)

/-- A new list of names to ignore, config_file_yacc.y:229. -/
def mNewIgnore (A : Nat → Bool) : Mem (Option Addr) := do
  let l ← mFilelistInit A
  pure (some l)

/-- `files_to_ignore` at the start, config_file_yacc.y:226-230. An empty list is left behind. -/
def mStartIgnore (A : Nat → Bool) (previous : Option Addr) : Mem (Option Addr) :=
  match previous with
  | none => mNewIgnore A
  | some c => do
    let (_, ign) ← Mem.loadConfig c
    let k ← mFilelistCount ign
    if k > 0 then pure ign else mNewIgnore A

/-- The results so far, or new ones, config_file_yacc.y:199-204. -/
def mResults (A : Nat → Bool) (previous : Option Addr) : Mem Addr :=
  match previous with
  | some c => pure c
  | none => mConfigFileInit A

/-- `parse_config_file`, config_file_yacc.y:180-255. Compare `parseConfigFile`. -/
def mParseConfigFile (A S : Nat → Bool) (file : CString) (before : Option Addr × Nat) : Mem (Option Addr × Nat) := do
  let f ← Mem.chars file
  let r ← Mem.slurp (some f)
  match r with
  | none => pure before
  | some text => do
    let ret ← mResults A before.1
    let q ← mStartSequences before.1
    let ign ← mStartIgnore A before.1
    let ls := locateAll text.length before.2 text
    let v ← mCfRun A S file ls.2 ls.1 { sequenceRet := q.1, sequenceCurrent := q.2, ignore := ign }
    Mem.update ret (Block.setSequences v.sequenceRet)
    Mem.update ret (Block.setIgnore v.ignore)
    pure (some ret, ls.2)

/-! ### config_file_spoof.c -/

/-- `generate_builtin_filter`, config_file_spoof.c:26-32. -/
def mGenerateBuiltinFilter (A : Nat → Bool) (c : Cleaner) (b : Bytes) : Mem Addr := do
  let f ← mFilterInit A c
  let s ← wrappedStrdup A b
  Mem.update f (Block.setBuiltin (some s))
  pure f

/-- `generate_filter`, config_file_spoof.c:39-47; for `FILTER_SAFE` it does the same as `generate_builtin_filter`. -/
def mGenerateFilter (A : Nat → Bool) (c : Cleaner) : Mem Addr :=
  match c with
  | .safe => mGenerateBuiltinFilter A .safe (lit "safe")
  | c => mFilterInit A c

/-- `generate_sequence`, config_file_spoof.c:56-62. -/
def mGenerateSequence (A : Nat → Bool) (name : Bytes) : Mem Addr := do
  let q ← mSequenceInit A name
  let s ← wrappedStrdup A (lit "built-in config file")
  Mem.update q (Block.setSeqSource (some s))
  pure q

/-- `generate_wipeup_filter`, config_file_spoof.c:71-77. -/
def mGenerateWipeupFilter (A : Nat → Bool) (removeTrailing : Bool) : Mem Addr := do
  let f ← mFilterInit A .wipeup
  Mem.update f (Block.setRemoveTrailing removeTrailing)
  pure f

/-- `sequence = sequence->next = generate_sequence(name)`. -/
def mNextSequence (A : Nat → Bool) (sequence : Addr) (name : Bytes) : Mem Addr := do
  let q ← mGenerateSequence A name
  Mem.update sequence (Block.setSeqNext (some q))
  pure q

/-- The sequences, config_file_spoof.c:98-147. -/
def mSpoofSequences (A : Nat → Bool) (ret : Addr) (safeWipeupFilter : Addr) : Mem Unit := do
  let sequence ← mGenerateSequence A (lit "default")
  Mem.update ret (Block.setSequences (some sequence))
  Mem.update sequence (Block.setSeqFilters (some safeWipeupFilter))
  -- iso8859_1
  let sequence ← mNextSequence A sequence (lit "iso8859_1")
  let filter ← mGenerateBuiltinFilter A .iso8859_1 (lit "iso8859_1")
  Mem.update sequence (Block.setSeqFilters (some filter))
  Mem.update filter (Block.setNext (some safeWipeupFilter))
  -- iso8859_1-legacy
  let sequence ← mNextSequence A sequence (lit "iso8859_1-legacy")
  let filter ← mGenerateBuiltinFilter A .iso8859_1 (lit "cp1252")
  Mem.update sequence (Block.setSeqFilters (some filter))
  let filter' ← mGenerateBuiltinFilter A .iso8859_1 (lit "iso8859_1")
  Mem.update filter (Block.setNext (some filter'))
  Mem.update filter' (Block.setNext (some safeWipeupFilter))
  -- utf_8
  let sequence ← mNextSequence A sequence (lit "utf_8")
  let filter ← mGenerateBuiltinFilter A .utf8 (lit "unicode")
  Mem.update sequence (Block.setSeqFilters (some filter))
  Mem.update filter (Block.setNext (some safeWipeupFilter))
  -- uncgi
  let sequence ← mNextSequence A sequence (lit "uncgi")
  let filter ← mGenerateFilter A .uncgi
  Mem.update sequence (Block.setSeqFilters (some filter))
  Mem.update filter (Block.setNext (some safeWipeupFilter))
  -- lower
  let sequence ← mNextSequence A sequence (lit "lower")
  let filter ← mGenerateFilter A .safe
  Mem.update sequence (Block.setSeqFilters (some filter))
  let filter' ← mGenerateFilter A .lower
  Mem.update filter (Block.setNext (some filter'))
  let filter'' ← mGenerateWipeupFilter A true
  Mem.update filter' (Block.setNext (some filter''))
  -- iso8859_1-only
  let sequence ← mNextSequence A sequence (lit "iso8859_1-only")
  let filter ← mGenerateBuiltinFilter A .iso8859_1 (lit "iso8859_1")
  Mem.update sequence (Block.setSeqFilters (some filter))
  -- cp1252-only
  let sequence ← mNextSequence A sequence (lit "cp1252-only")
  let filter ← mGenerateBuiltinFilter A .iso8859_1 (lit "cp1252")
  Mem.update sequence (Block.setSeqFilters (some filter))
  -- utf_8-only
  let sequence ← mNextSequence A sequence (lit "utf_8-only")
  let filter ← mGenerateBuiltinFilter A .utf8 (lit "unicode")
  Mem.update sequence (Block.setSeqFilters (some filter))
  -- uncgi-only
  let sequence ← mNextSequence A sequence (lit "uncgi-only")
  let filter ← mGenerateFilter A .uncgi
  Mem.update sequence (Block.setSeqFilters (some filter))
  -- lower-only
  let sequence ← mNextSequence A sequence (lit "lower-only")
  let filter ← mGenerateFilter A .lower
  Mem.update sequence (Block.setSeqFilters (some filter))

/-- `spoof_config_file`, config_file_spoof.c:84-154. -/
def mSpoofConfigFile (A : Nat → Bool) : Mem Addr := do
  let safeWipeupFilter ← mGenerateFilter A .safe
  let w ← mGenerateWipeupFilter A true
  Mem.update safeWipeupFilter (Block.setNext (some w))
  let ret ← mConfigFileInit A
  mSpoofSequences A ret safeWipeupFilter
  let l ← mFilelistInit A
  Mem.update ret (Block.setIgnore (some l))
  mFilelistPut A (some l) (lit "{arch}")
  pure ret

/-! ### config_file.c -/

/-- `snprintf` into the buffer of `MAX_PATH_LEN` bytes, the test, and `parse_config_file`; lines 59-62, 75-78, 83-86. -/
def mTryConfig (A S : Nat → Bool) (buffer : Addr) (path : Bytes) (before : Option Addr × Nat) : Mem (Option Addr × Nat) := do
  Mem.putText buffer (path.take (maxPathLen - 1))
  if path.length < maxPathLen then mParseConfigFile A S (.heap buffer) before else pure before

/-- A file whose directory may not be known, config_file.c:58-63, 73-87. -/
def mOptConfig (A S : Nat → Bool) (buffer : Addr) (dir : Option Bytes) (name : Bytes) (before : Option Addr × Nat) : Mem (Option Addr × Nat) :=
  match dir with
  | some d => mTryConfig A S buffer (d ++ name) before
  | none => pure before

/-- A file that is read only if there was none before, config_file.c:65-71. -/
def mElseConfig (A S : Nat → Bool) (file : Bytes) (before : Option Addr × Nat) : Mem (Option Addr × Nat) :=
  match before.1 with
  | some c => pure (some c, before.2)
  | none => mParseConfigFile A S (.fixed file) (none, before.2)

/-- The built-in configuration if no file was read, config_file.c:89-91. -/
def mElseSpoof (A : Nat → Bool) (c : Option Addr) : Mem Addr :=
  match c with
  | some c => pure c
  | none => mSpoofConfigFile A

/-- `config_file_load`, config_file.c:38-97. The copy of the name given with `-f` is not freed. -/
def mConfigFileLoad (A S : Nat → Bool) (E : ConfigEnv) (check : Option Addr) : Mem Addr :=
  match check with
  | some f => do
    let s ← Mem.text f
    let copy ← wrappedStrdup A s
    let r ← mParseConfigFile A S (.heap copy) (none, 1)
    match r.1 with
    | some c => pure c
    | none => do
      let s ← Mem.text copy
      Mem.err (lit "detox: unable to open: " ++ s ++ lit "\n")
      Mem.exit 1
  | none => do
    let buffer ← wrappedMalloc A (.text maxPathLen [])
    let c1 ← mOptConfig A S buffer E.sysconfdir (lit "/detoxrc") (none, 1)
    let c2 ← mElseConfig A S (lit "/etc/detoxrc") c1
    let c3 ← mElseConfig A S (lit "/usr/local/etc/detoxrc") c2
    let c4 ← mOptConfig A S buffer E.home (lit "/.detoxrc") c3
    let c5 ← mOptConfig A S buffer E.xdg (lit "/detox/detoxrc") c4
    let c ← mElseSpoof A c5.1
    Mem.free buffer
    pure c

/-! ### sequence.c -/

/-- `sequence_choose_default`, sequence.c:28-54. -/
def mSequenceChooseDefault (sequences : Option Addr) (name : Option Bytes) : Mem (Option Addr) := do
  let n ← Mem.size
  let which ← mFindSequence (name.getD (lit "default")) n sequences
  match which, name with
  | none, none => pure sequences
  | _, _ => pure which

/-! ### config_file_dump.c -/

/-- The filters of a sequence, without their tables. The first argument bounds the iterations. -/
def mReadFilters : Nat → Option Addr → Mem (List Filter)
  | _, none => pure []
  | 0, some _ => Mem.stuck
  | n + 1, some filter => do
    let (next, cleaner, rt, ml, _) ← Mem.loadFilter filter
    let (_, fn, bi) ← Mem.loadFilterNames filter
    let f ← mReadOpt fn
    let b ← mReadOpt bi
    let rest ← mReadFilters n next
    pure ({ cleaner := cleaner, filename := f, builtin := b, removeTrailing := rt, maxLength := ml } :: rest)

/-- The loop over the sequences, config_file_dump.c:30-73. `chosen` is `main_options->sequence_to_use`. The first argument bounds the
iterations. -/
def mDumpSequences (verbose : Bool) (chosen : Option Addr) : Nat → Nat → Option Addr → Mem Bytes
  | _, _, none => pure []
  | 0, _, some _ => Mem.stuck
  | n + 1, count, some q => do
    let (next, nm, fl, src) ← Mem.loadSequence q
    let a ← Mem.deref nm
    let name ← Mem.text a
    let source ← mReadOpt src
    let k ← Mem.size
    let filters ← mReadFilters k fl
    let rest ← mDumpSequences verbose chosen n (count + 1) next
    pure (dumpSequence verbose count (decide (chosen = some q)) { name := name, filters := filters, sourceFilename := source } ++ rest)

/-- The loop over the names to ignore, config_file_dump.c:78-80. The first argument bounds the iterations. -/
def mDumpIgnored (list : Option Addr) : Nat → Mem Bytes
  | 0 => Mem.stuck
  | n + 1 => do
    let p ← mFilelistGet list
    match p with
    | none => pure []
    | some a => do
      let w ← Mem.text a
      let r ← mDumpIgnored list n
      pure (lit "\t" ++ w ++ lit "\n" ++ r)

/-- `dump_config_file`, config_file_dump.c:16-82: the text it prints. -/
def mDumpConfigFile (config : Addr) (verbose : Nat) (chosen : Option Addr) : Mem Bytes := do
  let head : Bytes := if verbose = 0 then lit "available sequences:\n" else []
  let (seqs, ign) ← Mem.loadConfig config
  let n ← Mem.size
  let body ← mDumpSequences (decide (verbose ≠ 0)) chosen n 0 seqs
  let k ← mFilelistCount ign
  if k > 0 then do
    let t ← mDumpIgnored ign (k + 1)
    pure (head ++ body ++ (lit "\nfiles to ignore:\n" ++ t))
  else pure (head ++ body ++ [])

end Detox
