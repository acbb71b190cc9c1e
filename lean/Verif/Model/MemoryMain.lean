import Verif.Model.MemoryConfig

/-!
# The whole program with pointers — `/repo/src/parse_options.c`, `/repo/src/detox.c`

Simplification: the fields of `options_t` are passed along as a value; the block is allocated, but not used.
-/

set_option autoImplicit false

namespace Detox

/-- `options_t`, detox_struct.h:87-107. The pointers are kept apart from the flags; of `flags` only the fields that are no pointers are used. -/
structure MOptions where
  flags : Options := {}
  checkConfigFile : Option Addr := none
  sequenceName : Option CString := none
  files : Option Addr := none

/-- One turn of the loop, parse_options.c:144-220. Compare `applyItem`. -/
def mApplyItem (A : Nat → Bool) (program : Bytes) (o : MOptions) : OptItem → Mem MOptions
  | .error => do
    Mem.err (program ++ lit ": ")
    Mem.out (usageFor o.flags)
    Mem.exit 0
  | .withArg c arg =>
    if c = byteOf 'f' then do
      let a ← wrappedStrdup A arg
      pure { o with checkConfigFile := some a }
    else do
      let a ← wrappedStrdup A arg
      pure { o with sequenceName := some (.heap a) }
  | .long n =>
    if n = longOptionInline then pure { o with flags := { o.flags with isInlineMode := true } }
    else if n = longOptionRecursive then pure { o with flags := { o.flags with recurse := true } }
    else if n = longOptionSpecial then pure { o with flags := { o.flags with special := true } }
    else pure o
  | .flag c =>
    if c = byteOf 'h' then do
      Mem.out (usageFor o.flags)
      Mem.out [0x0A]
      Mem.out (if o.flags.isInlineBin then helpMessageInline else helpMessage)
      Mem.exit 0
    else if c = byteOf 'L' then pure { o with flags := { o.flags with listSequences := true } }
    else if c = byteOf 'n' then pure { o with flags := { o.flags with dryRun := true } }
    else if c = byteOf 'r' then pure { o with flags := { o.flags with recurse := true } }
    else if c = byteOf 'v' then pure { o with flags := { o.flags with verbose := o.flags.verbose + 1 } }
    else if c = byteOf 'V' then do
      Mem.out (packageString ++ [0x0A])
      Mem.exit 0
    else do
      Mem.out (usageFor o.flags)
      Mem.exit 0

/-- The loop. -/
def mApplyItems (A : Nat → Bool) (program : Bytes) : MOptions → List OptItem → Mem MOptions
  | o, [] => pure o
  | o, i :: is => do
    let o' ← mApplyItem A program o i
    mApplyItems A program o' is

/-- Storing the operands, parse_options.c:233-236. -/
def mPutFiles (A : Nat → Bool) (l : Addr) : List Bytes → Mem Unit
  | [] => pure ()
  | w :: ws => do
    mFilelistPut A (some l) w
    mPutFiles A l ws

/-- The end of `parse_options_getopt`, parse_options.c:223-243; `ws` are the operands. -/
def mWithOperands (A : Nat → Bool) (o : MOptions) (ws : List Bytes) : Mem MOptions :=
  if o.flags.listSequences then pure o
  else do
    let l ← mFilelistInit A
    match ws with
    | [] =>
      if o.flags.isInlineMode then pure { o with files := some l }
      else do
        Mem.out (usageFor o.flags)
        Mem.exit 1
    | ws => do
      mPutFiles A l ws
      pure { o with files := some l }

/-- `parse_options_getopt`, parse_options.c:126-244. Compare `parseOptions`. -/
def mParseOptions (A : Nat → Bool) (program : Bytes) (args : List Bytes) (sequence : Option Bytes) (posix : Bool) : Mem MOptions := do
  let _ ← wrappedMalloc A .other
  let inl : Bool := posixBasename program = lit "inline-detox"
  let g := getoptAll posix args.length args
  let o ← mApplyItems A program
    { flags := { isInlineBin := inl, isInlineMode := inl }, sequenceName := sequence.map CString.fixed } g.1
  mWithOperands A o g.2

/-- The characters of `sequence_name`, if it is not NULL. -/
def mReadName (p : Option CString) : Mem (Option Bytes) :=
  match p with
  | none => pure none
  | some c => do
    let s ← Mem.chars c
    pure (some s)

/-- `main` after the options, detox.c:43-129. `S` is the allocator of the `strdup` in the scanner. -/
def mDetoxConfigured (A S : Nat → Bool) (P : Platform) (I : Invocation) (o : MOptions) (fuel : Nat) : Mem Unit := do
  let c ← mConfigFileLoad A S I.config o.checkConfigFile
  let (sequences, ignore) ← Mem.loadConfig c
  let name ← mReadName o.sequenceName
  let chosen ← mSequenceChooseDefault sequences name
  if o.flags.listSequences then do
    let t ← mDumpConfigFile c o.flags.verbose chosen
    Mem.out t
    Mem.exit 0
  else
    match chosen with
    | none => do
      Mem.err (lit "detox: no sequence to work with\n")
      Mem.exit 1
    | some q => do
      mSequenceReview A I.ctype I.datadir q
      mDetoxWork A P o.flags (some q) ignore o.files fuel

/-- `main`, detox.c:25-132. -/
def mDetoxMain (A S : Nat → Bool) (P : Platform) (I : Invocation) (fuel : Nat) : Mem Unit := do
  let o ← mParseOptions A I.program I.args I.sequence I.posixlyCorrect
  mDetoxConfigured A S P I o fuel

end Detox
