import Verif.Model.File

/-!
# Command line options — `/repo/src/parse_options.c`

`getopt_long` is the one of the GNU C library (`HAVE_GETOPT_LONG` is defined), with the messages it prints cut off after the
program name.
-/

set_option autoImplicit false

namespace Detox

/-- A character constant. -/
def byteOf (c : Char) : Byte := UInt8.ofNat c.toNat

/-! ### `getopt_long` -/

/-- What `getopt_long` reports: a short option without or with argument, an option of `longopts` that sets `long_option`, or `?`
after an error message. -/
inductive OptItem where
  | flag (c : Byte)
  | withArg (c : Byte) (arg : Bytes)
  | long (n : Nat)
  | error
  deriving DecidableEq, Repr

/-- The option letters of `"hrvV?Ls:f:n"` that take no argument, parse_options.c:139. -/
def flagLetters : Bytes := lit "hrvV?Ln"

/-- Those that take one. -/
def argLetters : Bytes := lit "sf"

/-- `LONG_OPTION_…`, parse_options.c:26-30. -/
def longOptionInline : Nat := 1
def longOptionRecursive : Nat := 2
def longOptionSpecial : Nat := 3

/-- `longopts`, parse_options.c:38-53: none takes an argument. -/
def longOpts : List (Bytes × OptItem) := [
  (lit "dry-run", .flag (byteOf 'n')), (lit "help", .flag (byteOf 'h')), (lit "verbose", .flag (byteOf 'v')),
  (lit "inline", .long longOptionInline), (lit "recursive", .long longOptionRecursive), (lit "special", .long longOptionSpecial)]

/-- A long option (without `--`): an exact match, else the only option of which it is a prefix; an argument (`=...`) is an error,
as no option takes one. -/
def longItem (body : Bytes) : OptItem :=
  let name := body.takeWhile (· ≠ 0x3D)
  let found :=
    match longOpts.lookup name with
    | some i => some i
    | none =>
      match longOpts.filter (fun p => name.isPrefixOf p.1) with
      | [p] => some p.2
      | _ => none
  match found with
  | none => .error
  | some i => if body.contains 0x3D then .error else i

/-- The letters of an argument (without `-`), and the arguments after it. An option argument is the rest of the letters, or if there
is none the next argument, whatever it is. -/
def shortItems : Bytes → List Bytes → List OptItem × List Bytes
  | [], rest => ([], rest)
  | c :: cs, rest =>
    if argLetters.contains c then
      match cs with
      | _ :: _ => ([.withArg c cs], rest)
      | [] =>
        match rest with
        | a :: rest' => ([.withArg c a], rest')
        | [] => ([.error], [])
    else
      let r := shortItems cs rest
      ((if flagLetters.contains c then .flag c else .error) :: r.1, r.2)

/-- All calls of `getopt_long` until it returns -1: the reported items, and the operands `argv[optind]`, ..., in the order they are
then in. Operands between options are moved behind them, unless `posix` (`POSIXLY_CORRECT`). The first argument bounds the number
of arguments looked at. -/
def getoptAll (posix : Bool) : Nat → List Bytes → List OptItem × List Bytes
  | 0, args => ([], args)
  | _ + 1, [] => ([], [])
  | n + 1, a :: rest =>
    if a = lit "--" then ([], rest)
    else if (lit "--").isPrefixOf a then
      let r := getoptAll posix n rest
      (longItem (a.drop 2) :: r.1, r.2)
    else if (lit "-").isPrefixOf a && a.length > 1 then
      let p := shortItems (a.drop 1) rest
      let r := getoptAll posix n p.2
      (p.1 ++ r.1, r.2)
    else if posix then ([], a :: rest)
    else
      let r := getoptAll posix n rest
      (r.1, a :: r.2)

/-! ### `parse_options_getopt` -/

/-- `usage_message`, parse_options.c:59-66. -/
def usageMessage : Bytes :=
  lit "usage: detox [-hLnrvV] [-f configfile] [-s sequence]" ++
  lit " [--dry-run] [--help] [--inline] [--recursive] [--special] [--verbose]" ++ lit "\n\t " ++ lit " file [file ...]\n"

/-- `help_message`, parse_options.c:68-95. -/
def helpMessage : Bytes :=
  lit "\t-f configfile\tchoose which config file to use\n" ++ lit "\t-h --help\tthis message\n" ++
  lit "\t--inline\trun inline mode\n" ++ lit "\t-L\t\tlist available sequences and exit\n" ++
  lit "\t\t\twith -v ... dump sequence contents\n" ++ lit "\t-n --dry-run\tdo a dry run (don't actually do anything)\n" ++
  lit "\t-r --recursive\tbe recursive (descend into subdirectories)\n" ++
  lit "\t-s sequence\tchoose which sequence to detox with\n" ++ lit "\t--special\twork on links and special files\n" ++
  lit "\t-v --verbose \tbe verbose\n" ++ lit "\t-V \t\tshow the current version\n"

/-- `usage_message_inline`, parse_options.c:97-99. -/
def usageMessageInline : Bytes := lit "usage: inline-detox [-hLvV] [-f configfile] [-s sequence] [file]\n"

/-- `help_message_inline`, parse_options.c:101-113. -/
def helpMessageInline : Bytes :=
  lit "\t-f configfile\tchoose which config file to use\n" ++ lit "\t-h --help\tthis message\n" ++
  lit "\t-L\t\tlist available sequences and exit\n" ++ lit "\t\t\twith -v ... dump sequence contents\n" ++
  lit "\t-s sequence\tchoose which sequence to detox with\n" ++ lit "\t-v --verbose \tbe verbose\n" ++
  lit "\t-V \t\tshow the current version\n"

/-- The usage message for this program name. -/
def usageFor (o : Options) : Bytes := if o.isInlineBin then usageMessageInline else usageMessage

/-- `PACKAGE_STRING`, configure.ac:2. -/
def packageString : Bytes := lit "detox 3.0.0-beta2"

/-- POSIX `basename` (libgen.h). -/
def posixBasename (path : Bytes) : Bytes :=
  if path = [] then lit "."
  else
    let body := (path.reverse.dropWhile (· = 0x2F)).reverse
    if body = [] then lit "/" else basePart body

/-- One turn of the loop, parse_options.c:143-217. `program` is `argv[0]`. -/
def applyItem (program : Bytes) (o : Options) : OptItem → Prog Options
  | .error => .err (program ++ lit ": ") (.out (usageFor o) (.exit 0))
  | .withArg c arg =>
    if c = byteOf 'f' then .ret { o with checkConfigFile := some arg } else .ret { o with sequenceName := some arg }
  | .long n =>
    if n = longOptionInline then .ret { o with isInlineMode := true }
    else if n = longOptionRecursive then .ret { o with recurse := true }
    else if n = longOptionSpecial then .ret { o with special := true }
    else .ret o
  | .flag c =>
    if c = byteOf 'h' then
      .out (usageFor o) (.out [0x0A] (.out (if o.isInlineBin then helpMessageInline else helpMessage) (.exit 0)))
    else if c = byteOf 'L' then .ret { o with listSequences := true }
    else if c = byteOf 'n' then .ret { o with dryRun := true }
    else if c = byteOf 'r' then .ret { o with recurse := true }
    else if c = byteOf 'v' then .ret { o with verbose := o.verbose + 1 }
    else if c = byteOf 'V' then .out (packageString ++ [0x0A]) (.exit 0)
    else .out (usageFor o) (.exit 0)

/-- The loop. -/
def applyItems (program : Bytes) : Options → List OptItem → Prog Options
  | o, [] => .ret o
  | o, i :: is => (applyItem program o i).bind fun o' => applyItems program o' is

/-- Storing the operands, parse_options.c:230-234. -/
def putFiles (l : Filelist) : List Bytes → Res Filelist
  | [] => .ok l
  | w :: ws => do
    let l' ← filelistPut l w
    putFiles l' ws

/-- The end of `parse_options_getopt`, parse_options.c:219-243; `ws` are the operands. -/
def withOperands (o : Options) (ws : List Bytes) : Prog Options :=
  if o.listSequences then .ret o
  else
    match ws with
    | [] =>
      if o.isInlineMode then .ret { o with files := some filelistInit }
      else .out (usageFor o) (.exit 1)
    | ws => (Prog.ofRes (putFiles filelistInit ws)).bind fun l => .ret { o with files := some l }

/-- `parse_options_getopt`, parse_options.c:126-244. `program` is `argv[0]`, `args` are the other arguments, `sequence` is the
environment variable `DETOX_SEQUENCE`, `posix` says whether `POSIXLY_CORRECT` is set. -/
def parseOptions (program : Bytes) (args : List Bytes) (sequence : Option Bytes) (posix : Bool) : Prog Options :=
  let inl : Bool := posixBasename program = lit "inline-detox"
  let g := getoptAll posix args.length args
  (applyItems program { sequenceName := sequence, isInlineBin := inl, isInlineMode := inl } g.1).bind fun o => withOperands o g.2

end Detox
