import Verif.Model.ConfigFile
import Verif.Model.Sys

/-!
# Config files — `/repo/src/config_file_lex.l`, `/repo/src/config_file_yacc.y`, `/repo/src/config_file.c:38-97`

The scanner is modelled from its rules, with the matching discipline of flex: the longest match wins, of equally long ones the
rule that comes first; what no rule matches is copied to `yyout`, which is `/dev/null`.

The parser is modelled from its grammar as a state machine that looks at one token at a time: a token that cannot continue any
sentence is a syntax error, and `yyerror` exits.

Assumed: `/dev/null` can be opened, and reading does not fail.
-/

set_option autoImplicit false

namespace Detox

/-! ### The scanner -/

/-- The keywords, config_file_lex.l:28-40. -/
inductive Kw where
  | builtin | filename | ignore | iso8859_1 | length | lower | maxLength | removeTrailing | safe | sequence | uncgi | utf8 | wipeup
  deriving DecidableEq, Repr

/-- The tokens with their values, config_file_yacc.y:43-67. -/
inductive Tok where
  | kw (k : Kw)
  | opn | cls | eol
  | nvalue (n : Nat)
  | ident (s : Bytes)
  | qstring (s : Bytes)
  deriving DecidableEq, Repr

/-- A token, with a mark if the message of line 48 was printed, or undefined behaviour while reading it. -/
inductive LexItem where
  | tok (t : Tok) (unterminated : Bool)
  | ub (u : UB)
  deriving DecidableEq, Repr

/-- The spellings in config_file_lex.l:28-40. -/
def keywords : List (Bytes × Kw) := [
  (lit "builtin", .builtin), (lit "filename", .filename), (lit "ignore", .ignore), (lit "iso8859_1", .iso8859_1),
  (lit "length", .length), (lit "lower", .lower), (lit "max_length", .maxLength), (lit "remove_trailing", .removeTrailing),
  (lit "safe", .safe), (lit "sequence", .sequence), (lit "uncgi", .uncgi), (lit "utf_8", .utf8), (lit "wipeup", .wipeup)]

/-- `[a-zA-Z]` -/
def isLetter (c : Byte) : Bool := (0x41 ≤ c && c ≤ 0x5A) || (0x61 ≤ c && c ≤ 0x7A)

/-- `[0-9]` -/
def isDigitByte (c : Byte) : Bool := 0x30 ≤ c && c ≤ 0x39

/-- `[a-zA-Z0-9_]` -/
def isWordByte (c : Byte) : Bool := isLetter c || isDigitByte c || c = 0x5F

/-- A word: a keyword (these rules come first), else `ID`; lines 28-40 and 56-59. The scanner is generated with `flex -i`
(Makefile.am:30, and so is config_file_lex.c), so the case of letters does not matter. -/
def wordTok (w : Bytes) : Tok :=
  match keywords.lookup (w.map toLowerC) with
  | some k => .kw k
  | none => .ident w

/-- The value of a string of digits. -/
def decimal (s : Bytes) : Nat := s.foldl (fun n c => n * 10 + (c.toNat - 0x30)) 0

/-- `INT_MAX`. -/
def intMax : Nat := 2147483647

/-- `[0-9]+`, lines 61-64; `atoi` is undefined if the value is not an `int`. -/
def numberItem (s : Bytes) : LexItem := if decimal s ≤ intMax then .tok (.nvalue (decimal s)) false else .ub .atoiRange

/-- `\"[^\"\n]*[\"\n]`, lines 45-54: the text between the first and the last character, and the last one. `strdup` stops at a
NUL, and `string[yyleng-2]` is then behind the copy. Without closing quote the newline stays in the string. -/
def quotedItem (body : Bytes) (last : Byte) : LexItem :=
  if body.contains 0 then .ub .oobRead
  else if last = 0x22 then .tok (.qstring body) false
  else .tok (.qstring (body ++ [last])) true

/-- One match of the scanner: what comes out, if anything, and the rest of the input. -/
def lexStep (c : Byte) (s : Bytes) : Option LexItem × Bytes :=
  if c = 0x20 || c = 0x09 then (none, s.dropWhile fun x => x = 0x20 || x = 0x09)
  else if c = 0x23 then (none, s.dropWhile fun x => x ≠ 0x0A)
  else if c = 0x0A then (none, s)
  else if c = 0x7B then (some (.tok .opn false), s)
  else if c = 0x7D then (some (.tok .cls false), s)
  else if c = 0x3B then (some (.tok .eol false), s)
  else if c = 0x22 then
    match s.dropWhile (fun x => x ≠ 0x22 && x ≠ 0x0A) with
    | [] => (none, s)
    | d :: rest => (some (quotedItem (s.takeWhile fun x => x ≠ 0x22 && x ≠ 0x0A) d), rest)
  else if isLetter c then (some (.tok (wordTok (c :: s.takeWhile isWordByte)) false), s.dropWhile isWordByte)
  else if isDigitByte c then (some (numberItem (c :: s.takeWhile isDigitByte)), s.dropWhile isDigitByte)
  else (none, s)

/-- The scanner run to the end of the input. The first argument bounds the number of matches. -/
def lexAll : Nat → Bytes → List LexItem
  | _, [] => []
  | 0, _ :: _ => []
  | n + 1, c :: s =>
    let r := lexStep c s
    match r.1 with
    | some i => i :: lexAll n r.2
    | none => lexAll n r.2

/-- All tokens of a file. -/
def lex (s : Bytes) : List LexItem := lexAll s.length s

/-! ### The parser -/

/-- The methods with a table, config_file_yacc.y:111-136. -/
inductive Tabled where
  | iso8859_1 | utf8 | safe
  deriving DecidableEq, Repr

/-- `FILTER_…` of a method. -/
def Tabled.cleaner : Tabled → Cleaner
  | .iso8859_1 => .iso8859_1
  | .utf8 => .utf8
  | .safe => .safe

/-- What the parser has seen of the current rule. -/
inductive Phase where
  /-- between rules: `configfile` -/
  | top
  /-- after `SEQUENCE`, `SEQUENCE string` -/
  | seqKw | seqName (s : Bytes)
  /-- after `sequence_open`, after `sequence_open method_list`, after `... CLOSE` -/
  | seqOpen | seqList | seqClose
  /-- after `UNCGI` or `LOWER` -/
  | plain (c : Cleaner)
  /-- after a tabled method, its `OPEN`, `FILENAME`/`BUILTIN` (true), the string, `EOL` -/
  | tab (m : Tabled) | tabOpen (m : Tabled) | tabOpt (m : Tabled) (b : Bool) | tabStr (m : Tabled) (b : Bool) (s : Bytes)
  | tabEol (m : Tabled) (b : Bool) (s : Bytes)
  /-- after `WIPEUP`, `OPEN`, `REMOVE_TRAILING`, `EOL` -/
  | wipe | wipeOpen | wipeOpt | wipeEol
  /-- after `MAX_LENGTH`, `OPEN`, `LENGTH`, `NVALUE`, `EOL` -/
  | maxl | maxlOpen | maxlOpt | maxlVal (n : Nat) | maxlEol (n : Nat)
  /-- after the `CLOSE` of a method, whose filter is appended -/
  | methodEnd
  /-- after `IGNORE`, `ignore_open`, `ignore_open ignore_list`, `FILENAME`, the string, `... CLOSE` -/
  | ignKw | ignOpen | ignList | ignFile | ignStr (s : Bytes) | ignClose
  deriving DecidableEq, Repr

/-- The variables of the parser, config_file_yacc.y:27-31. `filters` is the chain `cf_filter_ret`. -/
structure CState where
  phase : Phase := .top
  name : Bytes := []
  filters : List Filter := []
  sequences : List Sequence := []
  ignore : Filelist := filelistInit
  deriving DecidableEq, Repr

/-- `cf_append_filter`, config_file_yacc.y:324-341. -/
def cfAppendFilter (st : CState) (c : Cleaner) (builtin filename : Option Bytes) (maxLength : Nat) (removeTrailing : Bool) :
    CState :=
  { st with filters := st.filters ++
      [{ filterInit c with
         builtin := builtin, filename := filename, maxLength := maxLength, removeTrailing := removeTrailing }] }

/-- The search and the change of `cf_append_sequence_list`, config_file_yacc.y:282-318: the first sequence of that name gets the
filters and the source, else one is appended. -/
def replaceSequence (q : Sequence) : List Sequence → List Sequence
  | [] => [q]
  | x :: xs => if x.name = q.name then { x with filters := q.filters, sourceFilename := q.sourceFilename } :: xs
               else x :: replaceSequence q xs

/-- `cf_append_sequence_list`, config_file_yacc.y:273-321. `current_name` is never NULL here (line 86). -/
def cfAppendSequenceList (file : Bytes) (st : CState) : CState :=
  { st with sequences := replaceSequence { name := st.name, filters := st.filters, sourceFilename := some file } st.sequences,
            filters := [] }

/-- `string`, lines 170-173. -/
def Tok.string : Tok → Option Bytes
  | .ident s => some s
  | .qstring s => some s
  | _ => none

/-- One token, config_file_yacc.y:73-173. `exit 1` is `yyerror`. -/
def cfStep (file : Bytes) (st : CState) (t : Tok) : Res CState :=
  let goto (p : Phase) : Res CState := .ok { st with phase := p }
  match st.phase with
  | .top => if t = .kw .sequence then goto .seqKw else if t = .kw .ignore then goto .ignKw else .exit 1
  | .seqKw => match t.string with | some s => goto (.seqName s) | none => .exit 1
  | .seqName s => if t = .opn then .ok { st with phase := .seqOpen, name := s } else .exit 1
  | .seqOpen | .seqList =>
    match t with
    | .kw .uncgi => goto (.plain .uncgi)
    | .kw .lower => goto (.plain .lower)
    | .kw .wipeup => goto .wipe
    | .kw .iso8859_1 => goto (.tab .iso8859_1)
    | .kw .utf8 => goto (.tab .utf8)
    | .kw .safe => goto (.tab .safe)
    | .kw .maxLength => goto .maxl
    | .cls => if st.phase = .seqList then goto .seqClose else .exit 1
    | _ => .exit 1
  | .seqClose => if t = .eol then .ok { cfAppendSequenceList file st with phase := .top } else .exit 1
  | .plain c => if t = .eol then .ok { cfAppendFilter st c none none 0 false with phase := .seqList } else .exit 1
  | .tab m =>
    if t = .eol then .ok { cfAppendFilter st m.cleaner none none 0 false with phase := .seqList }
    else if t = .opn then goto (.tabOpen m) else .exit 1
  | .tabOpen m =>
    if t = .cls then .ok { cfAppendFilter st m.cleaner none none 0 false with phase := .methodEnd }
    else if t = .kw .filename then goto (.tabOpt m false)
    else if t = .kw .builtin then goto (.tabOpt m true) else .exit 1
  | .tabOpt m b => match t.string with | some s => goto (.tabStr m b s) | none => .exit 1
  | .tabStr m b s => if t = .eol then goto (.tabEol m b s) else .exit 1
  | .tabEol m b s =>
    if t = .cls then
      .ok { cfAppendFilter st m.cleaner (if b then some s else none) (if b then none else some s) 0 false with phase := .methodEnd }
    else .exit 1
  | .wipe =>
    if t = .eol then .ok { cfAppendFilter st .wipeup none none 0 false with phase := .seqList }
    else if t = .opn then goto .wipeOpen else .exit 1
  | .wipeOpen =>
    if t = .cls then .ok { cfAppendFilter st .wipeup none none 0 false with phase := .methodEnd }
    else if t = .kw .removeTrailing then goto .wipeOpt else .exit 1
  | .wipeOpt => if t = .eol then goto .wipeEol else .exit 1
  | .wipeEol => if t = .cls then .ok { cfAppendFilter st .wipeup none none 0 true with phase := .methodEnd } else .exit 1
  | .maxl =>
    if t = .eol then .ok { cfAppendFilter st .maxLength none none 0 false with phase := .seqList }
    else if t = .opn then goto .maxlOpen else .exit 1
  | .maxlOpen =>
    if t = .cls then .ok { cfAppendFilter st .maxLength none none 0 false with phase := .methodEnd }
    else if t = .kw .length then goto .maxlOpt else .exit 1
  | .maxlOpt => match t with | .nvalue n => goto (.maxlVal n) | _ => .exit 1
  | .maxlVal n => if t = .eol then goto (.maxlEol n) else .exit 1
  | .maxlEol n => if t = .cls then .ok { cfAppendFilter st .maxLength none none n false with phase := .methodEnd } else .exit 1
  | .methodEnd => if t = .eol then goto .seqList else .exit 1
  | .ignKw => if t = .opn then goto .ignOpen else .exit 1
  | .ignOpen => if t = .kw .filename then goto .ignFile else .exit 1
  | .ignList => if t = .kw .filename then goto .ignFile else if t = .cls then goto .ignClose else .exit 1
  | .ignFile => match t.string with | some s => goto (.ignStr s) | none => .exit 1
  | .ignStr s =>
    if t = .eol then do
      let l ← filelistPut st.ignore s
      pure { st with phase := .ignList, ignore := l }
    else .exit 1
  | .ignClose => if t = .eol then goto .top else .exit 1

/-- `yyparse` on the tokens of a file: how often line 48 of the scanner printed its message, and the outcome. -/
def cfRun (file : Bytes) : List LexItem → CState → Nat × Res CState
  | [], st => (0, if st.phase = .top then .ok st else .exit 1)
  | .ub u :: _, _ => (0, .ub u)
  | .tok t un :: rest, st =>
    let r := match cfStep file st t with
      | .ok st' => cfRun file rest st'
      | .exit n => (0, .exit n)
      | .ub u => (0, .ub u)
      | .stuck => (0, .stuck)
    (r.1 + (if un then 1 else 0), r.2)

/-- The ignore list to go on with, config_file_yacc.y:226-230. -/
def startIgnore (c : ConfigFile) : Filelist :=
  match c.filesToIgnore with
  | some l => if l.count > 0 then l else filelistInit
  | none => filelistInit

/-- What `parse_config_file` does with the text of a file, config_file_yacc.y:196-254. The loop of lines 239-242 runs once: the
scanner reports the end only after `feof`. -/
def parseConfigText (file text : Bytes) (previous : Option ConfigFile) : Nat × Res ConfigFile :=
  let start : CState :=
    { sequences := (previous.getD configFileInit).sequences,
      ignore := startIgnore (previous.getD configFileInit) }
  let r := cfRun file (lex text) start
  (r.1, do
    let st ← r.2
    pure { sequences := st.sequences, filesToIgnore := some st.ignore })

/-- Print something `n` times. -/
def outTimes {α : Type} (s : Bytes) : Nat → Prog α → Prog α
  | 0, k => k
  | n + 1, k => .out s (outTimes s n k)

/-- A token with what `yyerror` prints of it: its text, and the line. -/
structure Located where
  item : LexItem
  text : Bytes
  line : Nat
  deriving DecidableEq, Repr

/-- The scanner run to the end of the input from line `line` on, with `yytext` and `config_file_lineno` as they are when each token
is returned, and the line at the end. Only the rule of config_file_lex.l:26 counts, so a newline that ends an unterminated string is
not counted. The first argument bounds the number of matches. `config_file_lineno` is an `int`; here it does not overflow. -/
def locateAll : Nat → Nat → Bytes → List Located × Nat
  | _, line, [] => ([], line)
  | 0, line, _ :: _ => ([], line)
  | n + 1, line, c :: s =>
    let r := lexStep c s
    let line' := if c = 0x0A then line + 1 else line
    let ls := locateAll n line' r.2
    match r.1 with
    | some i => ({ item := i, text := (c :: s).take (s.length + 1 - r.2.length), line := line' } :: ls.1, ls.2)
    | none => ls

/-- What `yyerror` finds in `yytext` and `config_file_lineno`: those of the token that could not be used, the last one that the parser
read. At the end of the file the text is empty and the line is `last`. -/
def cfBlame (file : Bytes) (last : Nat) : List Located → CState → Bytes × Nat
  | [], _ => ([], last)
  | { item := .ub _, text := w, line := n } :: _, _ => (w, n)
  | { item := .tok t _, text := w, line := n } :: rest, st =>
    match cfStep file st t with
    | .ok st' => cfBlame file last rest st'
    | _ => (w, n)

/-- The state in which `yyparse` starts, config_file_yacc.y:205-237. -/
def cfStart (previous : Option ConfigFile) : CState :=
  { sequences := (previous.getD configFileInit).sequences, ignore := startIgnore (previous.getD configFileInit) }

/-- A number in decimal, as `printf` writes it; the first argument bounds the digits. -/
def printDecimal : Nat → Nat → Bytes
  | 0, _ => []
  | k + 1, n => (if n < 10 then [] else printDecimal k (n / 10)) ++ [0x30 + UInt8.ofNat (n % 10)]

/-- The message of `yyerror`, config_file_yacc.y:257-270, printed in four pieces. `yytext` is not NULL once a token was read. -/
def yyerrorText (file : Bytes) (w : Bytes) (line : Nat) : Bytes :=
  lit "detox: error parsing config file " ++ file ++ lit ": syntax error\n" ++ lit "\tline " ++ printDecimal (line + 1) line ++ lit ": " ++ w ++
    lit "\n"

/-- `parse_config_file`, config_file_yacc.y:180-255. What is known before and after: the results so far, and `config_file_lineno`,
which nobody resets. -/
def parseConfigFile (file : Bytes) (before : Option ConfigFile × Nat) : Prog (Option ConfigFile × Nat) :=
  .slurp (some file) fun r =>
    match r with
    | none => .ret before
    | some text =>
      let p := parseConfigText file text before.1
      let ls := locateAll text.length before.2 text
      outTimes (lit "Unterminated character string\n") p.1
        (match p.2 with
        | .ok c => .ret (some c, ls.2)
        | .exit n =>
          let b := cfBlame file ls.2 ls.1 (cfStart before.1)
          .err (yyerrorText file b.1 b.2) (.exit n)
        | .ub u => .ub u
        | .stuck => .stuck)

/-! ### Which files -/

/-- What `config_file_load` sees of the world besides files: the compile-time `SYSCONFDIR` and two environment variables. -/
structure ConfigEnv where
  sysconfdir : Option Bytes
  home : Option Bytes
  xdg : Option Bytes

/-- `snprintf` into the buffer of `MAX_PATH_LEN` bytes, the test, and `parse_config_file`; lines 59-62, 75-78, 83-86. -/
def tryConfig (path : Bytes) (before : Option ConfigFile × Nat) : Prog (Option ConfigFile × Nat) :=
  if path.length < maxPathLen then parseConfigFile path before else .ret before

/-- `config_file_load`, config_file.c:38-97. -/
def configFileLoad (E : ConfigEnv) (check : Option Bytes) : Prog ConfigFile :=
  match check with
  | some f =>
    (parseConfigFile f (none, 1)).bind fun r =>
      match r.1 with
      | some c => .ret c
      | none => .err (lit "detox: unable to open: " ++ f ++ lit "\n") (.exit 1)
  | none =>
    (match E.sysconfdir with
      | some d => tryConfig (d ++ lit "/detoxrc") (none, 1)
      | none => .ret (none, 1)).bind fun c1 =>
    (match c1.1 with
      | some c => Prog.ret (some c, c1.2)
      | none => parseConfigFile (lit "/etc/detoxrc") (none, c1.2)).bind fun c2 =>
    (match c2.1 with
      | some c => Prog.ret (some c, c2.2)
      | none => parseConfigFile (lit "/usr/local/etc/detoxrc") (none, c2.2)).bind fun c3 =>
    (match E.home with
      | some h => tryConfig (h ++ lit "/.detoxrc") c3
      | none => .ret c3).bind fun c4 =>
    (match E.xdg with
      | some x => tryConfig (x ++ lit "/detox/detoxrc") c4
      | none => .ret c4).bind fun c5 =>
    match c5.1 with
    | some c => .ret c
    | none => Prog.ofRes spoofConfigFile

end Detox
