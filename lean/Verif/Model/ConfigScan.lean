import Verif.Model.FlexBuffer
import Verif.Model.Bison
import Verif.Model.Main

/-!
# `parse_config_file` with the generated scanner and parser — `/repo/src/config_file_yacc.y:180-270`

In `Model/Config.lean` a config file is read as a whole, cut into tokens, and parsed. Here `yyparse` calls `yylex` for each token, `yylex`
reads the file piece by piece into its buffer (`Model/FlexBuffer.lean`), and the buffer stays for the next file.

Left out: `yyout` (`/dev/null`).
-/

set_option autoImplicit false

namespace Detox

/-- A C string in a block. -/
def cellString : Cells → Yy Bytes
  | [] => .fault
  | none :: _ => .fault
  | some c :: cs => if c = 0 then .ok [] else (cellString cs).bind fun s => .ok (c :: s)

/-- A number of jumps that is enough for `yylex` on a file of `n` bytes. -/
def yyFuel (n : Nat) : Nat := (4 * (n + 1) + 2) * (n + 1)

/-- `yyparse`, config_file_yacc.c:1036-1464, from a point where it needs a token, calling `yylex` for it: how often line 48 of the
scanner printed its message, and how it ends. `fuel` bounds the jumps of each call, the next argument the number of calls. -/
def yyPull (w : YyWorld) (file : Bytes) (fuel : Nat) : Nat → YState → Flex → Source → Nat × Yy (Res CState × Flex × Source)
  | 0, _, _, _ => (0, .stuck)
  | k + 1, y, f, src =>
    match yylex w fuel f src with
    | .fatal m => (0, .fatal m)
    | .fault => (0, .fault)
    | .stuck => (0, .stuck)
    | .ok (none, f, src) =>
      (0, .ok ((yySteps file 20 (readTok y none) (some none)).bind fun r =>
        match r with
        | .accept v => .ok v
        | .token _ => .stuck, f, src))
    | .ok (some l, f, src) =>
      match l.item with
      | .ub u => (0, .ok (.ub u, f, src))
      | .tok t un =>
        let r := match yySteps file 20 (readTok y (some t)) (some (some t)) with
          | .ok (.token y') => yyPull w file fuel k y' f src
          | .ok (.accept v) => (0, .ok (.ok v, f, src))
          | .exit n => (0, .ok (.exit n, f, src))
          | .ub u => (0, .ok (.ub u, f, src))
          | .stuck => (0, .ok (.stuck, f, src))
        (r.1 + (if un then 1 else 0), r.2)

/-- `yyparse` from the start, config_file_yacc.c:1036-1464. -/
def yyParseScan (w : YyWorld) (file : Bytes) (fuel k : Nat) (vars : CState) (f : Flex) (src : Source) :
    Nat × Yy (Res CState × Flex × Source) :=
  match yySteps file 20 { stack := [(0, .junk)], lval := .junk, vars := vars } none with
  | .ok (.token y) => yyPull w file fuel k y f src
  | .ok (.accept v) => (0, .ok (.ok v, f, src))
  | .exit n => (0, .ok (.exit n, f, src))
  | .ub u => (0, .ok (.ub u, f, src))
  | .stuck => (0, .ok (.stuck, f, src))

/-- The loop of `parse_config_file`, config_file_yacc.y:239-242, which goes on until `feof`. -/
def parseLoop (w : YyWorld) (file : Bytes) (fuel k : Nat) : Nat → CState → Flex → Source → Nat × Yy (Res CState × Flex × Source)
  | 0, _, _, _ => (0, .stuck)
  | n + 1, vars, f, src =>
    let r := yyParseScan w file fuel k vars f src
    match r.2 with
    | .ok (.ok v, f, src) =>
      if src.feof then r
      else
        let r' := parseLoop w file fuel k n v f src
        (r.1 + r'.1, r'.2)
    | _ => r

/-- What the scanner keeps from one file to the next: its buffer, once it was called; and how many reads and allocations there were. -/
structure ScanState where
  flex : Option Flex := none
  reads : Nat := 0
  allocs : Nat := 0

/-- The variables of the scanner at the first call of `yylex` for a file. `config_file_lineno` is 1 at first (config_file_lex.l:14). -/
def ScanState.start (w : YyWorld) (z : ScanState) : Yy (Flex × Nat) :=
  match z.flex with
  | some f => .ok (f, z.allocs)
  | none => yyInit w 1 z.allocs

/-- `parse_config_file` on a file that could be opened, config_file_yacc.y:196-254. -/
def parseConfigScan (w : YyWorld) (file text : Bytes) (previous : Option ConfigFile) (z : ScanState) :
    Nat × Yy (Res ConfigFile × ScanState) :=
  match z.start w with
  | .ok (f, allocs) =>
    let r := parseLoop w file (yyFuel text.length) (text.length + 1) (text.length + 1) (cfStart previous) f
      { left := text, reads := z.reads, allocs := allocs }
    (r.1, r.2.bind fun q =>
      .ok (q.1.bind fun st => .ok { sequences := st.sequences, filesToIgnore := some st.ignore },
        { flex := some q.2.1, reads := q.2.2.reads, allocs := q.2.2.allocs }))
  | .fatal m => (0, .fatal m)
  | .fault => (0, .fault)
  | .stuck => (0, .stuck)

/-- The message of `yyerror`, config_file_yacc.y:257-270: `yytext` is what the scanner has in its buffer. -/
def scanError (file : Bytes) (z : ScanState) : Yy Bytes :=
  match z.flex with
  | none => .fault
  | some f => (cellString (f.buf.drop f.text)).bind fun t => .ok (yyerrorText file t f.lineno)

/-- `parse_config_file`, config_file_yacc.y:180-255. -/
def parseConfigFileScan (w : YyWorld) (file : Bytes) (before : Option ConfigFile × ScanState) : Prog (Option ConfigFile × ScanState) :=
  .slurp (some file) fun r =>
    match r with
    | none => .ret before
    | some text =>
      let p := parseConfigScan w file text before.1 before.2
      outTimes (lit "Unterminated character string\n") p.1
        (match p.2 with
        | .ok (.ok c, z) => .ret (some c, z)
        | .ok (.exit n, z) =>
          match scanError file z with
          | .ok s => .err s (.exit n)
          | .fatal m => .err (m ++ lit "\n") (.exit 2)
          | .fault => .ub .oobRead
          | .stuck => .stuck
        | .ok (.ub u, _) => .ub u
        | .ok (.stuck, _) => .stuck
        | .fatal m => .err (m ++ lit "\n") (.exit 2)
        | .fault => .ub .oobRead
        | .stuck => .stuck)

/-- `snprintf` into the buffer of `MAX_PATH_LEN` bytes, the test, and `parse_config_file`; config_file.c:59-62, 75-78, 83-86. -/
def tryConfigScan (w : YyWorld) (path : Bytes) (before : Option ConfigFile × ScanState) : Prog (Option ConfigFile × ScanState) :=
  if path.length < maxPathLen then parseConfigFileScan w path before else .ret before

/-- `config_file_load`, config_file.c:38-97. -/
def configFileLoadScan (w : YyWorld) (E : ConfigEnv) (check : Option Bytes) : Prog ConfigFile :=
  match check with
  | some f =>
    (parseConfigFileScan w f (none, {})).bind fun r =>
      match r.1 with
      | some c => .ret c
      | none => .err (lit "detox: unable to open: " ++ f ++ lit "\n") (.exit 1)
  | none =>
    (match E.sysconfdir with
      | some d => tryConfigScan w (d ++ lit "/detoxrc") (none, {})
      | none => .ret (none, {})).bind fun c1 =>
    (match c1.1 with
      | some c => Prog.ret (some c, c1.2)
      | none => parseConfigFileScan w (lit "/etc/detoxrc") (none, c1.2)).bind fun c2 =>
    (match c2.1 with
      | some c => Prog.ret (some c, c2.2)
      | none => parseConfigFileScan w (lit "/usr/local/etc/detoxrc") (none, c2.2)).bind fun c3 =>
    (match E.home with
      | some h => tryConfigScan w (h ++ lit "/.detoxrc") c3
      | none => .ret c3).bind fun c4 =>
    (match E.xdg with
      | some x => tryConfigScan w (x ++ lit "/detox/detoxrc") c4
      | none => .ret c4).bind fun c5 =>
    match c5.1 with
    | some c => .ret c
    | none => Prog.ofRes spoofConfigFile

/-- `main` after the options, detox.c:43-86. -/
def detoxConfiguredScan (w : YyWorld) (P : Platform) (I : Invocation) (o : Options) (fuel : Nat) : Prog Unit :=
  (configFileLoadScan w I.config o.checkConfigFile).bind fun c =>
    if o.listSequences then
      (Prog.ofRes (dumpConfigFile c o)).bind fun t => .out t (.exit 0)
    else
      match sequenceChooseDefault c.sequences o.sequenceName with
      | none => .err (lit "detox: no sequence to work with\n") (.exit 1)
      | some q =>
        (reviewSequence I.ctype I.datadir q).bind fun q' =>
          detoxWork P { o with
            filesToIgnore := c.filesToIgnore, sequenceToUse := some q' } fuel

/-- `main`, detox.c:25-132. -/
def detoxMainScan (w : YyWorld) (P : Platform) (I : Invocation) (fuel : Nat) : Prog Unit :=
  (parseOptions I.program I.args I.sequence I.posixlyCorrect).bind fun o => detoxConfiguredScan w P I o fuel

end Detox
