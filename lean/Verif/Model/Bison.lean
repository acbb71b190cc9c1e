import Verif.Model.BisonTables
import Verif.Model.Config

/-!
# The generated parser — `/repo/src/config_file_yacc.c:1036-1464`

`Model/Config.lean` has the parser as a state machine made from the grammar (`cfStep`); this is the one bison made of it, which is what
is compiled. Both are proved equal in `Props/Parser.lean`.

Left out: the growing of the stack beyond `YYINITDEPTH` (200 elements), where the model is `stuck`, and error recovery, as `yyerror`
does not return.
-/

set_option autoImplicit false

namespace Detox

/-- `YYSTYPE`, config_file_yacc.y:43-47. `junk` is a value that was never set. -/
inductive YVal where
  | junk
  | string (s : Bytes)
  | nvalue (n : Nat)
  deriving DecidableEq, Repr

/-- The variables of `yyparse`: the stacks of states and values as one (top first), `yylval`, and the variables of the actions
(`phase` is not used). -/
structure YState where
  stack : List (Nat × YVal)
  lval : YVal
  vars : CState

/-- An element of a table. -/
def entry (l : List Int) (i : Int) : Res Int :=
  if 0 ≤ i then (match l[i.toNat]? with | some v => .ok v | none => .ub .oobRead) else .ub .oobRead

/-- `yytokentype`, config_file_yacc.h:50-76; `none` is the end of the file. -/
def tokenNumber : Option Tok → Int
  | none => 0
  | some (.kw .builtin) => 258
  | some .cls => 259
  | some .eol => 260
  | some (.kw .filename) => 261
  | some (.kw .ignore) => 262
  | some (.kw .iso8859_1) => 263
  | some (.kw .length) => 264
  | some (.kw .lower) => 265
  | some (.kw .maxLength) => 266
  | some .opn => 267
  | some (.kw .removeTrailing) => 268
  | some (.kw .safe) => 269
  | some (.kw .sequence) => 270
  | some (.kw .uncgi) => 271
  | some (.kw .utf8) => 272
  | some (.kw .wipeup) => 273
  | some (.nvalue _) => 274
  | some (.ident _) => 275
  | some (.qstring _) => 276

/-- `yylval` after the scanner returned the token: only three kinds set it. -/
def setLval (old : YVal) : Option Tok → YVal
  | some (.nvalue n) => .nvalue n
  | some (.ident s) => .string s
  | some (.qstring s) => .string s
  | _ => old

/-- `yyvsp[-i].string`; another value there is no pointer. -/
def stringAt (y : YState) (i : Nat) : Res Bytes :=
  match y.stack[i]? with
  | some (_, .string s) => .ok s
  | _ => .ub .oobRead

/-- `yyvsp[-i].nvalue`. -/
def nvalueAt (y : YState) (i : Nat) : Res Nat :=
  match y.stack[i]? with
  | some (_, .nvalue n) => .ok n
  | _ => .ub .oobRead

/-- The actions of rules 18 to 29, which are alike for the three kinds of tables; `k` says which of the four. -/
def tableAction (y : YState) (c : Cleaner) (k : Nat) : Res CState :=
  if k = 2 then (stringAt y 2).bind fun s => .ok (cfAppendFilter y.vars c none (some s) 0 false)
  else if k = 3 then (stringAt y 2).bind fun s => .ok (cfAppendFilter y.vars c (some s) none 0 false)
  else .ok (cfAppendFilter y.vars c none none 0 false)

/-- The actions that change variables, config_file_yacc.c:1276-1415. -/
def yyAction (file : Bytes) (y : YState) (n : Nat) : Res CState :=
  if n = 7 then (stringAt y 1).bind fun s => .ok { y.vars with name := s }
  else if n = 8 then .ok (cfAppendSequenceList file y.vars)
  else if n = 11 then .ok (cfAppendFilter y.vars .uncgi none none 0 false)
  else if n = 12 then .ok (cfAppendFilter y.vars .lower none none 0 false)
  else if 18 ≤ n ∧ n ≤ 21 then tableAction y .iso8859_1 (n - 18)
  else if 22 ≤ n ∧ n ≤ 25 then tableAction y .utf8 (n - 22)
  else if 26 ≤ n ∧ n ≤ 29 then tableAction y .safe (n - 26)
  else if n = 30 ∨ n = 31 then .ok (cfAppendFilter y.vars .wipeup none none 0 false)
  else if n = 32 then .ok (cfAppendFilter y.vars .wipeup none none 0 true)
  else if n = 33 ∨ n = 34 then .ok (cfAppendFilter y.vars .maxLength none none 0 false)
  else if n = 35 then (nvalueAt y 2).bind fun l => .ok (cfAppendFilter y.vars .maxLength none none l false)
  else if n = 41 then
    (stringAt y 1).bind fun s => (filelistPut y.vars.ignore s).bind fun l => .ok { y.vars with ignore := l }
  else .ok y.vars

/-- `yyreduce`, config_file_yacc.c:1259-1463, for rule `n`. Rules 42 and 43 set `$$` to what it is already. -/
def yyReduce (file : Bytes) (y : YState) (n : Int) : Res YState :=
  (entry yyR2 n).bind fun len =>
  (yyAction file y n.toNat).bind fun vars =>
  let val := if len = 0 then YVal.junk else match y.stack[len.toNat - 1]? with | some p => p.2 | none => .junk
  match y.stack.drop len.toNat with
  | [] => .ub .oobRead
  | (s, v) :: rest =>
    (entry yyR1 n).bind fun r1 =>
    (entry yyPgoto (r1 - 22)).bind fun g =>
    (if 0 ≤ g + s ∧ g + s ≤ 85 then (entry yyCheck (g + s)).bind fun c => .ok (decide (c = s)) else .ok false).bind fun hit =>
    (if hit then entry yyTable (g + s) else entry yyDefgoto (r1 - 22)).bind fun s' =>
      .ok { y with stack := (s'.toNat, val) :: (s, v) :: rest, vars := vars }

/-- What the parser wants next. -/
inductive YNext where
  /-- a token -/
  | token (y : YState)
  /-- nothing: `YYACCEPT` -/
  | accept (vars : CState)

/-- From `yynewstate` on until another token is needed, config_file_yacc.c:1085-1464. `look` is the token that was read and not shifted
yet (`yychar`). `exit 1` is `yyerror`. The first argument bounds the number of states entered. -/
def yySteps (file : Bytes) : Nat → YState → Option (Option Tok) → Res YNext
  | 0, _, _ => .stuck
  | n + 1, y, look =>
    match y.stack with
    | [] => .ub .oobRead
    | (s, _) :: _ =>
      if 200 ≤ y.stack.length then .stuck
      else if s = 2 then .ok (.accept y.vars)
      else
        let yydefault : Res YNext :=
          (entry yyDefact s).bind fun r => if r = 0 then .exit 1 else (yyReduce file y r).bind fun y' => yySteps file n y' look
        (entry yyPact s).bind fun p =>
          if p = -29 then yydefault
          else
            match look with
            | none => .ok (.token y)
            | some t =>
              (entry yyTranslate (tokenNumber t)).bind fun k =>
                if p + k < 0 ∨ 85 < p + k then yydefault
                else
                  (entry yyCheck (p + k)).bind fun c =>
                    if c ≠ k then yydefault
                    else
                      (entry yyTable (p + k)).bind fun a =>
                        if a ≤ 0 then (yyReduce file y (-a)).bind fun y' => yySteps file n y' look
                        else yySteps file n { y with stack := (a.toNat, y.lval) :: y.stack } none

/-- Read a token: `yylval` is set. -/
def readTok (y : YState) (t : Option Tok) : YState := { y with lval := setLval y.lval t }

/-- `yyparse` on the tokens of a file, from a point where it needs a token; otherwise like `cfRun`. -/
def yyRun (file : Bytes) : List LexItem → YState → Nat × Res CState
  | [], y =>
    (0, (yySteps file 20 (readTok y none) (some none)).bind fun r =>
      match r with
      | .accept v => .ok v
      | .token _ => .stuck)
  | .ub u :: _, _ => (0, .ub u)
  | .tok t un :: rest, y =>
    let r := match yySteps file 20 (readTok y (some t)) (some (some t)) with
      | .ok (.token y') => yyRun file rest y'
      | .ok (.accept v) => (0, .ok v)
      | .exit n => (0, .exit n)
      | .ub u => (0, .ub u)
      | .stuck => (0, .stuck)
    (r.1 + (if un then 1 else 0), r.2)

/-- `yyparse`, config_file_yacc.c:1036-1464, with the variables of the actions set to `vars`. -/
def yyParse (file : Bytes) (items : List LexItem) (vars : CState) : Nat × Res CState :=
  match yySteps file 20 { stack := [(0, .junk)], lval := .junk, vars := vars } none with
  | .ok (.token y) => yyRun file items y
  | .ok (.accept v) => (0, .ok v)
  | .exit n => (0, .exit n)
  | .ub u => (0, .ub u)
  | .stuck => (0, .stuck)

end Detox
