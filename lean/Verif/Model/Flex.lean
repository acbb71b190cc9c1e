import Verif.Model.FlexTables
import Verif.Model.Config

/-!
# The generated scanner — `/repo/src/config_file_lex.c:764-968`

`Model/Config.lean` has the scanner as its rules say (`lexStep`); this is the one flex made of them, which is what is compiled. Both are
proved equal in `Props/Scanner.lean`.

The input is one list. How `yylex` refills its buffer, and how it tells a NUL in the text from the end of the buffer (lines 976-1091:
it goes back to the state before, and takes the transition for class 1 as in `yy_get_previous_state` and `yy_try_NUL_trans`), is left
out.
-/

set_option autoImplicit false

namespace Detox

/-- The `while` and the assignment after it, config_file_lex.c:807-813, which `yy_get_previous_state` and `yy_try_NUL_trans` have
too. `none`: an access outside a table, or no end after as many rounds as the first argument says. -/
def yyNextState : Nat → Nat → Nat → Option Nat
  | 0, _, _ => none
  | n + 1, s, c =>
    (yyBase[s]?).bind fun b =>
    (yyChk[b + c]?).bind fun k =>
      if k = s then yyNxt[b + c]?
      else
        (yyDef[s]?).bind fun d =>
        (if d ≥ 111 then yyMeta[c]? else some c).bind fun c' => yyNextState n d c'

/-- The class of a character: line 801, and for NUL `yy_get_previous_state`. -/
def yyClass (c : Byte) : Option Nat := if c = 0 then some 1 else yyEc[c.toNat]?

/-- The loop of config_file_lex.c:799-825, from state `s` after `k` characters; `last` is the last accepting state's rule and position.
The result is the rule (`yy_act`) and the length of the match. At the end of the input see `EOB_ACT_LAST_MATCH`, line 1083. -/
def yyMatch : Nat → Nat → Option (Nat × Nat) → Bytes → Option (Nat × Nat)
  | s, k, last, [] => (yyAccept[s]?).bind fun a => if a ≠ 0 then some (a, k) else last
  | s, k, last, c :: rest =>
    (yyAccept[s]?).bind fun a =>
    (yyClass c).bind fun e =>
    (yyNextState 4 s e).bind fun s' =>
    (yyBase[s']?).bind fun b =>
      if b ≠ 234 then yyMatch s' (k + 1) (if a ≠ 0 then some (a, k) else last) rest
      else
        (yyAccept[s']?).bind fun a' => if a' ≠ 0 then some (a', k + 1) else if a ≠ 0 then some (a, k) else last

/-- The actions, config_file_lex.c:842-968. For rule 19 see `quotedItem`. -/
def flexAction (text : Bytes) : Nat → Option (Option LexItem)
  | 1 | 2 | 3 | 23 => some none
  | 4 => some (some (.tok (.kw .builtin) false))
  | 5 => some (some (.tok (.kw .filename) false))
  | 6 => some (some (.tok (.kw .ignore) false))
  | 7 => some (some (.tok (.kw .iso8859_1) false))
  | 8 => some (some (.tok (.kw .length) false))
  | 9 => some (some (.tok (.kw .lower) false))
  | 10 => some (some (.tok (.kw .maxLength) false))
  | 11 => some (some (.tok (.kw .removeTrailing) false))
  | 12 => some (some (.tok (.kw .safe) false))
  | 13 => some (some (.tok (.kw .sequence) false))
  | 14 => some (some (.tok (.kw .uncgi) false))
  | 15 => some (some (.tok (.kw .utf8) false))
  | 16 => some (some (.tok (.kw .wipeup) false))
  | 17 => some (some (.tok .opn false))
  | 18 => some (some (.tok .cls false))
  | 19 => (text.getLast?).bind fun last => some (some (quotedItem text.tail.dropLast last))
  | 20 => some (some (.tok (.ident text) false))
  | 21 => some (some (numberItem text))
  | 22 => some (some (.tok .eol false))
  | _ => none

/-- One match and its action, config_file_lex.c:786-968: what comes out, and the rest of the input. -/
def flexStep (c : Byte) (s : Bytes) : Option (Option LexItem × Bytes) :=
  (yyMatch 1 0 none (c :: s)).bind fun m =>
  (flexAction ((c :: s).take m.2) m.1).bind fun i => some (i, (c :: s).drop m.2)

/-- The scanner run to the end of the input. The first argument bounds the number of matches. -/
def flexAll : Nat → Bytes → Option (List LexItem)
  | _, [] => some []
  | 0, _ :: _ => none
  | n + 1, c :: s =>
    (flexStep c s).bind fun r =>
    (flexAll n r.2).bind fun is => some (match r.1 with | some i => i :: is | none => is)

end Detox
