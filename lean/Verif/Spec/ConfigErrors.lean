import Verif.Spec.Config
import Verif.Spec.Listing

/-!
# What a message about a syntax error should say
-/

set_option autoImplicit false

namespace Detox.Spec

/-- These tokens can be continued to a config file. -/
def Viable (ts : List Tok) : Prop := ∃ more rs, ConfigG (ts ++ more) rs

/-- `pre` consists of these tokens, in any layout, if `rest` follows. -/
inductive Begins : List Tok → Bytes → Bytes → Prop
  | gap (g rest : Bytes) : Gap g → Begins [] g rest
  | tok (g : Bytes) (t : Tok) (w : Bytes) (ts : List Tok) (pre rest : Bytes) : Gap g → Spelling t w → Ends t (pre ++ rest) →
      Begins ts pre rest → Begins (t :: ts) (g ++ w ++ pre) rest

/-- The newlines of a text. -/
def newlines (text : Bytes) : Nat := text.count 0x0A

/-- The message about a syntax error in `file`: a line, and the text that is blamed. -/
def ErrorText (file : Bytes) (line : Nat) (blamed text : Bytes) : Prop :=
  ∃ d, Decimal d line ∧
    text = lit "detox: error parsing config file " ++ file ++ lit ": syntax error\n\tline " ++ d ++ lit ": " ++ blamed ++ lit "\n"

/-- The strings without closing quote. -/
def unclosed : List LexItem → Nat
  | [] => 0
  | .tok _ true :: is => unclosed is + 1
  | .tok _ false :: is => unclosed is
  | .ub _ :: is => unclosed is

/-- The tokens. -/
def tokensOf : List LexItem → List Tok
  | [] => []
  | .tok t _ :: is => t :: tokensOf is
  | .ub _ :: is => tokensOf is

/-- How a token is written; if `un`, then without the closing quote, at the end of a line. -/
inductive Written : Tok → Bool → Bytes → Prop
  | closed (t : Tok) (w : Bytes) : Spelling t w → Written t false w
  | unclosed (s : Bytes) : (0x22 : Byte) ∉ s → (0x0A : Byte) ∉ s → (0x00 : Byte) ∉ s →
      Written (.qstring (s ++ lit "\n")) true (lit "\"" ++ s ++ lit "\n")

/-- Where a text that is not a config file goes wrong: `w` is the first token that no config file can have there, or nothing at the end
of the text, and `before` is everything up to it. -/
inductive Fault (text : Bytes) : Bytes → Bytes → Prop
  | token (before w after : Bytes) (t : Tok) (un : Bool) : text = before ++ w ++ after →
      lex text = lex before ++ .tok t un :: lex after → lex w = [.tok t un] → Written t un w → Viable (tokensOf (lex before)) →
      ¬ Viable (tokensOf (lex before) ++ [t]) → Fault text before w
  | unfinished : Viable (tokensOf (lex text)) → (∀ rs, ¬ ConfigG (tokensOf (lex text)) rs) → Fault text text []

/-- The newlines of the files that were read, and the strings without closing quote in them. -/
def newlinesRead : List (Bytes × Option Bytes) → Nat
  | [] => 0
  | (_, some text) :: reads => newlines text + newlinesRead reads
  | (_, none) :: reads => newlinesRead reads

def unclosedRead : List (Bytes × Option Bytes) → Nat
  | [] => 0
  | (_, some text) :: reads => unclosed (lex text) + unclosedRead reads
  | (_, none) :: reads => unclosedRead reads

end Detox.Spec
