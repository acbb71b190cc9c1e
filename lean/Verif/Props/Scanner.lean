import Verif.Lemmas.Flex
import Verif.Lemmas.Lexer

/-!
# C73 — the compiled scanner of config files
-/

set_option autoImplicit false

namespace Detox

/-- **C73.** On every input that is not over the tables of the generated scanner stay inside themselves, find a match, and the match
and its action are the ones that the rules say. -/
theorem C73_scanner_match (c : Byte) (s : Bytes) : flexStep c s = some (lexStep c s) := flexStep_eq c s

theorem flexAll_eq (n : Nat) (s : Bytes) (h : s.length ≤ n) : flexAll n s = some (lexAll n s) := by
  induction n generalizing s with
  | zero =>
    cases s with
    | nil => rfl
    | cons c s => simp at h
  | succ n ih =>
    cases s with
    | nil => rfl
    | cons c s =>
      have hl := lexStep_length c s
      simp only [List.length_cons] at h
      simp only [flexAll, lexAll, flexStep_eq, Option.bind_some]
      rw [ih _ (by omega), Option.bind_some]
      cases (lexStep c s).1 <;> rfl

/-- **C73.** The generated scanner reads every file — any bytes at all — to its end without leaving its tables, and gives the tokens
that the rules say. -/
theorem C73_scanner_file (s : Bytes) : flexAll s.length s = some (lex s) := flexAll_eq s.length s (Nat.le_refl _)

/-- **C73.** The lines: whatever the scanner stands at, it finds a rule, and it is the one that increments `config_file_lineno`
(`case 3`, config_file_lex.l:26) exactly at a newline. -/
theorem C73_scanner_lines (c : Byte) (s : Bytes) : ∃ rule n, yyMatch 1 0 none (c :: s) = some (rule, n) ∧ (rule = 3 ↔ c = 0x0A) := by
  rw [yyMatch_run _ start_stands rfl]
  exact run_newline c s

/-- A file with all kinds of tokens, a comment, stray characters and keywords in several cases, through the tables. -/
example : flexAll 80 (lit "Sequence \"a b\" { # x\n\tMAX_LENGTH { length 16; }; } ; $ safely\n") = some [
    .tok (.kw .sequence) false, .tok (.qstring (lit "a b")) false, .tok .opn false, .tok (.kw .maxLength) false, .tok .opn false,
    .tok (.kw .length) false, .tok (.nvalue 16) false, .tok .eol false, .tok .cls false, .tok .eol false, .tok .cls false,
    .tok .eol false, .tok (.ident (lit "safely")) false] := by decide +kernel

end Detox
