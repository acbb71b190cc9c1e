import Verif.Lemmas.Lexer

/-!
# The scanner as an automaton that reads off its rules
-/

set_option autoImplicit false

namespace Detox

open Spec

/-- What the scanner knows after some characters. In `word` the keywords that can still come, each without what was read. -/
inductive LexState where
  | start | other | blank | newline | comment | opn | cls | eol | quote | inside | quoted | number | jam
  | word (rs : List (Bytes × Kw))
  deriving DecidableEq, Repr

/-- The keywords that still can come after one more character. -/
def afterLetter (c : Byte) (rs : List (Bytes × Kw)) : List (Bytes × Kw) :=
  rs.filterMap fun p => match p.1 with
    | [] => none
    | x :: w => if x = toLowerC c then some (w, p.2) else none

/-- One character. -/
def LexState.step : LexState → Byte → LexState
  | .start, c =>
    if c = 0x20 || c = 0x09 then .blank
    else if c = 0x23 then .comment
    else if c = 0x0A then .newline
    else if c = 0x7B then .opn
    else if c = 0x7D then .cls
    else if c = 0x3B then .eol
    else if c = 0x22 then .quote
    else if isLetter c then .word (afterLetter c keywords)
    else if isDigitByte c then .number
    else .other
  | .blank, c => if c = 0x20 || c = 0x09 then .blank else .jam
  | .comment, c => if c ≠ 0x0A then .comment else .jam
  | .quote, c | .inside, c => if c ≠ 0x22 && c ≠ 0x0A then .inside else .quoted
  | .number, c => if isDigitByte c then .number else .jam
  | .word rs, c => if isWordByte c then .word (afterLetter c rs) else .jam
  | _, _ => .jam

/-- The number of the rule for a keyword. -/
def kwRule : Kw → Nat
  | .builtin => 4 | .filename => 5 | .ignore => 6 | .iso8859_1 => 7 | .length => 8 | .lower => 9 | .maxLength => 10
  | .removeTrailing => 11 | .safe => 12 | .sequence => 13 | .uncgi => 14 | .utf8 => 15 | .wipeup => 16

/-- The rule that matches what was read, 0 if none does. -/
def LexState.rule : LexState → Nat
  | .start | .inside | .jam => 0
  | .blank => 1 | .comment => 2 | .newline => 3 | .opn => 17 | .cls => 18 | .quoted => 19 | .number => 21 | .eol => 22
  | .other | .quote => 23
  | .word rs => match rs.lookup [] with | some k => kwRule k | none => 20

/-- States that no character leaves. -/
def LexState.final : LexState → Bool
  | .other | .newline | .opn | .cls | .eol | .quoted | .jam => true
  | _ => false

/-- The longest match. -/
def LexState.run : LexState → Nat → Option (Nat × Nat) → Bytes → Option (Nat × Nat)
  | l, k, last, [] => if l.rule ≠ 0 then some (l.rule, k) else last
  | l, k, last, c :: rest =>
    let last' := if l.rule ≠ 0 then some (l.rule, k) else last
    if (l.step c).final then (if (l.step c).rule ≠ 0 then some ((l.step c).rule, k + 1) else last')
    else (l.step c).run (k + 1) last' rest

theorem jam_final : LexState.jam.final = true := rfl

theorem jam_rule : LexState.jam.rule = 0 := rfl

/-! ### States with a loop -/

theorem run_loop {l : LexState} {p : Byte → Bool} (hr : l.rule ≠ 0) (hf : l.final = false)
    (h1 : ∀ c, p c = true → l.step c = l) (h2 : ∀ c, p c = false → l.step c = .jam) :
    ∀ (s : Bytes) (k : Nat) (last : Option (Nat × Nat)), l.run k last s = some (l.rule, k + (s.takeWhile p).length)
  | [], k, last => by simp [LexState.run, hr]
  | c :: s, k, last => by
    cases hc : p c with
    | true =>
      simp only [LexState.run, h1 c hc, hf, Bool.false_eq_true, if_false]
      rw [run_loop hr hf h1 h2 s, List.takeWhile_cons_of_pos hc, List.length_cons]
      congr 2
      omega
    | false =>
      simp only [LexState.run, h2 c hc, jam_final, jam_rule, if_true, ne_eq, not_true_eq_false, if_false]
      rw [if_pos (by exact hr), List.takeWhile_cons_of_neg (by simp [hc])]
      rfl

theorem run_blank (s : Bytes) (k : Nat) (last : Option (Nat × Nat)) :
    LexState.blank.run k last s = some (1, k + (s.takeWhile fun x => x = 0x20 || x = 0x09).length) :=
  run_loop (p := fun x => x = 0x20 || x = 0x09) (by decide) rfl (fun c h => by simp only [LexState.step]; rw [if_pos h])
    (fun c h => by simp only [LexState.step]; rw [if_neg (by simp [h])]) s k last

theorem run_comment (s : Bytes) (k : Nat) (last : Option (Nat × Nat)) :
    LexState.comment.run k last s = some (2, k + (s.takeWhile fun x => x ≠ 0x0A).length) :=
  run_loop (p := fun x => x ≠ 0x0A) (by decide) rfl
    (fun c h => by simp only [LexState.step]; rw [if_pos (by simpa using h)])
    (fun c h => by simp only [LexState.step]; rw [if_neg (by simpa using h)]) s k last

theorem run_number (s : Bytes) (k : Nat) (last : Option (Nat × Nat)) :
    LexState.number.run k last s = some (21, k + (s.takeWhile isDigitByte).length) :=
  run_loop (p := isDigitByte) (by decide) rfl (fun c h => by simp only [LexState.step]; rw [if_pos h])
    (fun c h => by simp only [LexState.step]; rw [if_neg (by simp [h])]) s k last

/-! ### Words -/

/-- The keywords that still can come after some more characters. -/
def afterWord (rs : List (Bytes × Kw)) : Bytes → List (Bytes × Kw)
  | [] => rs
  | c :: w => afterWord (afterLetter c rs) w

theorem kwRule_ne : ∀ k : Kw, kwRule k ≠ 0 := by intro k; cases k <;> decide

theorem word_rule_ne (rs : List (Bytes × Kw)) : (LexState.word rs).rule ≠ 0 := by
  simp only [LexState.rule]
  split
  · exact kwRule_ne _
  · decide

theorem run_word (s : Bytes) : ∀ (rs : List (Bytes × Kw)) (k : Nat) (last : Option (Nat × Nat)),
    (LexState.word rs).run k last s =
      some ((LexState.word (afterWord rs (s.takeWhile isWordByte))).rule, k + (s.takeWhile isWordByte).length) := by
  induction s with
  | nil => intro rs k last; simp [LexState.run, word_rule_ne, afterWord]
  | cons c s ih =>
    intro rs k last
    cases hc : isWordByte c with
    | true =>
      have : (LexState.word rs).step c = .word (afterLetter c rs) := by simp [LexState.step, hc]
      simp only [LexState.run, this, LexState.final, Bool.false_eq_true, if_false]
      rw [ih, List.takeWhile_cons_of_pos hc]
      simp only [afterWord, List.length_cons]
      congr 2
      omega
    | false =>
      have : (LexState.word rs).step c = .jam := by simp [LexState.step, hc]
      simp only [LexState.run, this, LexState.final, if_true]
      rw [if_neg (by simp [LexState.rule]), if_pos (word_rule_ne rs), List.takeWhile_cons_of_neg (by simp [hc])]
      rfl

theorem lookup_afterLetter (c : Byte) (w : Bytes) : ∀ rs : List (Bytes × Kw),
    (afterLetter c rs).lookup (w.map toLowerC) = rs.lookup ((c :: w).map toLowerC)
  | [] => rfl
  | (v, k) :: rs => by
    have ih := lookup_afterLetter c w rs
    unfold afterLetter at ih ⊢
    rw [List.filterMap_cons]
    cases v with
    | nil =>
      simp only
      rw [ih]
      simp [List.lookup]
    | cons x v =>
      simp only
      by_cases hx : x = toLowerC c
      · rw [if_pos hx]
        simp only [List.lookup, List.map_cons, ih]
        subst hx
        by_cases hv : w.map toLowerC = v
        · simp [hv]
        · have e1 : (List.map toLowerC w == v) = false := by simpa using hv
          have e2 : (toLowerC c :: List.map toLowerC w == toLowerC c :: v) = false := by simpa using hv
          rw [e1, e2]
      · rw [if_neg hx]
        simp only [List.lookup, List.map_cons, ih]
        have e2 : (toLowerC c :: List.map toLowerC w == x :: v) = false := by
          simp only [beq_eq_false_iff_ne, ne_eq, List.cons.injEq, not_and]
          intro e; exact absurd e.symm hx
        rw [e2]

theorem lookup_afterWord (w : Bytes) : ∀ rs : List (Bytes × Kw), (afterWord rs w).lookup [] = rs.lookup (w.map toLowerC) := by
  induction w with
  | nil => intro rs; rfl
  | cons c w ih => intro rs; rw [afterWord, ih, lookup_afterLetter]

/-! ### Quoted strings -/

theorem run_inside (s : Bytes) : ∀ (k : Nat) (last : Option (Nat × Nat)),
    LexState.inside.run k last s =
      match s.dropWhile (fun x => x ≠ 0x22 && x ≠ 0x0A) with
      | [] => last
      | _ :: _ => some (19, k + (s.takeWhile fun x => x ≠ 0x22 && x ≠ 0x0A).length + 1) := by
  induction s with
  | nil => intro k last; rfl
  | cons c s ih =>
    intro k last
    cases hc : (decide (c ≠ 0x22) && decide (c ≠ 0x0A)) with
    | true =>
      have : LexState.inside.step c = .inside := by
        simp only [LexState.step]; rw [if_pos hc]
      simp only [LexState.run, this, LexState.final, Bool.false_eq_true, if_false]
      rw [if_neg (by decide : ¬ LexState.inside.rule ≠ 0), ih, List.dropWhile_cons_of_pos (by simpa using hc), List.takeWhile_cons_of_pos (by simpa using hc)]
      simp only [List.length_cons]
      split
      · rfl
      · congr 2; omega
    | false =>
      have : LexState.inside.step c = .quoted := by
        simp only [LexState.step]; rw [if_neg (by rw [hc]; decide)]
      simp only [LexState.run, this, LexState.final, LexState.rule, if_true]
      rw [List.dropWhile_cons_of_neg (by rw [hc]; decide), List.takeWhile_cons_of_neg (by rw [hc]; decide)]
      rfl

theorem run_quote (s : Bytes) (k : Nat) (last : Option (Nat × Nat)) :
    LexState.quote.run k last s =
      match s.dropWhile (fun x => x ≠ 0x22 && x ≠ 0x0A) with
      | [] => some (23, k)
      | _ :: _ => some (19, k + (s.takeWhile fun x => x ≠ 0x22 && x ≠ 0x0A).length + 1) := by
  cases s with
  | nil => rfl
  | cons c s =>
    cases hc : (decide (c ≠ 0x22) && decide (c ≠ 0x0A)) with
    | true =>
      have : LexState.quote.step c = .inside := by
        simp only [LexState.step]; rw [if_pos hc]
      simp only [LexState.run, this, LexState.final, LexState.rule, Bool.false_eq_true, if_false]
      rw [run_inside, List.dropWhile_cons_of_pos (by simpa using hc), List.takeWhile_cons_of_pos (by simpa using hc)]
      simp only [List.length_cons]
      split
      · rfl
      · congr 2; omega
    | false =>
      have : LexState.quote.step c = .quoted := by
        simp only [LexState.step]; rw [if_neg (by rw [hc]; decide)]
      simp only [LexState.run, this, LexState.final, LexState.rule, if_true]
      rw [List.dropWhile_cons_of_neg (by rw [hc]; decide), List.takeWhile_cons_of_neg (by rw [hc]; decide)]
      rfl

end Detox
