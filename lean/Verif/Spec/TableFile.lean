import Verif.Spec.Cgi

/-!
# Specification: the translation table format of detox.tbl(5)

A file is a list of sections; `Section.Text` says how a section may be written as lines. The number
of ways to write it is generous (indentation, letter case of keywords, three number bases, three
quoting styles, trailing comments, comment and blank lines anywhere). Nothing here refers to the parser.
-/

set_option autoImplicit false

namespace Detox.Spec

/-- White space inside a line. -/
def Blank (c : Byte) : Prop := c = 0x20 ∨ c = 0x09 ∨ c = 0x0B ∨ c = 0x0C ∨ c = 0x0D

instance (c : Byte) : Decidable (Blank c) := by unfold Blank; infer_instance

def Blanks (s : Bytes) : Prop := ∀ c ∈ s, Blank c

instance (s : Bytes) : Decidable (Blanks s) := by unfold Blanks; infer_instance

/-- ASCII letters lose their case. -/
def fold (c : Byte) : Byte := if 0x41 ≤ c.toNat ∧ c.toNat ≤ 0x5A then c + 0x20 else c

/-- `ds` are digits of a number in base `base` (most significant first), with value `v`. -/
inductive Digits (base : Nat) : Bytes → Nat → Prop
  | nil : Digits base [] 0
  | snoc (ds : Bytes) (v : Nat) (h : Byte) (x : Nat) :
      Digits base ds v → HexDigit h x → x < base → Digits base (ds ++ [h]) (base * v + x)

/-- `text` writes the number `v`: decimal, octal with a leading 0, or hexadecimal with 0x. -/
inductive Numeral : Bytes → Nat → Prop
  | dec (d : Byte) (ds : Bytes) (v : Nat) : d ≠ 0x30 → Digits 10 (d :: ds) v → Numeral (d :: ds) v
  | oct (ds : Bytes) (v : Nat) : Digits 8 ds v → Numeral (0x30 :: ds) v
  | hex (x : Byte) (ds : Bytes) (v : Nat) : x = 0x78 ∨ x = 0x58 → ds ≠ [] → Digits 16 ds v →
      Numeral (0x30 :: x :: ds) v

/-- `text` writes the word `w`, followed by an arbitrary remark. -/
inductive Word : Bytes → Bytes → Prop
  | dquote (w remark : Bytes) : (∀ c ∈ w, c ≠ 0x22) → Word (0x22 :: (w ++ 0x22 :: remark)) w
  | squote (w remark : Bytes) : (∀ c ∈ w, c ≠ 0x27) → Word (0x27 :: (w ++ 0x27 :: remark)) w
  | bare (c : Byte) (w remark : Bytes) : c ≠ 0x22 → c ≠ 0x27 → (∀ x ∈ c :: w, ¬ Blank x) →
      (remark = [] ∨ ∃ b r, remark = b :: r ∧ Blank b) → Word (c :: w ++ remark) (c :: w)

/-- A line carrying nothing: a comment or blank. -/
inductive NoteLine : Bytes → Prop
  | comment (t : Bytes) : NoteLine (0x23 :: t)
  | blank (ws : Bytes) : Blanks ws → NoteLine ws

/-- A line inside a value list; `some (code, translation)` or nothing. -/
inductive EntryLine : Bytes → Option (Nat × Bytes) → Prop
  | note (l : Bytes) : NoteLine l → EntryLine l none
  | row (ws num ws' text : Bytes) (code : Nat) (data : Bytes) : Blanks ws → Numeral num code →
      Blanks ws' → ws' ≠ [] → Word text data → 0 < code → code < 2 ^ 31 →
      EntryLine (ws ++ num ++ ws' ++ text) (some (code, data))

/-- The lines inside a value list. -/
inductive Entries : List Bytes → List (Nat × Bytes) → Prop
  | nil : Entries [] []
  | note (l : Bytes) (ls : List Bytes) (rows : List (Nat × Bytes)) :
      EntryLine l none → Entries ls rows → Entries (l :: ls) rows
  | row (l : Bytes) (ls : List Bytes) (r : Nat × Bytes) (rows : List (Nat × Bytes)) :
      EntryLine l (some r) → Entries ls rows → Entries (l :: ls) (r :: rows)

/-- `line` is the keyword `kw` (in any letter case), possibly indented, followed by blanks. -/
inductive KeywordLine (kw : Bytes) : Bytes → Prop
  | mk (ws k ws' : Bytes) : Blanks ws → k.map fold = kw → Blanks ws' → KeywordLine kw (ws ++ k ++ ws')

/-- `line` is the keyword `kw` followed by the word `w`. -/
inductive KeywordWordLine (kw : Bytes) : Bytes → Bytes → Prop
  | mk (ws k ws' text w : Bytes) : Blanks ws → k.map fold = kw → Blanks ws' → ws' ≠ [] → Word text w →
      w ≠ [] → KeywordWordLine kw (ws ++ k ++ ws' ++ text) w

/-- The top level of a table file. -/
inductive Section where
  /-- comment or blank line -/
  | note
  /-- `default` without a translation -/
  | noDefault
  /-- `default TRANSLATION` -/
  | dflt (d : Bytes)
  /-- `start` ... `end` -/
  | block (rows : List (Nat × Bytes))
  /-- `start LANG` ... `end` -/
  | langBlock (lang : Bytes) (rows : List (Nat × Bytes))

/-- `start` etc. as bytes. -/
def kwStart : Bytes := [0x73, 0x74, 0x61, 0x72, 0x74]
def kwEnd : Bytes := [0x65, 0x6E, 0x64]
def kwDefault : Bytes := [0x64, 0x65, 0x66, 0x61, 0x75, 0x6C, 0x74]

/-- The lines a section may be written as. -/
inductive Section.Text : List Bytes → Section → Prop
  | note (l : Bytes) : NoteLine l → Section.Text [l] .note
  | noDefault (l : Bytes) : KeywordLine kwDefault l → Section.Text [l] .noDefault
  | dflt (l d : Bytes) : KeywordWordLine kwDefault l d → Section.Text [l] (.dflt d)
  | block (l : Bytes) (body : List Bytes) (rows : List (Nat × Bytes)) (e : Bytes) :
      KeywordLine kwStart l → Entries body rows → KeywordLine kwEnd e →
      Section.Text (l :: body ++ [e]) (.block rows)
  | langBlock (l lang : Bytes) (body : List Bytes) (rows : List (Nat × Bytes)) (e : Bytes) :
      KeywordWordLine kwStart l lang → Entries body rows → KeywordLine kwEnd e →
      Section.Text (l :: body ++ [e]) (.langBlock lang rows)

/-- The lines of a whole file. -/
inductive FileLines : List Bytes → List Section → Prop
  | nil : FileLines [] []
  | cons (ls : List Bytes) (sec : Section) (rest : List Bytes) (secs : List Section) :
      Section.Text ls sec → FileLines rest secs → FileLines (ls ++ rest) (sec :: secs)

/-- Lines fit the documented format: text without NUL or newline, at most 1022 bytes. -/
def GoodLine (l : Bytes) : Prop := l.length ≤ 1022 ∧ ∀ c ∈ l, c ≠ 0 ∧ c ≠ 0x0A

/-- `content` is the file with these lines; the last newline may be missing. -/
def HasLines (content : Bytes) (ls : List Bytes) : Prop :=
  (∀ l ∈ ls, GoodLine l) ∧
  (content = (ls.map (· ++ [0x0A])).flatten ∨ content ++ [0x0A] = (ls.map (· ++ [0x0A])).flatten)

/-- `lang` is a prefix of the locale name, letter case ignored. -/
def LangMatches (lang locale : Bytes) : Prop := ∃ rest, locale.map fold = lang.map fold ++ rest

instance (lang locale : Bytes) : Decidable (LangMatches lang locale) :=
  decidable_of_iff (lang.map fold <+: locale.map fold)
    ⟨fun ⟨r, h⟩ => ⟨r, h.symm⟩, fun ⟨r, h⟩ => ⟨r, h.symm⟩⟩

/-- The rows that take effect under a locale, in order. -/
def effectiveRows (locale : Bytes) : List Section → List (Nat × Bytes)
  | [] => []
  | .block rows :: rest => rows ++ effectiveRows locale rest
  | .langBlock lang rows :: rest =>
    (if LangMatches lang locale then rows else []) ++ effectiveRows locale rest
  | _ :: rest => effectiveRows locale rest

/-- The translation of a code: the last row wins. -/
def lastOf (rows : List (Nat × Bytes)) (k : Nat) : Option Bytes :=
  (rows.reverse.find? (fun r => r.1 = k)).map Prod.snd

/-- The default translation: the last `default` line wins. -/
def effectiveDefault : List Section → Option Bytes → Option Bytes
  | [], d => d
  | .noDefault :: rest, _ => effectiveDefault rest none
  | .dflt d :: rest, _ => effectiveDefault rest (some d)
  | _ :: rest, d => effectiveDefault rest d

end Detox.Spec
