import Verif.Spec.Main

/-!
# What `-L` should show
-/

set_option autoImplicit false

namespace Detox.Spec

/-- A number written in decimal without leading zeros. -/
def Decimal (bs : Bytes) (n : Nat) : Prop :=
  bs ≠ [] ∧ (∀ b ∈ bs, 0x30 ≤ b ∧ b ≤ 0x39) ∧ bs.foldl (fun v b => 10 * v + (b.toNat - 0x30)) 0 = n ∧
  (bs.head? = some 0x30 → bs = [0x30])

/-- Which of the sequences is the one that would be used. -/
def Marked (qs : List Sequence) (name : Option Bytes) (marks : List Bool) : Prop :=
  marks.length = qs.length ∧ ∀ (i : Nat) (q : Sequence), qs[i]? = some q → (marks[i]? = some true ↔ Chosen qs name q)

/-- The mark. -/
def star (b : Bool) : Bytes := if b then lit " (*)" else []

/-- One line for each sequence. -/
inductive ShortList : List Sequence → List Bool → Bytes → Prop
  | nil : ShortList [] [] []
  | cons (q : Sequence) (b : Bool) (qs : List Sequence) (bs : List Bool) (t : Bytes) : ShortList qs bs t →
      ShortList (q :: qs) (b :: bs) (lit "\t" ++ q.name ++ star b ++ lit "\n" ++ t)

/-- How the cleaners are called. -/
inductive Called : Cleaner → Bytes → Prop
  | uncgi : Called .uncgi (lit "uncgi")
  | safe : Called .safe (lit "safe")
  | wipeup : Called .wipeup (lit "wipeup")
  | iso8859_1 : Called .iso8859_1 (lit "iso8859_1")
  | utf8 : Called .utf8 (lit "utf_8")
  | maxLength : Called .maxLength (lit "max length")
  | lower : Called .lower (lit "lower")

/-- The lines about the options of a filter. -/
inductive OptionLines (f : Filter) : List Bytes → Prop
  | wipeupYes : f.cleaner = .wipeup → f.removeTrailing = true → OptionLines f [lit "remove trailing: yes"]
  | wipeupNo : f.cleaner = .wipeup → f.removeTrailing = false → OptionLines f [lit "remove trailing: no"]
  | length (d : Bytes) : f.cleaner = .maxLength → Decimal d f.maxLength → OptionLines f [lit "length: " ++ d]
  | none : f.cleaner ≠ .wipeup → f.cleaner ≠ .maxLength → OptionLines f []

/-- The line about its table. -/
inductive TableLine (f : Filter) : List Bytes → Prop
  | builtin (b : Bytes) : f.builtin = some b → TableLine f [lit "builtin table: " ++ b]
  | file (p : Bytes) : f.builtin = none → f.filename = some p → TableLine f [lit "translation table: " ++ p]
  | none : f.builtin = none → f.filename = none → TableLine f []

/-- Indented lines. -/
def indented (tabs : Nat) (lines : List Bytes) : Bytes := lines.flatMap fun l => List.replicate tabs 0x09 ++ l ++ [0x0A]

/-- All about the filters of a sequence. -/
inductive Described : List Filter → Bytes → Prop
  | nil : Described [] []
  | cons (f : Filter) (fs : List Filter) (n t : Bytes) (os ts : List Bytes) : Called f.cleaner n → OptionLines f os →
      TableLine f ts → Described fs t → Described (f :: fs) (indented 1 [lit "cleaner: " ++ n] ++ indented 2 (os ++ ts) ++ t)

/-- All about a sequence. -/
def Block (q : Sequence) (b : Bool) (t : Bytes) : Prop :=
  ∃ source fs, q.sourceFilename = some source ∧ Described q.filters fs ∧
    t = lit "sequence name: " ++ q.name ++ star b ++ lit "\n" ++ indented 1 [lit "source file: " ++ source] ++ fs

/-- Blocks separated by empty lines. -/
inductive LongList : List Sequence → List Bool → Bytes → Prop
  | nil : LongList [] [] []
  | one (q : Sequence) (b : Bool) (t : Bytes) : Block q b t → LongList [q] [b] t
  | more (q p : Sequence) (b a : Bool) (qs : List Sequence) (bs : List Bool) (t u : Bytes) : Block q b t →
      LongList (p :: qs) (a :: bs) u → LongList (q :: p :: qs) (b :: a :: bs) (t ++ lit "\n" ++ u)

/-- The names to ignore. -/
def ignoredPart (ws : List Bytes) : Bytes :=
  if ws = [] then [] else lit "\nfiles to ignore:\n" ++ indented 1 ws

end Detox.Spec
