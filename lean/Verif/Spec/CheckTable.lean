import Verif.Spec.TableFile
import Verif.Model.Base

/-!
# Specification: the report of check-table
-/

set_option autoImplicit false

namespace Detox.Spec

/-- The rows outside of language blocks. -/
def plainRows : List Section → List (Nat × Bytes)
  | [] => []
  | .block rows :: secs => rows ++ plainRows secs
  | _ :: secs => plainRows secs

/-- The translations of all `default` lines. -/
def allDefaults : List Section → List Bytes
  | [] => []
  | .dflt d :: secs => d :: allDefaults secs
  | _ :: secs => allDefaults secs

/-- Something worth a line of the report. -/
inductive Notice where
  /-- a block for a language is passed over -/
  | skipped (lang : Bytes)
  /-- the code comes after a greater one, in the same block -/
  | after (code previous : Nat)
  /-- the code comes right after itself -/
  | twice (code : Nat)
  /-- the longest row has `rows` bytes, but `all` are needed -/
  | length (rows all : Nat)
  deriving DecidableEq

/-- Notices on the order of the rows of a block, after the code `previous`. -/
def rowNotices : Nat → List (Nat × Bytes) → List Notice
  | _, [] => []
  | previous, (k, _) :: rows =>
    (if k < previous then [.after k previous] else if k = previous then [.twice k] else []) ++ rowNotices k rows

/-- Notices on the sections. -/
def sectionNotices : List Section → List Notice
  | [] => []
  | .block rows :: secs => rowNotices 0 rows ++ sectionNotices secs
  | .langBlock lang _ :: secs => .skipped lang :: sectionNotices secs
  | _ :: secs => sectionNotices secs

/-- Notices on blocks for languages alone. -/
def skippedBlocks : List Section → List Notice
  | [] => []
  | .langBlock lang _ :: secs => .skipped lang :: skippedBlocks secs
  | _ :: secs => skippedBlocks secs

/-- The number of bytes of the longest string. -/
def longest (ds : List Bytes) : Nat := (ds.map List.length).foldr max 0

/-- The room one character may need: one byte if it is kept, or that of a row, or that of a default translation. -/
def neededRoom (secs : List Section) : Nat := max 1 (max (longest ((plainRows secs).map Prod.snd)) (longest (allDefaults secs)))

/-- The whole report. -/
def notices (secs : List Section) : List Notice :=
  sectionNotices secs ++
    (if longest ((plainRows secs).map Prod.snd) = neededRoom secs then []
     else [.length (longest ((plainRows secs).map Prod.snd)) (neededRoom secs)])

/-- At least four hexadecimal digits, capital ones. -/
def UpperHex (text : Bytes) (n : Nat) : Prop :=
  Digits 16 text n ∧ 4 ≤ text.length ∧ (text.length = 4 ∨ text.head? ≠ some 0x30) ∧ ∀ c ∈ text, ¬ (0x61 ≤ c.toNat ∧ c.toNat ≤ 0x66)

/-- At least four hexadecimal digits, small ones. -/
def LowerHex (text : Bytes) (n : Nat) : Prop :=
  Digits 16 text n ∧ 4 ≤ text.length ∧ (text.length = 4 ∨ text.head? ≠ some 0x30) ∧ ∀ c ∈ text, ¬ (0x41 ≤ c.toNat ∧ c.toNat ≤ 0x46)

/-- A decimal number without leading zeros. -/
def DecimalText (text : Bytes) (n : Nat) : Prop := Digits 10 text n ∧ text ≠ [] ∧ (text.head? = some 0x30 → n = 0)

/-- How a notice is written. -/
inductive Notice.Text : Notice → Bytes → Prop
  | skipped (lang : Bytes) : Notice.Text (.skipped lang) (lit "skipping language subsection for " ++ lang ++ lit "\n")
  | after (k p : Nat) (a b : Bytes) : UpperHex a k → UpperHex b p →
      Notice.Text (.after k p) (lit "warning - code 0x" ++ a ++ lit " appears after 0x" ++ b ++ lit "\n")
  | twice (k : Nat) (a : Bytes) : UpperHex a k → Notice.Text (.twice k) (lit "warning - code 0x" ++ a ++ lit " appears twice in a row\n")
  | length (m n : Nat) (a b : Bytes) : DecimalText a m → DecimalText b n →
      Notice.Text (.length m n) (lit "warning - table max length (" ++ a ++ lit ") doesn't match our calculation (" ++ b ++ lit ")\n")

/-- Line by line. -/
inductive Report : List Notice → List Bytes → Prop
  | nil : Report [] []
  | cons (n : Notice) (t : Bytes) (ns : List Notice) (ts : List Bytes) : n.Text t → Report ns ts → Report (n :: ns) (t :: ts)

/-! ### The listing -/

/-- A place of the table with its code and translation, or an empty one. -/
abbrev Place := Nat × Option (Nat × Bytes)

/-- How a place is written. -/
inductive PlaceText : Place → Bytes → Prop
  | entry (i k : Nat) (d a b : Bytes) : DecimalText a i → LowerHex b k →
      PlaceText (i, some (k, d)) (lit "index: " ++ a ++ lit ", key: 0x" ++ b ++ lit ", data: " ++ d ++ lit "\n")
  | empty (i : Nat) (a : Bytes) : DecimalText a i → PlaceText (i, none) (lit "index: " ++ a ++ lit ", empty\n")

/-- Line by line. -/
inductive ListingText : List Place → Bytes → Prop
  | nil : ListingText [] []
  | cons (p : Place) (t : Bytes) (ps : List Place) (ts : Bytes) : PlaceText p t → ListingText ps ts → ListingText (p :: ps) (t ++ ts)

/-- A listing of the translations `look` out of a table with `size` places: in the order of the places, every translation once, and
empty places if and only if `verbose`. -/
structure Listing (size : Nat) (verbose : Bool) (look : Nat → Option Bytes) (ps : List Place) : Prop where
  ordered : ps.Pairwise fun p q => p.1 < q.1
  entries : ∀ k d, look k = some d ↔ ∃ i, (i, some (k, d)) ∈ ps
  once : ∀ i j k d d', (i, some (k, d)) ∈ ps → (j, some (k, d')) ∈ ps → i = j
  places : ∀ p ∈ ps, p.1 < size
  empties : ∀ i, (i, none) ∈ ps ↔ verbose = true ∧ i < size ∧ ∀ k d, (i, some (k, d)) ∉ ps

/-! ### The statistics -/

/-- The number of different codes. -/
def DifferentCodes (rows : List (Nat × Bytes)) (n : Nat) : Prop :=
  ∃ ks : List Nat, ks.Nodup ∧ ks.length = n ∧ ∀ k, k ∈ ks ↔ ∃ d, (k, d) ∈ rows

/-- The greatest code, or 0. -/
def GreatestCode (rows : List (Nat × Bytes)) (n : Nat) : Prop :=
  (∀ r ∈ rows, r.1 ≤ n) ∧ (rows = [] ∧ n = 0 ∨ ∃ r ∈ rows, r.1 = n)

/-- The numbers of the statistics. -/
structure Statistics where
  used : Nat
  available : Nat
  hits : Nat
  misses : Nat
  seeks : Nat
  overwrites : Nat
  longest : Nat
  greatest : Nat
  default : Bytes

/-- What the statistics say about the rows of a file. -/
structure Statistics.Describe (s : Statistics) (rows : List (Nat × Bytes)) : Prop where
  hits : s.hits = rows.length
  misses : s.misses = 0
  seeks : s.seeks ≤ rows.length
  overwrites : ∃ n, DifferentCodes rows n ∧ n + s.overwrites = rows.length
  longest : s.longest = Spec.longest (rows.map Prod.snd)
  greatest : GreatestCode rows s.greatest

/-- How the statistics are written; `percent` is how 100 times a quotient is. -/
def Statistics.Text (percent : Nat → Nat → Bytes) (s : Statistics) (text : Bytes) : Prop :=
  ∃ a b c d e f g h, DecimalText a s.used ∧ DecimalText b s.available ∧ DecimalText c s.hits ∧ DecimalText d s.misses ∧
    DecimalText e s.seeks ∧ DecimalText f s.overwrites ∧ DecimalText g s.longest ∧ LowerHex h s.greatest ∧
    text = lit "used: " ++ a ++ lit "\navailable: " ++ b ++ lit "\nused percent: " ++ percent s.used s.available ++ lit "\nhits: " ++ c ++
      lit "\nmisses: " ++ d ++ lit "\nseeks: " ++ e ++ lit "\noverwrites: " ++ f ++ lit "\nlongest entry: " ++ g ++
      lit "\ndefault translation: " ++ s.default ++ lit "\nmaximum key: 0x" ++ h ++ lit "\n"

end Detox.Spec
