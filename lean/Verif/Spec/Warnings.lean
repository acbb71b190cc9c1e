import Verif.Spec.Utf8
import Verif.Model.Sys

/-!
# What a string consists of, to a UTF-8 decoder, and what there is to say about it
-/

set_option autoImplicit false

namespace Detox.Spec

/-- A complete unit with its value; a byte that begins no unit; a unit that is cut off, by the end of the string or by another character. -/
inductive Piece where
  | unit (v : Nat)
  | stray
  | cut (atEnd : Bool)
  deriving DecidableEq, Repr

/-- `Pieces s ps`: the string `s` is cut into `ps`. -/
inductive Pieces : Bytes → List Piece → Prop
  | nil : Pieces [] []
  | unit (u : Bytes) (v : Nat) (rest : Bytes) (ps : List Piece) : IsUnit u v → Pieces rest ps → Pieces (u ++ rest) (.unit v :: ps)
  | stray (c : Byte) (rest : Bytes) (ps : List Piece) : leadOf c = none → Pieces rest ps → Pieces (c :: rest) (.stray :: ps)
  | cutEnd (c : Byte) (conts : Bytes) (w base : Nat) : leadOf c = some (w, base) → (∀ x ∈ conts, isCont x = true) → conts.length + 1 < w →
      Pieces (c :: conts) [.cut true]
  | cut (c : Byte) (conts : Bytes) (w base : Nat) (d : Byte) (rest : Bytes) (ps : List Piece) : leadOf c = some (w, base) →
      (∀ x ∈ conts, isCont x = true) → conts.length + 1 < w → isCont d = false → Pieces (d :: rest) ps →
      Pieces (c :: conts ++ d :: rest) (.cut false :: ps)

/-- A number in eight hexadecimal digits. -/
def hex8 (v : Nat) : Bytes :=
  (List.range 8).map fun i => (lit "0123456789ABCDEF").getD (v / 16 ^ (7 - i) % 16) 0

/-- What is said about a piece; `known` are the characters in the table. -/
inductive Remark (known : Nat → Prop) : Piece → List Bytes → Prop
  | fine (v : Nat) : known v ∨ (v ≠ 0 ∧ v ≤ 0x10FFFF) → Remark known (.unit v) []
  | null (v : Nat) : ¬ known v → v = 0 → Remark known (.unit v) [lit "detox: warning: UTF-8 encoded NULL encountered\n"]
  | beyond (v : Nat) : ¬ known v → 0x10FFFF < v →
      Remark known (.unit v) [lit "detox: warning: unicode character 0x" ++ hex8 v ++ lit " is invalid\n"]
  | stray : Remark known .stray [lit "detox: warning: invalid encoding\n"]
  | cutEnd : Remark known (.cut true) [lit "detox: warning: UTF-8 sequence ended unexpectedly (null)\n"]
  | cut : Remark known (.cut false) [lit "detox: warning: UTF-8 sequence ended unexpectedly (missing con't)\n"]

/-- What is said about some pieces. -/
inductive Remarks (known : Nat → Prop) : List Piece → List Bytes → Prop
  | nil : Remarks known [] []
  | cons (p : Piece) (ps : List Piece) (m ms : List Bytes) : Remark known p m → Remarks known ps ms → Remarks known (p :: ps) (m ++ ms)

/-- The messages that the rest of the model leaves out. -/
def Warning (s : Bytes) : Prop :=
  lit "detox: warning: " <+: s ∨ lit "warning: max_length " <+: s ∨ lit "Failed to add row 0x" <+: s ∨
    s = lit "Unable to open translation table: " ∨ s = lit "internal error\n"

/-- `tr'` is `tr` with messages in between. -/
inductive Sprinkled : List Event → List Event → Prop
  | nil : Sprinkled [] []
  | same (e : Event) (tr tr' : List Event) : Sprinkled tr tr' → Sprinkled (e :: tr) (e :: tr')
  | more (s : Bytes) (tr tr' : List Event) : Warning s → Sprinkled tr tr' → Sprinkled tr (.err s :: tr')

end Detox.Spec
