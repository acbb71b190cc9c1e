import Verif.Model.Sys

/-!
# What inline mode is to do

A text is a series of chunks; a chunk is a piece of a line, or a whole line, and says whether a newline follows.
-/

set_option autoImplicit false

namespace Detox.Spec

/-- A piece of text, and whether a newline follows it. -/
abbrev Chunk := Bytes × Bool

/-- The text of a chunk with its newline. -/
def Chunk.full (c : Chunk) : Bytes := c.1 ++ (if c.2 then [0x0A] else [])

/-- Everything written to standard output. -/
def outText : List Event → Bytes
  | [] => []
  | .out s :: tr => s ++ outText tr
  | _ :: tr => outText tr

/-- A text broken into chunks: nothing is lost, pieces contain no newline, and a piece that is not followed by a newline is
the last one or has at least 1007 bytes. -/
inductive Chunks : Bytes → List Chunk → Prop
  | nil : Chunks [] []
  | line (l rest : Bytes) (cs : List Chunk) : (0x0A : Byte) ∉ l → l.length ≤ 1006 → Chunks rest cs →
      Chunks (l ++ [0x0A] ++ rest) ((l, true) :: cs)
  | piece (l rest : Bytes) (cs : List Chunk) : (0x0A : Byte) ∉ l → 1007 ≤ l.length → l.length ≤ 1012 → Chunks rest cs →
      Chunks (l ++ rest) ((l, false) :: cs)
  | last (l : Bytes) : (0x0A : Byte) ∉ l → l ≠ [] → l.length ≤ 1007 → Chunks l [(l, false)]

/-- What is left of the input starts with at most five continuation bytes followed by its end or a NUL byte. -/
def BackOut (s : Bytes) : Prop := ∃ p r, s = p ++ r ∧ p.length ≤ 5 ∧ (∀ c ∈ p, 0x80 ≤ c.toNat ∧ c.toNat < 0xC0) ∧
  (r = [] ∨ r.head? = some 0)

end Detox.Spec
