import Verif.Spec.Wipeup
import Verif.Spec.Cgi

/-!
# Names there is nothing to do about

Independent of the code.
-/

set_option autoImplicit false

namespace Detox.Spec

/-- Control characters, DEL, space, and ``! " $ & ' ( ) * / : ; < > ? @ [ \ ] ` { | }``. -/
def Unsafe (c : Byte) : Prop :=
  c.toNat ≤ 0x20 ∨ c.toNat = 0x7F ∨ ∃ x ∈ "!\"$&'()*/:;<>?@[\\]`{|}".toList, c.toNat = x.toNat

/-- No unsafe character, no `-`, `_` or `#` in front, no two of `-`, `_`, `.` in a row. -/
structure Tidy (s : Bytes) : Prop where
  safe : ∀ c ∈ s, ¬ Unsafe c
  front : ∀ c, s.head? = some c → c ≠ 0x2D ∧ c ≠ 0x5F ∧ c ≠ 0x23
  apart : ∀ p a b q, s = p ++ a :: b :: q → ¬ ((a = 0x2D ∨ a = 0x5F ∨ a = 0x2E) ∧ (b = 0x2D ∨ b = 0x5F ∨ b = 0x2E))

/-- There is something to decode. -/
def CgiEncoded (s : Bytes) : Prop :=
  (0x2B : Byte) ∈ s ∨ ∃ p h1 h2 q v1 v2, s = p ++ 0x25 :: h1 :: h2 :: q ∧ HexDigit h1 v1 ∧ HexDigit h2 v2

end Detox.Spec
