import Verif.Spec.Utf8

/-!
# Specification: `\uXXXX` in a C string literal (C11 6.4.3), UTF-8 execution character set
-/

set_option autoImplicit false

namespace Detox.Spec

/-- Value of a hexadecimal digit. -/
def hexOf (c : Byte) : Option Nat :=
  if 0x30 ≤ c.toNat ∧ c.toNat ≤ 0x39 then some (c.toNat - 0x30)
  else if 0x41 ≤ c.toNat ∧ c.toNat ≤ 0x46 then some (c.toNat - 0x41 + 10)
  else if 0x61 ≤ c.toNat ∧ c.toNat ≤ 0x66 then some (c.toNat - 0x61 + 10)
  else none

/-- Replace a leading `\uXXXX` by the character it names; anything else is kept. -/
def expandU : Bytes → Bytes
  | 0x5C :: 0x75 :: a :: b :: c :: d :: rest =>
    match hexOf a, hexOf b, hexOf c, hexOf d with
    | some a, some b, some c, some d => encode (4096 * a + 256 * b + 16 * c + d) ++ rest
    | _, _, _, _ => 0x5C :: 0x75 :: rest
  | s => s

end Detox.Spec
