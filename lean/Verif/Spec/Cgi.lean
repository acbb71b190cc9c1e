import Verif.Model.Base

/-!
# Specification: CGI (URL) encoding
-/

set_option autoImplicit false

namespace Detox.Spec

/-- `h` is a hexadecimal digit with value `v`. -/
def HexDigit (h : Byte) (v : Nat) : Prop :=
  (v < 10 ∧ h.toNat = 0x30 + v) ∨
  (10 ≤ v ∧ v < 16 ∧ (h.toNat = 0x41 + (v - 10) ∨ h.toNat = 0x61 + (v - 10)))

instance (h : Byte) (v : Nat) : Decidable (HexDigit h v) := by unfold HexDigit; infer_instance

/-- `enc` is a CGI encoding of `text`: each byte is written as `%XX` (either case), a space may be
written `+`, and every byte other than `%` and `+` may be written as itself. -/
inductive Encodes : Bytes → Bytes → Prop
  | nil : Encodes [] []
  | esc (c h1 h2 : Byte) (text enc : Bytes) (d1 : HexDigit h1 (c.toNat / 16)) (d2 : HexDigit h2 (c.toNat % 16)) :
      Encodes text enc → Encodes (c :: text) (0x25 :: h1 :: h2 :: enc)
  | plus (text enc : Bytes) : Encodes text enc → Encodes (0x20 :: text) (0x2B :: enc)
  | self (c : Byte) (text enc : Bytes) (hp : c ≠ 0x25) (hq : c ≠ 0x2B) :
      Encodes text enc → Encodes (c :: text) (c :: enc)

/-- Full decoding of any string (NUL bytes included), leaving stray `%` alone. -/
inductive Decodes : Bytes → Bytes → Prop
  | nil : Decodes [] []
  | esc (h1 h2 : Byte) (v1 v2 : Nat) (rest out : Bytes) (d1 : HexDigit h1 v1) (d2 : HexDigit h2 v2) :
      Decodes rest out → Decodes (0x25 :: h1 :: h2 :: rest) (UInt8.ofNat (16 * v1 + v2) :: out)
  | plus (rest out : Bytes) : Decodes rest out → Decodes (0x2B :: rest) (0x20 :: out)
  | self (c : Byte) (rest out : Bytes) (hq : c ≠ 0x2B)
      (hp : c = 0x25 → ¬ ∃ h1 h2 tl v1 v2, rest = h1 :: h2 :: tl ∧ HexDigit h1 v1 ∧ HexDigit h2 v2) :
      Decodes rest out → Decodes (c :: rest) (c :: out)

end Detox.Spec
