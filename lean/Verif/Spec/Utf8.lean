import Verif.Model.Base

/-!
# Specification: UTF-8 (RFC 3629), and the looser lead/continuation structure of RFC 2279
-/

set_option autoImplicit false

namespace Detox.Spec

/-- Unicode scalar values. -/
def Scalar (cp : Nat) : Prop := cp < 0xD800 ∨ (0xE000 ≤ cp ∧ cp ≤ 0x10FFFF)

instance (cp : Nat) : Decidable (Scalar cp) := by unfold Scalar; infer_instance

/-- RFC 3629, section 3. -/
def encode (cp : Nat) : Bytes :=
  if cp < 0x80 then [UInt8.ofNat cp]
  else if cp < 0x800 then [UInt8.ofNat (0xC0 + cp / 64), UInt8.ofNat (0x80 + cp % 64)]
  else if cp < 0x10000 then
    [UInt8.ofNat (0xE0 + cp / 4096), UInt8.ofNat (0x80 + cp / 64 % 64), UInt8.ofNat (0x80 + cp % 64)]
  else
    [UInt8.ofNat (0xF0 + cp / 262144), UInt8.ofNat (0x80 + cp / 4096 % 64), UInt8.ofNat (0x80 + cp / 64 % 64),
     UInt8.ofNat (0x80 + cp % 64)]

/-- `s` is well-formed UTF-8. -/
def ValidUtf8 (s : Bytes) : Prop := ∃ cps : List Nat, (∀ cp ∈ cps, Scalar cp) ∧ s = cps.flatMap encode

/-- Number of bytes announced by a lead byte, and the smallest lead byte of that width. -/
def leadOf (c : Byte) : Option (Nat × Nat) :=
  if c.toNat < 0x80 then some (1, 0)
  else if c.toNat < 0xC0 then none
  else if c.toNat < 0xE0 then some (2, 0xC0)
  else if c.toNat < 0xF0 then some (3, 0xE0)
  else if c.toNat < 0xF8 then some (4, 0xF0)
  else if c.toNat < 0xFC then some (5, 0xF8)
  else if c.toNat < 0xFE then some (6, 0xFC)
  else none

/-- Continuation bytes `10xxxxxx`. -/
def isCont (c : Byte) : Bool := 0x80 ≤ c.toNat && c.toNat < 0xC0

/-- `u` is a complete lead+continuation unit with value `v`. -/
def IsUnit (u : Bytes) (v : Nat) : Prop :=
  ∃ c conts w base, u = c :: conts ∧ leadOf c = some (w, base) ∧ conts.length + 1 = w ∧
    (∀ x ∈ conts, isCont x = true) ∧ v = conts.foldl (fun acc x => acc * 64 + (x.toNat - 0x80)) (c.toNat - base)

/-- `s` splits into complete units, each satisfying `p`. -/
inductive Units (p : Bytes → Nat → Prop) : Bytes → Prop
  | nil : Units p []
  | cons (u : Bytes) (v : Nat) (rest : Bytes) : IsUnit u v → p u v → Units p rest → Units p (u ++ rest)

end Detox.Spec
