import Verif.Model.Base

/-!
# The documented meaning of `wipeup` (man/detoxrc.5, WIPEUP; README)

Independent of the code.
-/

set_option autoImplicit false

namespace Detox.Spec

/-- The characters that are reduced: `-`, `_`, and `.` with `remove_trailing`. -/
def reducible (rt : Bool) (c : Byte) : Bool := c = 0x2D || c = 0x5F || (rt && c = 0x2E)

/-- The character that replaces a run: `.` wins over `-`, which wins over `_`. -/
def runChar (run : Bytes) : Byte :=
  if 0x2E ∈ run then 0x2E else if 0x2D ∈ run then 0x2D else 0x5F

/-- `Reduces rt s o`: `o` is `s` with every maximal run of reducible characters replaced by one. -/
inductive Reduces (rt : Bool) : Bytes → Bytes → Prop where
  | nil : Reduces rt [] []
  | keep (c : Byte) (s o : Bytes) : reducible rt c = false → Reduces rt s o → Reduces rt (c :: s) (c :: o)
  | run (r s o : Bytes) : r ≠ [] → (∀ c ∈ r, reducible rt c = true) →
      (∀ c, s.head? = some c → reducible rt c = false) → Reduces rt s o →
      Reduces rt (r ++ s) (runChar r :: o)

/-- Characters removed from the front of a name. -/
def leading (c : Byte) : Bool := c = 0x2D || c = 0x5F || c = 0x23

/-- `wipeup` as documented: drop leading `-`, `_`, `#`, then reduce runs. -/
def IsWipeup (rt : Bool) (s o : Bytes) : Prop := Reduces rt (s.dropWhile leading) o

end Detox.Spec
