import Verif.Model.Base

/-!
# Specification: what counts as the extension of a file name
-/

set_option autoImplicit false

namespace Detox.Spec

/-- The last dot of `s` is at index `d`. -/
def LastDot (s : Bytes) (d : Nat) : Prop := s[d]? = some 0x2E ∧ ∀ j, d < j → s[j]? ≠ some 0x2E

/-- `s` has no extension: no dot at all, or its last dot is its last character. -/
def NoExtension (s : Bytes) : Prop :=
  (∀ j : Nat, s[j]? ≠ some 0x2E) ∨ LastDot s (s.length - 1)

/-- The extension of `s` starts at index `e`: it starts at the last dot, unless another dot (not the
first character) lies at most five characters before; then at the closest such dot. -/
def ExtensionAt (s : Bytes) (e : Nat) : Prop :=
  ∃ d, LastDot s d ∧ d + 1 < s.length ∧
    ((e = d ∧ ∀ i, 0 < i → i < d → d ≤ i + 5 → s[i]? ≠ some 0x2E) ∨
     (0 < e ∧ e < d ∧ d ≤ e + 5 ∧ s[e]? = some 0x2E ∧ ∀ i, e < i → i < d → s[i]? ≠ some 0x2E))

end Detox.Spec
