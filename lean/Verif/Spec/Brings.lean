import Verif.Model.Filter

/-!
# Which bytes a filter can bring into a name, and which it takes out
-/

set_option autoImplicit false

namespace Detox.Spec

/-- The byte `b` is in a translation of the table, or in its default. -/
def TableHas (t : Table) (b : Byte) : Prop :=
  (∃ k d, tableGet t k = some d ∧ b ∈ d) ∨ ∃ d, t.defaultTranslation = some d ∧ b ∈ d

/-- `f` can put the byte `b` into a name that has no `b`: tables have what they have, `utf_8` has `_hidden_null_` and `_` besides, `lower` makes small
letters, `uncgi` makes everything; `wipeup` and `max_length` only take away. -/
def Brings (f : Filter) (b : Byte) : Prop :=
  match f.cleaner with
  | .iso8859_1 | .safe => ∃ t, f.table = some t ∧ TableHas t b
  | .utf8 => b ∈ lit "_hidden_null_" ∨ ∃ t, f.table = some t ∧ TableHas t b
  | .lower => 0x61 ≤ b.toNat ∧ b.toNat ≤ 0x7A
  | .uncgi => True
  | .maxLength | .wipeup => False

/-- `f` replaces every `b`: its table has a default, or a translation of `b`. Of `iso8859_1` this holds for bytes above 127 only, of `utf_8` without a
default for bytes below 128 only. `lower` replaces the capital letters. -/
def Replaces (P : Platform) (f : Filter) (b : Byte) : Prop :=
  match f.cleaner with
  | .safe => ∀ t, f.table = some t → t.defaultTranslation ≠ none ∨ tableGet t (P.charToUInt b) ≠ none
  | .iso8859_1 => 0x80 ≤ b.toNat ∧ ∀ t, f.table = some t → t.defaultTranslation ≠ none ∨ tableGet t b.toNat ≠ none
  | .utf8 => ∀ t, f.table = some t → t.defaultTranslation ≠ none ∨ (b.toNat < 0x80 ∧ tableGet t b.toNat ≠ none)
  | .lower => 0x41 ≤ b.toNat ∧ b.toNat ≤ 0x5A
  | .uncgi | .maxLength | .wipeup => False

/-- The filters let no `b` through: some filter replaces it and does not bring it in, nor does any of those after it. -/
def KeepsOut (P : Platform) (fs : List Filter) (b : Byte) : Prop :=
  ∃ pre f post, fs = pre ++ f :: post ∧ Replaces P f b ∧ ∀ g ∈ f :: post, ¬ Brings g b

end Detox.Spec
