import Verif.Spec.Denote
import Verif.Spec.Tidy

/-!
# Transliteration to ASCII (`/repo/table/legacy`)
-/

set_option autoImplicit false

namespace Detox.Spec

/-- Only printable ASCII characters and spaces. -/
def Printable (s : Bytes) : Prop := ∀ c ∈ s, 0x20 ≤ c.toNat ∧ c.toNat ≤ 0x7E

/-- All that a table puts in for a character it has is printable ASCII. -/
def TableText.Plain (m : TableText) : Prop := ∀ k d, m.row k = some d → Printable d

/-- A filter that works with the file `text`, under the name given in the config file. -/
structure UsesFile (files : Bytes → Option Bytes) (f : Filter) (c : Cleaner) (text : Bytes) : Prop where
  cleaner : f.cleaner = c
  builtin : f.builtin = none
  filename : ∃ path, f.filename = some path ∧ files path = some text

end Detox.Spec
