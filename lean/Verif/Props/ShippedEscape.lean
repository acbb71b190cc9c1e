import Verif.Model.ShippedEscape
import Verif.Props.GenTable
import Verif.Lemmas.EscapeUtf8

/-!
# C24, C51: the table of escape-utf-8 and the file it was made from
-/

set_option autoImplicit false

namespace Detox

open Spec

/-- The rows of table/c_escape.tbl as loaded. -/
def c_escape_file_rows : List (Nat × Bytes) := actionRows (lineActions [] false shipped_c_escape_lines)

theorem shipped_c_escape_loads (ctype : Bytes) : ∃ t, parseTableContent ctype shipped_c_escape = some t ∧ t.WF ∧
    (∀ k, tableGet t k = lastOf c_escape_file_rows k) ∧ t.defaultTranslation = none :=
  load_shipped _ _ _ (by decide +kernel) (by decide +kernel) (by decide +kernel) rfl
    (by decide +kernel) (by decide +kernel) (by decide +kernel) ctype

theorem c_escape_get (k : Nat) : tableGet (tableResize builtin_c_escape_table 0x110000 true) k = lastRow builtin_c_escape_rows k :=
  resize_get _ _ _ (by rw [show usedRows builtin_c_escape_table.rows = 36 by decide +kernel]; decide) k

theorem c_escape_default : (tableResize builtin_c_escape_table 0x110000 true).defaultTranslation = none := by
  rw [tableResize_eq, tableCopyRows_default]
  rfl

/-- The characters of ASCII that table/c_escape.tbl has: control characters, quotes, `?` and the backslash. -/
def Escaped (k : Nat) : Prop := 0 < k ∧ k < 0x20 ∨ k = 0x22 ∨ k = 0x27 ∨ k = 0x3F ∨ k = 0x5C ∨ k = 0x7F

instance (k : Nat) : Decidable (Escaped k) := by unfold Escaped; infer_instance

/-- **C24.** table/c_escape.tbl holds the translations of the table in escape_utf_8.c, whatever the locale: the escapes of C for control
characters, quotes, `?` and the backslash, and nothing else. -/
theorem C24_c_escape_file_equals_builtin (locale : Bytes) :
    ∃ t, parseTableContent locale shipped_c_escape = some t ∧
      (∀ k, tableGet t k = tableGet (tableResize builtin_c_escape_table 0x110000 true) k) ∧
      (∀ k, tableGet t k = if Escaped k then some (cEscape k) else none) ∧ t.defaultTranslation = none := by
  obtain ⟨t, h1, _, h2, h3⟩ := shipped_c_escape_loads locale
  refine ⟨t, h1, fun k => ?_, fun k => ?_, h3⟩
  · rw [h2 k, c_escape_get, lastRow_eq_lastOf]
    exact lastOf_agree (by decide +kernel) k
  · rw [h2 k]
    by_cases hk : k < 0x80
    · have : ∀ k < 0x80, lastOf c_escape_file_rows k = if Escaped k then some (cEscape k) else none := by decide +kernel
      exact this k hk
    · rw [if_neg (by unfold Escaped; omega)]
      refine lastOf_eq_none fun r hr => ?_
      have : ∀ r ∈ c_escape_file_rows, r.1 < 0x80 := by decide +kernel
      have := this r hr
      omega

/-- **C51.** The table in escape_utf_8.c agrees with what generate-builtin-table makes of table/c_escape.tbl. -/
theorem C51_c_escape_is_generated : GeneratesBuiltin shipped_c_escape (tableResize builtin_c_escape_table 0x110000 true) :=
  fun ctype files path args h => shipped_defines (shipped_c_escape_loads ctype) (by decide +kernel) (by decide +kernel) (by simp)
    c_escape_get c_escape_default (by decide +kernel) files path h args

/- What is in the file. -/
example : lastOf c_escape_file_rows 0x22 = some (lit "\\\"") ∧ lastOf c_escape_file_rows 0x27 = some (lit "\\'") ∧
    lastOf c_escape_file_rows 0x0A = some (lit "\\n") ∧ c_escape_file_rows.length = 36 := by decide +kernel

end Detox
