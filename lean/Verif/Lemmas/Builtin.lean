import Verif.Lemmas.Table
import Verif.Model.Builtin

/-!
# Facts about the built-in tables
-/

set_option autoImplicit false

namespace Detox

theorem forall_byte {p : Byte → Prop} (h : ∀ n : Fin 256, p (UInt8.ofFin n)) (c : Byte) : p c := by
  have := h c.toFin
  simpa using this

theorem safe_get (k : Nat) : tableGet load_builtin_safe_table k = lastRow builtin_safe_rows k :=
  resize_get _ _ _ (by decide +kernel) k

theorem iso_get (k : Nat) : tableGet load_builtin_iso8859_1_table k = lastRow builtin_iso8859_1_rows k :=
  resize_get _ _ _ (by decide +kernel) k

theorem unicode_get (k : Nat) : tableGet load_builtin_unicode_table k = lastRow builtin_unicode_rows k :=
  resize_get _ _ _ (by decide +kernel) k

theorem cp1252_get (k : Nat) : tableGet load_builtin_cp1252_table k = lastRow builtin_cp1252_rows k :=
  resize_get _ _ _ (by decide +kernel) k

theorem safe_max : load_builtin_safe_table.maxDataLength = 5 := by decide +kernel
theorem iso_max : load_builtin_iso8859_1_table.maxDataLength = 2 := by decide +kernel
theorem unicode_max : load_builtin_unicode_table.maxDataLength = 1 := by decide +kernel
theorem cp1252_max : load_builtin_cp1252_table.maxDataLength = 3 := by decide +kernel

theorem safe_default : load_builtin_safe_table.defaultTranslation = none := by
  rw [load_builtin_safe_table, tableResize_eq, tableCopyRows_default]; rfl
theorem iso_default : load_builtin_iso8859_1_table.defaultTranslation = some [0x5F] := by
  rw [load_builtin_iso8859_1_table, tableResize_eq, tableCopyRows_default]; rfl
theorem unicode_default : load_builtin_unicode_table.defaultTranslation = none := by
  rw [load_builtin_unicode_table, tableResize_eq, tableCopyRows_default]; rfl
theorem cp1252_default : load_builtin_cp1252_table.defaultTranslation = none := by
  rw [load_builtin_cp1252_table, tableResize_eq, tableCopyRows_default]; rfl

end Detox
