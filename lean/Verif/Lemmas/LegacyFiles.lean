import Verif.Lemmas.Legacy

/-!
# What the four legacy tables say
-/

set_option autoImplicit false

namespace Detox
open Spec

/-! ### cp1252.tbl -/

theorem cp1252_body : (legacy_cp1252_body.all partOK) = true := by decide +kernel
theorem cp1252_upwards : upwardsParts 0 legacy_cp1252_body = true := by decide +kernel

theorem says_cp1252 (locale : Bytes) : SaysTable locale legacy_cp1252 ⟨lastOf (bodyRows legacy_cp1252_body), none⟩ :=
  says_one (h := legacy_cp1252_0) (s := (5, 0x7374617274)) (e := (3, 0x656e64)) (ps := legacy_cp1252_body) (.plain _ (by decide +kernel))
    (by decide +kernel) cp1252_body (by decide +kernel) (by decide +kernel) (by decide +kernel) locale

/-! ### iso8859_1.tbl -/

theorem iso_body : (legacy_iso8859_1_body.all partOK) = true := by decide +kernel
theorem iso_german : ([legacy_iso8859_1_7].all partOK) = true := by decide +kernel
theorem iso_upwards : upwardsParts 0 legacy_iso8859_1_body = true := by decide +kernel
theorem iso_head : HeadSays legacy_iso8859_1_0 (some (lit "_")) := by
  have h : legacy_iso8859_1_0 = legacy_iso8859_1_0.take 17 ++ (10, 0x64656661756c7409095f) :: [] := by decide +kernel
  rw [h]
  exact .dflt _ _ _ (by decide +kernel) (by decide +kernel) rfl

theorem says_iso (locale : Bytes) : SaysTable locale legacy_iso8859_1
    ⟨lastOf (bodyRows legacy_iso8859_1_body ++ if LangMatches (lit "de") locale then bodyRows [legacy_iso8859_1_7] else []), some (lit "_")⟩ :=
  says_german (h := legacy_iso8859_1_0) (s := (5, 0x7374617274)) (e := (3, 0x656e64)) (n := legacy_iso8859_1_5) (s' := (9, 0x737461727409096465))
    (e' := (3, 0x656e64)) (ps := legacy_iso8859_1_body) (ps' := [legacy_iso8859_1_7]) iso_head
    (by decide +kernel) iso_body (by decide +kernel) (by decide +kernel) (by decide +kernel) iso_german (by decide +kernel) (by decide +kernel)
    (by decide +kernel) locale

/-! ### unicode.tbl -/

theorem unicode_body : (legacy_unicode_body.all partOK) = true := by decide +kernel
theorem unicode_german : ([legacy_unicode_13].all partOK) = true := by decide +kernel
theorem unicode_upwards : upwardsParts 0 legacy_unicode_body = true := by decide +kernel
theorem unicode_self : selfRows 32 (legacy_unicode_body.map partRows).flatten = true := by decide +kernel
theorem unicode_head : HeadSays legacy_unicode_0 (some (lit "_")) := by
  have h : legacy_unicode_0 = legacy_unicode_0.take 33 ++ (10, 0x64656661756c7409095f) :: legacy_unicode_0.drop 34 := by decide +kernel
  rw [h]
  exact .dflt _ _ _ (by decide +kernel) (by decide +kernel) (by decide +kernel)

theorem says_unicode (locale : Bytes) : SaysTable locale legacy_unicode
    ⟨lastOf (bodyRows legacy_unicode_body ++ if LangMatches (lit "de") locale then bodyRows [legacy_unicode_13] else []), some (lit "_")⟩ :=
  says_german (h := legacy_unicode_0) (s := (5, 0x7374617274)) (e := (3, 0x656e64)) (n := legacy_unicode_11) (s' := (9, 0x737461727409096465))
    (e' := (3, 0x656e64)) (ps := legacy_unicode_body) (ps' := [legacy_unicode_13]) unicode_head
    (by decide +kernel) unicode_body (by decide +kernel) (by decide +kernel) (by decide +kernel) unicode_german (by decide +kernel) (by decide +kernel)
    (by decide +kernel) locale

/-! ### unidecode.tbl -/

theorem unidecode_body : (legacy_unidecode_body.all partOK) = true := by decide +kernel
theorem unidecode_upwards : upwardsParts 0 legacy_unidecode_body = true := by decide +kernel
theorem unidecode_self : selfRows 32 (legacy_unidecode_body.map partRows).flatten = true := by decide +kernel
theorem unidecode_head : HeadSays legacy_unidecode_0 (some (lit "_")) := by
  have h : legacy_unidecode_0 = legacy_unidecode_0.take 15 ++ (10, 0x64656661756c7409095f) :: legacy_unidecode_0.drop 16 := by decide +kernel
  rw [h]
  exact .dflt _ _ _ (by decide +kernel) (by decide +kernel) (by decide +kernel)

theorem says_unidecode (locale : Bytes) : SaysTable locale legacy_unidecode ⟨lastOf (bodyRows legacy_unidecode_body), some (lit "_")⟩ :=
  says_one (h := legacy_unidecode_0) (s := (5, 0x7374617274)) (e := (3, 0x656e64)) (ps := legacy_unidecode_body) unidecode_head
    (by decide +kernel) unidecode_body (by decide +kernel) (by decide +kernel) (by decide +kernel) locale

end Detox
