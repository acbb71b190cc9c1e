import Verif.Lemmas.Buf
import Verif.Lemmas.Builtin
import Verif.Model.ConfigFile

/-!
# Running the built-in sequences
-/

set_option autoImplicit false

namespace Detox

/-- What `detox -s name` does to a file name when it has no configuration file: take the built-in
configuration, choose the sequence, load its tables, run it. (`E` stands for the table files on disk.) -/
def runBuiltin (P : Platform) (E : TableEnv) (name : Option Bytes) (s : Bytes) : Res (Option Bytes) := do
  let cfg ← spoofConfigFile
  match sequenceChooseDefault cfg.sequences name with
  | none => .exit 1
  | some q =>
    let q ← sequenceReview E q
    sequenceRunFilters P (some q) (some s)

/-- The built-in safe filter, table loaded. -/
def safeF : Filter := { generateFilter .safe with table := some load_builtin_safe_table }
def wipeF : Filter := generateWipeupFilter true
def lowerF : Filter := generateFilter .lower
def uncgiF : Filter := generateFilter .uncgi
def isoF : Filter := { generateBuiltinFilter .iso8859_1 (lit "iso8859_1") with table := some load_builtin_iso8859_1_table }
def cpF : Filter := { generateBuiltinFilter .iso8859_1 (lit "cp1252") with table := some load_builtin_cp1252_table }
def utf8F : Filter := { generateBuiltinFilter .utf8 (lit "unicode") with table := some load_builtin_unicode_table }

/-- The filters of each built-in sequence, in order. -/
def builtinFilters : List (Bytes × List Filter) := [
  (lit "default", [safeF, wipeF]),
  (lit "iso8859_1", [isoF, safeF, wipeF]),
  (lit "iso8859_1-legacy", [cpF, isoF, safeF, wipeF]),
  (lit "utf_8", [utf8F, safeF, wipeF]),
  (lit "uncgi", [uncgiF, safeF, wipeF]),
  (lit "lower", [safeF, lowerF, wipeF]),
  (lit "iso8859_1-only", [isoF]),
  (lit "cp1252-only", [cpF]),
  (lit "utf_8-only", [utf8F]),
  (lit "uncgi-only", [uncgiF]),
  (lit "lower-only", [lowerF])]

theorem load_safe (E : TableEnv) : filterLoadTable E (generateFilter .safe) = .ok (some load_builtin_safe_table) := rfl
theorem load_wipe (E : TableEnv) : filterLoadTable E (generateWipeupFilter true) = .ok none := rfl
theorem load_lower (E : TableEnv) : filterLoadTable E (generateFilter .lower) = .ok none := rfl
theorem load_uncgi (E : TableEnv) : filterLoadTable E (generateFilter .uncgi) = .ok none := rfl
theorem load_iso (E : TableEnv) : filterLoadTable E (generateBuiltinFilter .iso8859_1 (lit "iso8859_1")) =
    .ok (some load_builtin_iso8859_1_table) := rfl
theorem load_cp (E : TableEnv) : filterLoadTable E (generateBuiltinFilter .iso8859_1 (lit "cp1252")) =
    .ok (some load_builtin_cp1252_table) := rfl
theorem load_utf8 (E : TableEnv) : filterLoadTable E (generateBuiltinFilter .utf8 (lit "unicode")) =
    .ok (some load_builtin_unicode_table) := rfl

theorem runBuiltin_default (P : Platform) (E : TableEnv) (s : Bytes) :
    runBuiltin P E (some (lit "default")) s = runFilters P [safeF, wipeF] (some s) := rfl
theorem runBuiltin_none (P : Platform) (E : TableEnv) (s : Bytes) :
    runBuiltin P E none s = runFilters P [safeF, wipeF] (some s) := rfl

theorem runBuiltin_eq (P : Platform) (E : TableEnv) (s : Bytes) (name : Bytes) (fs : List Filter)
   (h : (name, fs) ∈ builtinFilters) :
    runBuiltin P E (some name) s = runFilters P fs (some s) := by
  simp only [builtinFilters, List.mem_cons, List.not_mem_nil, or_false, Prod.mk.injEq] at h
  rcases h with h|h|h|h|h|h|h|h|h|h|h <;> obtain ⟨rfl, rfl⟩ := h <;> rfl
end Detox
