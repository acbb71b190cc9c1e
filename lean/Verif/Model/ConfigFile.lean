import Verif.Model.Filter
import Verif.Model.Filelist

/-!
# The configuration and its built-in version — `/repo/src/config_file.c:20-29`,
`/repo/src/config_file_spoof.c`
-/

set_option autoImplicit false

namespace Detox

/-- `config_file_t`, detox_struct.h:82-85. `none` is a NULL ignore list. -/
structure ConfigFile where
  sequences : List Sequence := []
  filesToIgnore : Option Filelist := none
  deriving DecidableEq, Repr

/-- `config_file_init`, config_file.c:20-29. -/
def configFileInit : ConfigFile := {}

/-- `generate_builtin_filter`, config_file_spoof.c:26-32. -/
def generateBuiltinFilter (c : Cleaner) (b : Bytes) : Filter := { filterInit c with builtin := some b }

/-- `generate_filter`, config_file_spoof.c:39-47. -/
def generateFilter (c : Cleaner) : Filter :=
  match c with
  | .safe => { filterInit c with builtin := some (lit "safe") }
  | _ => filterInit c

/-- `generate_sequence`, config_file_spoof.c:56-62, with the filters attached by the caller. -/
def generateSequence (name : Bytes) (filters : List Filter) : Sequence :=
  { name := name, filters := filters, sourceFilename := some (lit "built-in config file") }

/-- `generate_wipeup_filter`, config_file_spoof.c:71-77. -/
def generateWipeupFilter (rt : Bool) : Filter := { filterInit .wipeup with removeTrailing := rt }

/-- `safe_wipeup_filter`, config_file_spoof.c:92-93. The C code shares this chain between sequences;
only the chosen sequence is ever modified (`sequence_review`), so the sharing is not observable. -/
def safeWipeup : List Filter := [generateFilter .safe, generateWipeupFilter true]

/-- The sequences of `spoof_config_file`, config_file_spoof.c:98-147. -/
def spoofSequences : List Sequence := [
  generateSequence (lit "default") safeWipeup,
  generateSequence (lit "iso8859_1") (generateBuiltinFilter .iso8859_1 (lit "iso8859_1") :: safeWipeup),
  generateSequence (lit "iso8859_1-legacy")
    (generateBuiltinFilter .iso8859_1 (lit "cp1252") :: generateBuiltinFilter .iso8859_1 (lit "iso8859_1") ::
      safeWipeup),
  generateSequence (lit "utf_8") (generateBuiltinFilter .utf8 (lit "unicode") :: safeWipeup),
  generateSequence (lit "uncgi") (generateFilter .uncgi :: safeWipeup),
  generateSequence (lit "lower") [generateFilter .safe, generateFilter .lower, generateWipeupFilter true],
  generateSequence (lit "iso8859_1-only") [generateBuiltinFilter .iso8859_1 (lit "iso8859_1")],
  generateSequence (lit "cp1252-only") [generateBuiltinFilter .iso8859_1 (lit "cp1252")],
  generateSequence (lit "utf_8-only") [generateBuiltinFilter .utf8 (lit "unicode")],
  generateSequence (lit "uncgi-only") [generateFilter .uncgi],
  generateSequence (lit "lower-only") [generateFilter .lower]]

/-- `spoof_config_file`, config_file_spoof.c:84-154. -/
def spoofConfigFile : Res ConfigFile := do
  let l ← filelistPut filelistInit (lit "{arch}")
  pure { sequences := spoofSequences, filesToIgnore := some l }

end Detox
