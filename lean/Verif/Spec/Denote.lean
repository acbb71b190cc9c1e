import Verif.Spec.Main
import Verif.Spec.MaxLength
import Verif.Spec.Utf8
import Verif.Spec.Wipeup
import Verif.Spec.Cgi
import Verif.Model.Builtin

/-!
# What a configuration means: from the texts of the files to what happens to a name

Everything here is in terms of what is written in config files (`/repo/man/detoxrc.5`) and table files
(`/repo/man/detox.tbl.5`). No function of the program occurs, except the compiled-in rows, which are data.
-/

set_option autoImplicit false

namespace Detox.Spec

/-! ### Which files are in effect -/

/-- The files of a list that exist, with their contents. -/
def present (files : Bytes → Option Bytes) (ps : List Bytes) : List (Bytes × Bytes) := ps.filterMap fun p => (files p).map fun t => (p, t)

/-- The config files in effect: the one of `-f`; or else the first system file there is, and the files of the user. -/
def configsInEffect (E : ConfigEnv) (given : Option Bytes) (files : Bytes → Option Bytes) : List (Bytes × Bytes) :=
  match given with
  | some f => present files [f]
  | none => (present files (systemFiles E)).take 1 ++ present files (userFiles E)

/-! ### Tables -/

/-- What a table says: its rows, its default. -/
structure TableText where
  row : Nat → Option Bytes
  dflt : Option Bytes

/-- What becomes of a character, `none` being one that no row can be about. -/
def TableText.says (m : TableText) (code : Option Nat) (self : Bytes) : Bytes :=
  match code.bind m.row with
  | some d => d
  | none => m.dflt.getD self

/-- A table file and what it says under a locale. -/
def SaysTable (locale text : Bytes) (m : TableText) : Prop :=
  ∃ ls secs, HasLines text ls ∧ FileLines ls secs ∧ (effectiveRows locale secs).length ≤ max 500 (text.length / 6) ∧
    m = ⟨lastOf (effectiveRows locale secs), effectiveDefault secs none⟩

/-- The rows of a compiled-in table. -/
def writtenRows (rs : List Row) : List (Nat × Bytes) :=
  rs.filterMap (fun r => if r.key = 0 then none else r.data.map (fun d => (r.key, d)))

/-- The compiled-in tables; `iso8859_1` has the default `_`, the others none. -/
inductive BuiltinSays : Bytes → TableText → Prop
  | iso8859_1 : BuiltinSays (lit "iso8859_1") ⟨lastOf (writtenRows builtin_iso8859_1_rows), some (lit "_")⟩
  | unicode : BuiltinSays (lit "unicode") ⟨lastOf (writtenRows builtin_unicode_rows), none⟩
  | safe : BuiltinSays (lit "safe") ⟨lastOf (writtenRows builtin_safe_rows), none⟩
  | cp1252 : BuiltinSays (lit "cp1252") ⟨lastOf (writtenRows builtin_cp1252_rows), none⟩

/-- The table a filter works with. -/
inductive TableSays (locale : Bytes) (datadir : Option Bytes) (files : Bytes → Option Bytes) (f : Filter) : TableText → Prop
  /-- `builtin "safe";` -/
  | builtin (b : Bytes) (m : TableText) : f.builtin = some b → BuiltinSays b m → TableSays locale datadir files f m
  /-- `filename "my.tbl";` -/
  | filename (path text : Bytes) (m : TableText) : f.builtin = none → f.filename = some path → files path = some text →
      SaysTable locale text m → TableSays locale datadir files f m
  /-- neither, and a file in one of the usual places -/
  | found (n path text : Bytes) (before after : List Bytes) (m : TableText) : UsualTable f.cleaner n → f.builtin = none →
      f.filename = none → tablePaths datadir n = before ++ path :: after → (∀ p ∈ before, files p = none) → files path = some text →
      SaysTable locale text m → TableSays locale datadir files f m
  /-- neither, and no file in the usual places -/
  | fallback (n : Bytes) (m : TableText) : UsualTable f.cleaner n → f.builtin = none → f.filename = none →
      (∀ p ∈ tablePaths datadir n, files p = none) → BuiltinSays n m → TableSays locale datadir files f m

/-! ### Filters -/

/-- How `max_length` shortens a name: not at all if it is short enough or the extension alone is too long; otherwise it cuts
before the extension. -/
inductive Shortens (limit : Nat) (s : Bytes) : Bytes → Prop
  | fits : s.length ≤ limit → Shortens limit s s
  | plain : limit < s.length → NoExtension s → Shortens limit s (s.take limit)
  | hopeless (e : Nat) : limit < s.length → ExtensionAt s e → limit ≤ s.length - e → Shortens limit s s
  | cut (e : Nat) (body : Bytes) : limit < s.length → ExtensionAt s e → s.length - e < limit → body <+: s.take e →
      (body ++ s.drop e).length = limit → Shortens limit s (body ++ s.drop e)

/-- The rows of a `safe` table that can be about a byte: those for its value; where `char` is signed only for ASCII bytes. -/
def safeCode (P : Platform) (c : Byte) : Option Nat := if P.charSigned = true ∧ 128 ≤ c.toNat then none else some c.toNat

/-- What the `utf_8` filter makes of a character of value `v`, written as `u`: what the table says; without a row a hidden NUL is
spelled out, and what is above U+10FFFF is an underscore. -/
def unicodeSays (m : TableText) (v : Nat) (u : Bytes) : Bytes :=
  match m.row v with
  | some d => d
  | none => if v = 0 then lit "_hidden_null_" else if 0x10FFFF < v then lit "_" else m.dflt.getD u

/-- Bytes that are no character: a byte that cannot start one, or the start of one that is broken off by what follows. -/
inductive BrokenOff : Bytes → Bytes → Prop
  | stray (c : Byte) (rest : Bytes) : leadOf c = none → BrokenOff [c] rest
  | short (c : Byte) (conts rest : Bytes) (w base : Nat) : leadOf c = some (w, base) → conts.length + 1 < w →
      (∀ x ∈ conts, isCont x = true) → (∀ x, rest.head? = some x → isCont x = false) → BrokenOff (c :: conts) rest

/-- What the `utf_8` filter makes of a name, character by character. -/
inductive UnicodeReads (m : TableText) : Bytes → Bytes → Prop
  | nil : UnicodeReads m [] []
  | char (u : Bytes) (v : Nat) (rest out : Bytes) : IsUnit u v → UnicodeReads m rest out →
      UnicodeReads m (u ++ rest) (unicodeSays m v u ++ out)
  | broken (u rest out : Bytes) : BrokenOff u rest → UnicodeReads m rest out → UnicodeReads m (u ++ rest) (lit "_" ++ out)

/-- A capital letter in small. -/
def small (c : Byte) : Byte := if 0x41 ≤ c.toNat ∧ c.toNat ≤ 0x5A then UInt8.ofNat (c.toNat + 32) else c

/-- What a filter makes of a name. -/
inductive FilterSays (P : Platform) (locale : Bytes) (datadir : Option Bytes) (files : Bytes → Option Bytes) (f : Filter) (s : Bytes) :
    Bytes → Prop
  | lower : f.cleaner = .lower → FilterSays P locale datadir files f s (s.map small)
  | wipeup (out : Bytes) : f.cleaner = .wipeup → IsWipeup f.removeTrailing s out → FilterSays P locale datadir files f s out
  | uncgi (out : Bytes) : f.cleaner = .uncgi → Decodes s out → FilterSays P locale datadir files f s (out.takeWhile (· ≠ 0))
  | maxLength (out : Bytes) : f.cleaner = .maxLength → Shortens (if f.maxLength = 0 then 256 else f.maxLength) s out →
      FilterSays P locale datadir files f s out
  | iso8859_1 (m : TableText) : f.cleaner = .iso8859_1 → TableSays locale datadir files f m →
      FilterSays P locale datadir files f s (s.flatMap fun c => if c.toNat < 128 then [c] else m.says (some c.toNat) [c])
  | safe (m : TableText) : f.cleaner = .safe → TableSays locale datadir files f m →
      FilterSays P locale datadir files f s (s.flatMap fun c => m.says (safeCode P c) [c])
  | utf8 (m : TableText) (out : Bytes) : f.cleaner = .utf8 → TableSays locale datadir files f m → UnicodeReads m s out →
      FilterSays P locale datadir files f s out

/-- What a list of filters makes of a name: each works on what the one before has left. -/
inductive FiltersSay (P : Platform) (locale : Bytes) (datadir : Option Bytes) (files : Bytes → Option Bytes) :
    List Filter → Bytes → Bytes → Prop
  | nil (s : Bytes) : FiltersSay P locale datadir files [] s s
  | cons (f : Filter) (fs : List Filter) (s mid out : Bytes) : FilterSays P locale datadir files f s mid →
      FiltersSay P locale datadir files fs mid out → FiltersSay P locale datadir files (f :: fs) s out

end Detox.Spec
