import Verif.Spec.Denote

/-!
# Names in UTF-8 that stay in UTF-8

What a configuration has to be like for that. In terms of the texts of the tables, like `Verif/Spec/Denote.lean`.
-/

set_option autoImplicit false

namespace Detox.Spec

/-- Everything a table can put into a name is UTF-8. -/
def TableText.InUtf8 (m : TableText) : Prop :=
  (∀ k d, m.row k = some d → ValidUtf8 d) ∧ ∀ d, m.dflt = some d → ValidUtf8 d

/-- A table used byte by byte translates either none of the bytes that are not ASCII, or all of them. -/
def TableText.AllOrNone (m : TableText) (code : Byte → Option Nat) : Prop :=
  (m.dflt = none ∧ ∀ c : Byte, 128 ≤ c.toNat → (code c).bind m.row = none) ∨
  (m.dflt ≠ none ∨ ∀ c : Byte, 128 ≤ c.toNat → (code c).bind m.row ≠ none)

/-- Filters that make UTF-8 of UTF-8. Not among them: `uncgi` and `max_length`. -/
inductive MindsUtf8 (P : Platform) (locale : Bytes) (datadir : Option Bytes) (files : Bytes → Option Bytes) (f : Filter) : Prop
  | lower : f.cleaner = .lower → MindsUtf8 P locale datadir files f
  | wipeup : f.cleaner = .wipeup → MindsUtf8 P locale datadir files f
  | utf8 (m : TableText) : f.cleaner = .utf8 → TableSays locale datadir files f m → m.InUtf8 → MindsUtf8 P locale datadir files f
  | iso8859_1 (m : TableText) : f.cleaner = .iso8859_1 → TableSays locale datadir files f m → m.InUtf8 →
      m.AllOrNone (fun c => some c.toNat) → MindsUtf8 P locale datadir files f
  | safe (m : TableText) : f.cleaner = .safe → TableSays locale datadir files f m → m.InUtf8 → m.AllOrNone (safeCode P) →
      MindsUtf8 P locale datadir files f

/-- Where `max_length` cuts a name: behind the first `k` bytes. -/
inductive CutBehind (limit : Nat) (s : Bytes) : Nat → Prop
  | plain : limit < s.length → NoExtension s → CutBehind limit s limit
  | extension (e : Nat) : limit < s.length → ExtensionAt s e → s.length - e < limit → CutBehind limit s (limit - (s.length - e))

end Detox.Spec
