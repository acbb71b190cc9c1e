import Verif.Model.Filter
import Verif.Model.File
import Verif.Model.Builtin

/-!
# Specification: how much there is to look up
-/

set_option autoImplicit false

namespace Detox.Spec

/-- The filters that look up what they read in a table. -/
def LooksUp (f : Filter) : Prop := f.cleaner = .iso8859_1 ∨ f.cleaner = .safe ∨ f.cleaner = .utf8

instance (f : Filter) : Decidable (LooksUp f) := by unfold LooksUp; infer_instance

/-- How many times as long a filter may make a name: as long as the longest text in its table. -/
def lengthens (f : Filter) : Nat :=
  if LooksUp f then max 1 (match f.table with | some t => t.maxDataLength | none => 0) else 1

/-- How many lookups the busiest table of a sequence may see for each byte of a name. -/
def reach : List Filter → Nat
  | [] => 0
  | f :: fs => max (if LooksUp f then 1 else 0) (lengthens f * reach fs)

/-- How much there may be to clean because of a call: the last part of a path that is looked at, the text that is read. -/
def weight : Event → Nat
  | .lstat p _ => (basePart p).length
  | .slurp _ (some s) => s.length
  | _ => 0

/-- How much there may be to clean because of these calls. -/
def weigh (tr : List Event) : Nat := (tr.map weight).sum

/-- Whether the built-in safe table has a row for a byte. -/
def inSafeTable (c : Byte) : Bool := builtin_safe_rows.any (fun r => r.key == c.toNat)

/-- The bytes of these lines for which there is a row; those of `.` and `..` are not looked up. -/
def found (ls : List Bytes) : Nat := ((ls.filter (fun l => l ≠ lit "." ∧ l ≠ lit "..")).flatten.filter inSafeTable).length

/-- Those for which there is none. -/
def notFound (ls : List Bytes) : Nat := ((ls.filter (fun l => l ≠ lit "." ∧ l ≠ lit "..")).flatten.filter (fun c => !inSafeTable c)).length

end Detox.Spec
