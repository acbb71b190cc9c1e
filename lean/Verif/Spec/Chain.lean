import Verif.Spec.Denote

/-!
# Several tables one after the other (`/repo/man/detoxrc.5`, `/repo/man/detox.tbl.5`)
-/

set_option autoImplicit false

namespace Detox.Spec

/-- Tables put together: a row is that of the first table that has one, the default is that of the last. -/
def merged : List TableText → TableText
  | [] => ⟨fun _ => none, none⟩
  | [m] => m
  | m :: m' :: ms => ⟨fun k => (m.row k).or ((merged (m' :: ms)).row k), (merged (m' :: ms)).dflt⟩

/-- All filters are of one kind and have these tables. -/
inductive InRow (locale : Bytes) (datadir : Option Bytes) (files : Bytes → Option Bytes) (c : Cleaner) : List Filter → List TableText → Prop
  | nil : InRow locale datadir files c [] []
  | cons (f : Filter) (fs : List Filter) (m : TableText) (ms : List TableText) : f.cleaner = c → TableSays locale datadir files f m →
      InRow locale datadir files c fs ms → InRow locale datadir files c (f :: fs) (m :: ms)

/-- The tables but the last have no default. -/
def OnlyLastDefault (ms : List TableText) : Prop := ∀ m ∈ ms.dropLast, m.dflt = none

/-- What the `safe` filter makes of a byte, and what `iso8859_1` makes of it. -/
def safeSays (P : Platform) (m : TableText) (c : Byte) : Bytes := m.says (safeCode P c) [c]
def isoSays (m : TableText) (c : Byte) : Bytes := if c.toNat < 128 then [c] else m.says (some c.toNat) [c]

/-- A text of complete characters each of which the `utf_8` filter leaves alone. -/
def LeavesText (m : TableText) (d : Bytes) : Prop := Units (fun u v => unicodeSays m v u = u) d

/-- What is asked of a `utf_8` table that is not the first: it has no rows for a hidden NUL and beyond U+10FFFF, for these the first filter replaces anyway, and it
leaves alone what that puts there. -/
structure GoesOn (m : TableText) : Prop where
  nul : m.row 0 = none
  large : ∀ v, 0x10FFFF < v → m.row v = none
  hidden : LeavesText m (lit "_hidden_null_")
  broken : LeavesText m (lit "_")

end Detox.Spec
