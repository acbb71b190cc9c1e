import Verif.Model.Stdout
import Verif.Spec.Inline

/-!
# What arrives at the other end of standard output
-/

set_option autoImplicit false

namespace Detox.Spec

/-- The bytes the system took. -/
def arrived : List SysCall → Bytes
  | [] => []
  | .write a (.took n) :: sys => a.take n ++ arrived sys
  | _ :: sys => arrived sys

/-- The other calls. -/
def unprintedCalls : List SysCall → List Event
  | [] => []
  | .call e :: sys => e :: unprintedCalls sys
  | _ :: sys => unprintedCalls sys

/-- Some `write` failed. -/
def WriteFailed (sys : List SysCall) : Prop := ∃ a, SysCall.write a .failed ∈ sys

/-- The process was killed because nobody reads what it writes. -/
def BrokenPipe (sys : List SysCall) : Prop := ∃ a, SysCall.write a .killed ∈ sys

/-- `OLD -> NEW` with a newline. -/
def reportLine (old new : Bytes) : Bytes := old ++ lit " -> " ++ new ++ [0x0A]

/-- `Scanning: FILE` with a newline. -/
def scanLine (f : Bytes) : Bytes := lit "Scanning: " ++ f ++ [0x0A]

/-- Every rename is reported right before it is tried, and nothing else is reported. -/
inductive Journal : List Event → Prop
  | nil : Journal []
  | scanning (f : Bytes) (tr : List Event) : Journal tr → Journal (.out (scanLine f) :: tr)
  | rename (old new : Bytes) (ok : Bool) (tr : List Event) : Journal tr → Journal (.out (reportLine old new) :: .rename old new ok :: tr)
  | other (e : Event) (tr : List Event) : (∀ s, e ≠ .out s) → (∀ a b r, e ≠ .rename a b r) → Journal tr → Journal (e :: tr)

/-- A line of the journal. -/
inductive JournalLine where
  | scanning (f : Bytes)
  | report (old new : Bytes)

def JournalLine.text : JournalLine → Bytes
  | .scanning f => scanLine f
  | .report old new => reportLine old new

/-- The renames reported. -/
def reported : List JournalLine → List (Bytes × Bytes)
  | [] => []
  | .scanning _ :: ls => reported ls
  | .report old new :: ls => (old, new) :: reported ls

/-- The renames that were tried. -/
def renamesTried : List Event → List (Bytes × Bytes)
  | [] => []
  | .rename old new _ :: tr => (old, new) :: renamesTried tr
  | _ :: tr => renamesTried tr

end Detox.Spec
