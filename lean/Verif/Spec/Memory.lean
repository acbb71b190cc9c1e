import Verif.Model.Memory

/-!
# What is said about memory
-/

set_option autoImplicit false

namespace Detox.Spec

open Detox

/-- The pointers in a block. -/
def pointersOf : Block → List Addr
  | .text _ _ => []
  | .slots ps => ps.filterMap id
  | .filelist files _ _ _ => files.toList
  | .rows rs => rs.filterMap Prod.snd
  | .table rows dflt _ => rows.toList ++ dflt.toList
  | .filter next _ filename builtin _ _ table => next.toList ++ filename.toList ++ builtin.toList ++ table.toList
  | .sequence next name filters source => next.toList ++ name.toList ++ filters.toList ++ source.toList
  | .config sequences ignore => sequences.toList ++ ignore.toList
  | .other => []

/-- The addresses of the blocks that are not freed. -/
def liveBlocks (h : Heap) : List Addr := (List.range h.length).filter fun x => (h.get x).isSome

/-- Pointers lead to addresses that were handed out. -/
def AllPointersOld (h : Heap) : Prop := ∀ x b, h.get x = some b → ∀ y, y ∈ pointersOf b → y < h.length

/-- Between `h` and `h'` the program changed only the blocks `lists` and left `k` strings behind that no block points to. -/
structure LeavesBehind (h h' : Heap) (lists : List Addr) (k : Nat) : Prop where
  /-- the strings: not there before, there now, and nothing points to them -/
  strings : ∃ lost : List Addr, lost.Nodup ∧ lost.length = k ∧
    (∀ x, x ∈ lost → h.get x = none ∧ ∃ n s, h'.get x = some (.text n s)) ∧
    (∀ x, x ∉ lost → x ∉ lists → h'.get x = h.get x) ∧
    (∀ x b, h'.get x = some b → ∀ y, y ∈ pointersOf b → y ∉ lost)
  /-- the lists are still there -/
  lists : ∀ x, x ∈ lists → (h'.get x).isSome = true
  /-- and so there are `k` more blocks -/
  count : (liveBlocks h').length = (liveBlocks h).length + k

/-- Both ended in the same way. -/
def EndsAlike {α β : Type} : Outcome (Except Fault (α × Heap)) → Outcome β → Prop
  | .running, .running => True
  | .ret (.ok _), .ret _ => True
  | .exit n, .exit m => n = m
  | .ub u, .ub v => u = v
  | .stuck, .stuck => True
  | _, _ => False

end Detox.Spec
