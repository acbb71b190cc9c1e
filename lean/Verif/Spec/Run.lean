import Verif.Model.Sys

/-!
# Reading a history of system calls

Histories are given most recent event first.
-/

set_option autoImplicit false

namespace Detox.Spec

/-- A name starting with a dot. -/
def Hidden (name : Bytes) : Prop := ∃ rest, name = 0x2E :: rest

instance (name : Bytes) : Decidable (Hidden name) :=
  match name with
  | [] => isFalse (by rintro ⟨r, h⟩; cases h)
  | c :: r => if h : c = 0x2E then isTrue ⟨r, by rw [h]⟩ else isFalse (by rintro ⟨r', h'⟩; cases h'; exact h rfl)

/-- The names read from directories that do not start with a dot, most recent first. -/
def visible : List Event → List Bytes
  | [] => []
  | .readdir _ (some name) :: h => if Hidden name then visible h else name :: visible h
  | _ :: h => visible h

/-- The directories currently open, with their handles, most recently opened first. -/
def openDirs : List Event → List (Nat × Bytes)
  | [] => []
  | .opendir p (.ok d) :: h => (d, p) :: openDirs h
  | .closedir d :: h => (openDirs h).eraseP (fun e => e.1 == d)
  | _ :: h => openDirs h

/-- Only output to stdout. -/
def OnlyOutput (l : List Event) : Prop := ∀ e ∈ l, ∃ s, e = Event.out s

/-- `path` is `dir ++ name`, where `name` has no slash: the way a path splits at its last slash. -/
def SplitsAs (path dir name : Bytes) : Prop :=
  path = dir ++ name ∧ 0x2F ∉ name ∧ (dir = [] ∨ ∃ d, dir = d ++ [0x2F])

end Detox.Spec
