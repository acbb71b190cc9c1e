import Verif.Spec.Inline

/-!
# What inline mode does with its arguments
-/

set_option autoImplicit false

namespace Detox.Spec

/-- A call made while a text is copied: text is printed, or a warning. -/
def Copying (e : Event) : Prop := (∃ s, e = .out s) ∨ e = .err (lit "detox: warning: stream push back failed\n")

/-- One argument after the other; `C` says what is printed of a text. -/
inductive InlineArgs (C : Bytes → Bytes → Prop) : List Bytes → List Event → Prop
  | nil : InlineArgs C [] []
  | missing (f : Bytes) (fs : List Bytes) (tr : List Event) : InlineArgs C fs tr →
      InlineArgs C (f :: fs) (.lstat f none :: .err (f ++ lit ": ") :: tr)
  | directory (f : Bytes) (fs : List Bytes) (st : Stat) (tr : List Event) : st.kind = .dir → InlineArgs C fs tr →
      InlineArgs C (f :: fs) (.lstat f (some st) :: .err (f ++ lit ": is a directory\n") :: tr)
  | unreadable (f : Bytes) (fs : List Bytes) (st : Stat) (tr : List Event) : st.kind ≠ .dir → InlineArgs C fs tr →
      InlineArgs C (f :: fs) (.lstat f (some st) :: .slurp (some f) none :: .err (f ++ lit ": ") :: tr)
  | text (f : Bytes) (fs : List Bytes) (st : Stat) (s : Bytes) (t tr : List Event) : st.kind ≠ .dir → (∀ e ∈ t, Copying e) → C s (outText t) →
      InlineArgs C fs tr → InlineArgs C (f :: fs) (.lstat f (some st) :: .slurp (some f) (some s) :: (t ++ tr))

/-- The files, or standard input if there are none. That standard input cannot be opened does not happen in the C code. -/
inductive InlineInput (C : Bytes → Bytes → Prop) : List Bytes → List Event → Prop
  | files (f : Bytes) (fs : List Bytes) (tr : List Event) : InlineArgs C (f :: fs) tr → InlineInput C (f :: fs) tr
  | stdin (s : Bytes) (t : List Event) : (∀ e ∈ t, Copying e) → C s (outText t) → InlineInput C [] (.slurp none (some s) :: t)
  | noStdin : InlineInput C [] [.slurp none none, .err (lit ": ")]

/-- The texts read. -/
def textsRead (tr : List Event) : List Bytes :=
  tr.filterMap fun e => match e with
    | .slurp _ r => r
    | _ => none

/-- A text made of lines shorter than 1007 bytes, without NUL bytes. -/
def ShortLines (ls : List Bytes) (s : Bytes) : Prop :=
  s = ls.flatMap (· ++ [0x0A]) ∧ ∀ l ∈ ls, (0x0A : Byte) ∉ l ∧ l.length < 1007 ∧ (0 : Byte) ∉ l

end Detox.Spec
