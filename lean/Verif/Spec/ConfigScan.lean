import Verif.Model.FlexBuffer
import Verif.Model.Sys

/-!
# Reading config files piece by piece
-/

set_option autoImplicit false

namespace Detox

/-- No read fails, and there is memory. -/
def YyWorld.Good (w : YyWorld) : Prop := (∀ n i, w.read n ≠ .fail i) ∧ ∀ n, w.memory n = true

/-- What the scanner can complain about. -/
def YyWorld.Fails (w : YyWorld) (msg : Bytes) : Prop :=
  (msg = lit "input in flex scanner failed" ∧ ∃ n i, w.read n = .fail i) ∨
  ((msg = lit "fatal error - scanner input buffer overflow" ∨ msg = lit "out of dynamic memory in yyensure_buffer_stack()" ∨
      msg = lit "out of dynamic memory in yy_create_buffer()") ∧ ∃ n, w.memory n = false)

/-- All files that were read have at most `2^30 - 2` bytes. -/
def FilesShort (tr : List Event) : Prop := ∀ file text, Event.slurp (some file) (some text) ∈ tr → text.length ≤ 1073741822

end Detox
