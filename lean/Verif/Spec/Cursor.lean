import Verif.Model.Base

/-!
# A list with a cursor, as a user of `filelist` sees it
-/

set_option autoImplicit false

namespace Detox.Spec

inductive FlOp where
  | put (w : Bytes)
  | get
  | reset
  | count

/-- What an operation answers. -/
inductive FlAns where
  | done
  | name (w : Option Bytes)
  | number (n : Nat)
  deriving DecidableEq

/-- The names, in the order they were added, and how many have been delivered. -/
structure Cursor where
  names : List Bytes
  seen : Nat

/-- One operation: adding rewinds; getting delivers the next name, or at the end `none` and rewinds. -/
def Cursor.step (c : Cursor) : FlOp → Cursor × FlAns
  | .put w => (⟨c.names ++ [w], 0⟩, .done)
  | .get =>
    match c.names[c.seen]? with
    | some w => (⟨c.names, c.seen + 1⟩, .name (some w))
    | none => (⟨c.names, 0⟩, .name none)
  | .reset => (⟨c.names, 0⟩, .done)
  | .count => (c, .number c.names.length)

def Cursor.run (c : Cursor) : List FlOp → Cursor × List FlAns
  | [] => (c, [])
  | op :: ops => ((c.step op).1.run ops |>.1, (c.step op).2 :: ((c.step op).1.run ops).2)

end Detox.Spec
