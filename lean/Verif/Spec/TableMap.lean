import Verif.Model.Base

/-!
# What a translation table should be: a map with a bounded number of insertions

Independent of `Model/Table.lean`.
-/

set_option autoImplicit false

namespace Detox.Spec

/-- What a client can do with a table. -/
inductive TOp where
  | put (key : Nat) (data : Bytes)
  | get (key : Nat)

/-- What the client sees. -/
inductive TOut where
  | stored (ok : Bool)
  | found (data : Option Bytes)
  deriving DecidableEq

/-- A map, and how many further insertions it accepts. -/
structure AMap where
  room : Nat
  map : Nat → Option Bytes

def AMap.empty (room : Nat) : AMap := ⟨room, fun _ => none⟩

def AMap.step (m : AMap) : TOp → AMap × TOut
  | .put k d =>
    if k = 0 ∨ m.room = 0 then (m, .stored false)
    else (⟨m.room - 1, fun k' => if k' = k then some d else m.map k'⟩, .stored true)
  | .get k => (m, .found (m.map k))

/-- The client's view of a whole history. -/
def AMap.run (m : AMap) : List TOp → List TOut
  | [] => []
  | op :: ops => (m.step op).2 :: (m.step op).1.run ops

end Detox.Spec
