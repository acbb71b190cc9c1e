import Verif.Spec.Run

/-!
# What a run costs
-/

set_option autoImplicit false

namespace Detox.Spec

/-- The number of entries `readdir` gave. -/
def entriesRead : List Event → Nat
  | [] => 0
  | .readdir _ (some _) :: tr => entriesRead tr + 1
  | _ :: tr => entriesRead tr

/-- Of several directories that are open (most recently opened first) each is below the one before. -/
inductive NestedDirs : List (Nat × Bytes) → Prop
  | nil : NestedDirs []
  | one (d : Nat × Bytes) : NestedDirs [d]
  | cons (h h' : Nat) (p p' : Bytes) (S : List (Nat × Bytes)) : p' ++ [0x2F] <+: p → NestedDirs ((h', p') :: S) → NestedDirs ((h, p) :: (h', p') :: S)

/-- Whether a call is of some kind. -/
def Event.isLstat : Event → Bool
  | .lstat .. => true
  | _ => false

/-- As `isLstat`. -/
def Event.isRename : Event → Bool
  | .rename .. => true
  | _ => false

/-- As `isLstat`. -/
def Event.isOpendir : Event → Bool
  | .opendir .. => true
  | _ => false

/-- As `isLstat`. -/
def Event.isOut : Event → Bool
  | .out .. => true
  | _ => false

/-- As `isLstat`. -/
def Event.isErr : Event → Bool
  | .err .. => true
  | _ => false

/-- The calls in `t` are not more than there may be for `n` arguments and the entries read. -/
structure Thrifty (recurse : Bool) (n : Nat) (t : List Event) : Prop where
  /-- All calls together. -/
  calls : t.length ≤ 11 * (n + entriesRead t)
  lstat : t.countP Event.isLstat ≤ 4 * (n + entriesRead t)
  rename : t.countP Event.isRename ≤ n + entriesRead t
  opendir : t.countP Event.isOpendir ≤ n + if recurse then entriesRead t else 0
  out : t.countP Event.isOut ≤ 2 * n + entriesRead t
  err : t.countP Event.isErr ≤ 2 * (n + entriesRead t)

end Detox.Spec
