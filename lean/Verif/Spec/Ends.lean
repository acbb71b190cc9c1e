import Verif.Spec.Tree

/-!
# Readings of directories that come to an end
-/

set_option autoImplicit false

namespace Detox.Spec

/-- The stream gives a name. -/
def givesName (h : Nat) : Event → Bool
  | .readdir k (some _) => decide (k = h)
  | _ => false

/-- Each time a directory is opened, `readdir` gives at most `K` names before it is closed. (POSIX does not say whether a file that is renamed is given
again. If it always were, and always after another rename, one reading could go on for ever.) -/
def Frugal (K : Nat) (tr : List Event) : Prop :=
  ∀ t1 p h t2 n t3, tr = t1 ++ .opendir p (.ok h) :: (t2 ++ .readdir h (some n) :: t3) → Event.closedir h ∉ t2 → (t2.filter (givesName h)).length < K

/-- The number of calls for a directory with `D` levels below it, if each reading gives at most `K` names. -/
def scanCalls (K : Nat) : Nat → Nat
  | 0 => 3
  | D + 1 => 4 + K * (7 + scanCalls K D)

end Detox.Spec
