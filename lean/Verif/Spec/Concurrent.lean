import Verif.Spec.Result

/-!
# Several processes at the same time
-/

set_option autoImplicit false

namespace Detox.Spec

/-- `m` is what the system gets to see of processes that make the calls `ts`: each makes its calls in its order, but any of them may be next. -/
inductive Interleaved : List (List Event) → List Event → Prop
  | done (ts : List (List Event)) : (∀ t ∈ ts, t = []) → Interleaved ts []
  | next (l r : List (List Event)) (e : Event) (t m : List Event) : Interleaved (l ++ t :: r) m → Interleaved (l ++ (e :: t) :: r) (e :: m)

/-- Someone renames files: `R name w` says that `w` should be the name instead of `name`, `args` are the files. -/
structure Renamer where
  intro ::
  R : Bytes → Bytes → Prop
  args : List Bytes

/-- No file of the one has, or should have, the same place as a file of the other. -/
def FarApart (fs : FS) (a b : Renamer) : Prop :=
  ∀ f ∈ a.args, ∀ g ∈ b.args, ∀ p q x, Concerns a.R f p → Concerns b.R g q → fs.slot p = some x → fs.slot q ≠ some x

/-- What is to be renamed are files. -/
def Renamer.Files (fs : FS) (a : Renamer) : Prop := ∀ f ∈ a.args, ∀ i, fs.lookup f = some i → fs.kind i = .reg

/-- What becomes of an entry if several rename files: if an argument of one of them is its path, and the name can be had, it gets it. Otherwise it
stays as it is. -/
inductive BecomesAmong (fs : FS) (ts : List Renamer) (e : Entry) : Entry → Prop
  | renamed (t : Renamer) (f dir w : Bytes) : t ∈ ts → f ∈ t.args → Wants t.R fs f dir e w → CanHave fs dir e w →
      BecomesAmong fs ts e { e with name := w }
  | kept : (∀ t ∈ ts, ∀ f ∈ t.args, ∀ dir w, Wants t.R fs f dir e w → ¬ CanHave fs dir e w) → BecomesAmong fs ts e e

end Detox.Spec
