import Verif.Spec.Denote

/-!
# Tables the program has room for
-/

set_option autoImplicit false

namespace Detox.Spec

/-- Some row has a translation of at least `n` bytes, and some row has one that is at least as long as the default. -/
def TableText.Roomy (m : TableText) (n : Nat) : Prop :=
  (∃ k d, m.row k = some d ∧ n ≤ d.length) ∧ ∀ x, m.dflt = some x → ∃ k d, m.row k = some d ∧ x.length ≤ d.length

/-- There is a table for the filter, if it needs one, and the table has rows, none so short that the program's buffers are too small. For `utf_8`
a translation of 7 bytes is needed (because of the spelled out hidden NUL), unless the names are `plain`. -/
def FilterFits (locale : Bytes) (datadir : Option Bytes) (files : Bytes → Option Bytes) (plain : Bool) (f : Filter) : Prop :=
  ∀ n, UsualTable f.cleaner n → ∃ m, TableSays locale datadir files f m ∧ m.Roomy (if f.cleaner = .utf8 ∧ plain = false then 7 else 1)

/-- The same for a list of filters; only the first of them sees the names as they are. -/
def FiltersFit (locale : Bytes) (datadir : Option Bytes) (files : Bytes → Option Bytes) (plain : Bool) : List Filter → Prop
  | [] => True
  | f :: fs => FilterFits locale datadir files plain f ∧ ∀ g ∈ fs, FilterFits locale datadir files false g

/-- The sequences there are: those of the config files in effect, if there are any and all are well written; or else the compiled-in ones (which are
those of the file that comes with detox, see C45). -/
inductive SequencesAre (E : ConfigEnv) (given : Option Bytes) (files : Bytes → Option Bytes) : List Sequence → Prop
  | written (conf : List (Bytes × Bytes × List Rule)) : conf ≠ [] → (conf.map fun f => (f.1, f.2.1)) = configsInEffect E given files →
      (∀ f ∈ conf, Means f.2.1 f.2.2) → SequencesAre E given files (inEffect (conf.flatMap fun f => definitions f.1 f.2.2))
  | builtin : given = none → configsInEffect E none files = [] → SequencesAre E given files spoofSequences

end Detox.Spec
