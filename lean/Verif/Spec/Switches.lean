import Verif.Model.Main
import Verif.Spec.Options

/-!
# What the switches of the command line are about
-/

set_option autoImplicit false

namespace Detox.Spec

/-- The second execution is the first, less some of the texts in `S` that it prints. -/
inductive Less (S : Bytes → Prop) : List Event → List Event → Prop
  | nil : Less S [] []
  | keep (e : Event) (tr tr' : List Event) : Less S tr tr' → Less S (e :: tr) (e :: tr')
  | drop (s : Bytes) (tr tr' : List Event) : S s → Less S tr tr' → Less S (.out s :: tr) tr'

/-- `Scanning: f` and a newline. -/
def ScanLine (t : Bytes) : Prop := ∃ f, t = lit "Scanning: " ++ f ++ [0x0A]

/-- What `-v` is for. -/
def VerboseLine (t : Bytes) : Prop := ScanLine t ∨ ∃ a b, t = a ++ lit " -> " ++ b ++ [0x0A]

/-- No symbolic link, device, fifo or socket. -/
def Ordinary (r : Option Stat) : Prop := ∀ st, r = some st → st.kind = .reg ∨ st.kind = .dir

/-- Nothing but regular files and directories is met. -/
def MeetsOrdinary (tr : List Event) : Prop := ∀ p r, Event.lstat p r ∈ tr → Ordinary r

/-- The same environment and installation; name and arguments of the program may differ. -/
structure SameSystem (I J : Invocation) : Prop where
  sequence : I.sequence = J.sequence
  config : I.config = J.config
  datadir : I.datadir = J.datadir
  ctype : I.ctype = J.ctype

/-- The same settings, but for those in `S`; how often they are there does not matter. -/
structure AgreeBut (S : List Setting) (ss ss' : List Setting) : Prop where
  config : lastConfig ss = lastConfig ss'
  sequence : lastSequence ss = lastSequence ss'
  flags : ∀ s, s = .list ∨ s = .dryRun ∨ s = .recurse ∨ s = .verbose ∨ s = .inline ∨ s = .special → s ∉ S → (s ∈ ss ↔ s ∈ ss')

/-- The command line of `I` has settings `ss` and operands `ws`, and asks for work, not for help or the version. -/
structure Reads (I : Invocation) (ss : List Setting) (ws : List Bytes) : Prop where
  line : CommandLine I.posixlyCorrect I.args ss ws
  stays : ∀ s ∈ ss, ¬ s.Leaves

end Detox.Spec
