import Verif.Model.Flow

/-!
# Texts that come in pieces
-/

set_option autoImplicit false

namespace Detox.Spec

/-- The bytes that the reads gave, in order. -/
def delivered : List FlowEvent → Bytes
  | [] => []
  | .read _ (.data s) :: tr => s ++ delivered tr
  | _ :: tr => delivered tr

/-- The calls other than `fopen` and `read`. -/
def otherCalls : List FlowEvent → List Event
  | [] => []
  | .sys e :: tr => e :: otherCalls tr
  | _ :: tr => otherCalls tr

/-- The answers of the reads, in order. -/
def answers : List FlowEvent → List ReadRes
  | [] => []
  | .read _ r :: tr => r :: answers tr
  | _ :: tr => answers tr

/-- No read failed. -/
def NoFailure (tr : List FlowEvent) : Prop := ∀ a, ReadRes.fail a ∉ answers tr

/-- Reading is steady: a file that could not be read once gives no more bytes, and a read does not fail because there is nothing to
read *yet* (`EAGAIN`, which only happens if somebody made the descriptor non-blocking). The first argument says whether a read of
the current file has failed. -/
def Steady : Bool → List FlowEvent → Prop
  | _, [] => True
  | failed, .sys _ :: tr => Steady failed tr
  | _, .fopen _ _ :: tr => Steady false tr
  | failed, .read _ (.data s) :: tr => (failed = true → s = []) ∧ Steady failed tr
  | _, .read _ (.fail again) :: tr => again = false ∧ Steady true tr

/-- A part of a text that detox holds back, because it may be the beginning of a longer line: less than its buffer, and without a
newline (unless it contains a NUL, which hides what comes after it). -/
def HeldBack (rest : Bytes) : Prop := rest.length < 1024 ∧ ((0 : Byte) ∉ rest → (0x0A : Byte) ∉ rest)

/-- Reading the file `path` and writing. -/
def Copies (path : Option Bytes) (e : FlowEvent) : Prop := (∃ r, e = .read path r) ∨ (∃ s, e = .sys (.out s)) ∨ ∃ s, e = .sys (.err s)

/-- `Condensed over tr tr'`: the calls `tr'` are those of `tr`, but each file is read at once, where it is opened, instead of piece
by piece (standard input: where the reading begins). It has then exactly the bytes that were delivered; but if a read failed, a part
at the end that was held back may be missing. If the process was stopped while it read a file (`over` is `false`), it has some first
part of the bytes that were delivered. -/
inductive Condensed : Bool → List FlowEvent → List Event → Prop
  | nil (over : Bool) : Condensed over [] []
  | sys (over : Bool) (e : Event) (tr : List FlowEvent) (tr' : List Event) : Condensed over tr tr' → Condensed over (.sys e :: tr) (e :: tr')
  | unopened (over : Bool) (path : Bytes) (tr : List FlowEvent) (tr' : List Event) :
      Condensed over tr tr' → Condensed over (.fopen path false :: tr) (.slurp (some path) none :: tr')
  | file (over : Bool) (path : Bytes) (part tr : List FlowEvent) (text rest : Bytes) (tr' : List Event) :
      (∀ e ∈ part, Copies (some path) e) → delivered part = text ++ rest → HeldBack rest → (NoFailure part → rest = []) →
      Condensed over tr tr' →
      Condensed over (.fopen path true :: (part ++ tr)) (.slurp (some path) (some text) :: (otherCalls part ++ tr'))
  | fileCut (path : Bytes) (part : List FlowEvent) (text rest : Bytes) :
      (∀ e ∈ part, Copies (some path) e) → delivered part = text ++ rest →
      Condensed false (.fopen path true :: part) (.slurp (some path) (some text) :: otherCalls part)
  | stdin (over : Bool) (part tr : List FlowEvent) (text rest : Bytes) (tr' : List Event) :
      (∀ e ∈ part, Copies none e) → delivered part = text ++ rest → HeldBack rest → (NoFailure part → rest = []) →
      Condensed over tr tr' → Condensed over (part ++ tr) (.slurp none (some text) :: (otherCalls part ++ tr'))
  | stdinCut (part : List FlowEvent) (text rest : Bytes) :
      (∀ e ∈ part, Copies none e) → delivered part = text ++ rest → Condensed false part (.slurp none (some text) :: otherCalls part)

end Detox.Spec
