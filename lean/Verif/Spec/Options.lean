import Verif.Model.Base

/-!
# What a command line says

The reading of a command line by the POSIX utility conventions with the GNU extensions (options may follow operands, long options
may be shortened), for the options of `/repo/man/detox.1`. An argument that cannot be read ends the reading.
-/

set_option autoImplicit false

namespace Detox.Spec

/-- One thing a command line asks for. -/
inductive Setting where
  /-- show the help text, the version, the usage message -/
  | help | version | usage
  /-- an argument that cannot be read -/
  | unreadable
  | list | dryRun | recurse | verbose | inline | special
  | config (file : Bytes)
  | sequence (name : Bytes)
  deriving DecidableEq

/-- The option letters without argument. -/
inductive Letter : Byte → Setting → Prop
  | help : Letter 0x68 .help               -- h
  | list : Letter 0x4C .list               -- L
  | dryRun : Letter 0x6E .dryRun           -- n
  | recurse : Letter 0x72 .recurse         -- r
  | verbose : Letter 0x76 .verbose         -- v
  | version : Letter 0x56 .version         -- V
  | usage : Letter 0x3F .usage             -- ?

/-- The option letters with argument. -/
inductive ArgLetter : Byte → Bytes → Setting → Prop
  | config (a : Bytes) : ArgLetter 0x66 a (.config a)      -- f
  | sequence (a : Bytes) : ArgLetter 0x73 a (.sequence a)  -- s

/-- The long options. -/
inductive LongOption : Bytes → Setting → Prop
  | dryRun : LongOption (lit "dry-run") .dryRun
  | help : LongOption (lit "help") .help
  | inline : LongOption (lit "inline") .inline
  | recurse : LongOption (lit "recursive") .recurse
  | special : LongOption (lit "special") .special
  | verbose : LongOption (lit "verbose") .verbose

/-- `text` is a long option or the beginning of one. -/
def Abbreviates (text : Bytes) (s : Setting) : Prop := ∃ name rest, LongOption name s ∧ text ++ rest = name ∧ text ≠ []

/-- A run of letters without argument. -/
inductive Cluster : Bytes → List Setting → Prop
  | nil : Cluster [] []
  | cons (c : Byte) (s : Setting) (cs : Bytes) (ss : List Setting) : Letter c s → Cluster cs ss → Cluster (c :: cs) (s :: ss)

/-- Not an option: does not begin with `-`, or is just `-`. -/
def IsOperand (a : Bytes) : Prop := a.head? ≠ some 0x2D ∨ a = [0x2D]

/-- `CommandLine posix args settings operands`: how the arguments are read. With `posix` the first operand ends the options. -/
inductive CommandLine (posix : Bool) : List Bytes → List Setting → List Bytes → Prop
  | none : CommandLine posix [] [] []
  /-- `--` -/
  | stop (rest : List Bytes) : CommandLine posix ([0x2D, 0x2D] :: rest) [] rest
  | operand (a : Bytes) (rest ws : List Bytes) (ss : List Setting) : posix = false → IsOperand a → CommandLine posix rest ss ws →
      CommandLine posix (a :: rest) ss (a :: ws)
  | firstOperand (a : Bytes) (rest : List Bytes) : posix = true → IsOperand a → CommandLine posix (a :: rest) [] (a :: rest)
  /-- `--recursive` -/
  | long (t : Bytes) (s : Setting) (rest ws : List Bytes) (ss : List Setting) : Abbreviates t s → CommandLine posix rest ss ws →
      CommandLine posix ((0x2D :: 0x2D :: t) :: rest) (s :: ss) ws
  /-- `-rv` -/
  | cluster (cs : Bytes) (s1 : List Setting) (rest ws : List Bytes) (ss : List Setting) : cs ≠ [] → Cluster cs s1 →
      CommandLine posix rest ss ws → CommandLine posix ((0x2D :: cs) :: rest) (s1 ++ ss) ws
  /-- `-rvsname` -/
  | attached (cs : Bytes) (s1 : List Setting) (c : Byte) (a : Bytes) (s : Setting) (rest ws : List Bytes) (ss : List Setting) :
      Cluster cs s1 → ArgLetter c a s → a ≠ [] → CommandLine posix rest ss ws →
      CommandLine posix ((0x2D :: cs ++ c :: a) :: rest) (s1 ++ s :: ss) ws
  /-- `-rvs name` -/
  | separate (cs : Bytes) (s1 : List Setting) (c : Byte) (a : Bytes) (s : Setting) (rest ws : List Bytes) (ss : List Setting) :
      Cluster cs s1 → ArgLetter c a s → CommandLine posix rest ss ws →
      CommandLine posix ((0x2D :: cs ++ [c]) :: a :: rest) (s1 ++ s :: ss) ws
  /-- `--nonsense` -/
  | badLong (t : Bytes) (rest : List Bytes) : t ≠ [] → (∀ s, ¬ Abbreviates t s) →
      CommandLine posix ((0x2D :: 0x2D :: t) :: rest) [.unreadable] []
  /-- `-rvx` -/
  | badLetter (cs : Bytes) (s1 : List Setting) (c : Byte) (more : Bytes) (rest : List Bytes) : Cluster cs s1 →
      (∀ s, ¬ Letter c s) → (∀ a s, ¬ ArgLetter c a s) → (cs = [] → c ≠ 0x2D) →
      CommandLine posix ((0x2D :: cs ++ c :: more) :: rest) (s1 ++ [.unreadable]) []
  /-- `-s` at the end -/
  | missing (cs : Bytes) (s1 : List Setting) (c : Byte) : Cluster cs s1 → (∃ a s, ArgLetter c a s) →
      CommandLine posix [0x2D :: cs ++ [c]] (s1 ++ [.unreadable]) []

/-- The settings after which detox shows something and leaves. -/
def Setting.Leaves (s : Setting) : Prop := s = .help ∨ s = .version ∨ s = .usage ∨ s = .unreadable

instance (s : Setting) : Decidable s.Leaves := by unfold Setting.Leaves; infer_instance

/-- The last config file asked for. -/
def lastConfig : List Setting → Option Bytes
  | [] => none
  | .config f :: ss => some ((lastConfig ss).getD f)
  | _ :: ss => lastConfig ss

/-- The last sequence asked for. -/
def lastSequence : List Setting → Option Bytes
  | [] => none
  | .sequence n :: ss => some ((lastSequence ss).getD n)
  | _ :: ss => lastSequence ss

/-- The program was called by the name `inline-detox`, in whatever directory. -/
def CalledInline (program : Bytes) : Prop :=
  ∃ slashes, program = lit "inline-detox" ++ List.replicate slashes 0x2F ∨
    ∃ dir, program = dir ++ lit "/inline-detox" ++ List.replicate slashes 0x2F

/-- Two lists of settings with the same flags, as many `-v`, the same last `-f` and the same last `-s`. -/
def SameSettings (ss ss' : List Setting) : Prop :=
  (∀ s, s = .list ∨ s = .dryRun ∨ s = .recurse ∨ s = .inline ∨ s = .special → (s ∈ ss ↔ s ∈ ss')) ∧
  ss.count .verbose = ss'.count .verbose ∧ lastConfig ss = lastConfig ss' ∧ lastSequence ss = lastSequence ss'

end Detox.Spec
