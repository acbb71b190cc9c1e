import Verif.Lemmas.MemorySafe
import Verif.Props.MemoryFile

/-!
# C83, C84, C85: the whole program on the heap
-/

set_option autoImplicit false

namespace Detox
open Spec

/-- `main` from the start: nothing is allocated. -/
abbrev mDetoxRun (A S : Nat → Bool) (P : Platform) (I : Invocation) (fuel : Nat) : Prog (Except Fault (Unit × Heap)) := mDetoxMain A S P I fuel []

theorem run_follows {A S : Nat → Bool} (hS : ∀ n, S n = true) (P : Platform) (I : Invocation) (fuel : Nat) :
    Follows A False (fun _ _ (_ : Unit) => True) (mDetoxRun A S P I fuel) (detoxMain P I fuel) := detoxMain_follows hS P I fuel []

/-- **C83.** Whatever the arguments, the environment, the configuration and the tables are, whatever the system answers, and whichever `wrapped_malloc`
or `wrapped_strdup` fails: no block is used or freed after it was freed, no text is stored in a block that is too small
for it, and NULL is not followed. Undefined behaviour inside a filter (C17), the line reader (C40) or the scanner (C64) is another outcome, `ub`. -/
theorem C83_no_memory_fault {A S : Nat → Bool} (hS : ∀ n, S n = true) (P : Platform) (I : Invocation) (fuel : Nat)
    {tr : List Event} {oc : Outcome (Except Fault (Unit × Heap))} (ht : Trace (mDetoxRun A S P I fuel) tr oc) : ∀ e, oc ≠ .ret (.error e) := by
  rintro e rfl
  rcases (run_follows hS P I fuel).trace ht with ⟨o', _, m⟩ | ⟨_, pre, _, ⟨_, h'⟩ | ⟨_, h' | h'⟩ | ⟨h', _⟩⟩
  · cases o' <;> exact m
  · cases h'
  · cases h'
  · cases h'
  · exact h'

/-- **C84.** If no allocation fails, the program with pointers has the executions of the program on values, of which the other properties speak. -/
theorem C84_same_executions {A S : Nat → Bool} (hA : ∀ n, A n = true) (hS : ∀ n, S n = true) (P : Platform) (I : Invocation) (fuel : Nat)
    (tr : List Event) :
    (∀ oc, Trace (mDetoxRun A S P I fuel) tr oc → ∃ oc', Trace (detoxMain P I fuel) tr oc' ∧ EndsAlike oc oc') ∧
    (∀ oc', Trace (detoxMain P I fuel) tr oc' → ∃ oc, Trace (mDetoxRun A S P I fuel) tr oc ∧ EndsAlike oc oc') := by
  refine ⟨fun oc ht => ?_, fun oc' ht => ?_⟩
  · rcases (run_follows hS P I fuel).trace ht with ⟨o', h1, m⟩ | ⟨⟨n, hn⟩, _⟩
    · exact ⟨o', h1, m.endsAlike⟩
    · rw [hA n] at hn; cases hn
  · obtain ⟨oc, h1, m⟩ := (run_follows hS P I fuel).back hA ht
    exact ⟨oc, h1, m.endsAlike⟩

/-- **C84.** When memory runs out in `wrapped_malloc` or `wrapped_strdup`, the program stops where it is, with a message and status 1: up to there it
did what it would have done with more memory. -/
theorem C84_memory_runs_out {A S : Nat → Bool} (hS : ∀ n, S n = true) (P : Platform) (I : Invocation) (fuel : Nat)
    {tr : List Event} {oc : Outcome (Except Fault (Unit × Heap))} (ht : Trace (mDetoxRun A S P I fuel) tr oc) :
    (∃ oc', Trace (detoxMain P I fuel) tr oc' ∧ EndsAlike oc oc') ∨
    ((∃ n, A n = false) ∧ ∃ pre, Trace (detoxMain P I fuel) pre .running ∧ tr = pre ++ [.err outOfMemory] ∧ (oc = .running ∨ oc = .exit 1)) := by
  rcases (run_follows hS P I fuel).trace ht with ⟨o', h1, m⟩ | ⟨hF, pre, hp, ⟨rfl, rfl⟩ | h' | ⟨h', _⟩⟩
  · exact .inl ⟨o', h1, m.endsAlike⟩
  · exact .inl ⟨.running, hp, trivial⟩
  · exact .inr ⟨hF, pre, hp, h'⟩
  · cases h'

/-- **C85.** The scanner calls `strdup` and does not look whether it got memory. Whatever it gets: the only fault is that NULL is followed, and that
only if one of these calls got nothing. -/
theorem C85_only_null {A S : Nat → Bool} (P : Platform) (I : Invocation) (fuel : Nat)
    {tr : List Event} {e : Fault} (ht : Trace (mDetoxRun A S P I fuel) tr (.ret (.error e))) : e = .null ∧ ∃ n, S n = false := by
  refine ⟨detoxMain_safe P I fuel [] _ _ ht, Classical.byContradiction fun hn => ?_⟩
  refine C83_no_memory_fault (fun n => ?_) P I fuel ht e rfl
  cases h : S n with
  | true => rfl
  | false => exact (hn ⟨n, h⟩).elim

/-! ### Cases -/

/-- The run ends in this way: 0 for a return, 1 for NULL followed, 2 for another fault, `n + 3` for `exit(n)`. -/
def endCode : Outcome (Except Fault (Unit × Heap)) → Option Nat
  | .ret (.ok _) => some 0
  | .ret (.error .null) => some 1
  | .ret (.error _) => some 2
  | .exit n => some (n + 3)
  | _ => none

theorem run_returns {p : Prog (Except Fault (Unit × Heap))} {tr : List Event} (h : (p.final tr).bind endCode = some 0) :
    ∃ h, Trace p tr (.ret (.ok ((), h))) := by
  obtain ⟨oc, e, h⟩ := Option.bind_eq_some_iff.1 h
  have ht := Prog.final_sound _ _ _ e
  cases oc with
  | ret r => cases r with
    | ok r => exact ⟨_, ht⟩
    | error f => cases f <;> cases h
  | exit k => cases h
  | running => cases h
  | ub u => cases h
  | stuck => cases h

theorem run_faults {p : Prog (Except Fault (Unit × Heap))} {tr : List Event} (h : (p.final tr).bind endCode = some 1) :
    Trace p tr (.ret (.error .null)) := by
  obtain ⟨oc, e, h⟩ := Option.bind_eq_some_iff.1 h
  have ht := Prog.final_sound _ _ _ e
  cases oc with
  | ret r => cases r with
    | ok r => cases h
    | error f => cases f <;> cases h <;> exact ht
  | exit k => cases h
  | running => cases h
  | ub u => cases h
  | stuck => cases h

theorem run_exits {p : Prog (Except Fault (Unit × Heap))} {tr : List Event} {n : Nat} (h : (p.final tr).bind endCode = some (n + 3)) :
    Trace p tr (.exit n) := by
  obtain ⟨oc, e, h⟩ := Option.bind_eq_some_iff.1 h
  have ht := Prog.final_sound _ _ _ e
  cases oc with
  | ret r => cases r with
    | ok r => cases h
    | error f => cases f <;> cases h
  | exit k => cases h; exact ht
  | running => cases h
  | ub u => cases h
  | stuck => cases h

/-- A configuration with one sequence. -/
def oneSequence : Bytes := lit "sequence x { lower; };\n"

/-- The same with quotes. -/
def oneQuotedSequence : Bytes := lit "sequence \"x\" { lower; };\n"

/-- Two sequences; without `-s` the first is used. -/
def twoSequences : Bytes := lit "sequence default { wipeup; };\nsequence x { lower; };\n"

/-- `detox -L -f rc` -/
def listRun : Invocation := { program := lit "detox", args := [lit "-L", lit "-f", lit "rc"] }

/-- `detox -f rc A__B` -/
def renameRun : Invocation := { program := lit "detox", args := [lit "-f", lit "rc", lit "A__B"] }

/-- **C85.** NULL is followed: the string in quotes gets no memory, and the scanner removes its last quote. -/
theorem C85_quoted_string_crashes : Trace (mDetoxRun (fun _ => true) (fun n => n ≠ 6) ⟨true, true, true⟩ listRun 3)
    [.slurp (lit "rc") (some oneQuotedSequence)] (.ret (.error .null)) :=
  run_faults (by decide +kernel)

/-- **C85.** Worse: a word gets no memory, and nobody sees it. The sequence is called "default" then, and the run ends with status 0. -/
theorem C85_name_is_lost_silently :
    Trace (mDetoxRun (fun _ => true) (fun _ => true) ⟨true, true, true⟩ listRun 3)
      [.slurp (lit "rc") (some oneSequence), .out (lit "available sequences:\n\tx (*)\n")] (.exit 0) ∧
    Trace (mDetoxRun (fun _ => true) (fun n => n ≠ 6) ⟨true, true, true⟩ listRun 3)
      [.slurp (lit "rc") (some oneSequence), .out (lit "available sequences:\n\tdefault (*)\n")] (.exit 0) :=
  ⟨run_exits (by decide +kernel), run_exits (by decide +kernel)⟩

/-- **C85.** So a file can get a name that the configuration does not ask for: the second sequence takes the place of the first. -/
theorem C85_file_gets_another_name :
    (∃ h, Trace (mDetoxRun (fun _ => true) (fun _ => true) ⟨true, true, true⟩ renameRun 3)
      [.slurp (lit "rc") (some twoSequences), .lstat (lit "A__B") (some ⟨0, 1, 1, .reg⟩), .lstat (lit "A__B") (some ⟨0, 1, 1, .reg⟩),
       .lstat (lit "A_B") none, .rename (lit "A__B") (lit "A_B") true] (.ret (.ok ((), h)))) ∧
    (∃ h, Trace (mDetoxRun (fun _ => true) (fun n => n ≠ 14) ⟨true, true, true⟩ renameRun 3)
      [.slurp (lit "rc") (some twoSequences), .lstat (lit "A__B") (some ⟨0, 1, 1, .reg⟩), .lstat (lit "A__B") (some ⟨0, 1, 1, .reg⟩),
       .lstat (lit "a__b") none, .rename (lit "A__B") (lit "a__b") true] (.ret (.ok ((), h)))) :=
  ⟨run_returns (by decide +kernel), run_returns (by decide +kernel)⟩

/-- A case of C84: one of the allocations for the configuration fails. -/
example : Trace (mDetoxRun (fun n => n ≠ 11) (fun _ => true) ⟨true, true, true⟩ renameRun 3)
    [.slurp (lit "rc") (some twoSequences), .err outOfMemory] (.exit 1) := run_exits (by decide +kernel)

/-- A case of C83 and C84 without a file of configuration: the sequence that is built in. -/
example : ∃ h, Trace (mDetoxRun (fun _ => true) (fun _ => true) ⟨true, true, true⟩ { program := lit "detox", args := [lit "A B"] } 3)
      [.slurp (lit "/etc/detoxrc") none, .slurp (lit "/usr/local/etc/detoxrc") none,
       .lstat (lit "A B") (some ⟨0, 1, 1, .reg⟩), .lstat (lit "A B") (some ⟨0, 1, 1, .reg⟩),
       .lstat (lit "A_B") none, .rename (lit "A B") (lit "A_B") true] (.ret (.ok ((), h))) := run_returns (by decide +kernel)

end Detox
