import Verif.Lemmas.Stdout
import Verif.Props.Resume

/-!
# C110: what is printed arrives, or not
-/

set_option autoImplicit false

namespace Detox
open Spec

section
variable {α : Type} {p : Prog α} {tr : List Event} {sys : List SysCall} {o : Outcome α}

/-- **C110.** At any moment: if no `write` failed, what has arrived is a beginning of what was printed. -/
theorem C110_a_beginning_arrives (h : Ran p tr sys o) (hn : ¬ WriteFailed sys) : arrived sys <+: outText tr := by
  obtain ⟨left, h1, _⟩ := h.stdio
  exact ⟨left, (stdio_accounts h1 hn).symm⟩

/-- **C110.** If no `write` failed, all that was printed has arrived when the program is at its end, whether it returned or left with an error. -/
theorem C110_all_arrives (h : Ran p tr sys o) (ho : o.Ends) (hn : ¬ WriteFailed sys) : arrived sys = outText tr := by
  obtain ⟨left, h1, h2⟩ := h.stdio
  have := stdio_accounts h1 hn
  rw [h2 ho, List.append_nil] at this
  exact this.symm

/-- **C110.** Whatever happens to the writes, nothing arrives that was not printed, nothing twice, and nothing in another order. -/
theorem C110_nothing_else_arrives (h : Ran p tr sys o) : (arrived sys).Sublist (outText tr) := by
  obtain ⟨left, h1, _⟩ := h.stdio
  exact (List.sublist_append_left _ _).trans (stdio_sublist h1)

/-- **C110.** The system sees the same calls, in the same order, as if there were no buffer; only the time of the writes is open. -/
theorem C110_other_calls_are_the_same (h : Ran p tr sys o) : unprintedCalls sys = notPrinted tr := by
  obtain ⟨left, h1, _⟩ := h.stdio
  exact stdio_calls h1

/-- **C110.** The program does not notice. Every execution is possible with a standard output that refuses everything: the same calls, the same end, the same exit
status, and nothing arrives. -/
theorem C110_nobody_notices (h : Trace p tr o) : ∃ sys, Ran p tr sys o ∧ unprintedCalls sys = notPrinted tr ∧ arrived sys = [] ∧
    (outText tr ≠ [] → WriteFailed sys) ∧ ¬ BrokenPipe sys := by
  obtain ⟨sys, h1, h2, h3⟩ := stdio_refused tr []
  have hb : ¬ BrokenPipe sys := fun ⟨a, ha⟩ => by cases h3 a _ ha
  refine ⟨sys, ⟨h, ⟨[], h1, fun _ => rfl⟩, fun hk => absurd hk hb⟩, stdio_calls h1, h2, fun ht => ?_, hb⟩
  refine Classical.byContradiction fun hn => ht ?_
  have := stdio_accounts h1 hn
  rw [h2] at this
  simpa using this

/-- **C110.** Every execution is possible with a standard output that takes everything. -/
theorem C110_writing_can_work (h : Trace p tr o) : ∃ sys, Ran p tr sys o ∧ ¬ WriteFailed sys ∧ ¬ BrokenPipe sys := by
  obtain ⟨sys, h1, h2, h3⟩ := stdio_late tr []
  exact ⟨sys, ⟨h, ⟨[], h1, fun _ => rfl⟩, fun hk => absurd hk h3⟩, h2, h3⟩

/-- **C110.** With a pipe nobody reads from, all that was done so far may go unreported: if anything was printed, the process may be killed before any of it arrives. -/
theorem C110_done_but_not_reported (h : Trace p tr o) (ht : outText tr ≠ []) :
    ∃ sys, Ran p tr sys .running ∧ unprintedCalls sys = notPrinted tr ∧ arrived sys = [] ∧ BrokenPipe sys := by
  obtain ⟨sys, left, h1, h2, h3, _⟩ := stdio_lost tr [] (by simpa using ht)
  exact ⟨sys, ⟨trace_stopped h, ⟨left, h1, nofun⟩, fun _ => rfl⟩, stdio_calls h1, h2, h3⟩

end

/-! ### The files -/

section
variable {P : Platform} {I : Invocation} {ss : List Setting} {fs : FS} {fuel : Nat} {tr : List Event} {sys : List SysCall} {out : Outcome Unit} {w : World}

/-- An execution with its standard output is an attempt. -/
theorem Ran.attempt (h : Ran (detoxMain P I fuel) tr sys out) (hf : ∀ e ∈ unprintedCalls sys, Faithful (fun _ => none) e)
    (hs : World.Steps (World.start fs) (unprintedCalls sys) w) (hg : ∀ d n, Event.readdir d (some n) ∈ unprintedCalls sys → SafeName (requested I ss) n) :
    Attempt P I ss fs tr out w := by
  rw [C110_other_calls_are_the_same h] at hf hs hg
  refine ⟨⟨fuel, h.trace⟩, fun e he => ?_, steps_notPrinted.1 hs, fun d n hm => hg d n ((mem_notPrinted (e := .readdir d (some n)) nofun).2 hm)⟩
  by_cases ho : ∃ s, e = .out s
  · obtain ⟨s, rfl⟩ := ho
    nofun
  · exact hf e ((mem_notPrinted fun s hs => ho ⟨s, hs⟩).2 he)

/-- **C110.** Whatever happens to standard output — a full disk, a reader that goes away — each file has the name it had or the name it should have (in the case of
C108). -/
theorem C110_tree_whatever_happens {E : TableEnv} {ws : List Bytes} {depth : Ino → Nat} {slack level : Nat} (hP : P.Benign)
    (hu : UsualCase P E I ss ws fs depth slack level) (o : Options) (hrec : o.recurse = true ↔ Setting.recurse ∈ ss)
    (hsp : o.special = true ↔ Setting.special ∈ ss) (h : Ran (detoxMain P I fuel) tr sys out)
    (hf : ∀ e ∈ unprintedCalls sys, Faithful (fun _ => none) e) (hs : World.Steps (World.start fs) (unprintedCalls sys) w)
    (hg : ∀ d n, Event.readdir d (some n) ∈ unprintedCalls sys → SafeName (requested I ss) n) :
    fs.PartlyCleaned (BuiltinMakes P E (requested I ss)) o ws w.fs :=
  C108_at_any_moment hP hu o hrec hsp (h.attempt hf hs hg)

/-- **C110.** After a broken pipe detox can be run again: a last run that comes to its end without complaints leaves the tree as if the first had not been
(in the case of C108). -/
theorem C110_run_again_after_broken_pipe {E : TableEnv} {ws : List Bytes} {depth : Ino → Nat} {slack level : Nat} (hP : P.Benign)
    (hu : UsualCase P E I ss ws fs depth slack level) (hc : fs.ArgsClean (BuiltinMakes P E (requested I ss)) ws)
    (hv : fs.StaysInView (BuiltinMakes P E (requested I ss)) fun n => Hidden n ∨ n ∈ [lit "{arch}"]) (o : Options)
    (hrec : o.recurse = true ↔ Setting.recurse ∈ ss) (hsp : o.special = true ↔ Setting.special ∈ ss) (h : Ran (detoxMain P I fuel) tr sys out)
    (hf : ∀ e ∈ unprintedCalls sys, Faithful (fun _ => none) e) (hs : World.Steps (World.start fs) (unprintedCalls sys) w)
    (hg : ∀ d n, Event.readdir d (some n) ∈ unprintedCalls sys → SafeName (requested I ss) n)
    {tr' : List Event} {w' : World} (hlast : Attempt P I ss w.fs tr' (.ret ()) w') (hs' : Silent tr') :
    fs.Cleaned (BuiltinMakes P E (requested I ss)) o ws [lit "{arch}"] w'.fs :=
  C108_run_again hP hu hc hv o hrec hsp (.more _ _ _ _ _ (h.attempt hf hs hg) (.none _)) hlast hs'

end

/-! ### The report of `-v` -/

/-- **C110.** With `-v` (and without `-n`) detox keeps a journal: after the configuration is read, every rename is reported right before it is tried, and nothing else
is reported. If it is stopped, one more may be reported that is not tried yet. -/
theorem C110_every_rename_is_reported {P : Platform} {I : Invocation} {fuel : Nat} {ss : List Setting} {ws : List Bytes}
    (hr : Renames I ss ws) (hv : Setting.verbose ∈ ss) (hw : Setting.dryRun ∉ ss) {tr : List Event} {out : Outcome Unit}
    (h : Trace (detoxMain P I fuel) tr out) : ∃ reads t, tr = reads ++ t ∧ (∀ e ∈ reads, Harmless e) ∧
      (Journal t ∨ (out = .running ∧ ∃ t' old new, t = t' ++ [.out (reportLine old new)] ∧ Journal t')) := by
  rcases main_cases hr.line h with ⟨hh, _⟩ | ⟨reads, t, o, ignored, l, ign, rfl, hrd, hl, hig, hk⟩
  · exact ⟨tr, [], by simp, hh, .inl .nil⟩
  · refine ⟨reads, t, rfl, hrd.quiet, ?_⟩
    rcases hk with ⟨hin, _⟩ | ⟨_, _, ht⟩
    · exact absurd (hrd.asked.2.2.2.2.2.1.1 hin) hr.noInline
    · have hd : o.dryRun = false := by
        rcases h : o.dryRun with _ | _
        · rfl
        · exact absurd (hrd.asked.2.1.1 h) hw
      have hv' : o.verbose ≠ 0 := by
        rw [hrd.asked.2.2.2.2.1]
        exact fun h => List.count_eq_zero.1 h hv
      exact keeps_bind (fileLoop_keeps hv' hd _ _ _ _) (fun _ => keeps_ret _) _ _ ht

/-- **C110.** So what arrives of a run with `-v` that comes to its end is, after what was printed about the configuration, a series of lines; and the renames reported
are those that were tried, in the same order — unless a `write` failed. -/
theorem C110_report_is_complete {P : Platform} {I : Invocation} {fuel : Nat} {ss : List Setting} {ws : List Bytes}
    (hr : Renames I ss ws) (hv : Setting.verbose ∈ ss) (hw : Setting.dryRun ∉ ss) {tr : List Event} {sys : List SysCall} {out : Outcome Unit}
    (h : Ran (detoxMain P I fuel) tr sys out) (ho : out.Ends) (hn : ¬ WriteFailed sys) : ∃ reads t lines, tr = reads ++ t ∧ (∀ e ∈ reads, Harmless e) ∧
      arrived sys = outText reads ++ lines.flatMap JournalLine.text ∧ reported lines = renamesTried tr := by
  obtain ⟨reads, t, rfl, hh, hj⟩ := C110_every_rename_is_reported hr hv hw h.trace
  rcases hj with hj | ⟨rfl, _⟩
  · obtain ⟨ls, h1, h2⟩ := journal_lines hj
    refine ⟨reads, t, ls, rfl, hh, ?_, ?_⟩
    · rw [C110_all_arrives h ho hn, outText_append, h1]
    · rw [renamesTried_append, ← h2]
      have : renamesTried reads = [] := by
        clear h h1 h2 hj
        induction reads with
        | nil => rfl
        | cons e reads ih =>
          have := ih fun e he => hh e (by simp [he])
          cases hh e (by simp) <;> exact this
      rw [this, List.nil_append]
  · cases ho

/-- **C110.** And at any moment, if no `write` failed: what has arrived is a beginning of what was printed about the configuration, and of lines that report the renames
tried so far, in order, and at most one more. -/
theorem C110_report_so_far {P : Platform} {I : Invocation} {fuel : Nat} {ss : List Setting} {ws : List Bytes}
    (hr : Renames I ss ws) (hv : Setting.verbose ∈ ss) (hw : Setting.dryRun ∉ ss) {tr : List Event} {sys : List SysCall} {out : Outcome Unit}
    (h : Ran (detoxMain P I fuel) tr sys out) (hn : ¬ WriteFailed sys) : ∃ reads t lines more, tr = reads ++ t ∧ (∀ e ∈ reads, Harmless e) ∧
      arrived sys <+: outText reads ++ lines.flatMap JournalLine.text ∧ reported lines = renamesTried tr ++ more ∧ more.length ≤ 1 := by
  have hp := C110_a_beginning_arrives h hn
  obtain ⟨reads, t, rfl, hh, hj⟩ := C110_every_rename_is_reported hr hv hw h.trace
  have hno : renamesTried reads = [] := by
    clear h hj hp
    induction reads with
    | nil => rfl
    | cons e reads ih =>
      have := ih fun e he => hh e (by simp [he])
      cases hh e (by simp) <;> exact this
  rcases hj with hj | ⟨rfl, t', old, new, rfl, hj⟩
  · obtain ⟨ls, h1, h2⟩ := journal_lines hj
    rw [outText_append, h1] at hp
    exact ⟨reads, t, ls, [], rfl, hh, hp, by rw [renamesTried_append, hno, h2]; simp, by simp⟩
  · obtain ⟨ls, h1, h2⟩ := journal_lines hj
    refine ⟨reads, _, ls ++ [.report old new], [(old, new)], rfl, hh, ?_, ?_, by simp⟩
    · rw [outText_append, outText_append, h1] at hp
      simpa [outText, JournalLine.text] using hp
    · rw [reported_append, h2, renamesTried_append, renamesTried_append, hno]
      simp [reported, renamesTried]

/-! ### Inline mode -/

/-- **C110.** inline-detox with the default sequence and nothing configured, on texts without NUL bytes, whatever happens to the writes: nothing but newlines and
harmless characters arrives. If no `write` failed, the bytes that are not ASCII have all arrived, in the same order, and as many newlines as there were. -/
theorem C110_inline_default {P : Platform} {I : Invocation} {fuel : Nat} {ss : List Setting} {ws : List Bytes}
    (hc : CommandLine I.posixlyCorrect I.args ss ws) (hi : CalledInline I.program ∨ Setting.inline ∈ ss) {tr : List Event} {sys : List SysCall}
    (h : Ran (detoxMain P I fuel) tr sys (.ret ())) (hu : Unconfigured I ss tr) (hn : requested I ss = none ∨ requested I ss = some (lit "default"))
    (ht : ∀ s ∈ textsRead tr, NulFree s) :
    (∀ c ∈ arrived sys, c = 0x0A ∨ hostile c = false) ∧ (¬ WriteFailed sys →
      (arrived sys).count 0x0A = (textsRead tr).flatten.count 0x0A ∧
      (arrived sys).filter (fun c => decide (128 ≤ c.toNat)) = (textsRead tr).flatten.filter (fun c => decide (128 ≤ c.toNat))) := by
  obtain ⟨h1, h2, h3⟩ := C95_default_output hc hi h.trace hu hn ht
  refine ⟨fun c hc => h1 c ((C110_nothing_else_arrives h).mem hc), fun hw => ?_⟩
  rw [C110_all_arrives h (.ret ()) hw]
  exact ⟨h2, h3⟩

/-! ### Examples -/

/-- `detox -v` on two files. -/
def loudCall : Invocation := { program := lit "detox", args := [lit "-v", lit "a b", lit "c d"] }

def loudTrace : List Event :=
  nothingInstalled ++ [
  .out (lit "Scanning: a b\n"), .lstat (lit "a b") (some (regStat 2)), .lstat (lit "a b") (some (regStat 2)), .lstat (lit "a_b") none,
  .out (lit "a b -> a_b\n"), .rename (lit "a b") (lit "a_b") true,
  .out (lit "Scanning: c d\n"), .lstat (lit "c d") (some (regStat 3)), .lstat (lit "c d") (some (regStat 3)), .lstat (lit "c_d") none,
  .out (lit "c d -> c_d\n"), .rename (lit "c d") (lit "c_d") true]

theorem loudTrace_run : Trace (detoxMain .linux loudCall 0) loudTrace (.ret ()) := Prog.result_sound _ _ _ (by decide +kernel)

/- It meets the hypotheses on the command line. -/
example : Renames loudCall [.verbose] [lit "a b", lit "c d"] :=
  ⟨.cluster [0x76] [.verbose] _ _ _ (by simp) (.cons _ _ _ _ .verbose .nil)
    (.operand _ _ _ _ rfl (.inl (by decide +kernel)) (.operand _ _ _ _ rfl (.inl (by decide +kernel)) .none)),
    by simp [Setting.Leaves], by simp, by
      rintro (h | h)
      · rw [← posixBasename_inline] at h
        exact absurd h (by decide +kernel)
      · simp at h, by simp⟩

/-- **C110.** `detox -v "a b" "c d" > /dev/full`: both files are renamed, nothing is reported, and detox succeeds. -/
theorem C110_full_disk : ∃ sys, Ran (detoxMain .linux loudCall 0) loudTrace sys (.ret ()) ∧ arrived sys = [] ∧ WriteFailed sys ∧
    Event.rename (lit "a b") (lit "a_b") true ∈ unprintedCalls sys ∧ Event.rename (lit "c d") (lit "c_d") true ∈ unprintedCalls sys := by
  obtain ⟨sys, h1, h2, h3, h4, _⟩ := C110_nobody_notices loudTrace_run
  refine ⟨sys, h1, h3, h4 (by decide +kernel), ?_, ?_⟩
  · rw [h2]; decide +kernel
  · rw [h2]; decide +kernel

/-- **C110.** `detox -v "a b" "c d" | head -1` on a system where lines are written one by one: the second line kills the process, and `c d` stays as it is, though it
was an argument. Even the first rename is not tried. -/
theorem C110_head : ∃ tr sys, Ran (detoxMain .linux loudCall 0) tr sys .running ∧ arrived sys = lit "Scanning: a b\n" ∧ BrokenPipe sys ∧
    ¬ WriteFailed sys ∧ ∀ old new ok, Event.rename old new ok ∉ unprintedCalls sys := by
  have hcut : Trace (detoxMain .linux loudCall 0) (loudTrace.take 7) .running :=
    trace_cut (t2 := loudTrace.drop 7) (by rw [List.take_append_drop]; exact loudTrace_run)
  refine ⟨_, nothingInstalled.map .call ++ [.write (lit "Scanning: a b\n") (.took 14), .call (.lstat (lit "a b") (some (regStat 2))),
    .call (.lstat (lit "a b") (some (regStat 2))), .call (.lstat (lit "a_b") none), .write (lit "a b -> a_b\n") .killed],
    ⟨hcut, ⟨lit "a b -> a_b\n", ?_, nofun⟩, fun _ => rfl⟩, by decide +kernel, ⟨lit "a b -> a_b\n", by simp⟩, ?_, ?_⟩
  · have hk : Stdio (lit "a b -> a_b\n" ++ []) [] [.write (lit "a b -> a_b\n") .killed] (lit "a b -> a_b\n" ++ []) := .killed _ _ (by decide +kernel)
    rw [List.append_nil] at hk
    have h1 : Stdio [] _ _ _ := .call [] (.lstat (lit "a b") (some (regStat 2))) _ _ _ nofun
      (.call _ (.lstat (lit "a b") (some (regStat 2))) _ _ _ nofun (.call _ (.lstat (lit "a_b") none) _ _ _ nofun (.out [] (lit "a b -> a_b\n") _ _ _ hk)))
    have h2 := Stdio.took (lit "Scanning: a b\n") [] 14 _ _ _ (by decide +kernel) (by decide +kernel)
      (by rw [show (lit "Scanning: a b\n").drop 14 = [] by decide +kernel]; exact h1)
    have h3 : Stdio [] (.out (lit "Scanning: a b\n") :: _) _ _ := .out _ _ _ _ _ (by simpa using h2)
    exact .call _ _ _ _ _ nofun (.call _ _ _ _ _ nofun h3)
  · rintro ⟨a, ha⟩
    simp [nothingInstalled] at ha
  · intro old new ok hm
    simp [nothingInstalled, unprintedCalls] at hm

/-- **C110.** With a pipe, where what is printed is kept until there is a lot of it: both files are renamed, and nothing of the report arrives. -/
theorem C110_renamed_unreported : ∃ sys, Ran (detoxMain .linux loudCall 0) loudTrace sys .running ∧ arrived sys = [] ∧ BrokenPipe sys ∧
    Event.rename (lit "a b") (lit "a_b") true ∈ unprintedCalls sys ∧ Event.rename (lit "c d") (lit "c_d") true ∈ unprintedCalls sys := by
  obtain ⟨sys, h1, h2, h3, h4⟩ := C110_done_but_not_reported loudTrace_run (by decide +kernel)
  refine ⟨sys, h1, h3, h4, ?_, ?_⟩
  · rw [h2]; decide +kernel
  · rw [h2]; decide +kernel

end Detox
