import Verif.Lemmas.Exits
import Verif.Props.Main

/-!
# Exit status
-/

set_option autoImplicit false

namespace Detox
open Spec

theorem dumpConfigFile_noExit (c : ConfigFile) (o : Options) : (dumpConfigFile c o).NoExit := by
  have loop : ∀ n l, (dumpIgnored n l).NoExit := by
    intro n
    induction n with
    | zero => intro l; exact .stuck
    | succ n ih =>
      intro l
      unfold dumpIgnored
      refine .bind (filelistGet_noExit l) fun p => ?_
      obtain ⟨l', w⟩ := p
      cases w with
      | none => exact .ok _
      | some w => exact .bind (ih _) fun _ => .ok _
  unfold dumpConfigFile
  cases c.filesToIgnore with
  | none => exact .bind (.ok _) fun _ => .ok _
  | some l =>
    simp only
    split
    · exact .bind (loop _ _) fun _ => .ok _
    · exact .ok _

/-- **C69**: detox ends with status 0 or 1. Unless it was asked for help, its version or its sequences, or could not read its
options, an early end has status 1, and the last thing it did is to write a message: to standard error, or, if there is no file
to work on, its usage to standard output. -/
theorem C69_exit_status {P : Platform} {I : Invocation} {fuel : Nat} {ss : List Setting} {ws : List Bytes}
    (hc : CommandLine I.posixlyCorrect I.args ss ws) {tr : List Event} {n : Nat}
    (h : Trace (detoxMain P I fuel) tr (.exit n)) :
    (n = 0 ∧ ((∃ s ∈ ss, s.Leaves) ∨ Setting.list ∈ ss)) ∨
    (n = 1 ∧ (∀ s ∈ ss, ¬ s.Leaves) ∧ ((∃ pre m, tr = pre ++ [.err m]) ∨
      (tr = [.out usageMessage] ∧ ws = [] ∧ Setting.list ∉ ss ∧ Setting.inline ∉ ss ∧ ¬ CalledInline I.program))) := by
  by_cases hs : ∃ s ∈ ss, s.Leaves
  · left
    refine ⟨?_, .inl hs⟩
    have : ∃ pre s post, ss = pre ++ s :: post ∧ (∀ x ∈ pre, ¬ x.Leaves) ∧ s.Leaves := by
      clear hc
      induction ss with
      | nil => obtain ⟨s, h, _⟩ := hs; cases h
      | cons s ss ih =>
        by_cases hl : s.Leaves
        · exact ⟨[], s, ss, rfl, by simp, hl⟩
        · obtain ⟨pre, x, post, rfl, b, c⟩ := ih (by
            obtain ⟨y, hy, hyl⟩ := hs
            rcases List.mem_cons.1 hy with rfl | hy
            · exact absurd hyl hl
            · exact ⟨y, hy, hyl⟩)
          refine ⟨s :: pre, x, post, rfl, fun y hy => ?_, c⟩
          rcases List.mem_cons.1 hy with rfl | hy
          · exact hl
          · exact b y hy
    obtain ⟨pre, s, post, rfl, b, c⟩ := this
    unfold detoxMain at h
    rcases trace_bind_any h with ⟨o, t1, t2, rfl, h1, h2⟩ | ⟨o', h1, h2⟩
    · have := (C49_leaving_options hc b c I.program I.sequence t1 _ h1 (by intro h; cases h)).1
      cases this
    · cases h1 with
      | exit =>
        have := (C49_leaving_options hc b c I.program I.sequence tr _ h2 (by intro h; cases h)).1
        cases this
        rfl
  have hs' : ∀ s ∈ ss, ¬ s.Leaves := fun s h1 h2 => hs ⟨s, h1, h2⟩
  obtain ⟨hlist, hwork, husage⟩ := C49_options_exactly hc hs' I.program I.sequence
  unfold detoxMain at h
  by_cases hl : Setting.list ∈ ss
  · obtain ⟨o, ho, ha, _⟩ := hlist hl
    rw [ho] at h
    change Trace (detoxConfigured P I o fuel) tr _ at h
    unfold detoxConfigured at h
    rcases trace_bind_any h with ⟨c, t1, t2, rfl, h1, h2⟩ | ⟨o', h1, h2⟩
    · rw [if_pos (ha.1.2 hl)] at h2
      rcases trace_bind_any h2 with ⟨x, t3, t4, rfl, h3, h4⟩ | ⟨o', h3, h4⟩
      · cases h4 with
        | out _ _ _ _ h5 => cases h5; exact .inl ⟨rfl, .inr hl⟩
      · cases h3 with
        | exit =>
          have := (Prog.Complains.ofRes (dumpConfigFile_noExit c o)).trace h4
          obtain ⟨rfl, pre, m, rfl⟩ := this
          exact .inr ⟨rfl, hs', .inl ⟨t1 ++ pre, m, by simp⟩⟩
    · cases h1 with
      | exit =>
        obtain ⟨rfl, pre, m, rfl⟩ := (configFileLoad_complains _ _).trace h2
        exact .inr ⟨rfl, hs', .inl ⟨pre, m, rfl⟩⟩
  · by_cases hw : ws ≠ [] ∨ CalledInline I.program ∨ Setting.inline ∈ ss
    · obtain ⟨o, l, ho, ha, _⟩ := hwork hl hw
      rw [ho] at h
      change Trace (detoxConfigured P I o fuel) tr _ at h
      unfold detoxConfigured at h
      right
      have last : ∀ {t1 t2 : List Event}, (n = 1 ∧ ∃ pre m, t2 = pre ++ [.err m]) →
          n = 1 ∧ (∀ s ∈ ss, ¬ s.Leaves) ∧ ((∃ pre m, t1 ++ t2 = pre ++ [.err m]) ∨
          (t1 ++ t2 = [.out usageMessage] ∧ ws = [] ∧ Setting.list ∉ ss ∧ Setting.inline ∉ ss ∧ ¬ CalledInline I.program)) := by
        rintro t1 _ ⟨h, pre, m, rfl⟩
        exact ⟨h, hs', .inl ⟨t1 ++ pre, m, by simp⟩⟩
      rcases trace_bind_any h with ⟨c, t1, t2, rfl, h1, h2⟩ | ⟨o', h1, h2⟩
      · refine last ?_
        rw [if_neg (fun hx => hl (ha.1.1 hx))] at h2
        cases hq : sequenceChooseDefault c.sequences o.sequenceName with
        | none =>
          rw [hq] at h2
          exact (Prog.Complains.fail _).trace h2
        | some q =>
          rw [hq] at h2
          rcases trace_bind_any h2 with ⟨q', t3, t4, rfl, h3, h4⟩ | ⟨o', h3, h4⟩
          · have ht := reviewed_hasTables h3
            have : ∀ o' : Options, o'.sequenceToUse = some q' → (detoxWork P o' fuel).Complains := by
              intro o' ho'
              unfold detoxWork
              split
              · exact inlineMain_complains ho' ht _
              · split
                · exact .ret _
                · exact .bind (fileLoop_complains ho' ht _ _ _ _) fun _ => .ret _
            obtain ⟨h5, pre, m, h6⟩ := (this _ rfl).trace h4
            exact ⟨h5, t3 ++ pre, m, by rw [h6]; simp⟩
          · cases h3 with
            | exit => exact (reviewSequence_complains _ _ _).trace h4
      · cases h1 with
        | exit => exact last (t1 := []) ((configFileLoad_complains _ _).trace h2)
    · obtain ⟨a, b⟩ := not_or.1 hw
      obtain ⟨b, c⟩ := not_or.1 b
      rw [husage hl (Classical.not_not.1 a) b c] at h
      cases h with
      | out _ _ _ _ h5 =>
        cases h5
        exact .inr ⟨rfl, hs', .inr ⟨rfl, Classical.not_not.1 a, hl, c, b⟩⟩

/-- `detox FILE` with nothing configured. -/
def plainCall (file : Bytes) : Invocation := { program := lit "detox", args := [file] }

/-- Looking for config files, and finding none. -/
def nothingInstalled : List Event :=
  [.slurp (some (lit "/etc/detoxrc")) none, .slurp (some (lit "/usr/local/etc/detoxrc")) none]

/-- `detox 'a b'`. -/
def mainTrace (done : Bool) : List Event :=
  nothingInstalled ++
  [.lstat (lit "a b") (some (regStat 2)), .lstat (lit "a b") (some (regStat 2)), .lstat (lit "a_b") none,
   .rename (lit "a b") (lit "a_b") done] ++
  if done then [] else [.err (lit "Cannot rename a b to a_b: ")]

/-- **C69**: a rename that fails does not show in the exit status. -/
theorem C69_failed_rename_exits_with_success :
    Trace (detoxMain .linux (plainCall (lit "a b")) 0) (mainTrace false) (.ret ()) := Prog.result_sound _ _ _ (by decide +kernel)

/- Concrete cases of C66: a rename, and a file system on which it is possible. -/
example : Trace (detoxMain .linux (plainCall (lit "a b")) 0) (mainTrace true) (.ret ()) := Prog.result_sound _ _ _ (by decide +kernel)
example : ∃ fs', FS.Steps (smallFS false [⟨⟨1, 1⟩, lit "a b", ⟨1, 2⟩⟩]) (mainTrace true) fs' ∧
    fs'.entries = [⟨⟨1, 1⟩, lit "a_b", ⟨1, 2⟩⟩] := FS_exec_entries (by decide +kernel)

/- Concrete cases of C69: no operands; an unknown option; a config file that is not there; an unknown sequence. -/
example : Trace (detoxMain .linux { program := lit "detox", args := [] } 0) [.out usageMessage] (.exit 1) :=
  Prog.final_sound _ _ _ (by decide +kernel)
example : Trace (detoxMain .linux { program := lit "detox", args := [lit "-q", lit "a b"] } 0)
    [.err (lit "detox: "), .out usageMessage] (.exit 0) := Prog.final_sound _ _ _ (by decide +kernel)
example : Trace (detoxMain .linux { program := lit "detox", args := [lit "-f", lit "rc", lit "a b"] } 0)
    [.slurp (some (lit "rc")) none, .err (lit "detox: unable to open: rc\n")] (.exit 1) :=
  Prog.final_sound _ _ _ (by decide +kernel)
example : Trace (detoxMain .linux { program := lit "detox", args := [lit "-s", lit "upper", lit "a b"] } 0)
    (nothingInstalled ++ [.err (lit "detox: no sequence to work with\n")]) (.exit 1) :=
  Prog.final_sound _ _ _ (by decide +kernel)

/- Concrete cases of C65: `-n`, and inline mode. -/
example : Trace (detoxMain .linux { program := lit "detox", args := [lit "-n", lit "a b"] } 0)
    (nothingInstalled ++ [.lstat (lit "a b") (some (regStat 2)), .lstat (lit "a b") (some (regStat 2)), .lstat (lit "a_b") none,
      .out (lit "a b -> a_b\n")]) (.ret ()) := Prog.final_sound _ _ _ (by decide +kernel)
example : Trace (detoxMain .linux { program := lit "/usr/bin/inline-detox", args := [] } 0)
    (nothingInstalled ++ [.slurp none (some (lit "a b\n")), .out (lit "a_b"), .out (lit "\n")]) (.ret ()) :=
  Prog.final_sound _ _ _ (by decide +kernel)

end Detox
