import Verif.Spec.Stdout
import Verif.Spec.World
import Verif.Lemmas.Extend
import Verif.Props.InlineMain

/-!
# Lemmas on standard output (for C110)
-/

set_option autoImplicit false

namespace Detox
open Spec

/-! ### Accounting -/

theorem stdio_accounts {b b' : Bytes} {tr : List Event} {sys : List SysCall} (h : Stdio b tr sys b') :
    ¬ WriteFailed sys → b ++ outText tr = arrived sys ++ b' := by
  induction h with
  | nil b => exact fun _ => by simp [outText, arrived]
  | out b s tr sys b' _ ih =>
    intro hn
    rw [← ih hn]
    simp [outText]
  | call b e tr sys b' he _ ih =>
    intro hn
    have := ih fun ⟨a, ha⟩ => hn ⟨a, by simp [ha]⟩
    simp only [arrived]
    rw [← this]
    cases e <;> first | rfl | exact absurd rfl (he _)
  | took a b n tr sys b' _ hle _ ih =>
    intro hn
    have := ih fun ⟨a, ha⟩ => hn ⟨a, by simp [ha]⟩
    simp only [arrived]
    rw [List.append_assoc, List.append_assoc, ← this, List.append_assoc, ← List.append_assoc (a.take n), List.take_append_drop]
  | failed a b kept tr sys b' _ _ _ _ => exact fun hn => absurd ⟨a, by simp⟩ hn
  | killed a b _ => exact fun _ => by simp [outText, arrived]

theorem stdio_sublist {b b' : Bytes} {tr : List Event} {sys : List SysCall} (h : Stdio b tr sys b') :
    (arrived sys ++ b').Sublist (b ++ outText tr) := by
  induction h with
  | nil b => simp [outText, arrived]
  | out b s tr sys b' _ ih => simpa [outText] using ih
  | call b e tr sys b' he _ ih =>
    have : outText (e :: tr) = outText tr := by cases e <;> first | rfl | exact absurd rfl (he _)
    rw [this]
    exact ih
  | took a b n tr sys b' _ hle _ ih =>
    simp only [arrived]
    rw [List.append_assoc]
    refine ((List.Sublist.refl (a.take n)).append ih).trans ?_
    rw [← List.append_assoc, ← List.append_assoc, List.take_append_drop]
    exact List.Sublist.refl _
  | failed a b kept tr sys b' _ hk _ ih => exact ih.trans (hk.append (List.Sublist.refl _))
  | killed a b _ => simp [outText, arrived]

/-- What the program does apart from printing. -/
def notPrinted : List Event → List Event
  | [] => []
  | .out _ :: tr => notPrinted tr
  | e :: tr => e :: notPrinted tr

theorem notPrinted_cons {e : Event} (h : ∀ s, e ≠ .out s) (tr : List Event) : notPrinted (e :: tr) = e :: notPrinted tr := by
  cases e <;> first | rfl | exact absurd rfl (h _)

theorem stdio_calls {b b' : Bytes} {tr : List Event} {sys : List SysCall} (h : Stdio b tr sys b') : unprintedCalls sys = notPrinted tr := by
  induction h with
  | nil b => rfl
  | out b s tr sys b' _ ih => exact ih
  | call b e tr sys b' he _ ih => rw [notPrinted_cons he]; exact congrArg _ ih
  | took a b n tr sys b' _ hle _ ih => exact ih
  | failed a b kept tr sys b' _ hk _ ih => exact ih
  | killed a b _ => rfl

theorem mem_notPrinted {e : Event} (h : ∀ s, e ≠ .out s) : ∀ {tr : List Event}, e ∈ notPrinted tr ↔ e ∈ tr
  | [] => Iff.rfl
  | .out s :: tr => by
    have := mem_notPrinted h (tr := tr)
    simp only [notPrinted, List.mem_cons]
    rw [this]
    exact ⟨.inr, fun hh => hh.resolve_left (h s)⟩
  | .lstat .. :: tr | .rename .. :: tr | .opendir .. :: tr | .readdir .. :: tr | .closedir .. :: tr | .slurp .. :: tr | .err .. :: tr => by
    simp only [notPrinted, List.mem_cons, mem_notPrinted h (tr := tr)]

theorem steps_notPrinted : ∀ {tr : List Event} {w w' : World}, World.Steps w (notPrinted tr) w' ↔ World.Steps w tr w'
  | [], _, _ => Iff.rfl
  | .out s :: tr, w, w' => by
    refine (steps_notPrinted (tr := tr)).trans ⟨fun h => .cons _ _ _ _ _ (.out w s) h, fun h => ?_⟩
    cases h with | cons _ w1 _ _ _ h1 h2 => cases h1; exact h2
  | .lstat .. :: tr, w, w' | .rename .. :: tr, w, w' | .opendir .. :: tr, w, w' | .readdir .. :: tr, w, w' | .closedir .. :: tr, w, w'
  | .slurp .. :: tr, w, w' | .err .. :: tr, w, w' => by
    simp only [notPrinted]
    refine ⟨fun h => ?_, fun h => ?_⟩
    · cases h with | cons _ w1 _ _ _ h1 h2 => exact .cons _ _ _ _ _ h1 (steps_notPrinted.1 h2)
    · cases h with | cons _ w1 _ _ _ h1 h2 => exact .cons _ _ _ _ _ h1 (steps_notPrinted.2 h2)

/-! ### Writes that fail, all of them -/

/-- Everything that is printed is offered to the system at the end of the trace, and refused. -/
theorem stdio_refused : ∀ (tr : List Event) (b : Bytes), ∃ sys, Stdio b tr sys [] ∧ arrived sys = [] ∧ ∀ a r, SysCall.write a r ∈ sys → r = .failed
  | [], [] => ⟨[], .nil _, rfl, nofun⟩
  | [], c :: b => ⟨[.write (c :: b) .failed], by simpa using Stdio.failed (c :: b) [] [] [] [] [] (by simp) (List.nil_sublist _) (.nil _), rfl, by simp⟩
  | .out s :: tr, b => by
    obtain ⟨sys, h1, h2, h3⟩ := stdio_refused tr (b ++ s)
    exact ⟨sys, .out _ _ _ _ _ h1, h2, h3⟩
  | .lstat p r :: tr, b | .rename o n r :: tr, b | .opendir p r :: tr, b | .readdir p r :: tr, b | .closedir p :: tr, b | .slurp p r :: tr, b
  | .err p :: tr, b => by
    obtain ⟨sys, h1, h2, h3⟩ := stdio_refused tr b
    refine ⟨.call _ :: sys, .call _ _ _ _ _ nofun h1, h2, fun a r hm => ?_⟩
    rcases List.mem_cons.1 hm with hm | hm
    · cases hm
    · exact h3 a r hm

/-- Everything is kept until the end, and then written at once. -/
theorem stdio_late : ∀ (tr : List Event) (b : Bytes), ∃ sys, Stdio b tr sys [] ∧ ¬ WriteFailed sys ∧ ¬ BrokenPipe sys
  | [], [] => ⟨[], .nil _, nofun, nofun⟩
  | [], c :: b => ⟨[.write (c :: b) (.took (b.length + 1))],
      by simpa using Stdio.took (c :: b) [] (b.length + 1) [] [] [] (by simp) (by simp) (by simpa using Stdio.nil []),
      by rintro ⟨a, h⟩; simp at h, by rintro ⟨a, h⟩; simp at h⟩
  | .out s :: tr, b => by
    obtain ⟨sys, h1, h2, h3⟩ := stdio_late tr (b ++ s)
    exact ⟨sys, .out _ _ _ _ _ h1, h2, h3⟩
  | .lstat p r :: tr, b | .rename o n r :: tr, b | .opendir p r :: tr, b | .readdir p r :: tr, b | .closedir p :: tr, b | .slurp p r :: tr, b
  | .err p :: tr, b => by
    obtain ⟨sys, h1, h2, h3⟩ := stdio_late tr b
    exact ⟨.call _ :: sys, .call _ _ _ _ _ nofun h1, fun ⟨a, h⟩ => h2 ⟨a, by simpa using h⟩, fun ⟨a, h⟩ => h3 ⟨a, by simpa using h⟩⟩

/-- Nothing is written at all before the process is killed. -/
theorem stdio_lost : ∀ (tr : List Event) (b : Bytes), b ++ outText tr ≠ [] → ∃ sys left, Stdio b tr sys left ∧ arrived sys = [] ∧ BrokenPipe sys ∧ ¬ WriteFailed sys
  | [], b, h => by
    rw [outText, List.append_nil] at h
    exact ⟨[.write b .killed], b, by simpa using Stdio.killed b [] h, rfl, ⟨b, by simp⟩, fun ⟨a, ha⟩ => by simp at ha⟩
  | .out s :: tr, b, h => by
    obtain ⟨sys, l, h1, h2, h3⟩ := stdio_lost tr (b ++ s) (by rw [List.append_assoc]; exact h)
    exact ⟨sys, l, .out _ _ _ _ _ h1, h2, h3⟩
  | .lstat p r :: tr, b, h | .rename o n r :: tr, b, h | .opendir p r :: tr, b, h | .readdir p r :: tr, b, h | .closedir p :: tr, b, h | .slurp p r :: tr, b, h
  | .err p :: tr, b, h => by
    obtain ⟨sys, l, h1, h2, ⟨a, h3⟩, h4⟩ := stdio_lost tr b h
    exact ⟨.call _ :: sys, l, .call _ _ _ _ _ nofun h1, h2, ⟨a, by simp [h3]⟩, fun ⟨a, h⟩ => h4 ⟨a, by simpa using h⟩⟩

/-! ### The journal -/

theorem journal_append {a b : List Event} (ha : Journal a) (hb : Journal b) : Journal (a ++ b) := by
  induction ha with
  | nil => exact hb
  | scanning f tr _ ih => exact .scanning f _ ih
  | rename old new ok tr _ ih => exact .rename old new ok _ ih
  | other e tr h1 h2 _ ih => exact .other e _ h1 h2 ih

/-- The trace keeps a journal, or was cut off between a report and its rename. -/
def Journals {α : Type} (tr : List Event) (o : Outcome α) : Prop :=
  Journal tr ∨ (o = .running ∧ ∃ t old new, tr = t ++ [.out (reportLine old new)] ∧ Journal t)

/-- Every execution of the program keeps a journal. -/
def KeepsJournal {α : Type} (p : Prog α) : Prop := ∀ tr o, Trace p tr o → Journals tr o

theorem journals_append {α : Type} {a b : List Event} {o : Outcome α} (ha : Journal a) (hb : Journals b o) : Journals (a ++ b) o := by
  rcases hb with hb | ⟨ho, t, old, new, rfl, ht⟩
  · exact .inl (journal_append ha hb)
  · exact .inr ⟨ho, a ++ t, old, new, by rw [List.append_assoc], journal_append ha ht⟩

theorem keeps_bind {α β : Type} {p : Prog α} {f : α → Prog β} (h : KeepsJournal p) (hf : ∀ a, KeepsJournal (f a)) : KeepsJournal (p.bind f) := by
  intro tr o ht
  rcases trace_bind_any ht with ⟨a, x, y, rfl, h1, h2⟩ | ⟨o', ho, h1⟩
  · rcases h _ _ h1 with h1 | ⟨h1, _⟩
    · exact journals_append h1 (hf a _ _ h2)
    · cases h1
  · rcases h _ _ h1 with h1 | ⟨rfl, h2⟩
    · exact .inl h1
    · cases ho
      exact .inr ⟨rfl, h2⟩

theorem keeps_ofRes {α : Type} (r : Res α) : KeepsJournal (Prog.ofRes r) := fun tr o h => by rw [trace_ofRes h]; exact .inl .nil
theorem keeps_ret {α : Type} (a : α) : KeepsJournal (Prog.ret a) := fun tr o h => by cases h <;> exact .inl .nil
theorem keeps_stuck {α : Type} : KeepsJournal (Prog.stuck : Prog α) := fun tr o h => by cases h <;> exact .inl .nil
theorem keeps_exit {α : Type} {n : Nat} : KeepsJournal (Prog.exit n : Prog α) := fun tr o h => by cases h <;> exact .inl .nil

theorem journals_other {α : Type} {e : Event} {tr : List Event} {o : Outcome α} (h1 : ∀ s, e ≠ .out s) (h2 : ∀ a b r, e ≠ .rename a b r) (h : Journals tr o) :
    Journals (e :: tr) o := journals_append (a := [e]) (.other e [] h1 h2 .nil) h

theorem keeps_lstat {α : Type} {x : Bytes} {k : Option Stat → Prog α} (h : ∀ r, KeepsJournal (k r)) : KeepsJournal (.lstat x k) := by
  intro tr o ht
  cases ht with
  | stop => exact .inl .nil
  | lstat _ _ r _ _ h1 => exact journals_other nofun nofun (h r _ _ h1)

theorem keeps_opendir {α : Type} {x : Bytes} {k : OpenRes → Prog α} (h : ∀ r, KeepsJournal (k r)) : KeepsJournal (.opendir x k) := by
  intro tr o ht
  cases ht with
  | stop => exact .inl .nil
  | opendir _ _ r _ _ h1 => exact journals_other nofun nofun (h r _ _ h1)

theorem keeps_readdir {α : Type} {x : Nat} {k : Option Bytes → Prog α} (h : ∀ r, KeepsJournal (k r)) : KeepsJournal (.readdir x k) := by
  intro tr o ht
  cases ht with
  | stop => exact .inl .nil
  | readdir _ _ r _ _ h1 => exact journals_other nofun nofun (h r _ _ h1)

theorem keeps_closedir {α : Type} {x : Nat} {k : Prog α} (h : KeepsJournal k) : KeepsJournal (.closedir x k) := by
  intro tr o ht
  cases ht with
  | stop => exact .inl .nil
  | closedir _ _ _ _ h1 => exact journals_other nofun nofun (h _ _ h1)

theorem keeps_err {α : Type} {s : Bytes} {k : Prog α} (h : KeepsJournal k) : KeepsJournal (.err s k) := by
  intro tr o ht
  cases ht with
  | stop => exact .inl .nil
  | err _ _ _ _ h1 => exact journals_other nofun nofun (h _ _ h1)

theorem parseFile_keeps {P : Platform} {o : Options} (hv : o.verbose ≠ 0) (hd : o.dryRun = false) (f : Bytes) : KeepsJournal (parseFile P o f) := by
  unfold parseFile
  refine keeps_bind (keeps_ofRes _) fun hold => ?_
  split
  · exact keeps_ret _
  · split
    · exact keeps_ret _
    · unfold checkAndRename
      refine keeps_lstat fun r => ?_
      split
      · exact keeps_ret _
      · refine keeps_lstat fun rn => ?_
        split
        · exact keeps_err (keeps_ret _)
        · unfold announceAndRename
          rw [hd]
          simp only [ne_eq, hv, not_false_eq_true, decide_true, Bool.or_false, ↓reduceIte, Bool.false_eq_true]
          intro tr out ht
          cases ht with
          | stop => exact .inl .nil
          | out _ _ _ _ h1 =>
            unfold doRename at h1
            cases h1 with
            | stop => exact .inr ⟨rfl, [], f, _, rfl, .nil⟩
            | rename _ _ _ r _ _ h2 =>
              refine journals_append (a := [.out (reportLine f _), .rename f _ r]) (.rename f _ r [] .nil) ((?_ : KeepsJournal _) _ _ h2)
              dsimp only
              split
              · exact keeps_ret _
              · exact keeps_err (keeps_ret _)

theorem dirLoop_keeps {P : Platform} {o : Options} (hv : o.verbose ≠ 0) (hd : o.dryRun = false) {r : Option Filelist → Bytes → Prog (Option Filelist)}
    (hr : ∀ i p, KeepsJournal (r i p)) (h : Nat) (p : Bytes) : ∀ (n : Nat) st ign, KeepsJournal (dirLoop P o r h p n st ign)
  | 0, _, _ => keeps_stuck
  | n + 1, st, ign => by
    have ih := dirLoop_keeps (P := P) hv hd hr h p n
    have hfile : ∀ f, KeepsJournal (parseFile P o f) := fun f => parseFile_keeps hv hd f
    unfold dirLoop
    refine keeps_readdir fun e => ?_
    cases e with
    | none => exact keeps_closedir (keeps_ret _)
    | some name =>
      refine keeps_bind (keeps_ofRes _) fun x => ?_
      dsimp only
      split
      · exact ih _ _
      · refine keeps_lstat fun q => ?_
        split
        · refine keeps_bind (hfile _) fun work => ?_
          split
          · exact keeps_bind (hr _ _) fun _ => ih _ _
          · exact ih _ _
        · split
          · exact keeps_bind (hfile _) fun _ => ih _ _
          · exact ih _ _

theorem parseDir_keeps {P : Platform} {o : Options} (hv : o.verbose ≠ 0) (hd : o.dryRun = false) : ∀ (n : Nat) ign p, KeepsJournal (parseDir P o n ign p)
  | 0, _, _ => keeps_stuck
  | n + 1, ign, p => by
    unfold parseDir
    refine keeps_lstat fun r => ?_
    split
    · exact keeps_ret _
    · split
      · exact keeps_ret _
      · refine keeps_opendir fun r => ?_
        cases r with
        | ok h => exact dirLoop_keeps hv hd (parseDir_keeps hv hd n) h p n _ ign
        | fail => exact keeps_err (keeps_ret _)
        | emfile => exact keeps_err keeps_exit

theorem processArg_keeps {P : Platform} {o : Options} (hv : o.verbose ≠ 0) (hd : o.dryRun = false) (n : Nat) (ign : Option Filelist) (f : Bytes) :
    KeepsJournal (processArg P o n ign f) := by
  unfold processArg
  dsimp only
  rw [if_pos hv]
  intro tr out ht
  cases ht with
  | stop => exact .inl .nil
  | out _ _ _ _ h1 =>
    refine journals_append (a := [.out (scanLine f)]) (.scanning f [] .nil) ?_
    refine (?_ : KeepsJournal _) _ _ h1
    refine keeps_lstat fun r => ?_
    split
    · exact keeps_err (keeps_ret _)
    · split
      · exact keeps_bind (parseFile_keeps hv hd f) fun work => parseDir_keeps hv hd n ign work
      · split
        · exact keeps_bind (parseFile_keeps hv hd f) fun _ => keeps_ret _
        · split
          · exact keeps_bind (parseFile_keeps hv hd f) fun _ => keeps_ret _
          · exact keeps_ret _

theorem fileLoop_keeps {P : Platform} {o : Options} (hv : o.verbose ≠ 0) (hd : o.dryRun = false) (n : Nat) : ∀ (k : Nat) (l : Filelist) (ign : Option Filelist),
    KeepsJournal (fileLoop P o n k l ign)
  | 0, _, _ => keeps_stuck
  | k + 1, l, ign => by
    unfold fileLoop
    refine keeps_bind (keeps_ofRes _) fun x => ?_
    split
    · exact keeps_ret _
    · exact keeps_bind (processArg_keeps hv hd n _ _) fun _ => fileLoop_keeps hv hd n k _ _

theorem journal_lines {tr : List Event} (h : Journal tr) : ∃ ls, outText tr = ls.flatMap JournalLine.text ∧ reported ls = renamesTried tr := by
  induction h with
  | nil => exact ⟨[], rfl, rfl⟩
  | scanning f tr _ ih =>
    obtain ⟨ls, h1, h2⟩ := ih
    exact ⟨.scanning f :: ls, by simp [outText, h1, JournalLine.text], h2⟩
  | rename old new ok tr _ ih =>
    obtain ⟨ls, h1, h2⟩ := ih
    exact ⟨.report old new :: ls, by simp [outText, h1, JournalLine.text], by simp [reported, renamesTried, h2]⟩
  | other e tr h1 h2 _ ih =>
    obtain ⟨ls, h3, h4⟩ := ih
    refine ⟨ls, ?_, ?_⟩
    · rw [← h3]; cases e <;> first | rfl | exact absurd rfl (h1 _)
    · rw [h4]; cases e <;> first | rfl | exact absurd rfl (h2 _ _ _)

theorem reported_append : ∀ a b : List JournalLine, reported (a ++ b) = reported a ++ reported b
  | [], _ => rfl
  | .scanning _ :: a, b => reported_append a b
  | .report _ _ :: a, b => congrArg _ (reported_append a b)

theorem renamesTried_append : ∀ a b : List Event, renamesTried (a ++ b) = renamesTried a ++ renamesTried b
  | [], _ => rfl
  | .rename .. :: a, b => congrArg _ (renamesTried_append a b)
  | .lstat .. :: a, b | .out .. :: a, b | .opendir .. :: a, b | .readdir .. :: a, b | .closedir .. :: a, b | .slurp .. :: a, b | .err .. :: a, b =>
    renamesTried_append a b

end Detox
