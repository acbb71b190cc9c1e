import Verif.Lemmas.Cost
import Verif.Props.Stdout

/-!
# C111: what a run costs
-/

set_option autoImplicit false

namespace Detox
open Spec

/-- **C111.** Detox makes no more calls than in proportion to the arguments and the entries of directories it was given, at any moment and whatever the system
answers. -/
theorem C111_runs_are_thrifty {P : Platform} {o : Options} {args ws : List Bytes} {tr : List Event} {out : Outcome (Option Filelist)}
    (h : Run P o args ws tr out) : Thrifty o.recurse args.length tr := by
  have key := h.costs
  have cnt : ∀ (q : Event → Bool) (W : Weights), (∀ e, (q e).toNat ≤ W.of e) → tr.countP q ≤ W.arg * args.length + W.entry o.recurse * entriesRead tr :=
    fun q W hq => Nat.le_trans (sum_countP W q hq tr) (key W)
  refine ⟨?_, ?_, ?_, ?_, ?_, ?_⟩
  · have := cnt (fun _ => true) ⟨1, 1, 1, 1, 1, 1, 1, 1⟩ (by intro e; cases e <;> simp [Weights.of])
    rw [List.countP_true] at this
    cases hr : o.recurse <;> simp only [hr, Weights.arg, Weights.entry, Weights.file, Weights.dir] at this <;> simp at this <;> omega
  · have := cnt Event.isLstat ⟨1, 0, 0, 0, 0, 0, 0, 0⟩ (by intro e; cases e <;> simp [Weights.of, Event.isLstat])
    cases hr : o.recurse <;> simp only [hr, Weights.arg, Weights.entry, Weights.file, Weights.dir] at this <;> simp at this <;> omega
  · have := cnt Event.isRename ⟨0, 1, 0, 0, 0, 0, 0, 0⟩ (by intro e; cases e <;> simp [Weights.of, Event.isRename])
    cases hr : o.recurse <;> simp only [hr, Weights.arg, Weights.entry, Weights.file, Weights.dir] at this <;> simp at this <;> omega
  · have := cnt Event.isOpendir ⟨0, 0, 1, 0, 0, 0, 0, 0⟩ (by intro e; cases e <;> simp [Weights.of, Event.isOpendir])
    cases hr : o.recurse <;> simp only [hr, Weights.arg, Weights.entry, Weights.file, Weights.dir] at this <;> simp at this ⊢ <;> omega
  · have := cnt Event.isOut ⟨0, 0, 0, 0, 0, 0, 1, 0⟩ (by intro e; cases e <;> simp [Weights.of, Event.isOut])
    cases hr : o.recurse <;> simp only [hr, Weights.arg, Weights.entry, Weights.file, Weights.dir] at this <;> simp at this <;> omega
  · have := cnt Event.isErr ⟨0, 0, 0, 0, 0, 0, 0, 1⟩ (by intro e; cases e <;> simp [Weights.of, Event.isErr])
    cases hr : o.recurse <;> simp only [hr, Weights.arg, Weights.entry, Weights.file, Weights.dir] at this <;> simp at this <;> omega

/-- **C111.** The same for the whole program, after the configuration is read. -/
theorem C111_detox_is_thrifty {P : Platform} {I : Invocation} {fuel : Nat} {ss : List Setting} {ws : List Bytes} (hr : Renames I ss ws) {tr : List Event}
    {out : Outcome Unit} (h : Trace (detoxMain P I fuel) tr out) : ∃ reads t, tr = reads ++ t ∧ (∀ e ∈ reads, Harmless e) ∧
      ∀ recurse, (recurse = true ↔ Setting.recurse ∈ ss) → Thrifty recurse ws.length t := by
  rcases main_cases hr.line h with ⟨hh, _⟩ | ⟨reads, t, o, ignored, l, ign, rfl, hrd, hl, hig, hk⟩
  · exact ⟨tr, [], by simp, hh, fun recurse _ => ⟨by simp, by simp, by simp, by simp, by simp, by simp⟩⟩
  · refine ⟨reads, t, rfl, hrd.quiet, fun recurse hrec => ?_⟩
    rcases hk with ⟨hin, _⟩ | ⟨_, _, ht⟩
    · exact absurd (hrd.asked.2.2.2.2.2.1.1 hin) hr.noInline
    · have : recurse = o.recurse := by
        rw [Bool.eq_iff_iff, hrec, hrd.asked.2.2.1]
      subst this
      rcases trace_bind_any ht with ⟨a, x, y, rfl, h1, h2⟩ | ⟨o', _, h1⟩
      · have : y = [] := by cases h2 <;> rfl
        subst this
        rw [List.append_nil]
        exact C111_runs_are_thrifty ⟨_, _, _, _, hl, hig, h1⟩
      · exact C111_runs_are_thrifty ⟨_, _, _, _, hl, hig, h1⟩

/-- **C111.** The directories detox has open at any moment lie one in another, so there are no more of them than names in the path opened last; without `-r` there is
one at most. -/
theorem C111_open_directories {P : Platform} {I : Invocation} {fuel : Nat} {ss : List Setting} {ws : List Bytes} (hr : Renames I ss ws) {tr : List Event}
    {out : Outcome Unit} (h : Trace (detoxMain P I fuel) tr out) : NestedDirs (openDirs tr.reverse) ∧
      (∀ d p S, openDirs tr.reverse = (d, p) :: S → (openDirs tr.reverse).length ≤ 1 + p.count 0x2F) ∧
      (Setting.recurse ∉ ss → (openDirs tr.reverse).length ≤ 1) := by
  suffices hs : ∃ o : Options, (o.recurse = true → Setting.recurse ∈ ss) ∧ OpenAre o (openDirs tr.reverse) by
    obtain ⟨o, h1, h2, h3⟩ := hs
    refine ⟨h2, slash_count h2, fun hn => h3 ?_⟩
    rcases hq : o.recurse with _ | _
    · rfl
    · exact absurd (h1 hq) hn
  rcases main_cases hr.line h with ⟨hh, _⟩ | ⟨reads, t, o, ignored, l, ign, rfl, hrd, hl, hig, hk⟩
  · refine ⟨{ recurse := false }, nofun, ?_⟩
    have := harmless_openDirs [] tr.reverse (fun e he => hh e (List.mem_reverse.1 he))
    rw [List.nil_append] at this
    rw [this]
    exact ⟨.nil, fun _ => by simp [openDirs]⟩
  · refine ⟨o, hrd.asked.2.2.1.1, ?_⟩
    rw [List.reverse_append, harmless_openDirs _ _ fun e he => hrd.quiet e (List.mem_reverse.1 he)]
    rcases hk with ⟨hin, _⟩ | ⟨_, _, ht⟩
    · exact absurd (hrd.asked.2.2.2.2.2.1.1 hin) hr.noInline
    · exact openAre_of_wp (Q := fun _ _ => True) ht (Prog.wp_bind _ _ _ (Prog.wp_mono (fun _ _ _ => trivial) _ _ (fileLoop_open (P := P) (o := o) fuel _ l ign [] rfl)))

/-! ### The bounds are reached -/

/-- `detox -v -r "a b"`, where `a b` is a directory with a directory `c d` in it, and nothing can be renamed. -/
def costlyCall : Invocation := { program := lit "detox", args := [lit "-vr", lit "a b"] }

/-- Its work. -/
def costlyWork : List Event :=
  [.out (lit "Scanning: a b\n"), .lstat (lit "a b") (some { dev := 1, nlink := 3, ino := 2, kind := .dir }),
  .lstat (lit "a b") (some { dev := 1, nlink := 3, ino := 2, kind := .dir }), .lstat (lit "a_b") none,
  .out (lit "a b -> a_b\n"), .rename (lit "a b") (lit "a_b") false, .err (lit "Cannot rename a b to a_b: "),
  .lstat (lit "a b") (some { dev := 1, nlink := 3, ino := 2, kind := .dir }), .opendir (lit "a b") (.ok 3),
  .readdir 3 (some (lit "c d")), .lstat (lit "a b/c d") (some { dev := 1, nlink := 2, ino := 3, kind := .dir }),
  .lstat (lit "a b/c d") (some { dev := 1, nlink := 2, ino := 3, kind := .dir }), .lstat (lit "a b/c_d") none,
  .out (lit "a b/c d -> a b/c_d\n"), .rename (lit "a b/c d") (lit "a b/c_d") false, .err (lit "Cannot rename a b/c d to a b/c_d: "),
  .lstat (lit "a b/c d") (some { dev := 1, nlink := 2, ino := 3, kind := .dir }), .opendir (lit "a b/c d") (.ok 4),
  .readdir 4 none, .closedir 4, .readdir 3 none, .closedir 3]

theorem costly_run : Trace (detoxMain .linux costlyCall 10) (nothingInstalled ++ costlyWork) (.ret ()) := Prog.result_sound _ _ _ (by decide +kernel)

/- It meets the hypotheses on the command line. -/
theorem costly_renames : Renames costlyCall [.verbose, .recurse] [lit "a b"] :=
  ⟨.cluster [0x76, 0x72] [.verbose, .recurse] _ _ _ (by simp) (.cons _ _ _ _ .verbose (.cons _ _ _ _ .recurse .nil))
    (.operand _ _ _ _ rfl (.inl (by decide +kernel)) .none),
    by simp [Setting.Leaves], by simp, by
      rintro (h | h)
      · rw [← posixBasename_inline] at h
        exact absurd h (by decide +kernel)
      · simp at h, by simp⟩

/-- **C111.** Eleven calls for each argument and each entry can be needed; so can one `rename` and one `opendir` for each. -/
theorem C111_bounds_are_reached : Trace (detoxMain .linux costlyCall 10) (nothingInstalled ++ costlyWork) (.ret ()) ∧
    Renames costlyCall [.verbose, .recurse] [lit "a b"] ∧ entriesRead costlyWork = 1 ∧ costlyWork.length = 11 * (1 + 1) ∧
    costlyWork.countP Event.isLstat = 4 * (1 + 1) ∧ costlyWork.countP Event.isRename = 1 + 1 ∧ costlyWork.countP Event.isOpendir = 1 + 1 ∧
    costlyWork.countP Event.isOut = 2 * 1 + 1 :=
  ⟨costly_run, costly_renames, by decide +kernel, by decide +kernel, by decide +kernel, by decide +kernel, by decide +kernel, by decide +kernel⟩

/-- **C111.** As many directories can be open as there are names in the path opened last. -/
theorem C111_depth_is_reached : ∃ tr, Trace (detoxMain .linux costlyCall 10) tr .running ∧ openDirs tr.reverse = [(4, lit "a b/c d"), (3, lit "a b")] :=
  ⟨_, trace_cut (t1 := (nothingInstalled ++ costlyWork).take 20) (t2 := (nothingInstalled ++ costlyWork).drop 20)
    (by rw [List.take_append_drop]; exact costly_run), by decide +kernel⟩

end Detox
