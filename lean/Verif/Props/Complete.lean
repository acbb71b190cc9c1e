import Verif.Lemmas.Complete
import Verif.Props.EndToEnd

/-!
# A scan is complete

The world is a file system that nobody else changes, whose directories are a tree, with a `readdir` as POSIX has it (`Spec/World.lean`). The
arguments mean the same whatever detox renames (`FS.Steady`); C62 shows what may happen otherwise.
-/

set_option autoImplicit false

namespace Detox
open Spec

/-! ### C86: nothing is missed -/

/-- What is asked of a run: it is no dry run, the sequence makes no slashes, the file system is a tree, the arguments are steady, and the system
follows all paths. -/
structure CompleteRun (P : Platform) (o : Options) (args : List Bytes) (fs : FS) (depth : Ino → Nat) (slack level : Nat) (tr : List Event)
    (w : World) : Prop where
  wet : o.dryRun = false
  slash : NoNewSlash P o
  nul : ∀ f ∈ args, NulFree f
  tree : fs.Tree depth slack
  steady : ∀ f ∈ args, fs.Steady depth slack level f
  steps : World.Steps (World.start fs) tr w
  allowed : ∀ p r, Event.lstat p r ∈ tr → fs.denied p = false

theorem CompleteRun.keeps {P : Platform} {o : Options} {args ws : List Bytes} {fs : FS} {depth : Ino → Nat} {slack level : Nat}
    {tr : List Event} {w : World} {a : Option Filelist} (hc : CompleteRun P o args fs depth slack level tr w)
    (h : Run P o args ws tr (.ret a)) :
    Keeps (Makes P o) o ws tr depth slack level (fun _ => False) (World.start fs) w ∧ (∀ f ∈ args, Answered P o tr w f) ∧
      ∀ f i, args.head? = some f → fs.lookup f = some i → fs.kind i = .dir → Entered w i := by
  obtain ⟨seen, hs⟩ := C72_runs_are_scans h
  exact args_goal ⟨hc.wet, hc.slash, fun _ h => sequence_nil h, hc.allowed⟩ hs (fun _ h => h) rfl hc.tree hc.steady hc.nul hc.steps

/-- **C86.** When detox is done, every entry of every directory it opened has been dealt with: it is one that is to be left alone, or has a name the
sequence makes, or the user has been told that it could not be renamed; and with `-r` every directory among them was entered, too. The same holds of
the arguments. Entries that were renamed by this very run while their directory was being read count as any others. -/
theorem C86_scan_is_complete {P : Platform} {o : Options} {args ws : List Bytes} {fs : FS} {depth : Ino → Nat} {slack level : Nat}
    {tr : List Event} {w : World} {a : Option Filelist} (hc : CompleteRun P o args fs depth slack level tr w)
    (h : Run P o args ws tr (.ret a)) :
    (∀ d p, (d, p) ∈ w.opened → ∀ e ∈ w.fs.entries, e.dir = d → LeftAlone o ws w e ∨ Handled P o tr w e) ∧
    ∀ f ∈ args, Answered P o tr w f := by
  obtain ⟨k, ha, _⟩ := hc.keeps h
  refine ⟨fun d p hm e he hd => ?_, ha⟩
  rcases k.fresh (d, p) hm with hx | hx
  · cases hx
  · exact hx e he hd

/-- Nothing was written to standard error. -/
def Silent (tr : List Event) : Prop := ∀ s, Event.err s ∉ tr

/-- **C86.** If `detox -r` has no complaints, every entry of every directory opened is one that is to be left alone, or has a name that the sequence
makes, and, if it is a directory, was opened. -/
theorem C86_silent_scan {P : Platform} {o : Options} {args ws : List Bytes} {fs : FS} {depth : Ino → Nat} {slack level : Nat}
    {tr : List Event} {w : World} {a : Option Filelist} (hc : CompleteRun P o args fs depth slack level tr w)
    (h : Run P o args ws tr (.ret a)) (hr : o.recurse = true) (hs : Silent tr) (d : Ino) (p : Bytes) (hd : (d, p) ∈ w.opened) (e : Entry)
    (he : e ∈ w.fs.entries) (hed : e.dir = d) :
    LeftAlone o ws w e ∨ (Cleaned P o e.name ∧ (w.fs.kind e.ino = .dir → ∃ p', (e.ino, p') ∈ w.opened)) := by
  obtain ⟨k, _, _⟩ := hc.keeps h
  rcases (C86_scan_is_complete hc h).1 d p hd e he hed with hl | hh
  · exact .inl hl
  · refine .inr ⟨?_, fun hk => ?_⟩
    · rcases hh.1 with h1 | ⟨_, _, _, h1⟩
      · exact h1
      · exact absurd h1 (hs _)
    · obtain ⟨p', h1 | h1⟩ := hh.2 hr hk
      · exact ⟨p', h1⟩
      · rcases k.unread _ h1 with h2 | h2
        · cases h2
        · exact absurd h2 (hs _)

/-- **C86.** So the whole tree below a directory opened has clean names, apart from what is to be left alone. -/
theorem C86_silent_tree {P : Platform} {o : Options} {args ws : List Bytes} {fs : FS} {depth : Ino → Nat} {slack level : Nat}
    {tr : List Event} {w : World} {a : Option Filelist} (hc : CompleteRun P o args fs depth slack level tr w)
    (h : Run P o args ws tr (.ret a)) (hr : o.recurse = true) (hs : Silent tr) (d : Ino) (p : Bytes) (hd : (d, p) ∈ w.opened) (e : Entry)
    (he : e ∈ w.fs.entries) (hb : ScanBelow ws w d e.dir) : LeftAlone o ws w e ∨ Cleaned P o e.name := by
  have key : ∀ x, ScanBelow ws w d x → ∃ p', (x, p') ∈ w.opened := by
    intro x hx
    induction hx with
    | top => exact ⟨p, hd⟩
    | sub e' he' _ hk h1 h2 ih =>
      obtain ⟨p', hp'⟩ := ih
      rcases C86_silent_scan hc h hr hs _ p' hp' e' he' rfl with hl | ⟨_, hl⟩
      · rcases hl with hl | hl | ⟨hl, _⟩
        · exact absurd hl h1
        · exact absurd hl h2
        · exact absurd hk hl
      · exact hl hk
  obtain ⟨p', hp'⟩ := key _ hb
  exact (C86_silent_scan hc h hr hs _ p' hp' e he rfl).imp id And.left

/-- **C86.** In particular the tree below a directory that is the first argument. -/
theorem C86_silent_first_argument {P : Platform} {o : Options} {f : Bytes} {args ws : List Bytes} {fs : FS} {depth : Ino → Nat}
    {slack level : Nat} {tr : List Event} {w : World} {a : Option Filelist} (hc : CompleteRun P o (f :: args) fs depth slack level tr w)
    (h : Run P o (f :: args) ws tr (.ret a)) (hr : o.recurse = true) (hs : Silent tr) (d : Ino) (hd : fs.lookup f = some d)
    (hk : fs.kind d = .dir) (e : Entry) (he : e ∈ w.fs.entries) (hb : ScanBelow ws w d e.dir) : LeftAlone o ws w e ∨ Cleaned P o e.name := by
  obtain ⟨k, _, h1⟩ := hc.keeps h
  obtain ⟨p, h2 | h2⟩ := h1 f d rfl hd hk
  · exact C86_silent_tree hc h hr hs d p h2 e he hb
  · rcases k.unread _ h2 with h3 | h3
    · cases h3
    · exact absurd h3 (hs _)

/-! ### C87: with nothing configured -/

/-- **C87.** `detox -r` with nothing configured and a built-in sequence that makes no slashes: if there are no complaints, every name in the tree below
a directory opened is hidden, or `{arch}`, or a special file (without `--special`), or a name the sequence makes. -/
theorem C87_silent_builtin_tree {P : Platform} (hP : P.Benign) {I : Invocation} {fuel : Nat} {ss : List Setting} {ws : List Bytes}
    (hc : CommandLine I.posixlyCorrect I.args ss ws) {tr : List Event} (h : Trace (detoxMain P I fuel) tr (.ret ()))
    (hu : Unconfigured I ss tr) (hn : requested I ss ≠ some (lit "utf_8-only") ∧ requested I ss ≠ some (lit "uncgi-only"))
    (hr : Setting.recurse ∈ ss) (hd : Setting.dryRun ∉ ss) (hi : Setting.inline ∉ ss) (hb : ¬ CalledInline I.program) (hs : Silent tr)
    {fs : FS} {depth : Ino → Nat} {slack level : Nat} {w : World} (hnul : ∀ f ∈ ws, NulFree f) (ht : fs.Tree depth slack)
    (hst : ∀ f ∈ ws, fs.Steady depth slack level f) (hw : World.Steps (World.start fs) tr w)
    (ha : ∀ p r, Event.lstat p r ∈ tr → fs.denied p = false) :
    (∀ d p, (d, p) ∈ w.opened → ∀ e ∈ w.fs.entries, ScanBelow [lit "{arch}"] w d e.dir →
      Hidden e.name ∨ e.name = lit "{arch}" ∨ (w.fs.kind e.ino ≠ .dir ∧ w.fs.kind e.ino ≠ .reg ∧ Setting.special ∉ ss) ∨
      ∃ m, NulFree m ∧ (0x2F : Byte) ∉ m ∧ ∀ E, runBuiltin P E (requested I ss) m = .ok (some e.name)) ∧
    ∀ f d, ws.head? = some f → fs.lookup f = some d → fs.kind d = .dir → ∃ p, (d, p) ∈ w.opened := by
  rcases main_cases hc h with ⟨_, h⟩ | ⟨reads, t, o, ignored, l, ign, rfl, hrd, hl, hig, hk⟩
  · exact absurd rfl (h ())
  · have hmt : ∀ e ∈ t, e ∈ reads ++ t := fun e he => List.mem_append_right _ he
    have hw' := world_harmless hrd.quiet hw
    rcases hk with ⟨hin, _⟩ | ⟨_, _, htr⟩
    · rcases hrd.asked.2.2.2.2.2.1.1 hin with h' | h'
      · exact absurd h' hb
      · exact absurd h' hi
    · obtain ⟨out', hrun, hout⟩ := main_run hl hig htr
      have : ∃ a, out' = .ret a := by
        rcases hout with h' | h'
        · exact h'
        · exact absurd rfl (outcome_ne_ret h' ())
      obtain ⟨a, rfl⟩ := this
      obtain ⟨c, q, q', r1, r2, rfl, h1, h2, h3, h4, h5⟩ := hrd.stages
      have hr1 : ∀ e ∈ r1, e ∈ r1 ++ r2 ++ t := fun e he => by simp [he]
      have hrb := fun E s => unconfigured_run (P := P) hu hr1 h1 h2 h3 E s
      have higs : ignored = [lit "{arch}"] := by
        rw [hu.1] at h1
        have hsp := unconfigured_spoof h1 fun p hp text hm => hu.2 p hp text (hr1 _ hm)
        obtain ⟨l', hl', hl''⟩ := filelistPut_holds filelistInit_holds (lit "{arch}")
        unfold spoofConfigFile at hsp
        rw [hl'] at hsp
        cases hsp
        have h6 : l'.Holds ignored 0 := h5
        have h7 := h6.2.1.symm.trans hl''.2.1
        exact (List.map_inj_right fun _ _ h => Option.some.inj h).1 h7
      subst higs
      have hdry : o.dryRun = false := by
        cases hx : o.dryRun with
        | false => rfl
        | true => exact absurd (hrd.asked.2.1.1 hx) hd
      have hC : CompleteRun P o ws fs depth slack level t w :=
        ⟨hdry, unconfigured_noNewSlash hP hu hr1 h1 h2 h3 h4 hn, hnul, ht, hst, hw', fun p r hm => ha p r (hmt _ hm)⟩
      have hrec := hrd.asked.2.2.1.2 hr
      have hsil : Silent t := fun s hm => hs s (hmt _ hm)
      refine ⟨fun d p hdp e he hbe => ?_, fun f d hf hfd hkd => ?_⟩
      · rcases C86_silent_tree hC hrun hrec hsil d p hdp e he hbe with (hx | hx | ⟨x1, x2, x3⟩) | ⟨m, _, hm2, hm3, hm4⟩
        · exact .inl hx
        · exact .inr (.inl (by simpa using hx))
        · refine .inr (.inr (.inl ⟨x1, x2, fun hsp => ?_⟩))
          rw [hrd.asked.2.2.2.1.2 hsp] at x3
          cases x3
        · refine .inr (.inr (.inr ⟨m, hm3, hm2, fun E => ?_⟩))
          rw [hrb E m, ← h4]
          exact hm4
      · obtain ⟨k, _, h8⟩ := hC.keeps hrun
        obtain ⟨p, h9 | h9⟩ := h8 f d hf hfd hkd
        · exact ⟨p, h9⟩
        · rcases k.unread _ h9 with h10 | h10
          · cases h10
          · exact absurd h10 (hsil _)

/-- **C87.** `detox -r DIR` with nothing configured: if there are no complaints, no name in the tree below `DIR` has a shell-hostile character in it, but
hidden ones, `{arch}`, what is below these, and special files. -/
theorem C87_silent_tree_has_no_hostile_names {P : Platform} (hP : P.Benign) {I : Invocation} {fuel : Nat} {ss : List Setting} {f : Bytes}
    {ws : List Bytes} (hc : CommandLine I.posixlyCorrect I.args ss (f :: ws)) {tr : List Event} (h : Trace (detoxMain P I fuel) tr (.ret ()))
    (hu : Unconfigured I ss tr) (hn : requested I ss = none ∨ requested I ss = some (lit "default"))
    (hr : Setting.recurse ∈ ss) (hd : Setting.dryRun ∉ ss) (hi : Setting.inline ∉ ss) (hb : ¬ CalledInline I.program) (hs : Silent tr)
    {fs : FS} {depth : Ino → Nat} {slack level : Nat} {w : World} (hnul : ∀ g ∈ f :: ws, NulFree g) (ht : fs.Tree depth slack)
    (hst : ∀ g ∈ f :: ws, fs.Steady depth slack level g) (hw : World.Steps (World.start fs) tr w)
    (ha : ∀ p r, Event.lstat p r ∈ tr → fs.denied p = false) {top : Ino} (hl : fs.lookup f = some top) (hk : fs.kind top = .dir)
    (e : Entry) (he : e ∈ w.fs.entries) (hbe : ScanBelow [lit "{arch}"] w top e.dir) :
    Hidden e.name ∨ e.name = lit "{arch}" ∨ (w.fs.kind e.ino ≠ .dir ∧ w.fs.kind e.ino ≠ .reg ∧ Setting.special ∉ ss) ∨
      ∀ c ∈ e.name, hostile c = false := by
  have hn' : requested I ss ≠ some (lit "utf_8-only") ∧ requested I ss ≠ some (lit "uncgi-only") := by
    rcases hn with hn | hn <;> rw [hn] <;> constructor <;> decide
  obtain ⟨h1, h2⟩ := C87_silent_builtin_tree hP hc h hu hn' hr hd hi hb hs hnul ht hst hw ha
  obtain ⟨p, hp⟩ := h2 f top rfl hl hk
  rcases h1 top p hp e he hbe with hx | hx | hx | ⟨m, hm, _, hx⟩
  · exact .inl hx
  · exact .inr (.inl hx)
  · exact .inr (.inr (.inl hx))
  · refine .inr (.inr (.inr ?_))
    have hx := hx ⟨fun _ => none, none⟩
    rw [runBuiltin_asked hn] at hx
    obtain ⟨out, e1, e2⟩ := C01_default_output_has_no_hostile_character P ⟨fun _ => none, none⟩ m hm
    rw [hx] at e1
    cases e1
    exact e2


/-! ### A concrete case -/

/-- In the current directory there is `my dir`, with `a b`, `sub x` and `.hid den` in it; `sub x` is a directory with `c d` in it. -/
def treeFS : FS where
  entries := [⟨⟨1, 1⟩, lit "my dir", ⟨1, 2⟩⟩, ⟨⟨1, 2⟩, lit "a b", ⟨1, 3⟩⟩, ⟨⟨1, 2⟩, lit "sub x", ⟨1, 4⟩⟩,
    ⟨⟨1, 4⟩, lit "c d", ⟨1, 5⟩⟩, ⟨⟨1, 2⟩, lit ".hid den", ⟨1, 6⟩⟩]
  root := ⟨1, 1⟩
  cwd := ⟨1, 1⟩
  kind := fun i => if i = ⟨1, 1⟩ ∨ i = ⟨1, 2⟩ ∨ i = ⟨1, 4⟩ then .dir else .reg
  target := fun _ => []
  dirLinks := fun _ => 2
  parent := fun i => if i = ⟨1, 4⟩ then ⟨1, 2⟩ else ⟨1, 1⟩
  norm := fun _ n => n
  denied := fun _ => false

def treeDepth (i : Ino) : Nat := if i = ⟨1, 2⟩ then 1 else if i = ⟨1, 4⟩ then 2 else 0

def treeCall : Invocation := { program := lit "detox", args := [lit "-r", lit "my dir"] }

/-- `readdir` gives the renamed file a second time. -/
def treeTrace : List Event :=
  nothingInstalled ++ [
  .lstat (lit "my dir") (some ⟨1, 2, 2, .dir⟩), .lstat (lit "my dir") (some ⟨1, 2, 2, .dir⟩), .lstat (lit "my_dir") none,
  .rename (lit "my dir") (lit "my_dir") true, .lstat (lit "my_dir") (some ⟨1, 2, 2, .dir⟩), .opendir (lit "my_dir") (.ok 0),
  .readdir 0 (some (lit ".")), .readdir 0 (some (lit "a b")),
  .lstat (lit "my_dir/a b") (some ⟨1, 3, 1, .reg⟩), .lstat (lit "my_dir/a b") (some ⟨1, 3, 1, .reg⟩), .lstat (lit "my_dir/a_b") none,
  .rename (lit "my_dir/a b") (lit "my_dir/a_b") true,
  .readdir 0 (some (lit "sub x")),
  .lstat (lit "my_dir/sub x") (some ⟨1, 4, 2, .dir⟩), .lstat (lit "my_dir/sub x") (some ⟨1, 4, 2, .dir⟩), .lstat (lit "my_dir/sub_x") none,
  .rename (lit "my_dir/sub x") (lit "my_dir/sub_x") true,
  .lstat (lit "my_dir/sub_x") (some ⟨1, 4, 2, .dir⟩), .opendir (lit "my_dir/sub_x") (.ok 1),
  .readdir 1 (some (lit "c d")), .lstat (lit "my_dir/sub_x/c d") (some ⟨1, 5, 1, .reg⟩),
  .lstat (lit "my_dir/sub_x/c d") (some ⟨1, 5, 1, .reg⟩), .lstat (lit "my_dir/sub_x/c_d") none,
  .rename (lit "my_dir/sub_x/c d") (lit "my_dir/sub_x/c_d") true,
  .readdir 1 none, .closedir 1,
  .readdir 0 (some (lit "a_b")), .lstat (lit "my_dir/a_b") (some ⟨1, 3, 1, .reg⟩),
  .readdir 0 (some (lit ".hid den")), .readdir 0 none, .closedir 0]

theorem treeTrace_run : Trace (detoxMain .linux treeCall 10) treeTrace (.ret ()) := Prog.result_sound _ _ _ (by decide +kernel)

theorem treeFS_tree : treeFS.Tree treeDepth 1 where
  unique := by unfold FS.Unique; decide +kernel
  level := by decide +kernel
  once := by decide +kernel
  bound := by
    intro d
    unfold treeDepth walkLimit
    split
    · decide
    · split <;> decide

theorem treeFS_steady : ∀ f ∈ [lit "my dir"], treeFS.Steady treeDepth 1 0 f := by
  intro f hf
  rw [List.mem_singleton.1 hf]
  exact .name [] (lit "my dir") ⟨1, 1⟩ rfl (.inl rfl) (by decide +kernel) (by decide +kernel) (by decide +kernel) (by decide +kernel)
    ⟨by decide +kernel, by decide +kernel, by decide +kernel, Nat.zero_le _⟩

/- All that C87 asks of the run, the tree it is about, and what the run makes of it. -/
example : CommandLine treeCall.posixlyCorrect treeCall.args [.recurse] [lit "my dir"] :=
  .cluster [0x72] [.recurse] _ _ [] (by simp) (.cons _ _ _ _ .recurse .nil) (.operand _ _ _ _ rfl (.inl (by decide +kernel)) .none)

example : Unconfigured treeCall [.recurse] treeTrace ∧ requested treeCall [.recurse] = none ∧ Silent treeTrace ∧
    (∀ p r, Event.lstat p r ∈ treeTrace → treeFS.denied p = false) ∧ treeFS.lookup (lit "my dir") = some ⟨1, 2⟩ := by
  refine ⟨⟨rfl, ?_⟩, rfl, ?_, fun _ _ _ => rfl, by decide +kernel⟩
  · intro p _ text hm
    simp [treeTrace, nothingInstalled] at hm
  · intro s hm
    simp [treeTrace, nothingInstalled] at hm

example : ∃ w, World.Steps (World.start treeFS) treeTrace w ∧
    (w.fs.entries, w.opened) = ([⟨⟨1, 1⟩, lit "my_dir", ⟨1, 2⟩⟩, ⟨⟨1, 2⟩, lit "a_b", ⟨1, 3⟩⟩, ⟨⟨1, 2⟩, lit "sub_x", ⟨1, 4⟩⟩,
      ⟨⟨1, 4⟩, lit "c_d", ⟨1, 5⟩⟩, ⟨⟨1, 2⟩, lit ".hid den", ⟨1, 6⟩⟩], [(⟨1, 4⟩, lit "my_dir/sub_x"), (⟨1, 2⟩, lit "my_dir")]) :=
  World_exec_out (f := fun w => (w.fs.entries, w.opened)) (by decide +kernel)

end Detox
