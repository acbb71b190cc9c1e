import Verif.Lemmas.DryTree
import Verif.Props.Quiet

/-!
# C101: what a dry run says about a tree of directories
-/

set_option autoImplicit false

namespace Detox
open Spec

/-- A dry run over arguments that do not lead through what is scanned, on a file system that is a tree, with nobody else at work. -/
structure DryRunOver (P : Platform) (o : Options) (args : List Bytes) (fs : FS) (depth : Ino → Nat) (slack level : Nat) (tr : List Event)
    (w : World) : Prop where
  dry : o.dryRun = true
  tree : fs.Tree depth slack
  steady : ∀ f ∈ args, fs.Steady depth slack level f
  steps : World.Steps (World.start fs) tr w
  allowed : ∀ p r, Event.lstat p r ∈ tr → fs.denied p = false

/-- **C101.** A dry run changes nothing. Every line it writes announces the new name of an entry that is to be renamed (or, with `-v`, an argument). Every
message has a reason. And if there are no messages, every entry that is to be renamed is announced, all the way down with `-r`. -/
theorem C101_dry_run_over_a_tree {P : Platform} {o : Options} {args ws : List Bytes} {fs : FS} {depth : Ino → Nat} {slack level : Nat} {tr : List Event}
    {w : World} {a : Option Filelist} (hc : DryRunOver P o args fs depth slack level tr w) (h : Run P o args ws tr (.ret a))
    (hlit : fs.LiteralRun (Makes P o) args tr) :
    w.fs = fs ∧
    (∀ s, Event.out s ∈ tr → (o.verbose ≠ 0 ∧ ∃ f ∈ args, s = lit "Scanning: " ++ f ++ lit "\n") ∨ fs.Due (Makes P o) o args s) ∧
    (∀ s, Event.err s ∈ tr → fs.Complaint (Makes P o) o args tr s) ∧
    (Silent tr → ∀ e ∈ fs.entries, fs.Treats o args (fun n => Hidden n ∨ n ∈ ws) e → ∀ v, Makes P o e.name v → v ≠ e.name → fs.Announced tr e v) := by
  obtain ⟨seen, hscan⟩ := C72_runs_are_scans h
  obtain ⟨h1, _, h3, h4, h5, h6⟩ := args_dry (args := args)
    ⟨hc.dry, fun a b c h1 h2 => Option.some.inj (Res.ok.inj (h1.symm.trans h2)), fun _ h => sequence_nil h, hc.allowed, hlit.entries⟩ hc.tree hscan
    (fun _ h => h) (W := World.start fs) rfl hc.steady (fun _ h => h) (fun f hf => hlit.args f hf) hc.steps
  refine ⟨h1, h4, h5, fun hs => ?_⟩
  have told : ∀ {d p}, (d, p) ∈ w.opened → ∀ e ∈ fs.entries, e.dir = d → ¬ (Hidden e.name ∨ e.name ∈ ws) →
      (fs.kind e.ino = .dir ∨ fs.kind e.ino = .reg ∨ o.special = true) →
      (∀ v, Makes P o e.name v → v ≠ e.name → fs.Announced tr e v) ∧ (o.recurse = true → fs.kind e.ino = .dir → ∃ p, (e.ino, p) ∈ w.opened) := by
    intro d p hp e he hd hsk hk
    rcases h3 (d, p) hp with h | h
    · cases h
    · rcases h e he hd with ⟨s, h⟩ | (h | h | h) | h
      · exact absurd h (hs s)
      · exact absurd (.inl h) hsk
      · exact absurd (.inr h) hsk
      · rcases hk with hk | hk | hk
        · exact absurd hk h.1
        · exact absurd hk h.2.1
        · rw [h.2.2] at hk; cases hk
      · exact h
  have opened : ∀ d, fs.Scans o args (fun n => Hidden n ∨ n ∈ ws) d → ∃ p, (d, p) ∈ w.opened := by
    intro d hd
    induction hd with
    | arg f d hf hl hk =>
      rcases h6 f hf with ⟨s, h⟩ | h
      · exact absurd h (hs s)
      · exact h.2 d hl hk
    | sub e he _ hr hk hsk ih =>
      obtain ⟨p, hp⟩ := ih
      exact (told hp e he rfl hsk (.inl hk)).2 hr hk
  rintro e he ⟨hk, ⟨f, hf, hat⟩ | ⟨hsc, hsk⟩⟩
  · rcases h6 f hf with ⟨s, h⟩ | h
    · exact absurd h (hs s)
    · exact h.1 e hat hk
  · obtain ⟨p, hp⟩ := opened _ hsc
    exact (told hp e he rfl hsk hk).1

/-- **C101.** If all arguments exist, directories can be opened, and there is room for the new names, a dry run has no complaints. -/
theorem C101_dry_run_without_complaints {P : Platform} {o : Options} {args ws : List Bytes} {fs : FS} {depth : Ino → Nat} {slack level : Nat}
    {tr : List Event} {w : World} {a : Option Filelist} (hc : DryRunOver P o args fs depth slack level tr w) (h : Run P o args ws tr (.ret a))
    (hlit : fs.LiteralRun (Makes P o) args tr) (hex : ∀ f ∈ args, fs.lookup f ≠ none)
    (hopen : ∀ p d, Event.opendir p .fail ∈ tr → fs.follow p = some d → fs.kind d ≠ .dir) (hroom : fs.Room (Makes P o) o args) : Silent tr := by
  intro s hm
  cases (C101_dry_run_over_a_tree hc h hlit).2.2.1 s hm with
  | missing f h1 h2 => exact hex f h1 h2
  | unread p d h1 h2 h3 => exact hopen p d h1 h2 h3
  | taken e f dir v h1 h2 _ _ h3 h4 h5 =>
    rcases h5 with h5 | ⟨e', h6, h7, h8, h9⟩
    · obtain ⟨h6, h7, h8⟩ := hroom.proper e h1 h2 v h3
      exact h5 ⟨h6.nonempty, h6.slash, h7, h8⟩
    · exact h9 (hroom.free e h1 h2 v h3 h4 e' h6 h7 h8)

/-- What is announced is what is done: the entries whose names are different afterwards, and no others. -/
def Foretold (fs : FS) (args : List Bytes) (td : List Event) (fs' : FS) : Prop :=
  ∃ new : Entry → Bytes, fs' = { fs with entries := fs.entries.map fun e => { e with name := new e } } ∧
    (∀ e ∈ fs.entries, new e ≠ e.name → fs.Announced td e (new e)) ∧
    ∀ s, Event.out s ∈ td → (∃ f ∈ args, s = lit "Scanning: " ++ f ++ lit "\n") ∨
      ∃ e ∈ fs.entries, new e ≠ e.name ∧ ∃ f dir, SplitsAs f dir e.name ∧ fs.IsAt f e ∧ s = arrow (f, dir ++ new e)

theorem foretold_of {R : Bytes → Bytes → Prop} (hR : ∀ a b c, R a b → R a c → b = c) {o : Options} {args ws : List Bytes} {fs fs' : FS} {td : List Event}
    (hws : ∀ e ∈ fs.entries, e.name ∉ ws)
    (h1 : ∀ s, Event.out s ∈ td → (o.verbose ≠ 0 ∧ ∃ f ∈ args, s = lit "Scanning: " ++ f ++ lit "\n") ∨ fs.Due R o args s)
    (h2 : ∀ e ∈ fs.entries, fs.Treats o args (fun n => Hidden n ∨ n ∈ ws) e → ∀ v, R e.name v → v ≠ e.name → fs.Announced td e v)
    (hcl : fs.Cleaned R o args ws fs') : Foretold fs args td fs' := by
  obtain ⟨new, h3, h4⟩ := hcl
  have key : ∀ e ∈ fs.entries, fs.Treats o args Hidden e → fs.Treats o args (fun n => Hidden n ∨ n ∈ ws) e :=
    fun e he => treats_congr id id (fun _ h => h) (fun e he h => h.elim id fun h => absurd h (hws e he)) he
  refine ⟨new, h3, fun e he hne => ?_, fun s hs => ?_⟩
  · obtain ⟨a, b, _⟩ := h4 e he
    by_cases ht : fs.Treats o args Hidden e
    · exact h2 e he (key e he ht) _ (a (key e he ht)) hne
    · exact absurd (b ht) hne
  · rcases h1 s hs with ⟨_, h⟩ | ⟨e, he, ht, f, dir, v, a, b, c, d, rfl⟩
    · exact .inl h
    · have hv : new e = v := hR _ _ _ ((h4 e he).1 (key e he ht)) c
      exact .inr ⟨e, he, by rw [hv]; exact d, f, dir, a, b, by rw [hv]⟩

/-- **C101.** A dry run and a real run from the same state, both without complaints: what the first announces is what the second does. In the announcements
directories have their old names. -/
theorem C101_dry_run_foretells {P : Platform} {o : Options} {args ws : List Bytes} {fs : FS} {depth : Ino → Nat} {slack level : Nat} {td tr : List Event}
    {wd w : World} {ad a : Option Filelist} (hd : DryRunOver P { o with dryRun := true } args fs depth slack level td wd)
    (hrd : Run P { o with dryRun := true } args ws td (.ret ad)) (hsd : Silent td) (hld : fs.LiteralRun (Makes P o) args td)
    (hc : CompleteRun P o args fs depth slack level tr w) (hr : Run P o args ws tr (.ret a)) (hs : Silent tr) (hl : fs.LiteralRun (Makes P o) args tr)
    (hid : ∀ m v, NulFree m → Makes P o m v → Makes P o v v) (hex : ∀ f ∈ args, fs.lookup f ≠ none) (hws : ∀ e ∈ fs.entries, e.name ∉ ws) :
    wd.fs = fs ∧ Foretold fs args td w.fs := by
  obtain ⟨h1, h2, _, h4⟩ := C101_dry_run_over_a_tree hd hrd hld
  exact ⟨h1, foretold_of (R := Makes P o) (fun a b c h1 h2 => Option.some.inj (Res.ok.inj (h1.symm.trans h2))) (o := { o with dryRun := true }) hws h2 (h4 hsd)
    (by
      obtain ⟨new, k1, k2⟩ := C98_tree_after_a_run hc hr hs hid hex hl
      refine ⟨new, k1, fun e he => ⟨fun ht => (k2 e he).1 ?_, fun ht => (k2 e he).2.1 fun ht' => ht ?_, (k2 e he).2.2⟩⟩
      · exact treats_congr (o := { o with dryRun := true }) (o2 := o) (fun h => h) (fun h => h) (fun _ h => h) (fun _ _ h => h) he ht
      · exact treats_congr (o := o) (o2 := { o with dryRun := true }) (fun h => h) (fun h => h) (fun _ h => h) (fun _ _ h => h) he ht')⟩

/-- **C101.** The same for the whole program with nothing configured and one of the sequences `default`, `utf_8`, `lower` and `lower-only`: the command
line with `-n`, then without. -/
theorem C101_dry_run_foretells_main {P : Platform} (hP : P.Benign) {J I : Invocation} {fueld fuel : Nat} {sd ss : List Setting} {ws : List Bytes}
    (hcd : CommandLine J.posixlyCorrect J.args sd ws) (hc : CommandLine I.posixlyCorrect I.args ss ws) {td tr : List Event}
    (htd : Trace (detoxMain P J fueld) td (.ret ())) (htr : Trace (detoxMain P I fuel) tr (.ret ())) (hud : Unconfigured J sd td) (hu : Unconfigured I ss tr)
    (hn : requested I ss = none ∨ ∃ n ∈ [lit "default", lit "utf_8", lit "lower", lit "lower-only"], requested I ss = some n)
    (hsame : requested J sd = requested I ss ∧ (Setting.recurse ∈ sd ↔ Setting.recurse ∈ ss) ∧ (Setting.special ∈ sd ↔ Setting.special ∈ ss))
    (hdry : Setting.dryRun ∈ sd) (hwet : Setting.dryRun ∉ ss) (hid : Setting.inline ∉ sd) (hi : Setting.inline ∉ ss)
    (hbd : ¬ CalledInline J.program) (hb : ¬ CalledInline I.program) (hsd : Silent td) (hs : Silent tr)
    {fs : FS} {depth : Ino → Nat} {slack level : Nat} {wd w : World} (hnul : ∀ f ∈ ws, NulFree f) (ht : fs.Tree depth slack)
    (hst : ∀ f ∈ ws, fs.Steady depth slack level f) (hwd : World.Steps (World.start fs) td wd) (hw : World.Steps (World.start fs) tr w)
    (had : ∀ p r, Event.lstat p r ∈ td → fs.denied p = false) (ha : ∀ p r, Event.lstat p r ∈ tr → fs.denied p = false)
    (hex : ∀ f ∈ ws, fs.lookup f ≠ none) (E : TableEnv) (hld : fs.LiteralRun (fun m v => runBuiltin P E (requested I ss) m = .ok (some v)) ws td)
    (hl : fs.LiteralRun (fun m v => runBuiltin P E (requested I ss) m = .ok (some v)) ws tr) (hws : ∀ e ∈ fs.entries, e.name ≠ lit "{arch}") :
    wd.fs = fs ∧ Foretold fs ws td w.fs := by
  obtain ⟨reads, t, o, a, rfl, hfr, _, hsteps, hrun, hm, _, hdd, hrec, hspec, _⟩ := main_parts hP hcd htd hud (by rw [hsame.1]; exact hn) hid hbd hwd E
  rw [hsame.1] at hm
  have hmt : ∀ e ∈ t, e ∈ reads ++ t := fun e he => List.mem_append_right _ he
  have hld' : fs.LiteralRun (Makes P o) ws t := by rw [hm]; exact ⟨hld.args, fun k n hx => hld.entries k n (hmt _ hx)⟩
  obtain ⟨h1, h2, _, h4⟩ := C101_dry_run_over_a_tree ⟨hdd.2 hdry, ht, hst, hsteps, fun p r hx => had p r (hmt _ hx)⟩ hrun hld'
  have key := C98_tree_after_main hP hc htr hu hn hwet hi hb hs hnul ht hst hw ha hex E hl o (hrec.trans hsame.2.1) (hspec.trans hsame.2.2)
  rw [← hm] at key
  have h5 := foretold_of (R := Makes P o) (fun a b c h1 h2 => Option.some.inj (Res.ok.inj (h1.symm.trans h2))) (ws := [lit "{arch}"])
    (fun e he hx => hws e he (List.mem_singleton.1 hx)) h2 (h4 fun s hx => hsd s (hmt _ hx)) key
  refine ⟨h1, ?_⟩
  obtain ⟨new, k1, k2, k3⟩ := h5
  refine ⟨new, k1, fun e he hne => ?_, fun s hx => k3 s ?_⟩
  · obtain ⟨f, dir, a, b, c⟩ := k2 e he hne
    exact ⟨f, dir, a, b, hmt _ c⟩
  · rcases List.mem_append.1 hx with hx | hx
    · obtain ⟨f, hf⟩ := hfr _ hx
      cases hf
    · exact hx

/-! ### A concrete case -/

def treeDryCall : Invocation := { program := lit "detox", args := [lit "-nr", lit "my dir"] }

def treeDryTrace : List Event :=
  nothingInstalled ++ [
  .lstat (lit "my dir") (some ⟨1, 2, 2, .dir⟩), .lstat (lit "my dir") (some ⟨1, 2, 2, .dir⟩), .lstat (lit "my_dir") none,
  .out (lit "my dir -> my_dir\n"), .lstat (lit "my dir") (some ⟨1, 2, 2, .dir⟩), .opendir (lit "my dir") (.ok 0),
  .readdir 0 (some (lit ".")), .readdir 0 (some (lit "a b")),
  .lstat (lit "my dir/a b") (some ⟨1, 3, 1, .reg⟩), .lstat (lit "my dir/a b") (some ⟨1, 3, 1, .reg⟩), .lstat (lit "my dir/a_b") none,
  .out (lit "my dir/a b -> my dir/a_b\n"),
  .readdir 0 (some (lit "sub x")),
  .lstat (lit "my dir/sub x") (some ⟨1, 4, 2, .dir⟩), .lstat (lit "my dir/sub x") (some ⟨1, 4, 2, .dir⟩), .lstat (lit "my dir/sub_x") none,
  .out (lit "my dir/sub x -> my dir/sub_x\n"),
  .lstat (lit "my dir/sub x") (some ⟨1, 4, 2, .dir⟩), .opendir (lit "my dir/sub x") (.ok 1),
  .readdir 1 (some (lit "c d")), .lstat (lit "my dir/sub x/c d") (some ⟨1, 5, 1, .reg⟩),
  .lstat (lit "my dir/sub x/c d") (some ⟨1, 5, 1, .reg⟩), .lstat (lit "my dir/sub x/c_d") none,
  .out (lit "my dir/sub x/c d -> my dir/sub x/c_d\n"),
  .readdir 1 none, .closedir 1,
  .readdir 0 (some (lit ".hid den")), .readdir 0 none, .closedir 0]

theorem treeDryTrace_run : Trace (detoxMain .linux treeDryCall 10) treeDryTrace (.ret ()) := Prog.result_sound _ _ _ (by decide +kernel)

/- `detox -nr 'my dir'`, then `detox -r 'my dir'`. -/
example : ∃ wd w, World.Steps (World.start treeFS) treeDryTrace wd ∧ World.Steps (World.start treeFS) treeTrace w ∧ wd.fs = treeFS ∧
    Foretold treeFS [lit "my dir"] treeDryTrace w.fs ∧ w.fs.entries.map Entry.name = [lit "my_dir", lit "a_b", lit "sub_x", lit "c_d", lit ".hid den"] := by
  obtain ⟨wd, hd, _⟩ := World_exec_out (w := World.start treeFS) (tr := treeDryTrace) (f := fun w => w.fs.entries.length) (x := 5) (by decide +kernel)
  obtain ⟨w, h1, h2⟩ := World_exec_out (w := World.start treeFS) (tr := treeTrace) (f := fun w => w.fs.entries.map Entry.name)
    (x := [lit "my_dir", lit "a_b", lit "sub_x", lit "c_d", lit ".hid den"]) (by decide +kernel)
  have hlit := literal_exact (fs := treeFS) (fun _ _ _ h => h) (fun m v => runBuiltin .linux ⟨fun _ => none, none⟩ none m = .ok (some v))
  have hb : ¬ CalledInline (lit "detox") := fun h => by rw [← posixBasename_inline] at h; exact absurd h (by decide +kernel)
  have := C101_dry_run_foretells_main (J := treeDryCall) (I := treeCall) (sd := [.dryRun, .recurse]) (ss := [.recurse]) (ws := [lit "my dir"]) (P := .linux) (by decide)
    (.cluster [0x6E, 0x72] [.dryRun, .recurse] _ _ [] (by simp) (.cons _ _ _ _ .dryRun (.cons _ _ _ _ .recurse .nil)) (.operand _ _ _ _ rfl (.inl (by decide +kernel)) .none))
    (.cluster [0x72] [.recurse] _ _ [] (by simp) (.cons _ _ _ _ .recurse .nil) (.operand _ _ _ _ rfl (.inl (by decide +kernel)) .none))
    treeDryTrace_run treeTrace_run ⟨rfl, by intro p _ text hm; simp [treeDryTrace, nothingInstalled] at hm⟩
    ⟨rfl, by intro p _ text hm; simp [treeTrace, nothingInstalled] at hm⟩ (.inl rfl) ⟨rfl, by simp, by simp⟩ (by simp) (by simp) (by simp) (by simp)
    hb hb (by intro s hm; simp [treeDryTrace, nothingInstalled] at hm) (by intro s hm; simp [treeTrace, nothingInstalled] at hm) (by decide +kernel)
    treeFS_tree treeFS_steady hd h1 (fun _ _ _ => rfl) (fun _ _ _ => rfl) (by decide +kernel) ⟨fun _ => none, none⟩ ⟨fun _ _ _ _ _ => hlit _, fun _ _ _ => hlit _⟩
    ⟨fun _ _ _ _ _ => hlit _, fun _ _ _ => hlit _⟩ (by decide +kernel)
  exact ⟨wd, w, hd, h1, this.1, this.2, h2⟩

end Detox
