import Verif.Props.Whatever

/-!
# C125: arguments that end in a slash
-/

set_option autoImplicit false

namespace Detox
open Spec

theorem filterRun_empty (P : Platform) (f : Filter) : filterRun P f (some []) = .ok (some []) ∨ filterRun P f (some []) = .exit 1 := by
  obtain ⟨c, _, _, r, m, t⟩ := f
  cases c
  · cases t
    · exact .inr rfl
    · exact .inl (by simp [filterRun, cleanIso, OutBuf.alloc, cleanIsoLoop, OutBuf.finish]; rfl)
  · exact .inl rfl
  · exact .inl (by simp [filterRun, cleanMaxLength])
  · cases t
    · exact .inr rfl
    · exact .inl (by simp [filterRun, cleanSafe, OutBuf.alloc, cleanSafeLoop, OutBuf.finish]; rfl)
  · exact .inl rfl
  · cases t
    · exact .inr rfl
    · exact .inl (by simp [filterRun, cleanUtf8, OutBuf.alloc, cleanUtf8Loop, OutBuf.finish]; rfl)
  · exact .inl (by cases r <;> rfl)

theorem runFilters_empty (P : Platform) : ∀ (fs : List Filter) {w : Option Bytes}, runFilters P fs (some []) = .ok w → w = some []
  | [], w, h => by cases h; rfl
  | f :: fs, w, h => by
    unfold runFilters at h
    rcases filterRun_empty P f with hf | hf
    · rw [hf] at h
      exact runFilters_empty P fs h
    · rw [hf] at h
      cases h

/-- **C125.** Of an empty name every sequence, with any filters and tables, makes an empty name. -/
theorem C125_nothing_of_nothing {P : Platform} {q : Option Sequence} {w : Bytes} (h : sequenceRunFilters P q (some []) = .ok (some w)) : w = [] := by
  cases q with
  | none => cases h
  | some q => exact Option.some.inj (runFilters_empty P q.filters h)

theorem splits_slash {f dir name : Bytes} (hs : SplitsAs f dir name) (he : endsInSlash f = true) : name = [] := by
  rcases List.eq_nil_or_concat name with h | ⟨l, c, rfl⟩
  · exact h
  · exfalso
    rw [hs.1] at he
    have : c = 0x2F := by simpa [endsInSlash] using he
    exact hs.2.1 (by simp [this])

/-- **C125.** Whatever the command line and the configuration, and whatever the system answers: no path given to `rename` ends in a slash. -/
theorem C125_no_slash_is_renamed {P : Platform} {I : Invocation} {fuel : Nat} {ss : List Setting} {ws : List Bytes}
    (hc : CommandLine I.posixlyCorrect I.args ss ws) {tr : List Event} {out : Outcome Unit} (h : Trace (detoxMain P I fuel) tr out) {old new : Bytes} {ok : Bool}
    (hm : Event.rename old new ok ∈ tr) : endsInSlash old = false := by
  obtain ⟨pre, post, heq⟩ := List.append_of_mem hm
  obtain ⟨_, q, q', _, _, _, _, _, _, _, dir, name, cleaned, _, _, _, _, _, h1, _, h3, h4, _⟩ := C66_renames_are_guarded hc h pre post old new ok heq
  cases hx : endsInSlash old with
  | false => rfl
  | true =>
    rw [splits_slash h1 hx] at h3 h4
    exact absurd (C125_nothing_of_nothing h4) h3

theorem fileRun_slash {P : Platform} {o : Options} {f : Bytes} (hf : endsInSlash f = true) {tr : List Event} {p : Bytes} (h : FileRun P o f tr p) : tr = [] ∧ p = f := by
  have no : ∀ {dir name w : Bytes}, SplitsAs f dir name → Makes P o name w → w ≠ name → False := by
    intro dir name w h1 h2 h3
    rw [splits_slash h1 hf] at h2 h3
    exact h3 (C125_nothing_of_nothing h2)
  cases h with
  | clean => exact ⟨rfl, rfl⟩
  | gone _ _ _ h1 _ _ h2 h3 => exact (no h1 h2 h3).elim
  | refused _ _ _ _ _ h1 _ _ h2 h3 => exact (no h1 h2 h3).elim
  | dry _ _ _ _ _ h1 _ _ h2 h3 => exact (no h1 h2 h3).elim
  | renamed _ _ _ _ _ h1 _ _ h2 h3 => exact (no h1 h2 h3).elim
  | failed _ _ _ _ _ h1 _ _ h2 h3 => exact (no h1 h2 h3).elim

/-- **C125.** What is done for an argument that ends in a slash, by any sequence whose tables are there: if it is missing, there is a message; if it leads to no
directory, nothing; a directory is scanned, under that very path, and nothing comes before that. -/
theorem C125_argument_with_a_slash {P : Platform} {o : Options} {ig seen seen' : List Bytes} {f : Bytes} (hf : endsInSlash f = true) (hq : Makes P o [] [])
    {tr : List Event} : ArgScan P o ig f seen tr seen' ↔
      (tr = [.lstat f none, .err (f ++ lit ": ")] ∧ seen' = seen) ∨
      (∃ st : Stat, tr = [.lstat f (some st)] ∧ seen' = seen ∧ st.kind ≠ .dir) ∨
      (∃ (st : Stat) (sub : List Event), tr = .lstat f (some st) :: sub ∧ st.kind = .dir ∧ Scan P o ig (.dir f) seen sub seen') := by
  have hclean : FileRun P o f [] f := by
    have h := splitsAs_parts f
    refine .clean _ _ h (.inr (.inr ?_))
    rw [splits_slash h hf]
    exact hq
  constructor
  · intro h
    cases h with
    | missing => exact .inl ⟨rfl, rfl⟩
    | leave st _ h1 => exact .inr (.inl ⟨st, rfl, rfl, h1⟩)
    | file st _ mid p h1 h2 =>
      obtain ⟨rfl, rfl⟩ := fileRun_slash hf h2
      refine .inr (.inl ⟨st, rfl, rfl, ?_⟩)
      rcases h1 with h1 | h1
      · rw [h1]; simp
      · exact h1.1
    | dir st _ _ mid sub p h1 h2 h3 =>
      obtain ⟨rfl, rfl⟩ := fileRun_slash hf h2
      exact .inr (.inr ⟨st, sub, rfl, h1, h3⟩)
  · rintro (⟨rfl, rfl⟩ | ⟨st, rfl, rfl, h1⟩ | ⟨st, sub, rfl, h1, h2⟩)
    · exact .missing _
    · by_cases hr : st.kind = .reg
      · exact .file st _ [] f (.inl hr) hclean
      · cases hs : o.special with
        | true => exact .file st _ [] f (.inr ⟨h1, hs⟩) hclean
        | false => exact .leave st _ h1 hr hs
    · exact .dir st _ _ [] sub f h1 hclean h2

theorem scans_below {fs : FS} {depth : Ino → Nat} {slack : Nat} (ht : fs.Tree depth slack) {o : Options} {f : Bytes} {top : Ino} (hl : fs.lookup f = some top)
    {skip : Bytes → Prop} {d : Ino} (h : fs.Scans o [f] skip d) : depth top ≤ depth d := by
  induction h with
  | arg g d hg hd _ =>
    rw [List.mem_singleton.1 hg, hl] at hd
    cases hd
    exact Nat.le_refl _
  | sub e he _ _ hk _ ih =>
    have := ht.level e he hk
    omega

/-- **C125.** `detox DIR/`, with or without `-r`, and any well-written configuration whose filters leave alone what they have made and make no slashes: if there are no
complaints, the tree is as C117 says, and the directory itself has the name it had, whatever the filters would make of it. -/
theorem C125_directory_keeps_its_name {P : Platform} (hP : P.Benign) {I : Invocation} {fuel : Nat} {ss : List Setting} {f : Bytes} (hsl : endsInSlash f = true)
    (hr : Renames I ss [f]) (hd : Setting.dryRun ∉ ss) {files : Bytes → Option Bytes} {plain : Bool} {q : Sequence} (hw : Written I ss files plain q) {ig : List Bytes}
    (hig : IgnoredAre I.config (lastConfig ss) files ig) {tr : List Event} (h : Trace (detoxMain P I fuel) tr (.ret ()))
    (hf : ∀ e ∈ tr, Faithful files e) (hs : Silent tr)
    (hset : Settles (FiltersSay P I.ctype I.datadir files q.filters))
    (hpl : ∀ m v, NulFree m → FiltersSay P I.ctype I.datadir files q.filters m v → NameFits plain v)
    {fs : FS} {depth : Ino → Nat} {slack level : Nat} {w : World} (hnul : NulFree f) (hnames : ∀ e ∈ fs.entries, NulFree e.name) (ht : fs.Tree depth slack)
    (hst : fs.Steady depth slack level f) (hsteps : World.Steps (World.start fs) tr w)
    (ha : ∀ p r, Event.lstat p r ∈ tr → fs.denied p = false)
    (hlit : fs.LiteralRun (FiltersSay P I.ctype I.datadir files q.filters) [f] tr)
    (o : Options) (hrec : o.recurse = true ↔ Setting.recurse ∈ ss) (hsp : o.special = true ↔ Setting.special ∈ ss)
    {top : Ino} (hl : fs.lookup f = some top) (hk : fs.kind top = .dir) :
    fs.Cleaned (FiltersSay P I.ctype I.datadir files q.filters) o [f] ig w.fs ∧ ∀ e ∈ fs.entries, e.ino = top → e ∈ w.fs.entries := by
  have one : ∀ {p : Bytes → Prop}, p f → ∀ g ∈ [f], p g := fun h g hg => (List.mem_singleton.1 hg) ▸ h
  have hC := C117_configured_tree hP hr hd hw hig h hf hs hset hpl (fs := fs) (one hnul) hnames ht (one hst) hsteps ha (one (by rw [hl]; simp)) hlit o hrec hsp
  refine ⟨hC, fun e he hi => ?_⟩
  obtain ⟨new, h1, h2⟩ := hC
  have hno : ¬ fs.Treats o [f] Hidden e := by
    rintro ⟨_, ⟨g, hg, dir, name, g1, g2, _⟩ | ⟨g1, _⟩⟩
    · rw [List.mem_singleton.1 hg] at g1
      exact g2 (splits_slash g1 hsl)
    · have l1 := scans_below ht hl g1
      have l2 := ht.level e he (by rw [hi]; exact hk)
      rw [hi] at l2
      omega
  rw [h1]
  refine List.mem_map.2 ⟨e, he, ?_⟩
  rw [(h2 e he).2.1 hno]

/-! ### A concrete case: `detox -r 'my dir/'`, with the files of the example of the manual in place -/

def slashTrace : List Event :=
  manualTrace.take 6 ++ [
  .lstat (lit "my dir/") (some ⟨1, 2, 2, .dir⟩), .lstat (lit "my dir/") (some ⟨1, 2, 2, .dir⟩), .opendir (lit "my dir/") (.ok 0),
  .readdir 0 (some (lit "a & b")),
  .lstat (lit "my dir//a & b") (some ⟨1, 3, 1, .reg⟩), .lstat (lit "my dir//a & b") (some ⟨1, 3, 1, .reg⟩), .lstat (lit "my dir//a_and_b") none,
  .rename (lit "my dir//a & b") (lit "my dir//a_and_b") true,
  .readdir 0 (some (lit "sub x")),
  .lstat (lit "my dir//sub x") (some ⟨1, 4, 2, .dir⟩), .lstat (lit "my dir//sub x") (some ⟨1, 4, 2, .dir⟩), .lstat (lit "my dir//sub_x") none,
  .rename (lit "my dir//sub x") (lit "my dir//sub_x") true,
  .lstat (lit "my dir//sub_x") (some ⟨1, 4, 2, .dir⟩), .opendir (lit "my dir//sub_x") (.ok 1),
  .readdir 1 (some (lit "$ 1")), .lstat (lit "my dir//sub_x/$ 1") (some ⟨1, 5, 1, .reg⟩),
  .lstat (lit "my dir//sub_x/$ 1") (some ⟨1, 5, 1, .reg⟩), .lstat (lit "my dir//sub_x/money_1") none,
  .rename (lit "my dir//sub_x/$ 1") (lit "my dir//sub_x/money_1") true,
  .readdir 1 none, .closedir 1, .readdir 0 (some (lit ".hid den")), .readdir 0 none, .closedir 0]

theorem slashTrace_run : Trace (detoxMain .linux (manualCall (lit "en_US.UTF-8") [lit "-r", lit "my dir/"]) 10) slashTrace (.ret ()) :=
  Prog.result_sound _ _ _ (by decide +kernel)

example : ∃ w, World.Steps (World.start moneyFS) slashTrace w ∧
    moneyFS.Cleaned (FiltersSay .linux (lit "en_US.UTF-8") none manualFiles manualFilters) { recurse := true } [lit "my dir/"] [] w.fs ∧
    (⟨⟨1, 1⟩, lit "my dir", ⟨1, 2⟩⟩ : Entry) ∈ w.fs.entries ∧
    w.fs.entries.map Entry.name = [lit "my dir", lit "a_and_b", lit "sub_x", lit "money_1", lit ".hid den"] := by
  obtain ⟨w, h1, h2⟩ := World_exec_out (w := World.start moneyFS) (tr := slashTrace) (f := fun w => w.fs.entries.map Entry.name)
    (x := [lit "my dir", lit "a_and_b", lit "sub_x", lit "money_1", lit ".hid den"]) (by decide +kernel)
  have hlit := literal_exact (fs := moneyFS) (fun _ _ _ h => h) (FiltersSay .linux (lit "en_US.UTF-8") none manualFiles manualFilters)
  obtain ⟨hset, hset0⟩ := manual_settles .linux (lit "en_US.UTF-8")
  have key := C125_directory_keeps_its_name (P := .linux) (by decide) (f := lit "my dir/") (by decide +kernel)
    (manual_renames (lit "en_US.UTF-8") _ (recurse_line _ (.inl (by decide +kernel))) (by intro s hs; rw [List.mem_singleton.1 hs]; simp [Setting.Leaves]) (by simp) (by simp) (by simp))
    (by simp) (manual_written _ _ rfl rfl) (manual_ignored _ _ rfl) slashTrace_run ?_ (by intro s hm; simp [slashTrace, manualTrace] at hm) hset
    (fun m v hm hv => ⟨hset0 m v hm hv, nofun⟩) (by unfold NulFree; decide +kernel) (by unfold NulFree; decide +kernel) moneyFS_tree (level := 1)
    (.self (lit "my dir/") [] ⟨1, 2⟩ (by decide +kernel) (.inr ⟨lit "my dir", by decide +kernel⟩) (.inl rfl) (by decide +kernel) ⟨by decide +kernel, by decide +kernel, by decide +kernel, by decide +kernel⟩)
    h1 (fun _ _ _ => rfl) ⟨fun _ _ _ _ _ => hlit _, fun _ _ _ => hlit _⟩ { recurse := true } (by simp) (by simp) (top := ⟨1, 2⟩) (by decide +kernel) (by decide +kernel)
  · exact ⟨w, h1, key.1, key.2 _ (by decide +kernel) rfl, h2⟩
  · rintro e he p r rfl
    simp only [slashTrace, manualTrace, List.take_succ_cons, List.take_zero, List.cons_append, List.nil_append, List.mem_cons, Event.slurp.injEq, Option.some.injEq,
      reduceCtorEq, List.not_mem_nil, or_false] at he
    rcases he with ⟨rfl, rfl⟩ | ⟨rfl, rfl⟩ | ⟨rfl, rfl⟩ | ⟨rfl, rfl⟩ | ⟨rfl, rfl⟩ | ⟨rfl, rfl⟩
    · exact (manualFiles_none (by decide +kernel) (by decide +kernel)).symm
    · exact (manualFiles_none (by decide +kernel) (by decide +kernel)).symm
    · exact manualFiles_config.symm
    · exact manualFiles_table.symm
    · exact (manualFiles_none (by decide +kernel) (by decide +kernel)).symm
    · exact (manualFiles_none (by decide +kernel) (by decide +kernel)).symm

/-! ### A symbolic link with a slash behind it -/

/-- A directory with a file in it, and a link to the directory. -/
def linkedFS : FS := { treeFS with
  entries := [⟨⟨1, 1⟩, lit "dir", ⟨1, 2⟩⟩, ⟨⟨1, 2⟩, lit "a & b", ⟨1, 3⟩⟩, ⟨⟨1, 1⟩, lit "link", ⟨1, 7⟩⟩]
  kind := fun i => if i = ⟨1, 1⟩ ∨ i = ⟨1, 2⟩ then .dir else if i = ⟨1, 7⟩ then .link else .reg
  target := fun i => if i = ⟨1, 7⟩ then lit "dir" else [] }

/-- **C125.** `detox link` leaves a symbolic link and all behind it alone (C05); `detox link/`, for the same link, goes where it leads and renames there. -/
theorem C125_slash_follows_links : ∃ tr1 tr2 w1 w2,
    Trace (detoxMain .linux (manualCall (lit "en_US.UTF-8") [lit "link"]) 10) tr1 (.ret ()) ∧ World.Steps (World.start linkedFS) tr1 w1 ∧ w1.fs = linkedFS ∧
    Trace (detoxMain .linux (manualCall (lit "en_US.UTF-8") [lit "link/"]) 10) tr2 (.ret ()) ∧ World.Steps (World.start linkedFS) tr2 w2 ∧
    (⟨⟨1, 2⟩, lit "a & b", ⟨1, 3⟩⟩ : Entry) ∈ linkedFS.entries ∧ (⟨⟨1, 2⟩, lit "a_and_b", ⟨1, 3⟩⟩ : Entry) ∈ w2.fs.entries := by
  have k1 : ∃ w, World.Steps (World.start linkedFS) (manualTrace.take 6 ++ [.lstat (lit "link") (some ⟨1, 7, 1, .link⟩)]) w ∧ w.fs = linkedFS := by
    refine ⟨_, World_exec_sound _ rfl, rfl⟩
  obtain ⟨w1, a1, a2⟩ := k1
  obtain ⟨w2, b1, b2⟩ := World_exec_out (w := World.start linkedFS) (tr := manualTrace.take 6 ++ [
      .lstat (lit "link/") (some ⟨1, 2, 2, .dir⟩), .lstat (lit "link/") (some ⟨1, 2, 2, .dir⟩), .opendir (lit "link/") (.ok 0),
      .readdir 0 (some (lit "a & b")), .lstat (lit "link//a & b") (some ⟨1, 3, 1, .reg⟩), .lstat (lit "link//a & b") (some ⟨1, 3, 1, .reg⟩),
      .lstat (lit "link//a_and_b") none, .rename (lit "link//a & b") (lit "link//a_and_b") true, .readdir 0 none, .closedir 0])
    (f := fun w => w.fs.entries) (x := [⟨⟨1, 1⟩, lit "dir", ⟨1, 2⟩⟩, ⟨⟨1, 2⟩, lit "a_and_b", ⟨1, 3⟩⟩, ⟨⟨1, 1⟩, lit "link", ⟨1, 7⟩⟩]) (by decide +kernel)
  refine ⟨_, _, w1, w2, Prog.result_sound _ _ _ (by decide +kernel), a1, a2, Prog.result_sound _ _ _ (by decide +kernel), b1, by decide +kernel, ?_⟩
  rw [b2]; decide +kernel

end Detox
