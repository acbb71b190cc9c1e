import Verif.Lemmas.Together
import Verif.Props.Tree
import Verif.Props.Ends
import Verif.Lemmas.Bystander

/-!
# C116: several detox processes at the same time, each over its own trees
-/

set_option autoImplicit false

namespace Detox
open Spec

/-- detox is asked to rename files, config files and tables are fit for it, and the calls are those of an execution, as far as it has come. -/
structure Process.Going (p : Process) : Prop where
  benign : p.P.Benign
  asked : Renames p.I p.settings p.args
  written : Written p.I p.settings p.files p.plain p.sequence
  anyName : p.plain = false
  nul : ∀ f ∈ p.args, NulFree f
  slash : ∀ n w, NulFree n → (0x2F : Byte) ∉ n → p.renamer.R n w → (0x2F : Byte) ∉ w
  execution : ∃ out, Trace (detoxMain p.P p.I p.fuel) p.calls out
  faithful : ∀ e ∈ p.calls, Faithful p.files e

/-- Several processes, each over its own trees. -/
structure SeveralTrees (fs : FS) (depth : Ino → Nat) (slack level : Nat) (ps : List Process) : Prop where
  going : ∀ p ∈ ps, p.Going
  tree : fs.Tree depth slack
  steady : ∀ p ∈ ps, ∀ f ∈ p.args, fs.Steady depth slack level f
  apart : ps.Pairwise fun a b => TreesApart fs a.renamer b.renamer

theorem Process.Going.safe {p : Process} (h : p.Going) {B : Ground} (hB : Fits B p.renamer) : SafeFrom B p.renamer (World.start B.fs) p.calls := by
  obtain ⟨out, hx⟩ := h.execution
  have fitsName : ∀ s, NulFree s → NameFits p.plain s := fun s hs => ⟨hs, fun hp => by rw [h.anyName] at hp; cases hp⟩
  rcases main_begins h.asked h.written hx h.faithful with ⟨_, r1, r2, o1, o2, h1, h2, h3⟩ | ⟨reads, t, o, l, ign, h1, hh, _, hb, hl, _, ht⟩
  · have : p.calls = (r1 ++ r2) ++ [] := by rw [List.append_nil]; exact h1
    rw [this]
    refine safe_harmless (fun e he => ?_) trivial
    rcases List.mem_append.1 he with he | he
    · exact (configFileLoad_harmless _ _).trace h2 e he
    · exact (reviewSequence_harmless _ _ _).trace h3 e he
  · rw [h1]
    refine safe_harmless hh ?_
    have hmk : ∀ n, NulFree n → ∀ w, Makes p.P o n w ↔ p.renamer.R n w := fun n hn w => hb.makes h.benign h.written (fitsName n hn) w
    have works : Works p.renamer p.P o := by
      refine ⟨fun f hf dir n w hs hm => (hmk n ?_ w).1 hm, fun n w h0 hs hm => h.slash n w h0 hs ((hmk n h0 w).1 hm), fun w hm => sequence_nil hm⟩
      intro h0
      exact h.nul f hf (by rw [hs.1]; exact List.mem_append_right _ h0)
    have stays := stays_fileLoop hB works p.fuel (l.count + 1) l ign 0 (World.start B.fs) hl (view_start hB)
    exact StaysIn.safe ht (post := fun _ _ => True) (StaysIn.bind (stays.mono fun _ _ _ => trivial))

theorem SeveralTrees.tenants {fs : FS} {depth : Ino → Nat} {slack level : Nat} {ps : List Process} (h : SeveralTrees fs depth slack level ps) :
    Tenants Process.renamer Process.calls fs depth slack level ps :=
  ⟨h.tree, h.steady, fun p hp => (h.going p hp).nul, fun p hp _ hB => (h.going p hp).safe hB, h.apart⟩

section
variable {fs : FS} {depth : Ino → Nat} {slack level : Nat} {ps : List Process}

/-- **C116.** However the calls of several detox processes interleave, each over its own trees, and whatever they have been able to do so far: every process
has got the answers it would have got if it were alone. Every entry is where it was, only its name may be another; what is in the directories of a process, and
its arguments, have the names that process would have given them alone; all other entries have the names they had. -/
theorem C116_each_as_if_alone (h : SeveralTrees fs depth slack level ps) {ws : List World} (ht : Together (ps.map fun p => (World.start fs, p.calls)) ws) :
    ∃ g, (∀ w ∈ ws, w.fs = g) ∧ g.entries.length = fs.entries.length ∧
      (∀ (k : Nat) (e : Entry), fs.entries[k]? = some e → ∃ n, g.entries[k]? = some { e with name := n }) ∧
      (∀ p ∈ ps, ∃ V, World.Steps (World.start fs) p.calls V ∧ ∀ (k : Nat) (e : Entry), fs.entries[k]? = some e → p.renamer.Has fs e → g.entries[k]? = V.fs.entries[k]?) ∧
      ∀ (k : Nat) (e : Entry), fs.entries[k]? = some e → (∀ p ∈ ps, ¬ p.renamer.Has fs e) → g.entries[k]? = some e :=
  tenants_alone h.tenants ht

/-- **C116.** At any time, everything has as many names as it had before. -/
theorem C116_nothing_is_lost (h : SeveralTrees fs depth slack level ps) {ws : List World} (ht : Together (ps.map fun p => (World.start fs, p.calls)) ws) :
    ∀ w ∈ ws, ∀ j, w.fs.names j = fs.names j :=
  tenants_names h.tenants ht

/-- **C116.** So if each process alone would leave its trees with clean names, all of them together do: every entry that one of them is to treat has the name
that one should give it, and all others have the names they had. (`Q p` says what names `p` should give, `o p` and `ignored p` what it looks at: see C98.) -/
theorem C116_all_trees_cleaned (h : SeveralTrees fs depth slack level ps) {ws : List World} (ht : Together (ps.map fun p => (World.start fs, p.calls)) ws)
    (Q : Process → Bytes → Bytes → Prop) (o : Process → Options) (ignored : Process → List Bytes)
    (hc : ∀ p ∈ ps, ∀ V, World.Steps (World.start fs) p.calls V → fs.Cleaned (Q p) (o p) p.args (ignored p) V.fs) :
    ∃ g, (∀ w ∈ ws, w.fs = g) ∧ ∃ new : Entry → Bytes, g.entries = fs.entries.map (fun e => { e with name := new e }) ∧ ∀ e ∈ fs.entries,
      (∀ p ∈ ps, fs.Treats (o p) p.args (fun n => Hidden n ∨ n ∈ ignored p) e → Q p e.name (new e)) ∧
      ((∀ p ∈ ps, ¬ fs.Treats (o p) p.args Hidden e) → new e = e.name) ∧
      (new e = e.name ∨ ∃ p ∈ ps, p.renamer.Has fs e ∧ Q p e.name (new e)) :=
  tenants_cleaned h.tenants ht Q o ignored hc

end

/-! ### Nothing configured, nothing fails -/

/-- A call of detox with nothing configured, and the calls it makes. -/
structure PlainRun where
  P : Platform
  I : Invocation
  fuel : Nat
  settings : List Setting
  args : List Bytes
  calls : List Event

/-- The arguments, and the names they should have. -/
def PlainRun.renamer (E : TableEnv) (p : PlainRun) : Renamer := ⟨fun m v => runBuiltin p.P E (requested p.I p.settings) m = .ok (some v), p.args⟩

/-- The calls are those of the whole of an execution: with nothing configured, one of the usual sequences, not a dry run, and without an error message. -/
structure PlainRun.Silently (E : TableEnv) (fs : FS) (p : PlainRun) : Prop where
  benign : p.P.Benign
  line : CommandLine p.I.posixlyCorrect p.I.args p.settings p.args
  execution : Trace (detoxMain p.P p.I p.fuel) p.calls (.ret ())
  unset : Unconfigured p.I p.settings p.calls
  usual : requested p.I p.settings = none ∨ ∃ n ∈ [lit "default", lit "utf_8", lit "lower", lit "lower-only"], requested p.I p.settings = some n
  wet : Setting.dryRun ∉ p.settings
  files : Setting.inline ∉ p.settings
  called : ¬ CalledInline p.I.program
  silent : Silent p.calls
  nul : ∀ f ∈ p.args, NulFree f
  allowed : ∀ q r, Event.lstat q r ∈ p.calls → fs.denied q = false
  exist : ∀ f ∈ p.args, fs.lookup f ≠ none
  literal : fs.LiteralRun (p.renamer E).R p.args p.calls

theorem PlainRun.Silently.safe {E : TableEnv} {fs : FS} {p : PlainRun} (h : p.Silently E fs) {B : Ground} (hB : Fits B (p.renamer E)) :
    SafeFrom B (p.renamer E) (World.start B.fs) p.calls := by
  have hne : requested p.I p.settings ≠ some (lit "utf_8-only") ∧ requested p.I p.settings ≠ some (lit "uncgi-only") := by
    rcases h.usual with hn | ⟨n, hm, hn⟩
    · rw [hn]; exact ⟨by simp, by simp⟩
    · rw [hn]
      simp only [List.mem_cons, List.not_mem_nil, or_false] at hm
      rcases hm with rfl | rfl | rfl | rfl <;> exact ⟨by decide, by decide⟩
  rcases main_cases h.line h.execution with ⟨_, h'⟩ | ⟨reads, t, o, ignored, l, ign, htr, hrd, hl, hig, hk⟩
  · exact absurd rfl (h' ())
  rcases hk with ⟨hin, _⟩ | ⟨_, _, hrun⟩
  · rcases hrd.asked.2.2.2.2.2.1.1 hin with h' | h'
    · exact absurd h' h.called
    · exact absurd h' h.files
  have hun := h.unset
  rw [htr] at hun ⊢
  refine safe_harmless hrd.quiet ?_
  obtain ⟨c, q, q', r1, r2, rfl, g1, g2, g3, g4, g5⟩ := hrd.stages
  have hr1 : ∀ e ∈ r1, e ∈ r1 ++ r2 ++ t := fun e he => by simp [he]
  have hm : Makes p.P o = (p.renamer E).R := by
    funext m v
    show (sequenceRunFilters p.P o.sequenceToUse _ = _) = (runBuiltin p.P E (requested p.I p.settings) m = _)
    rw [unconfigured_run (P := p.P) hun hr1 g1 g2 g3 E m, ← g4]
  have works : Works (p.renamer E) p.P o := by
    refine ⟨fun f hf dir n w hs hmk => by rw [← hm]; exact hmk, fun n w h0 hs hmk => ?_, fun w hmk => sequence_nil hmk⟩
    exact unconfigured_noNewSlash h.benign hun hr1 g1 g2 g3 g4 hne n w h0 hs hmk
  have stays := stays_fileLoop hB works p.fuel (l.count + 1) l ign 0 (World.start B.fs) hl (view_start hB)
  exact StaysIn.safe hrun (post := fun _ _ => True) (StaysIn.bind (stays.mono fun _ _ _ => trivial))

/-- **C116.** Several detox processes at the same time, each over its own trees, with nothing configured, one of the usual sequences and no error message:
afterwards every entry one of them was to treat has the name the filters of that process give it; an entry none of them was to treat has the name it had;
and every entry is still where it was. -/
theorem C116_silent_processes (E : TableEnv) {fs : FS} {depth : Ino → Nat} {slack level : Nat} {ps : List PlainRun} (ht : fs.Tree depth slack)
    (hp : ∀ p ∈ ps, p.Silently E fs) (hst : ∀ p ∈ ps, ∀ f ∈ p.args, fs.Steady depth slack level f)
    (hap : ps.Pairwise fun a b => TreesApart fs (a.renamer E) (b.renamer E))
    {ws : List World} (hw : Together (ps.map fun p => (World.start fs, p.calls)) ws)
    (o : PlainRun → Options) (hr : ∀ p ∈ ps, (o p).recurse = true ↔ Setting.recurse ∈ p.settings)
    (hsp : ∀ p ∈ ps, (o p).special = true ↔ Setting.special ∈ p.settings) :
    ∃ g, (∀ w ∈ ws, w.fs = g) ∧ ∃ new : Entry → Bytes, g.entries = fs.entries.map (fun e => { e with name := new e }) ∧ ∀ e ∈ fs.entries,
      (∀ p ∈ ps, fs.Treats (o p) p.args (fun n => Hidden n ∨ n ∈ [lit "{arch}"]) e → runBuiltin p.P E (requested p.I p.settings) e.name = .ok (some (new e))) ∧
      ((∀ p ∈ ps, ¬ fs.Treats (o p) p.args Hidden e) → new e = e.name) := by
  have hten : Tenants (PlainRun.renamer E) PlainRun.calls fs depth slack level ps :=
    ⟨ht, hst, fun p hp' => (hp p hp').nul, fun p hp' _ hB => (hp p hp').safe hB, hap⟩
  obtain ⟨g, h1, new, h2, h3⟩ := tenants_cleaned hten hw (fun p => (p.renamer E).R) o (fun _ => [lit "{arch}"]) (by
    intro p hp' V hV
    have h := hp p hp'
    exact C98_tree_after_main h.benign h.line h.execution h.unset h.usual h.wet h.files h.called h.silent h.nul ht (hst p hp') hV h.allowed h.exist E
      h.literal (o p) (hr p hp') (hsp p hp'))
  exact ⟨g, h1, new, h2, fun e he => ⟨(h3 e he).1, (h3 e he).2.1⟩⟩

/-- **C116.** A detox process with `-n`, in inline mode, or one that only lists or explains, disturbs nobody, whatever it looks at: what the others do, and
what they leave, is possible without it. -/
theorem C116_bystander {P : Platform} {I : Invocation} {fuel : Nat} {ss : List Setting} {args : List Bytes} (hc : CommandLine I.posixlyCorrect I.args ss args)
    {t : List Event} {out : Outcome Unit} (h : Trace (detoxMain P I fuel) t out)
    (hm : (∃ s ∈ ss, s.Leaves) ∨ Setting.list ∈ ss ∨ Setting.dryRun ∈ ss ∨ Setting.inline ∈ ss ∨ CalledInline I.program)
    {fs : FS} {l r : List (List Event)} {ws : List World} (ht : Together ((l ++ t :: r).map fun t => (World.start fs, t)) ws) :
    ∃ wl v wr, ws = wl ++ v :: wr ∧ wl.length = l.length ∧ Together ((l ++ r).map fun t => (World.start fs, t)) (wl ++ wr) := by
  obtain ⟨wl, v, wr, h1, h2, h3⟩ := together_without ht (l.map fun t => (World.start fs, t)) (r.map fun t => (World.start fs, t)) (World.start fs) t fs (by simp) (by
    intro x hx
    obtain ⟨t, _, rfl⟩ := List.mem_map.1 hx
    exact ⟨rfl, fun k s hk => by cases hk⟩) fun old new => C65_modes_that_rename_nothing hc h hm old new true
  exact ⟨wl, v, wr, h1, by rw [h2, List.length_map], by rw [List.map_append]; exact h3⟩

/-! ### A concrete case -/

/-- Two directories with a file in each. -/
def groveFS : FS where
  entries := [⟨⟨1, 1⟩, lit "a b", ⟨1, 2⟩⟩, ⟨⟨1, 1⟩, lit "c d", ⟨1, 3⟩⟩, ⟨⟨1, 2⟩, lit "e f", ⟨1, 4⟩⟩, ⟨⟨1, 3⟩, lit "g h", ⟨1, 5⟩⟩, ⟨⟨1, 1⟩, lit "i j", ⟨1, 6⟩⟩]
  root := ⟨1, 1⟩
  cwd := ⟨1, 1⟩
  kind := fun i => if i = ⟨1, 1⟩ ∨ i = ⟨1, 2⟩ ∨ i = ⟨1, 3⟩ then .dir else .reg
  target := fun _ => []
  dirLinks := fun _ => 2
  parent := fun _ => ⟨1, 1⟩
  norm := fun _ n => n
  denied := fun _ => false

def groveDepth (i : Ino) : Nat := if i = ⟨1, 2⟩ ∨ i = ⟨1, 3⟩ then 1 else 0

/-- `detox -r` over a directory with one file, nothing configured. -/
def groveRun (top top' file file' : Bytes) (d i : Nat) : PlainRun where
  P := .linux
  I := { program := lit "detox", args := [lit "-r", top] }
  fuel := 10
  settings := [.recurse]
  args := [top]
  calls := nothingInstalled ++ [
    .lstat top (some ⟨1, d, 2, .dir⟩), .lstat top (some ⟨1, d, 2, .dir⟩), .lstat top' none,
    .rename top top' true, .lstat top' (some ⟨1, d, 2, .dir⟩), .opendir top' (.ok 0), .readdir 0 (some file),
    .lstat (top' ++ [0x2F] ++ file) (some ⟨1, i, 1, .reg⟩), .lstat (top' ++ [0x2F] ++ file) (some ⟨1, i, 1, .reg⟩), .lstat (top' ++ [0x2F] ++ file') none,
    .rename (top' ++ [0x2F] ++ file) (top' ++ [0x2F] ++ file') true, .readdir 0 none, .closedir 0]

def groveFirst : PlainRun := groveRun (lit "a b") (lit "a_b") (lit "e f") (lit "e_f") 2 4
def groveSecond : PlainRun := groveRun (lit "c d") (lit "c_d") (lit "g h") (lit "g_h") 3 5

theorem groveFS_tree : groveFS.Tree groveDepth 1 where
  unique := by unfold FS.Unique; decide +kernel
  level := by decide +kernel
  once := by decide +kernel
  bound := by
    intro d
    unfold groveDepth walkLimit
    split <;> decide

theorem groveFS_steady : ∀ p ∈ [groveFirst, groveSecond], ∀ f ∈ p.args, groveFS.Steady groveDepth 1 0 f := by
  intro p hp f hf
  have : f = lit "a b" ∨ f = lit "c d" := by
    rcases List.mem_cons.1 hp with rfl | hp
    · exact .inl (List.mem_singleton.1 hf)
    · rcases List.mem_singleton.1 hp with rfl
      exact .inr (List.mem_singleton.1 hf)
  rcases this with rfl | rfl <;>
  exact .name [] _ ⟨1, 1⟩ rfl (.inl rfl) (by decide +kernel) (by decide +kernel) (by decide +kernel) (by decide +kernel)
    ⟨by decide +kernel, by decide +kernel, by decide +kernel, Nat.zero_le _⟩

theorem groveFirst_run : Trace (detoxMain .linux groveFirst.I 10) groveFirst.calls (.ret ()) := Prog.result_sound _ _ _ (by decide +kernel)
theorem groveSecond_run : Trace (detoxMain .linux groveSecond.I 10) groveSecond.calls (.ret ()) := Prog.result_sound _ _ _ (by decide +kernel)

def groveEnv : TableEnv := ⟨fun _ => none, none⟩

theorem groveRun_silently {top top' file file' : Bytes} {d i : Nat} (ht : Trace (detoxMain .linux (groveRun top top' file file' d i).I 10) (groveRun top top' file file' d i).calls (.ret ()))
    (hc : IsOperand top) (hn : NulFree top) (hl : groveFS.lookup top ≠ none) : (groveRun top top' file file' d i).Silently groveEnv groveFS where
  benign := (by decide : Platform.linux.Benign)
  line := .cluster [0x72] [.recurse] _ _ [] (by simp) (.cons _ _ _ _ .recurse .nil) (.operand _ _ _ _ rfl hc .none)
  execution := ht
  unset := by
    refine ⟨rfl, ?_⟩
    intro p _ text hm
    simp [groveRun, nothingInstalled] at hm
  usual := .inl rfl
  wet := by simp [groveRun]
  files := by simp [groveRun]
  called := fun h => by rw [← posixBasename_inline] at h; exact absurd h (by decide +kernel : ¬ posixBasename (lit "detox") = lit "inline-detox")
  silent := by
    intro s hm
    simp [groveRun, nothingInstalled] at hm
  nul := fun f hf => by rw [List.mem_singleton.1 hf]; exact hn
  allowed := fun _ _ _ => rfl
  exist := fun f hf => by rw [List.mem_singleton.1 hf]; exact hl
  literal := ⟨fun _ _ _ _ _ => literal_exact (fs := groveFS) (fun _ _ _ h => h) _ _, fun _ _ _ => literal_exact (fs := groveFS) (fun _ _ _ h => h) _ _⟩

theorem grove_inside {top : Bytes} {x : Nat} (hl : groveFS.lookup top = some ⟨1, x⟩) (hx : x ≠ 1) : ∀ d, groveFS.Inside [top] d → d = ⟨1, x⟩ := by
  intro d h
  induction h with
  | arg f d hf hl' _ =>
    rw [List.mem_singleton.1 hf, hl] at hl'
    exact (Option.some.inj hl').symm
  | sub e he _ hk ih =>
    exfalso
    have h1 : e.dir ≠ ⟨1, 1⟩ := by rw [ih]; intro h; exact hx (by injection h)
    exact h1 ((by decide +kernel : ∀ e ∈ groveFS.entries, groveFS.kind e.ino = .dir → e.dir = ⟨1, 1⟩) e he hk)

theorem grove_concerns {top top' : Bytes} (hs : (0x2F : Byte) ∉ top) (hr : runBuiltin .linux groveEnv none top = .ok (some top')) {p : Bytes}
    (h : Concerns (fun m v => runBuiltin .linux groveEnv none m = .ok (some v)) top p) : p = top ∨ p = top' := by
  rcases h with h | ⟨dir, n, w, h1, h2, rfl⟩
  · exact .inl h
  · right
    have e1 := splitsAs_unique h1
    have e2 := splitsAs_unique (p := top) (d := []) (n := top) ⟨rfl, hs, .inl rfl⟩
    have ed : dir = [] := e1.1.trans e2.1.symm
    have en : n = top := e1.2.trans e2.2.symm
    subst ed en
    rw [hr] at h2
    cases h2
    rfl

theorem grove_apart : TreesApart groveFS (groveFirst.renamer groveEnv) (groveSecond.renamer groveEnv) := by
  have in1 := grove_inside (top := lit "a b") (x := 2) (by decide +kernel) (by decide)
  have in2 := grove_inside (top := lit "c d") (x := 3) (by decide +kernel) (by decide)
  have c1 : ∀ f ∈ [lit "a b"], ∀ p, Concerns (fun m v => runBuiltin .linux groveEnv none m = .ok (some v)) f p → p = lit "a b" ∨ p = lit "a_b" := by
    intro f hf p h
    rw [List.mem_singleton.1 hf] at h
    exact grove_concerns (by decide +kernel) (by decide +kernel) h
  have c2 : ∀ f ∈ [lit "c d"], ∀ p, Concerns (fun m v => runBuiltin .linux groveEnv none m = .ok (some v)) f p → p = lit "c d" ∨ p = lit "c_d" := by
    intro f hf p h
    rw [List.mem_singleton.1 hf] at h
    exact grove_concerns (by decide +kernel) (by decide +kernel) h
  refine ⟨?_, ?_, ?_, ?_⟩
  · intro f hf g hg p q x hp hq hx hy
    rcases c1 f hf p hp with rfl | rfl <;> rcases c2 g hg q hq with rfl | rfl <;> rw [← hx] at hy <;> revert hy <;> decide +kernel
  · intro d h1 h2
    have := (in1 d h1).symm.trans (in2 d h2)
    revert this
    decide
  · intro f hf p x hp hx hi
    have := in2 _ hi
    have h1 : x.1 = ⟨1, 1⟩ := by
      rcases c1 f hf p hp with rfl | rfl <;> cases hx <;> decide +kernel
    rw [h1] at this
    revert this
    decide
  · intro f hf p x hp hx hi
    have := in1 _ hi
    have h1 : x.1 = ⟨1, 1⟩ := by
      rcases c2 f hf p hp with rfl | rfl <;> cases hx <;> decide +kernel
    rw [h1] at this
    revert this
    decide

/-- Two processes whose turns are given. -/
def turns : List Bool → World → List Event → World → List Event → Option (World × World)
  | [], v, [], w, [] => some (v, w)
  | true :: s, v, e :: t, w, u => (v.exec [e]).bind fun v' => turns s v' t (w.sees v'.fs) u
  | false :: s, v, t, w, e :: u => (w.exec [e]).bind fun w' => turns s (v.sees w'.fs) t w' u
  | _, _, _, _, _ => none

theorem exec_one {w w' : World} {e : Event} (h : w.exec [e] = some w') : World.Step w e w' := by
  cases World_exec_sound _ h with
  | cons _ _ _ _ _ h1 h2 => cases h2; exact h1

theorem turns_together : ∀ (s : List Bool) (v : World) (t : List Event) (w : World) (u : List Event) (r : World × World), turns s v t w u = some r →
    Together [(v, t), (w, u)] [r.1, r.2] := by
  intro s
  induction s with
  | nil =>
    intro v t w u r h
    cases t with
    | cons _ _ => simp [turns] at h
    | nil =>
      cases u with
      | cons _ _ => simp [turns] at h
      | nil =>
        simp only [turns, Option.some.injEq] at h
        subst h
        exact .done [(v, []), (w, [])] (by simp)
  | cons b s ih =>
    intro v t w u r h
    cases b with
    | true =>
      cases t with
      | nil => simp [turns] at h
      | cons e t =>
        simp only [turns, Option.bind_eq_some_iff] at h
        obtain ⟨v', h1, h2⟩ := h
        exact .next [] [(w, u)] v v' e t _ (exec_one h1) (ih _ _ _ _ _ h2)
    | false =>
      cases u with
      | nil => simp [turns] at h
      | cons e u =>
        simp only [turns, Option.bind_eq_some_iff] at h
        obtain ⟨w', h1, h2⟩ := h
        exact .next [(v, t)] [] w w' e u _ (exec_one h1) (ih _ _ _ _ _ h2)

/-- They take turns, the second begins. -/
def groveTurns : List Bool := (List.replicate groveFirst.calls.length [false, true]).flatten

/- The two processes meet what C116 asks for, can work at the same time, and leave all names of both trees clean. -/
example : (∀ p ∈ [groveFirst, groveSecond], p.Silently groveEnv groveFS) ∧
    [groveFirst, groveSecond].Pairwise (fun a b => TreesApart groveFS (a.renamer groveEnv) (b.renamer groveEnv)) ∧
    ∃ ws, Together ([groveFirst, groveSecond].map fun p => (World.start groveFS, p.calls)) ws ∧
      ∀ w ∈ ws, w.fs.entries.map Entry.name = [lit "a_b", lit "c_d", lit "e_f", lit "g_h", lit "i j"] := by
  refine ⟨?_, List.pairwise_pair.2 grove_apart, ?_⟩
  · intro p hp
    rcases List.mem_cons.1 hp with rfl | hp
    · exact groveRun_silently groveFirst_run (.inl (by decide +kernel)) (by decide +kernel) (by decide +kernel)
    · rw [List.mem_singleton.1 hp]
      exact groveRun_silently groveSecond_run (.inl (by decide +kernel)) (by decide +kernel) (by decide +kernel)
  · have h : (turns groveTurns (World.start groveFS) groveFirst.calls (World.start groveFS) groveSecond.calls).map
        (fun r => (r.1.fs.entries.map Entry.name, r.2.fs.entries.map Entry.name)) =
        some ([lit "a_b", lit "c_d", lit "e_f", lit "g_h", lit "i j"], [lit "a_b", lit "c_d", lit "e_f", lit "g_h", lit "i j"]) := by decide +kernel
    cases hx : turns groveTurns (World.start groveFS) groveFirst.calls (World.start groveFS) groveSecond.calls with
    | none => rw [hx] at h; cases h
    | some r =>
      rw [hx] at h
      obtain ⟨h1, h2⟩ := Prod.mk.inj (Option.some.inj h)
      refine ⟨_, turns_together _ _ _ _ _ _ hx, fun w hw => ?_⟩
      rcases List.mem_cons.1 hw with rfl | hw
      · exact h1
      · rw [List.mem_singleton.1 hw]; exact h2

/-- The same as processes whose filters are given. -/
def groveProcess (top top' file file' : Bytes) (d i : Nat) : Process where
  P := .linux
  I := (groveRun top top' file file' d i).I
  fuel := 10
  settings := [.recurse]
  args := [top]
  files := fun _ => none
  plain := false
  sequence := generateSequence (lit "default") safeWipeup
  calls := (groveRun top top' file file' d i).calls

theorem groveProcess_going {top top' file file' : Bytes} {d i : Nat} (ht : Trace (detoxMain .linux (groveRun top top' file file' d i).I 10) (groveRun top top' file file' d i).calls (.ret ()))
    (hc : IsOperand top) (hn : NulFree top) : (groveProcess top top' file file' d i).Going ∧
      ∀ n w, NulFree n → (groveProcess top top' file file' d i).renamer.R n w → runBuiltin .linux groveEnv none n = .ok (some w) := by
  have hB : Platform.linux.Benign := by decide
  have hr : Renames (groveRun top top' file file' d i).I [.recurse] [top] := by
    refine ⟨.cluster [0x72] [.recurse] _ _ [] (by simp) (.cons _ _ _ _ .recurse .nil) (.operand _ _ _ _ rfl hc .none), ?_, by simp, ?_, by simp⟩
    · intro s hs
      rw [List.mem_singleton.1 hs]
      simp [Setting.Leaves]
    · rintro (h | h)
      · have h : CalledInline (lit "detox") := h
        rw [← posixBasename_inline] at h
        exact absurd h (by decide +kernel)
      · simp at h
  have hw : Written (groveRun top top' file file' d i).I [.recurse] (fun _ => none) false (generateSequence (lit "default") safeWipeup) := by
    refine C97_builtin_written rfl (show configsInEffect (plainCall []).config none (fun _ => none) = [] by decide +kernel) (.inl ⟨[], _, rfl, rfl, nofun⟩) (.inr ?_)
    show ∀ g ∈ (generateSequence (lit "default") safeWipeup).filters, g.cleaner ≠ .utf8
    decide +kernel
  have hf : ∀ e ∈ (groveRun top top' file file' d i).calls, Faithful (fun _ => none) e := by
    intro e he p r hpr
    subst hpr
    simp [groveRun, nothingInstalled] at he
    exact he.elim (fun h => h.2) fun h => h.2
  have key : ∀ n w, NulFree n → (groveProcess top top' file file' d i).renamer.R n w →
      runBuiltin .linux groveEnv none n = .ok (some w) ∧ ((0x2F : Byte) ∉ n → (0x2F : Byte) ∉ w) := by
    intro n w h0 h
    rcases main_begins hr hw ht hf with ⟨h1, _⟩ | ⟨reads, t, o, l, ign, h1, hh, _, hb, _⟩
    · cases h1
    · have hmk := (hb.makes hB hw ⟨h0, nofun⟩ w).2 h
      obtain ⟨c, q', r1, r2, h1, hf1, h2, h3, h4⟩ := hb.stages
      have hun := unconfigured_none (I := (groveRun top top' file file' d i).I) (ss := [.recurse]) rfl hf1
      refine ⟨?_, fun hs => unconfigured_noNewSlash hB hun (fun _ h => h) h1 h2 h3 h4 ⟨nofun, nofun⟩ n w h0 hs hmk⟩
      have e := unconfigured_run (P := .linux) hun (fun _ h => h) h1 h2 h3 groveEnv n
      rw [← h4] at e
      exact e.trans hmk
  refine ⟨⟨hB, hr, hw, rfl, fun f hf => ?_, fun n w h0 hs h => (key n w h0 h).2 hs, ⟨_, ht⟩, hf⟩, fun n w h0 h => (key n w h0 h).1⟩
  rw [List.mem_singleton.1 hf]
  exact hn

/- They meet what the first theorems ask for. -/
example : SeveralTrees groveFS groveDepth 1 0 [groveProcess (lit "a b") (lit "a_b") (lit "e f") (lit "e_f") 2 4, groveProcess (lit "c d") (lit "c_d") (lit "g h") (lit "g_h") 3 5] := by
  obtain ⟨g1, k1⟩ := groveProcess_going groveFirst_run (.inl (by decide +kernel)) (by decide +kernel)
  obtain ⟨g2, k2⟩ := groveProcess_going groveSecond_run (.inl (by decide +kernel)) (by decide +kernel)
  have conc : ∀ {top p : Bytes} {R : Bytes → Bytes → Prop}, (∀ n w, NulFree n → R n w → runBuiltin .linux groveEnv none n = .ok (some w)) → NulFree top →
      Concerns R top p → Concerns (fun m v => runBuiltin .linux groveEnv none m = .ok (some v)) top p := by
    rintro top p R hk h0 (h | ⟨dir, n, w, h1, h2, h3⟩)
    · exact .inl h
    · exact .inr ⟨dir, n, w, h1, hk n w (fun h => h0 (by rw [h1.1]; exact List.mem_append_right _ h)) h2, h3⟩
  have c1 : ∀ f ∈ [lit "a b"], ∀ p, Concerns (groveProcess (lit "a b") (lit "a_b") (lit "e f") (lit "e_f") 2 4).renamer.R f p →
      Concerns (groveFirst.renamer groveEnv).R f p := by
    intro f hf p h
    exact conc k1 (by rw [List.mem_singleton.1 hf]; decide +kernel) h
  have c2 : ∀ f ∈ [lit "c d"], ∀ p, Concerns (groveProcess (lit "c d") (lit "c_d") (lit "g h") (lit "g_h") 3 5).renamer.R f p →
      Concerns (groveSecond.renamer groveEnv).R f p := by
    intro f hf p h
    exact conc k2 (by rw [List.mem_singleton.1 hf]; decide +kernel) h
  refine ⟨?_, groveFS_tree, ?_, List.pairwise_pair.2 ⟨fun f hf g hg p q x hp hq => grove_apart.files f hf g hg p q x (c1 f hf p hp) (c2 g hg q hq), grove_apart.inside,
    fun f hf p x hp => grove_apart.left f hf p x (c1 f hf p hp), fun f hf p x hp => grove_apart.right f hf p x (c2 f hf p hp)⟩⟩
  · intro p hp
    rcases List.mem_cons.1 hp with rfl | hp
    · exact g1
    · rw [List.mem_singleton.1 hp]; exact g2
  · intro p hp
    rcases List.mem_cons.1 hp with rfl | hp
    · exact groveFS_steady groveFirst (by simp)
    · rw [List.mem_singleton.1 hp]; exact groveFS_steady groveSecond (by simp)

/-- `detox -n 'i j'`. -/
def groveWatch : List Event := nothingInstalled ++ [.lstat (lit "i j") (some ⟨1, 6, 1, .reg⟩), .lstat (lit "i j") (some ⟨1, 6, 1, .reg⟩), .lstat (lit "i_j") none, .out (lit "i j -> i_j\n")]

/- It can work while `detox -r 'a b'` does. -/
example : Trace (detoxMain .linux { program := lit "detox", args := [lit "-n", lit "i j"] } 0) groveWatch (.ret ()) ∧
    ∃ ws, Together (([groveFirst.calls] ++ groveWatch :: []).map fun t => (World.start groveFS, t)) ws ∧
      ∀ w ∈ ws, w.fs.entries.map Entry.name = [lit "a_b", lit "c d", lit "e_f", lit "g h", lit "i j"] := by
  refine ⟨Prog.result_sound _ _ _ (by decide +kernel), ?_⟩
  have h : (turns ((List.replicate groveWatch.length [false, true]).flatten ++ List.replicate 9 true) (World.start groveFS) groveFirst.calls (World.start groveFS) groveWatch).map
      (fun r => (r.1.fs.entries.map Entry.name, r.2.fs.entries.map Entry.name)) =
      some ([lit "a_b", lit "c d", lit "e_f", lit "g h", lit "i j"], [lit "a_b", lit "c d", lit "e_f", lit "g h", lit "i j"]) := by decide +kernel
  cases hx : turns ((List.replicate groveWatch.length [false, true]).flatten ++ List.replicate 9 true) (World.start groveFS) groveFirst.calls (World.start groveFS) groveWatch with
  | none => rw [hx] at h; cases h
  | some r =>
    rw [hx] at h
    obtain ⟨h1, h2⟩ := Prod.mk.inj (Option.some.inj h)
    refine ⟨_, turns_together _ _ _ _ _ _ hx, fun w hw => ?_⟩
    rcases List.mem_cons.1 hw with rfl | hw
    · exact h1
    · rw [List.mem_singleton.1 hw]; exact h2

end Detox
