import Verif.Lemmas.SilentScan
import Verif.Props.Brings
import Verif.Props.Complete

/-!
# C90: what a silent run of the program with warnings leaves behind
-/

set_option autoImplicit false

namespace Detox
open Spec

/-- Runs over files and directories, of the program with warnings. -/
structure LoudRun (P : Platform) (o : Options) (args ws : List Bytes) (tr : List Event) (out : Outcome (Option Filelist)) : Prop where
  exists_trace : ∃ fuel n files ign, files.Holds args 0 ∧ FreshIgnore ign ws ∧ Trace (fileLoopLoud P o fuel n files ign) tr out

theorem silently_makes {P : Platform} {o : Options} {m w : Bytes} (h : MakesSilently P o m w) : Makes P o m w := by
  have := sequenceRunFiltersLoud_snd P o.sequenceToUse (some m)
  rw [show sequenceRunFiltersLoud P o.sequenceToUse (some m) = ([], .ok (some w)) from h] at this
  exact this.symm

theorem CompleteRun.keeps_silent {P : Platform} {o : Options} {args ws : List Bytes} {fs : FS} {depth : Ino → Nat} {slack level : Nat}
    {tr : List Event} {w : World} {a : Option Filelist} (hc : CompleteRun P o args fs depth slack level tr w)
    (h : LoudRun P o args ws tr (.ret a)) (hs : Silent tr) :
    Keeps (MakesSilently P o) o ws tr depth slack level (fun _ => False) (World.start fs) w ∧
      ∀ f i, args.head? = some f → fs.lookup f = some i → fs.kind i = .dir → ∃ p, (i, p) ∈ w.opened := by
  obtain ⟨fuel, n, files, ign, h1, h2, h3⟩ := h
  have hi : IgnOk ws ign [] := by
    cases ign with
    | none => exact h2
    | some l => exact h2
  obtain ⟨seen, h4⟩ := fileLoopLoud_scan n 0 files ign a tr [] h1 h3 hs hi
  rw [List.drop_zero] at h4
  obtain ⟨k, _, h5⟩ := args_goal ⟨hc.wet, fun m w a b c => hc.slash m w a b (silently_makes c), fun _ h => sequence_nil (silently_makes h), hc.allowed⟩ h4
    (fun _ h => h) rfl hc.tree hc.steady hc.nul hc.steps
  refine ⟨k, fun f i ha hb hd => ?_⟩
  obtain ⟨p, h6 | h6⟩ := h5 f i ha hb hd
  · exact ⟨p, h6⟩
  · rcases k.unread _ h6 with h7 | h7
    · cases h7
    · exact absurd h7 (hs _)

/-- **C90.** If nothing at all was written to standard error by `detox -r`, every name in the tree below a directory opened is one that is to be left
alone, or is made by the sequence from some name about which no filter had anything to say. A directory that is the first argument was
opened. -/
theorem C90_silent_tree {P : Platform} {o : Options} {args ws : List Bytes} {fs : FS} {depth : Ino → Nat} {slack level : Nat}
    {tr : List Event} {w : World} {a : Option Filelist} (hc : CompleteRun P o args fs depth slack level tr w)
    (h : LoudRun P o args ws tr (.ret a)) (hr : o.recurse = true) (hs : Silent tr) :
    (∀ d p, (d, p) ∈ w.opened → ∀ e ∈ w.fs.entries, ScanBelow ws w d e.dir → LeftAlone o ws w e ∨ CleanedBy (MakesSilently P o) e.name) ∧
    ∀ f d, args.head? = some f → fs.lookup f = some d → fs.kind d = .dir → ∃ p, (d, p) ∈ w.opened := by
  obtain ⟨k, hfirst⟩ := hc.keeps_silent h hs
  have scan : ∀ d p, (d, p) ∈ w.opened → ∀ e ∈ w.fs.entries, e.dir = d →
      LeftAlone o ws w e ∨ (CleanedBy (MakesSilently P o) e.name ∧ (w.fs.kind e.ino = .dir → ∃ p', (e.ino, p') ∈ w.opened)) := by
    intro d p hd e he hed
    have := k.fresh (d, p) hd
    rcases this with hx | hx
    · cases hx
    rcases hx e he hed with hl | hh
    · exact .inl hl
    · refine .inr ⟨?_, fun hk => ?_⟩
      · rcases hh.1 with h1 | ⟨_, _, _, h1⟩
        · exact h1
        · exact absurd h1 (hs _)
      · obtain ⟨p', h1 | h1⟩ := hh.2 hr hk
        · exact ⟨p', h1⟩
        · rcases k.unread _ h1 with h2 | h2
          · cases h2
          · exact absurd h2 (hs _)
  refine ⟨fun d p hd e he hb => ?_, hfirst⟩
  have key : ∀ x, ScanBelow ws w d x → ∃ p', (x, p') ∈ w.opened := by
    intro x hx
    induction hx with
    | top => exact ⟨p, hd⟩
    | sub e' he' _ hk h1 h2 ih =>
      obtain ⟨p', hp'⟩ := ih
      rcases scan _ p' hp' e' he' rfl with hl | ⟨_, hl⟩
      · rcases hl with hl | hl | ⟨hl, _⟩
        · exact absurd hl h1
        · exact absurd hl h2
        · exact absurd hk hl
      · exact hl hk
  obtain ⟨p', hp'⟩ := key _ hb
  exact (scan _ p' hp' e he rfl).imp id And.left

/-- **C90.** With a sequence that ends with `max_length`, all these names are within the limit. -/
theorem C90_silent_limit {P : Platform} {o : Options} {args ws : List Bytes} {fs : FS} {depth : Ino → Nat} {slack level : Nat}
    {tr : List Event} {w : World} {a : Option Filelist} (hc : CompleteRun P o args fs depth slack level tr w)
    (h : LoudRun P o args ws tr (.ret a)) (hr : o.recurse = true) (hs : Silent tr) {q : Sequence} {fl : List Filter} {f : Filter}
    (hq : o.sequenceToUse = some q) (hf : q.filters = fl ++ [f]) (hm : f.cleaner = .maxLength) (d : Ino) (p : Bytes) (hd : (d, p) ∈ w.opened)
    (e : Entry) (he : e ∈ w.fs.entries) (hb : ScanBelow ws w d e.dir) :
    LeftAlone o ws w e ∨ e.name.length ≤ if f.maxLength = 0 then 256 else f.maxLength := by
  rcases (C90_silent_tree hc h hr hs).1 d p hd e he hb with hx | ⟨m, _, _, _, hx⟩
  · exact .inl hx
  · have hx : sequenceRunFiltersLoud P o.sequenceToUse (some m) = ([], .ok (some e.name)) := hx
    rw [hq] at hx
    exact .inr (C89_silent_limit P q fl f hf hm m e.name hx)

/-! ### The whole program -/

/-- The sequence in use, with its tables, and the names to ignore. -/
def Configured (I : Invocation) (ss : List Setting) (tr : List Event) (q' : Sequence) (ignored : List Bytes) : Prop :=
  ∃ c q r1 r2 rest, tr = r1 ++ r2 ++ rest ∧ Trace (configFileLoad I.config (lastConfig ss)) r1 (.ret c) ∧
    Chosen c.sequences (requested I ss) q ∧ Trace (reviewSequence I.ctype I.datadir q) r2 (.ret q') ∧ FreshIgnore c.filesToIgnore ignored

theorem Configured.inUse {I : Invocation} {ss : List Setting} {tr : List Event} {q : Sequence} {ignored : List Bytes}
    (h : Configured I ss tr q ignored) : InUse I ss tr q := by
  obtain ⟨c, q0, r1, r2, rest, h1, h2, h3, h4, _⟩ := h
  exact ⟨c, q0, r1, r2, rest, h1, h2, h3, h4⟩

theorem sprinkled_silent {tr tr' : List Event} (h : Sprinkled tr tr') (hs : Silent tr') : tr = tr' := by
  induction h with
  | nil => rfl
  | same e tr tr' _ ih => rw [ih fun s hm => hs s (List.mem_cons_of_mem _ hm)]
  | more s tr tr' _ _ _ => exact absurd (List.mem_cons_self ..) (hs s)

/-- A silent run of `main` that is not inline: the configuration is read, and the arguments are worked on. -/
theorem silent_main {there : Bytes → Bool} {P : Platform} {I : Invocation} {fuel : Nat} {ss : List Setting} {ws : List Bytes}
    (hc : CommandLine I.posixlyCorrect I.args ss ws) {tr : List Event} (h : Trace (detoxMainLoud there P I fuel) tr (.ret ()))
    (hs : Silent tr) (hi : Setting.inline ∉ ss) (hb : ¬ CalledInline I.program) :
    ∃ reads t o q ignored a, tr = reads ++ t ∧ (∀ e ∈ reads, Harmless e) ∧ Configured I ss tr q ignored ∧ Asked I.program I.sequence ss o ∧
      o.sequenceToUse = some q ∧ LoudRun P o ws ignored t (.ret a) := by
  unfold detoxMainLoud at h
  obtain ⟨o, t1, t2, rfl, h1, h2⟩ := trace_bind_ret h
  obtain ⟨_, rfl, ha, hrest⟩ := parseOptions_ret hc h1
  rw [List.nil_append] at hs ⊢
  unfold detoxConfiguredLoud at h2
  obtain ⟨c, r1, t3, rfl, h3, h4⟩ := trace_bind_ret h2
  split at h4
  · obtain ⟨t, _, h5⟩ := trace_ofRes_bind h4
    cases h5 with | out _ _ _ _ h5 => cases h5
  · next hl =>
    have hls : Setting.list ∉ ss := fun hm => hl (ha.1.2 hm)
    rcases hrest with hm | ⟨_, l, hf, hh, hne⟩
    · exact absurd hm hls
    cases hq : sequenceChooseDefault c.sequences o.sequenceName with
    | none =>
      rw [hq] at h4
      cases h4 with | err _ _ _ _ h5 => cases h5
    | some q =>
      rw [hq] at h4
      rw [sequenceChooseDefault_iff] at hq
      obtain ⟨q', r2, t4, rfl, h5, h6⟩ := trace_bind_ret h4
      obtain ⟨_, ⟨ignored, il, hil, hih⟩, _⟩ := configFileLoad_good h3
      have hfr : FreshIgnore c.filesToIgnore ignored := by rw [hil]; exact hih
      rw [ha.2.2.2.2.2.2.2.1] at h3
      rw [ha.2.2.2.2.2.2.2.2] at hq
      obtain ⟨r2', h7, h8⟩ := ((louder_loadTables there I.ctype I.datadir q.filters).bind fun _ => .refl _).trace h5
      have := sprinkled_silent h8 fun s hm => hs s (by simp [hm])
      subst this
      have hin : o.isInlineMode = false := by
        cases hx : o.isInlineMode with
        | false => rfl
        | true =>
          rcases ha.2.2.2.2.2.1.1 hx with h' | h'
          · exact absurd h' hb
          · exact absurd h' hi
      unfold detoxWorkLoud at h6
      rw [if_neg (by simpa using hin), hf] at h6
      obtain ⟨a, t5, t6, rfl, h9, h10⟩ := trace_bind_ret h6
      have : t6 = [] := by cases h10; rfl
      subst this
      refine ⟨r1 ++ r2', t5, { o with filesToIgnore := c.filesToIgnore, sequenceToUse := some q' }, q', ignored, a, by simp, ?_,
        ⟨c, q, r1, r2', t5, by simp, h3, hq, h7, hfr⟩, ha, rfl, ⟨fuel, l.count + 1, l, c.filesToIgnore, hh, hfr, by rw [hf]; exact h9⟩⟩
      intro e he
      rcases List.mem_append.1 he with he | he
      · exact (configFileLoad_harmless _ _).trace h3 e he
      · exact (reviewSequence_harmless _ _ _).trace h7 e he

/-- **C90.** `detox -r`, with any configuration whose sequence keeps slashes out or brings none in. If nothing at all was written to standard error, all
names in the tree below a directory opened are names the sequence makes without any remark, but hidden ones, those to be ignored, what is below
these, and special files; and a directory that is the first argument was opened. -/
theorem C90_silent_configured_tree {there : Bytes → Bool} {P : Platform} {I : Invocation} {fuel : Nat} {ss : List Setting} {ws : List Bytes}
    (hc : CommandLine I.posixlyCorrect I.args ss ws) {tr : List Event} (h : Trace (detoxMainLoud there P I fuel) tr (.ret ()))
    (hs : Silent tr) (hr : Setting.recurse ∈ ss) (hd : Setting.dryRun ∉ ss) (hi : Setting.inline ∉ ss) (hb : ¬ CalledInline I.program)
    (hq : ∀ q, InUse I ss tr q → KeepsOut P q.filters 0x2F ∨ ∀ f ∈ q.filters, ¬ Brings f 0x2F)
    {fs : FS} {depth : Ino → Nat} {slack level : Nat} {w : World} (hnul : ∀ f ∈ ws, NulFree f) (ht : fs.Tree depth slack)
    (hst : ∀ f ∈ ws, fs.Steady depth slack level f) (hw : World.Steps (World.start fs) tr w)
    (ha : ∀ p r, Event.lstat p r ∈ tr → fs.denied p = false) :
    ∃ q ignored, Configured I ss tr q ignored ∧
      (∀ d p, (d, p) ∈ w.opened → ∀ e ∈ w.fs.entries, ScanBelow ignored w d e.dir →
        Hidden e.name ∨ e.name ∈ ignored ∨ (w.fs.kind e.ino ≠ .dir ∧ w.fs.kind e.ino ≠ .reg ∧ Setting.special ∉ ss) ∨
        ∃ m, NulFree m ∧ (0x2F : Byte) ∉ m ∧ sequenceRunFiltersLoud P (some q) (some m) = ([], .ok (some e.name))) ∧
      ∀ f d, ws.head? = some f → fs.lookup f = some d → fs.kind d = .dir → ∃ p, (d, p) ∈ w.opened := by
  obtain ⟨reads, t, o, q, ignored, a, rfl, hrd, hcf, hask, ho, hrun⟩ := silent_main hc h hs hi hb
  have hmt : ∀ e ∈ t, e ∈ reads ++ t := fun e he => List.mem_append_right _ he
  have hdry : o.dryRun = false := by
    cases hx : o.dryRun with
    | false => rfl
    | true => exact absurd (hask.2.1.1 hx) hd
  have hC : CompleteRun P o ws fs depth slack level t w :=
    ⟨hdry, C91_no_slash ho (hq q hcf.inUse), hnul, ht, hst, world_harmless hrd hw, fun p r hm => ha p r (hmt _ hm)⟩
  obtain ⟨g1, g2⟩ := C90_silent_tree hC hrun (hask.2.2.1.2 hr) fun s hm => hs s (hmt _ hm)
  refine ⟨q, ignored, hcf, fun d p hdp e he hbe => ?_, g2⟩
  rcases g1 d p hdp e he hbe with (hx | hx | ⟨x1, x2, x3⟩) | ⟨m, _, hm2, hm3, hm4⟩
  · exact .inl hx
  · exact .inr (.inl hx)
  · refine .inr (.inr (.inl ⟨x1, x2, fun hsp => ?_⟩))
    rw [hask.2.2.2.1.2 hsp] at x3
    cases x3
  · refine .inr (.inr (.inr ⟨m, hm3, hm2, ?_⟩))
    rw [← ho]
    exact hm4

/-- **C90.** So if `max_length` is the last filter of the sequence, all these names are within its limit, and no byte the sequence keeps out is in
any of them. -/
theorem C90_silent_configured_names {there : Bytes → Bool} {P : Platform} {I : Invocation} {fuel : Nat} {ss : List Setting} {top : Bytes} {ws : List Bytes}
    (hc : CommandLine I.posixlyCorrect I.args ss (top :: ws)) {tr : List Event} (h : Trace (detoxMainLoud there P I fuel) tr (.ret ()))
    (hs : Silent tr) (hr : Setting.recurse ∈ ss) (hd : Setting.dryRun ∉ ss) (hi : Setting.inline ∉ ss) (hb : ¬ CalledInline I.program)
    (hq : ∀ q, InUse I ss tr q → KeepsOut P q.filters 0x2F ∨ ∀ f ∈ q.filters, ¬ Brings f 0x2F)
    {fs : FS} {depth : Ino → Nat} {slack level : Nat} {w : World} (hnul : ∀ f ∈ top :: ws, NulFree f) (ht : fs.Tree depth slack)
    (hst : ∀ f ∈ top :: ws, fs.Steady depth slack level f) (hw : World.Steps (World.start fs) tr w)
    (ha : ∀ p r, Event.lstat p r ∈ tr → fs.denied p = false) {d : Ino} (hl : fs.lookup top = some d) (hk : fs.kind d = .dir) :
    ∃ q ignored, Configured I ss tr q ignored ∧ ∀ e ∈ w.fs.entries, ScanBelow ignored w d e.dir →
      Hidden e.name ∨ e.name ∈ ignored ∨ (w.fs.kind e.ino ≠ .dir ∧ w.fs.kind e.ino ≠ .reg ∧ Setting.special ∉ ss) ∨
      ((∀ b, KeepsOut P q.filters b → b ∉ e.name) ∧
       ∀ fl f, q.filters = fl ++ [f] → f.cleaner = .maxLength → e.name.length ≤ if f.maxLength = 0 then 256 else f.maxLength) := by
  obtain ⟨q, ignored, hcf, g1, g2⟩ := C90_silent_configured_tree hc h hs hr hd hi hb hq hnul ht hst hw ha
  obtain ⟨p, hp⟩ := g2 top d rfl hl hk
  refine ⟨q, ignored, hcf, fun e he hbe => ?_⟩
  rcases g1 d p hp e he hbe with hx | hx | hx | ⟨m, _, _, hx⟩
  · exact .inl hx
  · exact .inr (.inl hx)
  · exact .inr (.inr (.inl hx))
  · refine .inr (.inr (.inr ⟨fun b hkb => ?_, fun fl f hf hm => C89_silent_limit P q fl f hf hm m e.name hx⟩))
    have h1 := sequenceRunFiltersLoud_snd P (some q) (some m)
    rw [hx] at h1
    exact C91_kept_out h1.symm hkb

/-! ### A concrete case -/

def limitText : Bytes := lit "sequence default { safe { builtin \"safe\"; }; wipeup; max_length { length 8; }; };"

def limitFilters : List Filter :=
  [{ cleaner := .safe, builtin := some (lit "safe") }, { cleaner := .wipeup }, { cleaner := .maxLength, maxLength := 8 }]

def limitCall : Invocation := { program := lit "detox", args := [lit "-f", lit "rc", lit "-r", lit "my dir"] }

def limitTrace : List Event := .slurp (some (lit "rc")) (some limitText) :: treeTrace.drop nothingInstalled.length

/- The tree is that of C87; see there for what is asked of it. -/
example : Trace (detoxMainLoud (fun _ => false) .linux limitCall 10) limitTrace (.ret ()) := Prog.result_sound _ _ _ (by decide +kernel)

example : CommandLine limitCall.posixlyCorrect limitCall.args [.config (lit "rc"), .recurse] [lit "my dir"] :=
  .separate [] [] 0x66 (lit "rc") _ _ _ [.recurse] .nil (.config _) (.cluster [0x72] [.recurse] _ _ [] (by simp) (.cons _ _ _ _ .recurse .nil)
    (.operand _ _ _ _ rfl (.inl (by decide +kernel)) .none))

theorem limit_inUse {q : Sequence} (h : InUse limitCall [.config (lit "rc"), .recurse] limitTrace q) :
    q.filters = [{ cleaner := .safe, builtin := some (lit "safe"), table := some load_builtin_safe_table }, { cleaner := .wipeup },
      { cleaner := .maxLength, maxLength := 8 }] := by
  obtain ⟨c, q0, r1, r2, rest, h, h1, h2, h3⟩ := h
  obtain ⟨text, h4, h5⟩ := C44_option_f_result (f := lit "rc") h1
  have ht : text = limitText := by
    have hm : Event.slurp (some (lit "rc")) (some text) ∈ limitTrace := by
      rw [h]
      simp [filesRead_mem (show (lit "rc", some text) ∈ filesRead r1 by rw [h4]; simp)]
    rcases List.mem_cons.1 hm with hm | hm
    · cases hm; rfl
    · have := List.mem_of_mem_drop hm
      simp [treeTrace, nothingInstalled] at this
  subst ht
  have hc : c.sequences = [⟨lit "default", limitFilters, some (lit "rc")⟩] := by
    have : (parseConfigText (lit "rc") limitText none).2.bind (fun c => .ok c.sequences) = .ok [⟨lit "default", limitFilters, some (lit "rc")⟩] := by
      decide +kernel
    rw [h5] at this
    exact Res.ok.inj this
  rw [hc] at h2
  have hq0 : q0.filters = limitFilters := by
    rcases (show FirstNamed (lit "default") _ q0 ∨ _ from h2) with ⟨before, after, h6, _, _⟩ | ⟨_, h6⟩
    · cases before with
      | nil => cases h6; rfl
      | cons b before =>
        have := congrArg List.length h6
        simp at this
    · cases h6; rfl
  have h6 := reviewSequence_selfContained (by rw [hq0]; unfold Filter.SelfContained; decide +kernel) h3 ⟨fun _ => none, none⟩
  unfold sequenceReview at h6
  rw [hq0] at h6
  have h7 : reviewFilters ⟨fun _ => none, none⟩ limitFilters = .ok [{ cleaner := .safe, builtin := some (lit "safe"), table := some load_builtin_safe_table },
      { cleaner := .wipeup }, { cleaner := .maxLength, maxLength := 8 }] := rfl
  rw [h7] at h6
  have h8 := Res.ok.inj h6
  rw [← h8]

/- Its sequence keeps slashes out, and everything else that is hostile; and it ends with `max_length`. -/
example {q : Sequence} (h : InUse limitCall [.config (lit "rc"), .recurse] limitTrace q) :
    KeepsOut .linux q.filters 0x2F ∧ KeepsOut .linux q.filters 0x20 := by
  have key : ∀ b : Byte, hostile b = true → b ≠ 0 → KeepsOut .linux q.filters b := by
    intro b hb h0
    refine ⟨[], _, _, limit_inUse h, fun t ht => ?_, fun g hg => ?_⟩
    · obtain rfl := Option.some.inj (show some load_builtin_safe_table = some t from ht)
      exact .inr (safe_translates _ hb h0)
    · simp only [List.mem_cons, List.not_mem_nil, or_false] at hg
      rcases hg with rfl | rfl | rfl
      · rintro ⟨t, h1, h2⟩
        obtain rfl := Option.some.inj (show some load_builtin_safe_table = some t from h1)
        rw [safe_has h2] at hb
        cases hb
      · exact fun h => h
      · exact fun h => h
  exact ⟨key _ (by decide +kernel) (by decide), key _ (by decide +kernel) (by decide)⟩

end Detox
