import Verif.Lemmas.Tree
import Verif.Props.Again

/-!
# C98: what a tree of directories is like afterwards
-/

set_option autoImplicit false

namespace Detox
open Spec

/-- **C98.** The file system after a run that had no complaints, with a sequence for which one pass is enough. Every entry is still in its directory and
is the same file. Those that are arguments, and those in the directories scanned, have the names the sequence makes of their old names; all others,
hidden ones among them, have the names they had. Only for ignored names, and for what is below them, nothing is said (C34). -/
theorem C98_tree_after_a_run {P : Platform} {o : Options} {args ws : List Bytes} {fs : FS} {depth : Ino → Nat} {slack level : Nat} {tr : List Event}
    {w : World} {a : Option Filelist} (hc : CompleteRun P o args fs depth slack level tr w) (h : Run P o args ws tr (.ret a)) (hs : Silent tr)
    (hid : ∀ m v, NulFree m → Makes P o m v → Makes P o v v) (hex : ∀ f ∈ args, fs.lookup f ≠ none) (hlit : fs.LiteralRun (Makes P o) args tr) :
    fs.Cleaned (Makes P o) o args ws w.fs := by
  obtain ⟨k, _, _⟩ := hc.keeps h
  obtain ⟨seen, hscan⟩ := C72_runs_are_scans h
  have hR : OnePass (Makes P o) := ⟨fun a b c h1 h2 => Option.some.inj (Res.ok.inj (h1.symm.trans h2)), hid⟩
  obtain ⟨g, hnow, _, hargs⟩ := args_now (args := args) (g := fun e => e) hR ⟨hc.wet, hc.slash, fun _ h => sequence_nil h, hc.allowed⟩ hlit.entries hs hc.tree
    hscan (fun _ h => h) (W := World.start fs) rfl hc.tree hc.steady (fun _ _ _ => rfl) hc.nul (fun _ h => h) hex (fun f hf => hlit.args f hf)
    hc.steps ⟨by rw [List.map_id']; rfl, fun e _ => .inl rfl⟩
  have here : ∀ e ∈ fs.entries, g e ∈ w.fs.entries := fun e he => by rw [hnow.same]; exact List.mem_map_of_mem he
  have entered : ∀ {d}, Entered w d → ∃ p, (d, p) ∈ w.opened := by
    rintro d ⟨p, h1 | h1⟩
    · exact ⟨p, h1⟩
    · rcases k.unread _ h1 with h2 | h2
      · cases h2
      · exact absurd h2 (hs _)
  have settled : ∀ {d p}, (d, p) ∈ w.opened → ∀ e ∈ w.fs.entries, e.dir = d → Settled (Makes P o) o ws tr w e := by
    intro d p hd e he hed
    rcases k.fresh (d, p) hd with h1 | h1
    · cases h1
    · exact h1 e he hed
  have opened : ∀ d, fs.Scans o args (fun n => Hidden n ∨ n ∈ ws) d → ∃ p, (d, p) ∈ w.opened := by
    intro d hd
    induction hd with
    | arg f d hf hlk hk => exact entered ((hargs f hf).2 d hlk hk)
    | sub e he _ hrec hk hsk ih =>
      obtain ⟨p, hp⟩ := ih
      obtain ⟨h1, h2⟩ := hnow.place he
      have hkw : w.fs.kind (g e).ino = .dir := by rw [h2, hnow.kind]; exact hk
      have handled : HandledBy (Makes P o) o tr w (g e) → ∃ p, (e.ino, p) ∈ w.opened := by
        intro hh
        have := hh.2 hrec hkw
        rw [h2] at this
        exact entered this
      rcases settled hp (g e) (here e he) h1 with hl | hh
      · rcases k.kept (g e) (here e he) with hh | ⟨hin, _⟩
        · exact handled hh
        · have hge : g e = e := hc.tree.once _ hin _ he (by rw [h2]; exact hk) h2
          rw [hge] at hl hkw
          rcases hl with hl | hl | hl
          · exact absurd (.inl hl) hsk
          · exact absurd (.inr hl) hsk
          · exact absurd hkw hl.1
      · exact handled hh
  refine ⟨fun e => (g e).name, ?_, fun e he => ⟨?_, ?_, ?_⟩⟩
  · rw [hnow.same]
    congr 1
    refine List.map_congr_left fun e he => ?_
    obtain ⟨h1, h2⟩ := hnow.place he
    cases hg : g e with
    | mk a b c =>
      rw [hg] at h1 h2
      simp only at h1 h2
      simp only [hg, h1, h2]
  · rintro ⟨hk, ⟨f, hf, hat⟩ | ⟨hsc, hsk⟩⟩
    · exact (hargs f hf).1 e hat hk
    · rcases hnow.each e he with hge | hge
      rotate_left
      · exact hge.2.2.2.1
      obtain ⟨p, hp⟩ := opened _ hsc
      have := settled hp (g e) (here e he) (hnow.place he).1
      show Makes P o e.name (g e).name
      rw [hge] at this ⊢
      rcases this with (hl | hl | hl) | ⟨⟨m, _, _, hm, hl⟩ | ⟨_, _, _, hl⟩, _⟩
      · exact absurd (.inl hl) hsk
      · exact absurd (.inr hl) hsk
      · rw [hnow.kind] at hl
        rcases hk with hk | hk | hk
        · exact absurd hk hl.1
        · exact absurd hk hl.2.1
        · rw [hl.2.2] at hk; cases hk
      · exact hid m _ hm hl
      · exact absurd hl (hs _)
  · intro hno
    rcases hnow.each e he with hge | hge
    · show (g e).name = e.name
      rw [hge]
    · exact absurd hge.2.2.2.2 hno
  · rcases hnow.each e he with hge | hge
    · exact .inl (show (g e).name = e.name by rw [hge])
    · exact .inr hge.2.2.2.1

/-! ### The result is determined -/

/-- **C98.** There is only one such file system if no name is an ignored one. -/
theorem C98_only_one_result {R : Bytes → Bytes → Prop} (hR : ∀ a b c, R a b → R a c → b = c) {fs fs1 fs2 : FS} {o : Options} {args ws : List Bytes}
    (hws : ∀ e ∈ fs.entries, e.name ∉ ws) (h1 : fs.Cleaned R o args ws fs1) (h2 : fs.Cleaned R o args ws fs2) : fs1 = fs2 := by
  obtain ⟨n1, rfl, h1⟩ := h1
  obtain ⟨n2, rfl, h2⟩ := h2
  congr 1
  refine List.map_congr_left fun e he => ?_
  have : n1 e = n2 e := by
    obtain ⟨a1, b1, _⟩ := h1 e he
    obtain ⟨a2, b2, _⟩ := h2 e he
    by_cases ht : fs.Treats o args Hidden e
    · have ht' : fs.Treats o args (fun n => Hidden n ∨ n ∈ ws) e :=
        treats_congr id id (fun _ h => h) (fun e he h => h.elim id fun h => absurd h (hws e he)) he ht
      exact hR _ _ _ (a1 ht') (a2 ht')
    · rw [b1 ht, b2 ht]
  rw [this]

/-- **C98.** So it matters neither in which order the arguments are given nor in which order `readdir` gives the entries, nor how often: if two runs from
the same state have no complaints, they end in the same state. -/
theorem C98_order_does_not_matter {P : Platform} {o : Options} {args ws : List Bytes} {fs : FS} {depth : Ino → Nat} {slack level : Nat} {tr : List Event}
    {w : World} {a : Option Filelist} (hc : CompleteRun P o args fs depth slack level tr w) (h : Run P o args ws tr (.ret a)) (hs : Silent tr)
    (hid : ∀ m v, NulFree m → Makes P o m v → Makes P o v v) (hex : ∀ f ∈ args, fs.lookup f ≠ none) (hlit : fs.LiteralRun (Makes P o) args tr)
    {o2 : Options} {args2 : List Bytes} {level2 : Nat} {tr2 : List Event} {w2 : World} {a2 : Option Filelist}
    (hc2 : CompleteRun P o2 args2 fs depth slack level2 tr2 w2) (h2 : Run P o2 args2 ws tr2 (.ret a2)) (hs2 : Silent tr2)
    (hlit2 : fs.LiteralRun (Makes P o) args2 tr2) (hargs : ∀ f, f ∈ args ↔ f ∈ args2)
    (hq : o2.sequenceToUse = o.sequenceToUse) (hr : o2.recurse = o.recurse) (hsp : o2.special = o.special)
    (hws : ∀ e ∈ fs.entries, e.name ∉ ws) : w2.fs = w.fs := by
  have hmk : Makes P o2 = Makes P o := by
    funext m v
    show (sequenceRunFilters P o2.sequenceToUse _ = _) = _
    rw [hq]
  have c1 := C98_tree_after_a_run hc h hs hid hex hlit
  have c2 := C98_tree_after_a_run hc2 h2 hs2 (by rw [hmk]; exact hid) (fun f hf => hex f ((hargs f).2 hf)) (by rw [hmk]; exact hlit2)
  rw [hmk] at c2
  refine C98_only_one_result (R := Makes P o) (fun a b c h1 h2 => Option.some.inj (Res.ok.inj (h1.symm.trans h2))) hws (o := o) (args := args) (ws := ws) ?_ c1
  obtain ⟨new, h3, h4⟩ := c2
  refine ⟨new, h3, fun e he => ?_⟩
  obtain ⟨h5, h6, h7⟩ := h4 e he
  refine ⟨fun ht => h5 ?_, fun ht => h6 fun ht' => ht ?_, h7⟩
  · exact treats_congr (by rw [hr]; exact id) (by rw [hsp]; exact id) (fun f hf => (hargs f).1 hf) (fun _ _ h => h) he ht
  · exact treats_congr (by rw [hr]; exact id) (by rw [hsp]; exact id) (fun f hf => (hargs f).2 hf) (fun _ _ h => h) he ht'

/-! ### The whole program -/

/-- Where no two ways of writing are the same name. -/
theorem literal_exact {fs : FS} (hn : ∀ d a b, fs.norm d a = fs.norm d b → a = b) (R : Bytes → Bytes → Prop) (n : Bytes) : fs.Literal R n :=
  fun _ _ _ _ h => hn _ _ _ h

theorem steps_fruitless {reads : List Event} (h : Fruitless reads) (w : World) : World.Steps w reads w := by
  induction reads with
  | nil => exact .nil w
  | cons e reads ih =>
    obtain ⟨f, rfl⟩ := h e (by simp)
    exact .cons _ _ _ _ _ (.slurp w _ _) (ih fun e he => h e (by simp [he]))

/-- For these sequences one pass is enough. -/
theorem usual_idempotent {P : Platform} (hP : P.Benign) (E : TableEnv) {n : Option Bytes}
    (hn : n = none ∨ ∃ m ∈ [lit "default", lit "utf_8", lit "lower", lit "lower-only"], n = some m) :
    ∀ m v, NulFree m → runBuiltin P E n m = .ok (some v) → runBuiltin P E n v = .ok (some v) := by
  intro m v hm hv
  rcases hn with rfl | ⟨n, hmem, rfl⟩
  · rw [← runBuiltin_asked (.inr rfl)] at hv ⊢
    exact C92_done_after_one_run P hP E _ (by simp) m v hm hv
  · refine C92_done_after_one_run P hP E n ?_ m v hm hv
    simp only [List.mem_cons, List.not_mem_nil, or_false] at hmem ⊢
    rcases hmem with h | h | h | h <;> simp [h]

/-- The run over files inside the whole program, with nothing configured and a sequence for which one pass is enough. -/
theorem main_parts {P : Platform} (hP : P.Benign) {I : Invocation} {fuel : Nat} {ss : List Setting} {ws : List Bytes}
    (hc : CommandLine I.posixlyCorrect I.args ss ws) {tr : List Event} (h : Trace (detoxMain P I fuel) tr (.ret ()))
    (hu : Unconfigured I ss tr)
    (hn : requested I ss = none ∨ ∃ n ∈ [lit "default", lit "utf_8", lit "lower", lit "lower-only"], requested I ss = some n)
    (hi : Setting.inline ∉ ss) (hb : ¬ CalledInline I.program)
    {fs : FS} {w : World} (hw : World.Steps (World.start fs) tr w) (E : TableEnv) :
    ∃ reads t o' a, tr = reads ++ t ∧ Fruitless reads ∧ NoNewSlash P o' ∧ World.Steps (World.start fs) t w ∧ Run P o' ws [lit "{arch}"] t (.ret a) ∧
      (Makes P o' = fun m v => runBuiltin P E (requested I ss) m = .ok (some v)) ∧
      (∀ m v, NulFree m → runBuiltin P E (requested I ss) m = .ok (some v) → runBuiltin P E (requested I ss) v = .ok (some v)) ∧
      (o'.dryRun = true ↔ Setting.dryRun ∈ ss) ∧ (o'.recurse = true ↔ Setting.recurse ∈ ss) ∧ (o'.special = true ↔ Setting.special ∈ ss) ∧ World.Steps (World.start fs) reads (World.start fs) := by
  have hne : requested I ss ≠ some (lit "utf_8-only") ∧ requested I ss ≠ some (lit "uncgi-only") := by
    rcases hn with hn | ⟨n, hm, hn⟩
    · rw [hn]; exact ⟨by simp, by simp⟩
    · rw [hn]
      simp only [List.mem_cons, List.not_mem_nil, or_false] at hm
      rcases hm with rfl | rfl | rfl | rfl <;> exact ⟨by decide, by decide⟩
  have hidem := usual_idempotent hP E hn
  rcases main_cases hc h with ⟨_, h⟩ | ⟨reads, t, o', ignored, l, ign, rfl, hrd, hl, hig, hk⟩
  · exact absurd rfl (h ())
  have hw' := world_harmless hrd.quiet hw
  rcases hk with ⟨hin, _⟩ | ⟨_, _, htr⟩
  · rcases hrd.asked.2.2.2.2.2.1.1 hin with h' | h'
    · exact absurd h' hb
    · exact absurd h' hi
  obtain ⟨out', hrun, hout⟩ := main_run hl hig htr
  have : ∃ a, out' = .ret a := by
    rcases hout with h' | h'
    · exact h'
    · exact absurd rfl (outcome_ne_ret h' ())
  obtain ⟨a, rfl⟩ := this
  have hfr := unconfigured_reads hrd hu fun e he => List.mem_append_left _ he
  obtain ⟨c, q, q', r1, r2, rfl, g1, g2, g3, g4, g5⟩ := hrd.stages
  have hr1 : ∀ e ∈ r1, e ∈ r1 ++ r2 ++ t := fun e he => by simp [he]
  have hrb := fun E s => unconfigured_run (P := P) hu hr1 g1 g2 g3 E s
  have higs : ignored = [lit "{arch}"] := by
    rw [hu.1] at g1
    have hsp := unconfigured_spoof g1 fun p hp text hm => hu.2 p hp text (hr1 _ hm)
    obtain ⟨l', hl', hl''⟩ := filelistPut_holds filelistInit_holds (lit "{arch}")
    unfold spoofConfigFile at hsp
    rw [hl'] at hsp
    cases hsp
    have h6 : l'.Holds ignored 0 := g5
    have h7 := h6.2.1.symm.trans hl''.2.1
    exact (List.map_inj_right fun _ _ h => Option.some.inj h).1 h7
  subst higs
  have hm1 : Makes P o' = fun m v => runBuiltin P E (requested I ss) m = .ok (some v) := by
    funext m v
    show (sequenceRunFilters P o'.sequenceToUse _ = _) = _
    rw [hrb E m, ← g4]
  exact ⟨_, t, o', a, rfl, hfr, unconfigured_noNewSlash hP hu hr1 g1 g2 g3 g4 hne, hw', hrun, hm1, hidem, hrd.asked.2.1, hrd.asked.2.2.1, hrd.asked.2.2.2.1, steps_fruitless hfr _⟩

/-- The same, not a dry run, on a tree of directories. -/
theorem main_one_pass {P : Platform} (hP : P.Benign) {I : Invocation} {fuel : Nat} {ss : List Setting} {ws : List Bytes}
    (hc : CommandLine I.posixlyCorrect I.args ss ws) {tr : List Event} (h : Trace (detoxMain P I fuel) tr (.ret ()))
    (hu : Unconfigured I ss tr)
    (hn : requested I ss = none ∨ ∃ n ∈ [lit "default", lit "utf_8", lit "lower", lit "lower-only"], requested I ss = some n)
    (hd : Setting.dryRun ∉ ss) (hi : Setting.inline ∉ ss) (hb : ¬ CalledInline I.program)
    {fs : FS} {depth : Ino → Nat} {slack level : Nat} {w : World} (hnul : ∀ f ∈ ws, NulFree f) (ht : fs.Tree depth slack)
    (hst : ∀ f ∈ ws, fs.Steady depth slack level f) (hw : World.Steps (World.start fs) tr w)
    (ha : ∀ p r, Event.lstat p r ∈ tr → fs.denied p = false) (E : TableEnv) :
    ∃ reads t o' a, tr = reads ++ t ∧ Fruitless reads ∧ CompleteRun P o' ws fs depth slack level t w ∧ Run P o' ws [lit "{arch}"] t (.ret a) ∧
      (Makes P o' = fun m v => runBuiltin P E (requested I ss) m = .ok (some v)) ∧
      (∀ m v, NulFree m → runBuiltin P E (requested I ss) m = .ok (some v) → runBuiltin P E (requested I ss) v = .ok (some v)) ∧
      (o'.recurse = true ↔ Setting.recurse ∈ ss) ∧ (o'.special = true ↔ Setting.special ∈ ss) ∧ World.Steps (World.start fs) reads (World.start fs) := by
  obtain ⟨reads, t, o', a, rfl, h1, h2, h3, h4, h5, h6, h7, h8, h9, h10⟩ := main_parts hP hc h hu hn hi hb hw E
  have hdry : o'.dryRun = false := by
    cases hx : o'.dryRun with
    | false => rfl
    | true => exact absurd (h7.1 hx) hd
  exact ⟨reads, t, o', a, rfl, h1, ⟨hdry, h2, hnul, ht, hst, h3, fun p r hm => ha p r (List.mem_append_right _ hm)⟩, h4, h5, h6, h8, h9, h10⟩

/-- **C98.** The whole program with nothing configured and one of the sequences `default`, `utf_8`, `lower` and `lower-only`. If it ends without having
complained, the file system is as it was, but for the names: arguments and what is in the directories scanned (with `-r`, the whole tree) have the names the
sequence makes of their old names; all others have the names they had. -/
theorem C98_tree_after_main {P : Platform} (hP : P.Benign) {I : Invocation} {fuel : Nat} {ss : List Setting} {ws : List Bytes}
    (hc : CommandLine I.posixlyCorrect I.args ss ws) {tr : List Event} (h : Trace (detoxMain P I fuel) tr (.ret ()))
    (hu : Unconfigured I ss tr)
    (hn : requested I ss = none ∨ ∃ n ∈ [lit "default", lit "utf_8", lit "lower", lit "lower-only"], requested I ss = some n)
    (hd : Setting.dryRun ∉ ss) (hi : Setting.inline ∉ ss) (hb : ¬ CalledInline I.program) (hs : Silent tr)
    {fs : FS} {depth : Ino → Nat} {slack level : Nat} {w : World} (hnul : ∀ f ∈ ws, NulFree f) (ht : fs.Tree depth slack)
    (hst : ∀ f ∈ ws, fs.Steady depth slack level f) (hw : World.Steps (World.start fs) tr w)
    (ha : ∀ p r, Event.lstat p r ∈ tr → fs.denied p = false) (hex : ∀ f ∈ ws, fs.lookup f ≠ none) (E : TableEnv)
    (hlit : fs.LiteralRun (fun m v => runBuiltin P E (requested I ss) m = .ok (some v)) ws tr)
    (o : Options) (hr : o.recurse = true ↔ Setting.recurse ∈ ss) (hsp : o.special = true ↔ Setting.special ∈ ss) :
    fs.Cleaned (fun m v => runBuiltin P E (requested I ss) m = .ok (some v)) o ws [lit "{arch}"] w.fs := by
  obtain ⟨reads, t, o', a, rfl, _, hC, hrun, hm1, hidem, e1, e2, _⟩ := main_one_pass hP hc h hu hn hd hi hb hnul ht hst hw ha E
  have hmt : ∀ e ∈ t, e ∈ reads ++ t := fun e he => List.mem_append_right _ he
  have key := C98_tree_after_a_run hC hrun (fun s hm => hs s (hmt _ hm)) (by rw [hm1]; exact hidem) hex
    (by rw [hm1]; exact ⟨hlit.args, fun k n hm => hlit.entries k n (hmt _ hm)⟩)
  rw [hm1] at key
  obtain ⟨new, k1, k2⟩ := key
  have er : o.recurse = true ↔ o'.recurse = true := hr.trans e1.symm
  have es : o.special = true ↔ o'.special = true := hsp.trans e2.symm
  refine ⟨new, k1, fun e he => ⟨fun ht => (k2 e he).1 ?_, fun ht => (k2 e he).2.1 fun ht' => ht ?_, (k2 e he).2.2⟩⟩
  · exact treats_congr er.1 es.1 (fun _ h => h) (fun _ _ h => h) he ht
  · exact treats_congr er.2 es.2 (fun _ h => h) (fun _ _ h => h) he ht'

/-! ### A concrete case -/

/- The run of C87: the tree afterwards is the one C98 says. -/
example : ∃ w, World.Steps (World.start treeFS) treeTrace w ∧
    treeFS.Cleaned (fun m v => runBuiltin .linux ⟨fun _ => none, none⟩ none m = .ok (some v)) { recurse := true } [lit "my dir"] [lit "{arch}"] w.fs ∧
    w.fs.entries.map Entry.name = [lit "my_dir", lit "a_b", lit "sub_x", lit "c_d", lit ".hid den"] := by
  obtain ⟨w, h1, h2⟩ := World_exec_out (w := World.start treeFS) (tr := treeTrace) (f := fun w => w.fs.entries.map Entry.name)
    (x := [lit "my_dir", lit "a_b", lit "sub_x", lit "c_d", lit ".hid den"]) (by decide +kernel)
  refine ⟨w, h1, ?_, h2⟩
  have hlit := literal_exact (fs := treeFS) (fun _ _ _ h => h) (fun m v => runBuiltin .linux ⟨fun _ => none, none⟩ none m = .ok (some v))
  refine C98_tree_after_main (I := treeCall) (ss := [.recurse]) (by decide)
    (.cluster [0x72] [.recurse] _ _ [] (by simp) (.cons _ _ _ _ .recurse .nil) (.operand _ _ _ _ rfl (.inl (by decide +kernel)) .none))
    treeTrace_run ⟨rfl, ?_⟩ (.inl rfl) (by simp) (by simp) (fun h => by rw [← posixBasename_inline] at h; exact absurd h (by decide +kernel)) ?_ (by decide +kernel) treeFS_tree treeFS_steady h1 (fun _ _ _ => rfl)
    (by decide +kernel) _ ⟨fun _ _ _ _ _ => hlit _, fun _ _ _ => hlit _⟩ _ (by simp) (by simp)
  · intro p _ text hm
    simp [treeTrace, nothingInstalled] at hm
  · intro s hm
    simp [treeTrace, nothingInstalled] at hm

/- The treated entries of that tree, and one that is not. -/
example : treeFS.Treats { recurse := true } [lit "my dir"] (fun n => Hidden n ∨ n ∈ [lit "{arch}"]) ⟨⟨1, 4⟩, lit "c d", ⟨1, 5⟩⟩ := by
  refine ⟨.inr (.inl (by decide +kernel)), .inr ⟨.sub ⟨⟨1, 2⟩, lit "sub x", ⟨1, 4⟩⟩ (by decide +kernel)
    (.arg (lit "my dir") ⟨1, 2⟩ (by simp) (by decide +kernel) (by decide +kernel)) rfl (by decide +kernel) ?_, ?_⟩⟩ <;>
  · rintro (⟨_, h⟩ | h)
    · revert h; simp [lit]
    · revert h; decide +kernel

end Detox
