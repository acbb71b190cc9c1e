import Verif.Lemmas.IdealRun

/-!
# C100: detox comes to an end
-/

set_option autoImplicit false

namespace Detox
open Spec

theorem freshIgnore_ok {ws : List Bytes} {ign : Option Filelist} (h : FreshIgnore ign ws) : IgnOk ws ign [] := by
  cases ign with
  | none => exact h
  | some l =>
    show l.Holds ws (cursorAfter ws [])
    exact h

/-- The number of calls is bounded. -/
theorem main_calls {P : Platform} {I : Invocation} {ss : List Setting} {ws : List Bytes} (hr : Renames I ss ws) (hdry : Setting.dryRun ∉ ss)
    {files : Bytes → Option Bytes} {plain : Bool} {q : Sequence} (hw : Written I ss files plain q)
    (hsl : ∀ o, Begun P I ss files plain q o → NoNewSlash P o) (hnul : ∀ f ∈ ws, NulFree f) {fs : FS} {depth : Ino → Nat} {slack level : Nat}
    (ht : fs.Tree depth slack) (hst : ∀ f ∈ ws, fs.Steady depth slack level f) (K : Nat) :
    ∃ N, ∀ fuel tr out w, Trace (detoxMain P I fuel) tr out → (∀ e ∈ tr, Faithful files e) → World.Steps (World.start fs) tr w →
      (∀ p r, Event.lstat p r ∈ tr → fs.denied p = false) → Frugal K tr → tr.length ≤ N := by
  obtain ⟨n, hn⟩ := readsBy_within files I ss q
  refine ⟨n + ws.length * (7 + scanCalls K walkLimit), ?_⟩
  intro fuel tr out w h hf hs ha hK
  rcases main_begins hr hw h hf with ⟨_, h1⟩ | ⟨reads, t, o, l, ign, rfl, hh, hrd, hb, hl, ⟨ignored, hi⟩, htr⟩
  · exact Nat.le_trans (hn _ h1 hf) (Nat.le_add_right _ _)
  have g1 := hn _ hrd fun e he => hf e (by simp [he])
  have hwet : o.dryRun = false := by
    cases hd : o.dryRun with
    | false => rfl
    | true => exact absurd (hb.asked.2.1.1 hd) hdry
  have hs' := world_harmless hh hs
  have key : ∀ out', Trace (fileLoop P o fuel (l.count + 1) l ign) t out' → t.length ≤ ws.length * (7 + scanCalls K walkLimit) := by
    intro out' h'
    exact fileLoop_calls (E := t) (denied := fs.denied) (W := World.start fs)
      ⟨hwet, hsl o hb, fun _ h => sequence_nil h, fun p r hm => ha p r (by simp [hm])⟩ _ 0 l ign t out' [] _ hl h' (freshIgnore_ok hi) (fun _ h => h) rfl ht
      hst hnul hs' (Frugal.infix (a := reads) (b := []) (by rw [List.append_nil]; exact hK))
  have g2 : t.length ≤ ws.length * (7 + scanCalls K walkLimit) := by
    rcases trace_bind_any htr with ⟨a, t1, t2, rfl, h1, h2⟩ | ⟨o', _, h1⟩
    · have : t2 = [] := by cases h2 <;> rfl
      subst this
      rw [List.append_nil] at key ⊢
      exact key _ h1
    · exact key _ h1
  rw [List.length_append]
  omega

/-- **C100.** detox comes to an end: whatever the config files and tables, as long as they are well written and make no slashes, in a tree of directories
there is a bound on the number of its calls, however they are answered, if nobody interferes and readings of directories come to an end. -/
theorem C100_detox_comes_to_an_end {P : Platform} (hP : P.Benign) {I : Invocation} {ss : List Setting} {ws : List Bytes} (hr : Renames I ss ws)
    (hdry : Setting.dryRun ∉ ss) {files : Bytes → Option Bytes} {plain : Bool} {q : Sequence} (hw : Written I ss files plain q)
    (hsl : ∀ name v, NulFree name → (0x2F : Byte) ∉ name → FiltersSay P I.ctype I.datadir files q.filters name v → (0x2F : Byte) ∉ v)
    (hnul : ∀ f ∈ ws, NulFree f) {fs : FS} {depth : Ino → Nat} {slack level : Nat}
    (ht : fs.Tree depth slack) (hst : ∀ f ∈ ws, fs.Steady depth slack level f) (K : Nat) :
    ∃ N, ∀ fuel tr out w, Trace (detoxMain P I fuel) tr out → (∀ e ∈ tr, Faithful files e) → World.Steps (World.start fs) tr w →
      (∀ p r, Event.lstat p r ∈ tr → fs.denied p = false) → Frugal K tr →
      tr.length ≤ N ∧ (N < fuel → NamesFit plain ws tr → (∀ d, Event.opendir d .emfile ∉ tr) → out = .running ∨ out = .ret ()) := by
  obtain ⟨N, hN⟩ := main_calls hr hdry hw (P := P) (fun o hb name v h1 h2 h3 => hsl name v h1 h2 (hb.says hP hw h1 h3)) hnul ht hst K
  refine ⟨N, fun fuel tr out w h hf hs ha hK => ?_⟩
  have h1 := hN fuel tr out w h hf hs ha hK
  exact ⟨h1, fun hlt hn hem => C97_detox_returns hP hr hw h hf hn hem (by omega)⟩

/-! ### And gets there -/

theorem unconfigured_none {I : Invocation} {ss : List Setting} {tr : List Event} (hg : lastConfig ss = none) (hf : ∀ e ∈ tr, Faithful (fun _ => none) e) :
    Unconfigured I ss tr := ⟨hg, fun _ _ _ hm => by have := hf _ hm _ _ rfl; cases this⟩

/-- The compiled-in sequences in question. -/
theorem usual_chosen {n : Option Bytes} (hn : n = none ∨ ∃ m ∈ [lit "default", lit "utf_8", lit "lower", lit "lower-only"], n = some m) :
    ∃ q, Chosen spoofSequences n q ∧ (decide (n = some (lit "utf_8")) = true ∨ ∀ f ∈ q.filters, f.cleaner ≠ .utf8) := by
  have find : ∀ m ∈ [lit "default", lit "utf_8", lit "lower", lit "lower-only"], ∃ q, FirstNamed m spoofSequences q ∧
      (decide (some m = some (lit "utf_8")) = true ∨ ∀ f ∈ q.filters, f.cleaner ≠ .utf8) := by
    intro m hm
    simp only [List.mem_cons, List.not_mem_nil, or_false] at hm
    rcases hm with rfl | rfl | rfl | rfl
    · exact ⟨_, ⟨spoofSequences.take 0, _, rfl, rfl, by decide +kernel⟩, .inr (by decide +kernel)⟩
    · exact ⟨_, ⟨spoofSequences.take 3, _, rfl, rfl, by decide +kernel⟩, .inl (by decide +kernel)⟩
    · exact ⟨_, ⟨spoofSequences.take 5, _, rfl, rfl, by decide +kernel⟩, .inr (by decide +kernel)⟩
    · exact ⟨_, ⟨spoofSequences.take 10, _, rfl, rfl, by decide +kernel⟩, .inr (by decide +kernel)⟩
  rcases hn with rfl | ⟨m, hm, rfl⟩
  · obtain ⟨q, h1, h2⟩ := find (lit "default") (by simp)
    refine ⟨q, .inl h1, ?_⟩
    rcases h2 with h2 | h2
    · exact absurd h2 (by decide +kernel)
    · exact .inr h2
  · exact find m hm

/-- What is renamed has a name. -/
theorem main_renames_names {P : Platform} {I : Invocation} {fuel : Nat} {ss : List Setting} {ws : List Bytes}
    (hc : CommandLine I.posixlyCorrect I.args ss ws) {tr : List Event} {out : Outcome Unit} (h : Trace (detoxMain P I fuel) tr out)
    (hu : Unconfigured I ss tr) (old new : Bytes) (ok : Bool) (hmem : Event.rename old new ok ∈ tr) (E : TableEnv) :
    ∃ dir name cleaned, SplitsAs old dir name ∧ name ≠ [] ∧ new = dir ++ cleaned ∧ runBuiltin P E (requested I ss) name = .ok (some cleaned) := by
  obtain ⟨pre, post, htr⟩ := List.append_of_mem hmem
  obtain ⟨c, q, q', r1, r2, rest, hp, h1, h2, h3, dir, name, cleaned, _, _, _, _, _, a, b, c', d, _⟩ :=
    C66_renames_are_guarded hc h pre post old new ok htr
  refine ⟨dir, name, cleaned, a, ?_, b, ?_⟩
  · rintro rfl
    exact c' (sequence_nil d)
  · rw [unconfigured_run hu (fun e he => by rw [htr, hp]; simp [he]) h1 h2 h3 E name, d]

/-- There is an execution that gets there; `readdir` gives names that fit. -/
theorem detox_gets_there {P : Platform} (hP : P.Benign) {I : Invocation} {ss : List Setting} {ws : List Bytes} (hr : Renames I ss ws)
    (hdry : Setting.dryRun ∉ ss) (hg : lastConfig ss = none)
    (hn : requested I ss = none ∨ ∃ n ∈ [lit "default", lit "utf_8", lit "lower", lit "lower-only"], requested I ss = some n)
    {fs : FS} {depth : Ino → Nat} {slack level : Nat} (ht : fs.Tree depth slack) (hst : ∀ f ∈ ws, fs.Steady depth slack level f)
    (hden : ∀ p, fs.denied p = false) (hnorm : ∀ d a b, fs.norm d a = fs.norm d b → a = b) (hex : ∀ f ∈ ws, fs.lookup f ≠ none)
    (hargs : ∀ f ∈ ws, SafeName (requested I ss) f) (E : TableEnv)
    (hnames : ∀ e ∈ fs.entries, ∀ v, v = e.name ∨ runBuiltin P E (requested I ss) e.name = .ok (some v) → EntryName v ∧ SafeName (requested I ss) v)
    (o : Options) (hrec : o.recurse = true ↔ Setting.recurse ∈ ss) (hsp : o.special = true ↔ Setting.special ∈ ss)
    (hroom : fs.Room (fun m v => runBuiltin P E (requested I ss) m = .ok (some v)) o ws)
    (honce : fs.NamedOnce (fun m v => runBuiltin P E (requested I ss) m = .ok (some v)) o ws) :
    ∃ N, ∀ fuel, N ≤ fuel → ∃ tr w, Trace (detoxMain P I fuel) tr (.ret ()) ∧ (∀ e ∈ tr, Faithful (fun _ => none) e) ∧
      World.Steps (World.start fs) tr w ∧ (World.start fs).ObligesIn tr ∧ Silent tr ∧
      fs.Cleaned (fun m v => runBuiltin P E (requested I ss) m = .ok (some v)) o ws [lit "{arch}"] w.fs ∧
      ∀ d n, Event.readdir d (some n) ∈ tr → SafeName (requested I ss) n := by
  obtain ⟨q, hq, hp⟩ := usual_chosen hn
  have hno : configsInEffect I.config none (fun _ => none) = [] := by
    unfold configsInEffect
    have : ∀ l, present (fun _ => none) l = [] := by
      intro l
      unfold present
      rw [List.filterMap_eq_nil_iff]
      intro a _
      rfl
    simp [this]
  have hw : Written I ss (fun _ => none) (decide (requested I ss = some (lit "utf_8"))) q := C97_builtin_written hg hno hq hp
  have hns : requested I ss ≠ some (lit "utf_8-only") ∧ requested I ss ≠ some (lit "uncgi-only") := by
    rcases hn with hn | ⟨n, hm, hn⟩
    · rw [hn]; exact ⟨by simp, by simp⟩
    · rw [hn]
      simp only [List.mem_cons, List.not_mem_nil, or_false] at hm
      rcases hm with rfl | rfl | rfl | rfl <;> exact ⟨by decide, by decide⟩
  have hfits : ∀ s, SafeName (requested I ss) s → NameFits (decide (requested I ss = some (lit "utf_8"))) s :=
    fun s hs => ⟨hs.1, fun h => hs.2 (.inl (of_decide_eq_true h))⟩
  have hnul : ∀ f ∈ ws, NulFree f := fun f hf => (hargs f hf).1
  obtain ⟨N, hN⟩ := main_calls hr hdry hw (P := P) (fun o hb => by
    obtain ⟨c, q', r1, r2, h1, hf1, h2, h3, h4⟩ := hb.stages
    exact unconfigured_noNewSlash hP (unconfigured_none hg hf1) (fun _ h => h) h1 h2 h3 h4 hns) hnul ht hst fs.entries.length
  refine ⟨N + 1, fun fuel hfuel => ?_⟩
  have hW := NiceWorld.start (fs := fs) fun e he => (hnames e he _ (.inl rfl)).1
  obtain ⟨tr, out, W, h, hnice, hend⟩ := nice_execution (fun _ => none) (detoxMain P I fuel) (World.start fs) hW
  have hf := hnice.faithful
  have hu := unconfigured_none (I := I) (ss := ss) hg hf
  have hlen := hN fuel tr out W h hf hnice.steps (fun p _ _ => hden p) (hnice.frugal (Nat.le_refl _))
  have hidem := usual_idempotent hP E hn
  -- the names
  have hgood : ∀ d n, Event.readdir d (some n) ∈ tr → ∃ e ∈ fs.entries, n = e.name ∨ runBuiltin P E (requested I ss) e.name = .ok (some n) := by
    refine hnice.goodNames (G := fun n => ∃ e ∈ fs.entries, n = e.name ∨ runBuiltin P E (requested I ss) e.name = .ok (some n)) ?_ hnorm
      (fun e he => ⟨e, he, .inl rfl⟩) hW.owed ?_
    · rintro n ⟨e, he, hn⟩
      have := (hnames e he n hn).1
      exact ⟨this.nonempty, this.slash⟩
    · intro old new hm
      obtain ⟨dir, name, v, h1, h2, h3, h4⟩ := main_renames_names hr.line h hu old new true hm E
      refine ⟨dir, name, v, h1, h2, h3, ?_⟩
      rintro ⟨e, he, hn⟩
      rcases hn with rfl | hn
      · exact ⟨e, he, .inr h4⟩
      · have h5 := hidem e.name name (hnames e he _ (.inl rfl)).2.1 hn
        have h6 : name = v := Option.some.inj (Res.ok.inj (h5.symm.trans h4))
        exact ⟨e, he, .inr (h6 ▸ hn)⟩
  have hnf : NamesFit (decide (requested I ss = some (lit "utf_8"))) ws tr := by
    refine ⟨fun f hf => hfits f (hargs f hf), fun d n hm => ?_⟩
    obtain ⟨e, he, hn⟩ := hgood d n hm
    exact hfits n (hnames e he n hn).2
  rcases C97_detox_returns hP hr hw h hf hnf hnice.enough (by omega) with rfl | rfl
  · -- it does not read a directory that is not open
    exfalso
    obtain ⟨d, hd, h'⟩ := hend rfl
    have hf' : ∀ e ∈ tr ++ [.readdir d none], Faithful (fun _ => none) e := by
      intro e he
      rcases List.mem_append.1 he with he | he
      · exact hf e he
      · rw [List.mem_singleton.1 he]; nofun
    rcases main_begins hr hw h' hf' with ⟨_, r1, r2, o1, o2, hrd, g1, g2⟩ | ⟨reads, t, o', l, ign, heq, hh, _, _, hl, ⟨ignored, hi⟩, htr⟩
    · have hm : Event.readdir d none ∈ r1 ++ r2 := by rw [← hrd]; simp
      rcases List.mem_append.1 hm with hm | hm
      · cases (configFileLoad_harmless _ _).trace g1 _ hm
      · cases (reviewSequence_harmless _ _ _).trace g2 _ hm
    · obtain ⟨t', rfl⟩ : ∃ t', t = t' ++ [.readdir d none] := by
        rcases List.eq_nil_or_concat t with rfl | ⟨t', x, rfl⟩
        · have hm : Event.readdir d none ∈ reads := by rw [List.append_nil] at heq; rw [← heq]; simp
          cases hh _ hm
        · rw [List.concat_eq_append, ← List.append_assoc] at heq
          have := (List.append_inj' heq rfl).2
          exact ⟨t', by rw [List.concat_eq_append, this]⟩
      rw [← List.append_assoc] at heq
      obtain rfl := (List.append_inj' heq rfl).1
      obtain ⟨out', hrun, _⟩ := main_run hl hi htr
      obtain ⟨p, S, hop⟩ := (C58_directories_are_read_to_the_end_and_closed P o' ws ignored _ out' hrun).1 t' [] d none rfl
      have hs := world_harmless hh hnice.steps
      have := (steps_openDirs t'.reverse (W := W) (by rw [List.reverse_reverse]; exact hs)).2 d
      exact this.1 ⟨p, by rw [hop]; simp⟩ hd
  · have hlit := literal_exact (fs := fs) hnorm fun m v => runBuiltin P E (requested I ss) m = .ok (some v)
    obtain ⟨h1, h2⟩ := C99_no_complaints_from_main hP hr.line h hu hn hdry (fun h => hr.noInline (.inr h)) (fun h => hr.noInline (.inl h)) hnul ht hst
      hnice.steps (fun p _ _ => hden p) hex E ⟨fun _ _ _ _ _ => hlit _, fun _ _ _ => hlit _⟩ o hrec hsp hnice.obliges hroom honce
    exact ⟨tr, W, h, hf, hnice.steps, hnice.obliges, h1, h2, fun d n hm => by
      obtain ⟨e, he, hn⟩ := hgood d n hm
      exact (hnames e he n hn).2⟩

/-- **C100.** With nothing configured and one of the sequences `default`, `utf_8`, `lower` and `lower-only`, in a tree in which there is room for the new
names: there is an execution in which the system does what it can, it comes to its end, there are no complaints, and afterwards the tree is as it should be. -/
theorem C100_detox_gets_there {P : Platform} (hP : P.Benign) {I : Invocation} {ss : List Setting} {ws : List Bytes} (hr : Renames I ss ws)
    (hdry : Setting.dryRun ∉ ss) (hg : lastConfig ss = none)
    (hn : requested I ss = none ∨ ∃ n ∈ [lit "default", lit "utf_8", lit "lower", lit "lower-only"], requested I ss = some n)
    {fs : FS} {depth : Ino → Nat} {slack level : Nat} (ht : fs.Tree depth slack) (hst : ∀ f ∈ ws, fs.Steady depth slack level f)
    (hden : ∀ p, fs.denied p = false) (hnorm : ∀ d a b, fs.norm d a = fs.norm d b → a = b) (hex : ∀ f ∈ ws, fs.lookup f ≠ none)
    (hargs : ∀ f ∈ ws, SafeName (requested I ss) f) (E : TableEnv)
    (hnames : ∀ e ∈ fs.entries, ∀ v, v = e.name ∨ runBuiltin P E (requested I ss) e.name = .ok (some v) → EntryName v ∧ SafeName (requested I ss) v)
    (o : Options) (hrec : o.recurse = true ↔ Setting.recurse ∈ ss) (hsp : o.special = true ↔ Setting.special ∈ ss)
    (hroom : fs.Room (fun m v => runBuiltin P E (requested I ss) m = .ok (some v)) o ws)
    (honce : fs.NamedOnce (fun m v => runBuiltin P E (requested I ss) m = .ok (some v)) o ws) :
    ∃ N, ∀ fuel, N ≤ fuel → ∃ tr w, Trace (detoxMain P I fuel) tr (.ret ()) ∧ (∀ e ∈ tr, Faithful (fun _ => none) e) ∧
      World.Steps (World.start fs) tr w ∧ (World.start fs).ObligesIn tr ∧ Silent tr ∧
      fs.Cleaned (fun m v => runBuiltin P E (requested I ss) m = .ok (some v)) o ws [lit "{arch}"] w.fs := by
  obtain ⟨N, hN⟩ := detox_gets_there hP hr hdry hg hn ht hst hden hnorm hex hargs E hnames o hrec hsp hroom honce
  refine ⟨N, fun fuel hfuel => ?_⟩
  obtain ⟨tr, w, h1, h2, h3, h4, h5, h6, _⟩ := hN fuel hfuel
  exact ⟨tr, w, h1, h2, h3, h4, h5, h6⟩

/-! ### A concrete case -/

/-- `readdir` gives a name. -/
def isName : Event → Bool
  | .readdir _ (some _) => true
  | _ => false

theorem frugal_of_count {K : Nat} {tr : List Event} (h : tr.countP isName ≤ K) : Frugal K tr := by
  intro t1 p k t2 n t3 heq _
  have : (t2.filter (givesName k)).length ≤ t2.countP isName := by
    rw [← List.countP_eq_length_filter]
    refine List.countP_mono_left fun e _ he => ?_
    unfold givesName at he
    split at he
    · rfl
    · cases he
  rw [heq, List.countP_append, List.countP_cons, List.countP_append, List.countP_cons] at h
  simp only [isName, Bool.false_eq_true, if_false, if_true] at h
  omega

theorem treeCall_renames : Renames treeCall [.recurse] [lit "my dir"] :=
  ⟨.cluster [0x72] [.recurse] _ _ [] (by simp) (.cons _ _ _ _ .recurse .nil) (.operand _ _ _ _ rfl (.inl (by decide +kernel)) .none),
    by simp [Setting.Leaves], by simp, by
      rintro (h | h)
      · rw [← posixBasename_inline] at h
        exact absurd h (by decide +kernel)
      · simp at h, by simp⟩

/- `detox -r 'my dir'`. -/
example : ∃ N, ∀ fuel, N ≤ fuel → ∃ tr w, Trace (detoxMain .linux treeCall fuel) tr (.ret ()) ∧ (∀ e ∈ tr, Faithful (fun _ => none) e) ∧
    World.Steps (World.start treeFS) tr w ∧ (World.start treeFS).ObligesIn tr ∧ Silent tr ∧
    treeFS.Cleaned TreeMakes { recurse := true } [lit "my dir"] [lit "{arch}"] w.fs := by
  refine C100_detox_gets_there (by decide) treeCall_renames (by simp) rfl (.inl rfl) treeFS_tree treeFS_steady (fun _ => rfl) (fun _ _ _ h => h)
    (by decide +kernel) ?_ _ ?_ _ (by simp) (by simp) treeFS_room treeFS_once
  · intro f hf
    rw [List.mem_singleton.1 hf]
    exact ⟨by decide +kernel, by rintro (h | h) <;> cases h⟩
  · have h0 : ∀ e ∈ treeFS.entries, EntryName e.name := by decide +kernel
    have h1 : ∀ x ∈ treeNames, EntryName x.2 := by decide +kernel
    rintro e he v (rfl | hv)
    · exact ⟨h0 e he, (h0 e he).nul, by rintro (h | h) <;> cases h⟩
    · have := h1 _ (treeFS_new e he v hv)
      exact ⟨this, this.nul, by rintro (h | h) <;> cases h⟩

/- With `DETOX_SEQUENCE=lower-only`, the bound holds of all executions, in which each reading gives at most 10 names. -/
example : ∃ N, ∀ fuel tr out w, Trace (detoxMain .linux { treeCall with sequence := some (lit "lower-only") } fuel) tr out →
    (∀ e ∈ tr, Faithful (fun _ => none) e) → World.Steps (World.start treeFS) tr w → Frugal 10 tr → tr.length ≤ N := by
  have hr : Renames { treeCall with sequence := some (lit "lower-only") } [.recurse] [lit "my dir"] :=
    ⟨treeCall_renames.line, treeCall_renames.stays, treeCall_renames.noList, treeCall_renames.noInline, treeCall_renames.args⟩
  have hw : Written { treeCall with sequence := some (lit "lower-only") } [.recurse] (fun _ => none) false
      (generateSequence (lit "lower-only") [generateFilter .lower]) :=
    C97_builtin_written rfl (by decide +kernel) ⟨spoofSequences.take 10, _, rfl, rfl, by decide +kernel⟩ (.inr (by decide +kernel))
  have hsmall : ∀ c : Byte, small c = 0x2F → c = 0x2F :=
    forall_byte (by decide +kernel)
  obtain ⟨N, hN⟩ := C100_detox_comes_to_an_end (P := .linux) (by decide) hr (by simp) hw (by
    intro name v _ hs h hm
    cases h with
    | cons _ _ _ mid _ h1 h2 =>
      cases h2
      have hc : (generateFilter .lower).cleaner = .lower := rfl
      cases h1 <;> rename_i hl <;> simp_all [generateFilter]
      obtain ⟨c, hc, hc'⟩ := hm
      exact hs (hsmall c hc' ▸ hc)) (by decide +kernel) treeFS_tree treeFS_steady 10
  exact ⟨N, fun fuel tr out w h1 h2 h3 h4 => (hN fuel tr out w h1 h2 h3 (fun _ _ _ => rfl) h4).1⟩

/- An execution in which a file is given twice. -/
example : Frugal 6 treeTrace := frugal_of_count (by decide +kernel)

end Detox
