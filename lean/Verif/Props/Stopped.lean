import Verif.Props.Whatever
import Verif.Props.Resume

/-!
# C120: getting there, and runs that are cut short and run again, whatever is configured
-/

set_option autoImplicit false

namespace Detox
open Spec

/-- The case of C100 and C108 with any configuration for which one pass is enough: files are to be renamed; the arguments are there, the directories are a tree,
nothing is denied, and no two ways of writing are the same name. -/
structure ConfiguredCase (P : Platform) (I : Invocation) (ss : List Setting) (ws : List Bytes) (files : Bytes → Option Bytes) (plain : Bool) (q : Sequence)
    (ig : List Bytes) (fs : FS) (depth : Ino → Nat) (slack level : Nat) : Prop where
  asked : Renames I ss ws
  wet : Setting.dryRun ∉ ss
  written : Written I ss files plain q
  ignored : IgnoredAre I.config (lastConfig ss) files ig
  settles : Settles (FiltersSay P I.ctype I.datadir files q.filters)
  fits : ∀ m v, NulFree m → FiltersSay P I.ctype I.datadir files q.filters m v → NameFits plain v
  tree : fs.Tree depth slack
  steady : ∀ f ∈ ws, fs.Steady depth slack level f
  allowed : ∀ p, fs.denied p = false
  exact : ∀ d a b, fs.norm d a = fs.norm d b → a = b
  here : ∀ f ∈ ws, fs.lookup f ≠ none
  args : ∀ f ∈ ws, NameFits plain f
  names : ∀ e ∈ fs.entries, ∀ v, v = e.name ∨ FiltersSay P I.ctype I.datadir files q.filters e.name v → EntryName v ∧ NameFits plain v

/-- An execution of detox, complete or cut short, with the file system for itself; `files` are the texts of the files it reads, and `readdir` gives names that
fit (NULs apart, there are others only if `plain`). -/
structure ConfiguredAttempt (P : Platform) (I : Invocation) (files : Bytes → Option Bytes) (plain : Bool) (fs : FS) (tr : List Event) (out : Outcome Unit)
    (w : World) : Prop where
  trace : ∃ fuel, Trace (detoxMain P I fuel) tr out
  files : ∀ e ∈ tr, Faithful files e
  steps : World.Steps (World.start fs) tr w
  given : ∀ d n, Event.readdir d (some n) ∈ tr → NameFits plain n

section
variable {P : Platform} {I : Invocation} {ss : List Setting} {ws : List Bytes} {files : Bytes → Option Bytes} {plain : Bool} {q : Sequence}
variable {ig : List Bytes} {fs : FS} {depth : Ino → Nat} {slack level : Nat}

theorem ConfiguredCase.onePass (hu : ConfiguredCase P I ss ws files plain q ig fs depth slack level) : OnePass (FiltersSay P I.ctype I.datadir files q.filters) :=
  ⟨fun _ _ _ h1 h2 => filtersSay_unique h1 h2, hu.settles.again⟩

theorem ConfiguredCase.noNewSlash (hP : P.Benign) (hu : ConfiguredCase P I ss ws files plain q ig fs depth slack level) (o : Options)
    (hb : Begun P I ss files plain q o) : NoNewSlash P o :=
  fun n c h0 h1 h2 => hu.settles.slash n c h0 h1 (hb.says hP hu.written h0 h2)

/-- What is renamed, with any configuration. -/
theorem configured_renames (hP : P.Benign) (hr : Renames I ss ws) (hw : Written I ss files plain q) {fuel : Nat} {tr : List Event} {out : Outcome Unit}
    (h : Trace (detoxMain P I fuel) tr out) (hf : ∀ e ∈ tr, Faithful files e) (old new : Bytes) (ok : Bool) (hmem : Event.rename old new ok ∈ tr) :
    ∃ dir name v, SplitsAs old dir name ∧ name ≠ [] ∧ new = dir ++ v ∧ (NulFree name → FiltersSay P I.ctype I.datadir files q.filters name v) := by
  rcases main_begins hr hw h hf with ⟨_, r1, r2, o1, o2, hrd, g1, g2⟩ | ⟨reads, t, o, l, ign, rfl, hh, _, hb, hl, ⟨ignored, hi⟩, htr⟩
  · exfalso
    rw [hrd] at hmem
    rcases List.mem_append.1 hmem with hm | hm
    · cases (configFileLoad_harmless _ _).trace g1 _ hm
    · cases (reviewSequence_harmless _ _ _).trace g2 _ hm
  · rcases List.mem_append.1 hmem with hm | hm
    · cases hh _ hm
    obtain ⟨out', hrun, _⟩ := main_run hl hi htr
    obtain ⟨_, _, _, _, _, _, hf⟩ := hrun
    obtain ⟨pre, post, heq⟩ := List.append_of_mem hm
    obtain ⟨dir, name, v, _, _, _, _, _, a, b, c, d, _⟩ := C31_renames_are_guarded P o _ _ _ _ _ _ hf pre post old new ok heq
    refine ⟨dir, name, v, a, ?_, b, fun h0 => hb.says hP hw h0 d⟩
    rintro rfl
    exact c (sequence_nil d)

/-- If it could go on, there is nothing it does with a directory that is not open. -/
theorem configured_reads_open (hw : Written I ss files plain q) (hr : Renames I ss ws) {fuel : Nat} {tr : List Event} {W : World}
    {d : Nat} (h : Trace (detoxMain P I fuel) (tr ++ [.readdir d none]) .running) (hf : ∀ e ∈ tr, Faithful files e)
    (hs : World.Steps (World.start fs) tr W) : W.streams d ≠ none := by
  intro hd
  have hf' : ∀ e ∈ tr ++ [.readdir d none], Faithful files e := by
    intro e he
    rcases List.mem_append.1 he with he | he
    · exact hf e he
    · rw [List.mem_singleton.1 he]; nofun
  rcases main_begins hr hw h hf' with ⟨_, r1, r2, o1, o2, hrd, g1, g2⟩ | ⟨reads, t, o', l, ign, heq, hh, _, _, hl, ⟨ignored, hi⟩, htr⟩
  · have hm : Event.readdir d none ∈ r1 ++ r2 := by rw [← hrd]; simp
    rcases List.mem_append.1 hm with hm | hm
    · cases (configFileLoad_harmless _ _).trace g1 _ hm
    · cases (reviewSequence_harmless _ _ _).trace g2 _ hm
  · obtain ⟨t', rfl⟩ : ∃ t', t = t' ++ [.readdir d none] := by
      rcases List.eq_nil_or_concat t with rfl | ⟨t', x, rfl⟩
      · have hm : Event.readdir d none ∈ reads := by rw [List.append_nil] at heq; rw [← heq]; simp
        cases hh _ hm
      · rw [List.concat_eq_append, ← List.append_assoc] at heq
        have := (List.append_inj' heq rfl).2
        exact ⟨t', by rw [List.concat_eq_append, this]⟩
    rw [← List.append_assoc] at heq
    obtain rfl := (List.append_inj' heq rfl).1
    obtain ⟨out', hrun, _⟩ := main_run hl hi htr
    obtain ⟨p, S, hop⟩ := (C58_directories_are_read_to_the_end_and_closed P o' ws ignored _ out' hrun).1 t' [] d none rfl
    have hs := world_harmless hh hs
    have := (steps_openDirs t'.reverse (W := W) (by rw [List.reverse_reverse]; exact hs)).2 d
    exact this.1 ⟨p, by rw [hop]; simp⟩ hd

/-- The names there are at any moment: those there were, and what the filters make of them. -/
theorem ConfiguredCase.renamed_names (hP : P.Benign) (hu : ConfiguredCase P I ss ws files plain q ig fs depth slack level) {fuel : Nat} {tr : List Event}
    {out : Outcome Unit} (h : Trace (detoxMain P I fuel) tr out) (hf : ∀ e ∈ tr, Faithful files e) (old new : Bytes) (hm : Event.rename old new true ∈ tr) :
    ∃ dir name v, SplitsAs old dir name ∧ name ≠ [] ∧ new = dir ++ v ∧
      ((∃ e ∈ fs.entries, name = e.name ∨ FiltersSay P I.ctype I.datadir files q.filters e.name name) →
        ∃ e ∈ fs.entries, v = e.name ∨ FiltersSay P I.ctype I.datadir files q.filters e.name v) := by
  obtain ⟨dir, name, v, h1, h2, h3, h4⟩ := configured_renames hP hu.asked hu.written h hf old new true hm
  refine ⟨dir, name, v, h1, h2, h3, ?_⟩
  rintro ⟨e, he, hn⟩
  have h4 := h4 (hu.names e he name hn).2.1
  rcases hn with rfl | hn
  · exact ⟨e, he, .inr h4⟩
  · have h5 := hu.settles.again e.name name (hu.names e he _ (.inl rfl)).2.1 hn
    exact ⟨e, he, .inr (filtersSay_unique h5 h4 ▸ hn)⟩

/-- **C120.** With any configuration for which one pass is enough, in a tree in which there is room for the new names: there is an execution in which the system
does what it can, it comes to its end, there are no complaints, and afterwards the tree is as it should be. -/
theorem C120_gets_there (hP : P.Benign) (hu : ConfiguredCase P I ss ws files plain q ig fs depth slack level)
    (o : Options) (hrec : o.recurse = true ↔ Setting.recurse ∈ ss) (hsp : o.special = true ↔ Setting.special ∈ ss)
    (hroom : fs.Room (FiltersSay P I.ctype I.datadir files q.filters) o ws)
    (honce : fs.NamedOnce (FiltersSay P I.ctype I.datadir files q.filters) o ws) :
    ∃ N, ∀ fuel, N ≤ fuel → ∃ tr w, Trace (detoxMain P I fuel) tr (.ret ()) ∧ ConfiguredAttempt P I files plain fs tr (.ret ()) w ∧
      (World.start fs).ObligesIn tr ∧ Silent tr ∧ fs.Cleaned (FiltersSay P I.ctype I.datadir files q.filters) o ws ig w.fs := by
  have hnul : ∀ f ∈ ws, NulFree f := fun f hf => (hu.args f hf).1
  obtain ⟨N, hN⟩ := main_calls hu.asked hu.wet hu.written (P := P) (hu.noNewSlash hP) hnul hu.tree hu.steady fs.entries.length
  refine ⟨N + 1, fun fuel hfuel => ?_⟩
  have hW := NiceWorld.start (fs := fs) fun e he => (hu.names e he _ (.inl rfl)).1
  obtain ⟨tr, out, W, h, hnice, hend⟩ := nice_execution files (detoxMain P I fuel) (World.start fs) hW
  have hf := hnice.faithful
  have hlen := hN fuel tr out W h hf hnice.steps (fun p _ _ => hu.allowed p) (hnice.frugal (Nat.le_refl _))
  have hgood : ∀ d n, Event.readdir d (some n) ∈ tr → ∃ e ∈ fs.entries, n = e.name ∨ FiltersSay P I.ctype I.datadir files q.filters e.name n := by
    refine hnice.goodNames (G := fun n => ∃ e ∈ fs.entries, n = e.name ∨ FiltersSay P I.ctype I.datadir files q.filters e.name n) ?_ hu.exact
      (fun e he => ⟨e, he, .inl rfl⟩) hW.owed fun old new hm => hu.renamed_names hP h hf old new hm
    rintro n ⟨e, he, hn⟩
    have := (hu.names e he n hn).1
    exact ⟨this.nonempty, this.slash⟩
  have hgiven : ∀ d n, Event.readdir d (some n) ∈ tr → NameFits plain n := fun d n hm => by
    obtain ⟨e, he, hn⟩ := hgood d n hm
    exact (hu.names e he n hn).2
  rcases C97_detox_returns hP hu.asked hu.written h hf ⟨hu.args, hgiven⟩ hnice.enough (by omega) with rfl | rfl
  · exfalso
    obtain ⟨d, hd, h'⟩ := hend rfl
    exact configured_reads_open hu.written hu.asked h' hf hnice.steps hd
  · have hlit := literal_exact (fs := fs) hu.exact (FiltersSay P I.ctype I.datadir files q.filters)
    obtain ⟨h1, h2⟩ := C118_no_complaints hP ⟨hu.asked, hu.wet, hu.written, hu.ignored, h, hf, hu.settles, hu.fits, hnul,
      fun e he => (hu.names e he _ (.inl rfl)).2, hu.tree, hu.steady, hnice.steps, fun p _ _ => hu.allowed p, hu.here⟩
      ⟨fun _ _ _ _ _ => hlit _, fun _ _ _ => hlit _⟩ o hrec hsp hnice.obliges hroom honce
    exact ⟨tr, W, h, ⟨⟨fuel, h⟩, hf, hnice.steps, hgiven⟩, hnice.obliges, h1, h2⟩

/-- There are still file descriptors, or nothing happens after they ran out. -/
theorem configured_enough (hw : Written I ss files plain q) (hr : Renames I ss ws) {tr : List Event}
    {out : Outcome Unit} {w : World} (h : ConfiguredAttempt P I files plain fs tr out w) :
    ∃ t1 w1, ConfiguredAttempt P I files plain fs t1 .running w1 ∧ w1.fs = w.fs ∧ ∀ d, Event.opendir d .emfile ∉ t1 := by
  obtain ⟨fuel, ht⟩ := h.trace
  by_cases hem : ∃ d, Event.opendir d .emfile ∈ tr
  · obtain ⟨d, hd⟩ := hem
    have hno : ∀ {reads : List Event}, (∀ e ∈ reads, Harmless e) → ∀ d, Event.opendir d .emfile ∉ reads := fun h d hm => by cases h _ hm
    rcases main_begins hr hw ht h.files with ⟨_, r1, r2, o1, o2, hrd, g1, g2⟩ | ⟨reads, t, o', l, ign, heq, hh, _, _, _, _, htr⟩
    · exfalso
      rw [hrd] at hd
      rcases List.mem_append.1 hd with hm | hm
      · exact hno (fun e he => (configFileLoad_harmless _ _).trace g1 _ he) _ hm
      · exact hno (fun e he => (reviewSequence_harmless _ _ _).trace g2 _ he) _ hm
    subst heq
    have hd' : Event.opendir d .emfile ∈ t := (List.mem_append.1 hd).resolve_left (hno hh d)
    obtain ⟨a, b, rfl⟩ := List.append_of_mem hd'
    have hg : GivesUp ((fileLoop P o' fuel (l.count + 1) l ign).bind fun _ => Prog.ret ()) := givesUp_bind (fileLoop_givesUp _ _ _ _) fun _ => givesUp_ret _
    have hb := (hg a d b out htr).1
    have hsteps := h.steps
    rw [← List.append_assoc] at hsteps
    obtain ⟨w1, h1, h2⟩ := World.Steps.append_inv hsteps
    have hcut : Trace (detoxMain P I fuel) (reads ++ a) .running := trace_cut (t2 := .opendir d .emfile :: b) (by rw [List.append_assoc]; exact ht)
    refine ⟨reads ++ a, w1, ⟨⟨fuel, hcut⟩, fun e he => h.files e ?_, h1, fun k n hm => h.given k n ?_⟩, ?_, ?_⟩
    · rw [← List.append_assoc]; exact List.mem_append_left _ he
    · rw [← List.append_assoc]; exact List.mem_append_left _ hm
    · cases h2 with
      | cons _ w2 _ _ _ h3 h4 =>
        rw [steps_errs h4 hb]
        cases h3
        rfl
    · intro d' hm
      rcases List.mem_append.1 hm with hm | hm
      · exact hno hh _ hm
      · obtain ⟨a1, a2, rfl⟩ := List.append_of_mem hm
        have := (hg a1 d' (a2 ++ .opendir d .emfile :: b) out (by rw [List.append_assoc] at htr; exact htr)).1 (.opendir d .emfile) (by simp)
        obtain ⟨s, hs⟩ := this
        cases hs
  · exact ⟨tr, w, ⟨⟨fuel, trace_stopped ht⟩, h.files, h.steps, h.given⟩, rfl, fun d hm => hem ⟨d, hm⟩⟩

/-- What an execution did to the tree, complete or not. -/
theorem configured_midway (hP : P.Benign) (hu : ConfiguredCase P I ss ws files plain q ig fs depth slack level) (o : Options)
    (hrec : o.recurse = true ↔ Setting.recurse ∈ ss) (hsp : o.special = true ↔ Setting.special ∈ ss) {tr : List Event} {out : Outcome Unit} {w : World}
    (h : ConfiguredAttempt P I files plain fs tr out w) :
    ∃ g, Midway (FiltersSay P I.ctype I.datadir files q.filters) o ws fs depth slack level g w.fs := by
  obtain ⟨tr, w1, h, hsame, hem⟩ := configured_enough hu.written hu.asked h
  rw [← hsame]
  clear hsame
  obtain ⟨fuel0, ht⟩ := h.trace
  have hnul : ∀ f ∈ ws, NulFree f := fun f hf => (hu.args f hf).1
  obtain ⟨N, hN⟩ := main_calls hu.asked hu.wet hu.written (P := P) (hu.noNewSlash hP) hnul hu.tree hu.steady (tr.length + fs.entries.length + 1)
  obtain ⟨fuel, hfuel, ht⟩ : ∃ fuel, N < fuel ∧ Trace (detoxMain P I fuel) tr .running :=
    ⟨fuel0 + N + 1, by omega, detoxMain_below (by omega) _ _ ht nofun⟩
  -- the names
  let G : Bytes → Prop := fun n => ∃ e ∈ fs.entries, n = e.name ∨ FiltersSay P I.ctype I.datadir files q.filters e.name n
  have hG : ∀ n, G n → EntryName n ∧ NameFits plain n := fun n ⟨e, he, hn⟩ => hu.names e he n hn
  have hgood : ∀ e ∈ w1.fs.entries, G e.name :=
    steps_goodNames (G := G) (fun n hn => ⟨(hG n hn).1.nonempty, (hG n hn).1.slash⟩) h.steps hu.exact (fun e he => ⟨e, he, .inl rfl⟩)
      fun old new hm => hu.renamed_names hP ht h.files old new hm
  have howed := steps_owed h.steps (L := fs.entries.length) (Nat.le_refl _) (fun k s hs => by cases hs)
  have hopen : OpenWorld w1 := ⟨fun e he => (hG _ (hgood e he)).1, fun k s hs => (howed k s hs).2⟩
  -- it goes on, though nothing more is done
  obtain ⟨p, hp⟩ := trace_rest ht
  obtain ⟨ext, out, w2, h1, h2, h3⟩ := still_execution files p w1 hopen
  have hfe : ∀ e ∈ tr ++ ext, Faithful files e := by
    intro e he
    rcases List.mem_append.1 he with he | he
    · exact h.files e he
    · exact (h2.all e he).1
  have hse : World.Steps (World.start fs) (tr ++ ext) w2 := steps_append h.steps h2.steps
  have htr := hp _ _ h1
  have hlen := hN fuel _ out w2 htr hfe hse (fun p _ _ => hu.allowed p) (frugal_extend (fun k s hs => (howed k s hs).1) h2)
  have hnf : NamesFit plain ws (tr ++ ext) := by
    refine ⟨hu.args, fun d n hm => ?_⟩
    rcases List.mem_append.1 hm with hm | hm
    · exact h.given d n hm
    · refine h2.given (S := NameFits plain) (fun k s hs n hn => ?_) d n hm
      obtain ⟨e, he, _, hen⟩ := namesIn_mem (hopen.owed k s hs n hn)
      rw [← hen]
      exact (hG _ (hgood e he)).2
  have heme : ∀ d, Event.opendir d .emfile ∉ tr ++ ext := by
    intro d hm
    rcases List.mem_append.1 hm with hm | hm
    · exact hem d hm
    · cases (h2.all _ hm).2 _ _ rfl
  have hret : out = .ret () := by
    rcases C97_detox_returns hP hu.asked hu.written htr hfe hnf heme (by omega) with rfl | rfl
    · obtain ⟨d, hd, h4⟩ := h3 rfl
      have := hp _ _ h4
      rw [← List.append_assoc] at this
      exact absurd hd (configured_reads_open hu.written hu.asked this hfe hse)
    · rfl
  subst hret
  -- what a complete run did
  have hrun : ConfiguredRun P I fuel ss ws files plain q ig (tr ++ ext) fs depth slack level w2 :=
    ⟨hu.asked, hu.wet, hu.written, hu.ignored, htr, hfe, hu.settles, hu.fits, hnul, fun e he => (hu.names e he _ (.inl rfl)).2, hu.tree, hu.steady, hse,
      fun p _ _ => hu.allowed p, hu.here⟩
  obtain ⟨reads, t, o', a, heq, _, _, hb, hC, hrun, says, hidem⟩ := hrun.parts hP
  obtain ⟨k, _, _⟩ := hC.keeps hrun
  obtain ⟨seen, hscan⟩ := C72_runs_are_scans hrun
  rw [← h2.same]
  have hlit := literal_exact (fs := fs) hu.exact (Makes P o')
  obtain ⟨g, hnow⟩ := args_names (args := ws) (g := fun e => e)
    (show OnePass (Makes P o') from ⟨fun _ _ _ h1 h2 => Option.some.inj (Res.ok.inj (Eq.trans (Eq.symm h1) h2)), hidem⟩)
    ⟨hC.wet, hC.slash, fun _ h => sequence_nil h, hC.allowed⟩
    (fun _ _ _ => hlit _) hu.tree hscan (fun _ h => h) (W := World.start fs) rfl hu.tree hu.steady (fun _ _ _ => rfl) hnul (fun _ h => h) hu.here
    (fun _ _ _ _ _ => hlit _) hC.steps ⟨by rw [List.map_id']; rfl, fun e _ => .inl rfl⟩
  refine ⟨g, ⟨hnow.same, fun e he => ?_⟩, k.tree, k.finds⟩
  rcases hnow.each e he with h5 | ⟨h5, h6, h7, h8, h9⟩
  · exact .inl h5
  · refine .inr ⟨h5, h6, h7, says _ _ h7 h8, treats_congr (hb.asked.2.2.1.trans hrec.symm).1 (hb.asked.2.2.2.1.trans hsp.symm).1 (fun _ h => h) (fun _ _ h => h) he h9⟩

/-- **C120.** Whatever is configured: whenever detox is stopped — killed, out of file descriptors, or at its end, complaints or not — the file system is as it
was, but for names, and each entry has the name it had or the name it should have. Only entries that are to be treated have other names. -/
theorem C120_at_any_moment (hP : P.Benign) (hu : ConfiguredCase P I ss ws files plain q ig fs depth slack level) (o : Options)
    (hrec : o.recurse = true ↔ Setting.recurse ∈ ss) (hsp : o.special = true ↔ Setting.special ∈ ss) {tr : List Event} {out : Outcome Unit} {w : World}
    (h : ConfiguredAttempt P I files plain fs tr out w) : fs.PartlyCleaned (FiltersSay P I.ctype I.datadir files q.filters) o ws w.fs := by
  obtain ⟨g, hg⟩ := configured_midway hP hu o hrec hsp h
  exact hg.partly

/-! ### Run again -/

theorem ConfiguredCase.resumable (hu : ConfiguredCase P I ss ws files plain q ig fs depth slack level)
    (hc : fs.ArgsClean (FiltersSay P I.ctype I.datadir files q.filters) ws) :
    Resumable (FiltersSay P I.ctype I.datadir files q.filters) ws fs depth slack level :=
  ⟨hu.onePass, fun e he => (hu.names e he _ (.inl rfl)).1.nul, hu.exact, hu.allowed, hu.tree, hu.steady, hu.here, hc⟩

theorem ConfiguredCase.after (hu : ConfiguredCase P I ss ws files plain q ig fs depth slack level)
    (hc : fs.ArgsClean (FiltersSay P I.ctype I.datadir files q.filters) ws)
    {o : Options} {g : Entry → Entry} {fs1 : FS} (hm : Midway (FiltersSay P I.ctype I.datadir files q.filters) o ws fs depth slack level g fs1) :
    ConfiguredCase P I ss ws files plain q ig fs1 depth slack level ∧ fs1.ArgsClean (FiltersSay P I.ctype I.datadir files q.filters) ws := by
  have hr := hu.resumable hc
  have hr1 := hm.resumable hr fun e he v hv => (hu.names e he v (.inr hv)).1.nul
  refine ⟨⟨hu.asked, hu.wet, hu.written, hu.ignored, hu.settles, hu.fits, hr1.tree, hr1.steady, hr1.allowed, hr1.exact, hr1.here, hu.args, ?_⟩, hr1.clean⟩
  intro e1 he1 v hv
  obtain ⟨e, he, rfl⟩ := hm.now.mem he1
  refine hu.names e he v ?_
  rcases hv with rfl | hv
  · rcases hm.now.each e he with h | h
    · exact .inl (by rw [h])
    · exact .inr h.2.2.2.1
  · exact .inr (hm.renamed hr he hv).1

end

/-- Any number of executions one after the other, each complete or cut short. -/
inductive ConfiguredAttempts (P : Platform) (I : Invocation) (files : Bytes → Option Bytes) (plain : Bool) : FS → FS → Prop
  | none (fs : FS) : ConfiguredAttempts P I files plain fs fs
  | more (fs : FS) (tr : List Event) (out : Outcome Unit) (w : World) (fs' : FS) :
      ConfiguredAttempt P I files plain fs tr out w → ConfiguredAttempts P I files plain w.fs fs' → ConfiguredAttempts P I files plain fs fs'

section
variable {P : Platform} {I : Invocation} {ss : List Setting} {ws : List Bytes} {files : Bytes → Option Bytes} {plain : Bool} {q : Sequence}
variable {ig : List Bytes} {fs fs1 : FS} {depth : Ino → Nat} {slack level : Nat}

theorem configuredAttempts_midway (hP : P.Benign) (o : Options) (hrec : o.recurse = true ↔ Setting.recurse ∈ ss)
    (hsp : o.special = true ↔ Setting.special ∈ ss) (h : ConfiguredAttempts P I files plain fs fs1) :
    ConfiguredCase P I ss ws files plain q ig fs depth slack level → fs.ArgsClean (FiltersSay P I.ctype I.datadir files q.filters) ws →
    ∃ g, Midway (FiltersSay P I.ctype I.datadir files q.filters) o ws fs depth slack level g fs1 := by
  induction h with
  | none fs => exact fun hu hc => ⟨_, .refl (hu.resumable hc)⟩
  | more fs tr out w fs' h1 _ ih =>
    intro hu hc
    obtain ⟨g, hg⟩ := configured_midway hP hu o hrec hsp h1
    obtain ⟨hu1, hc1⟩ := hu.after hc hg
    obtain ⟨g1, hg1⟩ := ih hu1 hc1
    exact ⟨_, hg.trans (hu.resumable hc) hg1⟩

/-- A run in a configured case. -/
theorem ConfiguredCase.run (hu : ConfiguredCase P I ss ws files plain q ig fs depth slack level) {tr : List Event} {w : World}
    (h : ConfiguredAttempt P I files plain fs tr (.ret ()) w) : ∃ fuel, ConfiguredRun P I fuel ss ws files plain q ig tr fs depth slack level w := by
  obtain ⟨fuel, ht⟩ := h.trace
  exact ⟨fuel, hu.asked, hu.wet, hu.written, hu.ignored, ht, h.files, hu.settles, hu.fits, fun f hf => (hu.args f hf).1,
    fun e he => (hu.names e he _ (.inl rfl)).2, hu.tree, hu.steady, h.steps, fun p _ _ => hu.allowed p, hu.here⟩

/-- **C120.** detox can be run again, with the same arguments and the same configuration, however often it was stopped and wherever. If the arguments have clean
names and no directory would get a name that is skipped: a last run that comes to its end without complaints leaves the tree as if there had been no other. -/
theorem C120_run_again (hP : P.Benign) (hu : ConfiguredCase P I ss ws files plain q ig fs depth slack level)
    (hc : fs.ArgsClean (FiltersSay P I.ctype I.datadir files q.filters) ws)
    (hv : fs.StaysInView (FiltersSay P I.ctype I.datadir files q.filters) fun n => Hidden n ∨ n ∈ ig) (o : Options)
    (hrec : o.recurse = true ↔ Setting.recurse ∈ ss) (hsp : o.special = true ↔ Setting.special ∈ ss) (h : ConfiguredAttempts P I files plain fs fs1)
    {tr : List Event} {w : World} (hlast : ConfiguredAttempt P I files plain fs1 tr (.ret ()) w) (hs : Silent tr) :
    fs.Cleaned (FiltersSay P I.ctype I.datadir files q.filters) o ws ig w.fs := by
  obtain ⟨g, hm⟩ := configuredAttempts_midway hP o hrec hsp h hu hc
  obtain ⟨hu1, _⟩ := hu.after hc hm
  obtain ⟨fuel, hrun⟩ := hu1.run hlast
  have hlit := literal_exact (fs := fs1) hu1.exact (FiltersSay P I.ctype I.datadir files q.filters)
  exact hm.cleaned (hu.resumable hc) hv (hrun.cleaned hP hs ⟨fun _ _ _ _ _ => hlit _, fun _ _ _ => hlit _⟩ o hrec hsp)

/-- **C120.** If there was room for the new names at first, there is at any moment: the last run has no complaints if the system does what it can, and there is
such a run. -/
theorem C120_work_can_be_finished (hP : P.Benign) (hu : ConfiguredCase P I ss ws files plain q ig fs depth slack level)
    (hc : fs.ArgsClean (FiltersSay P I.ctype I.datadir files q.filters) ws)
    (o : Options) (hrec : o.recurse = true ↔ Setting.recurse ∈ ss) (hsp : o.special = true ↔ Setting.special ∈ ss)
    (hroom : fs.Room (FiltersSay P I.ctype I.datadir files q.filters) o ws) (h : ConfiguredAttempts P I files plain fs fs1) :
    (∀ tr w, ConfiguredAttempt P I files plain fs1 tr (.ret ()) w → (World.start fs1).ObligesIn tr → Silent tr) ∧
      ∃ tr w, ConfiguredAttempt P I files plain fs1 tr (.ret ()) w ∧ (World.start fs1).ObligesIn tr := by
  obtain ⟨g, hm⟩ := configuredAttempts_midway hP o hrec hsp h hu hc
  obtain ⟨hu1, hc1⟩ := hu.after hc hm
  have hroom1 := hm.room (hu.resumable hc) hroom
  have honce : fs1.NamedOnce (FiltersSay P I.ctype I.datadir files q.filters) o ws := (hu1.resumable hc1).once
  refine ⟨fun tr w hlast hob => ?_, ?_⟩
  · obtain ⟨fuel, hrun⟩ := hu1.run hlast
    have hlit := literal_exact (fs := fs1) hu1.exact (FiltersSay P I.ctype I.datadir files q.filters)
    exact (C118_no_complaints hP hrun ⟨fun _ _ _ _ _ => hlit _, fun _ _ _ => hlit _⟩ o hrec hsp hob hroom1 honce).1
  · obtain ⟨N, hN⟩ := C120_gets_there hP hu1 o hrec hsp hroom1 honce
    obtain ⟨tr, w, _, h2, h3, _⟩ := hN N (Nat.le_refl _)
    exact ⟨tr, w, h2, h3⟩

/-- **C120.** If no name is one to be ignored, too: the last run ends in the state in which a run would have ended that was not stopped. -/
theorem C120_as_if_never_stopped (hP : P.Benign) (hu : ConfiguredCase P I ss ws files plain q ig fs depth slack level)
    (hc : fs.ArgsClean (FiltersSay P I.ctype I.datadir files q.filters) ws)
    (hv : fs.StaysInView (FiltersSay P I.ctype I.datadir files q.filters) fun n => Hidden n ∨ n ∈ ig) (hno : ∀ e ∈ fs.entries, e.name ∉ ig)
    (h : ConfiguredAttempts P I files plain fs fs1) {tr tr' : List Event} {w w' : World}
    (hlast : ConfiguredAttempt P I files plain fs1 tr (.ret ()) w) (hs : Silent tr) (hone : ConfiguredAttempt P I files plain fs tr' (.ret ()) w') (hs' : Silent tr') :
    w.fs = w'.fs := by
  let o : Options := { recurse := decide (Setting.recurse ∈ ss), special := decide (Setting.special ∈ ss) }
  have hrec : o.recurse = true ↔ Setting.recurse ∈ ss := decide_eq_true_iff
  have hsp : o.special = true ↔ Setting.special ∈ ss := decide_eq_true_iff
  exact C98_only_one_result hu.onePass.one hno (C120_run_again hP hu hc hv o hrec hsp h hlast hs)
    (C120_run_again hP hu hc hv o hrec hsp (.none fs) hone hs')

end

/-! ### A concrete case: `detox -r d` with the configuration of the manual, killed after the first rename -/

def coinCall : Invocation := manualCall (lit "en_US.UTF-8") [lit "-r", lit "d"]

def coinFS : FS := { treeFS with
  entries := [⟨⟨1, 1⟩, lit "d", ⟨1, 2⟩⟩, ⟨⟨1, 2⟩, lit "a & b", ⟨1, 3⟩⟩, ⟨⟨1, 2⟩, lit "sub x", ⟨1, 4⟩⟩, ⟨⟨1, 4⟩, lit "$ 1", ⟨1, 5⟩⟩] }

def coinNames : List (Bytes × Bytes) := [(lit "d", lit "d"), (lit "a & b", lit "a_and_b"), (lit "sub x", lit "sub_x"), (lit "$ 1", lit "money_1")]

def coinTrace : List Event :=
  manualTrace.take 6 ++ [
  .lstat (lit "d") (some ⟨1, 2, 2, .dir⟩), .lstat (lit "d") (some ⟨1, 2, 2, .dir⟩), .opendir (lit "d") (.ok 0),
  .readdir 0 (some (lit "sub x")),
  .lstat (lit "d/sub x") (some ⟨1, 4, 2, .dir⟩), .lstat (lit "d/sub x") (some ⟨1, 4, 2, .dir⟩), .lstat (lit "d/sub_x") none,
  .rename (lit "d/sub x") (lit "d/sub_x") true]

/-- What would have come next. -/
def coinRest : List Event :=
  [.lstat (lit "d/sub_x") (some ⟨1, 4, 2, .dir⟩), .opendir (lit "d/sub_x") (.ok 1), .readdir 1 none, .closedir 1, .readdir 0 none, .closedir 0]

theorem coinTrace_run : Trace (detoxMain .linux coinCall 10) (coinTrace ++ coinRest) (.ret ()) := Prog.result_sound _ _ _ (by decide +kernel)

theorem coin_says : ∀ x ∈ coinNames, ∀ v, MoneySays x.1 v ↔ v = x.2 := by
  have h : ∀ x ∈ coinNames, cleanWipeup false (x.1.flatMap (manualSays (lit "en_US.UTF-8"))) = .ok x.2 ∧ NulFree (x.1.flatMap (manualSays (lit "en_US.UTF-8"))) := by
    unfold NulFree; decide +kernel
  intro x hx v
  obtain ⟨h1, h2⟩ := h x hx
  obtain ⟨out, h3, h5, h4⟩ := C04_wipeup_is_the_documented_reduction false _ h2
  have hout : out = x.2 := Res.ok.inj (h3.symm.trans h1)
  subst hout
  refine ⟨fun hv => h4 v (manual_means .linux _ hv), ?_⟩
  rintro rfl
  exact filtersSay_append (fs := manualFilters.take 2) (manual_first .linux _ _) (filtersSay_one.2 (.wipeup _ rfl h5))

theorem coinFS_new : ∀ e ∈ coinFS.entries, ∀ v, MoneySays e.name v → (e.name, v) ∈ coinNames := by
  have h : ∀ e ∈ coinFS.entries, ∃ x ∈ coinNames, x.1 = e.name := by decide +kernel
  intro e he v hv
  obtain ⟨x, hx, h1⟩ := h e he
  rw [← h1] at hv
  rw [← h1, (coin_says x hx v).1 hv]
  exact hx

theorem coinFS_case : ConfiguredCase .linux coinCall [.recurse] [lit "d"] manualFiles false manualSequence [] coinFS treeDepth 1 0 where
  asked := manual_renames _ _ (recurse_line _ (.inl (by decide +kernel))) (by intro s hs; rw [List.mem_singleton.1 hs]; simp [Setting.Leaves]) (by simp) (by simp) (by simp)
  wet := by simp
  written := manual_written _ _ rfl rfl
  ignored := manual_ignored _ _ rfl
  settles := (manual_settles _ _).1
  fits := fun m v hm hv => ⟨(manual_settles _ _).2 m v hm hv, nofun⟩
  tree := ⟨by unfold FS.Unique; decide +kernel, by decide +kernel, by decide +kernel, treeFS_tree.bound⟩
  steady := by
    intro f hf
    rw [List.mem_singleton.1 hf]
    exact .name [] (lit "d") ⟨1, 1⟩ rfl (.inl rfl) (by decide +kernel) (by decide +kernel) (by decide +kernel) (by decide +kernel)
      ⟨by decide +kernel, by decide +kernel, by decide +kernel, Nat.zero_le _⟩
  allowed := fun _ => rfl
  exact := fun _ _ _ h => h
  here := by decide +kernel
  args := fun f hf => ⟨by rw [List.mem_singleton.1 hf]; decide +kernel, nofun⟩
  names := by
    have h0 : ∀ e ∈ coinFS.entries, EntryName e.name := by decide +kernel
    have h1 : ∀ x ∈ coinNames, EntryName x.2 := by decide +kernel
    rintro e he v (rfl | hv)
    · exact ⟨h0 e he, (h0 e he).nul, nofun⟩
    · have := h1 _ (coinFS_new e he v hv)
      exact ⟨this, this.nul, nofun⟩

theorem coinFS_clean : coinFS.ArgsClean MoneySays [lit "d"] := by
  rintro f hf e ⟨dir, name, _, _, hloc, hfi⟩
  rw [List.mem_singleton.1 hf] at hloc
  have h : coinFS.locate (lit "d") = some (⟨1, 1⟩, lit "d") := by decide +kernel
  have h' := Option.some.inj (hloc.symm.trans h)
  have h2 : coinFS.find ⟨1, 1⟩ (lit "d") = some ⟨⟨1, 1⟩, lit "d", ⟨1, 2⟩⟩ := by decide +kernel
  have he : e = ⟨⟨1, 1⟩, lit "d", ⟨1, 2⟩⟩ := by
    obtain ⟨h3, h4⟩ := Prod.mk.inj h'
    rw [h3, h4] at hfi
    exact Option.some.inj (hfi.symm.trans h2)
  rw [he]
  exact (coin_says (lit "d", lit "d") (by simp [coinNames]) _).2 rfl

theorem coinFS_room : coinFS.Room MoneySays { recurse := true } [lit "d"] := by
  have h0 : ∀ e ∈ coinFS.entries, EntryName e.name := by decide +kernel
  have h1 : ∀ x ∈ coinNames, EntryName x.2 ∧ x.2 ≠ [0x2E] ∧ x.2 ≠ [0x2E, 0x2E] := by decide +kernel
  have h2 : ∀ e ∈ coinFS.entries, ∀ x ∈ coinNames, x.1 = e.name → x.2 ≠ e.name → ∀ e' ∈ coinFS.entries, x.2 ≠ e'.name := by decide +kernel
  have h3 : ∀ e ∈ coinFS.entries, ∀ e' ∈ coinFS.entries, ∀ x ∈ coinNames, ∀ x' ∈ coinNames, x.1 = e.name → x'.1 = e'.name → x.2 = x'.2 → e' = e := by
    decide +kernel
  exact ⟨h0, fun e he _ v hv => h1 _ (coinFS_new e he v hv),
    fun e he _ v hv hne e' he' _ hn => absurd hn (h2 e he _ (coinFS_new e he v hv) rfl hne e' he'),
    fun e he _ e' he' _ _ v v' hv hv' hn => h3 e he e' he' _ (coinFS_new e he v hv) _ (coinFS_new e' he' v' hv') rfl rfl hn⟩

theorem coinFS_view : coinFS.StaysInView MoneySays fun n => Hidden n ∨ n ∈ ([] : List Bytes) := by
  have h : ∀ x ∈ coinNames, ¬ Hidden x.2 := by decide +kernel
  rintro e he _ v hv (hs | hs)
  · exact absurd hs (h _ (coinFS_new e he v hv))
  · cases hs

/- Killed after the rename of `sub x`; then run again, to the end. -/
example : ∃ w1 tr w, ConfiguredAttempt .linux coinCall manualFiles false coinFS coinTrace .running w1 ∧
    w1.fs.entries.map Entry.name = [lit "d", lit "a & b", lit "sub_x", lit "$ 1"] ∧
    ConfiguredAttempt .linux coinCall manualFiles false w1.fs tr (.ret ()) w ∧ Silent tr ∧
    coinFS.Cleaned MoneySays { recurse := true } [lit "d"] [] w.fs := by
  obtain ⟨w1, h1, h2⟩ := World_exec_out (w := World.start coinFS) (tr := coinTrace) (f := fun w => w.fs.entries.map Entry.name)
    (x := [lit "d", lit "a & b", lit "sub_x", lit "$ 1"]) (by decide +kernel)
  have hcut : ConfiguredAttempt .linux coinCall manualFiles false coinFS coinTrace .running w1 := by
    refine ⟨⟨10, trace_cut coinTrace_run⟩, manual_faithful (by intro p r hm; simp at hm), h1, fun d n hm => ?_⟩
    have : n = lit "sub x" := by
      have hm : d = 0 ∧ n = lit "sub x" := by simpa [coinTrace, manualTrace] using hm
      exact hm.2
    rw [this]
    exact ⟨by decide +kernel, nofun⟩
  have hall : ConfiguredAttempts .linux coinCall manualFiles false coinFS w1.fs := .more _ _ _ _ _ hcut (.none _)
  obtain ⟨k1, tr, w, k2, k3⟩ := C120_work_can_be_finished (by decide) coinFS_case coinFS_clean { recurse := true } (by simp) (by simp) coinFS_room hall
  have hs := k1 tr w k2 k3
  exact ⟨w1, tr, w, hcut, h2, k2, hs, C120_run_again (by decide) coinFS_case coinFS_clean coinFS_view { recurse := true } (by simp) (by simp) hall k2 hs⟩

end Detox
