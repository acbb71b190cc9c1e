import Verif.Lemmas.Resume
import Verif.Lemmas.Extend
import Verif.Props.Ends
import Verif.Props.Tree

/-!
# C108: a run that is cut short, and run again
-/

set_option autoImplicit false

namespace Detox
open Spec

/-- The compiled-in sequence that is asked for makes `v` of `m`. -/
abbrev BuiltinMakes (P : Platform) (E : TableEnv) (n : Option Bytes) : Bytes → Bytes → Prop := fun m v => runBuiltin P E n m = .ok (some v)

/-- The case of C100: files are to be renamed, nothing is configured, the sequence is `default`, `utf_8`, `lower` or `lower-only`; the arguments are there,
the directories are a tree, nothing is denied, and no two ways of writing are the same name. -/
structure UsualCase (P : Platform) (E : TableEnv) (I : Invocation) (ss : List Setting) (ws : List Bytes) (fs : FS) (depth : Ino → Nat) (slack level : Nat) :
    Prop where
  call : Renames I ss ws
  wet : Setting.dryRun ∉ ss
  config : lastConfig ss = none
  sequence : requested I ss = none ∨ ∃ n ∈ [lit "default", lit "utf_8", lit "lower", lit "lower-only"], requested I ss = some n
  tree : fs.Tree depth slack
  steady : ∀ f ∈ ws, fs.Steady depth slack level f
  allowed : ∀ p, fs.denied p = false
  exact : ∀ d a b, fs.norm d a = fs.norm d b → a = b
  here : ∀ f ∈ ws, fs.lookup f ≠ none
  args : ∀ f ∈ ws, SafeName (requested I ss) f
  names : ∀ e ∈ fs.entries, ∀ v, v = e.name ∨ BuiltinMakes P E (requested I ss) e.name v → EntryName v ∧ SafeName (requested I ss) v

/-- An execution of detox, complete or cut short, with the file system for itself; `readdir` gives names that fit (NULs apart, there are others for the sequence
`utf_8` only). -/
structure Attempt (P : Platform) (I : Invocation) (ss : List Setting) (fs : FS) (tr : List Event) (out : Outcome Unit) (w : World) : Prop where
  trace : ∃ fuel, Trace (detoxMain P I fuel) tr out
  files : ∀ e ∈ tr, Faithful (fun _ => none) e
  steps : World.Steps (World.start fs) tr w
  given : ∀ d n, Event.readdir d (some n) ∈ tr → SafeName (requested I ss) n

section
variable {P : Platform} {E : TableEnv} {I : Invocation} {ss : List Setting} {ws : List Bytes} {fs : FS} {depth : Ino → Nat} {slack level : Nat}

theorem UsualCase.onePass (hP : P.Benign) (hu : UsualCase P E I ss ws fs depth slack level) : OnePass (BuiltinMakes P E (requested I ss)) :=
  ⟨fun _ _ _ h1 h2 => Option.some.inj (Res.ok.inj (h1.symm.trans h2)), usual_idempotent hP E hu.sequence⟩

theorem noConfig : ∀ c : ConfigEnv, configsInEffect c none (fun _ => none) = [] := by
  intro c
  unfold configsInEffect
  have : ∀ l, present (fun _ => none) l = [] := by
    intro l
    unfold present
    rw [List.filterMap_eq_nil_iff]
    intro a _
    rfl
  simp [this]

theorem UsualCase.written (hu : UsualCase P E I ss ws fs depth slack level) :
    ∃ q, Written I ss (fun _ => none) (decide (requested I ss = some (lit "utf_8"))) q := by
  obtain ⟨q, hq, hp⟩ := usual_chosen hu.sequence
  exact ⟨q, C97_builtin_written hu.config (noConfig _) hq hp⟩

/-- Events that are not about files do not touch any. -/
theorem steps_errs {W W' : World} {tr : List Event} (h : World.Steps W tr W') : (∀ e ∈ tr, ∃ s, e = .err s) → W' = W := by
  induction h with
  | nil W => exact fun _ => rfl
  | cons W W1 W2 e tr h1 _ ih =>
    intro h
    obtain ⟨s, rfl⟩ := h e (by simp)
    cases h1
    exact ih fun e he => h e (by simp [he])

/-- There are still file descriptors, or nothing happens after they ran out. -/
theorem attempt_enough {q : Sequence} {plain : Bool} (hw : Written I ss (fun _ => none) plain q) (hr : Renames I ss ws) {tr : List Event}
    {out : Outcome Unit} {w : World} (h : Attempt P I ss fs tr out w) :
    ∃ t1 w1, Attempt P I ss fs t1 .running w1 ∧ w1.fs = w.fs ∧ ∀ d, Event.opendir d .emfile ∉ t1 := by
  obtain ⟨fuel, ht⟩ := h.trace
  by_cases hem : ∃ d, Event.opendir d .emfile ∈ tr
  · obtain ⟨d, hd⟩ := hem
    have hno : ∀ {reads : List Event}, (∀ e ∈ reads, Harmless e) → ∀ d, Event.opendir d .emfile ∉ reads := fun h d hm => by cases h _ hm
    rcases main_begins hr hw ht h.files with ⟨_, r1, r2, o1, o2, hrd, g1, g2⟩ | ⟨reads, t, o', l, ign, heq, hh, _, _, _, _, htr⟩
    · exfalso
      rw [hrd] at hd
      rcases List.mem_append.1 hd with hm | hm
      · exact hno (fun e he => (configFileLoad_harmless _ _).trace g1 _ he) _ hm
      · exact hno (fun e he => (reviewSequence_harmless _ _ _).trace g2 _ he) _ hm
    subst heq
    have hd' : Event.opendir d .emfile ∈ t := (List.mem_append.1 hd).resolve_left (hno hh d)
    obtain ⟨a, b, rfl⟩ := List.append_of_mem hd'
    have hg : GivesUp ((fileLoop P o' fuel (l.count + 1) l ign).bind fun _ => Prog.ret ()) := givesUp_bind (fileLoop_givesUp _ _ _ _) fun _ => givesUp_ret _
    have hb := (hg a d b out htr).1
    have hsteps := h.steps
    rw [← List.append_assoc] at hsteps
    obtain ⟨w1, h1, h2⟩ := World.Steps.append_inv hsteps
    have hcut : Trace (detoxMain P I fuel) (reads ++ a) .running := trace_cut (t2 := .opendir d .emfile :: b) (by rw [List.append_assoc]; exact ht)
    refine ⟨reads ++ a, w1, ⟨⟨fuel, hcut⟩, fun e he => h.files e ?_, h1, fun k n hm => h.given k n ?_⟩, ?_, ?_⟩
    · rw [← List.append_assoc]; exact List.mem_append_left _ he
    · rw [← List.append_assoc]; exact List.mem_append_left _ hm
    · cases h2 with
      | cons _ w2 _ _ _ h3 h4 =>
        rw [steps_errs h4 hb]
        cases h3
        rfl
    · intro d' hm
      rcases List.mem_append.1 hm with hm | hm
      · exact hno hh _ hm
      · obtain ⟨a1, a2, rfl⟩ := List.append_of_mem hm
        have := (hg a1 d' (a2 ++ .opendir d .emfile :: b) out (by rw [List.append_assoc] at htr; exact htr)).1 (.opendir d .emfile) (by simp)
        obtain ⟨s, hs⟩ := this
        cases hs
  · exact ⟨tr, w, ⟨⟨fuel, trace_stopped ht⟩, h.files, h.steps, h.given⟩, rfl, fun d hm => hem ⟨d, hm⟩⟩

/-- If it could go on, there is nothing it does with a directory that is not open. -/
theorem main_reads_open {q : Sequence} {plain : Bool} (hw : Written I ss (fun _ => none) plain q) (hr : Renames I ss ws) {fuel : Nat} {tr : List Event} {W : World}
    {d : Nat} (h : Trace (detoxMain P I fuel) (tr ++ [.readdir d none]) .running) (hf : ∀ e ∈ tr, Faithful (fun _ => none) e)
    (hs : World.Steps (World.start fs) tr W) : W.streams d ≠ none := by
  intro hd
  have hf' : ∀ e ∈ tr ++ [.readdir d none], Faithful (fun _ => none) e := by
    intro e he
    rcases List.mem_append.1 he with he | he
    · exact hf e he
    · rw [List.mem_singleton.1 he]; nofun
  rcases main_begins hr hw h hf' with ⟨_, r1, r2, o1, o2, hrd, g1, g2⟩ | ⟨reads, t, o', l, ign, heq, hh, _, _, hl, ⟨ignored, hi⟩, htr⟩
  · have hm : Event.readdir d none ∈ r1 ++ r2 := by rw [← hrd]; simp
    rcases List.mem_append.1 hm with hm | hm
    · cases (configFileLoad_harmless _ _).trace g1 _ hm
    · cases (reviewSequence_harmless _ _ _).trace g2 _ hm
  · obtain ⟨t', rfl⟩ : ∃ t', t = t' ++ [.readdir d none] := by
      rcases List.eq_nil_or_concat t with rfl | ⟨t', x, rfl⟩
      · have hm : Event.readdir d none ∈ reads := by rw [List.append_nil] at heq; rw [← heq]; simp
        cases hh _ hm
      · rw [List.concat_eq_append, ← List.append_assoc] at heq
        have := (List.append_inj' heq rfl).2
        exact ⟨t', by rw [List.concat_eq_append, this]⟩
    rw [← List.append_assoc] at heq
    obtain rfl := (List.append_inj' heq rfl).1
    obtain ⟨out', hrun, _⟩ := main_run hl hi htr
    obtain ⟨p, S, hop⟩ := (C58_directories_are_read_to_the_end_and_closed P o' ws ignored _ out' hrun).1 t' [] d none rfl
    have hs := world_harmless hh hs
    have := (steps_openDirs t'.reverse (W := W) (by rw [List.reverse_reverse]; exact hs)).2 d
    exact this.1 ⟨p, by rw [hop]; simp⟩ hd

/-- What an execution did to the tree, complete or not. -/
theorem main_midway (hP : P.Benign) (hu : UsualCase P E I ss ws fs depth slack level) (o : Options) (hrec : o.recurse = true ↔ Setting.recurse ∈ ss)
    (hsp : o.special = true ↔ Setting.special ∈ ss) {tr : List Event} {out : Outcome Unit} {w : World} (h : Attempt P I ss fs tr out w) :
    ∃ g, Midway (BuiltinMakes P E (requested I ss)) o ws fs depth slack level g w.fs := by
  obtain ⟨q, hw⟩ := hu.written
  obtain ⟨tr, w1, h, hsame, hem⟩ := attempt_enough hw hu.call h
  rw [← hsame]
  clear hsame
  obtain ⟨fuel0, ht⟩ := h.trace
  have hR := hu.onePass hP
  have hidem := usual_idempotent hP E hu.sequence
  have hnul : ∀ f ∈ ws, NulFree f := fun f hf => (hu.args f hf).1
  have hns : requested I ss ≠ some (lit "utf_8-only") ∧ requested I ss ≠ some (lit "uncgi-only") := by
    rcases hu.sequence with hn | ⟨n, hm, hn⟩
    · rw [hn]; exact ⟨by simp, by simp⟩
    · rw [hn]
      simp only [List.mem_cons, List.not_mem_nil, or_false] at hm
      rcases hm with rfl | rfl | rfl | rfl <;> exact ⟨by decide, by decide⟩
  obtain ⟨N, hN⟩ := main_calls hu.call hu.wet hw (P := P) (fun o hb => by
    obtain ⟨c, q', r1, r2, h1, hf1, h2, h3, h4⟩ := hb.stages
    exact unconfigured_noNewSlash hP (unconfigured_none hu.config hf1) (fun _ h => h) h1 h2 h3 h4 hns) hnul hu.tree hu.steady
    (tr.length + fs.entries.length + 1)
  obtain ⟨fuel, hfuel, ht⟩ : ∃ fuel, N < fuel ∧ Trace (detoxMain P I fuel) tr .running :=
    ⟨fuel0 + N + 1, by omega, detoxMain_below (by omega) _ _ ht nofun⟩
  -- the names
  let G : Bytes → Prop := fun n => ∃ e ∈ fs.entries, n = e.name ∨ BuiltinMakes P E (requested I ss) e.name n
  have hG : ∀ n, G n → EntryName n ∧ SafeName (requested I ss) n := fun n ⟨e, he, hn⟩ => hu.names e he n hn
  have hgood : ∀ e ∈ w1.fs.entries, G e.name := by
    refine steps_goodNames (G := G) (fun n hn => ⟨(hG n hn).1.nonempty, (hG n hn).1.slash⟩) h.steps hu.exact (fun e he => ⟨e, he, .inl rfl⟩) ?_
    intro old new hm
    obtain ⟨dir, name, v, h1, h2, h3, h4⟩ := main_renames_names hu.call.line ht (unconfigured_none hu.config h.files) old new true hm E
    refine ⟨dir, name, v, h1, h2, h3, ?_⟩
    rintro ⟨e, he, hn⟩
    rcases hn with rfl | hn
    · exact ⟨e, he, .inr h4⟩
    · have h5 := hidem e.name name (hu.names e he _ (.inl rfl)).2.1 hn
      have h6 : name = v := Option.some.inj (Res.ok.inj (h5.symm.trans h4))
      exact ⟨e, he, .inr (h6 ▸ hn)⟩
  have howed := steps_owed h.steps (L := fs.entries.length) (Nat.le_refl _) (fun k s hs => by cases hs)
  have hopen : OpenWorld w1 := ⟨fun e he => (hG _ (hgood e he)).1, fun k s hs => (howed k s hs).2⟩
  -- it goes on, though nothing more is done
  obtain ⟨p, hp⟩ := trace_rest ht
  obtain ⟨ext, out, w2, h1, h2, h3⟩ := still_execution (fun _ => none) p w1 hopen
  have hfe : ∀ e ∈ tr ++ ext, Faithful (fun _ => none) e := by
    intro e he
    rcases List.mem_append.1 he with he | he
    · exact h.files e he
    · exact (h2.all e he).1
  have hse : World.Steps (World.start fs) (tr ++ ext) w2 := steps_append h.steps h2.steps
  have htr := hp _ _ h1
  have hlen := hN fuel _ out w2 htr hfe hse (fun p _ _ => hu.allowed p) (frugal_extend (fun k s hs => (howed k s hs).1) h2)
  have hfits : ∀ s, SafeName (requested I ss) s → NameFits (decide (requested I ss = some (lit "utf_8"))) s :=
    fun s hs => ⟨hs.1, fun h => hs.2 (.inl (of_decide_eq_true h))⟩
  have hnf : NamesFit (decide (requested I ss = some (lit "utf_8"))) ws (tr ++ ext) := by
    refine ⟨fun f hf => hfits f (hu.args f hf), fun d n hm => hfits n ?_⟩
    rcases List.mem_append.1 hm with hm | hm
    · exact h.given d n hm
    · refine h2.given (S := SafeName (requested I ss)) (fun k s hs n hn => ?_) d n hm
      obtain ⟨e, he, _, hen⟩ := namesIn_mem (hopen.owed k s hs n hn)
      rw [← hen]
      exact (hG _ (hgood e he)).2
  have heme : ∀ d, Event.opendir d .emfile ∉ tr ++ ext := by
    intro d hm
    rcases List.mem_append.1 hm with hm | hm
    · exact hem d hm
    · cases (h2.all _ hm).2 _ _ rfl
  have hret : out = .ret () := by
    rcases C97_detox_returns hP hu.call hw htr hfe hnf heme (by omega) with rfl | rfl
    · obtain ⟨d, hd, h4⟩ := h3 rfl
      have := hp _ _ h4
      rw [← List.append_assoc] at this
      exact absurd hd (main_reads_open hw hu.call this hfe hse)
    · rfl
  subst hret
  -- what a complete run did
  obtain ⟨reads, t, o', a, heq, _, hC, hrun, hm1, _, e1, e2, _⟩ := main_one_pass hP hu.call.line htr (unconfigured_none hu.config hfe) hu.sequence hu.wet
    (fun h => hu.call.noInline (.inr h)) (fun h => hu.call.noInline (.inl h)) hnul hu.tree hu.steady hse (fun p _ _ => hu.allowed p) E
  obtain ⟨k, _, _⟩ := hC.keeps hrun
  obtain ⟨seen, hscan⟩ := C72_runs_are_scans hrun
  rw [← h2.same]
  have hlit := literal_exact (fs := fs) hu.exact (Makes P o')
  obtain ⟨g, hnow⟩ := args_names (args := ws) (g := fun e => e) (show OnePass (Makes P o') by rw [hm1]; exact hR) ⟨hC.wet, hC.slash, fun _ h => sequence_nil h, hC.allowed⟩
    (fun _ _ _ => hlit _) hu.tree hscan (fun _ h => h) (W := World.start fs) rfl hu.tree hu.steady (fun _ _ _ => rfl) hnul (fun _ h => h) hu.here
    (fun _ _ _ _ _ => hlit _) hC.steps ⟨by rw [List.map_id']; rfl, fun e _ => .inl rfl⟩
  refine ⟨g, ⟨hnow.same, fun e he => ?_⟩, k.tree, k.finds⟩
  rcases hnow.each e he with h5 | ⟨h5, h6, h7, h8, h9⟩
  · exact .inl h5
  · replace h8 : Makes P o' _ _ := h8
    rw [hm1] at h8
    exact .inr ⟨h5, h6, h7, h8, treats_congr (e1.trans hrec.symm).1 (e2.trans hsp.symm).1 (fun _ h => h) (fun _ _ h => h) he h9⟩

/-- **C108.** Whenever detox is stopped — killed, out of file descriptors, or at its end, complaints or not — the file system is as it was, but for names, and each entry has
the name it had or the name it should have. Only entries that are to be treated have other names. -/
theorem C108_at_any_moment (hP : P.Benign) (hu : UsualCase P E I ss ws fs depth slack level) (o : Options) (hrec : o.recurse = true ↔ Setting.recurse ∈ ss)
    (hsp : o.special = true ↔ Setting.special ∈ ss) {tr : List Event} {out : Outcome Unit} {w : World} (h : Attempt P I ss fs tr out w) :
    fs.PartlyCleaned (BuiltinMakes P E (requested I ss)) o ws w.fs := by
  obtain ⟨g, hg⟩ := main_midway hP hu o hrec hsp h
  exact hg.partly

/-! ### Run again -/

theorem UsualCase.resumable (hP : P.Benign) (hu : UsualCase P E I ss ws fs depth slack level) (hc : fs.ArgsClean (BuiltinMakes P E (requested I ss)) ws) :
    Resumable (BuiltinMakes P E (requested I ss)) ws fs depth slack level :=
  ⟨hu.onePass hP, fun e he => (hu.names e he _ (.inl rfl)).1.nul, hu.exact, hu.allowed, hu.tree, hu.steady, hu.here, hc⟩

theorem UsualCase.after (hP : P.Benign) (hu : UsualCase P E I ss ws fs depth slack level) (hc : fs.ArgsClean (BuiltinMakes P E (requested I ss)) ws)
    {o : Options} {g : Entry → Entry} {fs1 : FS} (hm : Midway (BuiltinMakes P E (requested I ss)) o ws fs depth slack level g fs1) :
    UsualCase P E I ss ws fs1 depth slack level ∧ fs1.ArgsClean (BuiltinMakes P E (requested I ss)) ws := by
  have hr := hu.resumable hP hc
  have hr1 := hm.resumable hr fun e he v hv => (hu.names e he v (.inr hv)).1.nul
  refine ⟨⟨hu.call, hu.wet, hu.config, hu.sequence, hr1.tree, hr1.steady, hr1.allowed, hr1.exact, hr1.here, hu.args, ?_⟩, hr1.clean⟩
  intro e1 he1 v hv
  obtain ⟨e, he, rfl⟩ := hm.now.mem he1
  refine hu.names e he v ?_
  rcases hv with rfl | hv
  · rcases hm.now.each e he with h | h
    · exact .inl (by rw [h])
    · exact .inr h.2.2.2.1
  · exact .inr (hm.renamed hr he hv).1

end

/-- Any number of executions one after the other, each complete or cut short. -/
inductive Attempts (P : Platform) (I : Invocation) (ss : List Setting) : FS → FS → Prop
  | none (fs : FS) : Attempts P I ss fs fs
  | more (fs : FS) (tr : List Event) (out : Outcome Unit) (w : World) (fs' : FS) :
      Attempt P I ss fs tr out w → Attempts P I ss w.fs fs' → Attempts P I ss fs fs'

section
variable {P : Platform} {E : TableEnv} {I : Invocation} {ss : List Setting} {ws : List Bytes} {fs fs1 : FS} {depth : Ino → Nat} {slack level : Nat}

theorem attempts_midway (hP : P.Benign) (o : Options) (hrec : o.recurse = true ↔ Setting.recurse ∈ ss)
    (hsp : o.special = true ↔ Setting.special ∈ ss) (h : Attempts P I ss fs fs1) : UsualCase P E I ss ws fs depth slack level →
    fs.ArgsClean (BuiltinMakes P E (requested I ss)) ws → ∃ g, Midway (BuiltinMakes P E (requested I ss)) o ws fs depth slack level g fs1 := by
  induction h with
  | none fs => exact fun hu hc => ⟨_, .refl (hu.resumable hP hc)⟩
  | more fs tr out w fs' h1 _ ih =>
    intro hu hc
    obtain ⟨g, hg⟩ := main_midway hP hu o hrec hsp h1
    obtain ⟨hu1, hc1⟩ := hu.after hP hc hg
    obtain ⟨g1, hg1⟩ := ih hu1 hc1
    exact ⟨_, hg.trans (hu.resumable hP hc) hg1⟩

/-- **C108.** detox can be run again, with the same arguments, however often it was stopped and wherever. If the arguments have clean names and no directory
would get a name that is skipped: a last run that comes to its end without complaints leaves the tree as if there had been no other. -/
theorem C108_run_again (hP : P.Benign) (hu : UsualCase P E I ss ws fs depth slack level) (hc : fs.ArgsClean (BuiltinMakes P E (requested I ss)) ws)
    (hv : fs.StaysInView (BuiltinMakes P E (requested I ss)) fun n => Hidden n ∨ n ∈ [lit "{arch}"]) (o : Options)
    (hrec : o.recurse = true ↔ Setting.recurse ∈ ss) (hsp : o.special = true ↔ Setting.special ∈ ss) (h : Attempts P I ss fs fs1) {tr : List Event} {w : World}
    (hlast : Attempt P I ss fs1 tr (.ret ()) w) (hs : Silent tr) : fs.Cleaned (BuiltinMakes P E (requested I ss)) o ws [lit "{arch}"] w.fs := by
  obtain ⟨g, hm⟩ := attempts_midway (E := E) (ws := ws) hP o hrec hsp h hu hc
  obtain ⟨hu1, _⟩ := hu.after hP hc hm
  obtain ⟨fuel, ht⟩ := hlast.trace
  have hlit := literal_exact (fs := fs1) hu1.exact (BuiltinMakes P E (requested I ss))
  exact hm.cleaned (hu.resumable hP hc) hv (C98_tree_after_main hP hu.call.line ht (unconfigured_none hu.config hlast.files) hu.sequence hu.wet
    (fun h => hu.call.noInline (.inr h)) (fun h => hu.call.noInline (.inl h)) hs (fun f hf => (hu.args f hf).1) hu1.tree hu1.steady hlast.steps
    (fun p _ _ => hu1.allowed p) hu1.here E ⟨fun _ _ _ _ _ => hlit _, fun _ _ _ => hlit _⟩ o hrec hsp)

/-- **C108.** If there was room for the new names at first, there is at any moment: the last run has no complaints if the system does what it can, and there is such
a run. -/
theorem C108_work_can_be_finished (hP : P.Benign) (hu : UsualCase P E I ss ws fs depth slack level) (hc : fs.ArgsClean (BuiltinMakes P E (requested I ss)) ws)
    (o : Options) (hrec : o.recurse = true ↔ Setting.recurse ∈ ss) (hsp : o.special = true ↔ Setting.special ∈ ss)
    (hroom : fs.Room (BuiltinMakes P E (requested I ss)) o ws) (h : Attempts P I ss fs fs1) :
    (∀ tr w, Attempt P I ss fs1 tr (.ret ()) w → (World.start fs1).ObligesIn tr → Silent tr) ∧
      ∃ tr w, Attempt P I ss fs1 tr (.ret ()) w ∧ (World.start fs1).ObligesIn tr := by
  obtain ⟨g, hm⟩ := attempts_midway (E := E) (ws := ws) hP o hrec hsp h hu hc
  obtain ⟨hu1, hc1⟩ := hu.after hP hc hm
  have hr := hu.resumable hP hc
  have hroom1 := hm.room hr hroom
  have honce : fs1.NamedOnce (BuiltinMakes P E (requested I ss)) o ws := (hu1.resumable hP hc1).once
  refine ⟨fun tr w hlast hob => ?_, ?_⟩
  · obtain ⟨fuel, ht⟩ := hlast.trace
    have hlit := literal_exact (fs := fs1) hu1.exact (BuiltinMakes P E (requested I ss))
    exact (C99_no_complaints_from_main hP hu.call.line ht (unconfigured_none hu.config hlast.files) hu.sequence hu.wet
      (fun h => hu.call.noInline (.inr h)) (fun h => hu.call.noInline (.inl h)) (fun f hf => (hu.args f hf).1) hu1.tree hu1.steady hlast.steps
      (fun p _ _ => hu1.allowed p) hu1.here E ⟨fun _ _ _ _ _ => hlit _, fun _ _ _ => hlit _⟩ o hrec hsp hob hroom1 honce).1
  · obtain ⟨N, hN⟩ := detox_gets_there hP hu.call hu.wet hu.config hu.sequence hu1.tree hu1.steady hu1.allowed hu1.exact hu1.here hu.args E hu1.names o hrec
      hsp hroom1 honce
    obtain ⟨tr, w, h1, h2, h3, h4, _, _, h5⟩ := hN N (Nat.le_refl _)
    exact ⟨tr, w, ⟨⟨N, h1⟩, h2, h3, h5⟩, h4⟩

/-- **C108.** If no name is `{arch}`, too: the last run ends in the state in which a run would have ended that was not stopped. -/
theorem C108_as_if_never_stopped (hP : P.Benign) (hu : UsualCase P E I ss ws fs depth slack level) (hc : fs.ArgsClean (BuiltinMakes P E (requested I ss)) ws)
    (hv : fs.StaysInView (BuiltinMakes P E (requested I ss)) fun n => Hidden n ∨ n ∈ [lit "{arch}"]) (harch : ∀ e ∈ fs.entries, e.name ≠ lit "{arch}")
    (h : Attempts P I ss fs fs1) {tr tr' : List Event} {w w' : World}
    (hlast : Attempt P I ss fs1 tr (.ret ()) w) (hs : Silent tr) (hone : Attempt P I ss fs tr' (.ret ()) w') (hs' : Silent tr') : w.fs = w'.fs := by
  let o : Options := { recurse := decide (Setting.recurse ∈ ss), special := decide (Setting.special ∈ ss) }
  have hrec : o.recurse = true ↔ Setting.recurse ∈ ss := decide_eq_true_iff
  have hsp : o.special = true ↔ Setting.special ∈ ss := decide_eq_true_iff
  exact C98_only_one_result (hu.onePass hP).one (fun e he hm => harch e he (List.mem_singleton.1 hm)) (C108_run_again hP hu hc hv o hrec hsp h hlast hs)
    (C108_run_again hP hu hc hv o hrec hsp (.none fs) hone hs')

end

/-! ### Why no directory may go out of view -/

/-- A directory `-.x` with a file `c d` in it, in a directory `d`. -/
def dashFS : FS := { treeFS with entries := [⟨⟨1, 1⟩, lit "d", ⟨1, 2⟩⟩, ⟨⟨1, 2⟩, lit "-.x", ⟨1, 4⟩⟩, ⟨⟨1, 4⟩, lit "c d", ⟨1, 5⟩⟩] }

/-- The same, half done. -/
def dotFS : FS := { treeFS with entries := [⟨⟨1, 1⟩, lit "d", ⟨1, 2⟩⟩, ⟨⟨1, 2⟩, lit ".x", ⟨1, 4⟩⟩, ⟨⟨1, 4⟩, lit "c d", ⟨1, 5⟩⟩] }

/-- `detox -r d` -/
def dashCall : Invocation := { program := lit "detox", args := [lit "-r", lit "d"] }

/-- It is killed after the first rename. -/
def dashTrace : List Event :=
  nothingInstalled ++ [
  .lstat (lit "d") (some ⟨1, 2, 2, .dir⟩), .lstat (lit "d") (some ⟨1, 2, 2, .dir⟩), .opendir (lit "d") (.ok 0),
  .readdir 0 (some (lit "-.x")), .lstat (lit "d/-.x") (some ⟨1, 4, 2, .dir⟩), .lstat (lit "d/-.x") (some ⟨1, 4, 2, .dir⟩), .lstat (lit "d/.x") none,
  .rename (lit "d/-.x") (lit "d/.x") true]

theorem dashCall_renames : Renames dashCall [.recurse] [lit "d"] :=
  ⟨.cluster [0x72] [.recurse] _ _ [] (by simp) (.cons _ _ _ _ .recurse .nil) (.operand _ _ _ _ rfl (.inl (by decide +kernel)) .none),
    by simp [Setting.Leaves], by simp, by
      rintro (h | h)
      · rw [← posixBasename_inline] at h
        exact absurd h (by decide +kernel)
      · simp at h, by simp⟩

/-- How it would have gone on. -/
def dashRest : List Event := [
  .lstat (lit "d/.x") (some ⟨1, 4, 2, .dir⟩), .opendir (lit "d/.x") (.ok 1), .readdir 1 (some (lit "c d")),
  .lstat (lit "d/.x/c d") (some ⟨1, 5, 1, .reg⟩), .lstat (lit "d/.x/c d") (some ⟨1, 5, 1, .reg⟩), .lstat (lit "d/.x/c_d") none,
  .rename (lit "d/.x/c d") (lit "d/.x/c_d") true, .readdir 1 none, .closedir 1, .readdir 0 none, .closedir 0]

theorem dashTrace_run : Trace (detoxMain .linux dashCall 10) (dashTrace ++ dashRest) (.ret ()) := Prog.result_sound _ _ _ (by decide +kernel)

abbrev DashMakes := BuiltinMakes .linux ⟨fun _ => none, none⟩ none

def dashNames : List (Bytes × Bytes) := [(lit "d", lit "d"), (lit "-.x", lit ".x"), (lit ".x", lit ".x"), (lit "c d", lit "c_d")]

theorem dash_new : ∀ e ∈ dashFS.entries ++ dotFS.entries, ∀ v, DashMakes e.name v → (e.name, v) ∈ dashNames := by
  have h : ∀ e ∈ dashFS.entries ++ dotFS.entries, ∃ x ∈ dashNames, x.1 = e.name ∧ runBuiltin .linux ⟨fun _ => none, none⟩ none e.name = .ok (some x.2) := by
    decide +kernel
  intro e he v hv
  obtain ⟨x, hx, h1, h2⟩ := h e he
  have : x.2 = v := Option.some.inj (Res.ok.inj (h2.symm.trans hv))
  rw [← h1, ← this]
  exact hx

theorem dashFS_usual : UsualCase .linux ⟨fun _ => none, none⟩ dashCall [.recurse] [lit "d"] dashFS treeDepth 1 0 where
  call := dashCall_renames
  wet := by simp
  config := rfl
  sequence := .inl rfl
  tree := ⟨by unfold FS.Unique; decide +kernel, by decide +kernel, by decide +kernel, treeFS_tree.bound⟩
  steady := by
    intro f hf
    rw [List.mem_singleton.1 hf]
    exact .name [] (lit "d") ⟨1, 1⟩ rfl (.inl rfl) (by decide +kernel) (by decide +kernel) (by decide +kernel) (by decide +kernel)
      ⟨by decide +kernel, by decide +kernel, by decide +kernel, Nat.zero_le _⟩
  allowed := fun _ => rfl
  exact := fun _ _ _ h => h
  here := by decide +kernel
  args := by
    intro f hf
    rw [List.mem_singleton.1 hf]
    exact ⟨by decide +kernel, by rintro (h | h) <;> cases h⟩
  names := by
    have h0 : ∀ e ∈ dashFS.entries, EntryName e.name := by decide +kernel
    have h1 : ∀ x ∈ dashNames, EntryName x.2 := by decide +kernel
    rintro e he v (rfl | hv)
    · exact ⟨h0 e he, (h0 e he).nul, by rintro (h | h) <;> cases h⟩
    · have := h1 _ (dash_new e (List.mem_append_left _ he) v hv)
      exact ⟨this, this.nul, by rintro (h | h) <;> cases h⟩

theorem dashFS_clean : dashFS.ArgsClean DashMakes [lit "d"] := by
  rintro f hf e ⟨dir, name, _, _, hloc, hfi⟩
  rw [List.mem_singleton.1 hf] at hloc
  have h : dashFS.locate (lit "d") = some (⟨1, 1⟩, lit "d") := by decide +kernel
  have h' := Option.some.inj (hloc.symm.trans h)
  have h2 : dashFS.find ⟨1, 1⟩ (lit "d") = some ⟨⟨1, 1⟩, lit "d", ⟨1, 2⟩⟩ := by decide +kernel
  have he : e = ⟨⟨1, 1⟩, lit "d", ⟨1, 2⟩⟩ := by
    obtain ⟨h3, h4⟩ := Prod.mk.inj h'
    rw [h3, h4] at hfi
    exact Option.some.inj (hfi.symm.trans h2)
  rw [he]
  show runBuiltin _ _ _ _ = _
  decide +kernel

theorem dashFS_room : dashFS.Room DashMakes { recurse := true } [lit "d"] := by
  have h0 : ∀ e ∈ dashFS.entries, EntryName e.name := by decide +kernel
  have h1 : ∀ x ∈ dashNames, EntryName x.2 ∧ x.2 ≠ [0x2E] ∧ x.2 ≠ [0x2E, 0x2E] := by decide +kernel
  have h2 : ∀ e ∈ dashFS.entries, ∀ x ∈ dashNames, x.1 = e.name → x.2 ≠ e.name → ∀ e' ∈ dashFS.entries, x.2 ≠ e'.name := by decide +kernel
  have h3 : ∀ e ∈ dashFS.entries, ∀ e' ∈ dashFS.entries, ∀ x ∈ dashNames, ∀ x' ∈ dashNames, x.1 = e.name → x'.1 = e'.name → x.2 = x'.2 → e' = e := by
    decide +kernel
  have new := fun {e : Entry} (he : e ∈ dashFS.entries) {v : Bytes} hv => dash_new e (List.mem_append_left _ he) v hv
  exact ⟨h0, fun e he _ v hv => h1 _ (new he hv), fun e he _ v hv hne e' he' _ hn => absurd hn (h2 e he _ (new he hv) rfl hne e' he'),
    fun e he _ e' he' _ _ v v' hv hv' hn => h3 e he e' he' _ (new he hv) _ (new he' hv') rfl rfl hn⟩

theorem dash_attempt : ∃ w, Attempt .linux dashCall [.recurse] dashFS dashTrace .running w ∧ w.fs = dotFS := by
  obtain ⟨w, h1, h2⟩ := World_exec_out (w := World.start dashFS) (tr := dashTrace) (f := fun w => w.fs.entries) (x := dotFS.entries) (by decide +kernel)
  have ha : Attempt .linux dashCall [.recurse] dashFS dashTrace .running w := by
    refine ⟨⟨10, trace_cut dashTrace_run⟩, ?_, h1, ?_⟩
    · intro e he
      simp only [dashTrace, nothingInstalled, List.mem_append, List.mem_cons, List.not_mem_nil, or_false] at he
      rcases he with (rfl | rfl | rfl) | rfl | rfl | rfl | rfl | rfl | rfl | rfl | rfl <;> intro p r h <;> cases h <;> rfl
    · intro d n hm
      have : n = lit "-.x" := by
        simp only [dashTrace, nothingInstalled, List.mem_append, List.mem_cons, List.not_mem_nil, or_false, reduceCtorEq, false_or] at hm
        injection hm with _ hm
        exact Option.some.inj hm
      rw [this]
      exact ⟨by decide +kernel, by rintro (h | h) <;> cases h⟩
  refine ⟨w, ha, ?_⟩
  obtain ⟨g, hg⟩ := main_midway (E := ⟨fun _ => none, none⟩) (by decide) dashFS_usual { recurse := true } (by simp) (by simp) ha
  have hs := hg.now.same
  have h3 : w.fs = { dashFS with entries := w.fs.entries } := by
    rw [hs]
  rw [h3, h2]
  rfl

/-- **C108.** Without the second condition it is not so. In `d` there is a directory `-.x` with a file `c d` in it, and there is room for the new names `.x` and
`c_d`; `detox -r d` gives both, if it is not stopped. If it is killed between the two renames, the directory is hidden: no run of `detox -r d` looks inside again, complaints or not. -/
theorem C108_out_of_view : ∃ (I : Invocation) (fs : FS) (depth : Ino → Nat) (tr rest : List Event) (w : World),
    UsualCase .linux ⟨fun _ => none, none⟩ I [.recurse] [lit "d"] fs depth 1 0 ∧ fs.ArgsClean DashMakes [lit "d"] ∧ fs.Room DashMakes { recurse := true } [lit "d"] ∧
    Attempt .linux I [.recurse] fs tr .running w ∧
    (∃ w', Attempt .linux I [.recurse] fs (tr ++ rest) (.ret ()) w' ∧ w'.fs.entries.map Entry.name = [lit "d", lit ".x", lit "c_d"]) ∧
    ∀ fs', Attempts .linux I [.recurse] w.fs fs' → fs'.entries.map Entry.name = [lit "d", lit ".x", lit "c d"] := by
  obtain ⟨w, hw, hfs⟩ := dash_attempt
  refine ⟨dashCall, dashFS, treeDepth, dashTrace, dashRest, w, dashFS_usual, dashFS_clean, dashFS_room, hw, ?_, ?_⟩
  · obtain ⟨w', h1, h2⟩ := World_exec_out (w := World.start dashFS) (tr := dashTrace ++ dashRest) (f := fun w => w.fs.entries.map Entry.name)
      (x := [lit "d", lit ".x", lit "c_d"]) (by decide +kernel)
    refine ⟨w', ⟨⟨10, dashTrace_run⟩, ?_, h1, ?_⟩, h2⟩
    · intro e he
      rcases List.mem_append.1 he with he | he
      · exact hw.files e he
      · simp only [dashRest, List.mem_cons, List.not_mem_nil, or_false] at he
        rcases he with rfl | rfl | rfl | rfl | rfl | rfl | rfl | rfl | rfl | rfl | rfl <;> intro p r h <;> cases h
    · intro d n hm
      rcases List.mem_append.1 hm with hm | hm
      · exact hw.given d n hm
      · have : n = lit "c d" := by
          simp only [dashRest, List.mem_cons, List.not_mem_nil, or_false, reduceCtorEq, false_or] at hm
          rcases hm with hm | hm | hm
          · injection hm with _ hm
            exact Option.some.inj hm
          · cases hm
          · cases hm
        rw [this]
        exact ⟨by decide +kernel, by rintro (h | h) <;> cases h⟩
  · intro fs' h
    obtain ⟨g, hg⟩ := main_midway (E := ⟨fun _ => none, none⟩) (by decide) dashFS_usual { recurse := true } (by simp) (by simp) hw
    obtain ⟨hu, hc⟩ := dashFS_usual.after (by decide) dashFS_clean hg
    obtain ⟨g', hg'⟩ := attempts_midway (E := ⟨fun _ => none, none⟩) (by decide) { recurse := true } (by simp) (by simp) h hu hc
    obtain ⟨new, h1, h2⟩ := hg'.partly
    rw [hfs] at h1 h2
    have k1 : new ⟨⟨1, 1⟩, lit "d", ⟨1, 2⟩⟩ = lit "d" := by
      rcases h2 ⟨⟨1, 1⟩, lit "d", ⟨1, 2⟩⟩ (by decide +kernel) with h3 | ⟨h3, _⟩
      · exact h3
      · have := dash_new ⟨⟨1, 1⟩, lit "d", ⟨1, 2⟩⟩ (by decide +kernel) _ h3
        revert this
        generalize new ⟨⟨1, 1⟩, lit "d", ⟨1, 2⟩⟩ = x
        simp [dashNames, lit]
    have k2 : new ⟨⟨1, 2⟩, lit ".x", ⟨1, 4⟩⟩ = lit ".x" := by
      rcases h2 ⟨⟨1, 2⟩, lit ".x", ⟨1, 4⟩⟩ (by decide +kernel) with h3 | ⟨h3, _⟩
      · exact h3
      · have := dash_new ⟨⟨1, 2⟩, lit ".x", ⟨1, 4⟩⟩ (by decide +kernel) _ h3
        revert this
        generalize new ⟨⟨1, 2⟩, lit ".x", ⟨1, 4⟩⟩ = x
        simp [dashNames, lit]
    have noscan : ∀ d, dotFS.Scans { recurse := true } [lit "d"] Hidden d → d ≠ ⟨1, 4⟩ ∧ d ≠ ⟨1, 1⟩ := by
      intro d hd
      cases hd with
      | arg f d hf hlk hk =>
        rw [List.mem_singleton.1 hf] at hlk
        have h : dotFS.lookup (lit "d") = some ⟨1, 2⟩ := by decide +kernel
        have : d = ⟨1, 2⟩ := Option.some.inj (hlk.symm.trans h)
        rw [this]; decide
      | sub e he _ _ _ hn =>
        have : ∀ e ∈ dotFS.entries, e.ino ≠ ⟨1, 4⟩ ∧ e.ino ≠ ⟨1, 1⟩ ∨ e.name = lit ".x" := by decide +kernel
        rcases this e he with h | h
        · exact h
        · exact absurd (show Hidden e.name by rw [h]; exact ⟨_, rfl⟩) hn
    have k3 : new ⟨⟨1, 4⟩, lit "c d", ⟨1, 5⟩⟩ = lit "c d" := by
      rcases h2 ⟨⟨1, 4⟩, lit "c d", ⟨1, 5⟩⟩ (by decide +kernel) with h3 | ⟨_, _, ⟨f, hf, dir, name, _, _, hloc, _⟩ | ⟨hs, _⟩⟩
      · exact h3
      · rw [List.mem_singleton.1 hf] at hloc
        have h : dotFS.locate (lit "d") = some (⟨1, 1⟩, lit "d") := by decide +kernel
        exact absurd (Prod.mk.inj (Option.some.inj (hloc.symm.trans h))).1 (by decide)
      · exact absurd rfl (noscan _ hs).1
    rw [h1]
    show [new _, new _, new _] = _
    rw [k1, k2, k3]

/-! ### A concrete case -/

/-- A directory `d` with a file `a b` and a directory `sub x`, in which there is a file `c d`. -/
def subFS : FS := { treeFS with entries := [⟨⟨1, 1⟩, lit "d", ⟨1, 2⟩⟩, ⟨⟨1, 2⟩, lit "a b", ⟨1, 3⟩⟩, ⟨⟨1, 2⟩, lit "sub x", ⟨1, 4⟩⟩, ⟨⟨1, 4⟩, lit "c d", ⟨1, 5⟩⟩] }

/-- `sub x` is renamed. -/
def subFS' : FS := { treeFS with entries := [⟨⟨1, 1⟩, lit "d", ⟨1, 2⟩⟩, ⟨⟨1, 2⟩, lit "a b", ⟨1, 3⟩⟩, ⟨⟨1, 2⟩, lit "sub_x", ⟨1, 4⟩⟩, ⟨⟨1, 4⟩, lit "c d", ⟨1, 5⟩⟩] }

/-- After which it is killed. -/
def subTrace : List Event :=
  nothingInstalled ++ [
  .lstat (lit "d") (some ⟨1, 2, 2, .dir⟩), .lstat (lit "d") (some ⟨1, 2, 2, .dir⟩), .opendir (lit "d") (.ok 0),
  .readdir 0 (some (lit "sub x")), .lstat (lit "d/sub x") (some ⟨1, 4, 2, .dir⟩), .lstat (lit "d/sub x") (some ⟨1, 4, 2, .dir⟩), .lstat (lit "d/sub_x") none,
  .rename (lit "d/sub x") (lit "d/sub_x") true]

/-- How it might have gone on. -/
def subRest : List Event := [
  .lstat (lit "d/sub_x") (some ⟨1, 4, 2, .dir⟩), .opendir (lit "d/sub_x") .fail, .err (lit "unable to parse: "), .readdir 0 none, .closedir 0]

/-- It is run again. -/
def subAgain : List Event :=
  nothingInstalled ++ [
  .lstat (lit "d") (some ⟨1, 2, 2, .dir⟩), .lstat (lit "d") (some ⟨1, 2, 2, .dir⟩), .opendir (lit "d") (.ok 0),
  .readdir 0 (some (lit "sub_x")), .lstat (lit "d/sub_x") (some ⟨1, 4, 2, .dir⟩),
  .lstat (lit "d/sub_x") (some ⟨1, 4, 2, .dir⟩), .opendir (lit "d/sub_x") (.ok 1),
  .readdir 1 (some (lit "c d")), .lstat (lit "d/sub_x/c d") (some ⟨1, 5, 1, .reg⟩),
  .lstat (lit "d/sub_x/c d") (some ⟨1, 5, 1, .reg⟩), .lstat (lit "d/sub_x/c_d") none,
  .rename (lit "d/sub_x/c d") (lit "d/sub_x/c_d") true,
  .readdir 1 none, .closedir 1,
  .readdir 0 (some (lit "a b")), .lstat (lit "d/a b") (some ⟨1, 3, 1, .reg⟩), .lstat (lit "d/a b") (some ⟨1, 3, 1, .reg⟩), .lstat (lit "d/a_b") none,
  .rename (lit "d/a b") (lit "d/a_b") true,
  .readdir 0 none, .closedir 0]

theorem subTrace_run : Trace (detoxMain .linux dashCall 10) (subTrace ++ subRest) (.ret ()) := Prog.result_sound _ _ _ (by decide +kernel)
theorem subAgain_run : Trace (detoxMain .linux dashCall 10) subAgain (.ret ()) := Prog.result_sound _ _ _ (by decide +kernel)

def subNames : List (Bytes × Bytes) := [(lit "d", lit "d"), (lit "a b", lit "a_b"), (lit "sub x", lit "sub_x"), (lit "c d", lit "c_d")]

theorem sub_new : ∀ e ∈ subFS.entries, ∀ v, DashMakes e.name v → (e.name, v) ∈ subNames := by
  have h : ∀ e ∈ subFS.entries, ∃ x ∈ subNames, x.1 = e.name ∧ runBuiltin .linux ⟨fun _ => none, none⟩ none e.name = .ok (some x.2) := by decide +kernel
  intro e he v hv
  obtain ⟨x, hx, h1, h2⟩ := h e he
  have : x.2 = v := Option.some.inj (Res.ok.inj (h2.symm.trans hv))
  rw [← h1, ← this]
  exact hx

theorem subFS_usual : UsualCase .linux ⟨fun _ => none, none⟩ dashCall [.recurse] [lit "d"] subFS treeDepth 1 0 where
  call := dashCall_renames
  wet := by simp
  config := rfl
  sequence := .inl rfl
  tree := ⟨by unfold FS.Unique; decide +kernel, by decide +kernel, by decide +kernel, treeFS_tree.bound⟩
  steady := by
    intro f hf
    rw [List.mem_singleton.1 hf]
    exact .name [] (lit "d") ⟨1, 1⟩ rfl (.inl rfl) (by decide +kernel) (by decide +kernel) (by decide +kernel) (by decide +kernel)
      ⟨by decide +kernel, by decide +kernel, by decide +kernel, Nat.zero_le _⟩
  allowed := fun _ => rfl
  exact := fun _ _ _ h => h
  here := by decide +kernel
  args := dashFS_usual.args
  names := by
    have h0 : ∀ e ∈ subFS.entries, EntryName e.name := by decide +kernel
    have h1 : ∀ x ∈ subNames, EntryName x.2 := by decide +kernel
    rintro e he v (rfl | hv)
    · exact ⟨h0 e he, (h0 e he).nul, by rintro (h | h) <;> cases h⟩
    · have := h1 _ (sub_new e he v hv)
      exact ⟨this, this.nul, by rintro (h | h) <;> cases h⟩

theorem subFS_clean : subFS.ArgsClean DashMakes [lit "d"] := by
  rintro f hf e ⟨dir, name, _, _, hloc, hfi⟩
  rw [List.mem_singleton.1 hf] at hloc
  have h : subFS.locate (lit "d") = some (⟨1, 1⟩, lit "d") := by decide +kernel
  have h2 : subFS.find ⟨1, 1⟩ (lit "d") = some ⟨⟨1, 1⟩, lit "d", ⟨1, 2⟩⟩ := by decide +kernel
  obtain ⟨h3, h4⟩ := Prod.mk.inj (Option.some.inj (hloc.symm.trans h))
  rw [h3, h4] at hfi
  rw [Option.some.inj (hfi.symm.trans h2)]
  show runBuiltin _ _ _ _ = _
  decide +kernel

theorem subFS_view : subFS.StaysInView DashMakes fun n => Hidden n ∨ n ∈ [lit "{arch}"] := by
  intro e he _ v hv hs
  have h1 : ∀ x ∈ subNames, x.2.head? ≠ some 0x2E ∧ x.2 ∉ [lit "{arch}"] := by decide +kernel
  obtain ⟨h2, h3⟩ := h1 _ (sub_new e he v hv)
  rcases hs with ⟨x, rfl⟩ | hs
  · exact absurd rfl h2
  · exact absurd hs h3

/-- A name without NULs, or a file that is not there. -/
def plainEvent : Event → Bool
  | .slurp _ r => r.isNone
  | .readdir _ (some n) => decide ((0 : Byte) ∉ n)
  | _ => true

theorem attempt_plain {I : Invocation} {ss : List Setting} (hn : requested I ss = none) {fs : FS} {tr : List Event} {out : Outcome Unit} {w : World} {fuel : Nat}
    (h : Trace (detoxMain .linux I fuel) tr out) (hs : World.Steps (World.start fs) tr w)
    (hall : tr.all plainEvent = true) : Attempt .linux I ss fs tr out w := by
  refine ⟨⟨fuel, h⟩, fun e he p r heq => ?_, hs, fun d n hm => ⟨of_decide_eq_true (List.all_eq_true.1 hall _ hm), ?_⟩⟩
  · subst heq
    exact Option.isNone_iff_eq_none.1 (List.all_eq_true.1 hall _ he)
  · rw [hn]
    rintro (h | h) <;> cases h

/- `detox -r d` is killed in the middle, and run again. -/
example : ∃ w w', Attempt .linux dashCall [.recurse] subFS subTrace .running w ∧ Attempt .linux dashCall [.recurse] w.fs subAgain (.ret ()) w' ∧ Silent subAgain ∧
    subFS.PartlyCleaned DashMakes { recurse := true } [lit "d"] w.fs ∧ w.fs.entries.map Entry.name = [lit "d", lit "a b", lit "sub_x", lit "c d"] ∧
    subFS.Cleaned DashMakes { recurse := true } [lit "d"] [lit "{arch}"] w'.fs ∧ w'.fs.entries.map Entry.name = [lit "d", lit "a_b", lit "sub_x", lit "c_d"] := by
  obtain ⟨w, h1, h2⟩ := World_exec_out (w := World.start subFS) (tr := subTrace) (f := fun w => w.fs.entries) (x := subFS'.entries) (by decide +kernel)
  have ha : Attempt .linux dashCall [.recurse] subFS subTrace .running w := attempt_plain rfl (trace_cut subTrace_run) h1 (by decide +kernel)
  have hp := C108_at_any_moment (E := ⟨fun _ => none, none⟩) (by decide) subFS_usual { recurse := true } (by simp) (by simp) ha
  have hw : w.fs = subFS' := by
    obtain ⟨new, h3, _⟩ := hp
    have h4 : w.fs = { subFS with entries := w.fs.entries } := by rw [h3]
    rw [h4, h2]
    rfl
  obtain ⟨w', h3, h4⟩ := World_exec_out (w := World.start subFS') (tr := subAgain) (f := fun w => w.fs.entries.map Entry.name)
    (x := [lit "d", lit "a_b", lit "sub_x", lit "c_d"]) (by decide +kernel)
  have hb : Attempt .linux dashCall [.recurse] w.fs subAgain (.ret ()) w' := by
    rw [hw]
    exact attempt_plain rfl subAgain_run h3 (by decide +kernel)
  have hs : Silent subAgain := by
    intro s hm
    simp [subAgain, nothingInstalled] at hm
  exact ⟨w, w', ha, hb, hs, hp, by rw [hw]; decide +kernel,
    C108_run_again (by decide) subFS_usual subFS_clean subFS_view _ (by simp) (by simp) (.more _ _ _ _ _ ha (.none _)) hb hs, h4⟩

/- Why the arguments are to have clean names: `detox -r 'my dir'` is killed after the first rename. Run again, it does not find the directory. -/
example : ∃ w, Attempt .linux treeCall [.recurse] treeFS (treeTrace.take 6) .running w ∧
    Attempt .linux treeCall [.recurse] w.fs (nothingInstalled ++ [.lstat (lit "my dir") none, .err (lit "my dir: ")]) (.ret ()) (World.start w.fs) ∧
    w.fs.entries.map Entry.name = [lit "my_dir", lit "a b", lit "sub x", lit "c d", lit ".hid den"] := by
  obtain ⟨w, h1, h2⟩ := World_exec_out (w := World.start treeFS) (tr := treeTrace.take 6) (f := fun w => (w.fs.entries.map Entry.name, w.fs.lstat (lit "my dir")))
    (x := ([lit "my_dir", lit "a b", lit "sub x", lit "c d", lit ".hid den"], none)) (by decide +kernel)
  obtain ⟨h2, h3⟩ := Prod.mk.inj h2
  refine ⟨w, attempt_plain (fuel := 10) rfl (trace_cut (t2 := treeTrace.drop 6) (by rw [List.take_append_drop]; exact treeTrace_run)) h1 (by decide +kernel),
    attempt_plain (fuel := 10) rfl (Prog.result_sound _ _ _ (by decide +kernel)) ?_ (by decide +kernel), h2⟩
  exact .cons _ _ _ _ _ (.slurp _ _ _) (.cons _ _ _ _ _ (.slurp _ _ _)
    (.cons _ _ _ _ _ (.lstat _ _ _ h3) (.cons _ _ _ _ _ (.err _ _) (.nil _))))

end Detox
