import Verif.Lemmas.Arrive

/-!
# C97: what detox does to files, from beginning to end
-/

set_option autoImplicit false

namespace Detox
open Spec

/-- **C97.** A run over files that are not directories, nobody interfering, the system doing every rename it can do; no two of the files have, or should
have, the same name in the same place. Afterwards every entry of every directory is as it was, but for the name of those that are the last component of
an argument, and can have the name they should have. -/
theorem C97_files_after_a_run {P : Platform} {o : Options} {args ws : List Bytes} {tr : List Event} {a : Option Filelist}
    (h : Run P o args ws tr (.ret a)) (hdry : o.dryRun = false) (hsl : ∀ f ∈ args, NewNameHasNoSlash (Makes P o) f) {fs fs' : FS}
    (hs : FS.FairSteps fs tr fs') (hu : fs.Unique) (hreg : ∀ f ∈ args, ∀ i, fs.lookup f = some i → fs.kind i = .reg)
    (hap : Apart (Makes P o) fs args) :
    ∃ g : Entry → Entry, fs' = { fs with entries := fs.entries.map g } ∧ ∀ e ∈ fs.entries, Becomes (Makes P o) fs args e (g e) := by
  obtain ⟨_, D⟩ := C72_runs_are_scans h
  exact args_effect (fun a b c h1 h2 => Option.some.inj (Res.ok.inj (h1.symm.trans h2))) hdry args D hs hu hreg hsl hap

/-! ### From the command line -/

/-- What is asked for on the command line: files are to be renamed. -/
structure Renames (I : Invocation) (ss : List Setting) (ws : List Bytes) : Prop where
  line : CommandLine I.posixlyCorrect I.args ss ws
  stays : ∀ s ∈ ss, ¬ s.Leaves
  noList : Setting.list ∉ ss
  noInline : ¬ (CalledInline I.program ∨ Setting.inline ∈ ss)
  args : ws ≠ []

/-- What is written in the files: well-written config files, a sequence as asked for, tables that fit. -/
structure Written (I : Invocation) (ss : List Setting) (files : Bytes → Option Bytes) (plain : Bool) (q : Sequence) : Prop where
  sequences : ∃ qs, SequencesAre I.config (lastConfig ss) files qs ∧ Chosen qs (requested I ss) q
  fit : FiltersFit I.ctype I.datadir files plain q.filters

theorem filtersFit_says {ctype : Bytes} {datadir : Option Bytes} {files : Bytes → Option Bytes} {plain : Bool} {fs : List Filter}
    (h : FiltersFit ctype datadir files plain fs) : ∀ f ∈ fs, ∀ n, UsualTable f.cleaner n → ∃ m, TableSays ctype datadir files f m := by
  cases fs with
  | nil => exact nofun
  | cons f fs =>
    intro g hg n hu
    rcases List.mem_cons.1 hg with rfl | hg
    · obtain ⟨m, hm, _⟩ := h.1 n hu
      exact ⟨m, hm⟩
    · obtain ⟨m, hm, _⟩ := h.2 g hg n hu
      exact ⟨m, hm⟩

/-- The sequence that is in use when the work begins. -/
structure Begun (P : Platform) (I : Invocation) (ss : List Setting) (files : Bytes → Option Bytes) (plain : Bool) (q : Sequence) (o : Options) :
    Prop where
  asked : Asked I.program I.sequence ss o
  stages : ∃ c q' r1 r2, Trace (configFileLoad I.config (lastConfig ss)) r1 (.ret c) ∧ (∀ e ∈ r1, Faithful files e) ∧
    Chosen c.sequences (requested I ss) q ∧ Trace (reviewSequence I.ctype I.datadir q) r2 (.ret q') ∧ o.sequenceToUse = some q'
  sequence : ∃ q' reads, o.sequenceToUse = some q' ∧ TablesFor I.ctype I.datadir q.filters reads q'.filters ∧ ReadsFrom files reads

theorem Begun.runs {P : Platform} (hP : P.Benign) {I : Invocation} {ss : List Setting} {files : Bytes → Option Bytes} {plain : Bool} {q : Sequence}
    {o : Options} (hw : Written I ss files plain q) (h : Begun P I ss files plain q o) {s : Bytes} (hs : NameFits plain s) :
    ∃ out, Makes P o s out ∧ NulFree out := by
  obtain ⟨q', reads, h1, h2, h3⟩ := h.sequence
  obtain ⟨out, h4, h5⟩ := filters_fit h2 h3 hw.fit hP hs
  refine ⟨out, ?_, h5⟩
  show sequenceRunFilters P o.sequenceToUse (some s) = _
  rw [h1]
  exact h4

theorem Begun.says {P : Platform} (hP : P.Benign) {I : Invocation} {ss : List Setting} {files : Bytes → Option Bytes} {plain : Bool} {q : Sequence}
    {o : Options} (hw : Written I ss files plain q) (h : Begun P I ss files plain q o) {s w : Bytes} (hs : NulFree s) (hm : Makes P o s w) :
    FiltersSay P I.ctype I.datadir files q.filters s w := by
  obtain ⟨q', reads, h1, h2, h3⟩ := h.sequence
  have hm : sequenceRunFilters P o.sequenceToUse (some s) = .ok (some w) := hm
  rw [h1] at hm
  exact filters_say hP h2 h3 (filtersFit_says hw.fit) hs hm

theorem Begun.makes {P : Platform} (hP : P.Benign) {I : Invocation} {ss : List Setting} {files : Bytes → Option Bytes} {plain : Bool} {q : Sequence}
    {o : Options} (hw : Written I ss files plain q) (h : Begun P I ss files plain q o) {s : Bytes} (hs : NameFits plain s) (w : Bytes) :
    Makes P o s w ↔ FiltersSay P I.ctype I.datadir files q.filters s w := by
  refine ⟨h.says hP hw hs.1, fun hsay => ?_⟩
  obtain ⟨out, hm, _⟩ := h.runs hP hw hs
  rw [filtersSay_unique hsay (h.says hP hw hs.1 hm)]
  exact hm

/-- What the program does before its work: it reads config files and tables. -/
def ReadsBy (I : Invocation) (ss : List Setting) (q : Sequence) (tr : List Event) : Prop :=
  ∃ r1 r2 o1 o2, tr = r1 ++ r2 ∧ Trace (configFileLoad I.config (lastConfig ss)) r1 o1 ∧ Trace (reviewSequence I.ctype I.datadir q) r2 o2

/-- How the program gets to its work. -/
theorem main_begins {P : Platform} {I : Invocation} {fuel : Nat} {ss : List Setting} {ws : List Bytes} (hr : Renames I ss ws)
    {files : Bytes → Option Bytes} {plain : Bool} {q : Sequence} (hw : Written I ss files plain q) {tr : List Event} {out : Outcome Unit}
    (h : Trace (detoxMain P I fuel) tr out) (hf : ∀ e ∈ tr, Faithful files e) : (out = .running ∧ ReadsBy I ss q tr) ∨
    ∃ reads t o l ign, tr = reads ++ t ∧ (∀ e ∈ reads, Harmless e) ∧ ReadsBy I ss q reads ∧ Begun P I ss files plain q o ∧ l.Holds ws 0 ∧ (∃ ignored, FreshIgnore ign ignored) ∧
      Trace ((fileLoop P o fuel (l.count + 1) l ign).bind fun _ => .ret ()) t out := by
  obtain ⟨o, l, ho, ha, hfl, hh⟩ := (C49_options_exactly hr.line hr.stays I.program I.sequence).2.1 hr.noList (.inl hr.args)
  obtain ⟨qs, hqs, hq⟩ := hw.sequences
  have work : ∀ o : Options, o.isInlineMode = false → o.files = some l →
      detoxWork P o fuel = (fileLoop P o fuel (l.count + 1) l o.filesToIgnore).bind fun _ => .ret () := by
    intro o h1 h2
    unfold detoxWork
    simp only [h1, h2, Bool.false_eq_true, if_false]
  unfold detoxMain at h
  rw [ho] at h
  change Trace (detoxConfigured P I o fuel) tr _ at h
  unfold detoxConfigured at h
  rcases trace_bind_any h with ⟨c, r1, t1, rfl, h1, h2⟩ | ⟨o', h1, h2⟩
  · rw [ha.2.2.2.2.2.2.2.1] at h1
    rcases sequences_arrive hqs h1 (fun e he => hf e (by simp [he])) with h3 | ⟨_, h3, hseq, hign⟩
    · cases h3
    cases h3
    rw [if_neg (fun hx => hr.noList (ha.1.1 hx))] at h2
    have hch : sequenceChooseDefault c.sequences o.sequenceName = some q := by
      rw [sequenceChooseDefault_iff, hseq, ha.2.2.2.2.2.2.2.2]
      exact hq
    rw [hch] at h2
    simp only at h2
    rcases trace_bind_any h2 with ⟨q', r2, t, rfl, h3, h4⟩ | ⟨o', h3, h4⟩
    · have hin : o.isInlineMode = false := by
        cases hi : o.isInlineMode with
        | false => rfl
        | true => exact absurd (ha.2.2.2.2.2.1.1 hi) hr.noInline
      refine .inr ⟨r1 ++ r2, t, { o with filesToIgnore := c.filesToIgnore, sequenceToUse := some q' }, l, c.filesToIgnore, by simp, ?_,
        ⟨r1, r2, _, _, rfl, h1, h3⟩, ?_, hh, ?_, ?_⟩
      · intro e he
        rcases List.mem_append.1 he with he | he
        · exact (configFileLoad_harmless _ _).trace h1 e he
        · exact (reviewSequence_harmless _ _ _).trace h3 e he
      · obtain ⟨h5, _⟩ := C67_tables_loaded h3
        refine ⟨ha, ⟨c, q', r1, r2, h1, fun e he => hf e (by simp [he]), by rw [hseq]; exact hq, h3, rfl⟩, q', _, rfl, h5, ?_⟩
        exact fun x hx => hf _ (by have := filesRead_mem hx; simp [this]) _ _ rfl
      · obtain ⟨_, ⟨ignored, il, hil, hih⟩, _⟩ := configFileLoad_good h1
        exact ⟨ignored, by rw [hil]; exact hih⟩
      · rw [work { o with filesToIgnore := c.filesToIgnore, sequenceToUse := some q' } hin hfl] at h4
        exact h4
    · rcases review_arrives (filtersFit_says hw.fit) h4 (fun e he => hf e (by simp [he])) with rfl | ⟨q', rfl⟩
      · cases h3; exact .inl ⟨rfl, r1, t1, _, _, rfl, h1, h4⟩
      · cases h3
  · rw [ha.2.2.2.2.2.2.2.1] at h2
    rcases sequences_arrive hqs h2 hf with rfl | ⟨_, rfl, _⟩
    · cases h1; exact .inl ⟨rfl, tr, [], _, _, (List.append_nil _).symm, h2, .stop _⟩
    · cases h1

theorem harmless_steps {tr : List Event} (hh : ∀ e ∈ tr, Harmless e) : ∀ {fs fs' : FS}, FS.FairSteps fs tr fs' → fs' = fs := by
  induction tr with
  | nil => intro fs fs' h; cases h; rfl
  | cons e tr ih =>
    intro fs fs' h
    cases h with
    | cons _ fs1 _ _ _ h1 h2 =>
      have := ih (fun x hx => hh x (by simp [hx])) h2
      subst this
      cases hh e (by simp) <;> cases h1.1 <;> rfl

theorem freshIgnore_valid {ign : Option Filelist} (h : ∃ ignored, FreshIgnore ign ignored) : IgnV ign := by
  intro l hl
  obtain ⟨ws, h⟩ := h
  subst hl
  exact ⟨ws, 0, h⟩

/-- The names that come up. -/
def NamesFit (plain : Bool) (ws : List Bytes) (tr : List Event) : Prop :=
  (∀ w ∈ ws, NameFits plain w) ∧ ∀ d n, Event.readdir d (some n) ∈ tr → NameFits plain n

/-- **C97.** Well-written config files, tables that fit: detox does not fail. Whatever the answers of the system about files and directories, it returns
with status 0, if it gets to its end. (It gives up if it runs out of file descriptors. `fuel` bounds the number of entries of a directory.) -/
theorem C97_detox_returns {P : Platform} (hP : P.Benign) {I : Invocation} {fuel : Nat} {ss : List Setting} {ws : List Bytes} (hr : Renames I ss ws)
    {files : Bytes → Option Bytes} {plain : Bool} {q : Sequence} (hw : Written I ss files plain q) {tr : List Event} {out : Outcome Unit}
    (h : Trace (detoxMain P I fuel) tr out) (hf : ∀ e ∈ tr, Faithful files e) (hn : NamesFit plain ws tr)
    (hem : ∀ d, Event.opendir d .emfile ∉ tr) (hfuel : tr.length < fuel) : out = .running ∨ out = .ret () := by
  rcases main_begins hr hw h hf with ⟨h1, _⟩ | ⟨reads, t, o, l, ign, rfl, _, _, hb, hl, hi, ht⟩
  · exact .inl h1
  replace hi := freshIgnore_valid hi
  obtain ⟨q', rd, hs, htab, hrf⟩ := hb.sequence
  have hc : Cleans P o (NameFits plain) := ⟨fun s hs => hs.1, fun s t h1 h2 => nameFits_part h1 h2, fun s hs => hb.runs hP hw hs⟩
  have hmem : ∀ e ∈ t, e ∈ reads ++ t := fun e he => by simp [he]
  have hdef : ((fileLoop P o fuel (l.count + 1) l ign).bind fun _ => Prog.ret ()).Defined True (fun e => e ∈ reads ++ t) fun _ => True :=
    (fileLoop_defined (A := fun e => e ∈ reads ++ t) (fun d n hm => hn.2 d n hm) hc (by rw [hs]; nofun) fuel hn.1 (l.count + 1) l 0 ign hl hi).bind
      fun _ _ => trivial
  obtain ⟨g1, _, _⟩ := Prog.Defined.sound ht hdef hmem
  have g2 : out ≠ .stuck := by
    have hns := fileLoop_rounds (P := P) (o := o) fuel (l.count + 1) l ign t.length 0 ws hl hi (by simp at hfuel; omega) (by rw [hl.1]; omega)
    exact Prog.ns_sound (Q := fun _ _ => True) ht t.length
      (Prog.ns_bind _ _ _ (Prog.ns_mono _ _ (fun _ _ _ _ _ => trivial) hns)) (Nat.le_refl _)
  have g3 : ∀ n, out ≠ .exit n := by
    rintro n rfl
    have : ((fileLoop P o fuel (l.count + 1) l ign).bind fun _ => Prog.ret ()).Endures := by
      refine .bind (fileLoop_endures hs ?_ fuel _ _ _) fun _ => .ret _
      exact tables_hasTables htab
    obtain ⟨d, hd⟩ := this.trace ht
    exact hem d (by simp [hd])
  cases out with
  | running => exact .inl rfl
  | ret a => exact .inr rfl
  | exit n => exact absurd rfl (g3 n)
  | ub u => exact absurd rfl (g1 u)
  | stuck => exact absurd rfl g2

/-! ### What it does -/

/-- Two ways to say what the names should be, the same for the names in question. -/
def SameFor (R R' : Bytes → Bytes → Prop) (args : List Bytes) : Prop := ∀ f ∈ args, ∀ dir name, SplitsAs f dir name → ∀ w, R name w ↔ R' name w

theorem SameFor.symm {R R' : Bytes → Bytes → Prop} {args : List Bytes} (h : SameFor R R' args) : SameFor R' R args :=
  fun f hf dir name hs w => (h f hf dir name hs w).symm

theorem SameFor.concerns {R R' : Bytes → Bytes → Prop} {args : List Bytes} (h : SameFor R R' args) {f p : Bytes} (hf : f ∈ args)
    (hc : Concerns R f p) : Concerns R' f p := by
  rcases hc with h1 | ⟨dir, name, w, h1, h2, h3⟩
  · exact .inl h1
  · exact .inr ⟨dir, name, w, h1, (h f hf _ _ h1 w).1 h2, h3⟩

theorem SameFor.apart {R R' : Bytes → Bytes → Prop} {args : List Bytes} (h : SameFor R R' args) {fs : FS} (ha : Apart R fs args) :
    Apart R' fs args := by
  refine List.Pairwise.imp_of_mem ?_ ha
  intro f g hf hg hfg p q x hp hq
  exact hfg p q x (h.symm.concerns hf hp) (h.symm.concerns hg hq)

theorem SameFor.wants {R R' : Bytes → Bytes → Prop} {args : List Bytes} (h : SameFor R R' args) {fs : FS} {f dir w : Bytes} {e : Entry}
    (hf : f ∈ args) (hw : Wants R fs f dir e w) : Wants R' fs f dir e w := by
  obtain ⟨name, h0, h1, h2, h3, h4, h5⟩ := hw
  exact ⟨name, h0, h1, h2, h3, (h f hf _ _ h1 w).1 h4, h5⟩

theorem SameFor.becomes {R R' : Bytes → Bytes → Prop} {args : List Bytes} (h : SameFor R R' args) {fs : FS} {e e' : Entry}
    (hb : Becomes R fs args e e') : Becomes R' fs args e e' := by
  cases hb with
  | renamed f dir w hf hw hc => exact .renamed f dir w hf (h.wants hf hw) hc
  | kept hno => exact .kept fun f hf dir w hw => hno f hf dir w (h.symm.wants hf hw)

theorem Begun.same {P : Platform} (hP : P.Benign) {I : Invocation} {ss : List Setting} {files : Bytes → Option Bytes} {plain : Bool} {q : Sequence}
    {o : Options} (hw : Written I ss files plain q) (h : Begun P I ss files plain q o) {args : List Bytes} (hn : ∀ f ∈ args, NameFits plain f) :
    SameFor (Makes P o) (FiltersSay P I.ctype I.datadir files q.filters) args := by
  intro f hf dir name hs w
  exact h.makes hP hw (nameFits_part (hn f hf) ⟨dir, [], by rw [List.append_nil]; exact hs.1.symm⟩) w

/-- **C97.** detox over files, from the command line and the texts of config files and tables to the directories afterwards: every entry is as it was, but
for the name of those that are the last component of an argument, should have another name according to the filters of the sequence, and can have it. -/
theorem C97_detox_over_files {P : Platform} (hP : P.Benign) {I : Invocation} {fuel : Nat} {ss : List Setting} {ws : List Bytes} (hr : Renames I ss ws)
    (hdry : Setting.dryRun ∉ ss) {files : Bytes → Option Bytes} {plain : Bool} {q : Sequence} (hw : Written I ss files plain q)
    (hn : ∀ f ∈ ws, NameFits plain f) {tr : List Event} (h : Trace (detoxMain P I fuel) tr (.ret ())) (hf : ∀ e ∈ tr, Faithful files e) {fs fs' : FS}
    (hs : FS.FairSteps fs tr fs') (hu : fs.Unique) (hreg : ∀ f ∈ ws, ∀ i, fs.lookup f = some i → fs.kind i = .reg)
    (hsl : ∀ f ∈ ws, NewNameHasNoSlash (FiltersSay P I.ctype I.datadir files q.filters) f)
    (hap : Apart (FiltersSay P I.ctype I.datadir files q.filters) fs ws) :
    ∃ g : Entry → Entry, fs' = { fs with entries := fs.entries.map g } ∧
      ∀ e ∈ fs.entries, Becomes (FiltersSay P I.ctype I.datadir files q.filters) fs ws e (g e) := by
  rcases main_begins hr hw h hf with ⟨h1, _⟩ | ⟨reads, t, o, l, ign, rfl, hh, _, hb, hl, ⟨ignored, hi⟩, ht⟩
  · cases h1
  obtain ⟨fs1, hs1, hs2⟩ := hs.append_inv
  have e1 : fs1 = fs := harmless_steps hh hs1
  subst e1
  obtain ⟨out', hrun, hout⟩ := main_run hl hi ht
  obtain ⟨a, rfl⟩ : ∃ a, out' = .ret a := by
    rcases hout with h | h
    · exact h
    · cases h
  have same := hb.same hP hw hn
  have hdry' : o.dryRun = false := by
    cases hd : o.dryRun with
    | false => rfl
    | true => exact absurd (hb.asked.2.1.1 hd) hdry
  obtain ⟨g, hg1, hg2⟩ := C97_files_after_a_run hrun hdry'
    (fun f hf dir name w h1 h2 => hsl f hf dir name w h1 ((same f hf _ _ h1 w).1 h2)) hs2 hu hreg (same.symm.apart hap)
  exact ⟨g, hg1, fun e he => same.becomes (hg2 e he)⟩

/-- **C97.** And there is such an execution: with the file system for itself, and the files there are, detox gets to its end. -/
theorem C97_detox_gets_there {P : Platform} (hP : P.Benign) {I : Invocation} {fuel : Nat} {ss : List Setting} {ws : List Bytes} (hr : Renames I ss ws)
    {files : Bytes → Option Bytes} {plain : Bool} {q : Sequence} (hw : Written I ss files plain q) (hn : ∀ f ∈ ws, NameFits plain f) (fs : FS) :
    ∃ tr fs', Trace (detoxMain P I (fuel + 1)) tr (.ret ()) ∧ (∀ e ∈ tr, Faithful files e) ∧ FS.FairSteps fs tr fs' := by
  obtain ⟨tr, out, fs', h, hrun, hs, hf, hsh⟩ := fair_execution files (detoxMain P I (fuel + 1)) fs
  rcases main_begins hr hw h hf with ⟨h1, _⟩ | ⟨reads, t, o, l, ign, rfl, hh, _, hb, hl, hi, ht⟩
  · exact absurd h1 hrun
  replace hi := freshIgnore_valid hi
  obtain ⟨q', rd, hq, htab, hrf⟩ := hb.sequence
  have hc : Cleans P o (NameFits plain) := ⟨fun s hs => hs.1, fun s t h1 h2 => nameFits_part h1 h2, fun s hs => hb.runs hP hw hs⟩
  have hdef : ((fileLoop P o (fuel + 1) (l.count + 1) l ign).bind fun _ => Prog.ret ()).Defined False Shut fun _ => True :=
    (fileLoop_shut hc (by rw [hq]; nofun) fuel hn (l.count + 1) l 0 ign hl hi (by rw [hl.1]; omega)).bind fun _ _ => trivial
  obtain ⟨g1, g2, _⟩ := Prog.Defined.sound ht hdef fun e he => hsh e (by simp [he])
  have g3 : ∀ n, out ≠ .exit n := by
    rintro n rfl
    have : ((fileLoop P o (fuel + 1) (l.count + 1) l ign).bind fun _ => Prog.ret ()).Endures := by
      refine .bind (fileLoop_endures hq ?_ _ _ _ _) fun _ => .ret _
      exact tables_hasTables htab
    obtain ⟨d, hd⟩ := this.trace ht
    have := hsh (.opendir d .emfile) (by simp [hd]) _ _ rfl
    cases this
  cases out with
  | running => exact absurd rfl hrun
  | ret a => exact ⟨_, _, h, hf, hs⟩
  | exit n => exact absurd rfl (g3 n)
  | ub u => exact absurd rfl (g1 u)
  | stuck => exact (g2 rfl).elim

/-! ### Nothing configured -/

/-- There is room for the compiled-in tables, with every compiled-in sequence. -/
theorem C97_builtin_written {I : Invocation} {ss : List Setting} {files : Bytes → Option Bytes} {q : Sequence} {plain : Bool}
    (hg : lastConfig ss = none) (hno : configsInEffect I.config none files = []) (hq : Chosen spoofSequences (requested I ss) q)
    (hp : plain = true ∨ ∀ f ∈ q.filters, f.cleaner ≠ .utf8) : Written I ss files plain q := by
  refine ⟨⟨_, .builtin hg hno, hq⟩, ?_⟩
  have roomy1 : ∀ (rs : List Row) (k : Nat) (d : Bytes), lastOf (writtenRows rs) k = some d → 1 ≤ d.length →
      (⟨lastOf (writtenRows rs), none⟩ : TableText).Roomy 1 := fun rs k d h1 h2 => ⟨⟨k, d, h1, h2⟩, nofun⟩
  have fsafe : ∀ b, FilterFits I.ctype I.datadir files b (generateFilter .safe) := by
    intro b n _
    exact ⟨_, .builtin _ _ rfl .safe, roomy1 _ 1 [0x5F] (by decide +kernel) (by decide)⟩
  have fwipe : ∀ b, FilterFits I.ctype I.datadir files b (generateWipeupFilter true) := fun b n h => nomatch h
  have flower : ∀ b, FilterFits I.ctype I.datadir files b (generateFilter .lower) := fun b n h => nomatch h
  have funcgi : ∀ b, FilterFits I.ctype I.datadir files b (generateFilter .uncgi) := fun b n h => nomatch h
  have fiso : ∀ b, FilterFits I.ctype I.datadir files b (generateBuiltinFilter .iso8859_1 (lit "iso8859_1")) := by
    intro b n _
    refine ⟨_, .builtin _ _ rfl .iso8859_1, ⟨0xA0, [0x20], by decide +kernel, Nat.le_refl 1⟩, ?_⟩
    intro x hx
    cases hx
    exact ⟨0xA0, [0x20], by decide +kernel, by decide⟩
  have fcp : ∀ b, FilterFits I.ctype I.datadir files b (generateBuiltinFilter .iso8859_1 (lit "cp1252")) := by
    intro b n _
    exact ⟨_, .builtin _ _ rfl .cp1252, roomy1 _ 0x81 [0x2D] (by decide +kernel) (by decide)⟩
  have futf : FilterFits I.ctype I.datadir files true (generateBuiltinFilter .utf8 (lit "unicode")) := by
    intro n _
    exact ⟨_, .builtin _ _ rfl .unicode, roomy1 _ 1 [0x5F] (by decide +kernel) (by decide)⟩
  have hmem : q ∈ spoofSequences := chosen_mem hq
  clear hq
  have two : ∀ g ∈ safeWipeup, FilterFits I.ctype I.datadir files false g := by
    intro g hg
    simp only [safeWipeup, List.mem_cons, List.not_mem_nil, or_false] at hg
    rcases hg with rfl | rfl
    · exact fsafe _
    · exact fwipe _
  have one : ∀ g ∈ [generateWipeupFilter true], FilterFits I.ctype I.datadir files false g := fun g hg => two g (by simp [safeWipeup] at hg ⊢; exact .inr hg)
  simp only [spoofSequences, List.mem_cons, List.not_mem_nil, or_false] at hmem
  rcases hmem with rfl | rfl | rfl | rfl | rfl | rfl | rfl | rfl | rfl | rfl | rfl
  · exact ⟨fsafe _, one⟩
  · exact ⟨fiso _, two⟩
  · exact ⟨fcp _, fun g hg => (List.mem_cons.1 hg).elim (fun h => h ▸ fiso _) (two g)⟩
  · obtain rfl : plain = true := hp.resolve_right fun h => h _ List.mem_cons_self rfl
    exact ⟨futf, two⟩
  · exact ⟨funcgi _, two⟩
  · exact ⟨fsafe _, fun g hg => (List.mem_cons.1 hg).elim (fun h => h ▸ flower _) (one g)⟩
  · exact ⟨fiso _, nofun⟩
  · exact ⟨fcp _, nofun⟩
  · obtain rfl : plain = true := hp.resolve_right fun h => h _ List.mem_cons_self rfl
    exact ⟨futf, nofun⟩
  · exact ⟨funcgi _, nofun⟩
  · exact ⟨flower _, nofun⟩

/-- **C97.** The same with nothing configured; nine of the eleven compiled-in sequences make no slashes. -/
theorem C97_unconfigured_over_files {P : Platform} (hP : P.Benign) {I : Invocation} {fuel : Nat} {ss : List Setting} {ws : List Bytes}
    (hr : Renames I ss ws) (hdry : Setting.dryRun ∉ ss) {files : Bytes → Option Bytes} {plain : Bool} {q : Sequence} (hg : lastConfig ss = none)
    (hno : configsInEffect I.config none files = []) (hq : Chosen spoofSequences (requested I ss) q)
    (hp : plain = true ∨ ∀ f ∈ q.filters, f.cleaner ≠ .utf8)
    (hns : requested I ss ≠ some (lit "utf_8-only") ∧ requested I ss ≠ some (lit "uncgi-only"))
    (hn : ∀ f ∈ ws, NameFits plain f) {tr : List Event} (h : Trace (detoxMain P I fuel) tr (.ret ())) (hf : ∀ e ∈ tr, Faithful files e) {fs fs' : FS}
    (hs : FS.FairSteps fs tr fs') (hu : fs.Unique) (hreg : ∀ f ∈ ws, ∀ i, fs.lookup f = some i → fs.kind i = .reg)
    (hap : Apart (FiltersSay P I.ctype I.datadir files q.filters) fs ws) :
    ∃ g : Entry → Entry, fs' = { fs with entries := fs.entries.map g } ∧
      ∀ e ∈ fs.entries, Becomes (FiltersSay P I.ctype I.datadir files q.filters) fs ws e (g e) := by
  have hw := C97_builtin_written hg hno hq hp
  refine C97_detox_over_files hP hr hdry hw hn h hf hs hu hreg ?_ hap
  intro f hfw dir name w hsp hsay
  rcases main_begins hr hw h hf with ⟨h1, _⟩ | ⟨reads, t, o, l, ign, rfl, hh, _, hb, _⟩
  · cases h1
  obtain ⟨c, q', r1, r2, h1, hf1, h2, h3, h4⟩ := hb.stages
  have hun : Unconfigured I ss r1 := by
    refine ⟨hg, fun p hp text hm => ?_⟩
    have e1 := hf1 _ hm _ _ rfl
    have e2 : (p, text) ∈ present files (systemFiles I.config) ∨ (p, text) ∈ present files (userFiles I.config) := by
      rcases List.mem_append.1 hp with hp | hp
      · exact .inl (List.mem_filterMap.2 ⟨p, hp, by rw [← e1]; rfl⟩)
      · exact .inr (List.mem_filterMap.2 ⟨p, hp, by rw [← e1]; rfl⟩)
    unfold configsInEffect at hno
    simp only [List.append_eq_nil_iff] at hno
    obtain ⟨n1, n2⟩ := hno
    rcases e2 with e2 | e2
    · cases hpr : present files (systemFiles I.config) with
      | nil => rw [hpr] at e2; cases e2
      | cons a b => rw [hpr] at n1; cases n1
    · rw [n2] at e2; cases e2
  have hfits := nameFits_part (hn f hfw) (t := name) ⟨dir, [], by rw [List.append_nil]; exact hsp.1.symm⟩
  exact unconfigured_noNewSlash hP hun (fun _ h => h) h1 h2 h3 h4 hns name w hfits.1 hsp.2.1 ((hb.makes hP hw hfits w).2 hsay)

/-- **C97.** Where the filters leave nothing of a name, the file cannot have the name it should have, and stays as it is; detox complains. -/
theorem C97_emptied_name :
    Trace (detoxMain .linux (plainCall (lit "_-#")) 0) (nothingInstalled ++
      [.lstat (lit "_-#") (some (regStat 2)), .lstat (lit "_-#") (some (regStat 2)), .lstat [] none, .rename (lit "_-#") [] false,
       .err (lit "Cannot rename _-# to : ")]) (.ret ()) ∧
    (∀ fs : FS, fs.rename (lit "_-#") [] = none) ∧ ∀ (fs : FS) (dir : Bytes) (e : Entry), ¬ CanHave fs dir e [] := by
  refine ⟨Prog.result_sound _ _ _ (by decide +kernel), fun fs => ?_, fun fs dir e h => h.proper.1 rfl⟩
  have h : fs.locate [] = none := by unfold FS.locate; simp
  unfold FS.rename
  rw [h]
  cases fs.locate (lit "_-#") <;> rfl

/-! ### A case -/

/- `detox 'a b'` with no files but `a b`. -/
example : ∃ q, Renames (plainCall (lit "a b")) [] [lit "a b"] ∧ Written (plainCall (lit "a b")) [] (fun _ => none) false q ∧
    (∀ f ∈ [lit "a b"], NameFits false f) ∧ oneFS.Unique ∧ (∀ f ∈ [lit "a b"], ∀ i, oneFS.lookup f = some i → oneFS.kind i = .reg) ∧
    Apart (FiltersSay .linux [] none (fun _ => none) q.filters) oneFS [lit "a b"] ∧
    Becomes (FiltersSay .linux [] none (fun _ => none) q.filters) oneFS [lit "a b"] ⟨⟨1, 1⟩, lit "a b", ⟨1, 2⟩⟩ ⟨⟨1, 1⟩, lit "a_b", ⟨1, 2⟩⟩ := by
  have hch : Chosen spoofSequences (requested (plainCall (lit "a b")) []) (generateSequence (lit "default") safeWipeup) :=
    .inl ⟨[], _, rfl, rfl, nofun⟩
  refine ⟨generateSequence (lit "default") safeWipeup, ⟨.operand _ _ _ _ rfl (.inl (by decide +kernel)) .none, nofun, nofun, ?_, nofun⟩,
    C97_builtin_written rfl ?_ hch (.inr ?_), ?_, ?_, ?_, List.pairwise_singleton _ _, ?_⟩
  · rintro (h | h)
    · rw [← posixBasename_inline] at h
      exact absurd h (by decide +kernel)
    · cases h
  · decide +kernel
  · decide +kernel
  · intro f hf
    rw [List.mem_singleton.1 hf]
    exact ⟨by decide +kernel, nofun⟩
  · simp [FS.Unique, oneFS, smallFS]
  · intro f hf i hi
    rw [List.mem_singleton.mp hf] at hi
    rw [← Option.some.inj (show some (⟨1, 2⟩ : Ino) = some i from (show oneFS.lookup (lit "a b") = some ⟨1, 2⟩ by decide +kernel) ▸ hi)]
    rfl
  · refine .renamed (lit "a b") [] (lit "a_b") (by simp) ⟨lit "a b", by decide, ⟨rfl, by decide, .inl rfl⟩, by decide +kernel, by decide +kernel, ?_, by decide⟩ ?_
    · have h := FilterSays.safe (P := .linux) (locale := []) (datadir := none) (files := fun _ => none) (f := generateFilter .safe) (s := lit "a b") _ rfl
        (.builtin _ _ rfl .safe)
      have e : ((lit "a b").flatMap fun c => (⟨lastOf (writtenRows builtin_safe_rows), none⟩ : TableText).says (safeCode .linux c) [c]) = lit "a_b" := by
        decide +kernel
      rw [e] at h
      have hw : IsWipeup true (lit "a_b") (wipe true (lit "a_b")) := wipe_spec (by decide +kernel)
      rw [show wipe true (lit "a_b") = lit "a_b" by decide +kernel] at hw
      exact .cons _ _ _ _ _ h (.cons _ _ _ _ _ (.wipeup _ rfl hw) (.nil _))
    · refine ⟨by decide, rfl, ?_⟩
      intro e' he' _ hn'
      rw [List.mem_singleton.1 he'] at hn'
      exact absurd hn' (by decide +kernel)

end Detox
