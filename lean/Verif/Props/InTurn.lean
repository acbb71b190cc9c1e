import Verif.Props.Complete
import Verif.Props.Result
import Verif.Spec.Switches

/-!
# C126: one run with many arguments, or many runs with one
-/

set_option autoImplicit false

namespace Detox
open Spec

/-! ### What the scan depends on -/

/-- Options that mean the same for the work on files. -/
structure WorkAlike (o o' : Options) : Prop where
  dryRun : o.dryRun = o'.dryRun
  recurse : o.recurse = o'.recurse
  special : o.special = o'.special
  verbose : o.verbose = o'.verbose

theorem WorkAlike.symm {o o' : Options} (h : WorkAlike o o') : WorkAlike o' o := ⟨h.dryRun.symm, h.recurse.symm, h.special.symm, h.verbose.symm⟩

theorem FileRunBy.alike {R : Bytes → Bytes → Prop} {o o' : Options} (ha : WorkAlike o o') {f p : Bytes} {tr : List Event} (h : FileRunBy R o f tr p) :
    FileRunBy R o' f tr p := by
  cases h with
  | clean dir name a b => exact .clean dir name a b
  | gone dir name w a b c d e => exact .gone dir name w a b c d e
  | refused dir name w so sn a b c d e f => exact .refused dir name w so sn a b c d e f
  | dry dir name w so rn a b c d e f g => exact .dry dir name w so rn a b c d e f (ha.dryRun ▸ g)
  | renamed dir name w so rn a b c d e f g => rw [ha.verbose]; exact .renamed dir name w so rn a b c d e f (ha.dryRun ▸ g)
  | failed dir name w so rn a b c d e f g => rw [ha.verbose]; exact .failed dir name w so rn a b c d e f (ha.dryRun ▸ g)

/-- None of the names read is to be ignored. -/
def NoneIgnored (ignored : List Bytes) (tr : List Event) : Prop := ∀ h n, Event.readdir h (some n) ∈ tr → n ∉ ignored

/-- Which options, and which names were seen before, is all the same if nothing is met that is to be ignored. -/
theorem scan_alike {R : Bytes → Bytes → Prop} {o o' : Options} (ha : WorkAlike o o') {ws : List Bytes} {task : Task} {seen seen' : List Bytes} {tr : List Event}
    (h : ScanBy R o ws task seen tr seen') : ∀ seen2, (seen2 = seen ∨ NoneIgnored ws tr) → ∃ seen2', (seen2 = seen → seen2' = seen') ∧ ScanBy R o' ws task seen2 tr seen2' := by
  have over : ∀ {s s2 name}, (s2 = s ∨ name ∉ ws) → (PassedOver ws s name ↔ PassedOver ws s2 name) := by
    rintro s s2 name (rfl | hn)
    · rfl
    · unfold PassedOver
      constructor <;> exact fun h => h.imp id fun h => absurd (List.mem_of_mem_drop h) hn
  have see : ∀ {s s2 : List Bytes} {name : Bytes} {p : Prop}, (s2 = s ∨ p) → (seeing s2 name = seeing s name ∨ p) := fun h => h.imp (fun h => by rw [h]) id
  induction h with
  | gone path s => exact fun s2 _ => ⟨s2, id, .gone _ _⟩
  | replaced path st s a => exact fun s2 _ => ⟨s2, id, .replaced _ _ _ a⟩
  | closed path st s a => exact fun s2 _ => ⟨s2, id, .closed _ _ _ a⟩
  | opened path st hd s s' tr a _ ih =>
    intro s2 hs
    obtain ⟨t, h1, h2⟩ := ih s2 (hs.imp id fun h k n hm => h k n (by simp [hm]))
    exact ⟨t, h1, .opened _ _ _ _ _ _ a h2⟩
  | finish hd path st s => exact fun s2 _ => ⟨s2, id, .finish _ _ _ _⟩
  | pass hd path st name s s' tr a _ ih =>
    intro s2 hs
    have hn : s2 = s ∨ name ∉ ws := hs.imp id fun h => h hd name (by simp)
    obtain ⟨t, h1, h2⟩ := ih (seeing s2 name) (see (hs.imp id fun h k n hm => h k n (by simp [hm])))
    exact ⟨t, fun h => h1 (by rw [h]), .pass _ _ _ _ _ _ _ ((over hn).1 a) h2⟩
  | leave hd path st name r s s' tr a b c d _ ih =>
    intro s2 hs
    have hn : s2 = s ∨ name ∉ ws := hs.imp id fun h => h hd name (by simp)
    obtain ⟨t, h1, h2⟩ := ih (seeing s2 name) (see (hs.imp id fun h k n hm => h k n (by simp [hm])))
    exact ⟨t, fun h => h1 (by rw [h]), .leave _ _ _ _ _ _ _ _ (mt (over hn).2 a) b c (ha.special ▸ d) h2⟩
  | file hd path st name r s s' mid tr p a b c _ ih =>
    intro s2 hs
    have hn : s2 = s ∨ name ∉ ws := hs.imp id fun h => h hd name (by simp)
    obtain ⟨t, h1, h2⟩ := ih (seeing s2 name) (see (hs.imp id fun h k n hm => h k n (by simp [hm])))
    exact ⟨t, fun h => h1 (by rw [h]), .file _ _ _ _ _ _ _ _ _ _ (mt (over hn).2 a) (ha.special ▸ ha.recurse ▸ b) (c.alike ha) h2⟩
  | recurse hd path st name r s s1 s' mid sub tr p a b c d _ _ ih1 ih2 =>
    intro s2 hs
    have hn : s2 = s ∨ name ∉ ws := hs.imp id fun h => h hd name (by simp)
    obtain ⟨t1, h1, h2⟩ := ih1 (seeing s2 name) (see (hs.imp id fun h k n hm => h k n (by simp [hm])))
    obtain ⟨t2, h3, h4⟩ := ih2 t1 (hs.imp (fun h => h1 (by rw [h])) fun h k n hm => h k n (by simp [hm]))
    exact ⟨t2, fun h => h3 (h1 (by rw [h])), .recurse _ _ _ _ _ _ _ _ _ _ _ _ (mt (over hn).2 a) b (ha.recurse ▸ c) (d.alike ha) h2 h4⟩

theorem arg_alike {R : Bytes → Bytes → Prop} {o o' : Options} (ha : WorkAlike o o') {ws : List Bytes} {f : Bytes} {seen seen' : List Bytes} {tr : List Event}
    (h : ArgScanBy R o ws f seen tr seen') (seen2 : List Bytes) (hs : seen2 = seen ∨ NoneIgnored ws tr) :
    ∃ seen2', (seen2 = seen → seen2' = seen') ∧ ArgScanBy R o' ws f seen2 tr seen2' := by
  cases h with
  | missing => exact ⟨seen2, id, .missing _⟩
  | leave st _ a b c => exact ⟨seen2, id, .leave _ _ a b (ha.special ▸ c)⟩
  | file st _ mid p a b => exact ⟨seen2, id, .file _ _ _ _ (ha.special ▸ a) (b.alike ha)⟩
  | dir st _ _ mid sub p a b c =>
    obtain ⟨t, h1, h2⟩ := scan_alike ha c seen2 (hs.imp id fun h k n hm => h k n (by simp [hm]))
    exact ⟨t, h1, .dir _ _ _ _ _ _ a (b.alike ha) h2⟩

theorem args_alike {R : Bytes → Bytes → Prop} {o o' : Options} (ha : WorkAlike o o') {ws : List Bytes} {args : List Bytes} {seen seen' : List Bytes} {tr : List Event}
    (h : ArgsScanBy R o ws args seen tr seen') : ArgsScanBy R o' ws args seen tr seen' := by
  induction h with
  | nil s => exact .nil s
  | cons f fs s s1 s' t tr a _ ih =>
    obtain ⟨s2, h1, h2⟩ := arg_alike ha a s (.inl rfl)
    rw [h1 rfl] at h2
    rw [ha.verbose]
    exact .cons _ _ _ _ _ _ _ h2 ih

/-! ### What the program is -/

/-- What detox reads before it works on files, and what comes of it: the configuration, and the sequence to use with its tables. -/
def Prepared (I : Invocation) (ss : List Setting) (reads : List Event) (c : ConfigFile) (q : Sequence) : Prop :=
  ∃ r1 r2 q0, reads = r1 ++ r2 ∧ Trace (configFileLoad I.config (lastConfig ss)) r1 (.ret c) ∧ Chosen c.sequences (requested I ss) q0 ∧
    Trace (reviewSequence I.ctype I.datadir q0) r2 (.ret q)

/-- The options the work depends on. -/
def workOptions (ss : List Setting) (q : Sequence) : Options where
  dryRun := decide (Setting.dryRun ∈ ss)
  recurse := decide (Setting.recurse ∈ ss)
  special := decide (Setting.special ∈ ss)
  verbose := ss.count Setting.verbose
  sequenceToUse := some q

theorem asked_alike {program : Bytes} {env : Option Bytes} {ss : List Setting} {o : Options} (h : Asked program env ss o) (q : Sequence) (i : Option Filelist) :
    WorkAlike { o with filesToIgnore := i, sequenceToUse := some q } (workOptions ss q) := by
  obtain ⟨_, a2, a3, a4, a5, _⟩ := h
  refine ⟨?_, ?_, ?_, a5⟩
  · show o.dryRun = decide _
    rw [Bool.eq_iff_iff, a2]; simp
  · show o.recurse = decide _
    rw [Bool.eq_iff_iff, a3]; simp
  · show o.special = decide _
    rw [Bool.eq_iff_iff, a4]; simp

theorem ignored_ok {ign : Option Filelist} {ws : List Bytes} (h : FreshIgnore ign ws) : IgnOk ws ign [] := by
  cases ign <;> exact h

/-- The program, up to its loop over the arguments. -/
theorem main_loop {P : Platform} {I : Invocation} {ss : List Setting} {ws : List Bytes} (hr : Renames I ss ws) :
    ∃ o l, Asked I.program I.sequence ss o ∧ l.Holds ws 0 ∧ ∀ fuel, detoxMain P I fuel =
      (configFileLoad I.config (lastConfig ss)).bind fun c =>
        match sequenceChooseDefault c.sequences (requested I ss) with
        | none => .err (lit "detox: no sequence to work with\n") (.exit 1)
        | some q => (reviewSequence I.ctype I.datadir q).bind fun q' =>
          (fileLoop P { o with filesToIgnore := c.filesToIgnore, sequenceToUse := some q' } fuel (l.count + 1) l c.filesToIgnore).bind fun _ => .ret () := by
  obtain ⟨o, l, ho, ha, hfl, hh⟩ := (C49_options_exactly hr.line hr.stays I.program I.sequence).2.1 hr.noList (.inl hr.args)
  refine ⟨o, l, ha, hh, fun fuel => ?_⟩
  have hin : o.isInlineMode = false := by
    cases hi : o.isInlineMode with
    | false => rfl
    | true => exact absurd (ha.2.2.2.2.2.1.1 hi) hr.noInline
  have hls : o.listSequences = false := by
    cases hi : o.listSequences with
    | false => rfl
    | true => exact absurd (ha.1.1 hi) hr.noList
  unfold detoxMain
  rw [ho]
  show detoxConfigured P I o fuel = _
  unfold detoxConfigured
  rw [ha.2.2.2.2.2.2.2.1]
  congr 1
  funext c
  rw [hls, ha.2.2.2.2.2.2.2.2]
  simp only [Bool.false_eq_true, if_false]
  show _ = (match sequenceChooseDefault c.sequences ((lastSequence ss).or I.sequence) with | none => _ | some q => _)
  cases sequenceChooseDefault c.sequences ((lastSequence ss).or I.sequence) with
  | none => rfl
  | some q =>
    dsimp only
    congr 1
    funext q'
    unfold detoxWork
    simp only [hin, hfl, Bool.false_eq_true, if_false]

/-- Every run that ends has a beginning, in which it reads, and does its work after that. -/
theorem main_scans {P : Platform} {I : Invocation} {ss : List Setting} {ws : List Bytes} (hr : Renames I ss ws) {fuel : Nat} {tr : List Event}
    (h : Trace (detoxMain P I fuel) tr (.ret ())) :
    ∃ reads t c q ignored seen, tr = reads ++ t ∧ Prepared I ss reads c q ∧ FreshIgnore c.filesToIgnore ignored ∧ ArgsScan P (workOptions ss q) ignored ws [] t seen := by
  obtain ⟨o, l, ha, hl, he⟩ := main_loop (P := P) hr
  rw [he] at h
  obtain ⟨c, r1, t1, rfl, h1, h2⟩ := trace_bind_ret h
  cases hq : sequenceChooseDefault c.sequences (requested I ss) with
  | none => rw [hq] at h2; cases h2 with | err _ _ _ _ h2 => cases h2
  | some q0 =>
    rw [hq] at h2
    obtain ⟨q, r2, t2, rfl, h3, h4⟩ := trace_bind_ret h2
    obtain ⟨a, t, t3, rfl, h5, h6⟩ := trace_bind_ret h4
    cases h6
    obtain ⟨_, ⟨ignored, il, hil, hih⟩, _⟩ := configFileLoad_good h1
    have hf : FreshIgnore c.filesToIgnore ignored := by rw [hil]; exact hih
    obtain ⟨seen, h7⟩ := fileLoop_scan' _ 0 l _ _ _ [] hl h5 (ignored_ok hf)
    exact ⟨r1 ++ r2, t, c, q, ignored, seen, by simp, ⟨r1, r2, q0, rfl, h1, (sequenceChooseDefault_iff _ _ _).1 hq, h3⟩, hf,
      args_alike (asked_alike ha q c.filesToIgnore) h7⟩

theorem scans_main {P : Platform} {I : Invocation} {ss : List Setting} {ws : List Bytes} (hr : Renames I ss ws) {reads t : List Event} {c : ConfigFile} {q : Sequence}
    {ignored seen : List Bytes} (hp : Prepared I ss reads c q) (hi : FreshIgnore c.filesToIgnore ignored) (h : ArgsScan P (workOptions ss q) ignored ws [] t seen) :
    ∃ n, ∀ fuel, n ≤ fuel → Trace (detoxMain P I fuel) (reads ++ t) (.ret ()) := by
  obtain ⟨o, l, ha, hl, he⟩ := main_loop (P := P) hr
  obtain ⟨r1, r2, q0, rfl, h1, h2, h3⟩ := hp
  obtain ⟨n, a, h4⟩ := fileLoop_possible (o := { o with filesToIgnore := c.filesToIgnore, sequenceToUse := some q }) (by simp) (args := ws) 0 [] seen t
    (args_alike (asked_alike ha q c.filesToIgnore).symm h) l c.filesToIgnore hl (ignored_ok hi)
  refine ⟨n, fun fuel hf => ?_⟩
  rw [he, List.append_assoc]
  refine trace_append h1 ?_
  rw [(sequenceChooseDefault_iff _ _ _).2 h2]
  refine trace_append h3 ?_
  have hc : l.count = ws.length - 0 := by have := hl; unfold Filelist.Holds at this; omega
  rw [hc, ← List.append_nil t]
  exact trace_append (h4 fuel hf) (.ret _)

/-! ### The beginning is the same -/

/-- A program goes the same way as long as it gets the same answers. -/
theorem trace_same {α : Type} {p : Prog α} {r1 : List Event} {o1 : Outcome α} (h1 : Trace p r1 o1) : ∀ {r2 s1 s2 : List Event} {o2 : Outcome α}, Trace p r2 o2 →
    o1 ≠ .running → o2 ≠ .running → r1 ++ s1 = r2 ++ s2 → r1 = r2 ∧ o1 = o2 := by
  induction h1 with
  | stop => exact fun _ h _ _ => absurd rfl h
  | ret | exit | ub | stuck =>
    intro r2 s1 s2 o2 h2 _ h _
    cases h2 with
    | stop => exact absurd rfl h
    | _ => exact ⟨rfl, rfl⟩
  | lstat _ _ _ _ _ _ ih | rename _ _ _ _ _ _ _ ih | opendir _ _ _ _ _ _ ih | readdir _ _ _ _ _ _ ih | slurp _ _ _ _ _ _ ih | closedir _ _ _ _ _ ih | out _ _ _ _ _ ih
  | err _ _ _ _ _ ih =>
    intro r2 s1 s2 o2 h2 g1 g2 e
    cases h2 with
    | stop => exact absurd rfl g2
    | _ =>
      rename_i h3
      simp only [List.cons_append, List.cons.injEq, Event.lstat.injEq, Event.rename.injEq, Event.opendir.injEq, Event.readdir.injEq, Event.slurp.injEq, true_and] at e
      first
        | (obtain ⟨rfl, e⟩ := e; obtain ⟨h4, h5⟩ := ih h3 g1 g2 e; exact ⟨by rw [h4], h5⟩)
        | (obtain ⟨h4, h5⟩ := ih h3 g1 g2 e; exact ⟨by rw [h4], h5⟩)

theorem prepared_same {I : Invocation} {ss : List Setting} {reads reads' t t' : List Event} {c c' : ConfigFile} {q q' : Sequence} (h : Prepared I ss reads c q)
    (h' : Prepared I ss reads' c' q') (e : reads ++ t = reads' ++ t') : reads = reads' ∧ c = c' ∧ q = q' := by
  obtain ⟨r1, r2, q0, rfl, h1, h2, h3⟩ := h
  obtain ⟨r1', r2', q0', rfl, h1', h2', h3'⟩ := h'
  rw [List.append_assoc, List.append_assoc] at e
  obtain ⟨rfl, k1⟩ := trace_same h1 h1' (by simp) (by simp) e
  cases k1
  rw [← sequenceChooseDefault_iff] at h2 h2'
  rw [h2] at h2'
  cases h2'
  obtain ⟨rfl, k2⟩ := trace_same h3 h3' (by simp) (by simp) (List.append_cancel_left e)
  cases k2
  exact ⟨rfl, rfl, rfl⟩

theorem prepared_system {I J : Invocation} {ss : List Setting} (hs : SameSystem I J) {reads : List Event} {c : ConfigFile} {q : Sequence}
    (h : Prepared I ss reads c q) : Prepared J ss reads c q := by
  unfold Prepared requested at h ⊢
  rw [← hs.config, ← hs.ctype, ← hs.datadir, ← hs.sequence]
  exact h

theorem prepared_harmless {I : Invocation} {ss : List Setting} {reads : List Event} {c : ConfigFile} {q : Sequence} (h : Prepared I ss reads c q) :
    ∀ e ∈ reads, Harmless e := by
  obtain ⟨r1, r2, q0, rfl, h1, _, h3⟩ := h
  intro e he
  rcases List.mem_append.1 he with he | he
  · exact (configFileLoad_harmless _ _).trace h1 e he
  · exact (reviewSequence_harmless _ _ _).trace h3 e he

theorem freshIgnore_same {ign : Option Filelist} {a b : List Bytes} (ha : FreshIgnore ign a) (hb : FreshIgnore ign b) : a = b := by
  cases ign with
  | none => exact ha.trans hb.symm
  | some l =>
    have h := ha.2.1.symm.trans hb.2.1
    exact (List.map_inj_right fun _ _ => Option.some.inj).1 h

theorem steps_reads {reads t : List Event} {fs fs' : FS} (hq : ∀ e ∈ reads, Harmless e) : FS.Steps fs (reads ++ t) fs' ↔ FS.Steps fs t fs' := by
  refine ⟨steps_harmless hq, fun h => ?_⟩
  induction reads with
  | nil => exact h
  | cons e reads ih =>
    refine .cons _ fs _ _ _ ?_ (ih fun e he => hq e (by simp [he]))
    cases hq e (by simp)
    · exact .slurp _ _
    · exact .out _
    · exact .err _

theorem steps_parts {a b : List Event} {fs fs' : FS} : FS.Steps fs (a ++ b) fs' ↔ ∃ m, FS.Steps fs a m ∧ FS.Steps m b fs' := by
  induction a generalizing fs with
  | nil => exact ⟨fun h => ⟨fs, .nil _, h⟩, fun ⟨m, h1, h2⟩ => by cases h1; exact h2⟩
  | cons e a ih =>
    constructor
    · rintro (_ | ⟨_, fs1, _, _, _, h1, h2⟩)
      obtain ⟨m, h3, h4⟩ := ih.1 h2
      exact ⟨m, .cons _ _ _ _ _ h1 h3, h4⟩
    · rintro ⟨m, _ | ⟨_, fs1, _, _, _, h1, h2⟩, h3⟩
      exact .cons _ _ _ _ _ h1 (ih.2 ⟨m, h2, h3⟩)

/-! ### The theorems -/

/-- A run of detox for each of the arguments, one after the other, on one file system: each reads the configuration and gets to its end. -/
inductive InTurn (P : Platform) (J : Bytes → Invocation) (reads : List Event) : List Bytes → FS → List Event → FS → Prop
  | nil (F : FS) : InTurn P J reads [] F [] F
  | cons (f : Bytes) (fs : List Bytes) (F F1 F2 : FS) (t tr : List Event) : (∃ fuel, Trace (detoxMain P (J f) fuel) (reads ++ t) (.ret ())) →
      FS.Steps F (reads ++ t) F1 → InTurn P J reads fs F1 tr F2 → InTurn P J reads (f :: fs) F (t ++ tr) F2

/-- **C126.** Every run of detox over files that gets to its end reads the configuration first, and there is one list of names to ignore. -/
theorem C126_reads_first {P : Platform} {I : Invocation} {ss : List Setting} {ws : List Bytes} (hr : Renames I ss ws) {fuel : Nat} {tr : List Event}
    (h : Trace (detoxMain P I fuel) tr (.ret ())) :
    ∃ reads t c q ignored, tr = reads ++ t ∧ Prepared I ss reads c q ∧ FreshIgnore c.filesToIgnore ignored := by
  obtain ⟨reads, t, c, q, ignored, _, h1, h2, h3, _⟩ := main_scans hr h
  exact ⟨reads, t, c, q, ignored, h1, h2, h3⟩

/-- **C126.** `detox [options] f1 … fn` and `detox [options] f1; …; detox [options] fn`, with the same configuration, are the same: the same calls after the
configuration was read, with the same effect on the files; provided none of the names read is to be ignored. -/
theorem C126_one_run_or_many {P : Platform} {I : Invocation} {J : Bytes → Invocation} {ss : List Setting} {ws : List Bytes} (hI : Renames I ss ws)
    (hJ : ∀ f ∈ ws, Renames (J f) ss [f]) (hsys : ∀ f ∈ ws, SameSystem I (J f)) {reads t : List Event} {c : ConfigFile} {q : Sequence} {ignored : List Bytes}
    (hp : Prepared I ss reads c q) (hi : FreshIgnore c.filesToIgnore ignored) (hno : NoneIgnored ignored t) (F F' : FS) :
    ((∃ fuel, Trace (detoxMain P I fuel) (reads ++ t) (.ret ())) ∧ FS.Steps F (reads ++ t) F') ↔ InTurn P J reads ws F t F' := by
  have hh := prepared_harmless hp
  have same : WorkAlike (workOptions ss q) (workOptions ss q) := ⟨rfl, rfl, rfl, rfl⟩
  have apart : ∀ {ws : List Bytes} {s s' : List Bytes} {t : List Event} {F : FS}, (∀ f ∈ ws, Renames (J f) ss [f]) → (∀ f ∈ ws, SameSystem I (J f)) →
      ArgsScan P (workOptions ss q) ignored ws s t s' → NoneIgnored ignored t → FS.Steps F t F' → InTurn P J reads ws F t F' := by
    intro ws s s' t F hJ hsys h
    induction h generalizing F with
    | nil => intro _ h; cases h; exact .nil _
    | cons f fs s s1 s' t tr a b ih =>
      intro hno hs
      obtain ⟨m, k1, k2⟩ := steps_parts.1 hs
      obtain ⟨s2, _, h2⟩ := arg_alike same a [] (.inr fun k n hm => hno k n (by simp [hm]))
      refine .cons _ _ _ m _ _ _ ?_ ((steps_reads hh).2 k1) (ih (fun f hf => hJ f (by simp [hf])) (fun f hf => hsys f (by simp [hf]))
        (fun k n hm => hno k n (by simp [hm])) k2)
      obtain ⟨n, h3⟩ := scans_main (P := P) (hJ f (by simp)) (prepared_system (hsys f (by simp)) hp) hi (.cons _ _ _ _ _ _ _ h2 (.nil _))
      exact ⟨n, by simpa using h3 n (Nat.le_refl _)⟩
  have together : ∀ {ws : List Bytes} {t : List Event} {F F' : FS}, (∀ f ∈ ws, Renames (J f) ss [f]) → (∀ f ∈ ws, SameSystem I (J f)) → InTurn P J reads ws F t F' →
      NoneIgnored ignored t → FS.Steps F t F' ∧ ∀ s, ∃ s', ArgsScan P (workOptions ss q) ignored ws s t s' := by
    intro ws t F F' hJ hsys h
    induction h with
    | nil => exact fun _ => ⟨.nil _, fun s => ⟨s, .nil _⟩⟩
    | cons f fs F F1 F2 t tr a b _ ih =>
      intro hno
      obtain ⟨k1, k2⟩ := ih (fun f hf => hJ f (by simp [hf])) (fun f hf => hsys f (by simp [hf])) (fun k n hm => hno k n (by simp [hm]))
      refine ⟨steps_parts.2 ⟨_, (steps_reads hh).1 b, k1⟩, fun s => ?_⟩
      obtain ⟨fuel, h1⟩ := a
      obtain ⟨reads', t', c', q', ignored', s', h2, h3, h4, h5⟩ := main_scans (hJ f (by simp)) h1
      obtain ⟨rfl, rfl, rfl⟩ := prepared_same (prepared_system (hsys f (by simp)) hp) h3 h2
      rw [← freshIgnore_same hi h4] at h5
      cases List.append_cancel_left h2
      cases h5 with
      | cons _ _ _ s1 _ t0 _ h6 h7 =>
        cases h7
        obtain ⟨s2, _, h8⟩ := arg_alike same h6 s (.inr fun k n hm => hno k n (by simp [hm]))
        obtain ⟨s3, h9⟩ := k2 s2
        refine ⟨s3, ?_⟩
        rw [List.append_nil]
        exact .cons _ _ _ _ _ _ _ h8 h9
  constructor
  · rintro ⟨⟨fuel, h⟩, hs⟩
    obtain ⟨reads', t', c', q', ignored', s', h2, h3, h4, h5⟩ := main_scans hI h
    obtain ⟨rfl, rfl, rfl⟩ := prepared_same hp h3 h2
    rw [← freshIgnore_same hi h4] at h5
    cases List.append_cancel_left h2
    exact apart hJ hsys h5 hno ((steps_reads hh).1 hs)
  · intro h
    obtain ⟨h1, h2⟩ := together hJ hsys h hno
    obtain ⟨s', h3⟩ := h2 []
    obtain ⟨n, h4⟩ := scans_main (P := P) hI hp hi h3
    exact ⟨⟨n, h4 n (Nat.le_refl _)⟩, (steps_reads hh).2 h1⟩

/-! ### A concrete case: `detox d 'a b'`, where `d` is a directory with a file `c d` in it, and nothing is configured -/

def turnCall (args : List Bytes) : Invocation := { program := lit "detox", args := args }

def plainConfig : ConfigFile := ((configFileLoad { sysconfdir := none, home := none, xdg := none } none).result nothingInstalled).getD {}

def plainChosen : Sequence := (sequenceChooseDefault plainConfig.sequences none).getD { name := [] }

def plainSequence : Sequence := ((reviewSequence (lit "C") none plainChosen).result []).getD { name := [] }

theorem plain_prepared (args : List Bytes) : Prepared (turnCall args) [] nothingInstalled plainConfig plainSequence :=
  ⟨nothingInstalled, [], plainChosen, by simp,
    Prog.result_sound _ _ _ (show (configFileLoad { sysconfdir := none, home := none, xdg := none } none).result nothingInstalled = some plainConfig by decide +kernel),
    (sequenceChooseDefault_iff _ _ _).1 (show sequenceChooseDefault plainConfig.sequences none = some plainChosen by decide +kernel),
    Prog.result_sound _ _ _ (show (reviewSequence (lit "C") none plainChosen).result [] = some plainSequence by decide +kernel)⟩

theorem plain_ignored : FreshIgnore plainConfig.filesToIgnore [lit "{arch}"] := by
  have h : plainConfig.filesToIgnore = some (plainConfig.filesToIgnore.getD filelistInit) := by decide +kernel
  rw [h]
  show Filelist.Holds _ _ _
  unfold Filelist.Holds
  decide +kernel

theorem plain_renames : ∀ {ws : List Bytes}, ws ≠ [] → (∀ f ∈ ws, IsOperand f) → Renames (turnCall ws) [] ws := by
  intro ws hw hop
  refine ⟨?_, by simp, by simp, not_or.2 ⟨fun h => by rw [← posixBasename_inline] at h; exact absurd (show posixBasename (lit "detox") = lit "inline-detox" from h) (by decide +kernel), by simp⟩, hw⟩
  show CommandLine false ws [] ws
  clear hw
  induction ws with
  | nil => exact .none
  | cons f ws ih => exact .operand _ _ _ _ rfl (hop f (by simp)) (ih fun f hf => hop f (by simp [hf]))

def turnTrace : List Event := [
  .lstat (lit "d") (some ⟨1, 2, 2, .dir⟩), .lstat (lit "d") (some ⟨1, 2, 2, .dir⟩), .opendir (lit "d") (.ok 0),
  .readdir 0 (some (lit "c d")), .lstat (lit "d/c d") (some ⟨1, 3, 1, .reg⟩), .lstat (lit "d/c d") (some ⟨1, 3, 1, .reg⟩), .lstat (lit "d/c_d") none,
  .rename (lit "d/c d") (lit "d/c_d") true, .readdir 0 none, .closedir 0,
  .lstat (lit "a b") (some ⟨1, 5, 1, .reg⟩), .lstat (lit "a b") (some ⟨1, 5, 1, .reg⟩), .lstat (lit "a_b") none, .rename (lit "a b") (lit "a_b") true]

def turnFS (d a : Bytes) : FS := { treeFS with
  entries := [⟨⟨1, 1⟩, lit "d", ⟨1, 2⟩⟩, ⟨⟨1, 2⟩, d, ⟨1, 3⟩⟩, ⟨⟨1, 1⟩, a, ⟨1, 5⟩⟩]
  kind := fun i => if i = ⟨1, 1⟩ ∨ i = ⟨1, 2⟩ then .dir else .reg }

example : InTurn .linux (fun f => turnCall [f]) nothingInstalled [lit "d", lit "a b"] (turnFS (lit "c d") (lit "a b")) turnTrace (turnFS (lit "c_d") (lit "a_b")) := by
  have hop : ∀ f ∈ [lit "d", lit "a b"], IsOperand f := by
    intro f hf
    simp only [List.mem_cons, List.not_mem_nil, or_false] at hf
    rcases hf with rfl | rfl <;> exact .inl (by decide +kernel)
  refine (C126_one_run_or_many (plain_renames (by simp) hop) (fun f hf => plain_renames (by simp) fun g hg => by rw [List.mem_singleton.1 hg]; exact hop f hf)
    (fun _ _ => ⟨rfl, rfl, rfl, rfl⟩) (plain_prepared _) plain_ignored ?_ _ _).1 ⟨⟨10, Prog.result_sound _ _ _ (by decide +kernel)⟩, ?_⟩
  · intro h n hm
    simp only [turnTrace, List.mem_cons, Event.readdir.injEq, reduceCtorEq, Option.some.injEq, List.not_mem_nil, or_false, false_or, and_false] at hm
    rw [hm.2]
    decide +kernel
  · exact FS_exec_sound _ rfl

/-! ### The place in the ignore list is kept from one argument to the next -/

/-- **C126.** Without the condition it is not so. In `detox d e`, where both directories have an entry `{arch}`, which is to be ignored, the second one is renamed;
`detox e`, with the same answers, leaves it alone. -/
theorem C126_ignored_in_the_next_directory :
    (∃ t, Trace (detoxMain .linux (turnCall [lit "d", lit "e"]) 10) (nothingInstalled ++ ([
      .lstat (lit "d") (some ⟨1, 2, 2, .dir⟩), .lstat (lit "d") (some ⟨1, 2, 2, .dir⟩), .opendir (lit "d") (.ok 0), .readdir 0 (some (lit "{arch}")), .readdir 0 none, .closedir 0,
      .lstat (lit "e") (some ⟨1, 4, 2, .dir⟩), .lstat (lit "e") (some ⟨1, 4, 2, .dir⟩), .opendir (lit "e") (.ok 0), .readdir 0 (some (lit "{arch}"))] ++ t)) (.ret ()) ∧
      Event.rename (lit "e/{arch}") (lit "e/arch-") true ∈ t) ∧
    Trace (detoxMain .linux (turnCall [lit "e"]) 10) (nothingInstalled ++ [
      .lstat (lit "e") (some ⟨1, 4, 2, .dir⟩), .lstat (lit "e") (some ⟨1, 4, 2, .dir⟩), .opendir (lit "e") (.ok 0), .readdir 0 (some (lit "{arch}")),
      .readdir 0 none, .closedir 0]) (.ret ()) := by
  refine ⟨⟨[.lstat (lit "e/{arch}") (some ⟨1, 7, 2, .dir⟩), .lstat (lit "e/{arch}") (some ⟨1, 7, 2, .dir⟩), .lstat (lit "e/arch-") none,
    .rename (lit "e/{arch}") (lit "e/arch-") true, .readdir 0 none, .closedir 0], Prog.result_sound _ _ _ (by decide +kernel), by simp⟩,
    Prog.result_sound _ _ _ (by decide +kernel)⟩

end Detox
