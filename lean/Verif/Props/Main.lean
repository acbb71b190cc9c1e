import Verif.Lemmas.MainRun

/-!
# The program as a whole
-/

set_option autoImplicit false

namespace Detox
open Spec

/-! ### C42: which sequence is used -/

/-- **C42**: the sequence of the given name, or nothing if there is none; without a name `default`, else the first. -/
theorem C42_sequence_choice (qs : List Sequence) (name : Option Bytes) (q : Sequence) :
    sequenceChooseDefault qs name = some q ↔ Chosen qs name q := sequenceChooseDefault_iff qs name q

/-- Concrete cases: `-s lower`, no name, no name and no `default`. -/
example : ∃ q, Chosen spoofSequences (some (lit "lower")) q ∧
    q.filters = [generateFilter .safe, generateFilter .lower, generateWipeupFilter true] :=
  ⟨_, (C42_sequence_choice _ _ _).1 rfl, rfl⟩
example : sequenceChooseDefault spoofSequences (some (lit "upper")) = none := by decide
example (a b : Sequence) (ha : a.name = lit "a") (hb : b.name = lit "b") : Chosen [a, b] none a :=
  .inr ⟨by intro p hp; simp at hp; rcases hp with rfl | rfl <;> simp [ha, hb] <;> decide, rfl⟩

/-- **C42**: if there is no sequence to use, detox says so and exits with status 1, without looking at any file. -/
theorem C42_no_sequence_ends_the_program {P : Platform} {I : Invocation} {fuel : Nat} {ss : List Setting} {ws : List Bytes}
    (hc : CommandLine I.posixlyCorrect I.args ss ws) (hs : ∀ s ∈ ss, ¬ s.Leaves) (hl : Setting.list ∉ ss)
    (hw : ws ≠ [] ∨ CalledInline I.program ∨ Setting.inline ∈ ss) {r t : List Event} {c : ConfigFile}
    (hr : Trace (configFileLoad I.config (lastConfig ss)) r (.ret c))
    (hno : ∀ q, ¬ Chosen c.sequences ((lastSequence ss).or I.sequence) q) {out : Outcome Unit}
    (h : Trace (detoxMain P I fuel) (r ++ t) out) (hout : out ≠ .running) :
    t = [.err (lit "detox: no sequence to work with\n")] ∧ out = .exit 1 := by
  have hopt := C49_options_exactly hc hs I.program I.sequence
  obtain ⟨o, l, ho, ha, _⟩ := hopt.2.1 hl hw
  unfold detoxMain at h
  rw [ho] at h
  change Trace (detoxConfigured P I o fuel) (r ++ t) out at h
  unfold detoxConfigured at h
  rw [ha.2.2.2.2.2.2.2.1] at h
  have h4 := trace_continue hr h
  rw [if_neg (fun hx => hl (ha.1.1 hx)), ha.2.2.2.2.2.2.2.2] at h4
  cases hq : sequenceChooseDefault c.sequences ((lastSequence ss).or I.sequence) with
  | some q => exact absurd ((sequenceChooseDefault_iff _ _ _).1 hq) (hno q)
  | none =>
    rw [hq] at h4
    cases h4 with
    | stop => exact absurd rfl hout
    | err _ _ _ _ h5 =>
      cases h5 with
      | stop => exact absurd rfl hout
      | exit => exact ⟨rfl, rfl⟩

/-! ### C65: what renames nothing -/

/-- What inline mode does. -/
def InlineCall (e : Event) : Prop := Harmless e ∨ ∃ p r, e = .lstat p r

theorem inlineLoop_only {P : Platform} {o : Options} : ∀ (n : Nat) (s : Bytes), (inlineLoop P o n s).Only InlineCall
  | _, [] => by unfold inlineLoop; exact .ret _
  | 0, _ :: _ => .stuck
  | n + 1, c :: s => by
    unfold inlineLoop
    refine .bind (.ofRes _) fun r => ?_
    have hnext : (printChunk P o r.1 r.2.1 (inlineLoop P o n r.2.2.2)).Only InlineCall := by
      unfold printChunk
      refine .bind (.ofRes _) fun hold => ?_
      refine fun _ => ⟨.inl (.out _), ?_⟩
      split
      · exact ⟨.inl (.out _), inlineLoop_only n _ _⟩
      · exact inlineLoop_only n _ _
    show Prog.Only InlineCall (if r.2.2.1 then .err _ (printChunk P o r.1 r.2.1 (inlineLoop P o n r.2.2.2)) else _)
    split
    · exact fun _ => ⟨.inl (.err _), hnext _⟩
    · exact hnext

theorem parseInline_only {P : Platform} {o : Options} (f : Option Bytes) : (parseInline P o f).Only InlineCall := by
  unfold parseInline
  intro h r
  refine ⟨.inl (.slurp _ _), ?_⟩
  cases r with
  | none => exact ⟨.inl (.err _), trivial⟩
  | some s => exact inlineLoop_only _ _ _

theorem inlineMain_only {P : Platform} {o : Options} (files : Option Filelist) : (inlineMain P o files).Only InlineCall := by
  have args : ∀ n l, (inlineFileLoop P o n l).Only InlineCall := by
    intro n
    induction n with
    | zero => intro l; exact .stuck
    | succ n ih =>
      intro l
      unfold inlineFileLoop
      refine .bind (.ofRes _) fun p => ?_
      obtain ⟨p, f⟩ := p
      cases f with
      | none => exact .ret _
      | some f =>
        refine .bind ?_ fun _ => ih p
        unfold inlineArg
        intro h r
        refine ⟨.inr ⟨_, _, rfl⟩, ?_⟩
        cases r with
        | none => exact ⟨.inl (.err _), trivial⟩
        | some st =>
          show Prog.wp _ _ (if st.kind = .dir then _ else _) _
          split
          · exact ⟨.inl (.err _), trivial⟩
          · exact parseInline_only _ _
  unfold inlineMain
  cases files with
  | none => exact parseInline_only _
  | some l =>
    show Prog.Only InlineCall (if _ then _ else _)
    split
    · exact args _ _
    · exact parseInline_only _

/-- A finished or unfinished run over the files, as part of `main`. -/
theorem main_run {P : Platform} {o : Options} {fuel : Nat} {ws ignored : List Bytes} {l : Filelist} {ign : Option Filelist}
    (hl : l.Holds ws 0) (hi : FreshIgnore ign ignored) {t : List Event} {out : Outcome Unit}
    (h : Trace ((fileLoop P o fuel (l.count + 1) l ign).bind fun _ => .ret ()) t out) :
    ∃ out', Run P o ws ignored t out' ∧ ((∃ a, out' = .ret a) ∨ out'.SameEnd out) := by
  rcases trace_bind_any h with ⟨a, t1, t2, rfl, h1, h2⟩ | ⟨o', h1, h2⟩
  · have : t2 = [] := by cases h2 <;> rfl
    subst this
    rw [List.append_nil]
    exact ⟨_, ⟨fuel, _, l, ign, hl, hi, h1⟩, .inl ⟨a, rfl⟩⟩
  · exact ⟨o', ⟨fuel, _, l, ign, hl, hi, h2⟩, .inr h1⟩

/-- **C65**: help, usage, version, unreadable options and `-L` do nothing but read config files and write messages. -/
theorem C65_listing_and_help_touch_nothing {P : Platform} {I : Invocation} {fuel : Nat} {ss : List Setting} {ws : List Bytes}
    (hc : CommandLine I.posixlyCorrect I.args ss ws) {tr : List Event} {out : Outcome Unit}
    (h : Trace (detoxMain P I fuel) tr out) (hm : (∃ s ∈ ss, s.Leaves) ∨ Setting.list ∈ ss) :
    (∀ e ∈ tr, Harmless e) ∧ ∀ a, out ≠ .ret a := by
  rcases main_cases hc h with h | ⟨reads, t, o, ignored, l, ign, _, hr, _⟩
  · exact h
  · rcases hm with ⟨s, h1, h2⟩ | hm
    · exact absurd h2 (hr.stays s h1)
    · exact absurd hm hr.noList

/-- **C65**: nothing is renamed by these, by `-n`, and in inline mode. -/
theorem C65_modes_that_rename_nothing {P : Platform} {I : Invocation} {fuel : Nat} {ss : List Setting} {ws : List Bytes}
    (hc : CommandLine I.posixlyCorrect I.args ss ws) {tr : List Event} {out : Outcome Unit}
    (h : Trace (detoxMain P I fuel) tr out)
    (hm : (∃ s ∈ ss, s.Leaves) ∨ Setting.list ∈ ss ∨ Setting.dryRun ∈ ss ∨ Setting.inline ∈ ss ∨ CalledInline I.program)
    (old new : Bytes) (ok : Bool) : .rename old new ok ∉ tr := by
  intro hmem
  rcases main_cases hc h with ⟨h, _⟩ | ⟨reads, t, o, ignored, l, ign, rfl, hr, hl, hi, hk⟩
  · have := h _ hmem
    cases this
  · rcases List.mem_append.1 hmem with hmem | hmem
    · have := hr.quiet _ hmem
      cases this
    · rcases hk with ⟨_, ht⟩ | ⟨hin, _, ht⟩
      · rcases (inlineMain_only _).trace ht _ hmem with h | ⟨_, _, h⟩
        · cases h
        · cases h
      · rcases hm with ⟨s, h1, h2⟩ | hm | hm | hm
        · exact hr.stays s h1 h2
        · exact hr.noList hm
        · obtain ⟨out', hrun, _⟩ := main_run hl hi ht
          obtain ⟨_, _, _, _, ht'⟩ := hrun.trace
          exact C29_dry_run_renames_nothing P o (hr.asked.2.1.2 hm) _ _ _ _ t out' ht' old new ok hmem
        · rw [hr.asked.2.2.2.2.2.1.2 hm.symm] at hin
          cases hin

/-! ### C66: what is renamed, and why nothing is lost -/

/-- **C66**: whenever detox renames a file, its new name is what the sequence chosen in the loaded configuration, with its tables
loaded, makes of the old name; it is in the same place; and the two names had been looked at, and the new one was free or led to
the same file. -/
theorem C66_renames_are_guarded {P : Platform} {I : Invocation} {fuel : Nat} {ss : List Setting} {ws : List Bytes}
    (hc : CommandLine I.posixlyCorrect I.args ss ws) {tr : List Event} {out : Outcome Unit}
    (h : Trace (detoxMain P I fuel) tr out) (pre post : List Event) (old new : Bytes) (ok : Bool)
    (heq : tr = pre ++ .rename old new ok :: post) :
    ∃ c q q' r1 r2 rest, pre = r1 ++ r2 ++ rest ∧ Trace (configFileLoad I.config (lastConfig ss)) r1 (.ret c) ∧
      Chosen c.sequences ((lastSequence ss).or I.sequence) q ∧ Trace (reviewSequence I.ctype I.datadir q) r2 (.ret q') ∧
      ∃ dir name cleaned pre0 r0 so rn outs, SplitsAs old dir name ∧ new = dir ++ cleaned ∧ cleaned ≠ name ∧
        sequenceRunFilters P (some q') (some name) = .ok (some cleaned) ∧
        rest = pre0 ++ [.lstat old r0, .lstat old (some so), .lstat new rn] ++ outs ∧ OnlyOutput outs ∧
        (∀ sn, rn = some sn → sn.dev = so.dev ∧ sn.ino = so.ino ∧ so.nlink ≤ 1) := by
  rcases main_cases hc h with ⟨h, _⟩ | ⟨reads, t, o, ignored, l, ign, htr, hr, hl, hi, hk⟩
  · have := h (.rename old new ok) (by rw [heq]; simp)
    cases this
  · obtain ⟨c, q, q', r1, r2, rfl, h1, h2, h3, h4, _⟩ := hr.stages
    have hsplit : ∃ rest, pre = r1 ++ r2 ++ rest ∧ t = rest ++ .rename old new ok :: post := by
      rw [htr] at heq
      rcases List.append_eq_append_iff.1 heq with ⟨as, ha, hb⟩ | ⟨bs, ha, hb⟩
      · exact ⟨as, ha, hb⟩
      · cases bs with
        | nil => exact ⟨[], by rw [ha]; simp, by simpa using hb.symm⟩
        | cons b bs =>
          simp only [List.cons_append, List.cons.injEq] at hb
          have := hr.quiet (.rename old new ok) (by rw [ha, hb.1]; simp)
          cases this
    obtain ⟨rest, hp, ht'⟩ := hsplit
    rcases hk with ⟨_, ht⟩ | ⟨_, _, ht⟩
    · rcases (inlineMain_only _).trace ht (.rename old new ok) (by rw [ht']; simp) with h | ⟨_, _, h⟩
      · cases h
      · cases h
    · obtain ⟨out', hrun, _⟩ := main_run hl hi ht
      obtain ⟨_, _, _, _, hf⟩ := hrun.trace
      obtain ⟨dir, name, cleaned, pre0, r0, so, rn, outs, a, b, c', d, e, f, g⟩ :=
        C31_renames_are_guarded P o _ _ _ _ t out' hf rest post old new ok ht'
      rw [h4] at d
      exact ⟨c, q, q', r1, r2, rest, hp, h1, h2, h3, dir, name, cleaned, pre0, r0, so, rn, outs, a, b, c', d, e, f, g⟩

theorem steps_harmless {reads t : List Event} {fs fs' : FS} (hq : ∀ e ∈ reads, Harmless e) (h : FS.Steps fs (reads ++ t) fs') :
    FS.Steps fs t fs' := by
  induction reads with
  | nil => exact h
  | cons e reads ih =>
    cases h with
    | cons _ fs1 _ _ _ h1 h2 =>
      have he := hq e (by simp)
      have : fs = fs1 := by
        cases he <;> cases h1 <;> rfl
      subst this
      exact ih (fun e he => hq e (by simp [he])) h2

theorem steps_inline {t : List Event} {fs fs' : FS} (hq : ∀ e ∈ t, InlineCall e) (h : FS.Steps fs t fs') : fs' = fs := by
  induction t with
  | nil => cases h; rfl
  | cons e t ih =>
    cases h with
    | cons _ fs1 _ _ _ h1 h2 =>
      have he := hq e (by simp)
      have : fs = fs1 := by
        rcases he with he | ⟨_, _, rfl⟩
        · cases he <;> cases h1 <;> rfl
        · cases h1; rfl
      subst this
      exact ih (fun e he => hq e (by simp [he])) h2

/-- **C66**: on a file system nobody else changes, every file keeps as many names as it had, and its contents, whatever the
command line, the environment, the config files and the tables say, and wherever detox is killed; and no two entries of a
directory get the same name. -/
theorem C66_nothing_is_lost {P : Platform} {I : Invocation} {fuel : Nat} {tr : List Event} {out : Outcome Unit}
    (h : Trace (detoxMain P I fuel) tr out) (fs fs' : FS) (hs : FS.Steps fs tr fs') :
    (∀ i, fs'.names i = fs.names i) ∧ fs'.kind = fs.kind ∧ fs'.target = fs.target ∧ (fs.Unique → fs'.Unique) := by
  obtain ⟨ss, ws, hc, _⟩ := C49_every_command_line_can_be_read I.posixlyCorrect I.args
  have same : fs' = fs → (∀ i, fs'.names i = fs.names i) ∧ fs'.kind = fs.kind ∧ fs'.target = fs.target ∧
      (fs.Unique → fs'.Unique) := by
    rintro rfl; exact ⟨fun _ => rfl, rfl, rfl, id⟩
  rcases main_cases hc h with ⟨h, _⟩ | ⟨reads, t, o, ignored, l, ign, rfl, hr, hl, hi, hk⟩
  · exact same (steps_inline (fun e he => .inl (h e he)) hs)
  · have hs := steps_harmless hr.quiet hs
    rcases hk with ⟨_, ht⟩ | ⟨_, _, ht⟩
    · exact same (steps_inline ((inlineMain_only _).trace ht) hs)
    · obtain ⟨out', hrun, _⟩ := main_run hl hi ht
      obtain ⟨a, b, c⟩ := C27_nothing_is_lost P o ws ignored t out' hrun fs fs' hs
      exact ⟨a, b, c, C27_names_stay_unique P o ws ignored t out' hrun fs fs' hs⟩

end Detox
