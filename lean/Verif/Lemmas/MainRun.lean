import Verif.Lemmas.Main
import Verif.Props.Options
import Verif.Props.Config
import Verif.Props.Closed
import Verif.Props.Default

/-!
# The stages of `main`
-/

set_option autoImplicit false

namespace Detox
open Spec

theorem sequenceChooseDefault_iff (qs : List Sequence) (name : Option Bytes) (q : Sequence) :
    sequenceChooseDefault qs name = some q ↔ Chosen qs name q := by
  unfold sequenceChooseDefault Chosen
  cases name with
  | some n =>
    cases hf : sequenceFind n qs with
    | some p =>
      simp only [Option.some.injEq]
      rw [← sequenceFind_some, hf, Option.some.injEq]
    | none =>
      simp only [reduceCtorEq, false_iff]
      rw [← sequenceFind_some, hf]
      simp
  | none =>
    cases hf : sequenceFind (lit "default") qs with
    | some p =>
      simp only [Option.some.injEq]
      rw [← sequenceFind_some, ← sequenceFind_none, hf]
      simp
    | none =>
      simp only
      rw [← sequenceFind_some, ← sequenceFind_none, hf]
      simp

theorem outcome_ne_ret {α β : Type} {o' : Outcome α} {o : Outcome β} (h : o'.SameEnd o) : ∀ a, o ≠ .ret a := by
  cases h <;> intro a h <;> cases h

/-- Every configuration that is read, or compiled in, has unique names, an ignore list at its beginning, and no tables yet. -/
theorem configFileLoad_good {E : ConfigEnv} {check : Option Bytes} {tr : List Event} {c : ConfigFile}
    (h : Trace (configFileLoad E check) tr (.ret c)) :
    (∃ ds, c.sequences = inEffect ds) ∧ (∃ ws l, c.filesToIgnore = some l ∧ l.Holds ws 0) ∧
    ∃ files, ∀ q ∈ c.sequences, AsParsed files q := by
  have spoof : spoofConfigFile = .ok c → (∃ ds, c.sequences = inEffect ds) ∧ (∃ ws l, c.filesToIgnore = some l ∧ l.Holds ws 0) ∧
      ∃ files, ∀ q ∈ c.sequences, AsParsed files q := by
    intro h
    obtain ⟨l, hl, hl'⟩ := filelistPut_holds filelistInit_holds (lit "{arch}")
    unfold spoofConfigFile at h
    rw [hl] at h
    cases h
    refine ⟨⟨spoofSequences, (inEffect_distinct spoofSequences (by decide)).symm⟩, ⟨_, l, rfl, hl'⟩,
      [lit "built-in config file"], ?_⟩
    show ∀ q ∈ spoofSequences, (∃ f ∈ [lit "built-in config file"], q.sourceFilename = some f) ∧ ∀ f ∈ q.filters, f.table = none
    decide
  cases check with
  | some f =>
    obtain ⟨text, _, h2⟩ := C44_option_f_result h
    obtain ⟨rs, hg, h3, l, h4, h5⟩ := C63_accepted_texts_have_a_meaning (previous := none) (ds := []) (ws := []) ⟨rfl, rfl⟩ h2
    refine ⟨⟨_, h3⟩, ⟨_, l, h4, h5⟩, [f], fun q hq => ?_⟩
    rw [h3] at hq
    exact definitions_parsed hg q (by simpa using inEffect_mem hq)
  | none =>
    obtain ⟨_, _, _, _, _, _, _, h4⟩ := C44_without_option_f h
    rcases h4 with ⟨_, h4⟩ | ⟨_, h4⟩
    · obtain ⟨ds, ws, ⟨h5, l, h6, h7⟩, h8⟩ := merged_loaded h4 (ds := []) (ws := []) ⟨rfl, rfl⟩
      refine ⟨⟨_, h5⟩, ⟨_, l, h6, h7⟩, _, fun q hq => h8 q ?_⟩
      rw [h5] at hq
      simpa using inEffect_mem hq
    · exact spoof h4

/-- What is settled when the work begins: `reads` is what was done before, `o` the options, `ignored` the names to ignore. -/
structure Ready (I : Invocation) (ss : List Setting) (reads : List Event) (o : Options) (ignored : List Bytes) : Prop where
  stays : ∀ s ∈ ss, ¬ s.Leaves
  noList : Setting.list ∉ ss
  asked : Asked I.program I.sequence ss o
  quiet : ∀ e ∈ reads, Harmless e
  stages : ∃ c q q' r1 r2, reads = r1 ++ r2 ∧ Trace (configFileLoad I.config (lastConfig ss)) r1 (.ret c) ∧
    Chosen c.sequences ((lastSequence ss).or I.sequence) q ∧ Trace (reviewSequence I.ctype I.datadir q) r2 (.ret q') ∧
    o.sequenceToUse = some q' ∧ FreshIgnore c.filesToIgnore ignored

theorem parseOptions_harmless (program : Bytes) (args : List Bytes) (env : Option Bytes) (posix : Bool) {tr : List Event}
    {out : Outcome Options} (h : Trace (parseOptions program args env posix) tr out) : ∀ e ∈ tr, Harmless e := by
  have key : ∀ items o, (applyItems program o items).Harmless := by
    intro items
    induction items with
    | nil => exact fun o => .ret _
    | cons i items ih =>
      intro o
      refine .bind ?_ fun o' => ih o'
      unfold applyItem
      repeat' split
      all_goals first
        | exact .ret _
        | exact .out (.out (.out (.exit _)))
        | exact .out (.exit _)
        | exact .err (.out (.exit _))
  have ops : ∀ o ws, (withOperands o ws).Harmless := by
    intro o ws
    unfold withOperands
    split
    · exact .ret _
    · split
      · split
        · exact .ret _
        · exact .out (.exit _)
      · exact .bind (.ofRes _) fun _ => .ret _
  rw [parseOptions_eq] at h
  exact (Prog.Harmless.bind (key _ _) fun o => ops o _).trace h

/-- What the options are when they have been read without leaving. -/
theorem parseOptions_ret {I : Invocation} {ss : List Setting} {ws : List Bytes} (hc : CommandLine I.posixlyCorrect I.args ss ws)
    {t1 : List Event} {o : Options} (h1 : Trace (parseOptions I.program I.args I.sequence I.posixlyCorrect) t1 (.ret o)) :
    (∀ s ∈ ss, ¬ s.Leaves) ∧ t1 = [] ∧ Asked I.program I.sequence ss o ∧
      (Setting.list ∈ ss ∨ (Setting.list ∉ ss ∧ ∃ l, o.files = some l ∧ l.Holds ws 0 ∧ (o.isInlineMode = false → ws ≠ []))) := by
  have hstay : ∀ s ∈ ss, ¬ s.Leaves := by
    refine Classical.byContradiction fun hn => ?_
    have : ∃ pre s post, ss = pre ++ s :: post ∧ (∀ x ∈ pre, ¬ x.Leaves) ∧ s.Leaves := by
      clear hc
      induction ss with
      | nil => exact absurd (by simp) hn
      | cons s ss ih =>
        by_cases hs : s.Leaves
        · exact ⟨[], s, ss, rfl, by simp, hs⟩
        · obtain ⟨pre, x, post, rfl, b, c⟩ := ih (fun hall => hn fun y hy => by
            rcases List.mem_cons.1 hy with rfl | hy
            · exact hs
            · exact hall y hy)
          refine ⟨s :: pre, x, post, rfl, fun y hy => ?_, c⟩
          rcases List.mem_cons.1 hy with rfl | hy
          · exact hs
          · exact b y hy
    obtain ⟨pre, s, post, rfl, b, c⟩ := this
    have := (C49_leaving_options hc b c I.program I.sequence t1 _ h1 (by intro h; cases h)).1
    cases this
  have hopt := C49_options_exactly hc hstay I.program I.sequence
  have ho : t1 = [] ∧ Asked I.program I.sequence ss o ∧
      (Setting.list ∈ ss ∨ (Setting.list ∉ ss ∧ ∃ l, o.files = some l ∧ l.Holds ws 0 ∧ (o.isInlineMode = false → ws ≠ []))) := by
    by_cases hl : Setting.list ∈ ss
    · obtain ⟨o', e, ha, _⟩ := hopt.1 hl
      rw [e] at h1
      cases h1
      exact ⟨rfl, ha, .inl hl⟩
    · by_cases hw : ws ≠ [] ∨ CalledInline I.program ∨ Setting.inline ∈ ss
      · obtain ⟨o', l, e, ha, hf, hh⟩ := hopt.2.1 hl hw
        rw [e] at h1
        cases h1
        refine ⟨rfl, ha, .inr ⟨hl, l, hf, hh, fun hi => ?_⟩⟩
        rcases hw with hw | hw
        · exact hw
        · rw [ha.2.2.2.2.2.1.2 hw] at hi; cases hi
      · obtain ⟨a, b⟩ := not_or.1 hw
        obtain ⟨b, c⟩ := not_or.1 b
        rw [hopt.2.2 hl (Classical.not_not.1 a) b c] at h1
        cases h1 with | out _ _ _ _ h1 => cases h1
  exact ⟨hstay, ho⟩

/-- Every execution of `main` either only reads files and writes messages, and does not return; or its beginning does, and the
rest is the work. -/
theorem main_cases {P : Platform} {I : Invocation} {fuel : Nat} {ss : List Setting} {ws : List Bytes}
    (hc : CommandLine I.posixlyCorrect I.args ss ws) {tr : List Event} {out : Outcome Unit}
    (h : Trace (detoxMain P I fuel) tr out) :
    ((∀ e ∈ tr, Harmless e) ∧ ∀ a, out ≠ .ret a) ∨
    ∃ reads t o ignored l ign, tr = reads ++ t ∧ Ready I ss reads o ignored ∧ l.Holds ws 0 ∧ FreshIgnore ign ignored ∧
      ((o.isInlineMode = true ∧ Trace (inlineMain P o (some l)) t out) ∨
       (o.isInlineMode = false ∧ (ws ≠ []) ∧
        Trace ((fileLoop P o fuel (l.count + 1) l ign).bind fun _ => .ret ()) t out)) := by
  unfold detoxMain at h
  rcases trace_bind_any h with ⟨o, t1, t2, rfl, h1, h2⟩ | ⟨o', h1, h2⟩
  · obtain ⟨hstay, ho⟩ := parseOptions_ret hc h1
    obtain ⟨rfl, ha, hrest⟩ := ho
    rw [List.nil_append]
    unfold detoxConfigured at h2
    rcases trace_bind_any h2 with ⟨c, r1, t3, rfl, h3, h4⟩ | ⟨o', h3, h4⟩
    · have q1 := (configFileLoad_harmless _ _).trace h3
      split at h4
      · left
        refine ⟨?_, ?_⟩
        · intro e he
          rcases List.mem_append.1 he with he | he
          · exact q1 e he
          · exact (Prog.Harmless.bind (.ofRes _) fun _ => .out (.exit 0)).trace h4 e he
        · intro a ha'
          subst ha'
          obtain ⟨t, _, h5⟩ := trace_ofRes_bind h4
          cases h5 with | out _ _ _ _ h5 => cases h5
      · next hl =>
        have hls : Setting.list ∉ ss := fun hm => hl (ha.1.2 hm)
        rcases hrest with hm | ⟨_, l, hf, hh, hne⟩
        · exact absurd hm hls
        cases hq : sequenceChooseDefault c.sequences o.sequenceName with
        | none =>
          rw [hq] at h4
          left
          refine ⟨?_, ?_⟩
          · intro e he
            rcases List.mem_append.1 he with he | he
            · exact q1 e he
            · exact (Prog.Harmless.err (.exit 1)).trace h4 e he
          · intro a ha'
            subst ha'
            cases h4 with | err _ _ _ _ h5 => cases h5
        | some q =>
          rw [hq] at h4
          simp only at h4
          rw [sequenceChooseDefault_iff] at hq
          rcases trace_bind_any h4 with ⟨q', r2, t4, rfl, h5, h6⟩ | ⟨o', h5, h6⟩
          · right
            obtain ⟨_, ⟨ignored, il, hil, hih⟩, _⟩ := configFileLoad_good h3
            have hfr : FreshIgnore c.filesToIgnore ignored := by rw [hil]; exact hih
            rw [ha.2.2.2.2.2.2.2.1] at h3
            rw [ha.2.2.2.2.2.2.2.2] at hq
            refine ⟨r1 ++ r2, t4, _, ignored, l, c.filesToIgnore, (List.append_assoc ..).symm,
              ⟨hstay, hls, (?_ : Asked I.program I.sequence ss
                { o with filesToIgnore := c.filesToIgnore, sequenceToUse := some q' }), ?_, ?_⟩, hh, hfr, ?_⟩
            · exact ha
            · intro e he
              rcases List.mem_append.1 he with he | he
              · exact q1 e he
              · exact (reviewSequence_harmless _ _ _).trace h5 e he
            · exact ⟨c, q, q', r1, r2, rfl, h3, hq, h5, rfl, hfr⟩
            · unfold detoxWork at h6
              split at h6
              · next hi => rw [show (some l) = o.files from hf.symm]; exact .inl ⟨hi, h6⟩
              · next hi =>
                have hi' : o.isInlineMode = false := by simpa using hi
                refine .inr ⟨hi', hne hi', ?_⟩
                split at h6
                · next hn => exact absurd (hf.symm.trans hn) (by simp)
                · next l' hl' =>
                  cases hf.symm.trans hl'
                  exact h6
          · left
            refine ⟨?_, outcome_ne_ret h5⟩
            intro e he
            rcases List.mem_append.1 he with he | he
            · exact q1 e he
            · exact (reviewSequence_harmless _ _ _).trace h6 e he
    · exact .inl ⟨(configFileLoad_harmless _ _).trace h4, outcome_ne_ret h3⟩
  · exact .inl ⟨parseOptions_harmless _ _ _ _ h2, outcome_ne_ret h1⟩

end Detox
