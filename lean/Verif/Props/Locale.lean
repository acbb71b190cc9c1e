import Verif.Lemmas.Locale
import Verif.Spec.Utf8
import Verif.Props.EndToEnd

/-!
# C104: the locale
-/

set_option autoImplicit false

namespace Detox
open Spec

/-- **C104**: what `lower` does in a locale: it replaces the letters that are capitals there, and no other byte (where `char` is signed, byte FF
is never taken for a letter). Everywhere else the locale changes nothing. -/
theorem C104_lower_in_a_locale (L : Locale) (P : Platform) (hP : P.ctypeNegDefined = true) (hL : ∀ c, L.upper c = true → L.lower c ≠ 0)
    (f : Filter) (s : Bytes) (hs : (0 : Byte) ∉ s) :
    (f.cleaner = .lower → filterRunIn L P f (some s) =
      .ok (some (s.map fun c => if L.upper c = true ∧ ¬ (P.charSigned = true ∧ c = 0xFF) then L.lower c else c))) ∧
    (f.cleaner ≠ .lower → filterRunIn L P f (some s) = filterRun P f (some s)) := by
  refine ⟨fun hf => ?_, fun hf => ?_⟩
  · unfold filterRunIn
    split
    · next s' h _ =>
      cases h
      rw [cleanLowerIn_eq L hP, emit_eq, List.length_map, if_pos (Nat.lt_succ_self _), cstr_of_nulFree]
      · show Res.ok _ = _
        refine congrArg _ (congrArg _ (List.map_congr_left fun c _ => ?_))
        unfold Locale.lowered
        by_cases h1 : L.upper c = true <;> by_cases h2 : P.charSigned = true <;> by_cases h3 : c = 0xFF <;> simp [h1, h2, h3]
      · intro hm
        obtain ⟨c, hc, h0⟩ := List.mem_map.1 hm
        unfold Locale.lowered at h0
        split at h0
        · next hu => exact hL c (by simp at hu; exact hu.1) h0
        · exact hs (h0 ▸ hc)
    · next h => exact absurd hf (h s rfl)
  · unfold filterRunIn
    split
    · next h => exact absurd h hf
    · rfl

/- Concrete cases: `É`, and `×`, which is no letter, in Latin-1. -/
example : filterRunIn .latin1 .linux (generateFilter .lower) (some [0xC9, 0xD7, 0x41]) = .ok (some [0xE9, 0xD7, 0x61]) := by decide +kernel
example : (∀ c, Locale.latin1.upper c = true → Locale.latin1.lower c ≠ 0) := by
  refine forall_byte ?_
  decide +kernel

/-- **C104**: if only ASCII letters are letters, detox is the program of the rest of the model. -/
theorem C104_plain_locales (L : Locale) (hL : ∀ c, L.upper c = isUpperC c ∧ (isUpperC c = true → L.lower c = toLowerC c)) (there : Bytes → Bool)
    (P : Platform) (I : Invocation) (fuel : Nat) : detoxMainIn L there P I fuel = detoxMain P I fuel := by
  have hc : Locale.c.Plain := fun c => ⟨rfl, fun _ => rfl⟩
  unfold detoxMainIn detoxMain
  congr 1
  funext o
  unfold detoxConfiguredIn detoxConfigured
  congr 1
  funext c
  split
  · rfl
  · cases sequenceChooseDefault c.sequences o.sequenceName with
    | none => rfl
    | some q =>
      simp only
      rw [← reviewSequenceIn_bind there]
      congr 1
      funext q'
      rw [← detoxWorkBy_eq]
      congr 1
      cases q'.1
      · exact hc.sequence P _
      · exact Locale.Plain.sequence hL P _

/-- **C104**: in any locale detox does what it does in the "C" locale, but with another sequence, in which each `lower` is a `safe` with a table
for that locale. So what is proved about detox with any sequence holds in every locale. The locale is that of the environment if a table file was
found while the tables were loaded, and "C" if none was. -/
theorem C104_as_another_sequence {L : Locale} {there : Bytes → Bool} {P : Platform} (hP : P.ctypeNegDefined = true) {I : Invocation} {fuel : Nat}
    {ss : List Setting} {ws : List Bytes} (hc : CommandLine I.posixlyCorrect I.args ss ws) {tr : List Event} {out : Outcome Unit}
    (h : Trace (detoxMainIn L there P I fuel) tr out) :
    ((∀ e ∈ tr, Harmless e) ∧ ∀ a, out ≠ .ret a) ∨
    ∃ c q0 q r1 r2 t o M, tr = r1 ++ r2 ++ t ∧ Trace (configFileLoad I.config (lastConfig ss)) r1 (.ret c) ∧
      Chosen c.sequences (requested I ss) q0 ∧ Trace (reviewSequence I.ctype I.datadir q0) r2 (.ret q) ∧
      ((∃ p r, Event.slurp (some p) r ∈ r2 ∧ (r ≠ none ∨ there p = true)) → M = L) ∧
      ((¬ ∃ p r, Event.slurp (some p) r ∈ r2 ∧ (r ≠ none ∨ there p = true)) → M = .c) ∧
      o.sequenceToUse = some (q.inLocale M P) ∧ Trace (detoxWork P o fuel) t out ∧ (∀ e ∈ r1 ++ r2, Harmless e) ∧
      ∃ ignored l, Asked I.program I.sequence ss o ∧ o.files = some l ∧ l.Holds ws 0 ∧ FreshIgnore o.filesToIgnore ignored := by
  unfold detoxMainIn at h
  rcases trace_bind_any h with ⟨o, t1, t2, rfl, h1, h2⟩ | ⟨o', h1, h2⟩
  · obtain ⟨hstay, ho⟩ := parseOptions_ret hc h1
    obtain ⟨rfl, ha, hrest⟩ := ho
    rw [List.nil_append]
    unfold detoxConfiguredIn at h2
    rcases trace_bind_any h2 with ⟨c, r1, t3, rfl, h3, h4⟩ | ⟨o', h3, h4⟩
    · have q1 := (configFileLoad_harmless _ _).trace h3
      split at h4
      · left
        refine ⟨?_, ?_⟩
        · intro e he
          rcases List.mem_append.1 he with he | he
          · exact q1 e he
          · exact (Prog.Harmless.bind (.ofRes _) fun _ => .out (.exit 0)).trace h4 e he
        · intro a ha'
          subst ha'
          obtain ⟨t, _, h5⟩ := trace_ofRes_bind h4
          cases h5 with | out _ _ _ _ h5 => cases h5
      · next hl =>
        have hls : Setting.list ∉ ss := fun hm => hl (ha.1.2 hm)
        rcases hrest with hm | ⟨_, l, hf, hh, hne⟩
        · exact absurd hm hls
        cases hq : sequenceChooseDefault c.sequences o.sequenceName with
        | none =>
          rw [hq] at h4
          left
          refine ⟨?_, ?_⟩
          · intro e he
            rcases List.mem_append.1 he with he | he
            · exact q1 e he
            · exact (Prog.Harmless.err (.exit 1)).trace h4 e he
          · intro a ha'
            subst ha'
            cases h4 with | err _ _ _ _ h5 => cases h5
        | some q =>
          rw [hq] at h4
          simp only at h4
          rw [sequenceChooseDefault_iff] at hq
          have review : ∀ {β : Type} (k : Sequence → Prog β), ((reviewSequenceIn there I.ctype I.datadir q).bind fun r => k r.2) =
            (reviewSequence I.ctype I.datadir q).bind k := fun k => reviewSequenceIn_bind there _ _ q k
          rcases trace_bind_any h4 with ⟨q', r2, t4, rfl, h5, h6⟩ | ⟨o', h5, h6⟩
          · right
            have h7 : Trace (reviewSequence I.ctype I.datadir q) r2 (.ret q'.2) := by
              have := trace_append h5 (f := fun r => .ret r.2) (Trace.ret q'.2)
              rw [review, Prog.bind_ret, List.append_nil] at this
              exact this
            obtain ⟨_, ⟨ignored, il, hil, hih⟩, _⟩ := configFileLoad_good h3
            have hfr : FreshIgnore c.filesToIgnore ignored := by rw [hil]; exact hih
            rw [ha.2.2.2.2.2.2.2.1] at h3
            rw [ha.2.2.2.2.2.2.2.2] at hq
            rw [detoxWorkIn_eq _ hP] at h6
            obtain ⟨b, q'⟩ := q'
            have hex := reviewSequenceIn_examined h5
            refine ⟨c, q, q', r1, r2, t4, _, if b then L else .c, (List.append_assoc ..).symm, h3, hq, h7, ?_, ?_, ?_, h6, ?_, ignored, l,
              (?_ : Asked I.program I.sequence ss
                { o with filesToIgnore := c.filesToIgnore, sequenceToUse := some (q'.inLocale (if b then L else .c) P) }), hf, hh, hfr⟩
            · intro hx
              rw [hex.2 hx]
              rfl
            · intro hx
              cases b with
              | false => rfl
              | true => exact absurd (hex.1 rfl) hx
            · rfl
            · intro e he
              rcases List.mem_append.1 he with he | he
              · exact q1 e he
              · exact (reviewSequence_harmless _ _ _).trace h7 e he
            · exact ha
          · left
            refine ⟨?_, outcome_ne_ret h5⟩
            intro e he
            rcases List.mem_append.1 he with he | he
            · exact q1 e he
            · have : ∃ o'', Trace (reviewSequence I.ctype I.datadir q) t3 o'' := by
                have := trace_bind_running h6 (f := fun r => (.ret r.2 : Prog Sequence))
                rw [review, Prog.bind_ret] at this
                exact ⟨_, this⟩
              obtain ⟨_, h8⟩ := this
              exact (reviewSequence_harmless _ _ _).trace h8 e he
    · exact .inl ⟨(configFileLoad_harmless _ _).trace h4, outcome_ne_ret h3⟩
  · exact .inl ⟨parseOptions_harmless _ _ _ _ h2, outcome_ne_ret h1⟩

/-- **C104**: in no locale is anything lost. -/
theorem C104_nothing_is_lost {L : Locale} {there : Bytes → Bool} {P : Platform} (hP : P.ctypeNegDefined = true) {I : Invocation} {fuel : Nat}
    {tr : List Event} {out : Outcome Unit} (h : Trace (detoxMainIn L there P I fuel) tr out) (fs fs' : FS) (hs : FS.Steps fs tr fs') :
    (∀ i, fs'.names i = fs.names i) ∧ fs'.kind = fs.kind ∧ fs'.target = fs.target ∧ (fs.Unique → fs'.Unique) := by
  obtain ⟨ss, ws, hc, _⟩ := C49_every_command_line_can_be_read I.posixlyCorrect I.args
  have same : fs' = fs → (∀ i, fs'.names i = fs.names i) ∧ fs'.kind = fs.kind ∧ fs'.target = fs.target ∧
      (fs.Unique → fs'.Unique) := by
    rintro rfl; exact ⟨fun _ => rfl, rfl, rfl, id⟩
  rcases C104_as_another_sequence hP hc h with ⟨h, _⟩ | ⟨c, q0, q, r1, r2, t, o, M, rfl, _, _, _, _, _, _, ht, hr, ignored, l, _, hf, hl, hi⟩
  · exact same (steps_inline (fun e he => .inl (h e he)) hs)
  · have hs := steps_harmless hr hs
    unfold detoxWork at ht
    split at ht
    · exact same (steps_inline ((inlineMain_only _).trace ht) hs)
    · rw [hf] at ht
      obtain ⟨out', hrun, _⟩ := main_run hl hi ht
      obtain ⟨a, b, c⟩ := C27_nothing_is_lost P o ws ignored t out' hrun fs fs' hs
      exact ⟨a, b, c, C27_names_stay_unique P o ws ignored t out' hrun fs fs' hs⟩

/-- **C104**: the filters of that other sequence stay in bounds if those of the sequence do. -/
theorem C104_stays_in_bounds (L : Locale) (P : Platform) (q : Sequence) (hq : ∀ f ∈ q.filters, f.Ready) :
    ∀ f ∈ (q.inLocale L P).filters, f.Ready := by
  intro f hf
  obtain ⟨g, hg, rfl⟩ := List.mem_map.1 hf
  have := hq g hg
  unfold Filter.inLocale
  split
  · exact ⟨_, rfl, L.table_roomy P⟩
  · exact this

/-! ### Latin-1 -/

/-- `detox -f rc É`, the name in UTF-8. -/
def latinCall : Invocation := { program := lit "detox", args := [lit "-f", lit "rc", [0xC3, 0x89]] }

/-- `rc`, a config file in which `safe` comes with a table file. -/
def latinConfig : Bytes := lit "sequence default {safe;lower;};"

/-- A table file that has a row for the space only. -/
def spaceTable : Bytes := lit "start\n0x20 _\nend\n"

/-- What detox does if there is such a table in the usual place. -/
def latinTrace : List Event :=
  [.slurp (some (lit "rc")) (some latinConfig), .slurp (some (lit "/usr/share/detox/safe.tbl")) (some spaceTable),
   .lstat [0xC3, 0x89] (some (regStat 2)), .lstat [0xC3, 0x89] (some (regStat 2)), .lstat [0xE3, 0x89] none,
   .rename [0xC3, 0x89] [0xE3, 0x89] true]

/-- What it does if there is none. -/
def latinPlain : List Event :=
  [.slurp (some (lit "rc")) (some latinConfig), .slurp (some (lit "/usr/share/detox/safe.tbl")) none,
   .slurp (some (lit "/usr/local/share/detox/safe.tbl")) none, .lstat [0xC3, 0x89] (some (regStat 2))]

theorem latin_not_utf8 : ¬ ValidUtf8 [0xE3, 0x89] := by
  rintro ⟨cps, h1, h2⟩
  cases cps with
  | nil => cases h2
  | cons cp cps =>
    have hs := h1 cp (by simp)
    obtain ⟨c, conts, w, b, e, hl, hlen, _⟩ := encode_unit (cp := cp) (by rcases hs with h | h <;> omega)
    rw [List.flatMap_cons, e, List.cons_append] at h2
    injection h2 with h2 h3
    rw [← h2] at hl
    cases hl
    have := congrArg List.length h3
    simp only [List.length_cons, List.length_nil, List.length_append] at this
    omega

/-- **C104**: in a locale with Latin-1 `lower` takes bytes of UTF-8 for letters, and `É` becomes something that is not UTF-8, but only if a table
file is installed. The table need not have anything to do with it; without one the built-in table is used, `setlocale` is not called, and the
name stays. So it is not true that `lower` changes ASCII letters only (C08), nor that it leaves UTF-8 alone, in every locale. -/
theorem C104_latin1_spoils_utf8 :
    Trace (detoxMainIn .latin1 (fun _ => false) .linux latinCall 0) latinTrace (.ret ()) ∧
    Trace (detoxMainIn .latin1 (fun _ => false) .linux latinCall 0) latinPlain (.ret ()) ∧
    ValidUtf8 [0xC3, 0x89] ∧ ¬ ValidUtf8 [0xE3, 0x89] :=
  ⟨Prog.result_sound _ _ _ (by decide +kernel), Prog.result_sound _ _ _ (by decide +kernel), ⟨[0xC9], by decide, by decide⟩, latin_not_utf8⟩

end Detox
