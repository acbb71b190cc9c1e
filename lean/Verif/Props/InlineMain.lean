import Verif.Lemmas.Mute
import Verif.Spec.InlineMain
import Verif.Props.Inline
import Verif.Props.Settled

/-!
# C95 — inline mode from the command line to standard output
-/

set_option autoImplicit false

namespace Detox

open Spec

/-- What inline mode prints of a text. No character of a text in UTF-8 is cut in two. -/
def InlineOf (P : Platform) (o : Options) (s out : Bytes) : Prop :=
  NulFree s → ∃ cs, Chunks s cs ∧ (ValidUtf8 s → ∀ c ∈ cs, ValidUtf8 c.1) ∧ CleanedChunks P o cs out

theorem inlineLoop_copying (P : Platform) (o : Options) : ∀ (n : Nat) (s : Bytes), (inlineLoop P o n s).Only Copying
  | n, [] => by cases n <;> exact .ret _
  | 0, _ :: _ => .stuck
  | n + 1, c :: s => by
    have ih := inlineLoop_copying P o n
    unfold inlineLoop
    refine .bind (.ofRes _) fun r => ?_
    have hp : (printChunk P o r.1 r.2.1 (inlineLoop P o n r.2.2.2)).Only Copying := by
      unfold printChunk
      refine .bind (.ofRes _) fun hold => ?_
      intro h
      refine ⟨.inl ⟨_, rfl⟩, ?_⟩
      split
      · exact ⟨.inl ⟨_, rfl⟩, ih _ _⟩
      · exact ih _ _
    dsimp only
    split
    · exact fun h => ⟨.inr rfl, hp _⟩
    · exact hp

theorem parseInline_input {P : Platform} {o : Options} {path : Option Bytes} {tr : List Event} (h : Trace (parseInline P o path) tr (.ret ())) :
    (∃ s t, tr = .slurp path (some s) :: t ∧ (∀ e ∈ t, Copying e) ∧ InlineOf P o s (outText t)) ∨
    tr = [.slurp path none, .err (path.getD [] ++ lit ": ")] := by
  have h0 := h
  unfold parseInline at h
  cases h with
  | slurp _ _ r t _ h =>
    cases r with
    | none =>
      cases h with
      | err _ _ _ _ h => cases h; exact .inr rfl
    | some s =>
      refine .inl ⟨s, t, rfl, (inlineLoop_copying P o _ _).trace h, fun hs => ?_⟩
      by_cases hv : ValidUtf8 s
      · obtain ⟨cs, _, h1, h2, h3⟩ := C39_inline_never_splits_a_character P o path s hs hv t h0
        exact ⟨cs, h2, fun _ => h1, h3⟩
      · obtain ⟨cs, h1, _, h3⟩ := C41_inline_loses_nothing P o path s hs t h0
        exact ⟨cs, h1, fun h => absurd h hv, h3⟩

theorem inlineFileLoop_args {P : Platform} {o : Options} {ws : List Bytes} : ∀ (n k : Nat) (l : Filelist) (tr : List Event), l.Holds ws k →
    Trace (inlineFileLoop P o n l) tr (.ret ()) → InlineArgs (InlineOf P o) (ws.drop k) tr
  | 0, _, _, _, _, h => by unfold inlineFileLoop at h; cases h
  | n + 1, k, l, tr, hl, h => by
    have hg := filelistGet_holds hl
    unfold inlineFileLoop at h
    split at hg
    · next hk =>
      obtain ⟨l', h1, h2⟩ := hg
      rw [h1] at h
      obtain ⟨u, t1, t2, rfl, h3, h4⟩ := trace_bind_ret (p := inlineArg P o ws[k]) h
      have ih := inlineFileLoop_args n (k + 1) l' t2 h2 h4
      rw [List.drop_eq_getElem_cons hk]
      unfold inlineArg at h3
      cases h3 with
      | lstat _ _ r t _ h3 =>
        cases r with
        | none =>
          cases h3 with
          | err _ _ _ _ h3 => cases h3; exact .missing _ _ _ ih
        | some st =>
          dsimp only at h3
          split at h3
          · next hd =>
            cases h3 with
            | err _ _ _ _ h3 => cases h3; exact .directory _ _ _ _ hd ih
          · next hd =>
            rcases parseInline_input h3 with ⟨s, t, rfl, g1, g2⟩ | rfl
            · exact .text _ _ _ _ _ _ hd g1 g2 ih
            · exact .unreadable _ _ _ _ hd ih
    · next hk =>
      obtain ⟨l', h1, h2⟩ := hg
      rw [h1] at h
      change Trace (Prog.ret ()) _ _ at h
      cases h
      rw [List.drop_eq_nil_of_le (by omega)]
      exact .nil

theorem inlineMain_input {P : Platform} {o : Options} {ws : List Bytes} {l : Filelist} (hl : l.Holds ws 0) {tr : List Event}
    (h : Trace (inlineMain P o (some l)) tr (.ret ())) : InlineInput (InlineOf P o) ws tr := by
  unfold inlineMain at h
  dsimp only at h
  have hcnt : filelistCount (some l) = ws.length := hl.1
  split at h
  · next hc =>
    have := inlineFileLoop_args _ 0 l tr hl h
    rw [List.drop_zero] at this
    cases ws with
    | nil => rw [hcnt] at hc; simp at hc
    | cons f fs => exact .files _ _ _ this
  · next hc =>
    cases ws with
    | nil =>
      rcases parseInline_input h with ⟨s, t, rfl, g1, g2⟩ | rfl
      · exact .stdin _ _ g1 g2
      · exact .noStdin
    | cons f fs => rw [hcnt] at hc; simp at hc

theorem InlineArgs.mono {C D : Bytes → Bytes → Prop} (hCD : ∀ s out, C s out → D s out) {fs : List Bytes} {tr : List Event}
    (h : InlineArgs C fs tr) : InlineArgs D fs tr := by
  induction h with
  | nil => exact .nil
  | missing f fs tr _ ih => exact .missing _ _ _ ih
  | directory f fs st tr hd _ ih => exact .directory _ _ _ _ hd ih
  | unreadable f fs st tr hd _ ih => exact .unreadable _ _ _ _ hd ih
  | text f fs st s t tr hd ht hc _ ih => exact .text _ _ _ _ _ _ hd ht (hCD _ _ hc) ih

theorem InlineInput.mono {C D : Bytes → Bytes → Prop} (hCD : ∀ s out, C s out → D s out) {fs : List Bytes} {tr : List Event}
    (h : InlineInput C fs tr) : InlineInput D fs tr := by
  cases h with
  | files f fs tr h => exact .files _ _ _ (InlineArgs.mono hCD h)
  | stdin s t ht hc => exact .stdin _ _ ht (hCD _ _ hc)
  | noStdin => exact .noStdin

theorem outText_append : ∀ (a b : List Event), outText (a ++ b) = outText a ++ outText b
  | [], b => rfl
  | e :: a, b => by
    have ih := outText_append a b
    cases e <;> simp only [List.cons_append, outText, ih, List.append_assoc]

theorem textsRead_append (a b : List Event) : textsRead (a ++ b) = textsRead a ++ textsRead b := List.filterMap_append

theorem Fruitless.texts {tr : List Event} (h : Fruitless tr) : textsRead tr = [] := by
  refine List.filterMap_eq_nil_iff.2 fun e he => ?_
  obtain ⟨f, rfl⟩ := h e he
  rfl

theorem copying_texts {t : List Event} (h : ∀ e ∈ t, Copying e) : textsRead t = [] := by
  refine List.filterMap_eq_nil_iff.2 fun e he => ?_
  rcases h e he with ⟨s, rfl⟩ | rfl <;> rfl

/-- A property of text and output that can be added up holds of everything read and everything printed. -/
theorem InlineInput.total {C : Bytes → Bytes → Prop} (h0 : C [] []) (ha : ∀ s s' out out', C s out → C s' out' → C (s ++ s') (out ++ out'))
    {fs : List Bytes} {tr : List Event} (h : InlineInput (fun s out => s ∈ textsRead tr → C s out) fs tr) : C (textsRead tr).flatten (outText tr) := by
  have key : ∀ {T fs : List Bytes} {tr : List Event}, (∀ s ∈ textsRead tr, s ∈ T) → InlineArgs (fun s out => s ∈ T → C s out) fs tr → C (textsRead tr).flatten (outText tr) := by
    intro T fs tr hT h
    induction h with
    | nil => exact h0
    | missing f fs tr _ ih => exact ih hT
    | directory f fs st tr hd _ ih => exact ih hT
    | unreadable f fs st tr hd _ ih => exact ih hT
    | text f fs st s t tr hd ht hc _ ih =>
      have e1 : textsRead (.lstat f (some st) :: .slurp (some f) (some s) :: (t ++ tr)) = s :: textsRead tr := by
        show s :: textsRead (t ++ tr) = _
        rw [textsRead_append, copying_texts ht]
        rfl
      rw [e1] at hT ⊢
      show C (s ++ _) (outText (t ++ tr))
      rw [outText_append]
      exact ha _ _ _ _ (hc (hT s (List.mem_cons_self ..))) (ih fun x hx => hT x (List.mem_cons_of_mem _ hx))
  generalize hT : textsRead tr = T at h
  rw [← hT]
  cases h with
  | files f fs tr h => exact key (fun s hs => hT ▸ hs) h
  | stdin s t ht hc =>
    have e1 : textsRead (.slurp none (some s) :: t) = [s] := by
      show s :: textsRead t = _
      rw [copying_texts ht]
    rw [e1] at hT ⊢
    subst hT
    show C [s].flatten (outText t)
    simpa using hc (by simp)
  | noStdin => exact h0

/-! ### The theorems -/

/-- **C95.** Inline mode from the command line on: the configuration is read and a sequence chosen; then each file is looked at, directories and
missing files are complained about, and every text that can be read is printed chunk by chunk, cleaned by that sequence. Without files
that is done with standard input. Nothing else happens. -/
theorem C95_inline_main {P : Platform} {I : Invocation} {fuel : Nat} {ss : List Setting} {ws : List Bytes}
    (hc : CommandLine I.posixlyCorrect I.args ss ws) (hi : CalledInline I.program ∨ Setting.inline ∈ ss) {tr : List Event}
    (h : Trace (detoxMain P I fuel) tr (.ret ())) :
    ∃ c q q' r1 r2 t o, tr = r1 ++ r2 ++ t ∧ Trace (configFileLoad I.config (lastConfig ss)) r1 (.ret c) ∧ Chosen c.sequences (requested I ss) q ∧
      Trace (reviewSequence I.ctype I.datadir q) r2 (.ret q') ∧ o.sequenceToUse = some q' ∧ InlineInput (InlineOf P o) ws t := by
  rcases main_cases hc h with ⟨_, h⟩ | ⟨reads, t, o, ignored, l, ign, rfl, hrd, hl, hig, hk⟩
  · exact absurd rfl (h ())
  obtain ⟨c, q, q', r1, r2, rfl, g1, g2, g3, g4, g5⟩ := hrd.stages
  rcases hk with ⟨_, ht⟩ | ⟨hin, _⟩
  · exact ⟨c, q, q', r1, r2, t, o, rfl, g1, g2, g3, g4, inlineMain_input hl ht⟩
  · rw [hrd.asked.2.2.2.2.2.1.2 hi] at hin
    cases hin

/-- What a built-in sequence makes of a chunk in inline mode. -/
def BuiltinLine (P : Platform) (E : TableEnv) (n : Option Bytes) (l c : Bytes) : Prop :=
  ((l = lit "." ∨ l = lit "..") ∧ c = l) ∨ (¬ (l = lit "." ∨ l = lit "..") ∧ runBuiltin P E n l = .ok (some c))

/-- Each chunk cleaned by a built-in sequence, newlines where they were. -/
inductive BuiltinChunks (P : Platform) (E : TableEnv) (n : Option Bytes) : List Chunk → Bytes → Prop
  | nil : BuiltinChunks P E n [] []
  | cons (l c : Bytes) (nl : Bool) (cs : List Chunk) (out : Bytes) : BuiltinLine P E n l c → BuiltinChunks P E n cs out →
      BuiltinChunks P E n ((l, nl) :: cs) (Chunk.full (c, nl) ++ out)

/-- **C95.** The same with nothing configured: nothing happens before but attempts at finding a config file, and the cleaning is that of the built-in
sequence asked for. -/
theorem C95_inline_builtin {P : Platform} {I : Invocation} {fuel : Nat} {ss : List Setting} {ws : List Bytes}
    (hc : CommandLine I.posixlyCorrect I.args ss ws) (hi : CalledInline I.program ∨ Setting.inline ∈ ss) {tr : List Event}
    (h : Trace (detoxMain P I fuel) tr (.ret ())) (hu : Unconfigured I ss tr) (E : TableEnv) :
    ∃ reads t, tr = reads ++ t ∧ (∀ e ∈ reads, ∃ f, e = .slurp (some f) none) ∧
      InlineInput (fun s out => NulFree s → ∃ cs, Chunks s cs ∧ (ValidUtf8 s → ∀ c ∈ cs, ValidUtf8 c.1) ∧
        BuiltinChunks P E (requested I ss) cs out) ws t := by
  rcases main_cases hc h with ⟨_, h⟩ | ⟨reads, t, o, ignored, l, ign, rfl, hrd, hl, hig, hk⟩
  · exact absurd rfl (h ())
  have hfr := unconfigured_reads hrd hu fun e he => List.mem_append_left _ he
  obtain ⟨c, q, q', r1, r2, rfl, g1, g2, g3, g4, g5⟩ := hrd.stages
  rcases hk with ⟨_, ht⟩ | ⟨hin, _⟩
  · refine ⟨r1 ++ r2, t, rfl, hfr, InlineInput.mono (fun s out hs hn => ?_) (inlineMain_input hl ht)⟩
    obtain ⟨cs, h1, hv, h2⟩ := hs hn
    refine ⟨cs, h1, hv, ?_⟩
    clear h1 hs hv
    induction h2 with
    | nil => exact .nil
    | cons l c nl cs out hl _ ih =>
      refine .cons _ _ _ _ _ ?_ ih
      rcases hl with hl | ⟨h1, h2⟩
      · exact .inl hl
      · refine .inr ⟨h1, ?_⟩
        rw [unconfigured_run hu (fun e he => by simp [he]) g1 g2 g3 E l, ← g4, h2]
  · rw [hrd.asked.2.2.2.2.2.1.2 hi] at hin
    cases hin

theorem chunks_nulFree {s : Bytes} {cs : List Chunk} (h : Chunks s cs) (hs : NulFree s) : s = cs.flatMap Chunk.full ∧ ∀ c ∈ cs, NulFree c.1 ∧ (0x0A : Byte) ∉ c.1 := by
  induction h with
  | nil => exact ⟨rfl, by simp⟩
  | line l rest cs h1 _ _ ih =>
    rw [nulFree_append, nulFree_append] at hs
    obtain ⟨i1, i2⟩ := ih hs.2
    refine ⟨by rw [List.flatMap_cons, ← i1]; rfl, fun c hc => ?_⟩
    rcases List.mem_cons.1 hc with rfl | hc
    · exact ⟨hs.1.1, h1⟩
    · exact i2 c hc
  | piece l rest cs h1 _ _ _ ih =>
    rw [nulFree_append] at hs
    obtain ⟨i1, i2⟩ := ih hs.2
    refine ⟨by rw [List.flatMap_cons, ← i1]; simp [Chunk.full], fun c hc => ?_⟩
    rcases List.mem_cons.1 hc with rfl | hc
    · exact ⟨hs.1, h1⟩
    · exact i2 c hc
  | last l h1 _ _ =>
    refine ⟨by simp [Chunk.full], fun c hc => ?_⟩
    rw [List.mem_singleton.1 hc]
    exact ⟨hs, h1⟩

theorem builtinChunks_default {P : Platform} {E : TableEnv} {n : Option Bytes} (hn : n = none ∨ n = some (lit "default")) {cs : List Chunk} {out : Bytes}
    (h : BuiltinChunks P E n cs out) (hcs : ∀ c ∈ cs, NulFree c.1 ∧ (0x0A : Byte) ∉ c.1) :
    (∀ c ∈ out, c = 0x0A ∨ hostile c = false) ∧ out.count 0x0A = (cs.flatMap Chunk.full).count 0x0A ∧
    out.filter (fun c => decide (128 ≤ c.toNat)) = (cs.flatMap Chunk.full).filter (fun c => decide (128 ≤ c.toNat)) := by
  induction h with
  | nil => exact ⟨by simp, rfl, rfl⟩
  | cons l c nl cs out hl _ ih =>
    obtain ⟨i1, i2, i3⟩ := ih fun x hx => hcs x (List.mem_cons_of_mem _ hx)
    obtain ⟨k1, k2⟩ := hcs _ (List.mem_cons_self ..)
    have key : (∀ x ∈ c, hostile x = false) ∧ c.filter (fun c => decide (128 ≤ c.toNat)) = l.filter (fun c => decide (128 ≤ c.toNat)) := by
      rcases hl with ⟨hl, rfl⟩ | ⟨_, hl⟩
      · refine ⟨?_, rfl⟩
        rcases hl with rfl | rfl <;> decide +kernel
      · rw [runBuiltin_asked hn] at hl
        obtain ⟨o1, x1, x2⟩ := C01_default_output_has_no_hostile_character P E l k1
        rw [hl] at x1
        cases x1
        exact ⟨x2, C03_default_preserves_non_ascii P E l c k1 hl⟩
    have hnl : (0x0A : Byte) ∉ c := fun hm => absurd (key.1 _ hm) (by decide +kernel)
    refine ⟨?_, ?_, ?_⟩
    · intro x hx
      rcases List.mem_append.1 hx with hx | hx
      · rcases List.mem_append.1 hx with hx | hx
        · exact .inr (key.1 x hx)
        · cases nl with
          | true => exact .inl (by simpa using hx)
          | false => cases hx
      · exact i1 x hx
    · rw [List.flatMap_cons, List.count_append, List.count_append, i2]
      congr 1
      unfold Chunk.full
      rw [List.count_append, List.count_append, List.count_eq_zero.2 hnl, List.count_eq_zero.2 k2]
    · rw [List.flatMap_cons, List.filter_append, List.filter_append, i3]
      congr 1
      unfold Chunk.full
      rw [List.filter_append, List.filter_append, key.2]

/-- **C95.** `inline-detox` with nothing configured and the default sequence, on texts without NUL bytes: whatever the lengths of the lines, nothing but newlines and
harmless characters is printed, there are as many newlines as in the texts read, and the bytes that are not ASCII are all there, in the same order. -/
theorem C95_default_output {P : Platform} {I : Invocation} {fuel : Nat} {ss : List Setting} {ws : List Bytes}
    (hc : CommandLine I.posixlyCorrect I.args ss ws) (hi : CalledInline I.program ∨ Setting.inline ∈ ss) {tr : List Event}
    (h : Trace (detoxMain P I fuel) tr (.ret ())) (hu : Unconfigured I ss tr) (hn : requested I ss = none ∨ requested I ss = some (lit "default"))
    (ht : ∀ s ∈ textsRead tr, NulFree s) :
    (∀ c ∈ outText tr, c = 0x0A ∨ hostile c = false) ∧ (outText tr).count 0x0A = (textsRead tr).flatten.count 0x0A ∧
    (outText tr).filter (fun c => decide (128 ≤ c.toNat)) = (textsRead tr).flatten.filter (fun c => decide (128 ≤ c.toNat)) := by
  obtain ⟨reads, t, rfl, hr, hin⟩ := C95_inline_builtin hc hi h hu ⟨fun _ => none, none⟩
  have hr : Fruitless reads := hr
  rw [hr.outText, textsRead_append, hr.texts, List.nil_append]
  rw [textsRead_append, hr.texts, List.nil_append] at ht
  refine InlineInput.total (C := fun s out => (∀ c ∈ out, c = 0x0A ∨ hostile c = false) ∧ out.count 0x0A = s.count 0x0A ∧
    out.filter (fun c => decide (128 ≤ c.toNat)) = s.filter (fun c => decide (128 ≤ c.toNat))) ⟨by simp, rfl, rfl⟩ ?_
    (InlineInput.mono (fun s out hs hm => ?_) hin)
  · rintro s s' out out' ⟨a1, a2, a3⟩ ⟨b1, b2, b3⟩
    refine ⟨fun c hc => (List.mem_append.1 hc).elim (a1 c) (b1 c), ?_, ?_⟩
    · rw [List.count_append, List.count_append, a2, b2]
    · rw [List.filter_append, List.filter_append, a3, b3]
  · obtain ⟨cs, h1, _, h2⟩ := hs (ht s hm)
    obtain ⟨g1, g2⟩ := chunks_nulFree h1 (ht s hm)
    rw [g1]
    exact builtinChunks_default hn h2 g2

/-- A line as inline mode prints it. -/
theorem builtinChunks_lines {P : Platform} {E : TableEnv} {n : Option Bytes} {clean : Bytes → Bytes} : ∀ {ls : List Bytes} {out : Bytes},
    BuiltinChunks P E n (ls.map (·, true)) out → (∀ l ∈ ls, l ≠ lit "." → l ≠ lit ".." → runBuiltin P E n l = .ok (some (clean l))) →
    out = ls.flatMap fun l => (if l = lit "." ∨ l = lit ".." then l else clean l) ++ [0x0A]
  | [], out, h, _ => by cases h; rfl
  | l :: ls, out, h, hc => by
    rw [List.map_cons] at h
    cases h with
    | cons _ c _ _ out' hl hr =>
      rw [List.flatMap_cons, ← builtinChunks_lines hr fun x hx => hc x (List.mem_cons_of_mem _ hx)]
      congr 1
      rcases hl with ⟨hd, rfl⟩ | ⟨hd, hr⟩
      · rw [if_pos hd]; simp [Chunk.full]
      · rw [if_neg hd]
        rw [hc l (by simp) (fun e => hd (.inl e)) (fun e => hd (.inr e))] at hr
        cases hr
        simp [Chunk.full]

/-- **C95.** A filter on lines: with nothing configured, and lines shorter than 1007 bytes on standard input, exactly these lines are printed, each
as the built-in sequence cleans it. -/
theorem C95_line_filter {P : Platform} {I : Invocation} {fuel : Nat} {ss : List Setting}
    (hc : CommandLine I.posixlyCorrect I.args ss []) (hi : CalledInline I.program ∨ Setting.inline ∈ ss) {tr : List Event}
    (h : Trace (detoxMain P I fuel) tr (.ret ())) (hu : Unconfigured I ss tr) {ls : List Bytes} {s : Bytes} (hs : Event.slurp none (some s) ∈ tr)
    (hls : ShortLines ls s) {E : TableEnv} {clean : Bytes → Bytes}
    (hcl : ∀ l ∈ ls, l ≠ lit "." → l ≠ lit ".." → runBuiltin P E (requested I ss) l = .ok (some (clean l))) :
    outText tr = ls.flatMap fun l => (if l = lit "." ∨ l = lit ".." then l else clean l) ++ [0x0A] := by
  obtain ⟨reads, t, rfl, hr, hin⟩ := C95_inline_builtin hc hi h hu E
  have hr : Fruitless reads := hr
  rw [hr.outText]
  have hst : Event.slurp none (some s) ∈ t := by
    rcases List.mem_append.1 hs with h' | h'
    · obtain ⟨f, hf⟩ := hr _ h'
      cases hf
    · exact h'
  generalize hws : ([] : List Bytes) = ws at hin
  cases hin with
  | files f fs tr h => cases hws
  | noStdin => simp at hst
  | stdin s' t ht hcc =>
    have : s' = s := by
      rcases List.mem_cons.1 hst with h' | h'
      · cases h'; rfl
      · rcases ht _ h' with ⟨x, hx⟩ | hx <;> cases hx
    subst this
    obtain ⟨rfl, hls⟩ := hls
    have hnf : NulFree (ls.flatMap (· ++ [0x0A])) := by
      intro hm
      obtain ⟨l, hl, hm⟩ := List.mem_flatMap.1 hm
      rcases List.mem_append.1 hm with hm | hm
      · exact (hls l hl).2.2 hm
      · revert hm; decide
    obtain ⟨cs, h1, _, h2⟩ := hcc hnf
    have := chunks_lines ls [] cs (fun l hl => ⟨(hls l hl).1, (hls l hl).2.1⟩) (by simp) (by decide) (by simpa using h1)
    rw [if_pos rfl, List.append_nil] at this
    subst this
    exact builtinChunks_lines h2 hcl

/-- **C95.** `inline-detox | inline-detox` prints what `inline-detox` prints: with the default sequence, and lines that have less than 1007 bytes before
and after the first pass. -/
theorem C95_pipe {P : Platform} {I1 I2 : Invocation} {fuel1 fuel2 : Nat} {ss1 ss2 : List Setting}
    (hc1 : CommandLine I1.posixlyCorrect I1.args ss1 []) (hi1 : CalledInline I1.program ∨ Setting.inline ∈ ss1) {tr1 : List Event}
    (h1 : Trace (detoxMain P I1 fuel1) tr1 (.ret ())) (hu1 : Unconfigured I1 ss1 tr1)
    (hn1 : requested I1 ss1 = none ∨ requested I1 ss1 = some (lit "default"))
    (hc2 : CommandLine I2.posixlyCorrect I2.args ss2 []) (hi2 : CalledInline I2.program ∨ Setting.inline ∈ ss2) {tr2 : List Event}
    (h2 : Trace (detoxMain P I2 fuel2) tr2 (.ret ())) (hu2 : Unconfigured I2 ss2 tr2)
    (hn2 : requested I2 ss2 = none ∨ requested I2 ss2 = some (lit "default"))
    {ls : List Bytes} {s : Bytes} (hs : Event.slurp none (some s) ∈ tr1) (hls : ShortLines ls s)
    (hlen : ∀ l ∈ ls, ∀ E v, runBuiltin P E none l = .ok (some v) → v.length < 1007) (hp : Event.slurp none (some (outText tr1)) ∈ tr2) :
    outText tr2 = outText tr1 := by
  let E : TableEnv := ⟨fun _ => none, none⟩
  have hex : ∃ clean : Bytes → Bytes, ∀ l, NulFree l → runBuiltin P E none l = .ok (some (clean l)) ∧ ∀ c ∈ clean l, hostile c = false := by
    refine ⟨fun l => if hl : NulFree l then (C01_default_output_has_no_hostile_character P E l hl).choose else l, fun l hl => ?_⟩
    dsimp only
    rw [dif_pos hl]
    exact (C01_default_output_has_no_hostile_character P E l hl).choose_spec
  obtain ⟨clean, hcl⟩ := hex
  have e1 := C95_line_filter hc1 hi1 h1 hu1 hs hls (E := E) (clean := clean) fun l hl _ _ => by
    rw [runBuiltin_asked hn1]; exact (hcl l (hls.2 l hl).2.2).1
  let once : Bytes → Bytes := fun l => if l = lit "." ∨ l = lit ".." then l else clean l
  have hshort : ShortLines (ls.map once) (outText tr1) := by
    refine ⟨by rw [e1, List.flatMap_map], ?_⟩
    intro l' hl'
    obtain ⟨l, hl, rfl⟩ := List.mem_map.1 hl'
    obtain ⟨g1, g2, g3⟩ := hls.2 l hl
    show _ ∉ once l ∧ (once l).length < 1007 ∧ _ ∉ once l
    by_cases hd : l = lit "." ∨ l = lit ".."
    · simp only [once, if_pos hd]
      exact ⟨g1, g2, g3⟩
    · simp only [once, if_neg hd]
      obtain ⟨k1, k2⟩ := hcl l g3
      exact ⟨fun hm => absurd (k2 _ hm) (by decide +kernel), hlen l hl E _ k1, fun hm => absurd (k2 _ hm) (by decide +kernel)⟩
  have e2 := C95_line_filter hc2 hi2 h2 hu2 hp hshort (E := E) (clean := id) ?_
  · rw [e2, List.flatMap_map, e1]
    congr 1
    funext l
    show (if once l = lit "." ∨ once l = lit ".." then once l else once l) ++ _ = _
    rw [ite_self]
  · intro l' hl' n1 n2
    obtain ⟨l, hl, rfl⟩ := List.mem_map.1 hl'
    rw [runBuiltin_asked hn2]
    by_cases hd : l = lit "." ∨ l = lit ".."
    · have : once l = l := if_pos hd
      rw [this] at n1 n2
      rcases hd with hd | hd
      · exact absurd hd n1
      · exact absurd hd n2
    · have : once l = clean l := if_neg hd
      rw [this]
      exact C02_default_idempotent P E l _ (hls.2 l hl).2.2 (hcl l (hls.2 l hl).2.2).1

/-! ### Concrete cases -/

def pipeCall : Invocation := { program := lit "/usr/bin/inline-detox", args := [] }

def pipeTrace : List Event :=
  nothingInstalled ++ [.slurp none (some (lit "a b\n.\nx & y\n")), .out (lit "a_b"), .out [0x0A], .out (lit "."), .out [0x0A],
    .out (lit "x_and_y"), .out [0x0A]]

/- What the theorems ask of a run. -/
example : Trace (detoxMain .linux pipeCall 10) pipeTrace (.ret ()) := Prog.result_sound _ _ _ (by decide +kernel)
example : CommandLine pipeCall.posixlyCorrect pipeCall.args [] [] := .none
example : CalledInline pipeCall.program := ⟨0, .inr ⟨lit "/usr/bin", by decide +kernel⟩⟩
example : ShortLines [lit "a b", lit ".", lit "x & y"] (lit "a b\n.\nx & y\n") := ⟨by decide +kernel, by decide +kernel⟩

/-- A file and a directory as arguments. -/
def inlineFilesCall : Invocation := { program := lit "detox", args := [lit "--inline", lit "f", lit "d", lit "g"] }

example : Trace (detoxMain .linux inlineFilesCall 10)
    (nothingInstalled ++ [.lstat (lit "f") (some ⟨1, 3, 1, .reg⟩), .slurp (some (lit "f")) (some (lit "a?b")), .out (lit "a_b"),
      .lstat (lit "d") (some ⟨1, 4, 2, .dir⟩), .err (lit "d: is a directory\n"), .lstat (lit "g") none, .err (lit "g: ")]) (.ret ()) :=
  Prog.result_sound _ _ _ (by decide +kernel)

end Detox
