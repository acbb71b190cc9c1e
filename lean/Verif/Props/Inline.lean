import Verif.Lemmas.Inline
import Verif.Lemmas.Final
import Verif.Spec.Inline
import Verif.Props.File
import Verif.Props.Scan
import Verif.Props.Safety

/-!
# C38–C41 — inline mode
-/

set_option autoImplicit false

namespace Detox
open Spec

/-- The cleaned version of a line: `.` and `..` are left as they are, everything else goes through the sequence. -/
def CleanedLine (P : Platform) (o : Options) (l c : Bytes) : Prop :=
  ((l = lit "." ∨ l = lit "..") ∧ c = l) ∨
  (¬ (l = lit "." ∨ l = lit "..") ∧ sequenceRunFilters P o.sequenceToUse (some l) = .ok (some c))

/-- Each chunk cleaned, newlines where they were. -/
inductive CleanedChunks (P : Platform) (o : Options) : List Chunk → Bytes → Prop
  | nil : CleanedChunks P o [] []
  | cons (l c : Bytes) (nl : Bool) (cs : List Chunk) (out : Bytes) : CleanedLine P o l c → CleanedChunks P o cs out →
      CleanedChunks P o ((l, nl) :: cs) (Chunk.full (c, nl) ++ out)

theorem runFilters_ne_none {P : Platform} : ∀ (fs : List Filter) (b : Bytes), runFilters P fs (some b) ≠ .ok none
  | [], b, h => by cases h
  | g :: fs, b, h => by
    simp only [runFilters] at h
    cases hg : filterRun P g (some b) with
    | ok x =>
      rw [hg] at h
      cases x with
      | none =>
        unfold filterRun at hg
        cases hc : g.cleaner <;> simp only [hc] at hg
        · cases hy : cleanIso g.table b <;> rw [hy] at hg <;> cases hg
        · cases hy : cleanLower P b <;> rw [hy] at hg <;> cases hg
        · cases hy : cleanMaxLength P g.maxLength b <;> rw [hy] at hg <;> cases hg
        · cases hy : cleanSafe P g.table b <;> rw [hy] at hg <;> cases hg
        · cases hy : cleanUncgi P b <;> rw [hy] at hg <;> cases hg
        · cases hy : cleanUtf8 g.table b <;> rw [hy] at hg <;> cases hg
        · cases hy : cleanWipeup g.removeTrailing b <;> rw [hy] at hg <;> cases hg
      | some y => exact runFilters_ne_none fs y h
    | exit n => rw [hg] at h; cases h
    | ub u => rw [hg] at h; cases h
    | stuck => rw [hg] at h; cases h

/-- What to clean of a chunk: nothing if it is `.` or `..`. -/
def chunkWork (text : Bytes) : Option Bytes := if isProtected text then none else some text

theorem cleanedLine_of {P : Platform} {o : Options} {text : Bytes} {hold : Option Bytes}
    (hh : sequenceRunFilters P o.sequenceToUse (chunkWork text) = .ok hold) : CleanedLine P o text (hold.getD text) := by
  unfold chunkWork at hh
  cases hp : isProtected text with
  | true =>
    have hp' := (isProtected_iff text).1 hp
    refine .inl ⟨hp', ?_⟩
    simp only [hp, if_true] at hh
    unfold sequenceRunFilters at hh
    split at hh
    · cases hh
    · cases hh; rfl
  | false =>
    have hp' : ¬ (text = lit "." ∨ text = lit "..") := fun h => by
      have := (isProtected_iff text).2 h
      rw [hp] at this; cases this
    simp only [hp, Bool.false_eq_true, if_false] at hh
    refine .inr ⟨hp', ?_⟩
    cases hold with
    | some w => exact hh
    | none =>
      exfalso
      cases hq : o.sequenceToUse with
      | none => rw [hq] at hh; cases hh
      | some q => rw [hq] at hh; exact runFilters_ne_none _ _ hh

theorem printChunk_eq (P : Platform) (o : Options) (text : Bytes) (nl : Bool) (k : Prog Unit) :
    printChunk P o text nl k = (Prog.ofRes (sequenceRunFilters P o.sequenceToUse (chunkWork text))).bind fun hold =>
      .out (hold.getD text) (if nl then .out [0x0A] k else k) := by
  have : (fun hold : Option Bytes => Prog.out (hold.getD text) (if nl then .out [0x0A] k else k)) = fun hold =>
      Prog.out (match hold with | some w => w | none => text) (if nl then .out [0x0A] k else k) := by
    funext hold
    cases hold <;> rfl
  rw [this]
  rfl

/-- Printing a chunk: one cleaned line, then the newline, then the rest. -/
theorem printChunk_ret {P : Platform} {o : Options} {text : Bytes} {nl : Bool} {k : Prog Unit} {tr : List Event}
    (h : Trace (printChunk P o text nl k) tr (.ret ())) :
    ∃ c tr', CleanedLine P o text c ∧ Trace k tr' (.ret ()) ∧ outText tr = Chunk.full (c, nl) ++ outText tr' := by
  rw [printChunk_eq] at h
  obtain ⟨hold, hh, h'⟩ := trace_ofRes_bind h
  have hcl := cleanedLine_of hh
  generalize hold.getD text = w at h' hcl
  cases h' with
  | out _ _ tr1 _ h1 =>
    cases nl with
    | true =>
      cases h1 with
      | out _ _ tr2 _ h2 => exact ⟨_, _, hcl, h2, by simp [outText, Chunk.full]⟩
    | false => exact ⟨_, _, hcl, h1, by simp [outText, Chunk.full]⟩

theorem printChunk_any {P : Platform} {o : Options} {text : Bytes} {nl : Bool} {k : Prog Unit} {tr : List Event}
    {oc : Outcome Unit} (h : Trace (printChunk P o text nl k) tr oc) :
    oc = .running ∨ FailsAs (sequenceRunFilters P o.sequenceToUse (chunkWork text)) oc ∨ ∃ tr', Trace k tr' oc := by
  rw [printChunk_eq] at h
  rcases trace_ofRes_any h with ⟨hold, _, h'⟩ | ⟨_, h⟩ | ⟨_, h⟩
  · generalize hold.getD text = w at h'
    cases h' with
    | stop => exact .inl rfl
    | out _ _ tr1 _ h1 =>
      cases nl with
      | false => exact .inr (.inr ⟨_, h1⟩)
      | true =>
        cases h1 with
        | stop => exact .inl rfl
        | out _ _ tr2 _ h2 => exact .inr (.inr ⟨_, h2⟩)
  · exact .inl h
  · exact .inr (.inl h)

theorem lineBuf_nulFree {s : Bytes} (hs : NulFree s) : lineBuf s = (takeLine 1007 s).1 := by
  unfold lineBuf
  apply cstr_of_nulFree
  have := (takeLine_spec 1007 s).1
  rw [this, nulFree_append] at hs
  exact hs.1

theorem cutNewline_nulFree {s : Bytes} (h : NulFree s) : NulFree (cutNewline s).1 := by
  unfold cutNewline
  split
  · exact h
  · exact fun hm => h (List.mem_of_mem_take hm)

/-- A round takes something off the input and hands a C string to the filters. -/
theorem nextChunk_progress {P : Platform} {s : Bytes} (hne : s ≠ []) {t : Bytes} {nl w : Bool} {rest : Bytes}
    (h : nextChunk P s = .ok (t, nl, w, rest)) : NulFree t ∧ ∃ pre, s = pre ++ rest ∧ pre ≠ [] := by
  obtain ⟨h1, h2, h3⟩ := takeLine_spec 1007 s
  have hpos := takeLine_pos (n := 1007) (by omega) hne
  have hb : NulFree (lineBuf s) := nulFree_cstr _
  rcases nextChunk_cases P s with ⟨_, hx⟩ | ⟨_, ⟨hnl, hx⟩ | ⟨hnl, n, hn5, _, _, hx⟩⟩
  · rw [hx] at h; cases h
  · rw [hx] at h
    cases h
    exact ⟨cutNewline_nulFree hb, _, h1, hpos⟩
  · rw [hx] at h
    have hf := fetchConts_spec P n (takeLine 1007 s).2
    cases h
    refine ⟨?_, (takeLine 1007 s).1 ++ (fetchConts P n (takeLine 1007 s).2).1, ?_, ?_⟩
    · rw [nulFree_append]
      refine ⟨hb, fun hm => ?_⟩
      rcases hf.2.2 _ hm with h | h
      · revert h; decide
      · revert h; decide
    · rw [List.append_assoc, ← hf.1]; exact h1
    · simp [hpos]

/-- Every way the loop can end. `I` is an invariant of the rest of the input, `C` what it says about the chunks. -/
theorem inlineLoop_any {P : Platform} {o : Options} {I C : Bytes → Prop}
    (step : ∀ s t nl w rest, s ≠ [] → I s → nextChunk P s = .ok (t, nl, w, rest) → C t ∧ I rest) :
    ∀ (n : Nat) (s : Bytes) (tr : List Event) (oc : Outcome Unit), s.length ≤ n → I s → Trace (inlineLoop P o n s) tr oc →
    oc = .running ∨ oc = .ret () ∨ ∃ pre s', s = pre ++ s' ∧ s' ≠ [] ∧ I s' ∧
      (FailsAs (nextChunk P s') oc ∨ ∃ t, C t ∧ NulFree t ∧ FailsAs (sequenceRunFilters P o.sequenceToUse (chunkWork t)) oc)
  | n, [], tr, oc, _, _, h => by
    simp only [inlineLoop] at h
    cases h
    · exact .inl rfl
    · exact .inr (.inl rfl)
  | 0, _ :: _, tr, oc, hn, _, h => by simp at hn
  | n + 1, c :: s, tr, oc, hn, hI, h => by
    simp only [inlineLoop] at h
    rcases trace_ofRes_any h with ⟨⟨t, nl, w, rest⟩, hr, h'⟩ | ⟨_, h⟩ | ⟨_, h⟩
    · obtain ⟨hnf, pre, hpre, hpos⟩ := nextChunk_progress (by simp) hr
      obtain ⟨hC, hI'⟩ := step _ _ _ _ _ (by simp) hI hr
      have hlen : rest.length ≤ n := by
        have := congrArg List.length hpre
        have h0 : 0 < pre.length := by cases pre with | nil => exact absurd rfl hpos | cons => simp
        simp at this hn
        omega
      have done : ∀ tr, Trace (printChunk P o t nl (inlineLoop P o n rest)) tr oc →
          oc = .running ∨ oc = .ret () ∨ ∃ pre s', c :: s = pre ++ s' ∧ s' ≠ [] ∧ I s' ∧ (FailsAs (nextChunk P s') oc ∨
            ∃ t, C t ∧ NulFree t ∧ FailsAs (sequenceRunFilters P o.sequenceToUse (chunkWork t)) oc) := by
        intro tr h
        rcases printChunk_any h with h | h | ⟨tr', h⟩
        · exact .inl h
        · exact .inr (.inr ⟨[], c :: s, rfl, by simp, hI, .inr ⟨t, hC, hnf, h⟩⟩)
        · rcases inlineLoop_any step n rest tr' oc hlen hI' h with h | h | ⟨p, s', e1, e2, e3, e4⟩
          · exact .inl h
          · exact .inr (.inl h)
          · exact .inr (.inr ⟨pre ++ p, s', by rw [hpre, e1, List.append_assoc], e2, e3, e4⟩)
      cases w with
      | false => exact done tr h'
      | true =>
        simp only [if_true] at h'
        cases h' with
        | stop => exact .inl rfl
        | err _ _ tr1 _ h1 => exact done tr1 h1
    · exact .inl h
    · exact .inr (.inr ⟨[], c :: s, rfl, by simp, hI, .inl h⟩)

theorem chunks_nil {cs : List Chunk} (h : Chunks [] cs) : cs = [] := by
  generalize hs : ([] : Bytes) = s at h
  cases h with
  | nil => rfl
  | line l _ _ _ _ _ => simp at hs
  | piece l _ _ _ h1 _ _ =>
    have := congrArg List.length hs
    simp at this
    omega
  | last _ _ h1 _ => exact absurd hs.symm h1

/-- A round on NUL-free input takes one chunk off. -/
theorem nextChunk_chunk {P : Platform} {s : Bytes} (hs : NulFree s) (hne : s ≠ []) {t : Bytes} {nl w : Bool} {rest : Bytes}
    (h : nextChunk P s = .ok (t, nl, w, rest)) :
    s = Chunk.full (t, nl) ++ rest ∧ (∀ cs, Chunks rest cs → Chunks s ((t, nl) :: cs)) ∧ rest.length < s.length := by
  obtain ⟨h1, h2, h3⟩ := takeLine_spec 1007 s
  have hb := lineBuf_nulFree hs
  have hpos := takeLine_pos (n := 1007) (by omega) hne
  rw [← hb] at h1 h2 h3 hpos
  rcases nextChunk_cases P s with ⟨_, hx⟩ | ⟨_, ⟨hnl, hx⟩ | ⟨hnl, n, hn5, _, _, hx⟩⟩
  · rw [hx] at h; cases h
  · rw [hx] at h
    rcases h3 with ⟨l, hl, hln⟩ | ⟨hno, _⟩
    · rw [hl, cutNewline_last hln] at h
      cases h
      rw [hl] at h1 h2
      refine ⟨by simpa [Chunk.full] using h1, fun cs hcs => ?_, ?_⟩
      · have := Chunks.line _ _ cs hln (by simp at h2; omega) hcs
        rw [← h1] at this
        exact this
      · have := congrArg List.length h1
        simp at this
        omega
    · exact absurd hnl hno
  · rw [hx] at h
    have hf := fetchConts_spec P n (takeLine 1007 s).2
    cases h
    have hs' : s = (lineBuf s ++ (fetchConts P n (takeLine 1007 s).2).1) ++ (fetchConts P n (takeLine 1007 s).2).2.1 := by
      rw [List.append_assoc, ← hf.1]; exact h1
    have hnl' : (0x0A : Byte) ∉ lineBuf s ++ (fetchConts P n (takeLine 1007 s).2).1 := by
      intro hm
      rcases List.mem_append.1 hm with hm | hm
      · exact hnl hm
      · rcases hf.2.2 _ hm with h | h
        · revert h; decide
        · revert h; decide
    refine ⟨by simpa [Chunk.full] using hs', fun cs hcs => ?_, ?_⟩
    · rcases h3 with ⟨l, hl, _⟩ | ⟨_, hlen | hend⟩
      · rw [hl] at hnl; simp at hnl
      · have := Chunks.piece _ _ cs hnl' (by simp; omega) (by have := hf.2.1; simp; omega) hcs
        rw [← hs'] at this
        exact this
      · have hz : fetchConts P n [] = ([], [], false) := by cases n <;> rfl
        rw [hend, hz] at hcs
        obtain rfl := chunks_nil hcs
        rw [hend, hz]
        rw [hend, List.append_nil] at h1
        simp only [List.append_nil]
        rw [← h1]
        refine .last s ?_ hne ?_
        · rw [h1]; exact hnl
        · rw [h1]; exact h2
    · have hl : 0 < (lineBuf s).length := by
        cases hx : lineBuf s with
        | nil => exact absurd hx hpos
        | cons a b => simp
      have h1' := congrArg List.length hs'
      rw [List.length_append, List.length_append] at h1'
      omega

/-- The loop on NUL-free input; `I` and `C` as above. -/
theorem inlineLoop_ret {P : Platform} {o : Options} {I C : Bytes → Prop}
    (step : ∀ s t nl w rest, s ≠ [] → I s → nextChunk P s = .ok (t, nl, w, rest) → C t ∧ I rest) :
    ∀ (n : Nat) (s : Bytes) (tr : List Event), NulFree s → I s → Trace (inlineLoop P o n s) tr (.ret ()) →
    ∃ cs, Chunks s cs ∧ s = cs.flatMap Chunk.full ∧ (∀ c ∈ cs, C c.1) ∧ CleanedChunks P o cs (outText tr)
  | _, [], tr, _, _, h => by
    simp only [inlineLoop] at h
    cases h
    exact ⟨[], .nil, rfl, by simp, .nil⟩
  | 0, _ :: _, tr, _, _, h => by simp only [inlineLoop] at h; cases h
  | n + 1, c :: s, tr, hs, hI, h => by
    simp only [inlineLoop] at h
    obtain ⟨r, hr, h'⟩ := trace_ofRes_bind h
    obtain ⟨t, nl, w, rest⟩ := r
    obtain ⟨g1, g2, g3⟩ := nextChunk_chunk hs (by simp) hr
    obtain ⟨hC, hI'⟩ := step _ _ _ _ _ (by simp) hI hr
    have hrest : NulFree rest := by rw [g1, nulFree_append] at hs; exact hs.2
    have done : ∀ tr, Trace (printChunk P o t nl (inlineLoop P o n rest)) tr (.ret ()) →
        ∃ cs, Chunks (c :: s) cs ∧ c :: s = cs.flatMap Chunk.full ∧ (∀ c ∈ cs, C c.1) ∧ CleanedChunks P o cs (outText tr) := by
      intro tr h
      obtain ⟨x, tr', hx, ht, ho⟩ := printChunk_ret h
      obtain ⟨cs, hc1, hc2, hc3, hc4⟩ := inlineLoop_ret step n rest tr' hrest hI' ht
      refine ⟨_, g2 cs hc1, ?_, ?_, by rw [ho]; exact .cons _ _ _ _ _ hx hc4⟩
      · rw [List.flatMap_cons, ← hc2]; exact g1
      · intro d hd
        rcases List.mem_cons.1 hd with rfl | hd
        · exact hC
        · exact hc3 d hd
    cases w with
    | false => exact done tr h'
    | true =>
      simp only [if_true] at h'
      cases h' with
      | err _ _ tr1 _ h1 => exact done tr1 h1

/-! ### C41 -/

/-- **C41.** Inline mode loses no byte of NUL-free input: the chunks it cleans make up the input, and what it prints is each of
them cleaned, with newlines where they were. -/
theorem C41_inline_loses_nothing (P : Platform) (o : Options) (path : Option Bytes) (s : Bytes) (hs : NulFree s)
    (tr : List Event) (ht : Trace (parseInline P o path) (.slurp path (some s) :: tr) (.ret ())) :
    ∃ cs, Chunks s cs ∧ s = cs.flatMap Chunk.full ∧ CleanedChunks P o cs (outText tr) := by
  cases ht with
  | slurp _ _ _ _ _ ht =>
    obtain ⟨cs, h1, h2, _, h3⟩ := inlineLoop_ret (I := fun _ => True) (C := fun _ => True) (fun _ _ _ _ _ _ _ _ => ⟨trivial, trivial⟩)
      _ _ _ hs trivial ht
    exact ⟨cs, h1, h2, h3⟩

/-! ### C38 -/

theorem newline_split {l l' r r' : Bytes} (h : l ++ [0x0A] ++ r = l' ++ [0x0A] ++ r') (hl : (0x0A : Byte) ∉ l)
    (hl' : (0x0A : Byte) ∉ l') : l = l' ∧ r = r' := by
  induction l generalizing l' with
  | nil =>
    cases l' with
    | nil => simpa using h
    | cons x l' => simp at h; simp [h.1] at hl'
  | cons y l ih =>
    cases l' with
    | nil => simp at h; simp [h.1] at hl
    | cons x l' =>
      simp only [List.cons_append, List.cons.injEq] at h
      obtain ⟨e1, e2⟩ := ih h.2 (fun hm => hl (List.mem_cons_of_mem _ hm)) (fun hm => hl' (List.mem_cons_of_mem _ hm))
      exact ⟨by rw [h.1, e1], e2⟩

/-- The chunks of a text with short lines are its lines. -/
theorem chunks_lines : ∀ (ls : List Bytes) (tl : Bytes) (cs : List Chunk), (∀ l ∈ ls, (0x0A : Byte) ∉ l ∧ l.length < 1007) →
    (0x0A : Byte) ∉ tl → tl.length < 1007 → Chunks (ls.flatMap (· ++ [0x0A]) ++ tl) cs →
    cs = ls.map (·, true) ++ (if tl = [] then [] else [(tl, false)])
  | [], tl, cs, _, h1, h2, h => by
    simp only [List.flatMap_nil, List.nil_append] at h
    cases h with
    | nil => rfl
    | line l rest cs _ _ _ => simp at h1
    | piece l rest cs _ _ _ _ => simp at h2; omega
    | last _ _ hne _ => simp [hne]
  | l :: ls, tl, cs, hls, h1, h2, h => by
    simp only [List.flatMap_cons, List.append_assoc] at h
    obtain ⟨g1, g2⟩ := hls l (by simp)
    generalize hs : l ++ ([0x0A] ++ (ls.flatMap (· ++ [0x0A]) ++ tl)) = s at h
    have hmem : (0x0A : Byte) ∈ s := by rw [← hs]; simp
    cases h with
    | nil => simp at hmem
    | line l' rest cs' k1 _ k3 =>
      rw [← List.append_assoc] at hs
      obtain ⟨rfl, rfl⟩ := newline_split hs g1 k1
      have := chunks_lines ls tl cs' (fun x hx => hls x (List.mem_cons_of_mem _ hx)) h1 h2 k3
      rw [this]; rfl
    | piece l' rest cs' k1 k2 _ _ =>
      exfalso
      rcases List.append_eq_append_iff.1 hs with ⟨a, ha1, ha2⟩ | ⟨a, ha1, ha2⟩
      · cases a with
        | nil => rw [ha1] at k2; simp at k2; omega
        | cons x a =>
          simp at ha2
          rw [ha1, ← ha2.1] at k1
          simp at k1
      · have := congrArg List.length ha1
        simp at this; omega
    | last _ k1 _ _ => exact absurd hmem k1

/-- **C38.** Input with lines shorter than 1007 bytes is filtered line by line. -/
theorem C38_inline_filters_line_by_line (P : Platform) (o : Options) (path : Option Bytes) (ls : List Bytes) (tl : Bytes)
    (hls : ∀ l ∈ ls, (0x0A : Byte) ∉ l ∧ l.length < 1007 ∧ NulFree l) (h1 : (0x0A : Byte) ∉ tl) (h2 : tl.length < 1007)
    (h3 : NulFree tl) (tr : List Event)
    (ht : Trace (parseInline P o path) (.slurp path (some (ls.flatMap (· ++ [0x0A]) ++ tl)) :: tr) (.ret ())) :
    CleanedChunks P o (ls.map (·, true) ++ (if tl = [] then [] else [(tl, false)])) (outText tr) := by
  have hnf : NulFree (ls.flatMap (· ++ [0x0A]) ++ tl) := by
    rw [nulFree_append]
    refine ⟨fun hm => ?_, h3⟩
    obtain ⟨l, hl, hm⟩ := List.mem_flatMap.1 hm
    rcases List.mem_append.1 hm with hm | hm
    · exact (hls l hl).2.2 hm
    · revert hm; decide
  obtain ⟨cs, g1, _, g3⟩ := C41_inline_loses_nothing P o path _ hnf tr ht
  rw [← chunks_lines ls tl cs (fun l hl => ⟨(hls l hl).1, (hls l hl).2.1⟩) h1 h2 g1]
  exact g3

/-- The same with a function: what is printed is the cleaned lines, each with its newline. -/
theorem C38_inline_output (P : Platform) (o : Options) (path : Option Bytes) (ls : List Bytes) (clean : Bytes → Bytes)
    (hls : ∀ l ∈ ls, (0x0A : Byte) ∉ l ∧ l.length < 1007 ∧ NulFree l)
    (hc : ∀ l ∈ ls, l ≠ lit "." → l ≠ lit ".." → sequenceRunFilters P o.sequenceToUse (some l) = .ok (some (clean l)))
    (tr : List Event) (ht : Trace (parseInline P o path) (.slurp path (some (ls.flatMap (· ++ [0x0A]))) :: tr) (.ret ())) :
    outText tr = ls.flatMap fun l => (if l = lit "." ∨ l = lit ".." then l else clean l) ++ [0x0A] := by
  have h := C38_inline_filters_line_by_line P o path ls [] hls (by simp) (by decide) (by simp [NulFree]) tr (by simpa using ht)
  simp only [if_true, List.append_nil] at h
  generalize outText tr = out at h
  clear ht
  induction ls generalizing out with
  | nil => cases h; rfl
  | cons l ls ih =>
    simp only [List.map_cons] at h
    cases h with
    | cons _ c _ _ out' hl hr =>
      rw [List.flatMap_cons, ← ih (fun x hx => hls x (List.mem_cons_of_mem _ hx)) (fun x hx => hc x (List.mem_cons_of_mem _ hx)) _ hr]
      congr 1
      rcases hl with ⟨hd, rfl⟩ | ⟨hd, hr⟩
      · rw [if_pos hd]; simp [Chunk.full]
      · rw [if_neg hd]
        rw [hc l (by simp) (fun e => hd (.inl e)) (fun e => hd (.inr e))] at hr
        cases hr
        simp [Chunk.full]

/-- **C32**, inline mode: lines `.` and `..` are printed as they are, whatever the lines before and after them. -/
theorem C32_inline_prints_dots (P : Platform) (o : Options) (path : Option Bytes) (before after : List Bytes) (l : Bytes)
    (hl : l = lit "." ∨ l = lit "..") (hls : ∀ l ∈ before ++ after, (0x0A : Byte) ∉ l ∧ l.length < 1007 ∧ NulFree l)
    (tr : List Event)
    (ht : Trace (parseInline P o path) (.slurp path (some ((before ++ l :: after).flatMap (· ++ [0x0A]))) :: tr) (.ret ())) :
    ∃ text text', CleanedChunks P o (before.map (·, true)) text ∧ CleanedChunks P o (after.map (·, true)) text' ∧
      outText tr = text ++ (l ++ [0x0A]) ++ text' := by
  have h := C38_inline_filters_line_by_line P o path (before ++ l :: after) [] ?_ (by simp) (by decide) (by simp [NulFree]) tr
    (by rw [List.append_nil]; exact ht)
  · rw [if_pos rfl, List.append_nil, List.map_append, List.map_cons] at h
    clear ht hls
    generalize outText tr = out at h
    induction before generalizing out with
    | nil =>
      rw [List.map_nil, List.nil_append] at h
      cases h with
      | cons _ c _ _ text' h1 h2 =>
        refine ⟨[], text', .nil, h2, ?_⟩
        rcases h1 with ⟨_, rfl⟩ | ⟨h1, _⟩
        · rfl
        · exact absurd hl h1
    | cons b before ih =>
      rw [List.map_cons, List.cons_append] at h
      cases h with
      | cons _ c _ _ out' h1 h2 =>
        obtain ⟨text, text', h3, h4, rfl⟩ := ih _ h2
        exact ⟨_, text', .cons _ _ _ _ _ h1 h3, h4, by simp⟩
  · intro x hx
    rcases List.mem_append.1 hx with hx | hx
    · exact hls x (List.mem_append_left _ hx)
    · rcases List.mem_cons.1 hx with rfl | hx
      · rcases hl with rfl | rfl <;> decide
      · exact hls x (List.mem_append_right _ hx)

/-! ### C40 -/

theorem backOut_iff {s : Bytes} (hne : s ≠ []) : BackOut s ↔ BadBuf (lineBuf s) := by
  obtain ⟨h1, h2, h3⟩ := takeLine_spec 1007 s
  have hic : ∀ c : Byte, (0x80 ≤ c.toNat ∧ c.toNat < 0xC0) ↔ isUtf8Cont c = true := forall_byte (by decide +kernel)
  constructor
  · rintro ⟨p, r, rfl, hp5, hp, hr⟩
    have hnl : (0x0A : Byte) ∉ p := fun hm => by have := hp _ hm; revert this; decide
    have hnul : NulFree p := fun hm => by have := hp _ hm; revert this; decide
    have key : lineBuf (p ++ r) = p := by
      have hcut : ∀ (p : Bytes) (n : Nat), p.length ≤ 5 → p.length < n → (0x0A : Byte) ∉ p → NulFree p →
          cstr (takeLine n (p ++ r)).1 = p := by
        intro p
        induction p with
        | nil =>
          intro n _ hn _ _
          rcases hr with rfl | hr
          · cases n <;> simp [takeLine, cstr]
          · cases r with
            | nil => simp at hr
            | cons x r =>
              simp at hr
              subst hr
              cases n with
              | zero => simp at hn
              | succ n => simp [takeLine, cstr]
        | cons x p ih =>
          intro n h5 hn hnl hnul
          cases n with
          | zero => simp at hn
          | succ n =>
            simp at hnl
            rw [nulFree_cons] at hnul
            have := ih n (by simp at h5; omega) (by simp at hn; omega) hnl.2 hnul.2
            simp only [List.cons_append, takeLine]
            rw [if_neg (Ne.symm hnl.1)]
            simp only [cstr] at this ⊢
            rw [List.takeWhile_cons_of_pos (by simpa using hnul.1), this]
      exact hcut p 1007 hp5 (by omega) hnl hnul
    rw [key]
    exact ⟨hnl, hp5, fun c hc => (hic c).1 (hp c hc)⟩
  · rintro ⟨b1, b2, b3⟩
    have hsplit : ∀ l : Bytes, ∃ r, l = cstr l ++ r ∧ (r = [] ∨ r.head? = some 0) := by
      intro l
      induction l with
      | nil => exact ⟨[], rfl, .inl rfl⟩
      | cons x l ih =>
        by_cases hx : x = 0
        · subst hx; exact ⟨0 :: l, by simp [cstr], .inr rfl⟩
        · obtain ⟨r, hr, hr'⟩ := ih
          refine ⟨r, ?_, hr'⟩
          simp only [cstr] at hr ⊢
          rw [List.takeWhile_cons_of_pos (by simpa using hx), List.cons_append, ← hr]
    obtain ⟨r, hr, hr'⟩ := hsplit (takeLine 1007 s).1
    refine ⟨lineBuf s, r ++ (takeLine 1007 s).2, ?_, b2, fun c hc => (hic c).2 (b3 c hc), ?_⟩
    · rw [← List.append_assoc]
      unfold lineBuf
      rw [← hr]; exact h1
    · rcases hr' with rfl | hr'
      · simp only [List.append_nil] at hr
        rw [List.nil_append]
        rcases h3 with ⟨l, hl, _⟩ | ⟨_, h | h⟩
        · exfalso
          apply b1
          unfold lineBuf
          rw [← hr, hl]; simp
        · exfalso
          unfold lineBuf at b2
          rw [← hr, h] at b2
          omega
        · exact .inl h
      · right
        cases r with
        | nil => simp at hr'
        | cons x r => simpa using hr'

/-- **C40**, exactly: a round leaves its buffer if and only if what is left of the input begins with at most five continuation
bytes followed by the end or a NUL byte, and then it reads before the beginning; it never writes outside. -/
theorem C40_round_leaves_buffer_iff (P : Platform) (s : Bytes) (hne : s ≠ []) (u : UB) :
    nextChunk P s = .ub u ↔ u = .oobRead ∧ BackOut s := by
  rw [backOut_iff hne]
  rcases nextChunk_cases P s with ⟨hb, hx⟩ | ⟨hb, ⟨_, hx⟩ | ⟨_, n, _, _, _, hx⟩⟩
  · rw [hx]
    exact ⟨fun h => by cases h; exact ⟨rfl, hb⟩, fun h => by rw [h.1]⟩
  · rw [hx]
    exact ⟨fun h => (by cases h), fun h => absurd h.2 hb⟩
  · rw [hx]
    exact ⟨fun h => (by cases h), fun h => absurd h.2 hb⟩

theorem nextChunk_fails {P : Platform} {s : Bytes} (hne : s ≠ []) {oc : Outcome Unit} (h : FailsAs (nextChunk P s) oc) :
    oc = .ub .oobRead ∧ BackOut s := by
  rcases nextChunk_cases P s with ⟨hb, hx⟩ | ⟨hb, ⟨_, hx⟩ | ⟨_, n, _, _, _, hx⟩⟩
  · rw [hx] at h
    cases h
    exact ⟨rfl, (backOut_iff hne).2 hb⟩
  · rw [hx] at h; cases h
  · rw [hx] at h; cases h

theorem chunkWork_never_fails {P : Platform} (hP : P.Benign) {o : Options} {q : Sequence} (hq : o.sequenceToUse = some q)
    (hr : ∀ f ∈ q.filters, f.Ready) {t : Bytes} (ht : NulFree t) {oc : Outcome Unit}
    (h : FailsAs (sequenceRunFilters P o.sequenceToUse (chunkWork t)) oc) : False := by
  unfold chunkWork at h
  split at h
  · rw [hq] at h
    cases h
  · obtain ⟨out, ho, _⟩ := C18_cleaning_returns_a_name P hP q hr t ht
    rw [hq, ho] at h
    cases h

/-- **C40** (partial: the reads before the buffer do happen, see the witnesses). With filters that are in bounds, the only
thing that can go wrong on any input whatsoever is the read before the buffer, and it needs `BackOut`. -/
theorem C40_inline_only_reads_before_its_buffer_partial (P : Platform) (hP : P.Benign) (o : Options) (q : Sequence)
    (hq : o.sequenceToUse = some q) (hr : ∀ f ∈ q.filters, f.Ready) (path : Option Bytes) (s : Bytes) (tr : List Event)
    (oc : Outcome Unit) (ht : Trace (parseInline P o path) (.slurp path (some s) :: tr) oc) :
    oc = .running ∨ oc = .ret () ∨ (oc = .ub .oobRead ∧ ∃ pre s', s = pre ++ s' ∧ s' ≠ [] ∧ BackOut s') := by
  cases ht with
  | slurp _ _ _ _ _ ht =>
    rcases inlineLoop_any (I := fun _ => True) (C := fun _ => True) (fun _ _ _ _ _ _ _ _ => ⟨trivial, trivial⟩)
      _ _ _ _ (Nat.le_refl _) trivial ht with h | h | ⟨pre, s', e1, e2, _, h | ⟨t, _, hnf, h⟩⟩
    · exact .inl h
    · exact .inr (.inl h)
    · obtain ⟨h1, h2⟩ := nextChunk_fails e2 h
      exact .inr (.inr ⟨h1, pre, s', e1, e2, h2⟩)
    · exact (chunkWork_never_fails hP hq hr hnf h).elim

/-- **C40**, for text: NUL-free input whose last byte is not a continuation byte (so in particular input that ends in a newline)
stays in the buffer. -/
theorem C40_text_stays_in_the_buffer (P : Platform) (hP : P.Benign) (o : Options) (q : Sequence)
    (hq : o.sequenceToUse = some q) (hr : ∀ f ∈ q.filters, f.Ready) (path : Option Bytes) (s : Bytes) (hs : NulFree s)
    (hlast : ∀ c, s.getLast? = some c → ¬ (0x80 ≤ c.toNat ∧ c.toNat < 0xC0)) (tr : List Event)
    (oc : Outcome Unit) (ht : Trace (parseInline P o path) (.slurp path (some s) :: tr) oc) :
    oc = .running ∨ oc = .ret () := by
  rcases C40_inline_only_reads_before_its_buffer_partial P hP o q hq hr path s tr oc ht with h | h | ⟨_, pre, s', e1, e2, p, r, e3, _, hp, hr'⟩
  · exact .inl h
  · exact .inr h
  · exfalso
    have hrn : r = [] := by
      rcases hr' with h | h
      · exact h
      · exfalso
        apply hs
        rw [e1, e3]
        cases r with
        | nil => simp at h
        | cons x r => simp at h; simp [h]
    subst hrn
    rw [List.append_nil] at e3
    subst e3
    have hl : s.getLast? = some (s'.getLast e2) := by
      rw [e1, List.getLast?_append, List.getLast?_eq_some_getLast e2]; rfl
    exact hlast _ hl (hp _ (List.getLast_mem e2))

/-- **C40** is false as stated: a NUL byte at the start of a line makes inline mode read before its buffer... -/
theorem C40_nul_reads_before_the_buffer :
    Trace (parseInline .linux defaultOptions none) [.slurp none (some [0x00, 0x0A])] (.ub .oobRead) :=
  Prog.final_sound _ _ _ (by decide +kernel)

/-- ... and so does a lone continuation byte without a newline, which is what is left of `é` cut after its first byte... -/
theorem C40_continuation_byte_reads_before_the_buffer :
    Trace (parseInline .linux defaultOptions none) [.slurp none (some [0x80])] (.ub .oobRead) :=
  Prog.final_sound _ _ _ (by decide +kernel)

/-- ... also after text that is fine. -/
theorem C40_reads_before_the_buffer_later :
    ∃ tr, Trace (parseInline .linux defaultOptions none) (.slurp none (some (lit "a b\n" ++ [0x00, 0x0A])) :: tr) (.ub .oobRead) ∧
      outText tr = lit "a_b\n" :=
  ⟨[.out (lit "a_b"), .out (lit "\n")], Prog.final_sound _ _ _ (by decide +kernel), by decide +kernel⟩

/- Non-vacuous: a complete run over two lines and an unfinished third, with `.` left alone. -/
example : Trace (parseInline .linux defaultOptions none)
    [.slurp none (some (lit "a b\n.\nc d")), .out (lit "a_b"), .out (lit "\n"), .out (lit "."), .out (lit "\n"), .out (lit "c_d")]
    (.ret ()) := Prog.result_sound _ _ _ (by decide +kernel)

/-- **C41** needs NUL-free input: the rest of a line after a NUL byte is lost, and the newline with it. -/
theorem C41_nul_loses_the_rest_of_the_line : ∃ tr, Trace (parseInline .linux defaultOptions none)
    (.slurp none (some (lit "a" ++ [0] ++ lit "b\nc\n")) :: tr) (.ret ()) ∧ outText tr = lit "ac\n" :=
  ⟨[.out (lit "a"), .out (lit "c"), .out (lit "\n")], Prog.result_sound _ _ _ (by decide +kernel), by decide +kernel⟩

/-! ### C39 -/

/-- A cut through valid UTF-8 falls between two characters or inside one. -/
theorem validUtf8_cut : ∀ (cps : List Nat) (a b : Bytes), (∀ cp ∈ cps, Scalar cp) → cps.flatMap encode = a ++ b →
    (ValidUtf8 a ∧ ValidUtf8 b) ∨
    ∃ pre cp post u1 u2, (∀ x ∈ pre ++ cp :: post, Scalar x) ∧ encode cp = u1 ++ u2 ∧ u1 ≠ [] ∧ u2 ≠ [] ∧
      a = pre.flatMap encode ++ u1 ∧ b = u2 ++ post.flatMap encode
  | [], a, b, _, h => by
    have h' := List.append_eq_nil_iff.1 h.symm
    rw [h'.1, h'.2]
    exact .inl ⟨⟨[], by simp, rfl⟩, ⟨[], by simp, rfl⟩⟩
  | cp :: cps, a, b, hs, h => by
    rw [List.flatMap_cons] at h
    have hs' : ∀ x ∈ cps, Scalar x := fun x hx => hs x (List.mem_cons_of_mem _ hx)
    rcases List.append_eq_append_iff.1 h with ⟨x, hx1, hx2⟩ | ⟨x, hx1, hx2⟩
    · -- the cut is behind the first character
      rcases validUtf8_cut cps x b hs' hx2 with ⟨⟨ca, h1, h2⟩, hb⟩ | ⟨pre, c', post, u1, u2, g1, g2, g3, g4, g5, g6⟩
      · refine .inl ⟨⟨cp :: ca, ?_, by rw [hx1, h2, List.flatMap_cons]⟩, hb⟩
        intro y hy
        rcases List.mem_cons.1 hy with rfl | hy
        · exact hs y (by simp)
        · exact h1 y hy
      · refine .inr ⟨cp :: pre, c', post, u1, u2, ?_, g2, g3, g4, by rw [hx1, g5, List.flatMap_cons, List.append_assoc], g6⟩
        intro y hy
        rcases List.mem_cons.1 hy with rfl | hy
        · exact hs y (by simp)
        · exact g1 y hy
    · by_cases ha : a = []
      · subst ha
        refine .inl ⟨⟨[], by simp, rfl⟩, ⟨cp :: cps, hs, ?_⟩⟩
        rw [List.flatMap_cons]; exact h.symm
      · by_cases hxe : x = []
        · subst hxe
          simp only [List.append_nil, List.nil_append] at hx1 hx2
          exact .inl ⟨⟨[cp], fun y hy => by simp at hy; rw [hy]; exact hs cp (by simp), by simp [hx1]⟩, ⟨cps, hs', hx2⟩⟩
        · exact .inr ⟨[], cp, cps, a, x, hs, hx1, ha, hxe, by simp, hx2⟩

theorem scalar_le {cp : Nat} (h : Scalar cp) : cp ≤ 0x10FFFF := by unfold Scalar at h; omega

/-- The first byte of valid UTF-8 begins a character. -/
theorem validUtf8_head {c : Byte} {s : Bytes} (h : ValidUtf8 (c :: s)) : ∃ w b, leadOf c = some (w, b) := by
  obtain ⟨cps, h1, h2⟩ := h
  cases cps with
  | nil => cases h2
  | cons cp cps =>
    obtain ⟨x, conts, w, b, e1, e2, _⟩ := encode_unit (scalar_le (h1 cp (by simp)))
    rw [List.flatMap_cons, e1, List.cons_append] at h2
    cases h2
    exact ⟨w, b, e2⟩

theorem lead_facts : ∀ c : Byte, leadOf c ≠ none → isUtf8Cont c = false ∧ c ≠ 0xFF := forall_byte (by decide +kernel)

theorem fetchConts_lead (P : Platform) (n : Nat) {s : Bytes} (h : ValidUtf8 s) : fetchConts P n s = ([], s, false) := by
  cases n with
  | zero => rfl
  | succ n =>
    cases s with
    | nil => rfl
    | cons c s =>
      obtain ⟨w, b, hw⟩ := validUtf8_head h
      obtain ⟨h1, h2⟩ := lead_facts c (by simp [hw])
      simp [fetchConts, h1, h2]

/-- The parts of a character that is cut in two. -/
theorem unit_cut {u1 u2 : Bytes} {v : Nat} (h : IsUnit (u1 ++ u2) v) (h1 : u1 ≠ []) (h2 : u2 ≠ []) :
    ∃ lead conts, u1 = lead :: conts ∧ isUtf8Cont lead = false ∧ (∀ c ∈ conts, isUtf8Cont c = true) ∧ conts.length ≤ 5 ∧
      (∀ c ∈ u2, isUtf8Cont c = true) ∧ lacking lead conts.length = u2.length ∧ 0x80 ≤ lead.toNat := by
  obtain ⟨c, cs, w, b, e1, e2, e3, e4, _⟩ := h
  cases u1 with
  | nil => exact absurd rfl h1
  | cons x conts =>
    rw [List.cons_append] at e1
    injection e1 with e1a e1b
    subst e1a
    subst e1b
    obtain ⟨w1, w2, w3⟩ := leadOf_width _ _ _ e2
    have hu2 : 0 < u2.length := by cases u2 with | nil => exact absurd rfl h2 | cons => simp
    have hlen : (conts ++ u2).length = conts.length + u2.length := List.length_append
    have hst : ∀ c : Byte, (0x80 ≤ c.toNat ∧ leadOf c ≠ none) → isUtf8Start c = true := forall_byte (by decide +kernel)
    have h80 : 0x80 ≤ x.toNat := by
      apply Nat.le_of_not_lt
      intro hlt
      have := w3.1 hlt
      omega
    refine ⟨x, conts, rfl, (lead_facts x (by simp [e2])).1, fun c hc => ?_, by omega, fun c hc => ?_, ?_, h80⟩
    · rw [isUtf8Cont_eq]; exact e4 c (List.mem_append_left _ hc)
    · rw [isUtf8Cont_eq]; exact e4 c (List.mem_append_right _ hc)
    · unfold lacking
      rw [if_pos (hst x ⟨h80, by simp [e2]⟩), utf8Width_eq, e2]
      simp only [Option.map_some, Option.getD_some]
      omega

theorem validUtf8_drop_newline {l : Bytes} (h : ValidUtf8 (l ++ [0x0A])) : ValidUtf8 l := by
  obtain ⟨cps, h1, h2⟩ := h
  rcases validUtf8_cut cps l [0x0A] h1 h2.symm with ⟨h, _⟩ | ⟨pre, cp, post, u1, u2, g1, g2, g3, g4, g5, g6⟩
  · exact h
  · exfalso
    have hu := encode_unit (scalar_le (g1 cp (by simp)))
    rw [g2] at hu
    obtain ⟨_, _, _, _, _, _, hc, _⟩ := unit_cut hu g3 g4
    cases u2 with
    | nil => exact absurd rfl g4
    | cons x u2 =>
      rw [List.cons_append] at g6
      have := hc x (by simp)
      have hx : x = 0x0A := by injection g6 with g6; exact g6.symm
      rw [hx] at this
      revert this; decide

/-- A round on valid UTF-8 input takes off a chunk of valid UTF-8 and leaves valid UTF-8, without leaving the buffer. -/
theorem nextChunk_utf8 (P : Platform) {s : Bytes} (hne : s ≠ []) (hs : NulFree s) (hv : ValidUtf8 s) :
    ∃ t nl rest, nextChunk P s = .ok (t, nl, false, rest) ∧ ValidUtf8 t ∧ ValidUtf8 rest := by
  obtain ⟨h1, h2, h3⟩ := takeLine_spec 1007 s
  have hb := lineBuf_nulFree hs
  have hpos := takeLine_pos (n := 1007) (by omega) hne
  rw [← hb] at h1 h2 h3 hpos
  have hv' := hv
  obtain ⟨cps, c1, c2⟩ := hv
  have hcut := validUtf8_cut cps _ _ c1 (c2.symm.trans h1)
  rcases nextChunk_cases P s with ⟨hbad, hx⟩ | ⟨_, ⟨hnl, hx⟩ | ⟨hnl, n, hn5, _, hn, hx⟩⟩
  · exfalso
    cases hl : lineBuf s with
    | nil => exact hpos hl
    | cons c l =>
      rw [hl, List.cons_append] at h1
      rw [h1] at hv'
      obtain ⟨w, b, hw⟩ := validUtf8_head hv'
      have := hbad.2.2 c (by rw [hl]; simp)
      rw [(lead_facts c (by simp [hw])).1] at this
      cases this
  · rcases h3 with ⟨l, hl, hln⟩ | ⟨hno, _⟩
    · rw [hl, cutNewline_last hln] at hx
      rcases hcut with ⟨ha, hr⟩ | ⟨pre, cp, post, u1, u2, g1, g2, g3, g4, g5, g6⟩
      · refine ⟨_, _, _, hx, ?_, hr⟩
        rw [hl] at ha
        exact validUtf8_drop_newline ha
      · exfalso
        have hu := encode_unit (scalar_le (g1 cp (by simp)))
        rw [g2] at hu
        obtain ⟨lead, conts, e1, e2, e3, _, _, _, e4⟩ := unit_cut hu g3 g4
        rw [hl, e1] at g5
        -- the last byte of the cut is the newline
        have hlast : (l ++ [0x0A]).getLast? = (List.flatMap encode pre ++ lead :: conts).getLast? := by rw [g5]
        rw [List.getLast?_append, List.getLast?_append] at hlast
        simp only [List.getLast?_singleton, Option.some_or] at hlast
        have hmem : (0x0A : Byte) ∈ lead :: conts := by
          apply List.mem_of_getLast? (a := (0x0A : Byte))
          rw [List.getLast?_eq_some_getLast (List.cons_ne_nil _ _)] at hlast ⊢
          exact hlast.symm
        rcases List.mem_cons.1 hmem with h | h
        · rw [← h] at e4; revert e4; decide
        · have := e3 _ h; revert this; decide
    · exact absurd hnl hno
  · rcases hcut with ⟨ha, hr⟩ | ⟨pre, cp, post, u1, u2, g1, g2, g3, g4, g5, g6⟩
    · rw [fetchConts_lead P n hr] at hx
      exact ⟨_, _, _, hx, by rw [List.append_nil]; exact ha, hr⟩
    · have hu := encode_unit (scalar_le (g1 cp (by simp)))
      rw [g2] at hu
      obtain ⟨lead, conts, e1, e2, e3, e5, e6, e7, _⟩ := unit_cut hu g3 g4
      have := hn (pre.flatMap encode) lead conts (by rw [g5, e1]) e2 e3 e5
      rw [this, e7, g6, fetchConts_conts P _ u2 e6] at hx
      refine ⟨_, _, _, hx, ⟨pre ++ [cp], fun x hx => g1 x ?_, ?_⟩, ⟨post, fun x hx => g1 x ?_, rfl⟩⟩
      · rcases List.mem_append.1 hx with h | h
        · exact List.mem_append_left _ h
        · simp at h; rw [h]; simp
      · rw [g5, List.append_assoc, ← g2]; simp
      · simp [hx]

theorem nextChunk_utf8_step (P : Platform) (s t : Bytes) (nl w : Bool) (rest : Bytes) (hne : s ≠ [])
    (hI : NulFree s ∧ ValidUtf8 s) (h : nextChunk P s = .ok (t, nl, w, rest)) : ValidUtf8 t ∧ NulFree rest ∧ ValidUtf8 rest := by
  obtain ⟨t', nl', rest', h', g1, g2⟩ := nextChunk_utf8 P hne hI.1 hI.2
  rw [h'] at h
  cases h
  refine ⟨g1, ?_, g2⟩
  obtain ⟨_, pre, hpre, _⟩ := nextChunk_progress hne h'
  have := hI.1
  rw [hpre, nulFree_append] at this
  exact this.2

/-- **C39.** Valid UTF-8 is cut into chunks of valid UTF-8, whatever the lengths of the lines. -/
theorem C39_inline_never_splits_a_character (P : Platform) (o : Options) (path : Option Bytes) (s : Bytes) (hs : NulFree s)
    (hv : ValidUtf8 s) (tr : List Event) (ht : Trace (parseInline P o path) (.slurp path (some s) :: tr) (.ret ())) :
    ∃ cs, s = cs.flatMap Chunk.full ∧ (∀ c ∈ cs, ValidUtf8 c.1) ∧ Chunks s cs ∧ CleanedChunks P o cs (outText tr) := by
  cases ht with
  | slurp _ _ _ _ _ ht =>
    obtain ⟨cs, h1, h2, h3, h4⟩ := inlineLoop_ret (I := fun s => NulFree s ∧ ValidUtf8 s) (C := ValidUtf8) (nextChunk_utf8_step P)
      _ _ _ hs ⟨hs, hv⟩ ht
    exact ⟨cs, h2, h3, h1, h4⟩

/-- **C39** and **C40**: on valid UTF-8 without NUL bytes inline mode stays inside its buffer and does its job. -/
theorem C39_inline_is_safe_on_utf8 (P : Platform) (hP : P.Benign) (o : Options) (q : Sequence)
    (hq : o.sequenceToUse = some q) (hr : ∀ f ∈ q.filters, f.Ready) (path : Option Bytes) (s : Bytes) (hs : NulFree s)
    (hv : ValidUtf8 s) (tr : List Event) (oc : Outcome Unit)
    (ht : Trace (parseInline P o path) (.slurp path (some s) :: tr) oc) : oc = .running ∨ oc = .ret () := by
  cases ht with
  | slurp _ _ _ _ _ ht =>
    rcases inlineLoop_any (I := fun s => NulFree s ∧ ValidUtf8 s) (C := ValidUtf8) (nextChunk_utf8_step P)
      _ _ _ _ (Nat.le_refl _) ⟨hs, hv⟩ ht with h | h | ⟨pre, s', e1, e2, e3, h | ⟨t, _, hnf, h⟩⟩
    · exact .inl h
    · exact .inr h
    · obtain ⟨t, nl, rest, hx, _⟩ := nextChunk_utf8 P e2 e3.1 e3.2
      rw [hx] at h
      cases h
    · exact (chunkWork_never_fails hP hq hr hnf h).elim

/- Non-vacuous: the 1007th byte is the first of `é`; the chunk gets the second one as well. -/
example : nextChunk .linux (List.replicate 1006 0x61 ++ lit "é\n") = .ok (List.replicate 1006 0x61 ++ lit "é", false, false, lit "\n") := by
  decide +kernel

/- And the same with byte FF in place of the second one, which cannot be pushed back where `char` is signed. -/
example : nextChunk .linux (List.replicate 1006 0x61 ++ [0xC3, 0xFF, 0x62]) =
    .ok (List.replicate 1006 0x61 ++ [0xC3, 0xFF], false, true, [0x62]) := by
  decide +kernel

end Detox
