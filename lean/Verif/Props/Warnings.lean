import Verif.Lemmas.Warnings
import Verif.Lemmas.CheckTable
import Verif.Props.MaxLength
import Verif.Props.Listing

/-!
# C89: the warnings
-/

set_option autoImplicit false

namespace Detox

open Spec

/-! ### The whole program -/

/-- **C89.** The program with its warnings does what the program of the other properties does: it makes the same system calls with the same
results, prints the same and ends the same; between these it prints warnings. `there` says which table files exist but cannot be opened. -/
theorem C89_main (there : Bytes → Bool) (P : Platform) (I : Invocation) (fuel : Nat) :
    (∀ tr' out, Trace (detoxMainLoud there P I fuel) tr' out → ∃ tr, Trace (detoxMain P I fuel) tr out ∧ Sprinkled tr tr') ∧
    (∀ tr out, Trace (detoxMain P I fuel) tr out → ∃ tr', Trace (detoxMainLoud there P I fuel) tr' out ∧ Sprinkled tr tr') :=
  ⟨fun _ _ h => (louder_main there P I fuel).trace h, fun _ _ h => (louder_main there P I fuel).trace_back h⟩

theorem trace_said {α : Type} {k : Prog α} {o : Outcome α} : ∀ {ms : List Bytes} {tr : List Event}, Trace (says ms k) tr o → o ≠ .running →
    ∃ t, tr = ms.map Event.err ++ t ∧ Trace k t o
  | [], tr, h, _ => ⟨tr, rfl, h⟩
  | m :: ms, tr, h, hn => by
    cases h with
    | stop => exact absurd rfl hn
    | err _ _ tr _ h =>
      obtain ⟨t, rfl, h2⟩ := trace_said h hn
      exact ⟨t, rfl, h2⟩

/-- **C89.** `parse_file` first prints what the filters have to say about the last part of the path, and nothing on `.` and `..`; then it does
its system calls. -/
theorem C89_parse_file {P : Platform} {o : Options} {f p : Bytes} {tr' : List Event} (h : Trace (parseFileLoud P o f) tr' (.ret p)) :
    ∃ ms tr, tr' = ms.map Event.err ++ tr ∧ Trace (parseFile P o f) tr (.ret p) ∧
      (isProtected (basePart f) = true → ms = []) ∧
      (isProtected (basePart f) = false → ∃ w, sequenceRunFiltersLoud P o.sequenceToUse (some (basePart f)) = (ms, .ok (some w))) := by
  unfold parseFileLoud at h
  obtain ⟨r, t1, t2, rfl, h1, h2⟩ := trace_bind_ret h
  obtain ⟨t, rfl, h3⟩ := trace_said h1 (by simp)
  rw [sequenceRunFiltersLoud_snd] at h3
  obtain ⟨rfl, hr⟩ := trace_ofRes_ret h3
  refine ⟨(sequenceRunFiltersLoud P o.sequenceToUse (if isProtected (basePart f) = true then none else some (basePart f))).1, t2, by simp, ?_, ?_, ?_⟩
  · unfold parseFile
    dsimp only
    rw [hr]
    exact h2
  · intro hp
    rw [hp, if_pos rfl] at hr ⊢
    cases hq : o.sequenceToUse with
    | none => rw [hq] at hr; cases hr
    | some q => rfl
  · intro hp
    rw [hp, if_neg (by simp)] at hr ⊢
    have : ∃ w, r = some w := by
      cases r with
      | some w => exact ⟨w, rfl⟩
      | none => exact absurd hr (sequence_not_none P _ _)
    obtain ⟨w, rfl⟩ := this
    exact ⟨w, Prod.ext rfl (by rw [sequenceRunFiltersLoud_snd]; exact hr)⟩

/-! ### `utf_8` -/

/-- **C89.** Every string falls into pieces in exactly one way. If `clean_utf_8` succeeds its warnings are the remarks about these pieces, in
order; in general they are the first of them. -/
theorem C89_utf8_warnings (t : Table) (s : Bytes) :
    ∃ ps ms, (∀ ps', Pieces s ps' ↔ ps' = ps) ∧ Remarks (fun v => tableGet t v ≠ none) ps ms ∧ (cleanUtf8Loud (some t) s).1 <+: ms ∧
      (∀ out, (cleanUtf8Loud (some t) s).2 = .ok out → (cleanUtf8Loud (some t) s).1 = ms) := by
  obtain ⟨ps, ms, h1, h2, h3, h4⟩ := utf8_messages t s.length (OutBuf.alloc (s.length * t.maxDataLength + 1)) s (Nat.le_refl _)
  refine ⟨ps, ms, fun ps' => ⟨fun h => pieces_unique h h1, fun h => h ▸ h1⟩, h2, ?_, ?_⟩
  · show (Said.bind (cleanUtf8LoopLoud t s.length (OutBuf.alloc (s.length * t.maxDataLength + 1)) s) _).1 <+: ms
    generalize cleanUtf8LoopLoud t s.length (OutBuf.alloc (s.length * t.maxDataLength + 1)) s = x at h3 ⊢
    obtain ⟨a, b⟩ := x
    cases b with
    | ok o => simpa [Said.bind] using h3
    | exit => exact h3
    | ub => exact h3
    | stuck => exact h3
  · show ∀ out, (Said.bind (cleanUtf8LoopLoud t s.length (OutBuf.alloc (s.length * t.maxDataLength + 1)) s) fun o => ([], o.finish)).2 = .ok out →
      (Said.bind (cleanUtf8LoopLoud t s.length (OutBuf.alloc (s.length * t.maxDataLength + 1)) s) fun o => ([], o.finish)).1 = ms
    generalize cleanUtf8LoopLoud t s.length (OutBuf.alloc (s.length * t.maxDataLength + 1)) s = x at h4 ⊢
    obtain ⟨a, b⟩ := x
    cases b with
    | ok o => intro out _; simpa [Said.bind] using h4 o rfl
    | exit => intro out h; cases h
    | ub => intro out h; cases h
    | stuck => intro out h; cases h

/-- **C89.** `clean_utf_8` says nothing exactly about strings of complete units, each of them in the table or neither 0 nor beyond U+10FFFF. -/
theorem C89_utf8_silence (t : Table) (s out : Bytes) (h : (cleanUtf8Loud (some t) s).2 = .ok out) :
    (cleanUtf8Loud (some t) s).1 = [] ↔ Units (fun _ v => tableGet t v ≠ none ∨ (v ≠ 0 ∧ v ≤ 0x10FFFF)) s := by
  obtain ⟨ps, ms, h1, h2, h6, h3⟩ := C89_utf8_warnings t s
  rw [h3 out h]
  clear h6
  have hp : Pieces s ps := (h1 ps).2 rfl
  constructor
  · rintro rfl
    clear h1 h3 h
    generalize hm : ([] : List Bytes) = ms at h2
    induction hp generalizing ms with
    | nil => exact .nil
    | unit u v rest ps hu _ ih =>
      cases h2 with
      | cons _ _ m ms hr hrs =>
        obtain ⟨h4, h5⟩ := List.append_eq_nil_iff.1 hm.symm
        subst h4
        refine .cons u v rest hu ?_ (ih _ h5.symm hrs)
        cases hr with
        | fine _ h => exact h
    | stray c rest ps _ _ ih => cases h2 with | cons _ _ m ms hr hrs => cases hr with | stray => cases hm
    | cutEnd => cases h2 with | cons _ _ m ms hr hrs => cases hr with | cutEnd => cases hm
    | cut => cases h2 with | cons _ _ m ms hr hrs => cases hr with | cut => cases hm
  · intro hu
    have : ∃ ps', Pieces s ps' ∧ Remarks (fun v => tableGet t v ≠ none) ps' [] := by
      clear h1 h2 h3 h hp
      induction hu with
      | nil => exact ⟨[], .nil, .nil⟩
      | cons u v rest hu hv _ ih =>
        obtain ⟨ps', h1, h2⟩ := ih
        exact ⟨_, .unit u v rest ps' hu h1, .cons _ _ [] [] (.fine v hv) h2⟩
    obtain ⟨ps', h4, h5⟩ := this
    rw [(h1 ps').1 h4] at h5
    exact remarks_unique h2 h5

/-- **C89.** There are no warnings about well-formed UTF-8 without NUL. -/
theorem C89_valid_utf8_is_fine (t : Table) (s : Bytes) (hs : ValidUtf8 s) (h0 : (0 : Byte) ∉ s) : (cleanUtf8Loud (some t) s).1 = [] := by
  obtain ⟨ps, ms, h1, h2, h3, h6⟩ := C89_utf8_warnings t s
  clear h6
  obtain ⟨cps, hc, rfl⟩ := hs
  have : ∃ ps', Pieces (cps.flatMap encode) ps' ∧ Remarks (fun v => tableGet t v ≠ none) ps' [] := by
    clear h1 h2 h3
    induction cps with
    | nil => exact ⟨[], .nil, .nil⟩
    | cons c cps ih =>
      rw [List.flatMap_cons] at h0 ⊢
      obtain ⟨ps', h1, h2⟩ := ih (fun x hx => hc x (by simp [hx])) (fun h => h0 (List.mem_append.2 (.inr h)))
      have hle : c ≤ 0x10FFFF := by rcases hc c (by simp) with h | h <;> omega
      refine ⟨_, .unit _ c _ ps' (encode_unit hle) h1, .cons _ _ [] [] (.fine c (.inr ⟨fun h => h0 ?_, hle⟩)) h2⟩
      subst h
      exact List.mem_append.2 (.inl (by decide))
  obtain ⟨ps', h4, h5⟩ := this
  rw [(h1 ps').1 h4] at h5
  rw [remarks_unique h2 h5] at h3
  exact List.prefix_nil.1 h3

/-! ### `max_length` -/

/-- **C89.** `clean_max_length` prints one warning if the name is too long and its extension leaves no room, and then returns the name as it is;
it prints nothing else, and if it prints nothing the result is within the limit. -/
theorem C89_max_length_warning (P : Platform) (n L : Nat) (s out : Bytes) (hL : L = if n = 0 then 256 else n)
    (hP : P.ptrBelowDefined = true ∨ s.head? ≠ some 0x2E) (h : (cleanMaxLengthLoud P n s).2 = .ok out) :
    ((L < s.length ∧ ∃ e, ExtensionAt s e ∧ L ≤ s.length - e) ∧ out = s ∧
      ∃ d, Decimal d L ∧ (cleanMaxLengthLoud P n s).1 =
        [lit "warning: max_length " ++ d ++ lit " is less than required file length for '" ++ s ++ lit "'.  giving up.\n"]) ∨
    (¬ (L < s.length ∧ ∃ e, ExtensionAt s e ∧ L ≤ s.length - e) ∧ out.length ≤ L ∧ (cleanMaxLengthLoud P n s).1 = []) := by
  have hm := max_length_messages P n s out h
  rw [← hL] at hm
  rw [cleanMaxLengthLoud_snd] at h
  obtain ⟨h1, h2, h3, h4, _⟩ := C06_max_length_exact P n L s hL hP
  by_cases hc : L < s.length ∧ ∃ e, ExtensionAt s e ∧ L ≤ s.length - e
  · left
    obtain ⟨ha, e, he, hb⟩ := hc
    have ho := h3 e ha he hb
    rw [h] at ho
    injection ho with ho
    subst ho
    rcases hm with hm | hm
    · omega
    · exact ⟨⟨ha, e, he, hb⟩, rfl, _, printDecimal_spec _ _ (Nat.lt_succ_self L), hm.1⟩
  · right
    refine ⟨hc, ?_⟩
    rcases hm with hm | ⟨_, rfl, hlt⟩
    · exact ⟨hm.2, hm.1⟩
    · exfalso
      rcases extension_or_not out (fun h => by subst h; simp at hlt) with ⟨hne, _⟩ | ⟨_, e, he, _⟩
      · have := h2 hlt hne
        rw [h] at this
        injection this with this
        have hl := congrArg List.length this
        rw [List.length_take] at hl
        omega
      · by_cases hle : L ≤ out.length - e
        · exact hc ⟨hlt, e, he, hle⟩
        · obtain ⟨body, hb, _, hlen⟩ := h4 e hlt he (by omega)
          rw [h] at hb
          injection hb with hb
          rw [← hb] at hlen
          omega

/-- **C89.** If a sequence ends with `max_length` and the filters print nothing about a name, its new name is within the limit. -/
theorem C89_silent_limit (P : Platform) (q : Sequence) (fs : List Filter) (f : Filter) (hq : q.filters = fs ++ [f]) (hf : f.cleaner = .maxLength)
    (s w : Bytes) (h : sequenceRunFiltersLoud P (some q) (some s) = ([], .ok (some w))) : w.length ≤ if f.maxLength = 0 then 256 else f.maxLength := by
  replace h : runFiltersLoud P (fs ++ [f]) (some s) = ([], .ok (some w)) := by rw [← hq]; exact h
  clear hq
  induction fs generalizing s with
  | nil =>
    have h : Said.bind (filterRunLoud P f (some s)) (fun hold => ([], .ok hold)) = ([], .ok (some w)) := h
    have he : filterRunLoud P f (some s) = ([], .ok (some w)) := by
      generalize filterRunLoud P f (some s) = x at h
      obtain ⟨m, r⟩ := x
      cases r with
      | ok a => simpa [Said.bind] using h
      | exit => cases h
      | ub => cases h
      | stuck => cases h
    unfold filterRunLoud at he
    simp only [hf] at he
    have hm := max_length_messages P f.maxLength s
    generalize cleanMaxLengthLoud P f.maxLength s = x at he hm
    obtain ⟨m, r⟩ := x
    cases r with
    | ok a =>
      simp only [Said.bind, List.append_nil, Prod.mk.injEq, Res.ok.injEq, Option.some.injEq] at he
      obtain ⟨rfl, rfl⟩ := he
      rcases hm a rfl with h | h
      · exact h.2
      · exact absurd h.1 (by simp)
    | exit => cases he
    | ub => cases he
    | stuck => cases he
  | cons g fs ih =>
    have h : Said.bind (filterRunLoud P g (some s)) (fun hold => runFiltersLoud P (fs ++ [f]) hold) = ([], .ok (some w)) := h
    generalize filterRunLoud P g (some s) = x at h
    obtain ⟨m, r⟩ := x
    cases r with
    | ok a =>
      simp only [Said.bind, Prod.mk.injEq] at h
      obtain ⟨h1, h2⟩ := h
      obtain ⟨_, h3⟩ := List.append_eq_nil_iff.1 h1
      cases a with
      | none => cases fs <;> cases h2
      | some a => exact ih a (Prod.ext h3 h2)
    | exit => cases h
    | ub => cases h
    | stuck => cases h

/-! ### Tables -/

/-- **C89.** Reading a table prints a message exactly if the table is given up; it names the row. -/
theorem C89_table_message (ctype content : Bytes) :
    (parseTableContent ctype content ≠ none ∧ tableMessages ctype content = []) ∨
    (parseTableContent ctype content = none ∧ ∃ l k d hex, l ∈ fileLines content.length content ∧ insideLine l = .row k d ∧ LowerHex hex k ∧
      tableMessages ctype content = [lit "Failed to add row 0x" ++ hex ++ lit " \"" ++ d ++ lit "\" to translation table\n"]) := by
  have : ∀ (ls : List Bytes) (st : Bool × Table),
      (parseTableLines ctype st ls ≠ none ∧ tableLinesMessages ctype st ls = []) ∨
      (parseTableLines ctype st ls = none ∧ ∃ l k d, l ∈ ls ∧ insideLine l = .row k d ∧ tableLinesMessages ctype st ls = [rowMessage k d]) := by
    intro ls
    induction ls with
    | nil => intro st; exact .inl ⟨by simp [parseTableLines], rfl⟩
    | cons l ls ih =>
      intro st
      unfold parseTableLines tableLinesMessages
      cases h : parseTableLine ctype st l with
      | none =>
        obtain ⟨k, d, hk⟩ := parseTableLine_none h
        exact .inr ⟨rfl, l, k, d, by simp, hk, by simp only [hk]⟩
      | some st' =>
        rcases ih st' with h1 | ⟨h1, l', k, d, h2, h3, h4⟩
        · exact .inl h1
        · exact .inr ⟨h1, l', k, d, by simp [h2], h3, h4⟩
  rcases this (fileLines content.length content) (false, tableInit (tableRowsFor content.length)) with ⟨h1, h2⟩ | ⟨h1, l, k, d, h2, h3, h4⟩
  · refine .inl ⟨?_, h2⟩
    unfold parseTableContent
    simpa using h1
  · refine .inr ⟨?_, l, k, d, _, h2, h3, printfHex_lower ?_, h4⟩
    · unfold parseTableContent
      rw [h1]
      rfl
    · have := insideLine_from l
      rw [h3] at this
      exact this.1

/-! ### Cases -/

/-- A table with U+00E9 only. -/
def acuteTable : Table := (tablePut (tableInit 10) 0xE9 (lit "e_acute")).1

/-- `é`, a stray continuation byte, an overlong NUL, a unit beyond U+10FFFF, a unit cut off by `x`, and one cut off by the end. -/
example : cleanUtf8Loud (some acuteTable) ([0xC3, 0xA9, 0x80, 0xC0, 0x80, 0xF4, 0x90, 0x80, 0x80, 0xE2, 0x82, 0x78, 0xE2, 0x82]) =
    ([lit "detox: warning: invalid encoding\n", lit "detox: warning: UTF-8 encoded NULL encountered\n",
      lit "detox: warning: unicode character 0x00110000 is invalid\n",
      lit "detox: warning: UTF-8 sequence ended unexpectedly (missing con't)\n",
      lit "detox: warning: UTF-8 sequence ended unexpectedly (null)\n"],
     .ok (lit "e_acute__hidden_null___x_")) := by decide +kernel

/-- Well-formed: nothing to say. -/
example : ValidUtf8 ([0x61, 0xC3, 0xA9]) ∧ (0 : Byte) ∉ [0x61, 0xC3, 0xA9] ∧ (cleanUtf8Loud (some acuteTable) ([0x61, 0xC3, 0xA9])).1 = [] :=
  have h : ValidUtf8 ([0x61, 0xC3, 0xA9]) := ⟨[0x61, 0xE9], by decide, by decide⟩
  ⟨h, by decide, C89_valid_utf8_is_fine _ _ h (by decide)⟩

/-- The limit 3 leaves no room before `.jpeg`. -/
example : cleanMaxLengthLoud .linux 3 (lit "a.jpeg") =
    ([lit "warning: max_length 3 is less than required file length for 'a.jpeg'.  giving up.\n"], .ok (lit "a.jpeg")) ∧
    (3 < (lit "a.jpeg").length ∧ ∃ e, ExtensionAt (lit "a.jpeg") e ∧ 3 ≤ (lit "a.jpeg").length - e) ∧
    cleanMaxLengthLoud .linux 6 (lit "abc.jpeg") = ([], .ok (lit "a.jpeg")) :=
  ⟨by decide +kernel, by
    have h := C89_max_length_warning .linux 3 3 (lit "a.jpeg") (lit "a.jpeg") rfl (.inl rfl) (by decide +kernel)
    rcases h with h | h
    · exact h.1
    · exact absurd h.2.2 (by decide +kernel), by decide +kernel⟩

/-- `utf_8` and then `max_length 4`, silent. -/
example : sequenceRunFiltersLoud .linux
      (some ⟨lit "s", [{ cleaner := .utf8, table := some acuteTable }, { cleaner := .maxLength, maxLength := 4 }], none⟩)
      (some ([0xC3, 0xA9] ++ lit "tude.c")) = ([], .ok (some (lit "e_.c"))) := by decide +kernel

end Detox
