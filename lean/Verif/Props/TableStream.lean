import Verif.Lemmas.TableSize

/-!
# Table files as the system delivers them (C107)
-/

set_option autoImplicit false

namespace Detox
open Spec

/-- **C107.** However a table file comes in pieces, and whatever `stat` says of its size, the table and the messages are those of a text that was
there from the start: of all that was delivered, if no read failed; otherwise a part at its end that has no newline, and would have fitted in
the buffer, is missing. -/
theorem C107_table_in_pieces {ctype path : Bytes} {rounds : Nat} {size : Int} {tr : List FlowEvent} {t : Option Table}
    (h : FlowTrace (parseTableStream ctype rounds path (some size)) (.fopen path true :: tr) (.ret t)) (hst : Steady false tr) :
    ∃ text rest, delivered tr = text ++ rest ∧ rest.length < 1023 ∧ (0x0A : Byte) ∉ rest ∧ (NoFailure tr → rest = []) ∧
      t = parseTableSized ctype size text ∧ (∀ e ∈ otherCalls tr, ∃ s, e = .err s) ∧ (t ≠ none → otherCalls tr = []) := by
  cases h with
  | fopen _ _ _ _ _ h =>
    simp only [if_true] at h
    obtain ⟨text, rest, g⟩ := tableLoop_ret ctype path rounds _ _ false tr t h ⟨by simp, by simp⟩ hst
    refine ⟨text, rest, by simpa using g.used, g.short.1, g.short.2, g.whole rfl, g.result.symm, ?_, ?_⟩
    · intro e he
      rw [g.says] at he
      obtain ⟨s, _, rfl⟩ := List.mem_map.1 he
      exact ⟨s, rfl⟩
    · intro hne
      rw [g.says]
      have quiet : ∀ (ls : List Bytes) (st : Bool × Table), parseTableLines ctype st ls ≠ none → tableLinesMessages ctype st ls = [] := by
        intro ls
        induction ls with
        | nil => intro st _; rfl
        | cons l ls ih =>
          intro st hp
          unfold parseTableLines at hp
          unfold tableLinesMessages
          cases hl : parseTableLine ctype st l with
          | none => rw [hl] at hp; exact absurd rfl hp
          | some st' => rw [hl] at hp; exact ih st' hp
      rw [quiet _ _ fun hn => hne (by rw [← g.result, hn]; rfl)]
      rfl

/-- **C107**, the other direction: any way to cut a text into pieces is possible. -/
theorem C107_any_pieces (ctype path : Bytes) (size : Int) {ps : List Bytes} (hps : ∀ p ∈ ps, p ≠ []) {rounds : Nat} (hr : ps.flatten.length < rounds) :
    ∃ tr, FlowTrace (parseTableStream ctype rounds path (some size)) (.fopen path true :: tr) (.ret (parseTableSized ctype size ps.flatten)) ∧
      answers tr <+: ps.map .data ++ [.data []] := by
  obtain ⟨tr, h1, _, h3⟩ := tableLoop_feeds ctype path rounds (false, tableInit (tableRowsOf size)) ⟨[], false⟩ ps ps.flatten ⟨rfl, hps, by simp⟩ hr
  exact ⟨tr, .fopen _ _ _ _ _ (by rw [if_pos rfl]; exact h1), h3⟩

/-- **C107.** Reading a table has no other outcome: no exit, nothing undefined, no endless loop. -/
theorem C107_always_an_answer {ctype path : Bytes} {rounds : Nat} {size : Option Int} {tr : List FlowEvent} {oc : Outcome (Option Table)}
    (h : FlowTrace (parseTableStream ctype rounds path size) tr oc) (hst : Steady false tr) (hr : (delivered tr).length < rounds) :
    oc = .running ∨ ∃ t, oc = .ret t := by
  unfold parseTableStream at h
  cases size with
  | none =>
    cases h with
    | stop => exact .inl rfl
    | ret => exact .inr ⟨_, rfl⟩
  | some size =>
    cases h with
    | stop => exact .inl rfl
    | fopen _ _ r _ _ h =>
      cases r with
      | true =>
        simp only [if_true] at h
        exact tableLoop_ends ctype path rounds _ _ false _ oc h ⟨by simp, by simp⟩ hst hr
      | false =>
        simp only [Bool.false_eq_true, if_false] at h
        cases h with
        | stop => exact .inl rfl
        | err _ _ _ _ h =>
          cases h with
          | stop => exact .inl rfl
          | ret => exact .inr ⟨_, rfl⟩

/-- **C107.** A true size gives the table of `Model/ParseTable.lean`, of which all other properties speak. -/
theorem C107_true_size (ctype : Bytes) {content : Bytes} (h : content.length < 6 * 2 ^ 31) :
    parseTableSized ctype content.length content = parseTableContent ctype content := by
  have : tableRowsOf content.length = (tableRowsFor content.length : Int) := by
    rw [tableRowsOf_small h]
    unfold tableRowsFor lineLength
    split <;> omega
  unfold parseTableSized parseTableContent
  rw [this]

/-- **C107.** The size only decides whether there is a table, not what is in it: with another size there is none, or one with the same lookups and
the same default, which makes the same names. -/
theorem C107_size_only_decides_whether {ctype content : Bytes} {size size' : Int} {t t' : Table}
    (h : parseTableSized ctype size content = some t) (h' : parseTableSized ctype size' content = some t') :
    (∀ k, tableGet t k = tableGet t' k) ∧ t.defaultTranslation = t'.defaultTranslation ∧
    (∀ P, cleanSafe P (some t) = cleanSafe P (some t')) ∧ cleanIso (some t) = cleanIso (some t') ∧ cleanUtf8 (some t) = cleanUtf8 (some t') := by
  obtain ⟨a1, a2, a3, _⟩ := sized_some h
  obtain ⟨b1, b2, b3, _⟩ := sized_some h'
  have hs : SameLookups t t' := ⟨fun k => by rw [a1, b1], by rw [a2, b2], by rw [a3, b3]⟩
  exact ⟨hs.1, hs.2.1, fun P => hs.safe P, hs.iso, hs.utf8⟩

/-- **C107.** A table file in the documented format is read if its rows that take effect are at most 500, or at most a sixth of the size that
`stat` gives; otherwise it is given up as a whole. -/
theorem C107_which_tables_are_read {content : Bytes} {ls : List Bytes} {secs : List Section} (hl : HasLines content ls) (hf : FileLines ls secs)
    (locale : Bytes) {size : Nat} (hs : size < 6 * 2 ^ 31) :
    ((effectiveRows locale secs).length ≤ max 500 (size / 6) → ∃ t, parseTableSized locale size content = some t ∧
      (∀ k, tableGet t k = lastOf (effectiveRows locale secs) k) ∧ t.defaultTranslation = effectiveDefault secs none) ∧
    (max 500 (size / 6) < (effectiveRows locale secs).length → parseTableSized locale size content = none) := by
  obtain ⟨ls', hd, ha⟩ := hasLines_actions hl locale
  obtain ⟨h1, h2, h3⟩ := file_actions (ctype := locale) hf hd
  have hn := sized_none (ctype := locale) (content := content) (size := size) (by rw [ha, h1]; exact h3)
  rw [ha, h1, tableRowsOf_small hs, Int.toNat_natCast] at hn
  refine ⟨fun hle => ?_, fun hlt => hn.2 hlt⟩
  cases ht : parseTableSized locale size content with
  | none => exact absurd (hn.1 ht) (by omega)
  | some t =>
    obtain ⟨a1, a2, _, _⟩ := sized_some ht
    rw [ha] at a1 a2
    exact ⟨t, rfl, fun k => by rw [a1, h1], by rw [a2, h2]⟩

/-- **C107**, negative: so a table with more than 500 rows that loads from a file does not load from a pipe, whose size is 0. -/
theorem C107_not_from_a_pipe {content : Bytes} {ls : List Bytes} {secs : List Section} (hl : HasLines content ls) (hf : FileLines ls secs)
    (locale : Bytes) (h : 500 < (effectiveRows locale secs).length) : parseTableSized locale 0 content = none :=
  (C107_which_tables_are_read hl hf locale (size := 0) (by decide)).2 (by omega)

/-- **C107.** If a read fails, what was read of the file so far, up to the last complete line, is taken for the whole of it. -/
theorem C107_read_error {content : Bytes} {ls : List Bytes} (hl : HasLines content ls) {ctype path : Bytes} {rounds : Nat} {size : Int}
    {tr : List FlowEvent} {t : Table} (h : FlowTrace (parseTableStream ctype rounds path (some size)) (.fopen path true :: tr) (.ret (some t)))
    (hst : Steady false tr) (hd : delivered tr <+: content) (hfail : ¬ NoFailure tr) :
    otherCalls tr = [] ∧ ∃ k, k ≤ ls.length ∧ delivered tr <+: ((ls.take (k + 1)).map (· ++ [0x0A])).flatten ∧
      parseTableSized ctype size ((ls.take k).map (· ++ [0x0A])).flatten = some t := by
  obtain ⟨_, _, _, _, _, _, _, _, hq⟩ := C107_table_in_pieces h hst
  refine ⟨hq (by simp), ?_⟩
  cases h with
  | fopen _ _ _ _ _ h =>
    simp only [if_true] at h
    obtain ⟨text, rest, g⟩ := tableLoop_ret ctype path rounds _ _ false tr _ h ⟨by simp, by simp⟩ hst
    have hu : delivered tr = text ++ rest := by simpa using g.used
    have hcon : delivered tr <+: (ls.map (· ++ [0x0A])).flatten := by
      rcases hl.2 with e | e
      · rw [← e]; exact hd
      · exact hd.trans ⟨[0x0A], e⟩
    have htext : text <+: (ls.map (· ++ [0x0A])).flatten := (hu ▸ List.prefix_append text rest : text <+: delivered tr).trans hcon
    have hnl : ∀ l ∈ ls, (0x0A : Byte) ∉ l := fun l hm hc => (hl.1 l hm).2 _ hc |>.2 rfl
    have hk : ∃ k, k ≤ ls.length ∧ text = ((ls.take k).map (· ++ [0x0A])).flatten := by
      rcases g.ends rfl hfail (by simp) with e | ⟨x, e⟩ | ⟨x, y, e, hy, hn⟩
      · exact ⟨0, by simp, by simpa using e⟩
      · rw [e] at htext ⊢
        exact lines_prefix ls x hnl htext
      · rw [e] at htext
        have := lines_chunk ls x y 1022 (fun l hm => (hl.1 l hm).1) hn htext
        omega
    obtain ⟨k, hk, e⟩ := hk
    refine ⟨k, hk, ?_, by rw [← e]; exact g.result⟩
    rw [hu]
    have hsplit : (ls.map (· ++ [0x0A])).flatten = text ++ ((ls.drop k).map (· ++ [0x0A])).flatten := by
      rw [e, ← List.flatten_append, ← List.map_append, List.take_append_drop]
    rw [hu, hsplit] at hcon
    have hrest := (List.prefix_append_right_inj text).1 hcon
    cases hdrop : ls.drop k with
    | nil =>
      rw [hdrop] at hrest
      have := List.prefix_nil.1 hrest
      rw [this, List.append_nil, e]
      have : ls.length ≤ k := List.drop_eq_nil_iff.1 hdrop
      rw [List.take_of_length_le this, List.take_of_length_le (by omega)]
      exact List.prefix_refl _
    | cons l ls2 =>
      have ht : ls.take (k + 1) = ls.take k ++ [l] := by
        have : ls = ls.take k ++ l :: ls2 := by rw [← hdrop, List.take_append_drop]
        have hlen : (ls.take k).length = k := by simp [hk]
        conv => lhs; rw [this]
        rw [List.take_append, hlen, List.take_of_length_le (by rw [hlen]; omega), Nat.add_sub_cancel_left]
        rfl
      rw [ht, List.map_append, List.flatten_append, ← e]
      refine (List.prefix_append_right_inj text).2 ?_
      rw [hdrop, List.map_cons, List.flatten_cons] at hrest
      simp only [List.map_cons, List.map_nil, List.flatten_cons, List.flatten_nil, List.append_nil]
      refine (Nat.le_total rest.length (l ++ [0x0A]).length).elim (fun hle => List.prefix_of_prefix_length_le hrest (List.prefix_append _ _) hle) fun hle => ?_
      exfalso
      have h1 : l ++ [0x0A] <+: rest := List.prefix_of_prefix_length_le (List.prefix_append _ _) hrest hle
      exact g.short.2 (h1.subset (by simp))

/-! ## For instance -/

/-- A table of two rows, and a disk that fails after the first. -/
def halfRead : List FlowEvent := [.read (some (lit "t.tbl")) (.data (lit "start\n0x20 _\n0x26 _a")), .read (some (lit "t.tbl")) (.fail false)]

/-- **C107**, for instance: a table of two rows of which only one is read. Nobody is told. -/
theorem C107_half_a_table : ∃ t, FlowTrace (parseTableStream [] 50 (lit "t.tbl") (some 30)) (.fopen (lit "t.tbl") true :: halfRead) (.ret (some t)) ∧
    Steady false halfRead ∧ otherCalls halfRead = [] ∧ ¬ NoFailure halfRead ∧
    HasLines (lit "start\n0x20 _\n0x26 _and_\nend\n") [lit "start", lit "0x20 _", lit "0x26 _and_", lit "end"] ∧
    delivered halfRead <+: lit "start\n0x20 _\n0x26 _and_\nend\n" ∧
    tableGet t 0x20 = some (lit "_") ∧ tableGet t 0x26 = none := by
  have h : ((flowResult (parseTableStream [] 50 (lit "t.tbl") (some 30)) (.fopen (lit "t.tbl") true :: halfRead)).map fun t =>
      t.map fun t => (tableGet t 0x20, tableGet t 0x26)) = some (some (some (lit "_"), none)) := by decide +kernel
  cases hr : flowResult (parseTableStream [] 50 (lit "t.tbl") (some 30)) (.fopen (lit "t.tbl") true :: halfRead) with
  | none => rw [hr] at h; cases h
  | some t =>
    rw [hr] at h
    cases t with
    | none => cases h
    | some t =>
      simp only [Option.map_some, Option.some.injEq, Prod.mk.injEq] at h
      refine ⟨t, flowResult_sound _ _ _ hr, ⟨by simp, rfl, trivial⟩, rfl, fun hn => hn false (by decide), ⟨?_, .inl (by decide)⟩, by decide, h.1, h.2⟩
      intro l hm
      simp only [List.mem_cons, List.not_mem_nil, or_false] at hm
      rcases hm with rfl | rfl | rfl | rfl <;> exact ⟨by decide, by decide⟩

/-- A table of 600 rows of six bytes loads from a file, but not from a pipe. -/
example : ∃ ls secs, HasLines (ls.map (· ++ [0x0A])).flatten ls ∧ FileLines ls secs ∧ 500 < (effectiveRows [] secs).length ∧
    6 * (effectiveRows [] secs).length ≤ (ls.map (· ++ [0x0A])).flatten.length := by
  refine ⟨lit "start" :: (List.replicate 600 (lit "1 xxx")) ++ [lit "end"], [.block (List.replicate 600 (1, lit "xxx"))], ⟨?_, .inl rfl⟩, ?_, ?_, ?_⟩
  · intro l hm
    simp only [List.cons_append, List.mem_cons, List.mem_append, List.mem_replicate, List.not_mem_nil, or_false] at hm
    rcases hm with rfl | ⟨_, rfl⟩ | rfl <;> exact ⟨by decide, by decide⟩
  · have he : ∀ n, Entries (List.replicate n (lit "1 xxx")) (List.replicate n (1, lit "xxx")) := by
      intro n
      induction n with
      | zero => exact .nil
      | succ n ih =>
        rw [List.replicate_succ, List.replicate_succ]
        refine .row _ _ _ _ ?_ ih
        exact .row [] (lit "1") (lit " ") (lit "xxx") _ _ (by decide)
          (.dec 0x31 [] 1 (by decide) (Digits.snoc [] 0 0x31 1 .nil (by decide) (by decide)))
          (by decide) (by decide) (.bare 0x78 (lit "xx") [] (by decide) (by decide) (by decide) (Or.inl rfl)) (by decide) (by decide)
    have h := FileLines.cons (lit "start" :: List.replicate 600 (lit "1 xxx") ++ [lit "end"]) _ [] []
      (.block (lit "start") _ _ (lit "end") (.mk [] (lit "start") [] (by decide) (by decide) (by decide)) (he 600)
        (.mk [] (lit "end") [] (by decide) (by decide) (by decide))) .nil
    rw [List.append_nil] at h
    exact h
  · simp only [effectiveRows, List.append_nil, List.length_replicate]
    decide
  · simp only [effectiveRows, List.append_nil, List.length_replicate, List.map_cons, List.map_append, List.map_replicate, List.flatten_cons,
      List.flatten_append, List.length_append, List.length_flatten, List.sum_replicate_nat, List.cons_append, List.map_nil, List.flatten_nil]
    decide

end Detox
