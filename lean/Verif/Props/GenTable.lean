import Verif.Lemmas.GenTable
import Verif.Props.ParseTable
import Verif.Lemmas.LoadedTable

/-!
# C51: generate-builtin-table
-/

set_option autoImplicit false

namespace Detox
open Spec

/-- **C51.** For every entry: the text between the quotes never overruns its buffer, and the literal denotes the entry, with the
characters named by `\u` and `\U` put in. It is no literal exactly if there are no such characters. -/
theorem C51_literal_denotes_the_entry (s : Bytes) (hn : NulFree s) (hl : (0x0A : Byte) ∉ s) :
    ∃ e, escapeString s = .ok e ∧ ∀ rest, stringLit (e ++ 0x22 :: rest) = (expandNames s.length s).map fun v => (v, rest) :=
  ⟨_, escapeString_eq hn, fun rest => stringLit_escapedText s rest hl⟩

/- All special characters. -/
example : escapeString (lit "a\"b\\n\\u00e9\\") = .ok (lit "a\\\"b\\\\n\\u00e9\\\\") ∧
    expandNames 20 (lit "a\"b\\n\\u00e9\\") = some (lit "a\"b\\n" ++ [0xC3, 0xA9, 0x5C]) := by decide +kernel

/-- The largest key is known. -/
structure MaxKey (t : Table) : Prop where
  bound : ∀ k d, tableGet t k = some d → k ≤ t.maxKey
  attained : t.maxKey = 0 ∨ ∃ d, tableGet t t.maxKey = some d

theorem tablePut_maxKey {t : Table} (hw : t.WF) {k : Nat} (h0 : k ≠ 0) (hu : t.used < t.rows.length) (d : Bytes) :
    (tablePut t k d).1.maxKey = max t.maxKey k := by
  obtain ⟨o, ho⟩ := hw.putOffset_isSome (k := k) hu
  rw [tablePut_eq, if_neg h0, if_neg (by omega), ho]
  simp only
  split <;> omega

theorem MaxKey.put {t : Table} (hw : t.WF) (h : MaxKey t) (k : Nat) (d : Bytes) : MaxKey (tablePut t k d).1 := by
  by_cases hf : k = 0 ∨ t.used = t.rows.length
  · rw [tablePut_fail hf]; exact h
  · rw [not_or] at hf
    have hu : t.used < t.rows.length := by have := hw.cap; omega
    have hm := tablePut_maxKey hw hf.1 hu d
    refine ⟨fun k' d' hg => ?_, ?_⟩
    · rw [hw.get_put hf.1 hu] at hg
      rw [hm]
      split at hg
      · omega
      · have := h.bound k' d' hg; omega
    · rw [hm]
      right
      rw [hw.get_put hf.1 hu]
      split
      · exact ⟨d, rfl⟩
      · have : max t.maxKey k = t.maxKey := by omega
        rw [this]
        exact h.attained.resolve_left (by omega)

theorem MaxKey.copyRows {t : Table} (hw : t.WF) (h : MaxKey t) (rows : List Row) : MaxKey (tableCopyRows t rows) := by
  induction rows generalizing t with
  | nil => exact h
  | cons r rs ih =>
    rw [tableCopyRows]
    cases r.data with
    | none => exact ih hw h
    | some d =>
      simp only
      split
      · exact ih (hw.put _ _) (h.put hw _ _)
      · exact ih hw h

theorem MaxKey.fresh (size : Int) (hash : Bool) (d : Option Bytes) (o : Nat) :
    MaxKey { freshTable size hash with defaultTranslation := d, overwrites := o } := by
  refine ⟨fun k d' hg => ?_, .inl rfl⟩
  have : tableGet (freshTable size hash) k = some d' := hg
  rw [freshTable_get] at this
  cases this

theorem Reachable.maxKey {t : Table} (h : Reachable t) : MaxKey t := by
  induction h with
  | fresh size hash => exact MaxKey.fresh size hash none 0
  | op t o hr ih =>
    cases o with
    | put k d => exact ih.put hr.wf k d
    | get k =>
      obtain ⟨a, b, c, he⟩ := tableGetCounting_eq t k
      simp only [Table.step, he]
      exact ⟨ih.bound, ih.attained⟩
  | setDefault t d _ ih => exact ⟨ih.bound, ih.attained⟩
  | resize t size hash => exact (MaxKey.fresh size hash _ _).copyRows (freshTable_WF' size hash _ _) _

theorem intOfUnsigned_small {n : Nat} (h : n < 2 ^ 31) : intOfUnsigned n = (n : Nat) := by
  unfold intOfUnsigned
  rw [Nat.mod_eq_of_lt (by omega), if_pos h]

/-- The text defines, for a C compiler, rows in the order of their keys, as many as declared, and a loader that makes the table `t`, with
the named characters put in. -/
def Defines (out : Bytes) (t : Table) : Prop :=
  ∃ src, readSource out = some src ∧
    src.declared = src.rows.length ∧ src.length = src.rows.length ∧ src.used = src.rows.length ∧
    src.rows.Pairwise (fun p q => p.1 < q.1) ∧
    (∀ k, tableGet src.load k = (tableGet t k).bind fun d => expandNames d.length d) ∧
    src.load.defaultTranslation = t.defaultTranslation

/-- **C51.** For every table: the text that is printed defines it. -/
theorem C51_source_denotes_the_table (t : Table) (ht : Reachable t) (file : Bytes)
    (hk : ∀ k d, tableGet t k = some d → k < 2 ^ 31 - 1)
    (hd : ∀ k d, tableGet t k = some d → NulFree d ∧ (0x0A : Byte) ∉ d ∧ d.length < 2 ^ 31 ∧ ∃ e, expandNames d.length d = some e)
    (ho : t.overwrites < 2 ^ 31)
    (hdef : ∀ d, t.defaultTranslation = some d → ∀ c ∈ d, c ≠ 0x0A ∧ c ≠ 0x22 ∧ c ≠ 0x5C) :
    ∃ out, generateLoader file t = .ok out ∧ Defines out t := by
  have hmk := ht.maxKey
  have hbig : t.maxKey + 1 < 2 ^ 31 := by
    rcases hmk.attained with h | ⟨d, h⟩
    · omega
    · have := hk _ _ h; omega
  obtain ⟨hdir, hused, hle, hov⟩ := Direct.resize ht.wf hmk.bound
  obtain ⟨hget, hdt, _, hml⟩ := C22_resize_preserves t ht (t.maxKey + 1 : Nat) true (by
    unfold Table.entries rowsFor
    rw [if_neg (by omega)]
    omega)
  generalize hT : tableResize t (t.maxKey + 1 : Nat) true = T at *
  have hw : T.WF := by rw [← hT]; exact (Reachable.resize _ _ _).wf
  have hmT : MaxKey T := by rw [← hT]; exact (Reachable.resize _ _ _).maxKey
  have hrow : ∀ r ∈ T.rows, r.key ≠ 0 → ∃ d, r.data = some d ∧ tableGet t r.key = some d := by
    intro r hr h0
    obtain ⟨i, hi⟩ := List.getElem?_of_mem hr
    obtain ⟨d, hd, _⟩ := hw.full i r hi h0
    exact ⟨d, hd, by rw [← hget]; exact (hw.get_eq_some _ _).2 ⟨h0, i, by rw [hi, ← hd]⟩⟩
  have hdata : ∀ r ∈ T.rows, r.key ≠ 0 → ∃ d, r.data = some d := fun r hr h0 => (hrow r hr h0).imp fun _ h => h.1
  have hentry : ∀ p ∈ entriesOf T.rows, tableGet t p.1 = some p.2 := by
    intro p hp
    obtain ⟨h0, hm⟩ := entriesOf_mem hp
    obtain ⟨d, hd, hg⟩ := hrow _ hm h0
    cases hd
    exact hg
  have hlen : (entriesOf T.rows).length = T.used := by rw [entriesOf_length _ hdata, hdir.used]
  let f : Bytes → Bytes := fun d => (expandNames d.length d).getD []
  have hf : ∀ k d, tableGet t k = some d → expandNames d.length d = some (f d) := by
    intro k d h
    obtain ⟨_, _, _, e, he⟩ := hd k d h
    simp only [f, he, Option.getD_some]
  have hkT : T.maxKey < 2 ^ 32 := by
    rcases hmT.attained with h | ⟨d, h⟩
    · omega
    · rw [hget] at h
      have := hk _ _ h
      omega
  have hlT : T.maxDataLength < 2 ^ 31 := by
    rcases hml with h | ⟨k, d, h1, h2⟩
    · omega
    · have := (hd k d h1).2.2.1; omega
  have huT : T.used < 2 ^ 31 := by omega
  have hgen := generateLoader_eq (file := file) (by rw [intOfUnsigned_small hbig]; exact hT) (generateRows_eq T.rows (fun r hr h0 => by
      obtain ⟨d, h1, h2⟩ := hrow r hr h0
      exact ⟨d, h1, (hd _ _ h2).1⟩))
  have hread := readSource_text file f (entriesOf T.rows) T (fun p hp => by
      have hg := hentry p hp
      have := hk _ _ hg
      exact ⟨by omega, (hd _ _ hg).2.1, hf _ _ hg⟩) huT hlT hkT (by omega) (by rw [hdt]; exact hdef)
  rw [hdt] at hread
  refine ⟨_, hgen, ⟨T.used, (entriesOf T.rows).map fun p => (p.1, f p.2), T.used, T.used, T.maxDataLength, T.maxKey, T.overwrites,
    t.defaultTranslation, loaderRows T.used⟩, hread, ?_, ?_, ?_, ?_, ?_, ?_⟩
  · simp [hlen]
  · simp [hlen]
  · simp [hlen]
  · rw [List.pairwise_map]
    exact (entriesOf_sorted T.rows 0 (by simpa using hdir.place)).1
  · intro k
    unfold TableSource.load
    rw [resize_get]
    · show lastRow (TableSource.array _) k = _
      unfold TableSource.array
      simp only [List.length_map, hlen, Nat.sub_self, List.replicate_zero, List.append_nil, List.map_map]
      rw [show ((fun p : Nat × Bytes => (⟨p.1, some p.2⟩ : Row)) ∘ fun p : Nat × Bytes => (p.1, f p.2)) = fun p => ⟨p.1, some (f p.2)⟩ from rfl,
        lastRow_entriesOf _ _ hdata, hw.lastRow_eq_get, hget]
      cases hg : tableGet t k with
      | none => rfl
      | some d => simp only [Option.map_some, Option.bind_some, hf k d hg]
    · show usedRows (TableSource.array _) ≤ _
      unfold TableSource.array rowsFor loaderRows
      simp only [List.length_map, hlen, Nat.sub_self, List.replicate_zero, List.append_nil]
      rw [if_neg (by omega)]
      have : usedRows (((entriesOf T.rows).map fun p => (p.1, f p.2)).map fun p => (⟨p.1, some p.2⟩ : Row)) ≤ _ := List.countP_le_length
      simp only [List.length_map, hlen] at this
      omega
  · unfold TableSource.load
    rw [tableResize_eq, tableCopyRows_default]
    rfl

/-- **C51.** The program as a whole, on every table file: if it can be read, no entry has a line break or names a character that does not
exist or has the key 2147483647, and the default translation needs no escapes, then what is printed defines the table of the file. -/
theorem C51_table_file (ctype : Bytes) (files : Bytes → Option Bytes) (path content : Bytes) (args : List Bytes) (t : Table)
    (hfile : files path = some content) (hsize : content.length < 2 ^ 31) (ht : parseTableContent ctype content = some t)
    (hd : ∀ k d, tableGet t k = some d → k ≠ 2 ^ 31 - 1 ∧ (0x0A : Byte) ∉ d ∧ ∃ e, expandNames d.length d = some e)
    (hdef : ∀ d, t.defaultTranslation = some d → ∀ c ∈ d, c ≠ 0x0A ∧ c ≠ 0x22 ∧ c ≠ 0x5C) :
    ∃ out, generateMain ctype files (path :: args) = .ok out ∧ Defines out t := by
  have hl := parseTable_loaded ht
  obtain ⟨out, h1, h2⟩ := C51_source_denotes_the_table t hl.reach path
    (fun k d h => by
      have := (hl.entry k d h).1
      have := (hd k d h).1
      omega)
    (fun k d h => by
      obtain ⟨_, a, b⟩ := hl.entry k d h
      obtain ⟨_, c, e⟩ := hd k d h
      exact ⟨a, c, by omega, e⟩)
    (by
      have := hl.overwrites
      have := hl.reach.wf.cap
      have := hl.rows
      omega) hdef
  refine ⟨out, ?_, h2⟩
  simp only [generateMain, parseTable, hfile, Option.bind_some, ht]
  exact h1

theorem shipped_defines {ctype content : Bytes} {rows : List (Nat × Bytes)} {dflt : Option Bytes} {builtin : Table} {brows : List Row}
    (hload : ∃ t, parseTableContent ctype content = some t ∧ t.WF ∧ (∀ k, tableGet t k = lastOf rows k) ∧ t.defaultTranslation = dflt)
    (hsize : content.length < 2 ^ 31)
    (hrows : ∀ r ∈ rows, r.1 ≠ 2 ^ 31 - 1 ∧ (0x0A : Byte) ∉ r.2 ∧ (expandNames r.2.length r.2).isSome)
    (hdef : ∀ d, dflt = some d → ∀ c ∈ d, c ≠ 0x0A ∧ c ≠ 0x22 ∧ c ≠ 0x5C)
    (hb : ∀ k, tableGet builtin k = lastRow brows k) (hbd : builtin.defaultTranslation = dflt)
    (hagree : ∀ r ∈ (rows.map fun r => (r.1, (expandNames r.2.length r.2).getD [])) ++ pairsOf brows,
      lastOf (rows.map fun r => (r.1, (expandNames r.2.length r.2).getD [])) r.1 = lastOf (pairsOf brows) r.1)
    (files : Bytes → Option Bytes) (path : Bytes) (hfile : files path = some content) (args : List Bytes) :
    ∃ out src, generateMain ctype files (path :: args) = .ok out ∧ readSource out = some src ∧
      src.rows.Pairwise (fun p q => p.1 < q.1) ∧ (∀ k, tableGet src.load k = tableGet builtin k) ∧
      src.load.defaultTranslation = builtin.defaultTranslation := by
  obtain ⟨t, h1, _, h2, h3⟩ := hload
  have hrow : ∀ k d, tableGet t k = some d → (k, d) ∈ rows := by
    intro k d h
    rw [h2] at h
    unfold lastOf at h
    rw [Option.map_eq_some_iff] at h
    obtain ⟨r, hr, e⟩ := h
    have hm := List.mem_of_find?_eq_some hr
    have hk := List.find?_some hr
    simp at hk hm
    rw [← e, ← hk]
    exact hm
  obtain ⟨out, g1, src, g2, _, _, _, g3, g4, g5⟩ := C51_table_file ctype files path content args t hfile hsize h1
    (fun k d h => by
      obtain ⟨a, b, c⟩ := hrows _ (hrow k d h)
      exact ⟨a, b, Option.isSome_iff_exists.1 c⟩) (by rw [h3]; exact hdef)
  refine ⟨out, src, g1, g2, g3, fun k => ?_, by rw [g5, h3, hbd]⟩
  rw [g4, hb, lastRow_eq_lastOf, ← lastOf_agree hagree, lastOf_map (f := fun d => (expandNames d.length d).getD []), ← h2]
  cases h : tableGet t k with
  | none => rfl
  | some d =>
    obtain ⟨_, _, c⟩ := hrows _ (hrow k d h)
    obtain ⟨e, he⟩ := Option.isSome_iff_exists.1 c
    simp only at he
    simp [he]

/-- What generate-builtin-table prints for a file makes a certain table. -/
def GeneratesBuiltin (content : Bytes) (builtin : Table) : Prop :=
  ∀ (ctype : Bytes) (files : Bytes → Option Bytes) (path : Bytes) (args : List Bytes), files path = some content →
    ∃ out src, generateMain ctype files (path :: args) = .ok out ∧ readSource out = some src ∧
      src.rows.Pairwise (fun p q => p.1 < q.1) ∧ (∀ k, tableGet src.load k = tableGet builtin k) ∧
      src.load.defaultTranslation = builtin.defaultTranslation

/-- **C51.** builtin_table.c agrees with what generate-builtin-table makes of the shipped table files. -/
theorem C51_builtin_tables_are_generated :
    GeneratesBuiltin shipped_safe load_builtin_safe_table ∧ GeneratesBuiltin shipped_unicode load_builtin_unicode_table ∧
    GeneratesBuiltin shipped_iso8859_1 load_builtin_iso8859_1_table ∧ GeneratesBuiltin shipped_cp1252 load_builtin_cp1252_table := by
  refine ⟨fun ctype files path args h => ?_, fun ctype files path args h => ?_, fun ctype files path args h => ?_,
    fun ctype files path args h => ?_⟩
  · exact shipped_defines (shipped_safe_loads ctype) (by decide +kernel) (by decide +kernel) (by simp) safe_get safe_default
      (by decide +kernel) files path h args
  · exact shipped_defines (shipped_unicode_loads ctype) (by decide +kernel) (by decide +kernel) (by simp) unicode_get unicode_default
      (by decide +kernel) files path h args
  · exact shipped_defines (shipped_iso_loads ctype) (by decide +kernel) (by decide +kernel) (by simp) iso_get iso_default
      (by decide +kernel) files path h args
  · exact shipped_defines (shipped_cp1252_loads ctype) (by decide +kernel) (by decide +kernel) (by simp) cp1252_get cp1252_default
      (by decide +kernel) files path h args

/-! ### The conditions are needed -/

/-- The files of the witnesses. -/
def oneFile (content : Bytes) : Bytes → Option Bytes := fun p => if p = lit "t" then some content else none

/-- What a compiler makes of what is printed for a file. -/
def compiled (content : Bytes) : Res (Option TableSource) :=
  match generateMain [] (oneFile content) [lit "t"] with
  | .ok out => .ok (readSource out)
  | .exit n => .exit n
  | .ub u => .ub u
  | .stuck => .stuck

/- A file for which all is well. -/
example : compiled (lit "default _\nstart\n0x22 \\\"\n0x5c a\\u00e9\nend\n") =
    .ok (some ⟨2, [(0x22, lit "\\\""), (0x5C, [0x61, 0xC3, 0xA9])], 2, 2, 7, 0x5C, 0, some [0x5F], 256⟩) := by decide +kernel

/-- **C51.** The default translation is not escaped: a quote there ends the literal too early, and an escape denotes something else. -/
theorem C51_default_is_not_escaped :
    compiled (lit "default a\"b\nstart\n1 x\nend\n") = .ok none ∧
    ∃ src, compiled (lit "default a\\nb\nstart\n1 x\nend\n") = .ok (some src) ∧ src.dflt = some [0x61, 0x0A, 0x62] := by
  refine ⟨by decide +kernel, ⟨1, [(1, lit "x")], 1, 1, 1, 1, 0, some [0x61, 0x0A, 0x62], 256⟩, by decide +kernel, rfl⟩

/-- **C51.** A quotation that is not closed on its line has a line break in it, which no literal can have. -/
theorem C51_unclosed_quote_is_no_literal : compiled (lit "start\n1 \"x\nend\n") = .ok none := by decide +kernel

/-- **C51.** A name that is not one, or is that of a character of ASCII, is no literal either. -/
theorem C51_wrong_names_are_no_literals :
    compiled (lit "start\n1 \\user\nend\n") = .ok none ∧ compiled (lit "start\n1 \\u0041\nend\n") = .ok none := by decide +kernel

/-- **C51.** A file that cannot be read crashes the program. -/
theorem C51_missing_file_is_undefined : generateMain [] (oneFile []) [lit "u"] = .ub .oobRead := by decide +kernel

end Detox
