import Verif.Lemmas.Shipped
import Verif.Lemmas.LooseTable
import Verif.Spec.UEscape

/-!
# Translation table files: C24, C25, C26, C53, C54, C55
-/

set_option autoImplicit false

namespace Detox

open Spec

/-! ## C25: a written table file loads back -/

/-- The table `parse_table` builds from lines with known actions, and whether it builds one at all. -/
theorem parse_lines {content : Bytes} {ls : List Bytes} {secs : List Section}
    (hl : HasLines content ls) (locale : Bytes)
    (hf : ∀ ls', Delivered ls ls' → actionRows (lineActions locale false ls') = effectiveRows locale secs ∧
      (∀ d, actionDefault d (lineActions locale false ls') = effectiveDefault secs d) ∧
      (∀ r ∈ effectiveRows locale secs, r.1 ≠ 0)) :
    ((effectiveRows locale secs).length ≤ max 500 (content.length / 6) →
      ∃ t, parseTableContent locale content = some t ∧ t.WF ∧
        (∀ k, tableGet t k = lastOf (effectiveRows locale secs) k) ∧
        t.defaultTranslation = effectiveDefault secs none) ∧
    (max 500 (content.length / 6) < (effectiveRows locale secs).length →
      parseTableContent locale content = none) := by
  obtain ⟨ls', hd, ha⟩ := hasLines_actions hl locale
  obtain ⟨h1, h2, h3⟩ := hf ls' hd
  have hsz : tableRowsFor content.length = max 500 (content.length / 6) := by
    unfold tableRowsFor lineLength
    split <;> omega
  have hlen : (tableInit ((max 500 (content.length / 6) : Nat) : Int)).rows.length = max 500 (content.length / 6) := by
    unfold tableInit
    simp only [List.length_replicate]
    split <;> omega
  have hp : parseTableContent locale content =
      applyActions (tableInit ((max 500 (content.length / 6) : Nat) : Int)) (lineActions locale false ls') := by
    unfold parseTableContent
    rw [parseTableLines_eq, ha, hsz]
  have hspec := applyActions_spec (lineActions locale false ls')
    (tableInit ((max 500 (content.length / 6) : Nat) : Int)) (Table.WF.init _) (by rw [h1]; exact h3)
  rw [hlen, h1] at hspec
  constructor
  · intro hle
    obtain ⟨t, g1, g2, _, g4, g5⟩ := hspec.1 (by show 0 + _ ≤ _; omega)
    refine ⟨t, by rw [hp, g1], g2, fun k => ?_, by rw [g4, ← h2 none]; rfl⟩
    rw [g5 k]
    have hg0 : tableGet (tableInit ((max 500 (content.length / 6) : Nat) : Int)) k = none :=
      freshTable_get ((max 500 (content.length / 6) : Nat) : Int) true k
    rw [hg0]
    cases lastOf _ k <;> rfl
  · intro hlt
    rw [hp]
    exact hspec.2 (by show _ < 0 + _; omega)

/-- The same for a documented file. -/
theorem parse_documented {content : Bytes} {ls : List Bytes} {secs : List Section}
    (hl : HasLines content ls) (hf : FileLines ls secs) (locale : Bytes) :
    ((effectiveRows locale secs).length ≤ max 500 (content.length / 6) →
      ∃ t, parseTableContent locale content = some t ∧ t.WF ∧
        (∀ k, tableGet t k = lastOf (effectiveRows locale secs) k) ∧
        t.defaultTranslation = effectiveDefault secs none) ∧
    (max 500 (content.length / 6) < (effectiveRows locale secs).length →
      parseTableContent locale content = none) :=
  parse_lines hl locale fun _ hd => file_actions hf hd

/-- C25. A table file in the documented format loads, and a lookup gives the last effective row of the
key; the default is the one of the last `default` line. The file may be written in any of the documented
ways. The number of rows is limited by `max 500 (size / 6)`. -/
theorem C25_table_file_loads {content : Bytes} {ls : List Bytes} {secs : List Section}
    (hl : HasLines content ls) (hf : FileLines ls secs) (locale : Bytes)
    (hroom : (effectiveRows locale secs).length ≤ max 500 (content.length / 6)) :
    ∃ t, parseTableContent locale content = some t ∧
      (∀ k, tableGet t k = lastOf (effectiveRows locale secs) k) ∧
      t.defaultTranslation = effectiveDefault secs none := by
  obtain ⟨t, h1, _, h2, h3⟩ := (parse_documented hl hf locale).1 hroom
  exact ⟨t, h1, h2, h3⟩

/-- C25, the limit is sharp: one row more and the load fails as a whole. -/
theorem C25_row_limit_is_sharp {content : Bytes} {ls : List Bytes} {secs : List Section}
    (hl : HasLines content ls) (hf : FileLines ls secs) (locale : Bytes) :
    (∃ t, parseTableContent locale content = some t) ↔
      (effectiveRows locale secs).length ≤ max 500 (content.length / 6) := by
  obtain ⟨h1, h2⟩ := parse_documented hl hf locale
  constructor
  · rintro ⟨t, ht⟩
    by_cases hle : (effectiveRows locale secs).length ≤ max 500 (content.length / 6)
    · exact hle
    · rw [h2 (by omega)] at ht
      cases ht
  · intro hle
    obtain ⟨t, ht, _⟩ := h1 hle
    exact ⟨t, ht⟩

/-! A concrete file: mixed number bases, quoting styles, letter case and remarks. -/

/-- `default _` / `START` / `0x26 _and_ # remark` / `  046 '"'` / `9 ""` / `end` / `start EN` /
`0x24 money` / `end`. -/
def demoLines : List Bytes :=
  [lit "default\t_", lit "START", lit "0x26 _and_ # remark", lit "  046\t'\"'", lit "9 \"\"", lit "# note",
   lit "end", lit "start \"EN\"", lit "0x24 money", lit "end "]

def demoSections : List Section :=
  [.dflt (lit "_"), .block [(0x26, lit "_and_"), (0x26, lit "\""), (9, [])], .langBlock (lit "EN") [(0x24, lit "money")]]

theorem digits_hex2 (a b : Byte) (x y : Nat) (base : Nat) (h1 : HexDigit a x) (h2 : HexDigit b y) (hx : x < base)
    (hy : y < base) : Digits base [a, b] (base * x + y) := by
  have h := Digits.snoc [a] (base * 0 + x) b y (Digits.snoc [] 0 a x .nil h1 hx) h2 hy
  simpa using h

theorem demo_file : FileLines demoLines demoSections := by
  refine FileLines.cons [lit "default\t_"] _ _ _ (.dflt _ _ ?_)
    (FileLines.cons [lit "START", lit "0x26 _and_ # remark", lit "  046\t'\"'", lit "9 \"\"", lit "# note", lit "end"] _ _ _
      (.block _ [lit "0x26 _and_ # remark", lit "  046\t'\"'", lit "9 \"\"", lit "# note"] _ _ ?_ ?_ ?_)
      (FileLines.cons [lit "start \"EN\"", lit "0x24 money", lit "end "] _ _ _
        (.langBlock _ _ [lit "0x24 money"] _ _ ?_ ?_ ?_) .nil))
  · exact .mk [] (lit "default") (lit "\t") (lit "_") (lit "_") (by decide) (by decide) (by decide) (by decide)
      (.bare 0x5F [] [] (by decide) (by decide) (by decide) (Or.inl rfl)) (by decide)
  · exact .mk [] (lit "START") [] (by decide) (by decide) (by decide)
  · refine .row _ _ (0x26, lit "_and_") _ ?_ (.row _ _ (0x26, lit "\"") _ ?_ (.row _ _ (9, []) _ ?_ (.note _ _ _ ?_ .nil)))
    · exact .row [] (lit "0x26") (lit " ") (lit "_and_ # remark") _ _ (by decide)
        (.hex 0x78 (lit "26") 0x26 (Or.inl rfl) (by decide) (digits_hex2 _ _ 2 6 16 (by decide) (by decide) (by decide) (by decide)))
        (by decide) (by decide)
        (.bare 0x5F (lit "and_") (lit " # remark") (by decide) (by decide) (by decide) (Or.inr ⟨0x20, lit "# remark", rfl, by decide⟩))
        (by decide) (by decide)
    · exact .row (lit "  ") (lit "046") (lit "\t") (lit "'\"'") _ _ (by decide)
        (.oct (lit "46") 0x26 (digits_hex2 _ _ 4 6 8 (by decide) (by decide) (by decide) (by decide)))
        (by decide) (by decide) (.squote (lit "\"") [] (by decide)) (by decide) (by decide)
    · exact .row [] (lit "9") (lit " ") (lit "\"\"") _ _ (by decide)
        (.dec 0x39 [] 9 (by decide) (Digits.snoc [] 0 0x39 9 .nil (by decide) (by decide)))
        (by decide) (by decide) (.dquote [] [] (by decide)) (by decide) (by decide)
    · exact .note _ (.comment (lit " note"))
  · exact .mk [] (lit "end") [] (by decide) (by decide) (by decide)
  · exact .mk [] (lit "start") (lit " ") (lit "\"EN\"") (lit "EN") (by decide) (by decide) (by decide) (by decide)
      (.dquote (lit "EN") [] (by decide)) (by decide)
  · refine .row _ _ (0x24, lit "money") _ ?_ .nil
    exact .row [] (lit "0x24") (lit " ") (lit "money") _ _ (by decide)
        (.hex 0x78 (lit "24") 0x24 (Or.inl rfl) (by decide) (digits_hex2 _ _ 2 4 16 (by decide) (by decide) (by decide) (by decide)))
        (by decide) (by decide)
        (.bare 0x6D (lit "oney") [] (by decide) (by decide) (by decide) (Or.inl rfl))
        (by decide) (by decide)
  · exact .mk [] (lit "end") (lit " ") (by decide) (by decide) (by decide)

def demoContent : Bytes := (demoLines.map (· ++ [0x0A])).flatten

theorem demo_lines : HasLines demoContent demoLines := ⟨by decide, Or.inl rfl⟩

/-- The hypotheses of C25 hold of it, in two locales. -/
example : ∃ t, parseTableContent (lit "en_US.UTF-8") demoContent = some t ∧
    (∀ k, tableGet t k = lastOf [(0x26, lit "_and_"), (0x26, lit "\""), (9, []), (0x24, lit "money")] k) ∧
    t.defaultTranslation = some (lit "_") :=
  C25_table_file_loads demo_lines demo_file (lit "en_US.UTF-8") (by decide)

example : ∃ t, parseTableContent (lit "de_DE.UTF-8") demoContent = some t ∧
    (∀ k, tableGet t k = lastOf [(0x26, lit "_and_"), (0x26, lit "\""), (9, [])] k) ∧
    t.defaultTranslation = some (lit "_") :=
  C25_table_file_loads demo_lines demo_file (lit "de_DE.UTF-8") (by decide)

/-! ## C26: language blocks -/

theorem effectiveRows_append (locale : Bytes) (a b : List Section) :
    effectiveRows locale (a ++ b) = effectiveRows locale a ++ effectiveRows locale b := by
  induction a with
  | nil => rfl
  | cons s a ih =>
    cases s <;> simp [effectiveRows, ih]

/-- C26. A `start LANG` block takes effect iff LANG is a prefix of the locale name (letter case ignored):
a file with the block loads the same translations as one where the block is unconditional if it matches,
and as one where it is missing if it does not. -/
theorem C26_language_block_applies_iff_locale_matches {content : Bytes} {ls : List Bytes} {pre post : List Section}
    {lang : Bytes} {rows : List (Nat × Bytes)} (hl : HasLines content ls)
    (hf : FileLines ls (pre ++ .langBlock lang rows :: post)) (locale : Bytes) {t : Table}
    (ht : parseTableContent locale content = some t) :
    ((∃ rest, locale.map fold = lang.map fold ++ rest) → ∀ k, tableGet t k =
      lastOf (effectiveRows locale pre ++ rows ++ effectiveRows locale post) k) ∧
    ((¬ ∃ rest, locale.map fold = lang.map fold ++ rest) → ∀ k, tableGet t k =
      lastOf (effectiveRows locale pre ++ effectiveRows locale post) k) := by
  have hroom := (C25_row_limit_is_sharp hl hf locale).1 ⟨t, ht⟩
  obtain ⟨t', h1, h2, _⟩ := C25_table_file_loads hl hf locale hroom
  rw [ht] at h1
  cases h1
  constructor
  · intro hm k
    have hm' : LangMatches lang locale := hm
    rw [h2 k, effectiveRows_append]
    simp [effectiveRows, hm']
  · intro hm k
    have hm' : ¬ LangMatches lang locale := hm
    rw [h2 k, effectiveRows_append]
    simp [effectiveRows, hm']

example : FileLines demoLines ([.dflt (lit "_"), .block [(0x26, lit "_and_"), (0x26, lit "\""), (9, [])]] ++
    .langBlock (lit "EN") [(0x24, lit "money")] :: []) := demo_file

/-! ## C24: built-in tables and shipped files -/

/-- C24. table/safe.tbl holds the translations of the built-in safe table, whatever the locale. -/
theorem C24_safe_file_equals_builtin (locale : Bytes) :
    ∃ t, parseTableContent locale shipped_safe = some t ∧
      (∀ k, tableGet t k = tableGet load_builtin_safe_table k) ∧
      t.defaultTranslation = load_builtin_safe_table.defaultTranslation := by
  obtain ⟨t, h1, _, h2, h3⟩ := shipped_safe_loads locale
  refine ⟨t, h1, fun k => ?_, by rw [h3, safe_default]⟩
  rw [h2 k, safe_get, lastRow_eq_lastOf]
  exact lastOf_agree (by decide +kernel) k

/-- C24. table/unicode.tbl holds the translations of the built-in unicode table, whatever the locale. -/
theorem C24_unicode_file_equals_builtin (locale : Bytes) :
    ∃ t, parseTableContent locale shipped_unicode = some t ∧
      (∀ k, tableGet t k = tableGet load_builtin_unicode_table k) ∧
      t.defaultTranslation = load_builtin_unicode_table.defaultTranslation := by
  obtain ⟨t, h1, _, h2, h3⟩ := shipped_unicode_loads locale
  refine ⟨t, h1, fun k => ?_, by rw [h3, unicode_default]⟩
  rw [h2 k, unicode_get, lastRow_eq_lastOf]
  exact lastOf_agree (by decide +kernel) k

theorem lastOf_map (rows : List (Nat × Bytes)) (f : Bytes → Bytes) (k : Nat) :
    lastOf (rows.map (fun r => (r.1, f r.2))) k = (lastOf rows k).map f := by
  induction rows with
  | nil => rfl
  | cons r rows ih =>
    rw [List.map_cons, lastOf_cons, lastOf_cons, ih]
    cases lastOf rows k with
    | some d => rfl
    | none => by_cases h : r.1 = k <;> simp [h]

/-- C24. table/iso8859_1.tbl: same keys and default as the built-in table, but the entries are the
unexpanded text `\uXXXX`; expanding it gives the built-in entries. -/
theorem C24_iso_file_is_builtin_unexpanded (locale : Bytes) :
    ∃ t, parseTableContent locale shipped_iso8859_1 = some t ∧
      (∀ k, (tableGet t k).map expandU = tableGet load_builtin_iso8859_1_table k) ∧
      t.defaultTranslation = load_builtin_iso8859_1_table.defaultTranslation := by
  obtain ⟨t, h1, _, h2, h3⟩ := shipped_iso_loads locale
  refine ⟨t, h1, fun k => ?_, by rw [h3, iso_default]⟩
  rw [h2 k, iso_get, lastRow_eq_lastOf, ← lastOf_map]
  exact lastOf_agree (by decide +kernel) k

/-- C24. table/cp1252.tbl likewise. -/
theorem C24_cp1252_file_is_builtin_unexpanded (locale : Bytes) :
    ∃ t, parseTableContent locale shipped_cp1252 = some t ∧
      (∀ k, (tableGet t k).map expandU = tableGet load_builtin_cp1252_table k) ∧
      t.defaultTranslation = load_builtin_cp1252_table.defaultTranslation := by
  obtain ⟨t, h1, _, h2, h3⟩ := shipped_cp1252_loads locale
  refine ⟨t, h1, fun k => ?_, by rw [h3, cp1252_default]⟩
  rw [h2 k, cp1252_get, lastRow_eq_lastOf, ← lastOf_map]
  exact lastOf_agree (by decide +kernel) k

/-- C24, negative part: the shipped iso8859_1 and cp1252 files do not hold the built-in translations;
0xA1 becomes the six characters `\u00A1`, 0x80 of CP-1252 the six characters `\u20AC`. -/
theorem C24_iso_and_cp1252_files_differ (locale : Bytes) (t t' : Table)
    (h : parseTableContent locale shipped_iso8859_1 = some t)
    (h' : parseTableContent locale shipped_cp1252 = some t') :
    tableGet t 0xA1 = some (lit "\\u00A1") ∧ tableGet load_builtin_iso8859_1_table 0xA1 = some [0xC2, 0xA1] ∧
    tableGet t' 0x80 = some (lit "\\u20AC") ∧ tableGet load_builtin_cp1252_table 0x80 = some [0xE2, 0x82, 0xAC] := by
  obtain ⟨t1, h1, _, h2, _⟩ := shipped_iso_loads locale
  obtain ⟨t2, h3, _, h4, _⟩ := shipped_cp1252_loads locale
  rw [h] at h1
  rw [h'] at h3
  cases h1
  cases h3
  refine ⟨?_, ?_, ?_, ?_⟩
  · rw [h2]; decide +kernel
  · rw [iso_get]; decide +kernel
  · rw [h4]; decide +kernel
  · rw [cp1252_get]; decide +kernel

/-! ## C53: an empty default -/

/-- C53, negative: detox.tbl(5) says an empty default lets unknown characters fall through; the file
`default ""` instead replaces every unknown character by the word `default`. -/
theorem C53_empty_default_is_the_word_default (locale : Bytes) :
    (parseTableContent locale (lit "default \"\"\n")).map Table.defaultTranslation = some (some (lit "default")) ∧
    (parseTableContent locale (lit "default ''\n")).map Table.defaultTranslation = some (some (lit "default")) := by
  constructor <;> rfl

/-- C53, the part that holds: `default` with nothing after it sets no default translation. -/
theorem C53_bare_default_falls_through_partial {content l : Bytes} (hl : HasLines content [l])
    (hk : KeywordLine kwDefault l) (locale : Bytes) :
    ∃ t, parseTableContent locale content = some t ∧ t.defaultTranslation = none := by
  have hf : FileLines ([l] ++ []) [.noDefault] := .cons [l] .noDefault [] [] (.noDefault l hk) .nil
  obtain ⟨t, h1, _, h3⟩ := C25_table_file_loads hl hf locale (by simp [effectiveRows])
  exact ⟨t, h1, h3⟩

example : HasLines (lit "default") [lit "default"] ∧ KeywordLine kwDefault (lit "default") :=
  ⟨⟨by decide, Or.inr rfl⟩, .mk [] (lit "default") [] (by decide) (by decide) (by decide)⟩

/-- C53, exactly what empty words do. In a file in which `default ""` and `start ""` may occur anywhere, the
first makes its own keyword, as spelled there, the default translation, and the second makes its block one
for locales whose name begins with its keyword. Missing: the claim as it stands, false as shown above. -/
theorem C53_empty_words_partial {content : Bytes} {ls : List Bytes} {secs : List Section}
    (hl : HasLines content ls) (hf : LooseLines ls secs) (locale : Bytes)
    (hroom : (effectiveRows locale secs).length ≤ max 500 (content.length / 6)) :
    ∃ t, parseTableContent locale content = some t ∧
      (∀ k, tableGet t k = lastOf (effectiveRows locale secs) k) ∧
      t.defaultTranslation = effectiveDefault secs none := by
  obtain ⟨t, h1, _, h2, h3⟩ := (parse_lines hl locale fun _ hd => loose_actions hf hd).1 hroom
  exact ⟨t, h1, h2, h3⟩

/- Non-vacuous: `Default ''`, and a block for nobody (unless the locale is called `START...`). -/
theorem emptyWords_file : LooseLines [lit "start x", lit "1 y", lit "end", lit " Default '' none", lit "START \"\"", lit "2 z", lit "end"]
    [.langBlock (lit "x") [(1, lit "y")], .dflt (lit "Default"), .langBlock (lit "START") [(2, lit "z")]] := by
  have hrow : ∀ (d x : Byte) (v : Nat), HexDigit d v → 0 < v → v < 10 → d ≠ 0x30 → x = 0x79 ∨ x = 0x7A →
      EntryLine [d, 0x20, x] (some (v, [x])) := by
    intro d x v hd hv hv' hd0 hx
    have hn : Numeral [d] v := by
      refine .dec d [] v hd0 ?_
      have := Digits.snoc (base := 10) [] 0 d v .nil hd hv'
      simpa using this
    have hw : Word ([x] ++ []) [x] := by
      refine .bare x [] [] ?_ ?_ ?_ (Or.inl rfl)
      · rcases hx with rfl | rfl <;> decide
      · rcases hx with rfl | rfl <;> decide
      · rcases hx with rfl | rfl <;> decide
    exact .row [] [d] [0x20] [x] v [x] (by decide) hn (by decide) (by decide) hw hv (by omega)
  have hend : KeywordLine kwEnd (lit "end") := .mk [] (lit "end") [] (by decide) (by decide) (by decide)
  refine .cons [lit "start x", lit "1 y", lit "end"] _ _ _
    (.langBlock (lit "start x") (lit "x") [lit "1 y"] _ _
      (.mk [] (lit "start") [0x20] (lit "x") (lit "x") (by decide) (by decide) (by decide) (by decide) ?_ (by decide))
      (.row _ _ _ _ (hrow 0x31 0x79 1 ?_ (by decide) (by decide) (by decide) (Or.inl rfl)) .nil) hend)
    (.emptyDefault _ _ _ _ (.mk [0x20] (lit "Default") [0x20] 0x27 (lit " none") (by decide) (by decide) (by decide) (by decide)
      (Or.inr rfl)) (.emptyStart _ _ [lit "2 z"] _ _ [] [] (.mk [] (lit "START") [0x20] 0x22 [] (by decide) (by decide) (by decide)
        (by decide) (Or.inl rfl)) (.row _ _ _ _ (hrow 0x32 0x7A 2 ?_ (by decide) (by decide) (by decide) (Or.inr rfl)) .nil) hend
      .nil))
  · exact .bare 0x78 [] [] (by decide) (by decide) (by decide) (Or.inl rfl)
  · unfold HexDigit; decide
  · unfold HexDigit; decide

example : effectiveDefault [.langBlock (lit "x") [(1, lit "y")], .dflt (lit "Default"), .langBlock (lit "START") [(2, lit "z")]] none =
    some (lit "Default") := rfl

/-! ## C54: small tables with many rows -/

/-- The file `start`, then `n` lines `1 x`, then `end`. -/
def manyRows (n : Nat) : List Bytes := lit "start" :: (List.replicate n (lit "1 x") ++ [lit "end"])

theorem manyRows_file (n : Nat) : FileLines (manyRows n) [.block (List.replicate n (1, lit "x"))] := by
  have he : Entries (List.replicate n (lit "1 x")) (List.replicate n (1, lit "x")) := by
    induction n with
    | zero => exact .nil
    | succ n ih =>
      rw [List.replicate_succ, List.replicate_succ]
      refine .row _ _ _ _ ?_ ih
      exact .row [] (lit "1") (lit " ") (lit "x") _ _ (by decide)
        (.dec 0x31 [] 1 (by decide) (Digits.snoc [] 0 0x31 1 .nil (by decide) (by decide)))
        (by decide) (by decide) (.bare 0x78 [] [] (by decide) (by decide) (by decide) (Or.inl rfl)) (by decide) (by decide)
  have h := FileLines.cons (lit "start" :: List.replicate n (lit "1 x") ++ [lit "end"]) _ [] []
    (.block (lit "start") _ _ (lit "end") (.mk [] (lit "start") [] (by decide) (by decide) (by decide)) he
      (.mk [] (lit "end") [] (by decide) (by decide) (by decide))) .nil
  rw [List.append_nil] at h
  exact h

theorem manyRows_lines (n : Nat) : HasLines ((manyRows n).map (· ++ [0x0A])).flatten (manyRows n) := by
  refine ⟨?_, Or.inl rfl⟩
  intro l hl
  unfold manyRows at hl
  rw [List.mem_cons, List.mem_append, List.mem_replicate, List.mem_singleton] at hl
  rcases hl with h | ⟨_, h⟩ | h <;> subst h <;> decide

theorem manyRows_length (n : Nat) : ((manyRows n).map (· ++ [0x0A])).flatten.length = 10 + 4 * n := by
  unfold manyRows
  simp only [List.map_cons, List.map_append, List.map_replicate, List.flatten_cons, List.flatten_append,
    List.length_append, List.length_flatten, List.sum_replicate_nat, List.map_nil, List.flatten_nil, List.length_nil]
  show 6 + (n * 4 + (4 + 0)) = _
  omega

/-- C54, negative: every well-formed table with more than 500 short rows is rejected as a whole. For
every `n` above 500 the file of `n` rows `1 x` does not load. -/
theorem C54_many_short_rows_fail (locale : Bytes) (n : Nat) (hn : 500 < n) :
    FileLines (manyRows n) [.block (List.replicate n (1, lit "x"))] ∧
    parseTableContent locale ((manyRows n).map (· ++ [0x0A])).flatten = none := by
  refine ⟨manyRows_file n, (parse_documented (manyRows_lines n) (manyRows_file n) locale).2 ?_⟩
  rw [manyRows_length]
  simp [effectiveRows]
  omega

/-- C54, the part that holds: with at least 6 bytes per row (as in the shipped style `0x01 ..`) the row
limit is never hit. -/
theorem C54_long_rows_load_partial {content : Bytes} {ls : List Bytes} {secs : List Section}
    (hl : HasLines content ls) (hf : FileLines ls secs) (locale : Bytes)
    (h6 : 6 * (effectiveRows locale secs).length ≤ content.length) :
    ∃ t, parseTableContent locale content = some t := by
  obtain ⟨t, h, _⟩ := C25_table_file_loads hl hf locale (by omega)
  exact ⟨t, h⟩

example : 6 * (effectiveRows (lit "en") demoSections).length ≤ demoContent.length := by decide

/-! ## C55: over-long lines -/

/-- C55, negative: a comment line is ignored only up to 1023 bytes; the rest of it is read as a line of
its own. The file below is one single comment line, and it sets the default translation. -/
theorem C55_long_comment_leaks (locale : Bytes) :
    ((0x0A : Byte) ∉ (0x23 :: (List.replicate 1022 0x2E ++ lit "default x") : Bytes)) ∧
    (parseTableContent locale (0x23 :: (List.replicate 1022 0x2E ++ lit "default x") ++ [0x0A])).map
      Table.defaultTranslation = some (some (lit "x")) := by
  constructor
  · decide +kernel
  · have h : ∀ l ∈ fileLines 1033 (0x23 :: (List.replicate 1022 0x2E ++ lit "default x") ++ [0x0A]),
        needsLocale l = false := by decide +kernel
    unfold parseTableContent
    rw [parseTableLines_eq]
    have hlen : (0x23 :: (List.replicate 1022 0x2E ++ lit "default x") ++ [0x0A] : Bytes).length = 1033 := by
      decide +kernel
    rw [hlen, lineActions_locale h locale []]
    have : lineActions [] false (fileLines 1033 (0x23 :: (List.replicate 1022 0x2E ++ lit "default x") ++ [0x0A])) =
        [.dflt (some (lit "x"))] := by decide +kernel
    rw [this]
    rfl

/-- C55, the part that holds: a comment line of up to 1022 bytes has no effect. -/
theorem C55_short_comment_ignored_partial {content l : Bytes} {ls : List Bytes} {secs : List Section}
    (hl : HasLines content (l :: ls)) (hf : FileLines ls secs) (hc : ∃ t, l = 0x23 :: t) (locale : Bytes)
    (hroom : (effectiveRows locale secs).length ≤ max 500 (content.length / 6)) :
    ∃ t, parseTableContent locale content = some t ∧
      (∀ k, tableGet t k = lastOf (effectiveRows locale secs) k) ∧
      t.defaultTranslation = effectiveDefault secs none := by
  obtain ⟨t, e⟩ := hc
  subst e
  exact C25_table_file_loads hl (.cons [0x23 :: t] .note ls secs (.note _ (.comment t)) hf) locale hroom

/-- Empty, or up to the end of a line. -/
def WholeLines (s : Bytes) : Prop := s = [] ∨ ∃ t, s = t ++ [0x0A]

theorem takeLine_whole (n : Nat) (b x : Bytes) (hb : WholeLines b) (hne : b ≠ []) :
    takeLine n (b ++ x) = ((takeLine n b).1, (takeLine n b).2 ++ x) ∧ WholeLines (takeLine n b).2 := by
  induction b generalizing n with
  | nil => exact absurd rfl hne
  | cons c b ih =>
    cases n with
    | zero => exact ⟨rfl, hb⟩
    | succ n =>
      have hb' : b = [] ∨ WholeLines b := by
        rcases hb with hb | ⟨t, ht⟩
        · cases hb
        · cases t with
          | nil => cases ht; exact .inl rfl
          | cons d t => simp only [List.cons_append, List.cons.injEq] at ht; exact .inr (.inr ⟨t, ht.2⟩)
      by_cases hc : c = 0x0A
      · simp only [List.cons_append, takeLine, if_pos hc]
        refine ⟨trivial, ?_⟩
        rcases hb' with rfl | h
        · exact .inl rfl
        · exact h
      · rcases hb' with rfl | h
        · rcases hb with hb | ⟨t, ht⟩
          · cases hb
          · cases t with
            | nil => cases ht; exact absurd rfl hc
            | cons d t => simp at ht
        · by_cases hbe : b = []
          · subst hbe
            rcases hb with hb | ⟨t, ht⟩
            · cases hb
            · cases t with
              | nil => cases ht; exact absurd rfl hc
              | cons d t => simp at ht
          · obtain ⟨h1, h2⟩ := ih n h hbe
            simp only [List.cons_append, takeLine, if_neg hc, h1]
            exact ⟨trivial, h2⟩

theorem takeLine_shorter (n : Nat) (s : Bytes) : (takeLine n s).2.length ≤ s.length := by
  induction s generalizing n with
  | nil => cases n <;> simp [takeLine]
  | cons c s ih =>
    cases n with
    | zero => simp [takeLine]
    | succ n =>
      by_cases hc : c = 0x0A
      · simp [takeLine, hc]
      · simp only [takeLine, if_neg hc, List.length_cons]
        have := ih n
        omega

theorem takeLine_shorter' (n : Nat) (c : Byte) (s : Bytes) : (takeLine (n + 1) (c :: s)).2.length ≤ s.length := by
  by_cases hc : c = 0x0A
  · simp [takeLine, hc]
  · simp only [takeLine, if_neg hc]
    exact takeLine_shorter n s

theorem fileLines_fuel (n : Nat) : ∀ m s, s.length ≤ n → s.length ≤ m → fileLines n s = fileLines m s := by
  induction n with
  | zero =>
    intro m s h _
    cases s with
    | nil => cases m <;> rfl
    | cons c s => simp at h
  | succ n ih =>
    intro m s h hm
    cases s with
    | nil => cases m <;> rfl
    | cons c s =>
      cases m with
      | zero => simp at hm
      | succ m =>
        rw [fileLines_cons, fileLines_cons]
        have : (takeLine 1023 (c :: s)).2.length ≤ s.length := takeLine_shorter' 1022 c s
        simp only [List.length_cons] at h hm
        rw [ih m _ (by omega) (by omega)]

/-- The lines of a file that begins with whole lines. -/
theorem fileLines_whole (n : Nat) : ∀ (b x : Bytes), WholeLines b → b.length ≤ n →
    fileLines (n + x.length) (b ++ x) = fileLines n b ++ fileLines x.length x := by
  induction n with
  | zero =>
    intro b x _ h
    cases b with
    | nil => simp [fileLines]
    | cons c b => simp at h
  | succ n ih =>
    intro b x hb h
    cases b with
    | nil => rw [List.nil_append, fileLines_fuel _ x.length x (by omega) (Nat.le_refl _)]; rfl
    | cons c b =>
      obtain ⟨h1, h2⟩ := takeLine_whole 1023 (c :: b) x hb (by simp)
      have : (takeLine 1023 (c :: b)).2.length ≤ b.length := takeLine_shorter' 1022 c b
      simp only [List.length_cons] at h
      rw [show n + 1 + x.length = n + x.length + 1 by omega, List.cons_append, fileLines_cons, fileLines_cons, ← List.cons_append, h1]
      simp only
      rw [ih _ x h2 (by omega)]
      rfl

theorem lineActions_drop (ctype : Bytes) (ls1 : List Bytes) (l : Bytes) (ls2 : List Bytes) (hl : peek l = 0x23) : ∀ b,
    lineActions ctype b (ls1 ++ l :: ls2) = lineActions ctype b (ls1 ++ ls2) := by
  induction ls1 with
  | nil => intro b; simp only [List.nil_append]; rw [lineActions, if_pos hl]
  | cons x ls1 ih =>
    intro b
    simp only [List.cons_append, lineActions]
    repeat' split
    all_goals rw [ih]

theorem applyActions_nonzero (as : List LineAction) : ∀ (t t' : Table), applyActions t as = some t' → ∀ r ∈ actionRows as, r.1 ≠ 0 := by
  induction as with
  | nil => intro _ _ _ r hr; cases hr
  | cons a as ih =>
    intro t t' h
    cases a with
    | skip => exact ih t t' h
    | enter => exact ih t t' h
    | leave => exact ih t t' h
    | dflt d => exact ih _ t' h
    | row k d =>
      intro r hr
      simp only [applyActions] at h
      split at h
      · next t1 o hp =>
        rcases List.mem_cons.1 hr with rfl | hr
        · intro h0
          have := tablePut_fail (t := t) (k := k) (d := d) (.inl h0)
          rw [hp] at this
          cases this
        · exact ih _ _ h r hr
      · cases h

/-- C55, the part that holds, for every file, well-formed or not: what `fgets` takes for a line of its own and begins with `#` has no effect. That is a
comment line of up to 1022 bytes with its newline, anywhere in the file; of a longer one the first 1023 bytes. -/
theorem C55_comment_piece_ignored_partial (before piece after : Bytes) (hb : WholeLines before)
    (hp : ∃ c, piece = 0x23 :: c ∧ (0x0A : Byte) ∉ c ∧ piece.length = 1023 ∨
      piece = 0x23 :: c ++ [0x0A] ∧ (0x0A : Byte) ∉ c ∧ piece.length ≤ 1023) (locale : Bytes) (t : Table)
    (h : parseTableContent locale (before ++ after) = some t) :
    ∃ t', parseTableContent locale (before ++ (piece ++ after)) = some t' ∧ (∀ k, tableGet t' k = tableGet t k) ∧
      t'.defaultTranslation = t.defaultTranslation := by
  have hcut : ∀ n (c : Bytes), (0x0A : Byte) ∉ c → c.length = n → takeLine n (c ++ after) = (c, after) := by
    intro n c hc hn
    induction c generalizing n with
    | nil => subst hn; rfl
    | cons d c ih =>
      cases n with
      | zero => simp at hn
      | succ n =>
        have hd : d ≠ 0x0A := fun h => hc (by simp [h])
        simp only [List.cons_append, takeLine, if_neg hd]
        rw [ih n (fun h => hc (by simp [h])) (by simpa using hn)]
  have htake : takeLine 1023 (piece ++ after) = (piece, after) ∧ ∃ r, piece = 0x23 :: r := by
    obtain ⟨c, ⟨rfl, hc, hl⟩ | ⟨rfl, hc, hl⟩⟩ := hp
    · exact ⟨hcut 1023 _ (by simp [hc]) hl, c, rfl⟩
    · have := takeLine_line 1023 (0x23 :: c) after (by simp at hl ⊢; omega)
        (fun d hd e => by
          subst e
          rcases List.mem_cons.1 hd with hd | hd
          · cases hd
          · exact hc hd)
      exact ⟨by simpa using this, c ++ [0x0A], rfl⟩
  obtain ⟨ht, r, hr⟩ := htake
  unfold parseTableContent at h ⊢
  rw [parseTableLines_eq] at h ⊢
  have hl1 : fileLines (before ++ after).length (before ++ after) = fileLines before.length before ++ fileLines after.length after := by
    rw [List.length_append, fileLines_whole _ _ _ hb (Nat.le_refl _)]
  have hl2 : fileLines (before ++ (piece ++ after)).length (before ++ (piece ++ after)) =
      fileLines before.length before ++ cstr piece :: fileLines after.length after := by
    rw [List.length_append, fileLines_whole _ _ _ hb (Nat.le_refl _)]
    congr 1
    have hpos : (piece ++ after).length = (piece ++ after).length - 1 + 1 := by rw [hr]; simp
    rw [hpos]
    have : piece ++ after = 0x23 :: (r ++ after) := by rw [hr]; rfl
    rw [this, fileLines_cons, ← this, ht]
    simp only
    rw [fileLines_fuel _ after.length after ?_ (Nat.le_refl _)]
    rw [this]
    simp
  rw [hl1] at h
  have hpk : peek (cstr piece) = 0x23 := by rw [hr]; rfl
  rw [hl2, lineActions_drop _ _ _ _ hpk]
  generalize lineActions locale false (fileLines before.length before ++ fileLines after.length after) = as at h ⊢
  have hnz := applyActions_nonzero as _ _ h
  have wf := Table.WF.init
  obtain ⟨a1, a2⟩ := applyActions_spec as _ (wf (tableRowsFor (before ++ after).length)) hnz
  obtain ⟨b1, _⟩ := applyActions_spec as _ (wf (tableRowsFor (before ++ (piece ++ after)).length)) hnz
  have hmono : tableRowsFor (before ++ after).length ≤ tableRowsFor (before ++ (piece ++ after)).length := by
    have : (before ++ after).length / lineLength ≤ (before ++ (piece ++ after)).length / lineLength :=
      Nat.div_le_div_right (by simp)
    unfold tableRowsFor
    split <;> split <;> omega
  have hu : ∀ n : Int, (tableInit n).used = 0 := fun _ => rfl
  have hlen : ∀ n : Nat, (tableInit n).rows.length = rowsFor n := fun n => freshTable_length n _
  have hrf : rowsFor (tableRowsFor (before ++ after).length) ≤ rowsFor (tableRowsFor (before ++ (piece ++ after)).length) := by
    unfold rowsFor
    have h5 : 500 ≤ tableRowsFor (before ++ after).length := by unfold tableRowsFor; split <;> omega
    split <;> split <;> omega
  have hroom : (actionRows as).length ≤ (tableInit (tableRowsFor (before ++ after).length)).rows.length := by
    refine Nat.le_of_not_lt fun hlt => ?_
    rw [a2 (by rw [hu]; omega)] at h
    cases h
  obtain ⟨t1, c1, _, _, c4, c5⟩ := a1 (by rw [hu]; omega)
  obtain ⟨t2, d1, _, _, d4, d5⟩ := b1 (by rw [hu, hlen]; rw [hlen] at hroom; omega)
  rw [c1] at h
  cases h
  refine ⟨t2, d1, fun k => ?_, ?_⟩
  · rw [c5, d5]
    have : ∀ n : Int, tableGet (tableInit n) k = none := fun n => freshTable_get n _ k
    rw [this, this]
  · rw [c4, d4]
    rfl

/-- The hypotheses are met in the middle of a block, by a comment longer than the buffer, whose remainder is then read as a row. -/
example : ∃ t, parseTableContent [] (lit "start\n" ++ lit "0x41 b\nend\n") = some t ∧
    ∃ t', parseTableContent [] (lit "start\n" ++ (0x23 :: List.replicate 1022 0x2D ++ lit "0x41 b\nend\n")) = some t' ∧
      tableGet t' 0x41 = tableGet t 0x41 := by
  cases h : parseTableContent [] (lit "start\n" ++ lit "0x41 b\nend\n") with
  | none =>
    have : (parseTableContent [] (lit "start\n" ++ lit "0x41 b\nend\n")).isSome = true := by decide +kernel
    rw [h] at this
    cases this
  | some t =>
    obtain ⟨t', h', hg, _⟩ := C55_comment_piece_ignored_partial (lit "start\n") (0x23 :: List.replicate 1022 0x2D) (lit "0x41 b\nend\n")
      (.inr ⟨lit "start", rfl⟩) ⟨List.replicate 1022 0x2D, .inl ⟨rfl, fun h => absurd (List.eq_of_mem_replicate h) (by decide), by
        rw [List.length_cons, List.length_replicate]⟩⟩ [] t h
    exact ⟨t, rfl, t', h', hg _⟩

end Detox
