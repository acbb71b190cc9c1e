import Verif.Lemmas.CheckTable
import Verif.Lemmas.ConfigLoad
import Verif.Lemmas.Final
import Verif.Props.ParseTable
import Verif.Props.Safety

/-!
# C76: check-table
-/

set_option autoImplicit false

namespace Detox
open Spec

/-- C76. check-table accepts a file if and only if detox can load it where no language block applies, and then has the same table
in front of it: with and without a hash, whatever the file contains. -/
theorem C76_accepts_what_detox_loads {useHash : Bool} {f content : Bytes} {tr : List Event} {r : Option Table}
    (h : Trace (checkTable useHash f) (.slurp (some f) (some content) :: tr) (.ret r)) :
    (r = none ↔ parseTableContent [] content = none) ∧
    ∀ t t', r = some t → parseTableContent [] content = some t' →
      (∀ k, tableGet t k = tableGet t' k) ∧ t.defaultTranslation = t'.defaultTranslation ∧ t.maxDataLength = t'.maxDataLength := by
  have hn : ∀ l ∈ fileLines content.length content, NulFree l := fun l hl => (fileLines_facts _ _ l hl).1
  obtain ⟨ha, hd⟩ := checkActs_lineActions _ hn false
  have hp : parseTableContent [] content =
      applyActions (freshTable (tableRowsFor content.length) true) (lineActions [] false (fileLines content.length content)) := by
    unfold parseTableContent
    rw [parseTableLines_eq]
    rfl
  have hwf : ∀ b, (freshTable (tableRowsFor content.length) b).WF := fun b => freshTable_WF _ b
  have hu : ∀ b, (freshTable (tableRowsFor content.length) b).used = 0 := fun _ => rfl
  have hl := fun b => fresh_rows content.length b
  rcases checkTable_ret h with ⟨t, rfl, _, hrev⟩ | ⟨notes, k, d, rfl, _, _, hun⟩
  · have h1 : ∀ r ∈ actionRows (lineActions [] false (fileLines content.length content)), r.1 ≠ 0 := by
      rw [ha]
      intro r hr h0
      exact hrev.loads (.inl ⟨r, hr, h0⟩)
    have h2 : (freshTable (tableRowsFor content.length) true).used +
        (actionRows (lineActions [] false (fileLines content.length content))).length ≤
          (freshTable (tableRowsFor content.length) true).rows.length := by
      rw [ha, hl, hu]
      have := mt Or.inr hrev.loads
      rw [hl, hu] at this
      omega
    obtain ⟨t', g1, g2, g3, g4, g5⟩ := (applyActions_spec _ _ (hwf true) h1).1 h2
    refine ⟨⟨nofun, fun hc => ?_⟩, ?_⟩
    · rw [hp, g1] at hc
      cases hc
    · intro t1 t2 he1 he2
      cases he1
      rw [hp, g1] at he2
      cases he2
      obtain ⟨hm, _⟩ := applyActions_longest _ _ _ (hwf true) g1
      refine ⟨fun k => ?_, ?_, ?_⟩
      · rw [hrev.get, g5, ha, freshTable_get, freshTable_get]
        cases lastOf (checkRows (checkActs false (fileLines content.length content))) k <;> rfl
      · rw [hrev.dflt, g4, hd]
        rfl
      · rw [hrev.longest, hm, ha]
        rfl
  · refine ⟨⟨fun _ => ?_, fun _ => rfl⟩, nofun⟩
    rw [hp]
    cases hx : applyActions (freshTable (tableRowsFor content.length) true) (lineActions [] false (fileLines content.length content)) with
    | none => rfl
    | some t' =>
      exfalso
      have key : ∀ (as : List LineAction) (t t' : Table), t.WF → applyActions t as = some t' → ¬ Unloadable t (actionRows as) := by
        intro as
        induction as with
        | nil =>
          rintro t t' hw _ (⟨r, hr, _⟩ | hc)
          · cases hr
          · have := hw.cap
            simp [actionRows] at hc
            omega
        | cons a as ih =>
          intro t t' hw hap
          cases a with
          | skip => exact ih t t' hw hap
          | enter => exact ih t t' hw hap
          | leave => exact ih t t' hw hap
          | dflt d =>
            have := ih { t with defaultTranslation := d } t' (hw.withDefault d) hap
            exact this
          | row k d =>
            rw [applyActions] at hap
            cases hpt : tablePut t k d with
            | mk t1 o =>
              rw [hpt] at hap
              cases o with
              | none => cases hap
              | some o =>
                obtain ⟨hk, hu, _⟩ := tableGet_self hw hpt
                obtain ⟨_, _, he, hwf1, hrows, hused, _⟩ := hw.put_ok hk hu d
                rw [hpt] at he
                cases he
                have := ih t1 t' hwf1 hap
                rintro (⟨r, hr, h0⟩ | hc)
                · rcases List.mem_cons.1 hr with rfl | hr
                  · exact hk h0
                  · exact this (.inl ⟨r, hr, h0⟩)
                · apply this
                  right
                  rw [hused, hrows, List.length_set]
                  simp only [actionRows, List.length_cons] at hc
                  omega
      refine key _ _ _ (hwf true) hx ?_
      rw [ha]
      rcases hun with hz | hc
      · exact .inl hz
      · right
        rw [hl, hu] at hc ⊢
        exact hc

/-- C76. What a file in the documented format gets to read: notices on the order of codes, on blocks for languages and on too little
room, in this order and nothing else; and check-table then holds the table that the file describes. It takes as many rows outside
of language blocks as the loader does. -/
theorem C76_report {content : Bytes} {ls : List Bytes} {secs : List Section} (hl : HasLines content ls) (hf : FileLines ls secs)
    (hroom : (plainRows secs).length ≤ max 500 (content.length / 6)) (useHash : Bool) (f : Bytes) :
    ∃ texts t, Report (notices secs) texts ∧ (∀ k, tableGet t k = lastOf (plainRows secs) k) ∧
      t.defaultTranslation = effectiveDefault secs none ∧
      ∀ tr r, Trace (checkTable useHash f) (.slurp (some f) (some content) :: tr) (.ret r) ↔ tr = texts.map Event.out ∧ r = some t := by
  obtain ⟨ls', hd, he⟩ := hasLines_check hl
  have hacts := he.trans (checkActs_file hf hd)
  have hs := fun b => fresh_rows content.length b
  have hshort := checkLengths_short _ (fileLines_facts content.length content) false
  have hlang := checkActs_languages (b := false) (ls := fileLines content.length content)
  rcases checkTable_eq useHash content with ⟨t, h1, h2⟩ | ⟨notes, k, d, h1, h2, h3⟩
  · rw [hacts] at h1 h2 hshort hlang
    rw [sectionActs_lengths] at h1
    rw [sectionActs_rows, sectionActs_default] at h2
    have hmax : t.maxDataLength = longest ((plainRows secs).map Prod.snd) := by
      rw [h2.longest, longestOf_eq]
      show max 0 _ = _
      omega
    have hneed : neededRoom secs < 10 ^ 10 := by
      rw [← sectionActs_lengths]
      have := longestOf_le (n := 1) (m := 1023) (by omega) hshort
      omega
    have hlong : longest ((plainRows secs).map Prod.snd) < 10 ^ 10 := by
      unfold neededRoom at hneed
      omega
    refine ⟨checkNotes 0 (sectionActs secs) ++ (if t.maxDataLength = neededRoom secs then []
      else [lengthWarning t.maxDataLength (neededRoom secs)]), t, ?_, ?_, h2.dflt, ?_⟩
    · unfold notices
      refine (checkNotes_sections secs 0 (by omega) fun r hr => (plainRows_small hf r hr).2).append ?_
      rw [hmax]
      split
      · exact .nil
      · exact .cons _ _ _ _ (.length _ _ _ _ (decDigits_decimal 10 _ hlong (by omega)) (decDigits_decimal 10 _ hneed (by omega))) .nil
    · intro k
      rw [h2.get, freshTable_get]
      cases lastOf (plainRows secs) k <;> rfl
    · intro tr r
      unfold checkTable
      constructor
      · intro h
        cases h with
        | slurp _ _ _ _ _ h =>
          dsimp only at h
          rw [h1] at h
          obtain ⟨h4, h5⟩ := trace_says_ret h
          refine ⟨?_, h4⟩
          rw [h5, List.map_map]
          rfl
      · rintro ⟨rfl, rfl⟩
        refine .slurp _ _ _ _ _ ?_
        dsimp only
        rw [h1]
        have := says_ret ((checkNotes 0 (sectionActs secs) ++
          (if t.maxDataLength = neededRoom secs then [] else [lengthWarning t.maxDataLength (neededRoom secs)])).map fun s => (false, s)) (some t)
        rw [List.map_map] at this
        exact this
  · exfalso
    rw [hacts, sectionActs_rows] at h3
    rcases h3 with ⟨r, hr, h0⟩ | hc
    · exact (plainRows_small hf r hr).1 h0
    · rw [hs] at hc
      change _ < 0 + _ at hc
      omega

/-- C76. A check that fails says so: the last thing printed is an error naming a row that cannot be added. The other error of the first
pass, on a row that was added and cannot be found again, is never printed. -/
theorem C76_failure_is_reported {useHash : Bool} {f content : Bytes} {tr : List Event} {r : Option Table}
    (h : Trace (checkTable useHash f) (.slurp (some f) (some content) :: tr) (.ret r)) :
    (r = none → ∃ (outs : List Bytes) (msg : Bytes), tr = outs.map Event.out ++ [.err (lit "Failed to add row 0x" ++ msg)]) ∧
    (r ≠ none → ∀ s, Event.err s ∉ tr) := by
  rcases checkTable_ret h with ⟨t, rfl, htr, _⟩ | ⟨notes, k, d, rfl, htr, _, _⟩
  · refine ⟨nofun, fun _ s hs => ?_⟩
    rw [htr, List.mem_map] at hs
    obtain ⟨_, _, hc⟩ := hs
    cases hc
  · refine ⟨fun _ => ⟨notes, printfHex false 4 k ++ lit " \"" ++ d ++ lit "\" " ++ lit "to" ++ lit " translation table\n", ?_⟩, fun h => absurd rfl h⟩
    rw [htr]
    unfold failedMessage
    rw [show lit "Failed to " ++ lit "add" ++ lit " row 0x" = lit "Failed to add row 0x" from by decide]
    simp only [List.append_assoc]

/-- C76. If check-table accepts a file and does not warn about its lengths, then the filters stay within their buffers with the table that
detox loads from the file, whatever the locale. (With `utf_8`, and names with an encoded NUL, the table must have an entry of 7 bytes.) -/
theorem C76_no_warning_means_in_bounds {useHash : Bool} {f content : Bytes} {tr : List Event} {t : Table}
    (h : Trace (checkTable useHash f) (.slurp (some f) (some content) :: tr) (.ret (some t)))
    (hw : ∀ rest, Event.out (lit "warning - table max length" ++ rest) ∉ tr) (locale : Bytes) (t' : Table)
    (ht : parseTableContent locale content = some t') (P : Platform) (s : Bytes) (hs : NulFree s) :
    (∃ out, cleanSafe P (some t') s = .ok out) ∧ (∃ out, cleanIso (some t') s = .ok out) ∧
    (¬ HasEncodedNul s ∨ 7 ≤ t'.maxDataLength → ∃ out, cleanUtf8 (some t') s = .ok out) := by
  refine C17_tables_in_bounds_partial P t' ?_ s hs
  have hn : ∀ l ∈ fileLines content.length content, NulFree l := fun l hl => (fileLines_facts _ _ l hl).1
  obtain ⟨ha, hd⟩ := checkActs_locale locale _ hn false false (by simp)
  rcases checkTable_ret h with ⟨t1, he, htr, hrev⟩ | ⟨notes, k, d, he, _⟩
  rotate_left
  · cases he
  cases he
  have hp : parseTableContent locale content =
      applyActions (freshTable (tableRowsFor content.length) true) (lineActions locale false (fileLines content.length content)) := by
    unfold parseTableContent
    rw [parseTableLines_eq]
    rfl
  have heq : t.maxDataLength = longestOf 1 (checkLengths (checkActs false (fileLines content.length content))) := by
    refine Decidable.byContradiction fun hne => ?_
    rw [if_neg hne] at htr
    refine hw (lit " (" ++ printfDec t.maxDataLength ++ lit ") doesn't match our calculation (" ++
        printfDec (longestOf 1 (checkLengths (checkActs false (fileLines content.length content)))) ++ lit ")\n")
      (htr ▸ List.mem_map.2 ⟨_, List.mem_append_right _ (List.mem_singleton.2 rfl), ?_⟩)
    · unfold lengthWarning
      rw [show lit "warning - table max length (" = lit "warning - table max length" ++ lit " (" from by decide]
      simp only [List.append_assoc]
  rw [hp] at ht
  obtain ⟨hm, hdf⟩ := applyActions_longest _ _ _ (freshTable_WF _ true) ht
  have hge : t.maxDataLength ≤ t'.maxDataLength := by
    rw [hrev.longest, hm]
    refine longestOf_le (longestOf_ge _ _) fun d hd => ?_
    obtain ⟨r, hr, rfl⟩ := List.mem_map.1 hd
    exact longestOf_mem _ _ _ (List.mem_map.2 ⟨r, ha.mem hr, rfl⟩)
  refine ⟨?_, ?_, ?_⟩
  · have := (parseTable_loaded (ctype := locale) (content := content) (t := t') (by rw [hp]; exact ht)).reach
    exact this
  · have := longestOf_ge 1 (checkLengths (checkActs false (fileLines content.length content)))
    omega
  · intro d hdd
    rcases hdf d hdd with h0 | h0
    · cases h0
    · have := longestOf_mem 1 _ d (hd d h0)
      omega

/-- C76. The second check (`-b`), of the same content in a table as small as a built-in one, fails exactly if two rows of a file in the
documented format disagree on the translation of a code. Otherwise the table is still the same. -/
theorem C76_second_check {content : Bytes} {ls : List Bytes} {secs : List Section} (hl : HasLines content ls) (hf : FileLines ls secs)
    {useHash : Bool} {f : Bytes} {tr tr' : List Event} {t : Table} {r : Option Table}
    (h : Trace (checkTable useHash f) (.slurp (some f) (some content) :: tr) (.ret (some t)))
    (h' : Trace (checkTableAgain f (some t)) (.slurp (some f) (some content) :: tr') (.ret r)) :
    (r = none ↔ ∃ k d d', (k, d) ∈ plainRows secs ∧ (k, d') ∈ plainRows secs ∧ d ≠ d') ∧
    (∀ t', r = some t' → ∀ k, tableGet t' k = tableGet t k) := by
  obtain ⟨ls', hd, he⟩ := hasLines_check hl
  have hacts := he.trans (checkActs_file hf hd)
  rcases checkTable_ret h with ⟨t1, he, htr, hrev⟩ | ⟨notes, k, d, he, _⟩
  rotate_left
  · cases he
  cases he
  rw [hacts, sectionActs_rows] at hrev
  have hget : ∀ k, tableGet t k = lastOf (plainRows secs) k := by
    intro k
    rw [hrev.get, freshTable_get]
    cases lastOf (plainRows secs) k <;> rfl
  obtain ⟨hres, _⟩ := C22_resize_preserves t hrev.reach (loaderRows t.used) true (by
    have := hrev.wf.count
    unfold Table.entries rowsFor loaderRows
    split <;> omega)
  have hlast : ∀ k d, (k, d) ∈ plainRows secs → ∃ d', lastOf (plainRows secs) k = some d' ∧ (k, d') ∈ plainRows secs := by
    intro k d hm
    unfold lastOf
    cases hx : List.find? (fun r => decide (r.1 = k)) (plainRows secs).reverse with
    | none =>
      rw [List.find?_eq_none] at hx
      exact absurd (decide_eq_true rfl) (hx (k, d) (by simpa using hm))
    | some r =>
      have h1 := List.find?_some hx
      have h2 := List.mem_of_find?_eq_some hx
      obtain ⟨k', d'⟩ := r
      simp only [decide_eq_true_eq] at h1
      subst h1
      exact ⟨d', rfl, by simpa using h2⟩
  unfold checkTableAgain at h'
  cases h' with
  | slurp _ _ _ _ _ h' =>
    dsimp only at h'
    rcases checkAgainLines_eq (fileLines content.length content) false (tableResize t (loaderRows t.used) true) with
      ⟨hall, b', hh, mm, ss, _, _, _, h1⟩ | ⟨notes, k, d, hm, hne, h1⟩
    · rw [h1, Prog.says_bind] at h'
      obtain ⟨h4, _⟩ := trace_says_ret h'
      subst h4
      rw [hacts, sectionActs_rows] at hall
      refine ⟨⟨nofun, ?_⟩, ?_⟩
      · rintro ⟨k, d, d', m1, m2, hne⟩
        have e1 := hall _ m1
        have e2 := hall _ m2
        rw [e1] at e2
        exact absurd (Option.some.inj e2) hne
      · intro t' he k
        cases he
        exact hres k
    · rw [h1, Prog.says_bind] at h'
      obtain ⟨h4, _⟩ := trace_says_ret h'
      subst h4
      rw [hacts, sectionActs_rows] at hm
      refine ⟨⟨fun _ => ?_, fun _ => rfl⟩, nofun⟩
      obtain ⟨d', hd', hmem⟩ := hlast k d hm
      refine ⟨k, d, d', hm, hmem, ?_⟩
      rintro rfl
      rw [hres, hget, hd'] at hne
      exact hne rfl

/-! ### Cases -/

/-- The file of C25 and C26, in check-table: a code twice in a row, one that comes after a greater one, a block for a language. -/
example : notices demoSections = [.twice 0x26, .after 9 0x26, .skipped (lit "EN")] := by decide

example (f : Bytes) : ∃ texts t, Report [.twice 0x26, .after 9 0x26, .skipped (lit "EN")] texts ∧
    (∀ k, tableGet t k = lastOf (plainRows demoSections) k) ∧ t.defaultTranslation = some (lit "_") ∧
    ∀ tr r, Trace (checkTable true f) (.slurp (some f) (some demoContent) :: tr) (.ret r) ↔ tr = texts.map Event.out ∧ r = some t :=
  C76_report demo_lines demo_file (by decide) true f

/-- `start`, a row, `default` with more bytes, and what check-table says: no room. -/
def tightTable : Bytes := lit "start\n0x20 _\nend\ndefault abc\n"

example : ∃ t, Trace (checkTable true (lit "t")) [.slurp (some (lit "t")) (some tightTable),
    .out (lit "warning - table max length (1) doesn't match our calculation (3)\n")] (.ret (some t)) := by
  have h : (match (checkTable true (lit "t")).result [.slurp (some (lit "t")) (some tightTable),
    .out (lit "warning - table max length (1) doesn't match our calculation (3)\n")] with
    | some (some _) => true
    | _ => false) = true := by decide +kernel
  split at h
  · rename_i t ht
    exact ⟨t, Prog.result_sound _ _ _ ht⟩
  · cases h

/-- Nothing to say: the hypotheses of `C76_no_warning_means_in_bounds` are met. -/
def quietTable : Bytes := lit "start\n0x20 _\n0x26 and\nend\ndefault abc\n"

example : ∃ t, Trace (checkTable true (lit "t")) [.slurp (some (lit "t")) (some quietTable)] (.ret (some t)) ∧
    ∃ t', parseTableContent (lit "en_US.UTF-8") quietTable = some t' := by
  have h : (match (checkTable true (lit "t")).result [.slurp (some (lit "t")) (some quietTable)] with
    | some (some _) => true
    | _ => false) = true := by decide +kernel
  have h2 : (parseTableContent (lit "en_US.UTF-8") quietTable).isSome = true := by decide +kernel
  split at h
  · rename_i t ht
    exact ⟨t, Prog.result_sound _ _ _ ht, Option.isSome_iff_exists.1 h2⟩
  · cases h

/-- The file of C25 fails the second check, as it has two translations for 0x26. -/
example : (0x26, lit "_and_") ∈ plainRows demoSections ∧ (0x26, lit "\"") ∈ plainRows demoSections ∧ lit "_and_" ≠ lit "\"" := by decide

/-! ### The whole program -/

/-- Every execution of `check_table`. -/
theorem checkTable_end {useHash : Bool} {f : Bytes} {tr : List Event} {o : Outcome (Option Table)} (h : Trace (checkTable useHash f) tr o) :
    o = .running ∨ ∃ r, o = .ret r ∧ (r = none → (∃ s, Event.err s ∈ tr) ∨ Event.slurp (some f) none ∈ tr) := by
  unfold checkTable at h
  cases h with
  | stop => exact .inl rfl
  | slurp _ _ a _ _ h =>
    cases a with
    | none =>
      dsimp only at h
      cases h with
      | stop => exact .inl rfl
      | ret => exact .inr ⟨_, rfl, fun _ => .inr (by simp)⟩
    | some content =>
      dsimp only at h
      rcases checkTable_eq useHash content with ⟨t, h1, h2⟩ | ⟨notes, k, d, h1, h2, h3⟩
      · rw [h1] at h
        rcases trace_says h with ⟨h, _⟩ | ⟨tr', _, h⟩
        · exact .inl h
        · cases h with
          | stop => exact .inl rfl
          | ret => exact .inr ⟨_, rfl, nofun⟩
      · rw [h1] at h
        rcases trace_says h with ⟨h, _⟩ | ⟨tr', h4, h⟩
        · exact .inl h
        · refine (show o = .running ∨ o = .ret none by cases h with
            | stop => exact .inl rfl
            | ret => exact .inr rfl).imp id fun ho => ⟨none, ho, fun _ => .inl ⟨failedMessage (lit "add") k d (lit "to"), ?_⟩⟩
          rw [h4]
          simp [saidEvent]

theorem checkAgain_end {f : Bytes} {source : Option Table} {tr : List Event} {o : Outcome (Option Table)}
    (h : Trace (checkTableAgain f source) tr o) : o = .running ∨ (∃ r, o = .ret r) ∨ (o = .ub .oobRead ∧ source = none) := by
  unfold checkTableAgain at h
  cases h with
  | stop => exact .inl rfl
  | slurp _ _ a _ _ h =>
    cases a with
    | none =>
      dsimp only at h
      cases h with
      | stop => exact .inl rfl
      | ret => exact .inr (.inl ⟨_, rfl⟩)
    | some content =>
      cases source with
      | none =>
        dsimp only at h
        cases h with
        | stop => exact .inl rfl
        | ub => exact .inr (.inr ⟨rfl, rfl⟩)
      | some t =>
        dsimp only at h
        have key : ∀ (es : List (Bool × Bytes)) (r : Option Table), Trace (Prog.says es (Prog.ret r)) ‹List Event› o →
            o = .running ∨ (∃ r, o = .ret r) ∨ (o = .ub .oobRead ∧ some t = none) := by
          intro es r h
          rcases trace_says h with ⟨h, _⟩ | ⟨tr', _, h⟩
          · exact .inl h
          · cases h with
            | stop => exact .inl rfl
            | ret => exact .inr (.inl ⟨_, rfl⟩)
        rcases checkAgainLines_eq (fileLines content.length content) false (tableResize t (loaderRows t.used) true) with
          ⟨_, b', hh, mm, ss, _, _, _, h1⟩ | ⟨notes, k, d, _, _, h1⟩
        · rw [h1, Prog.says_bind] at h
          exact key _ _ h
        · rw [h1, Prog.says_bind] at h
          exact key _ _ h

theorem printfString_ok {e : CheckEnv} (he : e.nullText ≠ none) (s : Option Bytes) : ∃ t, printfString e s = .ok t := by
  unfold printfString
  cases s with
  | some s => exact ⟨s, rfl⟩
  | none =>
    cases h : e.nullText with
    | none => exact absurd h he
    | some t => exact ⟨t, rfl⟩

theorem tableDump_ok {e : CheckEnv} (he : e.nullText ≠ none) (v : Bool) (rows : List Row) : ∀ i, ∃ t, tableDump e v i rows = .ok t := by
  induction rows with
  | nil => intro i; exact ⟨[], rfl⟩
  | cons r rows ih =>
    intro i
    obtain ⟨t, ht⟩ := ih (i + 1)
    obtain ⟨d, hd⟩ := printfString_ok he r.data
    unfold tableDump
    split
    · rw [ht]; exact ⟨_, rfl⟩
    · rw [hd, ht]; exact ⟨_, rfl⟩

theorem tableStats_ok {e : CheckEnv} (he : e.nullText ≠ none) (t : Table) : ∃ s, tableStats e t = .ok s := by
  obtain ⟨d, hd⟩ := printfString_ok he t.defaultTranslation
  unfold tableStats
  rw [hd]
  exact ⟨_, rfl⟩

/-- Every execution for one file. -/
theorem checkFile_end {e : CheckEnv} (he : e.nullText ≠ none) {o : CheckOptions} {f : Bytes} {tr : List Event} {oc : Outcome Unit}
    (h : Trace (checkFile e o f) tr oc) :
    oc = .running ∨ oc = .exit 0 ∨
      (oc = .ub .oobRead ∧ o.builtin = true ∧ ((∃ s, Event.err s ∈ tr) ∨ Event.slurp (some f) none ∈ tr)) := by
  unfold checkFile at h
  cases h with
  | stop => exact .inl rfl
  | out _ _ tr _ h =>
    rcases trace_bind_any h with ⟨r, tr1, tr2, rfl, h1, h2⟩ | ⟨o', hs, h1⟩
    · have hfail : r = none → (∃ s, Event.err s ∈ tr1) ∨ Event.slurp (some f) none ∈ tr1 := by
        rcases checkTable_end h1 with hx | ⟨r', hx, hy⟩
        · cases hx
        · cases hx; exact hy
      have rest : ∀ {tr : List Event} {r : Option Table}, Trace (match r with
          | none => Prog.exit 0
          | some t =>
            (if o.dump = true then (Prog.ofRes (tableDump e o.verbose 0 t.rows)).bind fun s => .out s (.ret ()) else .ret ()).bind fun _ =>
              (Prog.ofRes (tableStats e t)).bind fun s => .out s (.exit 0)) tr oc → oc = .running ∨ oc = .exit 0 := by
        intro tr r h
        cases r with
        | none =>
          cases h with
          | stop => exact .inl rfl
          | exit => exact .inr rfl
        | some t =>
          obtain ⟨s, hs⟩ := tableStats_ok he t
          obtain ⟨d, hd⟩ := tableDump_ok he o.verbose t.rows 0
          dsimp only at h
          rw [hs, hd] at h
          have fin : ∀ {tr : List Event}, Trace (Prog.out s (.exit 0) : Prog Unit) tr oc → oc = .running ∨ oc = .exit 0 := by
            intro tr h
            cases h with
            | stop => exact .inl rfl
            | out _ _ _ _ h =>
              cases h with
              | stop => exact .inl rfl
              | exit => exact .inr rfl
          split at h
          · cases h with
            | stop => exact .inl rfl
            | out _ _ _ _ h => exact fin h
          · exact fin h
      rcases trace_bind_any h2 with ⟨r', tr3, tr4, rfl, h3, h4⟩ | ⟨o', hs, h3⟩
      · rcases rest h4 with h | h
        · exact .inl h
        · exact .inr (.inl h)
      · split at h3
        · rename_i hb
          rcases checkAgain_end h3 with rfl | ⟨r', rfl⟩ | ⟨rfl, hn⟩
          · cases hs; exact .inl rfl
          · cases hs
          · cases hs
            refine .inr (.inr ⟨rfl, hb, ?_⟩)
            rcases hfail hn with ⟨s, h⟩ | h
            · exact .inl ⟨s, by simp [h]⟩
            · exact .inr (by simp [h])
        · cases h3 with
          | stop => cases hs; exact .inl rfl
          | ret => cases hs
    · rcases checkTable_end h1 with rfl | ⟨r, rfl, _⟩
      · cases hs; exact .inl rfl
      · cases hs

theorem checkItems_end {program : Bytes} (is : List (Option Byte)) : ∀ {o : CheckOptions} {tr : List Event} {oc : Outcome CheckOptions},
    Trace (checkItems program o is) tr oc →
    (∀ p r, Event.slurp p r ∉ tr) ∧ (oc = .running ∨ (∃ o', oc = .ret o') ∨ oc = .exit 0 ∨ oc = .exit 255) := by
  induction is with
  | nil =>
    intro o tr oc h
    cases h with
    | stop => exact ⟨by simp, .inl rfl⟩
    | ret => exact ⟨by simp, .inr (.inl ⟨_, rfl⟩)⟩
  | cons i is ih =>
    intro o tr oc h
    cases i with
    | none =>
      cases h with
      | stop => exact ⟨by simp, .inl rfl⟩
      | err _ _ _ _ h =>
        cases h with
        | stop => exact ⟨by simp, .inl rfl⟩
        | err _ _ _ _ h =>
          cases h with
          | stop => exact ⟨by simp, .inl rfl⟩
          | exit => exact ⟨by simp, .inr (.inr (.inr rfl))⟩
    | some c =>
      rw [checkItems] at h
      split at h
      · exact ih h
      · split at h
        · exact ih h
        · split at h
          · cases h with
            | stop => exact ⟨by simp, .inl rfl⟩
            | out _ _ _ _ h =>
              cases h with
              | stop => exact ⟨by simp, .inl rfl⟩
              | exit => exact ⟨by simp, .inr (.inr (.inl rfl))⟩
          · split at h
            · exact ih h
            · exact ih h

/-- C76. The exit status says nothing about the table: it is 0 once a file has been looked at, and 255 only for an unknown option or a
missing operand. Under the GNU C library (which prints a text for a NULL string), the program does nothing undefined, unless `-b` is
given and the first check failed or the file could not be read. -/
theorem C76_exit_status {e : CheckEnv} (he : e.nullText ≠ none) {program : Bytes} {posix : Bool} {args : List Bytes} {tr : List Event}
    {oc : Outcome Unit} (h : Trace (checkMain e program posix args) tr oc) :
    oc = .running ∨ oc = .exit 0 ∨ (oc = .exit 255 ∧ ∀ p r, Event.slurp p r ∉ tr) ∨
    (oc = .ub .oobRead ∧ ((∃ s, Event.err s ∈ tr) ∨ ∃ f, Event.slurp (some f) none ∈ tr)) := by
  unfold checkMain at h
  rcases trace_bind_any h with ⟨o, tr1, tr2, rfl, h1, h2⟩ | ⟨o', hs, h1⟩
  · have hq := (checkItems_end _ h1).1
    split at h2
    · cases h2 with
      | stop => exact .inl rfl
      | out _ _ _ _ h2 =>
        cases h2 with
        | stop => exact .inl rfl
        | exit =>
          refine .inr (.inr (.inl ⟨rfl, fun p r hm => ?_⟩))
          rw [List.mem_append] at hm
          rcases hm with hm | hm
          · exact hq p r hm
          · simp at hm
    · rcases checkFile_end he h2 with h | h | ⟨h, _, h'⟩
      · exact .inl h
      · exact .inr (.inl h)
      · refine .inr (.inr (.inr ⟨h, ?_⟩))
        rcases h' with ⟨s, h⟩ | h
        · exact .inl ⟨s, by simp [h]⟩
        · exact .inr ⟨_, List.mem_append_right _ h⟩
  · obtain ⟨hq, h | ⟨o', rfl⟩ | rfl | rfl⟩ := checkItems_end _ h1
    · subst h; cases hs; exact .inl rfl
    · cases hs
    · cases hs; exact .inr (.inl rfl)
    · cases hs; exact .inr (.inr (.inl ⟨rfl, hq⟩))

/-- The library of the examples. -/
def gnuEnv : CheckEnv := { percent := fun _ _ => lit "0.00", nullText := some (lit "(null)") }

/-- `start`, a row for the code 0, which no table takes, `end`. -/
def zeroTable : Bytes := lit "start\n0 x\nend\n"

/-- C76: a table that fails, and status 0. -/
theorem C76_failed_check_exits_with_success :
    Trace (checkMain gnuEnv (lit "check-table") false [lit "t"])
      [.out (lit "checking: t\n"), .slurp (some (lit "t")) (some zeroTable),
       .err (lit "Failed to add row 0x0000 \"x\" to translation table\n")] (.exit 0) :=
  Prog.final_sound _ _ _ (by decide +kernel)

/-- C76: the same with `-b` uses a NULL pointer. -/
theorem C76_failed_check_with_b_is_undefined :
    Trace (checkMain gnuEnv (lit "check-table") false [lit "-b", lit "t"])
      [.out (lit "checking: t\n"), .slurp (some (lit "t")) (some zeroTable),
       .err (lit "Failed to add row 0x0000 \"x\" to translation table\n"),
       .slurp (some (lit "t")) (some zeroTable)] (.ub .oobRead) :=
  Prog.final_sound _ _ _ (by decide +kernel)

/-- C76: by ISO C alone, a table without a default translation is enough, as the statistics print a NULL pointer with `%s`. -/
theorem C76_statistics_print_a_null_pointer :
    Trace (checkMain { gnuEnv with nullText := none } (lit "check-table") false [lit "t"])
      [.out (lit "checking: t\n"), .slurp (some (lit "t")) (some (lit "start\n0x20 _\nend\n"))] (.ub .oobRead) :=
  Prog.final_sound _ _ _ (by decide +kernel)

end Detox
