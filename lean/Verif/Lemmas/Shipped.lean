import Verif.Lemmas.ParseTable
import Verif.Model.ShippedTables

/-!
# Loading the shipped table files
-/

set_option autoImplicit false

namespace Detox

open Spec

/-- The line consults the locale. -/
def needsLocale (work : Bytes) : Bool :=
  match scanToken work with
  | none => false
  | some (parsed, rest) => strncaseeq 5 parsed (lit "start") && decide (rest ≠ [])

theorem baseLine_locale {work : Bytes} (h : needsLocale work = false) (c c' : Bytes) :
    baseLine c work = baseLine c' work := by
  unfold needsLocale at h
  unfold baseLine
  cases hsc : scanToken work with
  | none => rfl
  | some p =>
    obtain ⟨parsed, rest⟩ := p
    rw [hsc] at h
    simp only at h ⊢
    by_cases hs : strncaseeq 5 parsed (lit "start") = true
    · rw [hs] at h
      have h' : rest = [] := by simpa using h
      simp [h']
    · simp [hs]

theorem lineActions_locale {ls : List Bytes} (h : ∀ l ∈ ls, needsLocale l = false) (c c' : Bytes) (b : Bool) :
    lineActions c b ls = lineActions c' b ls := by
  induction ls generalizing b with
  | nil => rfl
  | cons l ls ih =>
    have ih' := ih (fun l hl => h l (by simp [hl]))
    rw [lineActions, lineActions, baseLine_locale (h l (by simp)) c c']
    simp only [ih']

/-- The pairs stored in a list of rows. -/
def pairsOf (rs : List Row) : List (Nat × Bytes) :=
  rs.filterMap (fun r => if r.key = 0 then none else r.data.map (fun d => (r.key, d)))

theorem lastRow_eq_lastOf (rs : List Row) (k : Nat) : lastRow rs k = lastOf (pairsOf rs) k := by
  induction rs with
  | nil => rfl
  | cons r rs ih =>
    unfold lastRow pairsOf
    rw [ih, List.filterMap_cons]
    obtain ⟨key, data⟩ := r
    by_cases h0 : key = 0
    · simp only [h0, if_true]
      show _ = lastOf (pairsOf rs) k
      cases lastOf (pairsOf rs) k with
      | some d => rfl
      | none =>
        simp only
        rw [if_neg (by omega)]
    · simp only [h0, if_false]
      cases data with
      | none =>
        show _ = lastOf (pairsOf rs) k
        cases lastOf (pairsOf rs) k with
        | some d => rfl
        | none => simp
      | some d =>
        simp only [Option.map_some]
        rw [lastOf_cons]
        show _ = match lastOf (pairsOf rs) k with
          | some d => some d
          | none => if key = k then some d else none
        cases lastOf (pairsOf rs) k with
        | some d => rfl
        | none =>
          simp only
          by_cases hk : key = k
          · simp [hk]; omega
          · simp [hk]

/-- Parsing a file whose lines are all short and NUL-free. -/
theorem parse_shipped (ls : List Bytes) (hg : ∀ l ∈ ls, GoodLine l)
    (hloc : ∀ l ∈ ls, needsLocale (l ++ [0x0A]) = false)
    (hrows : ∀ r ∈ actionRows (lineActions [] false (ls.map (· ++ [0x0A]))), r.1 ≠ 0)
    (hn : (actionRows (lineActions [] false (ls.map (· ++ [0x0A])))).length ≤ 500) (ctype : Bytes) :
    ∃ t, parseTableContent ctype (ls.map (· ++ [0x0A])).flatten = some t ∧ t.WF ∧
      (∀ k, tableGet t k = lastOf (actionRows (lineActions [] false (ls.map (· ++ [0x0A])))) k) ∧
      t.defaultTranslation = actionDefault none (lineActions [] false (ls.map (· ++ [0x0A]))) := by
  unfold parseTableContent
  rw [parseTableLines_eq, fileLines_lines ls hg _ (Nat.le_refl _),
    lineActions_locale (c := ctype) (c' := []) (by
      intro l hl
      rw [List.mem_map] at hl
      obtain ⟨l', hl', e⟩ := hl
      subst e
      exact hloc l' hl')]
  generalize hsz : tableRowsFor ((ls.map (· ++ [0x0A])).flatten : Bytes).length = sz
  have hsz500 : 500 ≤ sz := by
    rw [← hsz]; unfold tableRowsFor; split <;> omega
  have hlen : (tableInit (sz : Int)).rows.length = sz := by
    unfold tableInit
    simp only [List.length_replicate]
    split <;> omega
  obtain ⟨t, h1, h2, _, h4, h5⟩ := (applyActions_spec _ (tableInit (sz : Int)) (Table.WF.init _) hrows).1
    (by rw [hlen]; show 0 + _ ≤ _; omega)
  refine ⟨t, h1, h2, fun k => ?_, h4⟩
  rw [h5 k]
  have hg0 : tableGet (tableInit (sz : Int)) k = none := by
    have := freshTable_get (sz : Int) true k
    exact this
  rw [hg0]
  cases lastOf _ k <;> rfl

/-- Lines of the shipped files without their newline. -/
def bare (ls : List Bytes) : List Bytes := ls.map List.dropLast

instance (l : Bytes) : Decidable (GoodLine l) := by unfold GoodLine; infer_instance

theorem bare_lines {ls : List Bytes} (h : ∀ l ∈ ls, l.getLast? = some 0x0A) :
    (bare ls).map (· ++ [0x0A]) = ls := by
  unfold bare
  rw [List.map_map]
  conv => rhs; rw [← List.map_id ls]
  apply List.map_congr_left
  intro l hl
  have := h l hl
  rw [List.getLast?_eq_some_iff] at this
  obtain ⟨ys, e⟩ := this
  subst e
  simp

/-- Everything about loading a shipped file, from facts decided line by line. -/
theorem load_shipped (ls : List Bytes) (rows : List (Nat × Bytes)) (d : Option Bytes)
    (h1 : ∀ l ∈ ls, l.getLast? = some 0x0A)
    (h2 : ∀ l ∈ bare ls, GoodLine l)
    (h3 : ∀ l ∈ ls, needsLocale l = false)
    (h4 : actionRows (lineActions [] false ls) = rows)
    (h5 : actionDefault none (lineActions [] false ls) = d)
    (h6 : ∀ r ∈ rows, r.1 ≠ 0) (h7 : rows.length ≤ 500) (ctype : Bytes) :
    ∃ t, parseTableContent ctype ls.flatten = some t ∧ t.WF ∧
      (∀ k, tableGet t k = lastOf rows k) ∧ t.defaultTranslation = d := by
  have hb := bare_lines h1
  have h3' : ∀ l ∈ bare ls, needsLocale (l ++ [0x0A]) = false := by
    intro l hl
    apply h3
    rw [← hb]
    exact List.mem_map_of_mem (f := (· ++ [0x0A])) hl
  have := parse_shipped (bare ls) h2 h3' (by rw [hb, h4]; exact h6) (by rw [hb, h4]; exact h7) ctype
  rw [hb, h4, h5] at this
  exact this

theorem lastOf_eq_none {rows : List (Nat × Bytes)} {k : Nat} (h : ∀ r ∈ rows, r.1 ≠ k) : lastOf rows k = none := by
  unfold lastOf
  rw [Option.map_eq_none_iff, List.find?_eq_none]
  intro r hr
  simpa using h r (by simpa using hr)

/-- Two lists of rows agree on every key if they agree on the keys they mention. -/
theorem lastOf_agree {a b : List (Nat × Bytes)} (h : ∀ r ∈ a ++ b, lastOf a r.1 = lastOf b r.1) (k : Nat) :
    lastOf a k = lastOf b k := by
  by_cases hk : ∃ r ∈ a ++ b, r.1 = k
  · obtain ⟨r, hr, e⟩ := hk
    subst e
    exact h r hr
  · rw [lastOf_eq_none (fun r hr e => hk ⟨r, by simp [hr], e⟩),
      lastOf_eq_none (fun r hr e => hk ⟨r, by simp [hr], e⟩)]

/-- The rows of table/safe.tbl as loaded. -/
def safe_file_rows : List (Nat × Bytes) := actionRows (lineActions [] false shipped_safe_lines)
/-- The rows of table/unicode.tbl as loaded. -/
def unicode_file_rows : List (Nat × Bytes) := actionRows (lineActions [] false shipped_unicode_lines)

theorem shipped_safe_loads (ctype : Bytes) : ∃ t, parseTableContent ctype shipped_safe = some t ∧ t.WF ∧
    (∀ k, tableGet t k = lastOf safe_file_rows k) ∧ t.defaultTranslation = none :=
  load_shipped _ _ _ (by decide +kernel) (by decide +kernel) (by decide +kernel) rfl
    (by decide +kernel) (by decide +kernel) (by decide +kernel) ctype

theorem shipped_unicode_loads (ctype : Bytes) : ∃ t, parseTableContent ctype shipped_unicode = some t ∧ t.WF ∧
    (∀ k, tableGet t k = lastOf unicode_file_rows k) ∧ t.defaultTranslation = none :=
  load_shipped _ _ _ (by decide +kernel) (by decide +kernel) (by decide +kernel) rfl
    (by decide +kernel) (by decide +kernel) (by decide +kernel) ctype

/-- The rows of table/iso8859_1.tbl as loaded. -/
def iso_file_rows : List (Nat × Bytes) := actionRows (lineActions [] false shipped_iso8859_1_lines)
/-- The rows of table/cp1252.tbl as loaded. -/
def cp1252_file_rows : List (Nat × Bytes) := actionRows (lineActions [] false shipped_cp1252_lines)

theorem shipped_iso_loads (ctype : Bytes) : ∃ t, parseTableContent ctype shipped_iso8859_1 = some t ∧ t.WF ∧
    (∀ k, tableGet t k = lastOf iso_file_rows k) ∧ t.defaultTranslation = some [0x5F] :=
  load_shipped _ _ _ (by decide +kernel) (by decide +kernel) (by decide +kernel) rfl
    (by decide +kernel) (by decide +kernel) (by decide +kernel) ctype

theorem shipped_cp1252_loads (ctype : Bytes) : ∃ t, parseTableContent ctype shipped_cp1252 = some t ∧ t.WF ∧
    (∀ k, tableGet t k = lastOf cp1252_file_rows k) ∧ t.defaultTranslation = none :=
  load_shipped _ _ _ (by decide +kernel) (by decide +kernel) (by decide +kernel) rfl
    (by decide +kernel) (by decide +kernel) (by decide +kernel) ctype

end Detox
