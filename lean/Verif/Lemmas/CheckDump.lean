import Verif.Lemmas.CheckTable

/-!
# Lemmas on the listing and the statistics of check-table
-/

set_option autoImplicit false

namespace Detox
open Spec

/-! ### The listing -/

/-- The places from row `i` on. -/
def placesFrom (verbose : Bool) : Nat → List Row → List Place
  | _, [] => []
  | i, r :: rs =>
    if r.key = 0 then (if verbose then [(i, none)] else []) ++ placesFrom verbose (i + 1) rs
    else (i, some (r.key, r.data.getD [])) :: placesFrom verbose (i + 1) rs

theorem tableDump_text {e : CheckEnv} {v : Bool} : ∀ {rows : List Row} {i : Nat}, i + rows.length < 10 ^ 10 →
    (∀ r ∈ rows, r.key ≠ 0 → r.key < 2 ^ 31 ∧ ∃ d, r.data = some d) →
    ∃ s, tableDump e v i rows = .ok s ∧ ListingText (placesFrom v i rows) s := by
  intro rows
  induction rows with
  | nil => intro i _ _; exact ⟨[], rfl, .nil⟩
  | cons r rows ih =>
    intro i hi hr
    rw [List.length_cons] at hi
    obtain ⟨s, hs, ht⟩ := ih (i := i + 1) (by omega) fun r hm => hr r (List.mem_cons_of_mem _ hm)
    have hdec : DecimalText (printfDec i) i := decDigits_decimal 10 i (by omega) (by omega)
    rw [tableDump, placesFrom]
    by_cases h0 : r.key = 0
    · rw [if_pos h0, if_pos h0, hs]
      refine ⟨_, rfl, ?_⟩
      cases v with
      | false => exact ht
      | true =>
        refine .cons _ _ _ _ ?_ ht
        simp only [if_true, List.append_assoc]
        have := PlaceText.empty i _ hdec
        rw [List.append_assoc] at this
        exact this
    · obtain ⟨hk, d, hd⟩ := hr r (by simp) h0
      rw [if_neg h0, if_neg h0, hs, hd]
      refine ⟨_, rfl, ?_⟩
      refine .cons _ _ _ _ ?_ ht
      have := PlaceText.entry i r.key d _ _ hdec (printfHex_lower hk)
      rw [show lit ", key: 0x" = lit ", " ++ lit "key: 0x" from by decide] at this
      rw [← List.append_assoc (lit "index: " ++ printfDec i)] at this
      exact this

theorem mem_placesFrom {v : Bool} : ∀ {rows : List Row} {i j : Nat} {x : Option (Nat × Bytes)}, (j, x) ∈ placesFrom v i rows ↔
    ∃ n r, j = i + n ∧ rows[n]? = some r ∧ (r.key = 0 ∧ v = true ∧ x = none ∨ r.key ≠ 0 ∧ x = some (r.key, r.data.getD [])) := by
  intro rows
  induction rows with
  | nil => intro i j x; simp [placesFrom]
  | cons r rows ih =>
    intro i j x
    have split : (∃ n r', j = i + n ∧ (r :: rows)[n]? = some r' ∧
          (r'.key = 0 ∧ v = true ∧ x = none ∨ r'.key ≠ 0 ∧ x = some (r'.key, r'.data.getD []))) ↔
        (j = i ∧ (r.key = 0 ∧ v = true ∧ x = none ∨ r.key ≠ 0 ∧ x = some (r.key, r.data.getD []))) ∨ (j, x) ∈ placesFrom v (i + 1) rows := by
      rw [ih]
      constructor
      · rintro ⟨n, r', hj, hr, h⟩
        cases n with
        | zero =>
          rw [List.getElem?_cons_zero] at hr
          cases hr
          exact .inl ⟨by omega, h⟩
        | succ n => exact .inr ⟨n, r', by omega, by simpa using hr, h⟩
      · rintro (⟨hj, h⟩ | ⟨n, r', hj, hr, h⟩)
        · exact ⟨0, r, by omega, rfl, h⟩
        · exact ⟨n + 1, r', by omega, by simpa using hr, h⟩
    rw [split, placesFrom]
    by_cases h0 : r.key = 0
    · rw [if_pos h0, List.mem_append]
      cases v with
      | false => simp [h0]
      | true => simp [h0]
    · rw [if_neg h0, List.mem_cons]
      simp [h0]

theorem placesFrom_ordered {v : Bool} : ∀ (rows : List Row) (i : Nat), (placesFrom v i rows).Pairwise fun p q => p.1 < q.1 := by
  intro rows
  induction rows with
  | nil => intro i; exact .nil
  | cons r rows ih =>
    intro i
    have hlt : ∀ p ∈ placesFrom v (i + 1) rows, i < p.1 := by
      rintro ⟨j, x⟩ hp
      obtain ⟨n, _, hj, _⟩ := mem_placesFrom.1 hp
      show i < j
      omega
    rw [placesFrom]
    split
    · cases v with
      | false => exact ih (i + 1)
      | true => exact .cons hlt (ih (i + 1))
    · exact .cons hlt (ih (i + 1))

theorem placesFrom_listing {t : Table} (h : t.WF) (v : Bool) : Listing t.rows.length v (tableGet t) (placesFrom v 0 t.rows) := by
  have hent : ∀ i k d, (i, some (k, d)) ∈ placesFrom v 0 t.rows ↔ k ≠ 0 ∧ t.rows[i]? = some (⟨k, some d⟩ : Row) := by
    intro i k d
    rw [mem_placesFrom]
    constructor
    · rintro ⟨n, r, hj, hr, ⟨_, _, hx⟩ | ⟨h0, hx⟩⟩
      · cases hx
      · obtain ⟨d', hd, _⟩ := h.full n r hr h0
        obtain ⟨rk, rd⟩ := r
        dsimp only at hd h0 hx
        subst hd
        cases hx
        rw [hj, Nat.zero_add]
        exact ⟨h0, hr⟩
    · rintro ⟨h0, hr⟩
      exact ⟨i, _, by omega, hr, .inr ⟨h0, rfl⟩⟩
  refine ⟨placesFrom_ordered _ 0, ?_, ?_, ?_, ?_⟩
  · intro k d
    rw [h.get_eq_some]
    simp only [hent, exists_and_left]
  · intro i j k d d' h1 h2
    obtain ⟨h0, h1⟩ := (hent _ _ _).1 h1
    obtain ⟨_, h2⟩ := (hent _ _ _).1 h2
    exact h.unique i j _ _ h1 h2 h0 rfl
  · rintro ⟨i, x⟩ hp
    obtain ⟨n, r, hj, hr, _⟩ := mem_placesFrom.1 hp
    have := (List.getElem?_eq_some_iff.1 hr).1
    show i < _
    omega
  · intro i
    rw [mem_placesFrom]
    constructor
    · rintro ⟨n, r, hj, hr, ⟨h0, hv, _⟩ | ⟨_, hx⟩⟩
      · have := (List.getElem?_eq_some_iff.1 hr).1
        refine ⟨hv, by omega, fun k d hm => ?_⟩
        obtain ⟨hk, hm⟩ := (hent _ _ _).1 hm
        rw [hj, Nat.zero_add, hr] at hm
        cases hm
        exact hk h0
      · cases hx
    · rintro ⟨hv, hi, hno⟩
      refine ⟨i, t.rows[i], by omega, List.getElem?_eq_getElem hi, .inl ⟨?_, hv, rfl⟩⟩
      refine Decidable.byContradiction fun h0 => ?_
      obtain ⟨d, hd, _⟩ := h.full i _ (List.getElem?_eq_getElem hi) h0
      refine hno t.rows[i].key d ((hent _ _ _).2 ⟨h0, ?_⟩)
      rw [List.getElem?_eq_getElem hi, ← hd]

/-! ### The statistics -/

/-- The statistics of a table. -/
def statisticsOf (t : Table) (dflt : Bytes) : Statistics :=
  { used := t.used, available := t.rows.length, hits := t.hits, misses := t.misses, seeks := t.seeks, overwrites := t.overwrites,
    longest := t.maxDataLength, greatest := t.maxKey, default := dflt }

theorem tableStats_text {e : CheckEnv} {t : Table} {n : Bytes} (hd : printfString e t.defaultTranslation = .ok n)
    (h1 : t.used < 10 ^ 10) (h2 : t.rows.length < 10 ^ 10) (h3 : t.hits < 10 ^ 10) (h4 : t.misses < 10 ^ 10) (h5 : t.seeks < 10 ^ 10)
    (h6 : t.overwrites < 10 ^ 10) (h7 : t.maxDataLength < 10 ^ 10) (h8 : t.maxKey < 2 ^ 31) :
    ∃ s, tableStats e t = .ok s ∧ (statisticsOf t n).Text e.percent s := by
  unfold tableStats
  rw [hd]
  have dec : ∀ {m}, m < 10 ^ 10 → DecimalText (printfDec m) m := fun h => decDigits_decimal 10 _ h (by omega)
  exact ⟨_, rfl, _, _, _, _, _, _, _, _, dec h1, dec h2, dec h3, dec h4, dec h5, dec h6, dec h7, printfHex_lower h8, rfl⟩

/-! ### Different codes -/

theorem Table.WF.different_codes {t : Table} (h : t.WF) {rows : List (Nat × Bytes)} (hr : ∀ k, (∃ d, tableGet t k = some d) ↔ ∃ d, (k, d) ∈ rows) :
    DifferentCodes rows (usedRows t.rows) :=
  ⟨tableCodes t, h.codes_nodup, tableCodes_length t, fun k => (h.mem_codes k).trans (hr k)⟩

theorem different_unique {rows : List (Nat × Bytes)} {m n : Nat} (h1 : DifferentCodes rows m) (h2 : DifferentCodes rows n) : m = n := by
  obtain ⟨as, a1, rfl, a2⟩ := h1
  obtain ⟨bs, b1, rfl, b2⟩ := h2
  have l1 := nodup_subset_length a1 fun k hk => (b2 k).2 ((a2 k).1 hk)
  have l2 := nodup_subset_length b1 fun k hk => (a2 k).2 ((b2 k).1 hk)
  omega

theorem greatestOf_code {rows : List (Nat × Bytes)} : GreatestCode rows (greatestOf 0 rows) := by
  refine ⟨greatestOf_mem 0 rows, ?_⟩
  rcases greatestOf_reached 0 rows with h | ⟨r, hr, h⟩
  · cases rows with
    | nil => exact .inl ⟨rfl, h⟩
    | cons r rows =>
      refine .inr ⟨r, by simp, ?_⟩
      have := greatestOf_mem 0 (r :: rows) r (by simp)
      omega
  · exact .inr ⟨r, hr, h.symm⟩

theorem lastOf_exists (rows : List (Nat × Bytes)) (k : Nat) : (∃ d, lastOf rows k = some d) ↔ ∃ d, (k, d) ∈ rows := by
  unfold lastOf
  constructor
  · rintro ⟨d, hd⟩
    cases hx : List.find? (fun r => decide (r.1 = k)) rows.reverse with
    | none => rw [hx] at hd; cases hd
    | some r =>
      have h1 := List.find?_some hx
      simp only [decide_eq_true_eq] at h1
      have h2 := List.mem_of_find?_eq_some hx
      exact ⟨r.2, by rw [← h1]; simpa using h2⟩
  · rintro ⟨d, hd⟩
    cases hx : List.find? (fun r => decide (r.1 = k)) rows.reverse with
    | none =>
      rw [List.find?_eq_none] at hx
      exact absurd (decide_eq_true rfl) (hx (k, d) (by simpa using hd))
    | some r => exact ⟨r.2, rfl⟩

theorem lastOf_mem {rows : List (Nat × Bytes)} {k : Nat} {d : Bytes} (hd : lastOf rows k = some d) : (k, d) ∈ rows := by
  unfold lastOf at hd
  cases hx : List.find? (fun r => decide (r.1 = k)) rows.reverse with
  | none => rw [hx] at hd; cases hd
  | some r =>
    have h1 := List.find?_some hx
    simp only [decide_eq_true_eq] at h1
    have h2 := List.mem_of_find?_eq_some hx
    rw [hx] at hd
    cases hd
    rw [← h1]
    simpa using h2

/-! ### Copied rows -/

/-- The entries of rows. -/
def rowPairs (rows : List Row) : List (Nat × Bytes) := rows.filterMap fun r => if r.key ≠ 0 then r.data.map fun d => (r.key, d) else none

theorem copyRows_counts (rows : List Row) : ∀ {dst : Table}, dst.WF → (∀ r ∈ rows, r.key ≠ 0 → ∃ d, r.data = some d) →
    dst.used + usedRows rows ≤ dst.rows.length →
    (tableCopyRows dst rows).used = dst.used + usedRows rows ∧ (tableCopyRows dst rows).hits = dst.hits ∧
    (tableCopyRows dst rows).misses = dst.misses ∧ (tableCopyRows dst rows).seeks = dst.seeks ∧
    (tableCopyRows dst rows).rows.length = dst.rows.length ∧
    (tableCopyRows dst rows).maxKey = greatestOf dst.maxKey (rowPairs rows) ∧
    (tableCopyRows dst rows).maxDataLength = longestOf dst.maxDataLength ((rowPairs rows).map Prod.snd) ∧
    usedRows (tableCopyRows dst rows).rows + (tableCopyRows dst rows).overwrites = usedRows dst.rows + dst.overwrites + usedRows rows := by
  induction rows with
  | nil => intro dst _ _ _; exact ⟨rfl, rfl, rfl, rfl, rfl, rfl, rfl, rfl⟩
  | cons r rs ih =>
    intro dst h hf hroom
    have hc : usedRows (r :: rs) = usedRows rs + if r.key ≠ 0 then 1 else 0 := by
      unfold usedRows
      rw [List.countP_cons]; simp
    have hf' := fun r hr => hf r (List.mem_cons_of_mem _ hr)
    rw [tableCopyRows]
    by_cases h0 : r.key = 0
    · rw [if_neg (by omega)] at hc
      have hp : rowPairs (r :: rs) = rowPairs rs := by simp [rowPairs, h0]
      have := ih h hf' (by omega)
      rw [hp, hc, Nat.add_zero]
      cases r.data with
      | none => exact this
      | some d => simp only [h0, Nat.lt_irrefl, if_false]; exact this
    · rw [if_pos h0] at hc
      obtain ⟨d, hd⟩ := hf r (by simp) h0
      have hu : dst.used < dst.rows.length := by omega
      have hp : rowPairs (r :: rs) = (r.key, d) :: rowPairs rs := by simp [rowPairs, h0, hd]
      obtain ⟨o, t', heq, hwf, hrows, hused, _, _, hmax, _⟩ := h.put_ok h0 hu d
      obtain ⟨p1, p2, p3, p4, p5⟩ := h.put_counts h0 hu d
      rw [hd]
      dsimp only
      rw [if_pos (by omega)]
      rw [heq] at p1 p2 p3 p4 p5 ⊢
      dsimp only at p1 p2 p3 p4 p5 ⊢
      have hlen : t'.rows.length = dst.rows.length := by rw [hrows, List.length_set]
      obtain ⟨i1, i2, i3, i4, i5, i6, i7, i8⟩ := ih hwf hf' (by rw [hused, hlen]; omega)
      rw [hp]
      refine ⟨by omega, by omega, by omega, by omega, by omega, ?_, ?_, by omega⟩
      · rw [i6, p4]; rfl
      · rw [i7, hmax]; rfl

theorem mem_rowPairs {t : Table} (h : t.WF) (k : Nat) (d : Bytes) : (k, d) ∈ rowPairs t.rows ↔ tableGet t k = some d := by
  rw [h.get_eq_some]
  unfold rowPairs
  rw [List.mem_filterMap]
  constructor
  · rintro ⟨r, hr, he⟩
    split at he
    · rename_i h0
      obtain ⟨i, hi⟩ := List.getElem?_of_mem hr
      obtain ⟨rk, rd⟩ := r
      cases rd with
      | none => cases he
      | some d' =>
        cases he
        exact ⟨h0, i, hi⟩
    · cases he
  · rintro ⟨h0, i, hi⟩
    exact ⟨_, List.mem_of_getElem? hi, by simp [h0]⟩

theorem greatest_same {a b : List (Nat × Bytes)} (h : ∀ k, (∃ d, (k, d) ∈ a) ↔ ∃ d, (k, d) ∈ b) {n : Nat} (ha : GreatestCode a n) : GreatestCode b n := by
  obtain ⟨h1, h2⟩ := ha
  refine ⟨?_, ?_⟩
  · rintro ⟨k, d⟩ hm
    obtain ⟨d', hm'⟩ := (h k).2 ⟨d, hm⟩
    exact h1 (k, d') hm'
  · rcases h2 with ⟨rfl, rfl⟩ | ⟨⟨k, d⟩, hm, rfl⟩
    · left
      refine ⟨?_, rfl⟩
      cases b with
      | nil => rfl
      | cons r b =>
        obtain ⟨_, hm⟩ := (h r.1).2 ⟨r.2, by simp⟩
        cases hm
    · obtain ⟨d', hm'⟩ := (h k).1 ⟨d, hm⟩
      exact .inr ⟨_, hm', rfl⟩

theorem longest_le {ds : List Bytes} {n : Nat} : longest ds ≤ n ↔ ∀ d ∈ ds, d.length ≤ n := by
  unfold longest
  induction ds with
  | nil => simp
  | cons d ds ih =>
    rw [List.map_cons, List.foldr_cons, List.forall_mem_cons, ← ih]
    omega

theorem longest_same {a b : List Bytes} (h : ∀ d, d ∈ a ↔ d ∈ b) : longest a = longest b := by
  apply Nat.le_antisymm
  · exact longest_le.2 fun d hd => longest_le.1 (Nat.le_refl _) d ((h d).1 hd)
  · exact longest_le.2 fun d hd => longest_le.1 (Nat.le_refl _) d ((h d).2 hd)

/-- A table that is copied into one with enough room. -/
structure Resized (t : Table) (size : Nat) (t' : Table) : Prop where
  wf : t'.WF
  get : ∀ k, tableGet t' k = tableGet t k
  length : t'.rows.length = size
  used : t'.used = usedRows t.rows
  entries : usedRows t'.rows = usedRows t.rows
  hits : t'.hits = 0
  misses : t'.misses = 0
  seeks : t'.seeks = 0
  overwrites : t'.overwrites = t.overwrites
  longest : t'.maxDataLength = Spec.longest ((rowPairs t.rows).map Prod.snd)
  greatest : GreatestCode (rowPairs t.rows) t'.maxKey
  dflt : t'.defaultTranslation = t.defaultTranslation

theorem resize_counts {t : Table} (h : t.WF) (size : Int) (hash : Bool) (hroom : usedRows t.rows ≤ rowsFor size) :
    Resized t (rowsFor size) (tableResize t size hash) := by
  have hfull : ∀ r ∈ t.rows, r.key ≠ 0 → ∃ d, r.data = some d := by
    intro r hr h0
    obtain ⟨i, hi⟩ := List.getElem?_of_mem hr
    obtain ⟨d, hd, _⟩ := h.full i r hi h0
    exact ⟨d, hd⟩
  have hget : ∀ k, tableGet (tableResize t size hash) k = tableGet t k := by
    intro k
    rw [resize_get t size hash hroom, h.lastRow_eq_get]
  have hwf' := freshTable_WF' size hash t.defaultTranslation t.overwrites
  have hz : usedRows (freshTable size hash).rows = 0 := Nat.le_zero.1 (freshTable_WF size hash).count
  obtain ⟨c1, c2, c3, c4, c5, c6, c7, c8⟩ := copyRows_counts t.rows hwf' hfull (by
    show 0 + _ ≤ (freshTable size hash).rows.length
    rw [freshTable_length]
    omega)
  have hd := tableCopyRows_default { freshTable size hash with defaultTranslation := t.defaultTranslation, overwrites := t.overwrites } t.rows
  have hwf2 := hwf'.copyRows t.rows
  rw [← tableResize_eq] at c1 c2 c3 c4 c5 c6 c7 c8 hd hwf2
  have he : usedRows (tableResize t size hash).rows = usedRows t.rows := by
    refine different_unique (rows := rowPairs t.rows) (hwf2.different_codes fun k => ?_) (h.different_codes fun k => ?_)
    · simp only [hget, mem_rowPairs h]
    · simp only [mem_rowPairs h]
  refine ⟨hwf2, hget, c5.trans (freshTable_length size hash), c1.trans (Nat.zero_add _), he, c2, c3, c4, ?_, ?_, ?_, hd⟩
  · have : usedRows (freshTable size hash).rows + t.overwrites + usedRows t.rows = t.overwrites + usedRows t.rows := by
      rw [hz, Nat.zero_add]
    have c8' := c8.trans this
    omega
  · rw [c7, longestOf_eq]
    show max 0 _ = _
    omega
  · rw [c6]
    exact greatestOf_code

theorem againNotes_rows (rows : List (Nat × Bytes)) (as : List (Option Bytes × LineAction)) :
    againNotes (rows.map (fun r => (none, LineAction.row r.1 r.2)) ++ as) = againNotes as := by
  induction rows with
  | nil => rfl
  | cons r rows ih => exact ih

theorem againNotes_sections (secs : List Section) : Report (skippedBlocks secs) (againNotes (sectionActs secs)) := by
  induction secs with
  | nil => exact .nil
  | cons s secs ih =>
    cases s with
    | block rows =>
      show Report (skippedBlocks secs) (againNotes (rows.map (fun r => (none, LineAction.row r.1 r.2)) ++ sectionActs secs))
      rw [againNotes_rows]
      exact ih
    | langBlock lang rows => exact .cons _ _ _ _ (.skipped lang) ih
    | dflt d => exact ih
    | note => exact ih
    | noDefault => exact ih

end Detox
