import Verif.Lemmas.Table

/-!
# What the counters of a table count
-/

set_option autoImplicit false

namespace Detox

theorem countP_set_used {rows : List Row} {o : Nat} {r : Row} (h : rows[o]? = some r) {k : Nat} (hk : k ≠ 0) (d : Option Bytes) :
    usedRows (rows.set o ⟨k, d⟩) + (if r.key = 0 then 0 else 1) = usedRows rows + 1 := by
  induction rows generalizing o with
  | nil => cases h
  | cons a rows ih =>
    unfold usedRows at ih ⊢
    cases o with
    | zero =>
      cases h
      rw [List.set_cons_zero, List.countP_cons, List.countP_cons]
      by_cases h0 : r.key = 0 <;> simp [h0, hk]
    | succ o =>
      rw [List.set_cons_succ, List.countP_cons, List.countP_cons]
      have := ih h
      omega

/-- Insertion. -/
theorem Table.WF.put_counts {t : Table} (h : t.WF) {k : Nat} (hk : k ≠ 0) (hu : t.used < t.rows.length) (d : Bytes) :
    (tablePut t k d).1.hits = t.hits ∧ (tablePut t k d).1.misses = t.misses ∧ (tablePut t k d).1.seeks = t.seeks ∧
    (tablePut t k d).1.maxKey = max t.maxKey k ∧
    usedRows (tablePut t k d).1.rows + (tablePut t k d).1.overwrites = usedRows t.rows + t.overwrites + 1 := by
  obtain ⟨o, ho⟩ := h.putOffset_isSome (k := k) hu
  obtain ⟨r, hr, hrk, hpl⟩ := Table.putOffset_spec ho
  have hne : t.rows.length ≠ t.used := by omega
  rw [tablePut_eq, if_neg hk, if_neg hne, ho]
  refine ⟨rfl, rfl, rfl, ?_, ?_⟩
  · show (if t.maxKey < k then k else t.maxKey) = _
    split <;> omega
  · simp only [hr]
    have := countP_set_used hr hk (some d)
    rcases hrk with h0 | hkk
    · rw [if_pos h0] at this
      have hne : ¬ r.key = k := by omega
      simp only [hne, decide_false, Bool.false_eq_true, if_false]
      omega
    · rw [if_neg (by omega)] at this
      simp only [hkk, decide_true, if_true]
      show usedRows (t.rows.set o ⟨k, some d⟩) + (t.overwrites + 1) = _
      omega

/-- Lookup of something that is there. -/
theorem tableGetCounting_hit {t : Table} {k : Nat} {d : Bytes} (hg : tableGet t k = some d) :
    (tableGetCounting t k).1.hits = t.hits + 1 ∧ (tableGetCounting t k).1.misses = t.misses ∧
    (tableGetCounting t k).1.seeks ≤ t.seeks + 1 ∧ (t.useHash = false → (tableGetCounting t k).1.seeks = t.seeks + 1) := by
  unfold tableGet at hg
  unfold tableGetCounting
  by_cases hk : k = 0
  · rw [if_pos hk] at hg; cases hg
  · rw [if_neg hk] at hg ⊢
    cases hp : t.getProbe k with
    | some o =>
      refine ⟨rfl, rfl, Nat.le_succ _, fun hf => ?_⟩
      unfold Table.getProbe at hp
      rw [hf] at hp
      cases hp
    | none =>
      rw [hp] at hg
      dsimp only at hg ⊢
      have hsc : ∀ n, Table.getScan { t with seeks := n } k = t.getScan k := fun _ => rfl
      rw [hsc]
      cases hs : t.getScan k with
      | none => rw [hs] at hg; cases hg
      | some o => exact ⟨rfl, rfl, Nat.le_refl _, fun _ => rfl⟩

/-- The greatest code, or `n`. -/
def greatestOf (n : Nat) (rows : List (Nat × Bytes)) : Nat := rows.foldl (fun m r => max m r.1) n

theorem greatestOf_ge (n : Nat) (rows : List (Nat × Bytes)) : n ≤ greatestOf n rows := by
  induction rows generalizing n with
  | nil => exact Nat.le_refl _
  | cons r rows ih =>
    have : greatestOf n (r :: rows) = greatestOf (max n r.1) rows := rfl
    have := ih (max n r.1)
    omega

theorem greatestOf_mem (n : Nat) (rows : List (Nat × Bytes)) : ∀ r ∈ rows, r.1 ≤ greatestOf n rows := by
  induction rows generalizing n with
  | nil => intro r h; cases h
  | cons a rows ih =>
    intro r hr
    have he : greatestOf n (a :: rows) = greatestOf (max n a.1) rows := rfl
    rcases List.mem_cons.1 hr with rfl | hr
    · have := greatestOf_ge (max n r.1) rows
      omega
    · have := ih (max n a.1) r hr
      omega

theorem greatestOf_reached (n : Nat) (rows : List (Nat × Bytes)) : greatestOf n rows = n ∨ ∃ r ∈ rows, greatestOf n rows = r.1 := by
  induction rows generalizing n with
  | nil => exact .inl rfl
  | cons a rows ih =>
    have he : greatestOf n (a :: rows) = greatestOf (max n a.1) rows := rfl
    rw [he]
    rcases ih (max n a.1) with h | ⟨r, hr, h⟩
    · rcases Nat.le_total n a.1 with hc | hc
      · exact .inr ⟨a, by simp, by omega⟩
      · exact .inl (by omega)
    · exact .inr ⟨r, List.mem_cons_of_mem _ hr, h⟩

/-- The counters after `rows` have been put and looked up. -/
structure Counts (t : Table) (rows : List (Nat × Bytes)) (t' : Table) : Prop where
  hits : t'.hits = t.hits + rows.length
  misses : t'.misses = t.misses
  seeks : t'.seeks ≤ t.seeks + rows.length
  linear : t.useHash = false → t'.seeks = t.seeks + rows.length
  greatest : t'.maxKey = greatestOf t.maxKey rows
  balance : usedRows t'.rows + t'.overwrites = usedRows t.rows + t.overwrites + rows.length

/-! ### Distinct codes -/

theorem nodup_subset_length {as : List Nat} : ∀ {bs : List Nat}, as.Nodup → (∀ a ∈ as, a ∈ bs) → as.length ≤ bs.length := by
  induction as with
  | nil => intro bs _ _; exact Nat.zero_le _
  | cons a as ih =>
    intro bs hn hs
    rw [List.nodup_cons] at hn
    have hm : a ∈ bs := hs a (by simp)
    have h1 := ih (bs := bs.erase a) hn.2 (by
      intro x hx
      have hne : x ≠ a := by rintro rfl; exact hn.1 hx
      exact (List.mem_erase_of_ne hne).2 (hs x (List.mem_cons_of_mem _ hx)))
    rw [List.length_erase_of_mem hm] at h1
    have : 0 < bs.length := List.length_pos_of_mem hm
    rw [List.length_cons]
    omega

/-- The codes in a table. -/
def tableCodes (t : Table) : List Nat := (t.rows.filter fun r => decide (r.key ≠ 0)).map Row.key

theorem tableCodes_length (t : Table) : (tableCodes t).length = usedRows t.rows := by
  unfold tableCodes usedRows
  rw [List.length_map, List.countP_eq_length_filter]

theorem unique_nodup : ∀ {rows : List Row}, (∀ (i j : Nat) (r r' : Row), rows[i]? = some r → rows[j]? = some r' → r.key ≠ 0 →
    r.key = r'.key → i = j) → ((rows.filter fun r => decide (r.key ≠ 0)).map Row.key).Nodup := by
  intro rows
  induction rows with
  | nil => intro _; exact List.nodup_nil
  | cons a rows ih =>
    intro h
    have ih' := ih fun i j r r' hi hj h0 he => by
      have := h (i + 1) (j + 1) r r' (by simpa using hi) (by simpa using hj) h0 he
      omega
    by_cases h0 : a.key = 0
    · rw [List.filter_cons_of_neg (by simp [h0])]
      exact ih'
    · rw [List.filter_cons_of_pos (by simp [h0]), List.map_cons, List.nodup_cons]
      refine ⟨fun hm => ?_, ih'⟩
      obtain ⟨r, hr, he⟩ := List.mem_map.1 hm
      obtain ⟨i, hi⟩ := List.getElem?_of_mem (List.mem_filter.1 hr).1
      have := h 0 (i + 1) a r rfl (by simpa using hi) h0 he.symm
      omega

theorem Table.WF.codes_nodup {t : Table} (h : t.WF) : (tableCodes t).Nodup := unique_nodup h.unique

theorem Table.WF.mem_codes {t : Table} (h : t.WF) (k : Nat) : k ∈ tableCodes t ↔ ∃ d, tableGet t k = some d := by
  unfold tableCodes
  rw [List.mem_map]
  constructor
  · rintro ⟨r, hr, rfl⟩
    rw [List.mem_filter] at hr
    have h0 : r.key ≠ 0 := of_decide_eq_true hr.2
    obtain ⟨i, hi⟩ := List.getElem?_of_mem hr.1
    obtain ⟨d, hd, _⟩ := h.full i r hi h0
    exact ⟨d, (h.get_eq_some _ _).2 ⟨h0, i, by rw [hi, ← hd]⟩⟩
  · rintro ⟨d, hd⟩
    obtain ⟨h0, i, hi⟩ := (h.get_eq_some _ _).1 hd
    exact ⟨_, List.mem_filter.2 ⟨List.mem_of_getElem? hi, decide_eq_true h0⟩, rfl⟩

end Detox
