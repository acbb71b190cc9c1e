import Verif.Model.Table

/-!
# Invariant of translation tables
-/

set_option autoImplicit false

namespace Detox

/-- `r` is a row in use. -/
def Row.Used (r : Row) : Prop := r.key ≠ 0

instance (r : Row) : Decidable r.Used := by unfold Row.Used; infer_instance

/-- Number of rows in use. -/
def usedRows (rows : List Row) : Nat := rows.countP (fun r => decide (r.key ≠ 0))

/-- The invariant kept by `table_init`, `table_put` and `table_resize`. -/
structure Table.WF (t : Table) : Prop where
  pos : 0 < t.rows.length
  count : usedRows t.rows ≤ t.used
  cap : t.used ≤ t.rows.length
  unique : ∀ (i j : Nat) (r r' : Row), t.rows[i]? = some r → t.rows[j]? = some r' → r.key ≠ 0 →
    r.key = r'.key → i = j
  place : ∀ (i : Nat) (r : Row), t.rows[i]? = some r → r.key ≠ 0 →
    (t.useHash = true ∧ i = r.key % t.rows.length) ∨
    ((t.useHash = true → ∃ r', t.rows[r.key % t.rows.length]? = some r' ∧ r'.key ≠ 0 ∧ r'.key ≠ r.key) ∧
     ∀ j, j < i → ∃ r', t.rows[j]? = some r' ∧ r'.key ≠ 0)
  full : ∀ (i : Nat) (r : Row), t.rows[i]? = some r → r.key ≠ 0 →
    ∃ d, r.data = some d ∧ d.length ≤ t.maxDataLength

theorem Table.WF.init (n : Int) : (tableInit n).WF := by
  have hlen : (tableInit n).rows = List.replicate (if n ≤ 0 then 500 else n.toNat) Row.empty := rfl
  have hempty : ∀ (i : Nat) (r : Row), (tableInit n).rows[i]? = some r → r.key = 0 := by
    intro i r h
    rw [hlen] at h
    have := List.eq_of_mem_replicate (List.mem_of_getElem? h)
    rw [this]; rfl
  constructor
  · rw [hlen]; simp only [List.length_replicate]; split <;> omega
  · rw [hlen]; simp [usedRows, Row.empty, List.countP_replicate]
  · simp [tableInit]
  · intro i j r r' h _ hk
    exact absurd (hempty i r h) hk
  · intro i r h hk
    exact absurd (hempty i r h) hk
  · intro i r h hk
    exact absurd (hempty i r h) hk

/-- The row a lookup inspects. -/
def Table.getOffset (t : Table) (k : Nat) : Option Nat :=
  match t.getProbe k with
  | some o => some o
  | none => t.getScan k

theorem tableGet_eq (t : Table) (k : Nat) : tableGet t k =
    if k = 0 then none else
    match t.getOffset k with
    | none => none
    | some offset => (t.rows[offset]?).bind Row.data := rfl

/-- Characterisation of a lookup under the invariant. -/
theorem Table.WF.get_eq_some {t : Table} (h : t.WF) (k : Nat) (d : Bytes) :
    tableGet t k = some d ↔ k ≠ 0 ∧ ∃ i : Nat, t.rows[i]? = some (⟨k, some d⟩ : Row) := by
  rw [tableGet_eq]
  by_cases hk : k = 0
  · simp [hk]
  simp only [hk, if_false, ne_eq, not_false_eq_true, true_and]
  -- any row carrying key k that is found is the row
  constructor
  · intro hh
    split at hh
    · simp at hh
    · rename_i off hoff
      have hrow : ∃ r, t.rows[off]? = some r ∧ r.key = k := by
        unfold Table.getOffset at hoff
        split at hoff
        · rename_i o ho
          cases hoff
          unfold Table.getProbe at ho
          split at ho
          · dsimp only at ho
            split at ho
            · rename_i r hr
              split at ho
              · cases ho; exact ⟨r, hr, by assumption⟩
              · cases ho
            · cases ho
          · cases ho
        · unfold Table.getScan at hoff
          rw [List.findIdx?_eq_some_iff_getElem] at hoff
          obtain ⟨hl, hp, _⟩ := hoff
          exact ⟨_, List.getElem?_eq_getElem hl, by simpa using hp⟩
      obtain ⟨r, hr, hrk⟩ := hrow
      refine ⟨off, ?_⟩
      rw [hr] at hh ⊢
      obtain ⟨k', d'⟩ := r
      simp_all
  · rintro ⟨i, hi⟩
    have hfound : ∃ off, t.getOffset k = some off ∧ t.rows[off]? = some ⟨k, some d⟩ := by
      unfold Table.getOffset
      cases hp : t.getProbe k with
      | some o =>
        refine ⟨o, rfl, ?_⟩
        unfold Table.getProbe at hp
        split at hp
        · dsimp only at hp
          split at hp
          · rename_i r hr
            split at hp
            · cases hp
              rename_i hrk
              have := h.unique i (tableHash t.length k) ⟨k, some d⟩ r hi hr hk hrk.symm
              rw [← this]; exact hi
            · cases hp
          · cases hp
        · cases hp
      | none =>
        have hi' := hi
        rw [List.getElem?_eq_some_iff] at hi'
        obtain ⟨hl, he⟩ := hi'
        cases hs : t.getScan k with
        | none =>
          unfold Table.getScan at hs
          rw [List.findIdx?_eq_none_iff] at hs
          have := hs ⟨k, some d⟩ (he ▸ List.getElem_mem hl)
          simp at this
        | some o =>
          refine ⟨o, rfl, ?_⟩
          unfold Table.getScan at hs
          rw [List.findIdx?_eq_some_iff_getElem] at hs
          obtain ⟨hl', hp', _⟩ := hs
          have hk' : (t.rows[o]).key = k := by simpa using hp'
          have hr := List.getElem?_eq_getElem hl'
          have := h.unique i o ⟨k, some d⟩ _ hi hr hk hk'.symm
          rw [← this]; exact hi
    obtain ⟨off, h1, h2⟩ := hfound
    rw [h1]
    simp [h2]

theorem Table.WF.get_zero (t : Table) : tableGet t 0 = none := by simp [tableGet]

/-- Where `table_put` stores, under the invariant. -/
def Table.putOffset (t : Table) (k : Nat) : Option Nat :=
  match t.putProbe k with
  | some o => some o
  | none => t.putScan k

theorem Table.putOffset_spec {t : Table} {k o : Nat} (ho : t.putOffset k = some o) :
    ∃ r, t.rows[o]? = some r ∧ (r.key = 0 ∨ r.key = k) ∧
      ((t.useHash = true ∧ o = k % t.rows.length) ∨
       ((t.useHash = true → ∀ r', t.rows[k % t.rows.length]? = some r' → r'.key ≠ 0 ∧ r'.key ≠ k) ∧
        ∀ j, j < o → ∃ r', t.rows[j]? = some r' ∧ r'.key ≠ 0 ∧ r'.key ≠ k)) := by
  unfold Table.putOffset at ho
  cases hp : t.putProbe k with
  | some o' =>
    rw [hp] at ho
    cases ho
    unfold Table.putProbe at hp
    split at hp
    · rename_i hu
      dsimp only at hp
      split at hp
      · rename_i r hr
        split at hp
        · rename_i hc
          cases hp
          exact ⟨r, hr, hc, Or.inl ⟨hu, rfl⟩⟩
        · cases hp
      · cases hp
    · cases hp
  | none =>
    rw [hp] at ho
    unfold Table.putScan at ho
    rw [List.findIdx?_eq_some_iff_getElem] at ho
    obtain ⟨hl, hp', hlt⟩ := ho
    refine ⟨_, List.getElem?_eq_getElem hl, by simpa using hp', Or.inr ⟨?_, ?_⟩⟩
    · intro hu r' hr'
      unfold Table.putProbe at hp
      rw [if_pos hu] at hp
      simp only [tableHash, Table.length, hr'] at hp
      split at hp
      · cases hp
      · rename_i hn
        simpa [not_or] using hn
    · intro j hj
      have := hlt j hj
      have hjl : j < t.rows.length := by omega
      exact ⟨_, List.getElem?_eq_getElem hjl, by simpa [not_or] using this⟩

theorem usedRows_eq_length {rows : List Row} (h : ∀ r ∈ rows, r.key ≠ 0) :
    usedRows rows = rows.length := by
  unfold usedRows
  rw [List.countP_eq_length]
  intro r hr
  simpa using h r hr

theorem Table.WF.putOffset_isSome {t : Table} (h : t.WF) {k : Nat} (hu : t.used < t.rows.length) :
    ∃ o, t.putOffset k = some o := by
  unfold Table.putOffset
  cases hp : t.putProbe k with
  | some o => exact ⟨o, rfl⟩
  | none =>
    cases hs : t.putScan k with
    | some o => exact ⟨o, rfl⟩
    | none =>
      exfalso
      unfold Table.putScan at hs
      rw [List.findIdx?_eq_none_iff] at hs
      have : usedRows t.rows = t.rows.length := usedRows_eq_length (by
        intro r hr
        have := hs r hr
        simp only [decide_eq_false_iff_not, not_or] at this
        exact this.1)
      have := h.count
      omega

theorem tablePut_eq (t : Table) (k : Nat) (d : Bytes) : tablePut t k d =
    if k = 0 then (t, none) else if t.rows.length = t.used then (t, none)
    else match t.putOffset k with
    | none => (t, none)
    | some offset =>
      let hit := match t.rows[offset]? with
        | some r => decide (r.key = k)
        | none => false
      ({ t with
          overwrites := if hit then t.overwrites + 1 else t.overwrites
          rows := t.rows.set offset ⟨k, some d⟩
          used := t.used + 1
          maxKey := if t.maxKey < k then k else t.maxKey
          maxDataLength := if t.maxDataLength < d.length then d.length else t.maxDataLength },
       some offset) := rfl

/-- A successful insertion keeps the invariant and stores at an offset holding the key or free. -/
theorem Table.WF.put_ok {t : Table} (h : t.WF) {k : Nat} (hk : k ≠ 0)
    (hu : t.used < t.rows.length) (d : Bytes) :
    ∃ o t', tablePut t k d = (t', some o) ∧ t'.WF ∧ t'.rows = t.rows.set o ⟨k, some d⟩ ∧
      t'.used = t.used + 1 ∧ t'.useHash = t.useHash ∧
      t'.defaultTranslation = t.defaultTranslation ∧
      t'.maxDataLength = max t.maxDataLength d.length ∧
      o < t.rows.length ∧
      (∀ i r, t.rows[i]? = some r → r.key = k → i = o) ∧
      (∃ r, t.rows[o]? = some r ∧ (r.key = 0 ∨ r.key = k)) := by
  obtain ⟨o, ho⟩ := h.putOffset_isSome (k := k) hu
  obtain ⟨r, hr, hrk, hpl⟩ := Table.putOffset_spec ho
  have hol : o < t.rows.length := by
    rw [List.getElem?_eq_some_iff] at hr; exact hr.1
  have huniq : ∀ i r, t.rows[i]? = some r → r.key = k → i = o := by
    intro i ri hi hik
    have hri0 : ri.key ≠ 0 := by omega
    rcases hrk with hr0 | hrk
    · -- the slot is free
      exfalso
      rcases hpl with ⟨hu, hoh⟩ | ⟨hocc, hbefore⟩
      · rcases h.place i ri hi hri0 with ⟨_, hih⟩ | ⟨hslot, _⟩
        · rw [hik] at hih
          have : i = o := by omega
          subst this
          rw [hi] at hr; cases hr; omega
        · obtain ⟨r', hr', h0, _⟩ := hslot hu
          rw [hik, ← hoh, hr] at hr'
          cases hr'; exact h0 hr0
      · rcases h.place i ri hi hri0 with ⟨hu, hih⟩ | ⟨_, hall⟩
        · rw [hik] at hih
          rw [hih] at hi
          exact (hocc hu ri hi).2 hik
        · rcases Nat.lt_trichotomy i o with hlt | heq | hgt
          · obtain ⟨r', hr', _, hne⟩ := hbefore i hlt
            rw [hi] at hr'; cases hr'; exact hne hik
          · subst heq; rw [hi] at hr; cases hr; omega
          · obtain ⟨r', hr', h0⟩ := hall o hgt
            rw [hr] at hr'; cases hr'; exact h0 hr0
    · exact h.unique i o ri r hi hr hri0 (by omega)
  have hne : t.rows.length ≠ t.used := by omega
  refine ⟨o, { t with
          overwrites := if (match t.rows[o]? with
            | some r => decide (r.key = k)
            | none => false) then t.overwrites + 1 else t.overwrites
          rows := t.rows.set o ⟨k, some d⟩
          used := t.used + 1
          maxKey := if t.maxKey < k then k else t.maxKey
          maxDataLength := if t.maxDataLength < d.length then d.length else t.maxDataLength },
    by rw [tablePut_eq, if_neg hk, if_neg hne, ho], ?_, ?_, ?_, ?_, ?_, ?_, hol, huniq,
    ⟨r, hr, hrk⟩⟩
  · -- WF of the new table
    have hget : ∀ i, (t.rows.set o ⟨k, some d⟩)[i]? =
        if i = o then some ⟨k, some d⟩ else t.rows[i]? := by
      intro i
      rw [List.getElem?_set]
      by_cases hio : o = i
      · subst hio; simp [hol]
      · rw [if_neg hio, if_neg (Ne.symm hio)]
    constructor
    · simpa using h.pos
    · -- count
      show usedRows (t.rows.set o ⟨k, some d⟩) ≤ t.used + 1
      have := h.count
      unfold usedRows at this ⊢
      rw [List.countP_set hol]
      split <;> split <;> omega
    · simp only [List.length_set]; omega
    · intro i j ri rj hi hj h0 hkeq
      simp only [hget] at hi hj
      split at hi <;> split at hj
      · omega
      · cases hi
        exact absurd (huniq j rj hj hkeq.symm) (by assumption)
      · cases hj
        exact absurd (huniq i ri hi hkeq) (by assumption)
      · exact h.unique i j ri rj hi hj h0 hkeq
    · intro i ri hi h0
      simp only [List.length_set]
      simp only [hget] at hi ⊢
      split at hi
      · cases hi
        rename_i hio
        subst hio
        rcases hpl with hl | ⟨hocc, hbefore⟩
        · exact Or.inl hl
        · by_cases hslot : t.useHash = true ∧ i = k % t.rows.length
          · exact Or.inl hslot
          · refine Or.inr ⟨?_, ?_⟩
            · intro hu
              have hlt : k % t.rows.length < t.rows.length := Nat.mod_lt _ h.pos
              have hne' : ¬ (k % t.rows.length = i) := by
                intro hc; exact hslot ⟨hu, hc.symm⟩
              refine ⟨t.rows[k % t.rows.length], ?_, ?_⟩
              · rw [if_neg hne']
                exact List.getElem?_eq_getElem hlt
              · exact hocc hu _ (List.getElem?_eq_getElem hlt)
            · intro j hj
              obtain ⟨r', hr', h0', _⟩ := hbefore j hj
              refine ⟨r', ?_, h0'⟩
              rw [if_neg (by omega)]; exact hr'
      · rename_i hio
        rcases h.place i ri hi h0 with hl | ⟨hslot, hall⟩
        · exact Or.inl hl
        · refine Or.inr ⟨?_, ?_⟩
          · intro hu
            obtain ⟨r', hr', h0', hne'⟩ := hslot hu
            by_cases hs : ri.key % t.rows.length = o
            · refine ⟨⟨k, some d⟩, by rw [if_pos hs], hk, ?_⟩
              intro hc
              exact hio (huniq i ri hi hc.symm)
            · exact ⟨r', by rw [if_neg hs]; exact hr', h0', hne'⟩
          · intro j hj
            obtain ⟨r', hr', h0'⟩ := hall j hj
            by_cases hs : j = o
            · exact ⟨⟨k, some d⟩, by rw [if_pos hs], hk⟩
            · exact ⟨r', by rw [if_neg hs]; exact hr', h0'⟩
    · intro i ri hi h0
      simp only [hget] at hi
      split at hi
      · cases hi
        exact ⟨d, rfl, by dsimp only; split <;> omega⟩
      · obtain ⟨d', hd', hl⟩ := h.full i ri hi h0
        exact ⟨d', hd', by dsimp only; split <;> omega⟩
  · rfl
  · rfl
  · rfl
  · rfl
  · dsimp only; split <;> omega

theorem tablePut_fail {t : Table} {k : Nat} {d : Bytes} (h : k = 0 ∨ t.used = t.rows.length) :
    tablePut t k d = (t, none) := by
  rw [tablePut_eq]
  rcases h with h | h
  · rw [if_pos h]
  · split
    · rfl
    · rw [if_pos h.symm]

/-- A successful insertion updates the map at one key. -/
theorem Table.WF.get_put {t : Table} (h : t.WF) {k : Nat} (hk : k ≠ 0)
    (hu : t.used < t.rows.length) (d : Bytes) (k' : Nat) :
    tableGet (tablePut t k d).1 k' = if k' = k then some d else tableGet t k' := by
  obtain ⟨o, t', heq, hwf, hrows, _, _, _, _, hol, huniq, r, hr, hrk⟩ := h.put_ok hk hu d
  rw [heq]
  have hget : ∀ i, t'.rows[i]? = if i = o then some ⟨k, some d⟩ else t.rows[i]? := by
    intro i
    rw [hrows, List.getElem?_set]
    by_cases hio : o = i
    · subst hio; simp [hol]
    · rw [if_neg hio, if_neg (Ne.symm hio)]
  split
  · rename_i hkk
    subst hkk
    rw [hwf.get_eq_some]
    exact ⟨hk, o, by rw [hget, if_pos rfl]⟩
  · rename_i hkk
    apply Option.ext
    intro d'
    rw [hwf.get_eq_some, h.get_eq_some]
    constructor
    · rintro ⟨h0, i, hi⟩
      rw [hget] at hi
      split at hi
      · cases hi; exact absurd rfl hkk
      · exact ⟨h0, i, hi⟩
    · rintro ⟨h0, i, hi⟩
      refine ⟨h0, i, ?_⟩
      rw [hget]
      split
      · rename_i hio
        subst hio
        rw [hi] at hr; cases hr
        rcases hrk with hrk | hrk
        · exact absurd hrk h0
        · exact absurd hrk hkk
      · exact hi

theorem Table.WF.put {t : Table} (h : t.WF) (k : Nat) (d : Bytes) : (tablePut t k d).1.WF := by
  by_cases hk : k = 0
  · rw [tablePut_fail (Or.inl hk)]; exact h
  · by_cases hu : t.used = t.rows.length
    · rw [tablePut_fail (Or.inr hu)]; exact h
    · obtain ⟨o, t', heq, hwf, _⟩ := h.put_ok hk (by have := h.cap; omega) d
      rw [heq]; exact hwf

/-- Lookups with counters return what `tableGet` returns and change only the counters. -/
theorem tableGetCounting_eq (t : Table) (k : Nat) :
    ∃ hh mm ss, tableGetCounting t k = ({ t with hits := hh, misses := mm, seeks := ss }, tableGet t k) := by
  unfold tableGetCounting tableGet
  by_cases hk : k = 0
  · simp only [hk, if_true]; exact ⟨_, _, _, rfl⟩
  · simp only [hk, if_false]
    cases hp : t.getProbe k with
    | some o => exact ⟨_, _, _, rfl⟩
    | none =>
      have hsc : ∀ n, Table.getScan { t with seeks := n } k = t.getScan k := fun _ => rfl
      simp only [hsc]
      cases hs : t.getScan k with
      | none => exact ⟨_, _, _, rfl⟩
      | some o => exact ⟨_, _, _, rfl⟩

theorem Table.WF.counters {t : Table} (h : t.WF) (a b c : Nat) :
    Table.WF { t with hits := a, misses := b, seeks := c } :=
  ⟨h.pos, h.count, h.cap, h.unique, h.place, h.full⟩

theorem tableGet_counters (t : Table) (a b c k : Nat) :
    tableGet { t with hits := a, misses := b, seeks := c } k = tableGet t k := rfl

/-! ### Copying rows (resize) -/

/-- The last used row with key `k`, if any. -/
def lastRow (rows : List Row) (k : Nat) : Option Bytes :=
  match rows with
  | [] => none
  | r :: rs =>
    match lastRow rs k with
    | some d => some d
    | none => if r.key = k ∧ k ≠ 0 then r.data else none

theorem Table.WF.copyRows {dst : Table} (h : dst.WF) (rows : List Row) : (tableCopyRows dst rows).WF := by
  induction rows generalizing dst with
  | nil => exact h
  | cons r rs ih =>
    unfold tableCopyRows
    cases r.data with
    | none => exact ih h
    | some d =>
      dsimp only
      split
      · exact ih (h.put _ _)
      · exact ih h

theorem tablePut_default (t : Table) (k : Nat) (d : Bytes) :
    (tablePut t k d).1.defaultTranslation = t.defaultTranslation := by
  rw [tablePut_eq]
  split
  · rfl
  · split
    · rfl
    · split <;> rfl

theorem tablePut_useHash (t : Table) (k : Nat) (d : Bytes) :
    (tablePut t k d).1.useHash = t.useHash := by
  rw [tablePut_eq]
  split
  · rfl
  · split
    · rfl
    · split <;> rfl

theorem tablePut_length (t : Table) (k : Nat) (d : Bytes) :
    (tablePut t k d).1.rows.length = t.rows.length := by
  rw [tablePut_eq]
  split
  · rfl
  · split
    · rfl
    · split <;> simp

theorem tableCopyRows_default (dst : Table) (rows : List Row) :
    (tableCopyRows dst rows).defaultTranslation = dst.defaultTranslation := by
  induction rows generalizing dst with
  | nil => rfl
  | cons r rs ih =>
    unfold tableCopyRows
    cases r.data with
    | none => exact ih _
    | some d =>
      dsimp only
      split
      · rw [ih, tablePut_default]
      · exact ih _

/-- Copying enough room: later rows win, then earlier content. -/
theorem Table.WF.get_copyRows {dst : Table} (h : dst.WF) (rows : List Row)
    (hroom : dst.used + usedRows rows ≤ dst.rows.length) (k : Nat) :
    tableGet (tableCopyRows dst rows) k =
      match lastRow rows k with
      | some d => some d
      | none => tableGet dst k := by
  induction rows generalizing dst with
  | nil => rfl
  | cons r rs ih =>
    unfold tableCopyRows lastRow
    have hc : usedRows (r :: rs) = usedRows rs + if r.key ≠ 0 then 1 else 0 := by
      unfold usedRows
      rw [List.countP_cons]; simp
    cases hd : r.data with
    | none =>
      dsimp only
      rw [ih h (by omega)]
      cases lastRow rs k with
      | some d => rfl
      | none => simp
    | some d =>
      dsimp only
      by_cases h0 : r.key = 0
      · rw [if_neg (by omega), ih h (by omega)]
        cases lastRow rs k with
        | some d => rfl
        | none =>
          have : ¬ (r.key = k ∧ k ≠ 0) := by omega
          simp [this]
      · rw [if_pos (by omega)]
        rw [if_pos h0] at hc
        have hu : dst.used < dst.rows.length := by omega
        obtain ⟨o, t', heq, hwf, hrows, hused, _⟩ := h.put_ok h0 hu d
        have hg := h.get_put h0 hu d k
        rw [heq] at hg ⊢
        rw [ih hwf (by rw [hused, hrows, List.length_set]; omega), hg]
        cases lastRow rs k with
        | some d => rfl
        | none =>
          by_cases hk : k = r.key
          · subst hk; simp [h0]
          · have : ¬ (r.key = k ∧ k ≠ 0) := by omega
            simp [this, hk]

/-- For a table satisfying the invariant the last row for a key is the lookup. -/
theorem lastRow_eq_some {rows : List Row} {k : Nat} {d : Bytes} (h : lastRow rows k = some d) :
    k ≠ 0 ∧ ∃ i : Nat, rows[i]? = some (⟨k, some d⟩ : Row) := by
  induction rows with
  | nil => cases h
  | cons r rs ih =>
    unfold lastRow at h
    cases hl : lastRow rs k with
    | some d' =>
      rw [hl] at h
      cases h
      obtain ⟨h0, i, hi⟩ := ih hl
      exact ⟨h0, i + 1, by simpa using hi⟩
    | none =>
      rw [hl] at h
      dsimp only at h
      split at h
      · rename_i hc
        refine ⟨hc.2, 0, ?_⟩
        obtain ⟨k', d'⟩ := r
        simp_all
      · cases h

theorem lastRow_eq_none {rows : List Row} {k : Nat} (h : lastRow rows k = none) (h0 : k ≠ 0) (i : Nat)
    (d : Bytes) : rows[i]? ≠ some ⟨k, some d⟩ := by
  induction rows generalizing i with
  | nil => simp
  | cons r rs ih =>
    unfold lastRow at h
    cases hl : lastRow rs k with
    | some d' => rw [hl] at h; cases h
    | none =>
      rw [hl] at h
      dsimp only at h
      cases i with
      | zero =>
        simp only [List.getElem?_cons_zero]
        intro hc
        cases hc
        simp [h0] at h
      | succ i => simpa using ih hl i

theorem Table.WF.lastRow_eq_get {t : Table} (h : t.WF) (k : Nat) : lastRow t.rows k = tableGet t k := by
  by_cases h0 : k = 0
  · subst h0
    rw [Table.WF.get_zero]
    cases hl : lastRow t.rows 0 with
    | none => rfl
    | some d => exact absurd rfl (lastRow_eq_some hl).1
  · cases hl : lastRow t.rows k with
    | some d => exact ((h.get_eq_some k d).mpr (lastRow_eq_some hl)).symm
    | none =>
      cases hg : tableGet t k with
      | none => rfl
      | some d =>
        obtain ⟨_, i, hi⟩ := (h.get_eq_some k d).mp hg
        exact absurd hi (lastRow_eq_none hl h0 i d)

/-- A linear table whose rows are all used, with distinct keys, satisfies the invariant. -/
theorem Table.WF.ofLinear {t : Table} (hpos : t.rows ≠ []) (hlin : t.useHash = false)
    (hused : t.used = t.rows.length) (hall : ∀ r ∈ t.rows, r.key ≠ 0 ∧ ∃ d, r.data = some d ∧ d.length ≤ t.maxDataLength)
    (hnd : (t.rows.map Row.key).Nodup) : t.WF := by
  refine ⟨List.length_pos_iff.mpr hpos, ?_, by omega, ?_, ?_, ?_⟩
  · rw [hused]; exact List.countP_le_length
  · intro i j r r' hi hj _ hk
    rw [List.getElem?_eq_some_iff] at hi hj
    obtain ⟨hil, hi⟩ := hi
    obtain ⟨hjl, hj⟩ := hj
    exact (List.getElem_inj (h₀ := by simpa using hil) (h₁ := by simpa using hjl) hnd).mp
      (by simp [hi, hj, hk])
  · intro i r hi _
    refine Or.inr ⟨by simp [hlin], ?_⟩
    intro j hj
    rw [List.getElem?_eq_some_iff] at hi
    have hjl : j < t.rows.length := by have := hi.1; omega
    exact ⟨_, List.getElem?_eq_getElem hjl, (hall _ (List.getElem_mem hjl)).1⟩
  · intro i r hi _
    rw [List.getElem?_eq_some_iff] at hi
    exact (hall r (hi.2 ▸ List.getElem_mem hi.1)).2

/-- A fresh table of a given size, hashed or linear. -/
def freshTable (size : Int) (hash : Bool) : Table := { tableInit size with useHash := hash }

/-- Number of rows of a fresh table of requested size `size`. -/
def rowsFor (size : Int) : Nat := if size ≤ 0 then 500 else size.toNat

theorem freshTable_length (size : Int) (hash : Bool) : (freshTable size hash).rows.length = rowsFor size := by
  simp [freshTable, tableInit, rowsFor]

theorem freshTable_WF (size : Int) (hash : Bool) : (freshTable size hash).WF := by
  have h := Table.WF.init size
  have hempty : ∀ (i : Nat) (r : Row), (tableInit size).rows[i]? = some r → r.key = 0 := by
    intro i r h
    have := List.eq_of_mem_replicate (List.mem_of_getElem? h)
    rw [this]; rfl
  exact ⟨h.pos, h.count, h.cap, h.unique, fun i r hi h0 => absurd (hempty i r hi) h0, h.full⟩

theorem freshTable_get (size : Int) (hash : Bool) (k : Nat) : tableGet (freshTable size hash) k = none := by
  cases hg : tableGet (freshTable size hash) k with
  | none => rfl
  | some d =>
    obtain ⟨h0, i, hi⟩ := ((freshTable_WF size hash).get_eq_some k d).mp hg
    have := List.eq_of_mem_replicate (List.mem_of_getElem? hi)
    simp [Row.empty] at this

theorem tableResize_eq (t : Table) (size : Int) (hash : Bool) :
    tableResize t size hash =
      tableCopyRows { freshTable size hash with
        defaultTranslation := t.defaultTranslation, overwrites := t.overwrites } t.rows := rfl

theorem freshTable_WF' (size : Int) (hash : Bool) (d : Option Bytes) (o : Nat) :
    Table.WF { freshTable size hash with defaultTranslation := d, overwrites := o } := by
  have h := freshTable_WF size hash
  exact ⟨h.pos, h.count, h.cap, h.unique, h.place, h.full⟩

/-- Lookup after a resize with enough room, for any source rows. -/
theorem resize_get (t : Table) (size : Int) (hash : Bool) (hroom : usedRows t.rows ≤ rowsFor size) (k : Nat) :
    tableGet (tableResize t size hash) k = lastRow t.rows k := by
  rw [tableResize_eq, (freshTable_WF' size hash _ _).get_copyRows]
  · cases lastRow t.rows k with
    | some d => rfl
    | none => exact freshTable_get size hash k
  · rw [show ({ freshTable size hash with defaultTranslation := t.defaultTranslation, overwrites := t.overwrites } : Table).rows.length = rowsFor size from freshTable_length size hash]
    show 0 + _ ≤ _
    omega

/-- Keys beyond the largest one in a list of rows are not found. -/
theorem lastRow_none_of_lt {rows : List Row} {k m : Nat} (h : ∀ r ∈ rows, r.key ≤ m) (hk : m < k) :
    lastRow rows k = none := by
  cases hl : lastRow rows k with
  | none => rfl
  | some d =>
    obtain ⟨_, i, hi⟩ := lastRow_eq_some hl
    have := h _ (List.mem_of_getElem? hi)
    dsimp only at this
    omega

end Detox
