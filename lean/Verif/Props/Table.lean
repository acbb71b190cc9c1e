import Verif.Lemmas.Table
import Verif.Spec.TableMap

/-!
# C20–C23: translation tables
-/

set_option autoImplicit false

namespace Detox

open Spec

/-- One client operation on the modelled table. -/
def Table.step (t : Table) : TOp → Table × TOut
  | .put k d => ((tablePut t k d).1, .stored (tablePut t k d).2.isSome)
  | .get k => ((tableGetCounting t k).1, .found (tableGetCounting t k).2)

/-- The table after a history. -/
def Table.after (t : Table) : List TOp → Table
  | [] => t
  | op :: ops => (t.step op).1.after ops

/-- The client's view of a history on the modelled table. -/
def Table.run (t : Table) : List TOp → List TOut
  | [] => []
  | op :: ops => (t.step op).2 :: (t.step op).1.run ops

/-- The simulation relation between the table and the abstract map. -/
structure Sim (t : Table) (m : AMap) : Prop where
  wf : t.WF
  room : t.used + m.room = t.rows.length
  map : ∀ k, tableGet t k = m.map k

theorem Sim.step {t : Table} {m : AMap} (h : Sim t m) (op : TOp) :
    Sim (t.step op).1 (m.step op).1 ∧ (t.step op).2 = (m.step op).2 := by
  cases op with
  | put k d =>
    unfold Table.step AMap.step
    dsimp only
    split
    · rename_i hc
      rw [tablePut_fail (by rcases hc with hc | hc; exact Or.inl hc; right; have := h.room; omega)]
      exact ⟨h, rfl⟩
    · rename_i hc
      have hk : k ≠ 0 := fun h' => hc (Or.inl h')
      have hu : t.used < t.rows.length := by have := h.room; omega
      have hg := h.wf.get_put hk hu d
      obtain ⟨o, t', heq, hwf, hrows, hused, _⟩ := h.wf.put_ok hk hu d
      rw [heq] at hg ⊢
      refine ⟨⟨hwf, ?_, ?_⟩, rfl⟩
      · have := h.room
        rw [hused, hrows, List.length_set]; dsimp only; omega
      · intro k'
        rw [hg]; dsimp only; split
        · rfl
        · exact h.map k'
  | get k =>
    obtain ⟨a, b, c, he⟩ := tableGetCounting_eq t k
    unfold Table.step AMap.step
    dsimp only
    rw [he]
    refine ⟨⟨h.wf.counters a b c, h.room, fun k' => h.map k'⟩, ?_⟩
    rw [h.map k]

theorem Sim.run {t : Table} {m : AMap} (h : Sim t m) (ops : List TOp) : t.run ops = m.run ops := by
  induction ops generalizing t m with
  | nil => rfl
  | cons op ops ih =>
    have hs := h.step op
    simp only [Table.run, AMap.run, hs.2, ih hs.1]

theorem Sim.fresh (size : Int) (hash : Bool) : Sim (freshTable size hash) (AMap.empty (rowsFor size)) :=
  ⟨freshTable_WF size hash, by rw [freshTable_length]; simp [freshTable, tableInit, AMap.empty],
    freshTable_get size hash⟩

/-- **C20.** For every table size, hashed or linear, and every history of insertions and lookups, a
client sees exactly what a plain map (with a bounded number of insertions) would show: hashing,
collisions and linear scans never show. -/
theorem C20_table_behaves_like_a_map (size : Int) (hash : Bool) (ops : List TOp) :
    (freshTable size hash).run ops = (AMap.empty (rowsFor size)).run ops :=
  (Sim.fresh size hash).run ops

/- Non-vacuous: keys 1, 4 and 7 collide in a table of three rows. -/
example : (freshTable 3 true).run
    [.put 1 [65], .put 4 [66], .get 4, .put 4 [67], .get 4, .get 1, .put 7 [68], .get 7] =
    [.stored true, .stored true, .found (some [66]), .stored true, .found (some [67]),
     .found (some [65]), .stored false, .found none] := by decide +kernel

/-- Number of insertions that succeeded in a history. -/
def successes (outs : List TOut) : Nat := outs.countP (fun o => decide (o = .stored true))

theorem Sim.after {t : Table} {m : AMap} (h : Sim t m) (ops : List TOp) :
    ∃ m', Sim (t.after ops) m' ∧ m'.room + successes (t.run ops) = m.room ∧
      (t.after ops).rows.length = t.rows.length := by
  induction ops generalizing t m with
  | nil => exact ⟨m, h, by simp [Table.run, successes], rfl⟩
  | cons op ops ih =>
    have hs := h.step op
    obtain ⟨m', h1, h2, h3⟩ := ih hs.1
    have hlen : (t.step op).1.rows.length = t.rows.length := by
      cases op with
      | put k d => exact tablePut_length t k d
      | get k =>
        obtain ⟨a, b, c, he⟩ := tableGetCounting_eq t k
        simp only [Table.step, he]
    have hroom : (m.step op).1.room + (if (m.step op).2 = .stored true then 1 else 0) = m.room := by
      cases op with
      | put k d =>
        unfold AMap.step
        dsimp only
        split
        · simp
        · rename_i hc
          simp only [if_true]
          have : ¬ m.room = 0 := fun h' => hc (Or.inr h')
          omega
      | get k => simp [AMap.step]
    refine ⟨m', h1, ?_, by rw [Table.after, h3, hlen]⟩
    rw [show t.run (op :: ops) = (t.step op).2 :: (t.step op).1.run ops from rfl]
    unfold successes at h2 ⊢
    rw [List.countP_cons, hs.2]
    simp only [decide_eq_true_eq]
    omega

/-- **C21.** After any history, an insertion fails exactly for key 0 or when as many insertions have
succeeded as there are rows; and a failing insertion changes nothing at all. -/
theorem C21_insertion_fails_exactly (size : Int) (hash : Bool) (ops : List TOp) (k : Nat) (d : Bytes) :
    let t := (freshTable size hash).after ops
    ((tablePut t k d).2 = none ↔
      k = 0 ∨ successes ((freshTable size hash).run ops) = rowsFor size) ∧
    ((tablePut t k d).2 = none → (tablePut t k d).1 = t) := by
  intro t
  obtain ⟨m, hs, hr, hl⟩ := (Sim.fresh size hash).after ops
  have hroom := hs.room
  rw [hl, freshTable_length] at hroom
  have hl' : t.rows.length = rowsFor size := by show Table.length _ = _; rw [Table.length, hl, freshTable_length]
  simp only [AMap.empty] at hr
  have key : ∀ (hf : k = 0 ∨ t.used = t.rows.length), tablePut t k d = (t, none) := fun hf => tablePut_fail hf
  have hu : t.used + m.room = rowsFor size := hroom
  by_cases hf : k = 0 ∨ t.used = t.rows.length
  · rw [key hf]
    refine ⟨⟨fun _ => ?_, fun _ => rfl⟩, fun _ => rfl⟩
    rcases hf with hf | hf
    · exact Or.inl hf
    · right; omega
  · have hk : k ≠ 0 := fun h => hf (Or.inl h)
    have hne : t.used ≠ t.rows.length := fun h => hf (Or.inr h)
    have hcap : t.used ≤ t.rows.length := hs.wf.cap
    have hlt : t.used < t.rows.length := by omega
    obtain ⟨o, t', heq, _⟩ := hs.wf.put_ok hk hlt d
    rw [heq]
    refine ⟨⟨fun h => by simp at h, fun h => ?_⟩, fun h => by simp at h⟩
    rcases h with h | h
    · exact absurd h hk
    · omega

/- Non-vacuous on both sides: the third insertion into two rows fails, the second succeeds. -/
example : (tablePut ((freshTable 2 true).after [.put 5 [65], .put 5 [66]]) 9 [67]).2 = none := by decide +kernel
example : (tablePut ((freshTable 2 true).after [.put 5 [65]]) 9 [67]).2 = some 0 := by decide +kernel

/-- Tables a program can build with the table API (`resize` may start from any array of rows, such as
the built-in ones). -/
inductive Reachable : Table → Prop where
  | fresh (size : Int) (hash : Bool) : Reachable (freshTable size hash)
  | op (t : Table) (o : TOp) : Reachable t → Reachable (t.step o).1
  | setDefault (t : Table) (d : Option Bytes) : Reachable t → Reachable { t with defaultTranslation := d }
  | resize (t : Table) (size : Int) (hash : Bool) : Reachable (tableResize t size hash)

theorem Reachable.wf {t : Table} (h : Reachable t) : t.WF := by
  induction h with
  | fresh size hash => exact freshTable_WF size hash
  | op t o _ ih =>
    cases o with
    | put k d => exact ih.put k d
    | get k =>
      obtain ⟨a, b, c, he⟩ := tableGetCounting_eq t k
      simp only [Table.step, he]
      exact ih.counters a b c
  | setDefault t d _ ih => exact ⟨ih.pos, ih.count, ih.cap, ih.unique, ih.place, ih.full⟩
  | resize t size hash => exact (freshTable_WF' size hash _ _).copyRows _

/-- Number of entries stored in a table. -/
def Table.entries (t : Table) : Nat := usedRows t.rows

theorem get_copyRows_sub {dst : Table} (h : dst.WF) (rows : List Row) (k : Nat) (d : Bytes)
    (hg : tableGet (tableCopyRows dst rows) k = some d) :
    tableGet dst k = some d ∨ ∃ i : Nat, rows[i]? = some (⟨k, some d⟩ : Row) := by
  induction rows generalizing dst with
  | nil => exact Or.inl hg
  | cons r rs ih =>
    have shift : (∃ i : Nat, rs[i]? = some (⟨k, some d⟩ : Row)) → ∃ i : Nat, (r :: rs)[i]? = some (⟨k, some d⟩ : Row) :=
      fun ⟨i, hi⟩ => ⟨i + 1, by simpa using hi⟩
    unfold tableCopyRows at hg
    cases hd : r.data with
    | none =>
      rw [hd] at hg
      exact (ih h hg).imp id shift
    | some d' =>
      rw [hd] at hg
      dsimp only at hg
      split at hg
      · rename_i hpos
        rcases ih (h.put _ _) hg with hg | hg
        · by_cases hu : dst.used = dst.rows.length
          · rw [tablePut_fail (Or.inr hu)] at hg
            exact Or.inl hg
          · rw [h.get_put (by omega) (by have := h.cap; omega)] at hg
            split at hg
            · rename_i hk
              cases hg
              refine Or.inr ⟨0, ?_⟩
              obtain ⟨k', dd⟩ := r
              simp_all
            · exact Or.inl hg
        · exact Or.inr (shift hg)
      · exact (ih h hg).imp id shift

theorem copyRows_maxDataLength {dst : Table} (h : dst.WF) (rows : List Row) :
    (tableCopyRows dst rows).maxDataLength = dst.maxDataLength ∨
    ∃ (i k : Nat) (d : Bytes), k ≠ 0 ∧ rows[i]? = some (⟨k, some d⟩ : Row) ∧
      d.length = (tableCopyRows dst rows).maxDataLength := by
  induction rows generalizing dst with
  | nil => exact Or.inl rfl
  | cons r rs ih =>
    have shift : ∀ n, (∃ (i k : Nat) (d : Bytes), k ≠ 0 ∧ rs[i]? = some (⟨k, some d⟩ : Row) ∧ d.length = n) →
        ∃ (i k : Nat) (d : Bytes), k ≠ 0 ∧ (r :: rs)[i]? = some (⟨k, some d⟩ : Row) ∧ d.length = n :=
      fun n ⟨i, k, d, h0, hi, hn⟩ => ⟨i + 1, k, d, h0, by simpa using hi, hn⟩
    unfold tableCopyRows
    cases hd : r.data with
    | none => exact (ih h).imp id (shift _)
    | some d =>
      dsimp only
      split
      · rename_i hpos
        rcases ih (h.put r.key d) with hh | hh
        · rw [hh]
          by_cases hu : dst.used = dst.rows.length
          · rw [tablePut_fail (Or.inr hu)]; exact Or.inl rfl
          · obtain ⟨o, t', heq, _, _, _, _, _, hm, _⟩ := h.put_ok (k := r.key) (by omega) (by have := h.cap; omega) d
            rw [heq]
            dsimp only
            rw [hm]
            by_cases hlt : dst.maxDataLength < d.length
            · refine Or.inr ⟨0, r.key, d, by omega, ?_, by omega⟩
              obtain ⟨k', dd⟩ := r
              simp_all
            · exact Or.inl (by omega)
        · exact Or.inr (shift _ hh)
      · exact (ih h).imp id (shift _)

/-- **C22.** Resizing any reachable table to at least as many rows as it has entries preserves every
mapping and the default translation, and records the longest entry exactly. -/
theorem C22_resize_preserves (t : Table) (ht : Reachable t) (size : Int) (hash : Bool)
    (hroom : t.entries ≤ rowsFor size) :
    (∀ k, tableGet (tableResize t size hash) k = tableGet t k) ∧
    (tableResize t size hash).defaultTranslation = t.defaultTranslation ∧
    (∀ k d, tableGet t k = some d → d.length ≤ (tableResize t size hash).maxDataLength) ∧
    ((tableResize t size hash).maxDataLength = 0 ∨
      ∃ k d, tableGet t k = some d ∧ d.length = (tableResize t size hash).maxDataLength) := by
  have hwf := ht.wf
  have hfr := freshTable_WF' size hash t.defaultTranslation t.overwrites
  have hmap : ∀ k, tableGet (tableResize t size hash) k = tableGet t k := by
    intro k
    rw [tableResize_eq, hfr.get_copyRows]
    · rw [hwf.lastRow_eq_get]
      cases hg : tableGet t k with
      | some d => rfl
      | none => exact freshTable_get size hash k
    · rw [show ({ freshTable size hash with defaultTranslation := t.defaultTranslation, overwrites := t.overwrites } : Table).rows.length = rowsFor size from freshTable_length size hash]
      show 0 + _ ≤ _
      unfold Table.entries at hroom
      omega
  refine ⟨hmap, ?_, ?_, ?_⟩
  · rw [tableResize_eq, tableCopyRows_default]
  · intro k d hg
    rw [← hmap] at hg
    have hw : (tableResize t size hash).WF := hfr.copyRows _
    obtain ⟨h0, i, hi⟩ := (hw.get_eq_some k d).mp hg
    obtain ⟨d', hd', hl⟩ := hw.full i _ hi h0
    cases hd'
    exact hl
  · rcases copyRows_maxDataLength hfr t.rows with h | ⟨i, k, d, h0, hi, hl⟩
    · exact Or.inl h
    · exact Or.inr ⟨k, d, (hwf.get_eq_some k d).mpr ⟨h0, i, hi⟩, hl⟩

/-- **C22, any size.** Resizing never invents or changes a mapping, even when rows are dropped. -/
theorem C22_resize_never_changes_an_entry (t : Table) (ht : Reachable t) (size : Int) (hash : Bool)
    (k : Nat) (d : Bytes) (h : tableGet (tableResize t size hash) k = some d) : tableGet t k = some d := by
  have hwf := ht.wf
  rw [tableResize_eq] at h
  rcases get_copyRows_sub (freshTable_WF' size hash _ _) _ _ _ h with h | ⟨i, hi⟩
  · have := freshTable_get size hash k
    exact absurd (this.symm.trans h) (by simp)
  · rw [hwf.get_eq_some]
    refine ⟨?_, i, hi⟩
    intro h0
    subst h0
    simp [tableGet] at h

/- Non-vacuous: a two-entry table resized to two rows, and to one row (drops an entry). -/
example :
    let t := (freshTable 10 true).after [.put 3 [65], .put 8 [66, 67]]
    t.entries = 2 ∧ tableGet (tableResize t 2 true) 8 = some [66, 67] ∧
    (tableResize t 2 true).maxDataLength = 2 ∧
    tableGet (tableResize t 1 false) 3 = some [65] ∧ tableGet (tableResize t 1 false) 8 = none := by decide +kernel

/-- **C23.** After any history of insertions, lookups and resizes the recorded longest-entry length
is at least the length of anything a lookup can return. -/
theorem C23_max_data_length_is_an_upper_bound (t : Table) (ht : Reachable t) (k : Nat) (d : Bytes)
    (h : tableGet t k = some d) : d.length ≤ t.maxDataLength := by
  obtain ⟨h0, i, hi⟩ := (ht.wf.get_eq_some k d).mp h
  obtain ⟨d', hd', hl⟩ := ht.wf.full i _ hi h0
  cases hd'
  exact hl

example : (tableGet ((freshTable 10 true).after [.put 3 [65, 66, 67], .put 3 [65]]) 3) = some [65] ∧
    ((freshTable 10 true).after [.put 3 [65, 66, 67], .put 3 [65]]).maxDataLength = 3 := by decide +kernel

end Detox
