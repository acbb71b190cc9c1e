import Verif.Lemmas.MemoryFilelist
import Verif.Lemmas.Table

/-!
# Tables on the heap
-/

set_option autoImplicit false

namespace Detox

/-! ### The search looks at the keys only -/

theorem putProbe_congr {t u : Table} (hr : t.rows.map Row.key = u.rows.map Row.key) (hh : t.useHash = u.useHash) (k : Nat) :
    t.putProbe k = u.putProbe k := by
  have hl : t.rows.length = u.rows.length := by simpa using congrArg List.length hr
  have hg : ∀ i, (t.rows[i]?).map Row.key = (u.rows[i]?).map Row.key := fun i => by
    rw [← List.getElem?_map, ← List.getElem?_map, hr]
  unfold Table.putProbe
  rw [hh]
  split
  · simp only [Table.length, hl]
    have := hg (tableHash u.rows.length k)
    cases h1 : t.rows[tableHash u.rows.length k]? with
    | none =>
      cases h2 : u.rows[tableHash u.rows.length k]? with
      | none => rfl
      | some r' => rw [h1, h2] at this; cases this
    | some r =>
      cases h2 : u.rows[tableHash u.rows.length k]? with
      | none => rw [h1, h2] at this; cases this
      | some r' =>
        rw [h1, h2] at this
        simp only [Option.map_some, Option.some.injEq] at this
        simp only [this]
  · rfl

theorem getProbe_congr {t u : Table} (hr : t.rows.map Row.key = u.rows.map Row.key) (hh : t.useHash = u.useHash) (k : Nat) :
    t.getProbe k = u.getProbe k := by
  have hl : t.rows.length = u.rows.length := by simpa using congrArg List.length hr
  have hg : ∀ i, (t.rows[i]?).map Row.key = (u.rows[i]?).map Row.key := fun i => by
    rw [← List.getElem?_map, ← List.getElem?_map, hr]
  unfold Table.getProbe
  rw [hh]
  split
  · simp only [Table.length, hl]
    have := hg (tableHash u.rows.length k)
    cases h1 : t.rows[tableHash u.rows.length k]? with
    | none =>
      cases h2 : u.rows[tableHash u.rows.length k]? with
      | none => rfl
      | some r' => rw [h1, h2] at this; cases this
    | some r =>
      cases h2 : u.rows[tableHash u.rows.length k]? with
      | none => rw [h1, h2] at this; cases this
      | some r' =>
        rw [h1, h2] at this
        simp only [Option.map_some, Option.some.injEq] at this
        simp only [this]
  · rfl

theorem findIdx?_map_key (rows : List Row) (p : Nat → Bool) : rows.findIdx? (fun r => p r.key) = (rows.map Row.key).findIdx? p := by
  rw [List.findIdx?_map]
  rfl

theorem putScan_congr {t u : Table} (hr : t.rows.map Row.key = u.rows.map Row.key) (k : Nat) : t.putScan k = u.putScan k := by
  unfold Table.putScan
  rw [findIdx?_map_key t.rows (fun x => decide (x = 0 ∨ x = k)), findIdx?_map_key u.rows (fun x => decide (x = 0 ∨ x = k)), hr]

theorem getScan_congr {t u : Table} (hr : t.rows.map Row.key = u.rows.map Row.key) (k : Nat) : t.getScan k = u.getScan k := by
  unfold Table.getScan
  rw [findIdx?_map_key t.rows (fun x => decide (x = k)), findIdx?_map_key u.rows (fun x => decide (x = k)), hr]

/-! ### Representation -/

/-- What a `char *` that may be NULL points to. -/
def Heap.optAt (h : Heap) (p : Option Addr) : Option (Option Bytes) :=
  match p with
  | none => some none
  | some a => (h.textAt a).map some

/-- The row a `table_row_t` stands for. -/
def Heap.rowAt (h : Heap) (r : Nat × Option Addr) : Option Row := (h.optAt r.2).map fun d => ⟨r.1, d⟩

/-- The strings of the rows. -/
def rowPtrs (rs : List (Nat × Option Addr)) : List Addr := rs.filterMap Prod.snd

/-- The numbers of a table. -/
def numbersOf (T : Table) : TableNumbers :=
  ⟨T.rows.length, T.used, T.maxDataLength, T.hits, T.misses, T.overwrites, T.seeks, T.useHash, T.builtin, T.maxKey⟩

/-- At `t` is the table `T`, made at run time. `ra` is the block of the rows, `rs` its content, `dp` the default translation. -/
structure TableAt (h : Heap) (t ra : Addr) (dp : Option Addr) (rs : List (Nat × Option Addr)) (T : Table) : Prop where
  table : h.get t = some (.table (some ra) dp (numbersOf T))
  rows : h.get ra = some (.rows rs)
  content : rs.map h.rowAt = T.rows.map some
  dflt : h.optAt dp = some T.defaultTranslation
  full : ∀ r, r ∈ rs → (r.1 = 0 ↔ r.2 = none)
  nodup : (dp.toList ++ rowPtrs rs).Nodup
  dynamic : T.builtin = false

/-- The blocks of a table. -/
def tableBlocks (t ra : Addr) (dp : Option Addr) (rs : List (Nat × Option Addr)) : List Addr := t :: ra :: (dp.toList ++ rowPtrs rs)

theorem Heap.optAt_congr {h h' : Heap} {p : Option Addr} (e : ∀ x, x ∈ p.toList → h'.get x = h.get x) : h'.optAt p = h.optAt p := by
  cases p with
  | none => rfl
  | some a => simp only [Heap.optAt]; rw [Heap.textAt_congr (e a (by simp))]

theorem mem_rowPtrs {rs : List (Nat × Option Addr)} {a : Addr} : a ∈ rowPtrs rs ↔ ∃ k, (k, some a) ∈ rs := by
  unfold rowPtrs
  rw [List.mem_filterMap]
  constructor
  · rintro ⟨⟨k, p⟩, h1, h2⟩; simp at h2; subst h2; exact ⟨k, h1⟩
  · rintro ⟨k, h1⟩; exact ⟨_, h1, rfl⟩

theorem rowAt_map_congr {h h' : Heap} {rs : List (Nat × Option Addr)} (e : ∀ x, x ∈ rowPtrs rs → h'.get x = h.get x) :
    rs.map h'.rowAt = rs.map h.rowAt := by
  refine List.map_congr_left fun r hr => ?_
  unfold Heap.rowAt
  rw [Heap.optAt_congr]
  intro x hx
  refine e x (mem_rowPtrs.2 ⟨r.1, ?_⟩)
  cases r with
  | mk k p => cases p with
    | none => simp at hx
    | some a => simp at hx; subst hx; exact hr

theorem Heap.optAt_some {h : Heap} {p : Option Addr} {d : Option Bytes} (e : h.optAt p = some d) {a : Addr} (ha : a ∈ p.toList) :
    ∃ n s, h.get a = some (.text n s) ∧ d = some s := by
  cases p with
  | none => simp at ha
  | some b =>
    simp at ha
    subst ha
    simp only [Heap.optAt] at e
    cases ht : h.textAt a with
    | none => rw [ht] at e; cases e
    | some s =>
      rw [ht] at e
      obtain ⟨n, hg⟩ := Heap.textAt_get ht
      exact ⟨n, s, hg, by simpa using e.symm⟩

theorem TableAt.text {h : Heap} {t ra : Addr} {dp : Option Addr} {rs : List (Nat × Option Addr)} {T : Table} (l : TableAt h t ra dp rs T)
    {x : Addr} (hx : x ∈ dp.toList ++ rowPtrs rs) : ∃ n s, h.get x = some (.text n s) := by
  rcases List.mem_append.1 hx with h1 | h1
  · obtain ⟨n, s, h2, _⟩ := Heap.optAt_some l.dflt h1; exact ⟨n, s, h2⟩
  · obtain ⟨k, h2⟩ := mem_rowPtrs.1 h1
    have h3 : h.rowAt (k, some x) ∈ rs.map h.rowAt := List.mem_map_of_mem h2
    rw [l.content] at h3
    obtain ⟨r, _, h4⟩ := List.mem_map.1 h3
    unfold Heap.rowAt at h4
    cases ho : h.optAt (some x) with
    | none => simp only [ho] at h4; cases h4
    | some d => obtain ⟨n, s, h5, _⟩ := Heap.optAt_some ho (a := x) (by simp); exact ⟨n, s, h5⟩

theorem TableAt.ne {h : Heap} {t ra : Addr} {dp : Option Addr} {rs : List (Nat × Option Addr)} {T : Table} (l : TableAt h t ra dp rs T) :
    t ≠ ra ∧ t ∉ dp.toList ++ rowPtrs rs ∧ ra ∉ dp.toList ++ rowPtrs rs := by
  refine ⟨?_, ?_, ?_⟩
  · rintro rfl; have := l.table.symm.trans l.rows; cases this
  · intro hc; obtain ⟨_, _, h4⟩ := l.text hc; have := l.table.symm.trans h4; cases this
  · intro hc; obtain ⟨_, _, h4⟩ := l.text hc; have := l.rows.symm.trans h4; cases this

theorem TableAt.live {h : Heap} {t ra : Addr} {dp : Option Addr} {rs : List (Nat × Option Addr)} {T : Table} (l : TableAt h t ra dp rs T)
    {x : Addr} (hx : x ∈ tableBlocks t ra dp rs) : ∃ b, h.get x = some b := by
  simp only [tableBlocks, List.mem_cons] at hx
  rcases hx with rfl | rfl | hx
  · exact ⟨_, l.table⟩
  · exact ⟨_, l.rows⟩
  · obtain ⟨_, _, h4⟩ := l.text hx; exact ⟨_, h4⟩

theorem TableAt.congr {h h' : Heap} {t ra : Addr} {dp : Option Addr} {rs : List (Nat × Option Addr)} {T : Table} (l : TableAt h t ra dp rs T)
    (hh : ∀ x, x ∈ tableBlocks t ra dp rs → h'.get x = h.get x) : TableAt h' t ra dp rs T := by
  refine ⟨?_, ?_, ?_, ?_, l.full, l.nodup, l.dynamic⟩
  · rw [hh t (by simp [tableBlocks]), l.table]
  · rw [hh ra (by simp [tableBlocks]), l.rows]
  · rw [rowAt_map_congr (h := h), l.content]
    intro x hx; exact hh x (by simp [tableBlocks, hx])
  · rw [Heap.optAt_congr (h := h), l.dflt]
    intro x hx; exact hh x (by simp only [tableBlocks, List.mem_cons, List.mem_append, hx]; simp)

theorem TableAt.length {h : Heap} {t ra : Addr} {dp : Option Addr} {rs : List (Nat × Option Addr)} {T : Table} (l : TableAt h t ra dp rs T) :
    rs.length = T.rows.length := by simpa using congrArg List.length l.content

theorem TableAt.getElem {h : Heap} {t ra : Addr} {dp : Option Addr} {rs : List (Nat × Option Addr)} {T : Table} (l : TableAt h t ra dp rs T)
    (i : Nat) : (rs[i]?).map h.rowAt = (T.rows[i]?).map some := by
  rw [← List.getElem?_map, ← List.getElem?_map, l.content]

theorem Heap.rowAt_some {h : Heap} {r : Nat × Option Addr} {R : Row} (e : h.rowAt r = some R) : R.key = r.1 ∧ h.optAt r.2 = some R.data := by
  unfold Heap.rowAt at e
  cases ho : h.optAt r.2 with
  | none => rw [ho] at e; cases e
  | some d => rw [ho] at e; cases e; exact ⟨rfl, rfl⟩

theorem TableAt.keys {h : Heap} {t ra : Addr} {dp : Option Addr} {rs : List (Nat × Option Addr)} {T : Table} (l : TableAt h t ra dp rs T) :
    (tableView (numbersOf T) rs).rows.map Row.key = T.rows.map Row.key := by
  refine List.ext_getElem? fun i => ?_
  have := l.getElem i
  simp only [tableView, List.getElem?_map, List.map_map]
  cases h1 : rs[i]? with
  | none =>
    rw [h1] at this
    cases h2 : T.rows[i]? with
    | none => rfl
    | some R => rw [h2] at this; cases this
  | some r =>
    rw [h1] at this
    cases h2 : T.rows[i]? with
    | none => rw [h2] at this; cases this
    | some R =>
      rw [h2] at this
      simp only [Option.map_some, Option.some.injEq] at this
      simp [(Heap.rowAt_some this).1]

theorem loadTable_eq {h : Heap} {a : Addr} {rows dflt : Option Addr} {n : TableNumbers} (e : h.get a = some (.table rows dflt n)) :
    Mem.loadTable a h = .ret (.ok ((rows, dflt, n), h)) := by
  have : (Mem.load a >>= fun b => match b with | .table rows dflt n => Mem.pure (rows, dflt, n) | _ => Mem.fault .pointer) h =
      .ret (.ok ((rows, dflt, n), h)) := by rw [Mem.bind_ok (Mem.load_eq e)]; rfl
  exact this

theorem loadRows_eq {h : Heap} {a : Addr} {rs : List (Nat × Option Addr)} (e : h.get a = some (.rows rs)) :
    Mem.loadRows (some a) h = .ret (.ok (rs, h)) := by
  have : (Mem.load a >>= fun b => match b with | .rows rs => Mem.pure rs | _ => Mem.fault .pointer) h = .ret (.ok (rs, h)) := by
    rw [Mem.bind_ok (Mem.load_eq e)]; rfl
  exact this

/-! ### table_init -/

theorem rowPtrs_replicate (n : Nat) : rowPtrs (List.replicate n (0, none)) = [] := by
  induction n with
  | zero => rfl
  | succ n ih => rw [List.replicate_succ]; exact ih

theorem tableInit_does (A : Nat → Bool) (size : Int) (h : Heap) :
    Does A (mTableInit A size) h fun t h' => ∃ ra, TableAt h' t ra none (List.replicate (rowsFor size) (0, none)) (tableInit size) ∧
      Swap h [] h' (tableBlocks t ra none (List.replicate (rowsFor size) (0, none))) := by
  unfold mTableInit
  simp only
  refine Does.bind (P := fun l h1 => l = h.length ∧ h1 = h ++ [some (.table none none { length := 0, useHash := false })])
    (Does.malloc ⟨rfl, rfl⟩) ?_
  rintro l h1 ⟨rfl, rfl⟩
  change Does A (wrappedMalloc A (.rows (List.replicate (rowsFor size) (0, none))) >>= fun rs =>
    Mem.store h.length (.table (some rs) none { length := rowsFor size }) >>= fun _ => pure h.length) _ _
  refine Does.bind (P := fun fs h2 => fs = h.length + 1 ∧
    h2 = h ++ [some (.table none none { length := 0, useHash := false })] ++ [some (.rows (List.replicate (rowsFor size) (0, none)))])
    (Does.malloc ⟨by simp, rfl⟩) ?_
  rintro fs h2 ⟨rfl, rfl⟩
  have g1 : Heap.get (h ++ [some (.table none none { length := 0, useHash := false })]) h.length = some _ := Heap.get_new _ _
  have g2 := Heap.get_append_some (x := [some (.rows (List.replicate (rowsFor size) (0, none)))]) g1
  have g3 := Heap.get_new (h ++ [some (.table none none { length := 0, useHash := false })]) (.rows (List.replicate (rowsFor size) (0, none)))
  have s1 := Swap.malloc h [] (.table none none { length := 0, useHash := false })
  have s2 := Swap.malloc (h ++ [some (.table none none { length := 0, useHash := false })]) [h.length] (.rows (List.replicate (rowsFor size) (0, none)))
  rw [show (h ++ [some (Block.table none none { length := 0, useHash := false })]).length = h.length + 1 by simp] at g3 s2
  refine Does.step (Mem.store_eq g2 _) (Does.ret rfl ⟨h.length + 1, ⟨?_, ?_, ?_, rfl, ?_, ?_, rfl⟩, ?_⟩)
  · rw [Heap.get_set_eq (Heap.get_lt g2)]
    simp [numbersOf, tableInit, rowsFor]
  · rw [Heap.get_set_ne (Nat.succ_ne_self _), g3]
  · simp [tableInit, rowsFor, Heap.rowAt, Heap.optAt, Row.empty]
  · intro r hr
    rw [List.eq_of_mem_replicate hr]; simp
  · simp [rowPtrs_replicate]
  · refine ((s1.trans s2).trans (Swap.store (a := h.length) (by simp) _)).perm (fun _ => Iff.rfl) (fun x => ?_)
    simp [tableBlocks, rowPtrs_replicate, or_comm]

/-! ### table_put -/

theorem rowPtrs_append (a b : List (Nat × Option Addr)) : rowPtrs (a ++ b) = rowPtrs a ++ rowPtrs b := List.filterMap_append

theorem rowPtrs_cons_some (k : Nat) (p : Addr) (b : List (Nat × Option Addr)) : rowPtrs ((k, some p) :: b) = p :: rowPtrs b := rfl

theorem rowPtrs_cons_none (k : Nat) (b : List (Nat × Option Addr)) : rowPtrs ((k, none) :: b) = rowPtrs b := rfl

theorem split_at {α : Type} : ∀ (l : List α) (i : Nat) (r : α), l[i]? = some r → ∃ a b, l = a ++ r :: b ∧ a.length = i
  | [], i, r, h => by simp at h
  | x :: l, 0, r, h => ⟨[], l, by simp at h; simp [h], rfl⟩
  | x :: l, i + 1, r, h => by
    obtain ⟨a, b, h1, h2⟩ := split_at l i r (by simpa using h)
    exact ⟨x :: a, b, by simp [h1], by simp [h2]⟩

theorem set_split {α : Type} (a : List α) (r r' : α) (b : List α) : (a ++ r :: b).set a.length r' = a ++ r' :: b := by
  rw [List.set_append_right _ _ (Nat.le_refl _)]
  simp

/-- What a put leaves behind: the string it replaced. -/
structure Lost (h : Heap) (own lost : List Addr) : Prop where
  nodup : lost.Nodup
  apart : ∀ x, x ∈ lost → x ∉ own
  live : ∀ x, x ∈ lost → ∃ n s, h.get x = some (.text n s)

theorem Lost.nil (h : Heap) (own : List Addr) : Lost h own [] := ⟨List.nodup_nil, fun _ h => absurd h (by simp), fun _ h => absurd h (by simp)⟩

theorem tablePut_does {A : Nat → Bool} {h : Heap} {t ra : Addr} {dp : Option Addr} {rs : List (Nat × Option Addr)} {T : Table}
    (l : TableAt h t ra dp rs T) (key : Nat) (data : Bytes) :
    Does A (mTablePut A (some t) key data) h fun r h' => r = (tablePut T key data).2 ∧ ∃ rs' lost,
      TableAt h' t ra dp rs' (tablePut T key data).1 ∧
      Swap h (tableBlocks t ra dp rs) h' (lost ++ tableBlocks t ra dp rs') ∧
      Lost h' (tableBlocks t ra dp rs') lost ∧ T.overwrites + lost.length = (tablePut T key data).1.overwrites := by
  have ne := l.ne
  rw [tablePut_eq]
  unfold mTablePut
  simp only
  by_cases hk : key = 0
  · rw [if_pos hk, if_pos hk]
    exact Does.ret rfl ⟨rfl, rs, [], l, Swap.refl _ _, Lost.nil _ _, rfl⟩
  rw [if_neg hk, if_neg hk]
  refine Does.step (loadTable_eq l.table) ?_
  simp only
  by_cases hu : T.rows.length = T.used
  · rw [if_pos hu, if_pos (show (numbersOf T).length = (numbersOf T).used from hu)]
    exact Does.ret rfl ⟨rfl, rs, [], l, Swap.refl _ _, Lost.nil _ _, rfl⟩
  rw [if_neg hu, if_neg (show ¬ (numbersOf T).length = (numbersOf T).used from hu)]
  refine Does.step (loadRows_eq l.rows) ?_
  have hoff : (tableView (numbersOf T) rs).putSlot key = T.putOffset key := by
    unfold Table.putOffset Table.putSlot
    rw [putProbe_congr l.keys rfl, putScan_congr l.keys]
    cases T.putProbe key <;> rfl
  rw [hoff]
  cases ho : T.putOffset key with
  | none => exact Does.ret rfl ⟨rfl, rs, [], l, Swap.refl _ _, Lost.nil _ _, rfl⟩
  | some o =>
    obtain ⟨R, hR, hkey, _⟩ := Table.putOffset_spec ho
    have hrow := l.getElem o
    rw [hR] at hrow
    obtain ⟨r, hr, hrR⟩ : ∃ r, rs[o]? = some r ∧ h.rowAt r = some R := by
      cases hh : rs[o]? with
      | none => rw [hh] at hrow; cases hrow
      | some r => rw [hh] at hrow; exact ⟨r, rfl, by simpa using hrow⟩
    have hkr := (Heap.rowAt_some hrR).1
    simp only [hr, hR]
    refine Does.step (deref_eq ra h) ?_
    unfold wrappedStrdup
    refine Does.bind (P := fun x h' => x = h.length ∧ h' = h ++ [some (.text (data.length + 1) data)]) (Does.malloc ⟨rfl, rfl⟩) ?_
    rintro x h' ⟨rfl, rfl⟩
    have hlt : ∀ x, x ∈ tableBlocks t ra dp rs → x < h.length := fun x hx => by obtain ⟨b, hb⟩ := l.live hx; exact Heap.get_lt hb
    have l1 : TableAt (h ++ [some (.text (data.length + 1) data)]) t ra dp rs T := l.congr fun x hx => Heap.get_append_old (hlt x hx)
    have s1 := Swap.malloc h (tableBlocks t ra dp rs) (.text (data.length + 1) data)
    have g1 := Heap.get_new h (.text (data.length + 1) data)
    have nt : t ≠ h.length := Nat.ne_of_lt (hlt t (by simp [tableBlocks]))
    have nra : ra ≠ h.length := Nat.ne_of_lt (hlt ra (by simp [tableBlocks]))
    have nq : ∀ x, x ∈ dp.toList ++ rowPtrs rs → x ≠ h.length := fun x hx => Nat.ne_of_lt (hlt x (by simp only [tableBlocks, List.mem_cons]; exact .inr (.inr hx)))
    generalize h ++ [some (Block.text (data.length + 1) data)] = h1 at *
    generalize h.length = c at *
    refine Does.step (Mem.store_eq l1.rows _) ?_
    refine Does.step (Mem.store_eq (a := t) (by rw [Heap.get_set_ne ne.1]; exact l1.table) _) ?_
    obtain ⟨a, b, hsplit, hlen⟩ := split_at rs o r hr
    subst hlen
    have eset : rs.set a.length (key, some c) = a ++ (key, some c) :: b := by rw [hsplit, set_split]
    have eget : ∀ x, x ≠ t → x ≠ ra → Heap.get ((h1.set ra (some (.rows (rs.set a.length (key, some c))))).set t
        (some (.table (some ra) dp { numbersOf T with
          overwrites := if decide (r.1 = key) = true then (numbersOf T).overwrites + 1 else (numbersOf T).overwrites
          used := (numbersOf T).used + 1
          maxKey := if (numbersOf T).maxKey < key then key else (numbersOf T).maxKey
          maxDataLength := if (numbersOf T).maxDataLength < data.length then data.length else (numbersOf T).maxDataLength }))) x = h1.get x :=
      fun x h1 h2 => by rw [Heap.get_set_ne h1, Heap.get_set_ne h2]
    have ept : ∀ x, x ∈ dp.toList ++ rowPtrs rs → x ≠ t ∧ x ≠ ra := fun x hx =>
      ⟨ne_of_mem_of_not_mem hx ne.2.1, ne_of_mem_of_not_mem hx ne.2.2⟩
    have hnd := l.nodup
    have hfull := l.full
    rw [hsplit, rowPtrs_append] at hnd
    have sst : ∀ (o : List Addr), t ∈ o → ra ∈ o → ∀ B1 B2, Swap h1 o ((h1.set ra (some B1)).set t (some B2)) o :=
      fun o ht hra B1 B2 => (Swap.store hra _).trans (Swap.store ht _)
    have hpr : ∀ x, x ∈ rowPtrs (a ++ (key, some c) :: b) → x = c ∨ x ∈ rowPtrs rs := by
      intro x hx
      rw [rowPtrs_append, rowPtrs_cons_some] at hx
      rw [hsplit, rowPtrs_append]
      rcases List.mem_append.1 hx with h' | h'
      · exact .inr (List.mem_append_left _ h')
      · rcases List.mem_cons.1 h' with h' | h'
        · exact .inl h'
        · refine .inr (List.mem_append_right _ ?_)
          unfold rowPtrs; rw [List.filterMap_cons]; split
          · exact h'
          · exact List.mem_cons_of_mem _ h'
    have hab : ∀ x, x ∈ rowPtrs a ∨ x ∈ rowPtrs b → x ∈ rowPtrs rs := by
      intro x hx
      rw [hsplit, rowPtrs_append]
      rcases hx with h' | h'
      · exact List.mem_append_left _ h'
      · refine List.mem_append_right _ ?_
        unfold rowPtrs; rw [List.filterMap_cons]; split
        · exact h'
        · exact List.mem_cons_of_mem _ h'
    have hcn : c ∉ dp.toList ++ rowPtrs rs := fun hc => nq c hc rfl
    refine Does.ret rfl ⟨rfl, a ++ (key, some c) :: b, r.2.toList, ⟨?_, ?_, ?_, ?_, ?_, ?_, l.dynamic⟩, ?_, ⟨?_, ?_, ?_⟩, ?_⟩
    · rw [Heap.get_set_eq (by simpa using Heap.get_lt l1.table)]
      simp [numbersOf, hkr]
      exact ⟨rfl, rfl⟩
    · rw [Heap.get_set_ne (Ne.symm ne.1), Heap.get_set_eq (Heap.get_lt l1.rows), eset]
    · simp only
      have e1 : (a ++ r :: b).map h1.rowAt = T.rows.map some := by rw [← hsplit]; exact l1.content
      rw [List.map_append, List.map_cons] at e1
      rw [List.map_append, List.map_cons, List.map_set, ← e1]
      have e2 := set_split (a.map h1.rowAt) (h1.rowAt r) (some (⟨key, some data⟩ : Row)) (b.map h1.rowAt)
      rw [List.length_map] at e2
      rw [e2]
      congr 1
      · refine rowAt_map_congr fun x hx => ?_
        have := ept x (List.mem_append_right _ (hab x (.inl hx)))
        exact eget x this.1 this.2
      · congr 1
        · simp only [Heap.rowAt, Heap.optAt]
          rw [Heap.textAt_of (n := data.length + 1) (s := data)]
          · rfl
          · rw [eget c (Ne.symm nt) (Ne.symm nra)]; exact g1
        · refine rowAt_map_congr fun x hx => ?_
          have := ept x (List.mem_append_right _ (hab x (.inr hx)))
          exact eget x this.1 this.2
    · rw [Heap.optAt_congr (h := h1) fun x hx => ?_]
      · exact l1.dflt
      · have := ept x (List.mem_append_left _ hx)
        exact eget x this.1 this.2
    · intro x hx
      rw [hsplit] at hfull
      rcases List.mem_append.1 hx with h' | h'
      · exact hfull x (List.mem_append_left _ h')
      · rcases List.mem_cons.1 h' with h' | h'
        · subst h'; simp [hk]
        · exact hfull x (List.mem_append_right _ (List.mem_cons_of_mem _ h'))
    · rw [rowPtrs_append, rowPtrs_cons_some]
      rw [List.nodup_append, List.nodup_append] at hnd ⊢
      obtain ⟨n1, ⟨n2, n3, n4⟩, n5⟩ := hnd
      have n3' : (rowPtrs b).Nodup := by
        cases r with
        | mk k p => cases p with
          | none => exact n3
          | some p => exact (List.nodup_cons.1 n3).2
      refine ⟨n1, ⟨n2, List.nodup_cons.2 ⟨fun hc => hcn (List.mem_append_right _ (hab _ (.inr hc))), n3'⟩, ?_⟩, ?_⟩
      · intro x hx y hy
        rcases List.mem_cons.1 hy with rfl | hy
        · exact nq x (List.mem_append_right _ (hab _ (.inl hx)))
        · refine n4 x hx y ?_
          unfold rowPtrs; rw [List.filterMap_cons]; split
          · exact hy
          · exact List.mem_cons_of_mem _ hy
      · intro x hx y hy
        rcases List.mem_append.1 hy with hy | hy
        · exact n5 x hx y (List.mem_append_left _ hy)
        · rcases List.mem_cons.1 hy with rfl | hy
          · exact nq x (List.mem_append_left _ hx)
          · refine n5 x hx y (List.mem_append_right _ ?_)
            unfold rowPtrs; rw [List.filterMap_cons]; split
            · exact hy
            · exact List.mem_cons_of_mem _ hy
    · refine (s1.trans (sst _ ?_ ?_ _ _)).perm (fun _ => Iff.rfl) ?_
      · simp [tableBlocks]
      · simp [tableBlocks]
      · intro x
        simp only [tableBlocks, List.mem_cons, List.mem_append, rowPtrs_append, rowPtrs_cons_some, hsplit]
        cases r with
        | mk k p => cases p with
          | none =>
            simp only [rowPtrs_cons_none, Option.toList_none, List.not_mem_nil, false_or]
            constructor <;> (intro h'; rcases h' with h' | h' | h' | h' | h' | h' <;> simp [h'])
          | some p =>
            simp only [rowPtrs_cons_some, Option.toList_some, List.mem_cons, List.not_mem_nil, or_false]
            constructor <;> (intro h'; rcases h' with h' | h' | h' | h' | h' | h' | h' <;> simp [h'])
    · cases r.2 <;> simp
    · intro x hx
      cases r with
      | mk k p => cases p with
        | none => simp at hx
        | some p =>
          simp only [Option.toList_some, List.mem_singleton] at hx
          subst hx
          have hx' : x ∈ rowPtrs rs := by rw [hsplit, rowPtrs_append, rowPtrs_cons_some]; simp
          have hx2 := List.mem_append_right dp.toList hx'
          rw [rowPtrs_cons_some, List.nodup_append, List.nodup_append] at hnd
          obtain ⟨n1, ⟨n2, n3, n4⟩, n5⟩ := hnd
          simp only [tableBlocks, List.mem_cons, List.mem_append, rowPtrs_append, rowPtrs_cons_some, not_or]
          refine ⟨(ept x hx2).1, (ept x hx2).2, fun hc => n5 x hc x (by simp) rfl, fun hc => n4 x hc x (by simp) rfl, nq x hx2, (List.nodup_cons.1 n3).1⟩
    · intro x hx
      have hx' : x ∈ dp.toList ++ rowPtrs rs := by
        refine List.mem_append_right _ (mem_rowPtrs.2 ⟨r.1, ?_⟩)
        rw [hsplit]
        cases r with
        | mk k p => cases p with
          | none => simp at hx
          | some p => simp at hx; subst hx; simp
      obtain ⟨n, s, hg⟩ := l1.text hx'
      refine ⟨n, s, ?_⟩
      rw [eget x (ept x hx').1 (ept x hx').2, hg]
    · have hf := hfull r (by rw [hsplit]; simp)
      simp only [hkr]
      by_cases hh : r.1 = key
      · simp only [hh, decide_true, if_true]
        cases hp : r.2 with
        | none => rw [hh] at hf; exact absurd (hf.2 hp) hk
        | some p => simp
      · have h0 : r.1 = 0 := by rw [hkr] at hkey; rcases hkey with h' | h'; exact h'; exact absurd h' hh
        rw [hf.1 h0]
        simp [hh]

/-! ### table_get -/

theorem tableGet_step {h : Heap} {t ra : Addr} {dp : Option Addr} {rs : List (Nat × Option Addr)} {T : Table}
    (l : TableAt h t ra dp rs T) (key : Nat) : ∃ p h', mTableGet (some t) key h = .ret (.ok (p, h')) ∧
      TableAt h' t ra dp rs (tableGetCounting T key).1 ∧ h'.optAt p = some (tableGetCounting T key).2 ∧
      Swap h (tableBlocks t ra dp rs) h' (tableBlocks t ra dp rs) := by
  have ne := l.ne
  have hset : ∀ n : TableNumbers, ∀ T' : Table, n = numbersOf T' → T'.rows = T.rows → T'.defaultTranslation = T.defaultTranslation →
      T'.builtin = T.builtin → TableAt (h.set t (some (.table (some ra) dp n))) t ra dp rs T' := by
    intro n T' e1 e2 e3 e4
    have hc : ∀ x, x ∈ dp.toList ++ rowPtrs rs → Heap.get (h.set t (some (.table (some ra) dp n))) x = h.get x :=
      fun x hx => Heap.get_set_ne (ne_of_mem_of_not_mem hx ne.2.1) _
    refine ⟨?_, ?_, ?_, ?_, l.full, l.nodup, by rw [e4]; exact l.dynamic⟩
    · rw [Heap.get_set_eq (Heap.get_lt l.table), e1]
    · rw [Heap.get_set_ne (Ne.symm ne.1), l.rows]
    · rw [rowAt_map_congr (fun x hx => hc x (List.mem_append_right _ hx)), l.content, e2]
    · rw [Heap.optAt_congr (fun x hx => hc x (List.mem_append_left _ hx)), l.dflt, e3]
  have hrow : ∀ n : TableNumbers, ∀ (o : Nat) r, rs[o]? = some r →
      Heap.optAt (h.set t (some (.table (some ra) dp n))) r.2 = some ((T.rows[o]?).bind Row.data) := by
    intro n o r hr
    have h1 := l.getElem o
    rw [hr] at h1
    cases hR : T.rows[o]? with
    | none => rw [hR] at h1; cases h1
    | some R =>
      rw [hR] at h1
      have h2 := (Heap.rowAt_some (by simpa using h1)).2
      rw [Heap.optAt_congr, h2]
      · rfl
      · intro x hx
        refine Heap.get_set_ne (ne_of_mem_of_not_mem (List.mem_append_right dp.toList (mem_rowPtrs.2 ⟨r.1, ?_⟩)) ne.2.1) _
        have : (r.1, some x) = r := by cases r with | mk k p => cases p with
          | none => simp at hx
          | some p => simp at hx; subst hx; rfl
        rw [this]
        exact List.mem_of_getElem? hr
  have hbound : ∀ o, (T.getProbe key = some o ∨ T.getScan key = some o) → ∃ r, rs[o]? = some r := by
    intro o ho
    have hlt : o < T.rows.length := by
      rcases ho with ho | ho
      · unfold Table.getProbe at ho
        split at ho
        · simp only at ho
          split at ho
          · next r hr =>
            split at ho
            · cases ho; exact (List.getElem?_eq_some_iff.1 hr).1
            · cases ho
          · cases ho
        · cases ho
      · unfold Table.getScan at ho
        rw [List.findIdx?_eq_some_iff_getElem] at ho
        exact ho.1
    rw [← l.length] at hlt
    exact ⟨_, List.getElem?_eq_getElem hlt⟩
  have hsw : ∀ n : TableNumbers, Swap h (tableBlocks t ra dp rs) (h.set t (some (.table (some ra) dp n))) (tableBlocks t ra dp rs) :=
    fun n => Swap.store (by simp [tableBlocks]) _
  unfold mTableGet tableGetCounting
  simp only
  by_cases hk : key = 0
  · rw [if_pos hk, if_pos hk]
    exact ⟨none, h, rfl, l, rfl, Swap.refl _ _⟩
  rw [if_neg hk, if_neg hk]
  rw [Mem.bind_ok (loadTable_eq l.table)]
  simp only
  rw [Mem.bind_ok (loadRows_eq l.rows), getProbe_congr l.keys rfl, getScan_congr l.keys]
  cases hp : T.getProbe key with
  | some o =>
    obtain ⟨r, hr⟩ := hbound o (.inl hp)
    simp only
    rw [Mem.bind_ok (Mem.store_eq l.table _)]
    simp only [hr]
    exact ⟨_, _, rfl, hset _ { T with hits := T.hits + 1 } rfl rfl rfl rfl, hrow _ o r hr, hsw _⟩
  | none =>
    simp only
    change ∃ p h', (match T.getScan key with
        | none => Mem.store t (.table (some ra) dp { numbersOf T with seeks := (numbersOf T).seeks + 1, misses := (numbersOf T).misses + 1 }) >>= fun _ => pure none
        | some offset => Mem.store t (.table (some ra) dp { numbersOf T with seeks := (numbersOf T).seeks + 1, hits := (numbersOf T).hits + 1 }) >>= fun _ =>
          match rs[offset]? with
          | some r => pure r.2
          | none => Mem.fault .bounds : Mem (Option Addr)) h = _ ∧ _
    have hs' : Table.getScan { T with seeks := T.seeks + 1 } key = T.getScan key := rfl
    rw [hs']
    cases hs : T.getScan key with
    | none =>
      simp only
      rw [Mem.bind_ok (Mem.store_eq l.table _)]
      exact ⟨_, _, rfl, hset _ { T with seeks := T.seeks + 1, misses := T.misses + 1 } rfl rfl rfl rfl, rfl, hsw _⟩
    | some o =>
      obtain ⟨r, hr⟩ := hbound o (.inr hs)
      simp only
      rw [Mem.bind_ok (Mem.store_eq l.table _)]
      simp only [hr]
      exact ⟨_, _, rfl, hset _ { T with seeks := T.seeks + 1, hits := T.hits + 1 } rfl rfl rfl rfl, hrow _ o r hr, hsw _⟩

/-! ### table_free -/

theorem freeRows_eq : ∀ {rs : List (Nat × Option Addr)} {h : Heap}, (rowPtrs rs).Nodup → (∀ r, r ∈ rs → (r.1 = 0 ↔ r.2 = none)) →
    (∀ q, q ∈ rowPtrs rs → ∃ b, h.get q = some b) →
    ∃ h', mFreeRows rs h = .ret (.ok ((), h')) ∧ Swap h (rowPtrs rs) h' [] := by
  intro rs
  induction rs with
  | nil => intro h _ _ _; exact ⟨h, rfl, Swap.refl _ _⟩
  | cons r rs ih =>
    intro h hn hf hl
    have hf' : ∀ r, r ∈ rs → (r.1 = 0 ↔ r.2 = none) := fun x hx => hf x (List.mem_cons_of_mem _ hx)
    cases r with
    | mk k p =>
      cases p with
      | none => exact ih (h := h) hn hf' hl
      | some q =>
        rw [rowPtrs_cons_some] at hn hl
        obtain ⟨hq, hn'⟩ := List.nodup_cons.1 hn
        obtain ⟨b, hb⟩ := hl q (by simp)
        have nx : ∀ x, x ∈ rowPtrs rs → x ≠ q := fun x hx e => hq (e ▸ hx)
        obtain ⟨h', e, s⟩ := ih (h := h.set q none) hn' hf' (fun x hx => by
          obtain ⟨b', hb'⟩ := hl x (by simp [hx])
          exact ⟨b', by rw [Heap.get_set_ne (nx x hx), hb']⟩)
        have hk : 0 < k := by
          have := hf (k, some q) (by simp)
          simp at this; omega
        refine ⟨h', ?_, ?_⟩
        · simp only [mFreeRows, if_pos hk]
          rw [Mem.bind_ok (Mem.free_eq hb), e]
        · refine (Swap.free (a := q) (by simp [rowPtrs_cons_some]) (Heap.get_lt hb) (rowPtrs rs) ?_).trans s
          intro x
          rw [rowPtrs_cons_some, List.mem_cons]
          constructor
          · intro hx; exact ⟨.inr hx, nx x hx⟩
          · rintro ⟨rfl | hx, h2⟩
            · exact absurd rfl h2
            · exact hx

theorem freeOpt_eq {h : Heap} {p : Option Addr} (e : ∀ x, x ∈ p.toList → ∃ b, h.get x = some b) :
    ∃ h', Mem.freeOpt p h = .ret (.ok ((), h')) ∧ Swap h p.toList h' [] := by
  cases p with
  | none => exact ⟨h, rfl, Swap.refl _ _⟩
  | some a =>
    obtain ⟨b, hb⟩ := e a (by simp)
    exact ⟨_, Mem.free_eq hb, Swap.free (by simp) (Heap.get_lt hb) [] (by simp)⟩

theorem tableFree_eq {h : Heap} {t ra : Addr} {dp : Option Addr} {rs : List (Nat × Option Addr)} {T : Table}
    (l : TableAt h t ra dp rs T) : ∃ h', mTableFree (some t) h = .ret (.ok ((), h')) ∧ Swap h (tableBlocks t ra dp rs) h' [] := by
  have ne := l.ne
  have hnd := List.nodup_append.1 l.nodup
  unfold mTableFree
  simp only
  rw [Mem.bind_ok (loadTable_eq l.table)]
  simp only
  rw [if_neg (by rw [show (numbersOf T).builtin = T.builtin from rfl, l.dynamic]; simp)]
  rw [Mem.bind_ok (loadRows_eq l.rows)]
  obtain ⟨h1, e1, s1⟩ := freeRows_eq hnd.2.1 l.full (fun q hq => by
    obtain ⟨n, s, hh⟩ := l.text (List.mem_append_right _ hq); exact ⟨_, hh⟩)
  rw [Mem.bind_ok e1]
  have hd : ∀ x, x ∈ dp.toList → h1.get x = h.get x := fun x hx => by
    obtain ⟨n, s, hh⟩ := l.text (List.mem_append_left _ hx)
    exact s1.others x (Heap.get_lt hh) (fun hc => hnd.2.2 x hx x hc rfl)
  obtain ⟨h2, e2, s2⟩ := freeOpt_eq (h := h1) (p := dp) (fun x hx => by
    obtain ⟨n, s, hh⟩ := l.text (List.mem_append_left _ hx); exact ⟨_, (hd x hx).trans hh⟩)
  rw [Mem.bind_ok e2, Mem.bind_ok (deref_eq ra h2)]
  simp only [List.mem_append, not_or] at ne
  have t1 : h1.get t = some _ := (s1.others t (Heap.get_lt l.table) ne.2.1.2).trans l.table
  have t2 : h2.get t = some _ := (s2.others t (Heap.get_lt t1) ne.2.1.1).trans t1
  have r1 : h1.get ra = some _ := (s1.others ra (Heap.get_lt l.rows) ne.2.2.2).trans l.rows
  have r2 : h2.get ra = some _ := (s2.others ra (Heap.get_lt r1) ne.2.2.1).trans r1
  rw [Mem.bind_ok (Mem.free_eq r2)]
  refine ⟨_, Mem.free_eq (by rw [Heap.get_set_ne ne.1]; exact t2), ?_⟩
  have a1 : Swap h (tableBlocks t ra dp rs) h1 (dp.toList ++ [t, ra]) :=
    (s1.frame (dp.toList ++ [t, ra])).perm (fun x => by
      simp only [tableBlocks, List.mem_append, List.mem_cons, List.not_mem_nil, or_false]
      constructor <;> (intro z; rcases z with z | z | z | z <;> simp [z])) (fun x => by simp)
  have a2 : Swap h1 (dp.toList ++ [t, ra]) h2 [t, ra] := s2.frame [t, ra]
  refine a1.trans (a2.trans ((Swap.free (a := ra) (by simp) (Heap.get_lt r2) [t] ?_).trans (Swap.free (a := t) (by simp) (by simpa using Heap.get_lt t2) [] ?_)))
  · intro x
    simp only [List.mem_cons, List.not_mem_nil, or_false]
    constructor
    · rintro rfl; exact ⟨.inl rfl, ne.1⟩
    · rintro ⟨rfl | rfl, h2⟩
      · rfl
      · exact absurd rfl h2
  · intro x; simp

/-! ### table_resize -/

theorem Lost.append {h1 h2 : Heap} {o1 o2 l1 l2 : List Addr} (L1 : Lost h1 o1 l1) (s : Swap h1 o1 h2 (l2 ++ o2)) (L2 : Lost h2 o2 l2) :
    Lost h2 o2 (l1 ++ l2) := by
  have hl : ∀ x, x ∈ l1 → x < h1.length := fun x hx => by obtain ⟨_, _, hg⟩ := L1.live x hx; exact Heap.get_lt hg
  have hx : ∀ x, x ∈ l1 → x ∉ l2 ++ o2 := fun x hx hc => by
    rcases s.source x hc with h' | h'
    · exact L1.apart x hx h'
    · have := hl x hx; omega
  refine ⟨?_, ?_, ?_⟩
  · rw [List.nodup_append]
    refine ⟨L1.nodup, L2.nodup, ?_⟩
    rintro x h1 y h2 rfl
    exact hx x h1 (List.mem_append_left _ h2)
  · intro x h1
    rcases List.mem_append.1 h1 with h' | h'
    · exact fun hc => hx x h' (List.mem_append_right _ hc)
    · exact L2.apart x h'
  · intro x h1
    rcases List.mem_append.1 h1 with h' | h'
    · rw [s.others x (hl x h') (L1.apart x h')]; exact L1.live x h'
    · exact L2.live x h'

theorem Swap.lost {h h1 h2 : Heap} {o o1 o2 l1 l2 : List Addr} (s1 : Swap h o h1 (l1 ++ o1)) (s2 : Swap h1 o1 h2 (l2 ++ o2)) :
    Swap h o h2 ((l1 ++ l2) ++ o2) := by
  have e1 : Swap h o h1 (o1 ++ l1) := s1.perm (fun _ => Iff.rfl) (fun x => by simp [or_comm])
  refine (e1.trans (s2.frame l1)).perm (fun _ => Iff.rfl) (fun x => ?_)
  simp only [List.mem_append]
  constructor <;> (intro z; rcases z with (z | z) | z <;> simp [z])

theorem copyRows_does {A : Nat → Bool} {ret ra : Addr} {dp : Option Addr} : ∀ {src : List (Nat × Option Addr)} {vs : List Row} {h : Heap}
    {rs : List (Nat × Option Addr)} {R : Table}, TableAt h ret ra dp rs R → src.map h.rowAt = vs.map some →
    (∀ x, x ∈ rowPtrs src → x ∉ tableBlocks ret ra dp rs) →
    Does A (mCopyRows A ret src) h fun _ h' => ∃ rs' lost, TableAt h' ret ra dp rs' (tableCopyRows R vs) ∧
      Swap h (tableBlocks ret ra dp rs) h' (lost ++ tableBlocks ret ra dp rs') ∧
      Lost h' (tableBlocks ret ra dp rs') lost ∧ R.overwrites + lost.length = (tableCopyRows R vs).overwrites := by
  intro src
  induction src with
  | nil =>
    intro vs h rs R l e _
    cases vs with
    | nil => exact Does.ret rfl ⟨rs, [], l, Swap.refl _ _, Lost.nil _ _, rfl⟩
    | cons => cases e
  | cons r src ih =>
    intro vs h rs R l e hd
    cases vs with
    | nil => cases e
    | cons V vs =>
      simp only [List.map_cons, List.cons.injEq] at e
      obtain ⟨e1, e2⟩ := e
      obtain ⟨ek, ed⟩ := Heap.rowAt_some e1
      cases r with
      | mk k p =>
        simp only at ek ed
        cases p with
        | none =>
          have hV : V.data = none := by simpa [Heap.optAt] using ed.symm
          simp only [mCopyRows, tableCopyRows, hV]
          exact ih l e2 hd
        | some p =>
          obtain ⟨n, s, hg, hV⟩ := Heap.optAt_some ed (a := p) (by simp)
          have hd' : ∀ x, x ∈ rowPtrs src → x ∉ tableBlocks ret ra dp rs := fun x hx => hd x (by rw [rowPtrs_cons_some]; simp [hx])
          simp only [mCopyRows, tableCopyRows, hV, ek]
          by_cases hk : 0 < k
          · rw [if_pos hk, if_pos hk]
            refine Does.step (Mem.text_eq hg) ?_
            refine Does.bind (tablePut_does l k s) ?_
            rintro _ h1 ⟨_, rs1, lost1, l1, s1, L1, c1⟩
            have hlive : ∀ x, x ∈ rowPtrs src → x < h.length := by
              intro x hx
              obtain ⟨k', hx'⟩ := mem_rowPtrs.1 hx
              have h3 : h.rowAt (k', some x) ∈ src.map h.rowAt := List.mem_map_of_mem hx'
              rw [e2] at h3
              obtain ⟨r, _, h4⟩ := List.mem_map.1 h3
              obtain ⟨_, _, h5, _⟩ := Heap.optAt_some (Heap.rowAt_some h4.symm).2 (a := x) (by simp)
              exact Heap.get_lt h5
            refine (ih (vs := vs) l1 ?_ ?_).mono ?_
            · rw [rowAt_map_congr (h := h), e2]
              intro x hx
              exact s1.others x (hlive x hx) (hd' x hx)
            · intro x hx hc
              rcases s1.source x (List.mem_append_right _ hc) with h' | h'
              · exact hd' x hx h'
              · have := hlive x hx; omega
            · rintro _ h2 ⟨rs2, lost2, l2, s2, L2, c2⟩
              refine ⟨rs2, lost1 ++ lost2, l2, s1.lost s2, L1.append s2 L2, ?_⟩
              rw [List.length_append]; omega
          · rw [if_neg hk, if_neg hk]
            exact ih l e2 hd'

theorem strdupOpt_does {A : Nat → Bool} {h : Heap} {p : Option Addr} {d : Option Bytes} (e : h.optAt p = some d) :
    Does A (strdupOpt A p) h fun q h' => h'.optAt q = some d ∧ Swap h [] h' q.toList ∧ (∀ x, x ∈ q.toList → x = h.length) ∧ q.isSome = d.isSome := by
  cases p with
  | none =>
    have : d = none := by simpa [Heap.optAt] using e.symm
    subst this
    exact Does.ret rfl ⟨rfl, Swap.refl _ _, by simp, rfl⟩
  | some a =>
    obtain ⟨n, s, hg, rfl⟩ := Heap.optAt_some e (a := a) (by simp)
    unfold strdupOpt wrappedStrdup
    refine Does.step (Mem.text_eq hg) ?_
    refine Does.bind (P := fun x h' => x = h.length ∧ h' = h ++ [some (.text (s.length + 1) s)]) (Does.malloc ⟨rfl, rfl⟩) ?_
    rintro x h' ⟨rfl, rfl⟩
    refine Does.ret rfl ⟨?_, Swap.malloc h [] _, by simp, rfl⟩
    simp only [Heap.optAt, Heap.textAt_of (Heap.get_new h _)]
    rfl

/-- The result of `table_resize` is made of new blocks only. -/
theorem tableResize_does {A : Nat → Bool} {h : Heap} {t ra : Addr} {dp : Option Addr} {rs : List (Nat × Option Addr)} {T : Table}
    (l : TableAt h t ra dp rs T) (size : Int) (hash : Bool) :
    Does A (mTableResize A (some t) size hash) h fun r h' => ∃ ra' dp' rs' lost, TableAt h' r ra' dp' rs' (tableResize T size hash) ∧
      Swap h [] h' (lost ++ tableBlocks r ra' dp' rs') ∧ Lost h' (tableBlocks r ra' dp' rs') lost ∧
      T.overwrites + lost.length = (tableResize T size hash).overwrites := by
  have hlt : ∀ x, x ∈ tableBlocks t ra dp rs → x < h.length := fun x hx => by obtain ⟨b, hb⟩ := l.live hx; exact Heap.get_lt hb
  unfold mTableResize
  refine Does.bind (tableInit_does A size h) ?_
  rintro r h1 ⟨ra', l1, s1⟩
  have ne1 := l1.ne
  have k1 : ∀ x, x ∈ tableBlocks t ra dp rs → h1.get x = h.get x := fun x hx => s1.others x (hlt x hx) (by simp)
  have d1 : ∀ x, x ∈ tableBlocks t ra dp rs → x ∉ tableBlocks r ra' none (List.replicate (rowsFor size) (0, none)) := fun x hx hc => by
    rcases s1.source x hc with h' | h'
    · cases h'
    · have := hlt x hx; omega
  have dr : ∀ x, x ∈ tableBlocks t ra dp rs → x ≠ r ∧ x ≠ ra' := fun x hx =>
    ⟨fun e => d1 x hx (by rw [e]; simp [tableBlocks]), fun e => d1 x hx (by rw [e]; simp [tableBlocks])⟩
  refine Does.step (loadTable_eq l1.table) ?_
  refine Does.step (Mem.store_eq l1.table _) ?_
  simp only
  have k2 : ∀ B : Block, ∀ x, x ∈ tableBlocks t ra dp rs → Heap.get (h1.set r (some B)) x = h.get x := fun B x hx => by
    rw [Heap.get_set_ne (dr x hx).1, k1 x hx]
  refine Does.step (loadTable_eq (a := t) (by rw [k2 _ t (by simp [tableBlocks])]; exact l.table)) ?_
  simp only
  have hop : ∀ B : Block, Heap.optAt (h1.set r (some B)) dp = some T.defaultTranslation := fun B => by
    rw [Heap.optAt_congr (h := h), l.dflt]
    intro x hx; exact k2 B x (by simp only [tableBlocks, List.mem_cons, List.mem_append, hx]; simp)
  refine Does.bind (strdupOpt_does (hop _)) ?_
  rintro q h2 ⟨hq, s2, hqn, _⟩
  simp only [Heap.length_set] at hqn
  have g2 : h2.get r = some _ := (s2.others r (by simpa using Heap.get_lt l1.table) (by simp)).trans
    (Heap.get_set_eq (by simpa using Heap.get_lt l1.table) _)
  have hq1 : ∀ x, x ∈ q.toList → x ≠ r := fun x hx => by have := hqn x hx; have := Heap.get_lt l1.table; omega
  refine Does.step (Mem.store_eq g2 _) ?_
  have hr2 : h2.get ra' = some (.rows (List.replicate (rowsFor size) (0, none))) := by
    rw [s2.others ra' (by simpa using Heap.get_lt l1.rows) (by simp), Heap.get_set_ne (Ne.symm ne1.1), l1.rows]
  have s12 : Swap h [] (h2.set r (some (.table (some ra') q { numbersOf (tableInit size) with useHash := hash, overwrites := T.overwrites })))
      (tableBlocks r ra' q (List.replicate (rowsFor size) (0, none))) := by
    have a1 : Swap h [] h1 [r, ra'] := s1.perm (fun _ => Iff.rfl) (fun x => by simp [tableBlocks, rowPtrs_replicate])
    have a2 : Swap h1 [r, ra'] h2 (q.toList ++ [r, ra']) := (Swap.store (by simp) _).trans (s2.frame [r, ra'])
    refine (a1.trans (a2.trans (Swap.store (by simp) _))).perm (fun _ => Iff.rfl) (fun x => ?_)
    simp only [tableBlocks, rowPtrs_replicate, List.append_nil, List.mem_append, List.mem_cons, List.not_mem_nil, or_false]
    constructor <;> (intro z; rcases z with z | z | z <;> simp [z])
  have l2 : TableAt (h2.set r (some (.table (some ra') q { numbersOf (tableInit size) with useHash := hash, overwrites := T.overwrites })))
      r ra' q (List.replicate (rowsFor size) (0, none))
      { freshTable size hash with defaultTranslation := T.defaultTranslation, overwrites := T.overwrites } := by
    refine ⟨?_, ?_, ?_, ?_, l1.full, ?_, rfl⟩
    · rw [Heap.get_set_eq (Heap.get_lt g2)]; rfl
    · rw [Heap.get_set_ne (Ne.symm ne1.1), hr2]
    · simp [freshTable, tableInit, rowsFor, Heap.rowAt, Heap.optAt, Row.empty]
    · rw [Heap.optAt_congr (h := h2), hq]
      intro x hx; exact Heap.get_set_ne (hq1 x hx) _
    · rw [rowPtrs_replicate]; cases q <;> simp
  have hsame : ∀ x, x ∈ tableBlocks t ra dp rs → Heap.get (h2.set r (some (.table (some ra') q
      { numbersOf (tableInit size) with useHash := hash, overwrites := T.overwrites }))) x = h.get x :=
    fun x hx => s12.others x (hlt x hx) (by simp)
  have l3 := l.congr hsame
  change Does A (Mem.loadRows (some ra) >>= fun rs => mCopyRows A r rs >>= fun _ => pure r) (h2.set r (some (.table (some ra') q
      { numbersOf (tableInit size) with useHash := hash, overwrites := T.overwrites }))) _
  refine Does.step (loadRows_eq l3.rows) ?_
  refine Does.bind (copyRows_does l2 l3.content ?_) ?_
  · intro x hx hc
    have hx' : x ∈ tableBlocks t ra dp rs := by simp [tableBlocks, hx]
    rcases s12.source x hc with h' | h'
    · cases h'
    · have := hlt x hx'; omega
  · rintro _ h3 ⟨rs', lost, l4, s4, L4, c4⟩
    exact Does.ret rfl ⟨ra', q, rs', lost, l4, s12.trans s4, L4, c4⟩

/-! ### How often a put overwrites -/

theorem tablePut_overwrites_exact {t : Table} (hw : t.WF) {k : Nat} (hk : k ≠ 0) (hu : t.used < t.rows.length) (d : Bytes) :
    (tablePut t k d).1.overwrites = t.overwrites + if (tableGet t k).isSome then 1 else 0 := by
  rw [tablePut_eq, if_neg hk, if_neg (by omega)]
  obtain ⟨o, ho⟩ := hw.putOffset_isSome (k := k) hu
  rw [ho]
  obtain ⟨r, hr, hkey, hpl⟩ := Table.putOffset_spec ho
  simp only [hr]
  by_cases hh : r.key = k
  · obtain ⟨d', hd, _⟩ := hw.full o r hr (by rw [hh]; exact hk)
    have : tableGet t k = some d' := (hw.get_eq_some k d').2 ⟨hk, o, by rw [hr, ← hd, ← hh]⟩
    simp [hh, this]
  · have h0 : r.key = 0 := hkey.resolve_right hh
    have : tableGet t k = none := by
      cases hg : tableGet t k with
      | none => rfl
      | some d' =>
        exfalso
        obtain ⟨_, i, hi⟩ := (hw.get_eq_some k d').1 hg
        have hio : i ≠ o := fun e => by rw [e, hr] at hi; cases hi; exact hh rfl
        have hpi := hw.place i _ hi hk
        simp only at hpi
        rcases hpl with ⟨hash, ho'⟩ | ⟨hash, hbef⟩
        · rcases hpi with ⟨_, h'⟩ | ⟨h', _⟩
          · exact hio (h'.trans ho'.symm)
          · obtain ⟨r', h1, h2, _⟩ := h' hash
            rw [← ho', hr] at h1; cases h1; exact h2 h0
        · rcases Nat.lt_or_ge i o with hlt | hge
          · obtain ⟨r', h1, _, h2⟩ := hbef i hlt
            rw [hi] at h1; cases h1; exact h2 rfl
          · rcases hpi with ⟨h1, h'⟩ | ⟨_, h'⟩
            · exact (hash h1 _ (by rw [← h']; exact hi)).2 rfl
            · obtain ⟨r', h1, h2⟩ := h' o (by omega)
              rw [hr] at h1; cases h1; exact h2 h0
    simp [hh, this]

end Detox
