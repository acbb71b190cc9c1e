import Verif.Lemmas.MemoryFilelist
import Verif.Lemmas.MemoryTable
import Verif.Props.Table
import Verif.Props.Filelist

/-!
# C79, C80: file lists and tables on the heap
-/

set_option autoImplicit false

namespace Detox
open Spec

/-! ### File lists -/

/-- One operation on a list on the heap. A name that is delivered is read at once. -/
def mFlStep (A : Nat → Bool) (l : Addr) : FlOp → Mem FlAns
  | .put w => do
    mFilelistPut A (some l) w
    pure .done
  | .get => do
    let p ← mFilelistGet (some l)
    match p with
    | none => pure (.name none)
    | some a => do
      let s ← Mem.text a
      pure (.name (some s))
  | .reset => do
    mFilelistReset (some l)
    pure .done
  | .count => do
    let n ← mFilelistCount (some l)
    pure (.number n)

def mFlOps (A : Nat → Bool) (l : Addr) : List FlOp → Mem (List FlAns)
  | [] => pure []
  | op :: ops => do
    let x ← mFlStep A l op
    let xs ← mFlOps A l ops
    pure (x :: xs)

/-- A list from its creation to its end. -/
def mFlLife (A : Nat → Bool) (ops : List FlOp) : Mem (List FlAns) := do
  let l ← mFilelistInit A
  let xs ← mFlOps A l ops
  mFilelistFree (some l)
  pure xs

theorem mFlStep_does {A : Nat → Bool} {h : Heap} {a fa : Addr} {qs : List Addr} {c : Cursor} (l : ListAt h a fa qs c.names c.seen)
    (op : FlOp) : Does A (mFlStep A a op) h fun x h' => x = (c.step op).2 ∧ ∃ fa' qs',
      ListAt h' a fa' qs' (c.step op).1.names (c.step op).1.seen ∧ Swap h (listBlocks a fa qs) h' (listBlocks a fa' qs') := by
  cases op with
  | put w =>
    refine Does.bind (filelistPut_does l w) ?_
    rintro _ h' ⟨fa', q, l', s⟩
    exact Does.ret rfl ⟨rfl, fa', qs ++ [q], l', s⟩
  | get =>
    by_cases hn : c.seen < c.names.length
    · obtain ⟨q, h', e, hq, ht, l', ⟨b, hb⟩⟩ := filelistGet_some l hn
      refine Does.step e ?_
      obtain ⟨n, hg⟩ := Heap.textAt_get ht
      refine Does.step (Mem.text_eq hg) (Does.ret rfl ?_)
      have : c.step .get = (⟨c.names, c.seen + 1⟩, .name (some c.names[c.seen])) := by simp [Cursor.step, hn]
      rw [this]
      refine ⟨rfl, fa, qs, l', ?_⟩
      subst hb
      cases b with
      | none => obtain ⟨⟨k, h1, _⟩, _⟩ := l'; rw [Heap.get_set_eq] at h1; cases h1; obtain ⟨⟨k, h1, _⟩, _⟩ := l; exact Heap.get_lt h1
      | some b => exact Swap.store (by simp [listBlocks]) _
    · obtain ⟨h', e, l', hs⟩ := filelistGet_none l hn
      refine Does.step e (Does.ret rfl ?_)
      have : c.step .get = (⟨c.names, 0⟩, .name none) := by
        have : c.names[c.seen]? = none := List.getElem?_eq_none (Nat.le_of_not_lt hn)
        simp [Cursor.step, this]
      rw [this]
      refine ⟨rfl, fa, qs, l', ?_⟩
      rcases hs with rfl | ⟨b, rfl⟩
      · exact Swap.refl _ _
      · exact Swap.store (by simp [listBlocks]) _
  | reset =>
    obtain ⟨b, e, l'⟩ := filelistReset_eq l
    exact Does.step e (Does.ret rfl ⟨rfl, fa, qs, l', Swap.store (by simp [listBlocks]) _⟩)
  | count => exact Does.step (filelistCount_eq l) (Does.ret rfl ⟨rfl, fa, qs, l, Swap.refl _ _⟩)

theorem mFlOps_does {A : Nat → Bool} {a : Addr} : ∀ (ops : List FlOp) {h : Heap} {fa : Addr} {qs : List Addr} {c : Cursor},
    ListAt h a fa qs c.names c.seen → Does A (mFlOps A a ops) h fun xs h' => xs = (c.run ops).2 ∧ ∃ fa' qs' ws n,
      ListAt h' a fa' qs' ws n ∧ Swap h (listBlocks a fa qs) h' (listBlocks a fa' qs') := by
  intro ops
  induction ops with
  | nil => intro h fa qs c l; exact Does.ret rfl ⟨rfl, fa, qs, _, _, l, Swap.refl _ _⟩
  | cons op ops ih =>
    intro h fa qs c l
    refine Does.bind (mFlStep_does l op) ?_
    rintro x h1 ⟨rfl, fa1, qs1, l1, s1⟩
    refine Does.bind (ih l1) ?_
    rintro xs h2 ⟨rfl, fa2, qs2, ws, n, l2, s2⟩
    exact Does.ret rfl ⟨rfl, fa2, qs2, ws, n, l2, s1.trans s2⟩

theorem Swap.same {h h' : Heap} (s : Swap h [] h' []) (x : Addr) : h'.get x = h.get x := by
  by_cases hx : x < h.length
  · exact s.others x hx (by simp)
  · rw [s.nothing x (Nat.le_of_not_lt hx) (by simp), Heap.get_none_of_le (Nat.le_of_not_lt hx)]

theorem mFlLife_does (A : Nat → Bool) (ops : List FlOp) (h : Heap) :
    Does A (mFlLife A ops) h fun xs h' => xs = (Cursor.run ⟨[], 0⟩ ops).2 ∧ ∀ x, h'.get x = h.get x := by
  unfold mFlLife
  refine Does.bind (filelistInit_does A h) ?_
  rintro l h1 ⟨fa, l1, s1⟩
  refine Does.bind (mFlOps_does (c := ⟨[], 0⟩) ops l1) ?_
  rintro xs h2 ⟨rfl, fa2, qs2, ws, n, l2, s2⟩
  obtain ⟨h3, e3, s3⟩ := filelistFree_eq l2
  exact Does.step e3 (Does.ret rfl ⟨rfl, ((s1.trans s2).trans s3).same⟩)

/-- **C79.** Whatever is done with a file list between its creation and `filelist_free`: no pointer to a freed block is used, nothing is freed
twice, the answers are those of a list with a cursor, and in the end every block of the list is freed and every other block is untouched. -/
theorem C79_filelist_frees_everything (ops : List FlOp) (h : Heap) :
    ∃ h', mFlLife (fun _ => true) ops h = .ret (.ok ((Cursor.run ⟨[], 0⟩ ops).2, h')) ∧ ∀ x, h'.get x = h.get x := by
  obtain ⟨xs, h', e, rfl, hx⟩ := (mFlLife_does (fun _ => true) ops h).total (fun _ => rfl)
  exact ⟨h', e, hx⟩

/-- **C79.** Should memory run out at any point, the program ends with the message and status 1; there is no third possibility. -/
theorem C79_filelist_memory_runs_out (A : Nat → Bool) (ops : List FlOp) (h : Heap) :
    (∃ h', mFlLife A ops h = .ret (.ok ((Cursor.run ⟨[], 0⟩ ops).2, h')) ∧ ∀ x, h'.get x = h.get x) ∨
    ((∃ n, A n = false) ∧ mFlLife A ops h = .err outOfMemory (.exit 1)) := by
  rcases mFlLife_does A ops h with ⟨xs, h', e, rfl, hx⟩ | hf
  · exact .inl ⟨h', e, hx⟩
  · exact .inr hf

/-- A case: more names than one chunk holds, so that the block of pointers is replaced. -/
example : ∃ h', mFlLife (fun _ => true) ((List.range 20).map (fun n => FlOp.put [n.toUInt8]) ++ [FlOp.get, FlOp.count]) [] =
      .ret (.ok (List.replicate 20 FlAns.done ++ [FlAns.name (some [0]), FlAns.number 20], h')) ∧ ∀ x, h'.get x = none := by
  obtain ⟨h', e, hx⟩ := C79_filelist_frees_everything ((List.range 20).map (fun n => FlOp.put [n.toUInt8]) ++ [FlOp.get, FlOp.count]) []
  exact ⟨h', by rw [e]; congr 3, hx⟩

/-- A case: the third allocation fails. -/
example : mFlLife (fun n => n ≠ 2) [FlOp.put [97]] [] = .err outOfMemory (.exit 1) := rfl

/-- The faults are there: a list that is freed twice, and one that is used after it was freed. -/
example : (do let l ← mFilelistInit (fun _ => true); mFilelistFree (some l); mFilelistFree (some l) : Mem Unit) [] = .ret (.error .pointer) := rfl

example : (do let l ← mFilelistInit (fun _ => true); mFilelistPut (fun _ => true) (some l) [97]; mFilelistFree (some l); mFilelistGet (some l) :
    Mem (Option Addr)) [] = .ret (.error .pointer) := rfl

/-! ### Tables -/

/-- One operation on a table on the heap. A translation that is found is read at once. -/
def mTabStep (A : Nat → Bool) (t : Addr) : TOp → Mem TOut
  | .put k d => do
    let r ← mTablePut A (some t) k d
    pure (.stored r.isSome)
  | .get k => do
    let p ← mTableGet (some t) k
    match p with
    | none => pure (.found none)
    | some a => do
      let s ← Mem.text a
      pure (.found (some s))

def mTabOps (A : Nat → Bool) (t : Addr) : List TOp → Mem (List TOut)
  | [] => pure []
  | op :: ops => do
    let x ← mTabStep A t op
    let xs ← mTabOps A t ops
    pure (x :: xs)

/-- A table from its creation to its end. -/
def mTabLife (A : Nat → Bool) (size : Int) (ops : List TOp) : Mem (List TOut) := do
  let t ← mTableInit A size
  let xs ← mTabOps A t ops
  mTableFree (some t)
  pure xs

/-- A table that is filled, copied into another of another size and kind, and freed; then the copy is used and freed. -/
def mTabMove (A : Nat → Bool) (size size' : Int) (hash : Bool) (ops ops' : List TOp) : Mem (List TOut) := do
  let t ← mTableInit A size
  let _ ← mTabOps A t ops
  let t' ← mTableResize A (some t) size' hash
  mTableFree (some t)
  let xs ← mTabOps A t' ops'
  mTableFree (some t')
  pure xs

theorem mTabStep_does {A : Nat → Bool} {h : Heap} {t ra : Addr} {dp : Option Addr} {rs : List (Nat × Option Addr)} {T : Table}
    (l : TableAt h t ra dp rs T) (op : TOp) :
    Does A (mTabStep A t op) h fun x h' => x = (T.step op).2 ∧ ∃ rs' lost, TableAt h' t ra dp rs' (T.step op).1 ∧
      Swap h (tableBlocks t ra dp rs) h' (lost ++ tableBlocks t ra dp rs') ∧
      Lost h' (tableBlocks t ra dp rs') lost ∧ T.overwrites + lost.length = (T.step op).1.overwrites := by
  cases op with
  | put k d =>
    refine Does.bind (tablePut_does l k d) ?_
    rintro r h' ⟨rfl, rs', lost, l', s, L, c⟩
    exact Does.ret rfl ⟨rfl, rs', lost, l', s, L, c⟩
  | get k =>
    obtain ⟨p, h', e, l', ho, s⟩ := tableGet_step l k
    refine Does.step e ?_
    have hov : T.overwrites = (tableGetCounting T k).1.overwrites := by
      obtain ⟨a, b, c, he⟩ := tableGetCounting_eq T k
      rw [he]
    cases p with
    | none =>
      have : (tableGetCounting T k).2 = none := by simpa [Heap.optAt] using ho.symm
      exact Does.ret rfl ⟨by simp only [Table.step, this], rs, [], l', s, Lost.nil _ _, hov⟩
    | some a =>
      obtain ⟨n, w, hg, hw⟩ := Heap.optAt_some ho (a := a) (by simp)
      exact Does.step (Mem.text_eq hg) (Does.ret rfl ⟨by simp only [Table.step, hw], rs, [], l', s, Lost.nil _ _, hov⟩)

theorem mTabOps_does {A : Nat → Bool} {t ra : Addr} {dp : Option Addr} : ∀ (ops : List TOp) {h : Heap} {rs : List (Nat × Option Addr)} {T : Table},
    TableAt h t ra dp rs T → Does A (mTabOps A t ops) h fun xs h' => xs = T.run ops ∧ ∃ rs' lost, TableAt h' t ra dp rs' (T.after ops) ∧
      Swap h (tableBlocks t ra dp rs) h' (lost ++ tableBlocks t ra dp rs') ∧
      Lost h' (tableBlocks t ra dp rs') lost ∧ T.overwrites + lost.length = (T.after ops).overwrites := by
  intro ops
  induction ops with
  | nil => intro h rs T l; exact Does.ret rfl ⟨rfl, rs, [], l, Swap.refl _ _, Lost.nil _ _, rfl⟩
  | cons op ops ih =>
    intro h rs T l
    refine Does.bind (mTabStep_does l op) ?_
    rintro x h1 ⟨rfl, rs1, lost1, l1, s1, L1, c1⟩
    refine Does.bind (ih l1) ?_
    rintro xs h2 ⟨rfl, rs2, lost2, l2, s2, L2, c2⟩
    refine Does.ret rfl ⟨rfl, rs2, lost1 ++ lost2, l2, s1.lost s2, L1.append s2 L2, ?_⟩
    rw [List.length_append]
    show _ = ((T.step op).1.after ops).overwrites
    omega

/-- What remains of a part of the program that is over: exactly the strings `lost`. -/
structure Remains (h h' : Heap) (lost : List Addr) : Prop where
  nodup : lost.Nodup
  new : ∀ x, x ∈ lost → h.get x = none ∧ ∃ n s, h'.get x = some (.text n s)
  others : ∀ x, x ∉ lost → h'.get x = h.get x

theorem Swap.remains {h h1 h2 : Heap} {o lost : List Addr} (s1 : Swap h [] h1 (lost ++ o)) (L : Lost h1 o lost) (s2 : Swap h1 o h2 []) :
    Remains h h2 lost := by
  refine ⟨L.nodup, ?_, ?_⟩
  · intro x hx
    obtain ⟨n, s, hg⟩ := L.live x hx
    refine ⟨?_, n, s, (s2.others x (Heap.get_lt hg) (L.apart x hx)).trans hg⟩
    rcases s1.source x (List.mem_append_left _ hx) with h' | h'
    · cases h'
    · exact Heap.get_none_of_le h'
  · intro x hx
    have s3 : Swap h [] h2 lost := (s1.perm (fun _ => Iff.rfl) (p' := o ++ lost) (fun x => by simp [or_comm])).trans (s2.frame lost)
    by_cases hl : x < h.length
    · exact s3.others x hl (by simp)
    · rw [s3.nothing x (Nat.le_of_not_lt hl) hx, Heap.get_none_of_le (Nat.le_of_not_lt hl)]

theorem mTabLife_does (A : Nat → Bool) (size : Int) (ops : List TOp) (h : Heap) :
    Does A (mTabLife A size ops) h fun xs h' => xs = (freshTable size true).run ops ∧ ∃ lost, Remains h h' lost ∧
      lost.length = ((freshTable size true).after ops).overwrites := by
  unfold mTabLife
  refine Does.bind (tableInit_does A size h) ?_
  rintro t h1 ⟨ra, l1, s1⟩
  refine Does.bind (mTabOps_does ops l1) ?_
  rintro xs h2 ⟨rfl, rs2, lost, l2, s2, L2, c2⟩
  obtain ⟨h3, e3, s3⟩ := tableFree_eq l2
  refine Does.step e3 (Does.ret rfl ⟨rfl, lost, (s1.trans s2).remains L2 s3, ?_⟩)
  show _ = ((tableInit size).after ops).overwrites
  rw [← c2]
  simp [tableInit]

/-- How many insertions of a history replace an entry. -/
def replaced (m : AMap) : List TOp → Nat
  | [] => 0
  | .put k d :: ops => (if k ≠ 0 ∧ m.room ≠ 0 ∧ (m.map k).isSome then 1 else 0) + replaced (m.step (.put k d)).1 ops
  | .get k :: ops => replaced (m.step (.get k)).1 ops

theorem overwrites_run (ops : List TOp) : ∀ {T : Table} {m : AMap}, Sim T m → (T.after ops).overwrites = T.overwrites + replaced m ops := by
  induction ops with
  | nil => intro T m _; rfl
  | cons op ops ih =>
    intro T m hs
    have h1 := ih (hs.step op).1
    cases op with
    | put k d =>
      simp only [Table.after, replaced]
      rw [h1]
      have : (T.step (.put k d)).1.overwrites = T.overwrites + if k ≠ 0 ∧ m.room ≠ 0 ∧ (m.map k).isSome then 1 else 0 := by
        by_cases hk : k = 0
        · rw [if_neg (fun h' => h'.1 hk)]
          simp only [Table.step, tablePut_fail (t := T) (k := k) (d := d) (.inl hk)]
          rfl
        · by_cases hr : m.room = 0
          · have : T.used = T.rows.length := by have := hs.room; omega
            simp [Table.step, tablePut_fail (t := T) (k := k) (d := d) (.inr this), hr]
          · have : T.used < T.rows.length := by have := hs.room; omega
            simp only [Table.step, tablePut_overwrites_exact hs.wf hk this, hs.map k]
            simp [hk, hr]
      rw [this]; omega
    | get k =>
      simp only [Table.after, replaced]
      rw [h1]
      obtain ⟨a, b, c, he⟩ := tableGetCounting_eq T k
      simp [Table.step, he]

/-- **C80.** Whatever is done with a table between its creation and `table_free`: no pointer to a freed block is used, nothing is freed twice,
and the answers are those of a map. Afterwards every other block is untouched, and of the table exactly the strings remain that an insertion
replaced: `table_put` drops the pointer to them. -/
theorem C80_table_keeps_what_was_replaced (size : Int) (ops : List TOp) (h : Heap) :
    ∃ h' lost, mTabLife (fun _ => true) size ops h = .ret (.ok ((AMap.empty (rowsFor size)).run ops, h')) ∧
      Remains h h' lost ∧ lost.length = replaced (AMap.empty (rowsFor size)) ops := by
  obtain ⟨xs, h', e, rfl, lost, hr, hl⟩ := (mTabLife_does (fun _ => true) size ops h).total (fun _ => rfl)
  refine ⟨h', lost, ?_, hr, ?_⟩
  · rw [e, (Sim.fresh size true).run ops]
  · rw [hl, overwrites_run ops (Sim.fresh size true)]
    simp [freshTable, tableInit]

/-- **C80.** Should memory run out at any point, the program ends with the message and status 1; there is no third possibility. -/
theorem C80_table_memory_runs_out (A : Nat → Bool) (size : Int) (ops : List TOp) (h : Heap) :
    (∃ h' lost, mTabLife A size ops h = .ret (.ok ((AMap.empty (rowsFor size)).run ops, h')) ∧
      Remains h h' lost ∧ lost.length = replaced (AMap.empty (rowsFor size)) ops) ∨
    ((∃ n, A n = false) ∧ mTabLife A size ops h = .err outOfMemory (.exit 1)) := by
  rcases mTabLife_does A size ops h with ⟨xs, h', e, rfl, lost, hr, hl⟩ | hf
  · refine .inl ⟨h', lost, ?_, hr, ?_⟩
    · rw [e, (Sim.fresh size true).run ops]
    · rw [hl, overwrites_run ops (Sim.fresh size true)]
      simp [freshTable, tableInit]
  · exact .inr hf

/-- A case: the second insertion replaces the first, and its string remains. -/
example : replaced (AMap.empty (rowsFor 4)) [.put 65 (lit "a"), .put 65 (lit "b"), .get 65, .put 66 (lit "c")] = 1 := by decide +kernel

example : ∃ h' q, mTabLife (fun _ => true) 4 [.put 65 (lit "a"), .put 65 (lit "b"), .get 65] [] =
    .ret (.ok ([.stored true, .stored true, .found (some (lit "b"))], h')) ∧ h'.textAt q = some (lit "a") :=
  ⟨_, 2, rfl, rfl⟩

/-! ### Moving to a larger table -/

theorem copyRows_no_overwrite : ∀ (rows : List Row) {D : Table}, D.WF →
    (∀ r, r ∈ rows → r.key ≠ 0 → tableGet D r.key = none) → ((rows.filter fun r : Row => decide (r.key ≠ 0)).map Row.key).Nodup →
    (tableCopyRows D rows).overwrites = D.overwrites := by
  intro rows
  induction rows with
  | nil => intro D _ _ _; rfl
  | cons r rows ih =>
    intro D hw hg hn
    unfold tableCopyRows
    cases hd : r.data with
    | none =>
      refine ih hw (fun x hx => hg x (List.mem_cons_of_mem _ hx)) ?_
      rw [List.filter_cons] at hn
      split at hn
      · exact (List.nodup_cons.1 hn).2
      · exact hn
    | some d =>
      simp only
      by_cases hk : 0 < r.key
      · rw [if_pos hk]
        have hk' : r.key ≠ 0 := by omega
        rw [List.filter_cons, if_pos (by simpa using hk'), List.map_cons] at hn
        obtain ⟨n1, n2⟩ := List.nodup_cons.1 hn
        have hdiff : ∀ x, x ∈ rows → x.key ≠ 0 → x.key ≠ r.key := fun x hx h0 e =>
          n1 (by rw [← e]; exact List.mem_map_of_mem (List.mem_filter.2 ⟨hx, by simpa using h0⟩))
        by_cases hu : D.used = D.rows.length
        · rw [tablePut_fail (.inr hu)]
          exact ih hw (fun x hx => hg x (List.mem_cons_of_mem _ hx)) n2
        · have hu' : D.used < D.rows.length := by have := hw.cap; omega
          rw [ih (hw.put r.key d) ?_ n2, tablePut_overwrites_exact hw hk' hu', hg r (by simp) hk']
          · simp
          · intro x hx h0
            rw [hw.get_put hk' hu' d, if_neg (hdiff x hx h0)]
            exact hg x (List.mem_cons_of_mem _ hx) h0
      · rw [if_neg hk]
        refine ih hw (fun x hx => hg x (List.mem_cons_of_mem _ hx)) ?_
        rw [List.filter_cons, if_neg (by simp; omega)] at hn
        exact hn

theorem WF_keys_nodup {T : Table} (hw : T.WF) : ((T.rows.filter fun r => decide (r.key ≠ 0)).map Row.key).Nodup := by
  have gen : ∀ (rows : List Row), (∀ (i j : Nat) (r r' : Row), rows[i]? = some r → rows[j]? = some r' → r.key ≠ 0 → r.key = r'.key → i = j) →
      ((rows.filter fun r => decide (r.key ≠ 0)).map Row.key).Nodup := by
    intro rows
    induction rows with
    | nil => intro _; simp
    | cons x rows ih =>
      intro hu
      have ih' := ih (fun i j r r' h1 h2 h3 h4 => by have := hu (i + 1) (j + 1) r r' (by simpa using h1) (by simpa using h2) h3 h4; omega)
      rw [List.filter_cons]
      split
      · next hx =>
        rw [List.map_cons, List.nodup_cons]
        refine ⟨?_, ih'⟩
        intro hc
        obtain ⟨y, hy, e⟩ := List.mem_map.1 hc
        obtain ⟨i, hi, rfl⟩ := List.mem_iff_getElem.1 (List.mem_filter.1 hy).1
        have := hu 0 (i + 1) x rows[i] (by simp) (by simp [hi]) (by simpa using hx) e.symm
        omega
      · exact ih'
  exact gen T.rows hw.unique

theorem resize_overwrites {T : Table} (hw : T.WF) (size : Int) (hash : Bool) : (tableResize T size hash).overwrites = T.overwrites := by
  rw [tableResize_eq, copyRows_no_overwrite T.rows (freshTable_WF' size hash _ _) ?_ (WF_keys_nodup hw)]
  intro r _ _
  exact freshTable_get size hash r.key

theorem mTabMove_does (A : Nat → Bool) (size size' : Int) (hash : Bool) (ops ops' : List TOp) (h : Heap) :
    Does A (mTabMove A size size' hash ops ops') h fun xs h' =>
      xs = (tableResize ((freshTable size true).after ops) size' hash).run ops' ∧ ∃ lost, Remains h h' lost ∧
      lost.length = ((tableResize ((freshTable size true).after ops) size' hash).after ops').overwrites := by
  unfold mTabMove
  refine Does.bind (tableInit_does A size h) ?_
  rintro t h1 ⟨ra, l1, s1⟩
  refine Does.bind (mTabOps_does ops l1) ?_
  rintro xs h2 ⟨_, rs2, lost2, l2, s2, L2, c2⟩
  refine Does.bind (tableResize_does l2 size' hash) ?_
  rintro t' h3 ⟨ra', dp', rs3, lost3, l3, s3, L3, c3⟩
  have hlt : ∀ x, x ∈ tableBlocks t ra none rs2 → x < h2.length := fun x hx => by obtain ⟨b, hb⟩ := l2.live hx; exact Heap.get_lt hb
  have l2' : TableAt h3 t ra none rs2 ((tableInit size).after ops) := l2.congr fun x hx => s3.others x (hlt x hx) (by simp)
  obtain ⟨h4, e4, s4⟩ := tableFree_eq l2'
  refine Does.step e4 ?_
  have hnew : ∀ x, x ∈ lost3 ++ tableBlocks t' ra' dp' rs3 → x ∉ tableBlocks t ra none rs2 := fun x hx hc => by
    rcases s3.source x hx with h' | h'
    · cases h'
    · have := hlt x hc; omega
  have l4 : TableAt h4 t' ra' dp' rs3 (tableResize ((tableInit size).after ops) size' hash) := l3.congr fun x hx => by
    obtain ⟨b, hb⟩ := l3.live hx
    exact s4.others x (Heap.get_lt hb) (hnew x (List.mem_append_right _ hx))
  refine Does.bind (mTabOps_does ops' l4) ?_
  rintro xs h5 ⟨rfl, rs5, lost5, l5, s5, L5, c5⟩
  obtain ⟨h6, e6, s6⟩ := tableFree_eq l5
  -- the strings lost so far, seen from the copy
  have a3 : Swap h [] h3 (tableBlocks t ra none rs2 ++ ((lost2 ++ lost3) ++ tableBlocks t' ra' dp' rs3)) := by
    refine ((s1.trans s2).trans (s3.frame (lost2 ++ tableBlocks t ra none rs2))).perm (fun _ => Iff.rfl) (fun x => ?_)
    simp only [List.mem_append]
    constructor
    · rintro ((z | z) | (z | z)) <;> simp [z]
    · rintro (z | (z | z) | z) <;> simp [z]
  have a4 : Swap h [] h4 ((lost2 ++ lost3) ++ tableBlocks t' ra' dp' rs3) :=
    a3.trans (by simpa using s4.frame ((lost2 ++ lost3) ++ tableBlocks t' ra' dp' rs3))
  have L3' : Lost h4 (tableBlocks t' ra' dp' rs3) (lost2 ++ lost3) := by
    have hl2 : ∀ x, x ∈ lost2 → x < h2.length := fun x hx => by obtain ⟨_, _, hg⟩ := L2.live x hx; exact Heap.get_lt hg
    have hx23 : ∀ x, x ∈ lost2 → x ∉ lost3 ++ tableBlocks t' ra' dp' rs3 := fun x hx hc => by
      rcases s3.source x hc with h' | h'
      · cases h'
      · have := hl2 x hx; omega
    refine ⟨?_, ?_, ?_⟩
    · rw [List.nodup_append]
      refine ⟨L2.nodup, L3.nodup, ?_⟩
      rintro x h1 y h2 rfl
      exact hx23 x h1 (List.mem_append_left _ h2)
    · intro x hx
      rcases List.mem_append.1 hx with h' | h'
      · exact fun hc => hx23 x h' (List.mem_append_right _ hc)
      · exact L3.apart x h'
    · intro x hx
      rcases List.mem_append.1 hx with h' | h'
      · obtain ⟨n, s, hg⟩ := L2.live x h'
        have g3 : h3.get x = some _ := (s3.others x (hl2 x h') (by simp)).trans hg
        exact ⟨n, s, (s4.others x (Heap.get_lt g3) (L2.apart x h')).trans g3⟩
      · obtain ⟨n, s, hg⟩ := L3.live x h'
        exact ⟨n, s, (s4.others x (Heap.get_lt hg) (hnew x (List.mem_append_left _ h'))).trans hg⟩
  refine Does.step e6 (Does.ret rfl ⟨rfl, (lost2 ++ lost3) ++ lost5, (a4.lost s5).remains (L3'.append s5 L5) s6, ?_⟩)
  rw [List.length_append, List.length_append]
  have h0 : (tableInit size).overwrites = 0 := rfl
  change lost2.length + lost3.length + lost5.length = ((tableResize ((tableInit size).after ops) size' hash).after ops').overwrites
  omega

/-- **C80.** The same for a table that is moved to another size (`table_resize`, then `table_free` of the old one) and used on: the copy shares
no block with the original, so that freeing the original leaves the copy intact, and moving loses nothing. -/
theorem C80_resized_table_is_a_copy (size size' : Int) (hash : Bool) (ops ops' : List TOp) (h : Heap) :
    ∃ h' lost, mTabMove (fun _ => true) size size' hash ops ops' h =
        .ret (.ok ((tableResize ((freshTable size true).after ops) size' hash).run ops', h')) ∧
      Remains h h' lost ∧ (ops' = [] → lost.length = replaced (AMap.empty (rowsFor size)) ops) := by
  obtain ⟨xs, h', e, rfl, lost, hr, hl⟩ := (mTabMove_does (fun _ => true) size size' hash ops ops' h).total (fun _ => rfl)
  refine ⟨h', lost, e, hr, ?_⟩
  rintro rfl
  have hw : ∀ (ops : List TOp) (T : Table), T.WF → (T.after ops).WF := by
    intro ops
    induction ops with
    | nil => intro T hT; exact hT
    | cons op ops ih =>
      intro T hT
      refine ih _ ?_
      cases op with
      | put k d => exact hT.put k d
      | get k => obtain ⟨a, b, c, he⟩ := tableGetCounting_eq T k; simp only [Table.step, he]; exact hT.counters a b c
  rw [hl]
  show (tableResize ((freshTable size true).after ops) size' hash).overwrites = _
  rw [resize_overwrites (hw ops _ (freshTable_WF size true)), overwrites_run ops (Sim.fresh size true)]
  simp [freshTable, tableInit]

/-- A case: two entries, moved to a table of eight rows, read and replaced there. -/
example : ∃ h', mTabMove (fun _ => true) 4 8 true [.put 65 (lit "a"), .put 69 (lit "b")] [.get 69, .put 65 (lit "c"), .get 65] [] =
    .ret (.ok ([.found (some (lit "b")), .stored true, .found (some (lit "c"))], h')) := by
  obtain ⟨h', _, e, _⟩ := C80_resized_table_is_a_copy 4 8 true [.put 65 (lit "a"), .put 69 (lit "b")] [.get 69, .put 65 (lit "c"), .get 65] []
  have hr : (tableResize ((freshTable 4 true).after [.put 65 (lit "a"), .put 69 (lit "b")]) 8 true).run [.get 69, .put 65 (lit "c"), .get 65] =
    [.found (some (lit "b")), .stored true, .found (some (lit "c"))] := by decide +kernel
  rw [hr] at e
  exact ⟨h', e⟩

/-- The faults are there: the copy must not be freed twice, and the original cannot be read after it was freed. -/
example : (do let t ← mTableInit (fun _ => true) 1; mTableFree (some t); mTableFree (some t) : Mem Unit) [] = .ret (.error .pointer) := rfl

example : (do let t ← mTableInit (fun _ => true) 1; mTableFree (some t); mTableResize (fun _ => true) (some t) 2 true : Mem Addr) [] =
    .ret (.error .pointer) := rfl

end Detox
