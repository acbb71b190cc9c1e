import Verif.Lemmas.Alters
import Verif.Lemmas.LoadedTable

/-!
# Loading tables with pointers
-/

set_option autoImplicit false

namespace Detox

section

variable {A : Nat → Bool} {N : Prop}

/-- A table with another default translation or other numbers. -/
theorem TableAt.renew {h : Heap} {t ra : Addr} {dp dp' : Option Addr} {rs : List (Nat × Option Addr)} {T T' : Table} (l : TableAt h t ra dp rs T)
    (hd : h.optAt dp' = some T'.defaultTranslation) (hn : (dp'.toList ++ rowPtrs rs).Nodup) (hr : T'.rows = T.rows) (hb : T'.builtin = T.builtin) :
    TableAt (h.set t (some (.table (some ra) dp' (numbersOf T')))) t ra dp' rs T' := by
  have ne := l.ne
  have nd : ∀ x, x ∈ dp'.toList → x ≠ t := by
    rintro x hx rfl
    obtain ⟨n, s, g, _⟩ := Heap.optAt_some hd hx
    rw [l.table] at g; cases g
  refine ⟨Heap.get_set_eq (Heap.get_lt l.table) _, ?_, ?_, ?_, l.full, hn, by rw [hb]; exact l.dynamic⟩
  · rw [Heap.get_set_ne (Ne.symm ne.1)]; exact l.rows
  · rw [rowAt_map_congr (fun x hx => Heap.get_set_ne (ne_of_mem_of_not_mem (List.mem_append_right _ hx) ne.2.1) _), l.content, hr]
  · rw [Heap.optAt_congr (fun x hx => Heap.get_set_ne (nd x hx) _), hd]

theorem TableAt.lt {h : Heap} {t ra : Addr} {dp : Option Addr} {rs : List (Nat × Option Addr)} {T : Table} (l : TableAt h t ra dp rs T)
    {x : Addr} (hx : x ∈ tableBlocks t ra dp rs) : x < h.length := by
  obtain ⟨b, hb⟩ := l.live hx
  exact Heap.get_lt hb

/-- The result is a table made of new blocks, and nothing else has changed. -/
def NewTable (h : Heap) (t : Addr) (h' : Heap) (T : Table) : Prop :=
  ∃ ra dp rs, TableAt h' t ra dp rs T ∧ Alters [] h h' ∧ ∀ x, x ∈ tableBlocks t ra dp rs → h.length ≤ x

theorem tablePut_new {h0 h : Heap} {t : Addr} {T : Table} (l : NewTable h0 t h T) (k : Nat) (d : Bytes) :
    Does A (mTablePut A (some t) k d) h fun r h' => r = (tablePut T k d).2 ∧ NewTable h0 t h' (tablePut T k d).1 ∧
      (∀ x b, h.get x = some b → (∀ ra dp rs, TableAt h t ra dp rs T → x ∉ tableBlocks t ra dp rs) → h'.get x = some b) := by
  obtain ⟨ra, dp, rs, l, al, nw⟩ := l
  refine (tablePut_does l k d).mono ?_
  rintro r h' ⟨rfl, rs', lost, l', sw, _, _⟩
  refine ⟨rfl, ⟨ra, dp, rs', l', al.trans sw.alters fun x hx => .inr (nw x hx), fun x hx => ?_⟩, fun x b hb hx => sw.alters.get hb (hx _ _ _ l)⟩
  rcases sw.source x (List.mem_append_right _ hx) with h1 | h1
  · exact nw x h1
  · exact Nat.le_trans al.grows h1

/-! ### builtin_table.c -/

theorem copyStatic_does {h0 : Heap} {t : Addr} : ∀ {vs : List Row} {h : Heap} {R : Table}, NewTable h0 t h R →
    Does A (mCopyStatic A t vs) h fun _ h' => NewTable h0 t h' (tableCopyRows R vs)
  | [], h, R, l => Does.ret rfl l
  | ⟨k, none⟩ :: vs, h, R, l => copyStatic_does (vs := vs) l
  | ⟨k, some d⟩ :: vs, h, R, l => by
    unfold mCopyStatic tableCopyRows
    simp only
    by_cases hk : 0 < k
    · rw [if_pos hk, if_pos hk]
      refine Does.bind (tablePut_new l k d) ?_
      rintro r h' ⟨_, l', _⟩
      exact copyStatic_does l'
    · rw [if_neg hk, if_neg hk]
      exact copyStatic_does l

theorem loadStatic_does (T : Table) (h : Heap) : Does A (mLoadStatic A T) h fun t h' => NewTable h t h' (tableResize T 256 true) := by
  unfold mLoadStatic tableResize
  refine Does.bind (tableInit_does A 256 h) ?_
  rintro t h1 ⟨ra, l1, s1⟩
  refine Does.step (loadTable_eq l1.table) ?_
  simp only
  have l2 := l1.renew (dp' := none) (T' := { tableInit 256 with useHash := true }) rfl (by rw [rowPtrs_replicate]; exact List.nodup_nil) rfl rfl
  refine Does.step (Mem.store_eq l1.table _) ?_
  have a2 : Alters [] h (h1.set t (some (.table (some ra) none { numbersOf (tableInit 256) with useHash := true }))) :=
    s1.alters.trans (Alters.set t _) fun x hx => by
      cases (List.mem_singleton.1 hx : x = t)
      exact (s1.source t (by simp [tableBlocks]))
  have nw : ∀ x, x ∈ tableBlocks t ra none (List.replicate (rowsFor 256) (0, none)) → h.length ≤ x := fun x hx =>
    (s1.source x hx).elim (fun h' => by cases h') id
  replace l2 : TableAt (h1.set t (some (.table (some ra) none { numbersOf (tableInit 256) with useHash := true }))) t ra none
    (List.replicate (rowsFor 256) (0, none)) { tableInit 256 with useHash := true } := l2
  generalize h1.set t (some (.table (some ra) none { numbersOf (tableInit 256) with useHash := true })) = h2 at l2 a2
  have fin : ∀ (dp : Option Addr) (h3 : Heap), Alters [] h2 h3 → h3.optAt dp = some T.defaultTranslation → (∀ x, x ∈ dp.toList → x = h2.length) →
      Does A (do
        Mem.store t (.table (some ra) dp { numbersOf (tableInit 256) with useHash := true, overwrites := T.overwrites })
        mCopyStatic A t T.rows
        pure t) h3 fun t h' => NewTable h t h' (tableCopyRows { tableInit 256 with
          useHash := true, defaultTranslation := T.defaultTranslation, overwrites := T.overwrites } T.rows) := by
    intro dp h3 a3 hd hdp
    have l3 := a3.table l2 (by simp)
    refine Does.step (Mem.store_eq l3.table _) ?_
    have l4 := l3.renew (dp' := dp) (T' := { tableInit 256 with
      useHash := true, defaultTranslation := T.defaultTranslation, overwrites := T.overwrites }) hd (by
        rw [rowPtrs_replicate]
        cases dp <;> simp) rfl rfl
    refine Does.bind (copyStatic_does (h0 := h) (R := { tableInit 256 with
      useHash := true, defaultTranslation := T.defaultTranslation, overwrites := T.overwrites }) ⟨ra, dp, _, l4, ?_, ?_⟩) ?_
    · exact (a2.trans a3 (by simp)).trans (Alters.set t _) fun x hx => by
        cases (List.mem_singleton.1 hx : x = t)
        exact .inr (nw t (by simp [tableBlocks]))
    · intro x hx
      simp only [tableBlocks, rowPtrs_replicate, List.append_nil, List.mem_cons] at hx
      rcases hx with rfl | rfl | hx
      · exact nw x (by simp [tableBlocks])
      · exact nw x (by simp [tableBlocks])
      · rw [hdp x hx]; exact a2.grows
    · intro _ h5 l5
      exact Does.ret rfl l5
  cases hT : T.defaultTranslation with
  | none =>
    rw [hT] at fin
    exact fin none h2 (Alters.refl _ _) rfl (by simp)
  | some d =>
    rw [hT] at fin
    simp only
    refine Does.bind (strdup_alters h2 d) ?_
    rintro a h3 ⟨rfl, rfl⟩
    refine Does.step (a := some h2.length) rfl (fin (some h2.length) _ (Alters.malloc _ _) ?_ (by simp))
    simp only [Heap.optAt, Heap.textAt_of (Heap.get_new h2 _)]
    rfl

/-! ### parse_table.c -/

/-- The loop of `parse_table`: a table under way, and two buffers. -/
structure Reading (h0 h : Heap) (t ra : Addr) (dp : Option Addr) (rs : List (Nat × Option Addr)) (T : Table) (work parsed : Addr) : Prop where
  table : TableAt h t ra dp rs T
  alters : Alters [] h0 h
  fresh : ∀ x, x ∈ tableBlocks t ra dp rs → h0.length ≤ x
  workAt : ∃ s, h.get work = some (.text 1024 s)
  parsedAt : ∃ s, h.get parsed = some (.text 1024 s)
  apart : work ≠ parsed
  workNew : h0.length ≤ work ∧ work ∉ tableBlocks t ra dp rs
  parsedNew : h0.length ≤ parsed ∧ parsed ∉ tableBlocks t ra dp rs

theorem Reading.writeWork {h0 h : Heap} {t ra : Addr} {dp : Option Addr} {rs : List (Nat × Option Addr)} {T : Table} {work parsed : Addr}
    (r : Reading h0 h t ra dp rs T work parsed) {l : Bytes} (hl : l.length < 1024) :
    ∃ h', Mem.putText work l h = .ret (.ok ((), h')) ∧ h'.get work = some (.text 1024 l) ∧ Reading h0 h' t ra dp rs T work parsed := by
  obtain ⟨s, hw⟩ := r.workAt
  obtain ⟨u, hp⟩ := r.parsedAt
  have g : Heap.get (h.set work (some (.text 1024 l))) work = some (.text 1024 l) := Heap.get_set_eq (Heap.get_lt hw) _
  refine ⟨_, Mem.putText_eq hw hl, g, (Alters.set work _).table r.table fun x hx hc => ?_,
    r.alters.trans (Alters.set work _) fun x hx => ?_, r.fresh, ⟨l, g⟩, ⟨u, ?_⟩, r.apart, r.workNew, r.parsedNew⟩
  · cases (List.mem_singleton.1 hc : x = work); exact r.workNew.2 hx
  · cases (List.mem_singleton.1 hx : x = work); exact .inr r.workNew.1
  · rw [Heap.get_set_ne (Ne.symm r.apart)]; exact hp

theorem Reading.writeParsed {h0 h : Heap} {t ra : Addr} {dp : Option Addr} {rs : List (Nat × Option Addr)} {T : Table} {work parsed : Addr}
    (r : Reading h0 h t ra dp rs T work parsed) {l : Bytes} (hl : l.length < 1024) :
    ∃ h', Mem.putText parsed l h = .ret (.ok ((), h')) ∧ h'.get parsed = some (.text 1024 l) ∧ Reading h0 h' t ra dp rs T work parsed := by
  obtain ⟨s, hw⟩ := r.workAt
  obtain ⟨u, hp⟩ := r.parsedAt
  have g : Heap.get (h.set parsed (some (.text 1024 l))) parsed = some (.text 1024 l) := Heap.get_set_eq (Heap.get_lt hp) _
  refine ⟨_, Mem.putText_eq hp hl, g, (Alters.set parsed _).table r.table fun x hx hc => ?_,
    r.alters.trans (Alters.set parsed _) fun x hx => ?_, r.fresh, ⟨s, ?_⟩, ⟨l, g⟩, r.apart, r.workNew, r.parsedNew⟩
  · cases (List.mem_singleton.1 hc : x = parsed); exact r.parsedNew.2 hx
  · cases (List.mem_singleton.1 hx : x = parsed); exact .inr r.parsedNew.1
  · rw [Heap.get_set_ne r.apart]; exact hw

theorem Reading.put {h0 h : Heap} {t ra : Addr} {dp : Option Addr} {rs : List (Nat × Option Addr)} {T : Table} {work parsed : Addr}
    (r : Reading h0 h t ra dp rs T work parsed) (k : Nat) (d : Bytes) :
    Does A (mTablePut A (some t) k d) h fun x h' => x = (tablePut T k d).2 ∧ ∃ rs', Reading h0 h' t ra dp rs' (tablePut T k d).1 work parsed := by
  refine (tablePut_does r.table k d).mono ?_
  rintro x h' ⟨rfl, rs', lost, l', sw, _, _⟩
  obtain ⟨s, hw⟩ := r.workAt
  obtain ⟨u, hp⟩ := r.parsedAt
  have nb : ∀ x, x ∈ tableBlocks t ra dp rs' → x ∈ tableBlocks t ra dp rs ∨ h.length ≤ x := fun x hx => sw.source x (List.mem_append_right _ hx)
  refine ⟨rfl, rs', l', r.alters.trans sw.alters fun x hx => .inr (r.fresh x hx), fun x hx => ?_, ⟨s, sw.alters.get hw r.workNew.2⟩,
    ⟨u, sw.alters.get hp r.parsedNew.2⟩, r.apart, ⟨r.workNew.1, fun hc => ?_⟩, ⟨r.parsedNew.1, fun hc => ?_⟩⟩
  · exact (nb x hx).elim (r.fresh x) (Nat.le_trans r.alters.grows)
  · exact (nb _ hc).elim r.workNew.2 (fun h' => by have := Heap.get_lt hw; omega)
  · exact (nb _ hc).elim r.parsedNew.2 (fun h' => by have := Heap.get_lt hp; omega)

theorem Reading.setDefault {h0 h : Heap} {t ra : Addr} {dp dp' : Option Addr} {rs : List (Nat × Option Addr)} {T : Table} {work parsed : Addr}
    (r : Reading h0 h t ra dp rs T work parsed) {d : Option Bytes} (hd : h.optAt dp' = some d)
    (hf : ∀ x, x ∈ dp'.toList → h0.length ≤ x ∧ x ≠ work ∧ x ≠ parsed ∧ x ∉ rowPtrs rs) :
    ∃ h', Mem.update t (Block.setDefault dp') h = .ret (.ok ((), h')) ∧
      Reading h0 h' t ra dp' rs { T with defaultTranslation := d } work parsed := by
  obtain ⟨s, hw⟩ := r.workAt
  obtain ⟨u, hp⟩ := r.parsedAt
  have nw : work ≠ t := fun e => r.workNew.2 (by rw [e]; simp [tableBlocks])
  have np : parsed ≠ t := fun e => r.parsedNew.2 (by rw [e]; simp [tableBlocks])
  have nd : (dp'.toList ++ rowPtrs rs).Nodup := by
    have h1 := (List.nodup_append.1 r.table.nodup).2.1
    cases dp' with
    | none => exact h1
    | some x => exact List.nodup_cons.2 ⟨(hf x (by simp)).2.2.2, h1⟩
  have mem : ∀ x, x ∈ tableBlocks t ra dp' rs → x ∈ tableBlocks t ra dp rs ∨ x ∈ dp'.toList := fun x hx => by
    simp only [tableBlocks, List.mem_cons, List.mem_append] at hx ⊢
    rcases hx with h' | h' | h' | h' <;> simp [h']
  refine ⟨_, Mem.update_eq r.table.table rfl, r.table.renew (T' := { T with defaultTranslation := d }) hd nd rfl rfl,
    r.alters.trans (Alters.set t _) fun x hx => ?_, fun x hx => ?_, ⟨s, ?_⟩, ⟨u, ?_⟩, r.apart, ⟨r.workNew.1, fun hc => ?_⟩,
    ⟨r.parsedNew.1, fun hc => ?_⟩⟩
  · cases (List.mem_singleton.1 hx : x = t); exact .inr (r.fresh t (by simp [tableBlocks]))
  · exact (mem x hx).elim (r.fresh x) fun h' => (hf x h').1
  · rw [Heap.get_set_ne nw]; exact hw
  · rw [Heap.get_set_ne np]; exact hp
  · exact (mem _ hc).elim r.workNew.2 fun h' => (hf _ h').2.1 rfl
  · exact (mem _ hc).elim r.parsedNew.2 fun h' => (hf _ h').2.2.1 rfl

theorem parseLines_does {h0 : Heap} {ctype : Bytes} {t ra work parsed : Addr} : ∀ {ls : List Bytes} {inside : Bool} {h : Heap} {dp : Option Addr}
    {rs : List (Nat × Option Addr)} {T : Table}, (∀ l ∈ ls, l.length < 1024) → Reading h0 h t ra dp rs T work parsed →
    Does A (mParseLines A ctype t work parsed inside ls) h fun ok h' => ∃ dp' rs' T', Reading h0 h' t ra dp' rs' T' work parsed ∧
      (if ok then (parseTableLines ctype (inside, T) ls).map Prod.snd = some T' else parseTableLines ctype (inside, T) ls = none)
  | [], inside, h, dp, rs, T, _, r => Does.ret rfl ⟨dp, rs, T, r, rfl⟩
  | l :: ls, inside, h, dp, rs, T, hl, r => by
    have ih := fun {inside : Bool} {h : Heap} {dp : Option Addr} {rs : List (Nat × Option Addr)} {T : Table} =>
      parseLines_does (h0 := h0) (ctype := ctype) (t := t) (ra := ra) (work := work) (parsed := parsed) (ls := ls) (inside := inside) (h := h) (dp := dp)
        (rs := rs) (T := T) (fun l h => hl l (by simp [h]))
    have hll := hl l (by simp)
    unfold mParseLines parseTableLines parseTableLine
    obtain ⟨h1, e1, g1, r1⟩ := r.writeWork hll
    refine Does.step e1 (Does.step (Mem.text_eq g1) ?_)
    by_cases hc : peek l = 0x23
    · rw [if_pos hc, if_pos hc]; exact ih r1
    rw [if_neg hc, if_neg hc]
    obtain ⟨h2, e2, _, r2⟩ := r1.writeParsed (l := []) (by decide)
    refine Does.step e2 ?_
    have hfrom : (if inside = true then insideLine l else baseLine ctype l).From l := by
      cases inside
      · exact baseLine_from ctype l
      · exact insideLine_from l
    simp only
    generalize (if inside = true then insideLine l else baseLine ctype l) = act at hfrom
    cases act with
    | skip => exact ih r2
    | enter => exact ih r2
    | leave => exact ih r2
    | dflt d =>
      cases d with
      | none =>
        obtain ⟨h3, e3, r3⟩ := r2.setDefault (dp' := none) (d := none) rfl (by simp)
        exact Does.step e3 (ih r3)
      | some d =>
        obtain ⟨h3, e3, g3, r3⟩ := r2.writeParsed (l := d) (Nat.lt_of_le_of_lt (List.Sublist.length_le hfrom) hll)
        refine Does.step e3 (Does.step (Mem.text_eq g3) (Does.bind (strdup_alters h3 d) ?_))
        rintro c h4 ⟨rfl, rfl⟩
        have am := Alters.malloc h3 (Block.text (d.length + 1) d)
        obtain ⟨s, hw⟩ := r3.workAt
        obtain ⟨u, hp⟩ := r3.parsedAt
        have r4 : Reading h0 (h3 ++ [some (Block.text (d.length + 1) d)]) t ra dp rs T work parsed :=
          ⟨am.table r3.table (by simp), r3.alters.trans am (by simp), r3.fresh, ⟨s, am.keep hw⟩, ⟨u, am.keep hp⟩, r3.apart, r3.workNew, r3.parsedNew⟩
        obtain ⟨h5, e5, r5⟩ := r4.setDefault (dp' := some h3.length) (d := some d)
          (by simp only [Heap.optAt, Heap.textAt_of (Heap.get_new h3 _)]; rfl) (by
            intro x hx
            cases (List.mem_singleton.1 hx : x = h3.length)
            refine ⟨r3.alters.grows, ?_, ?_, fun hc => ?_⟩
            · have := Heap.get_lt hw; omega
            · have := Heap.get_lt hp; omega
            · have := r3.table.lt (x := h3.length) (by simp [tableBlocks, hc]); omega)
        exact Does.step e5 (ih r5)
    | row k d =>
      obtain ⟨h3, e3, g3, r3⟩ := r2.writeParsed (l := d) (Nat.lt_of_le_of_lt (List.Sublist.length_le hfrom.2) hll)
      refine Does.step e3 (Does.step (Mem.text_eq g3) (Does.bind (r3.put k d) ?_))
      rintro x h4 ⟨hx, rs', r4⟩
      simp only
      cases x with
      | none =>
        refine Does.ret rfl ⟨dp, rs', _, r4, ?_⟩
        rcases hT : tablePut T k d with ⟨T', o⟩
        rw [hT] at hx
        cases (show none = o from hx)
        simp
      | some o =>
        rcases hT : tablePut T k d with ⟨T', o'⟩
        rw [hT] at hx r4
        cases (show some o = o' from hx)
        simp only
        exact ih r4

/-- The table, if there is one, is made of new blocks, and nothing else has changed. -/
def NewOptTable (h : Heap) (p : Option Addr) (h' : Heap) (r : Option Table) : Prop :=
  match p, r with
  | none, none => Alters [] h h'
  | some t, some T => NewTable h t h' T
  | _, _ => False

theorem parseTable_follows (ctype path : Bytes) (h : Heap) :
    Follows A N (NewOptTable h) (mParseTable A ctype path h) (readTable ctype path) := by
  unfold mParseTable readTable
  refine Follows.slurp' fun r => ?_
  cases r with
  | none => exact .ret _ _ _ (Alters.refl _ _)
  | some content =>
    simp only
    refine Follows.does (tableInit_does A _ h) ?_
    rintro t h1 ⟨ra, l1, s1⟩
    refine Follows.malloc (Follows.malloc ?_)
    have nw : ∀ x, x ∈ tableBlocks t ra none (List.replicate (rowsFor ↑(tableRowsFor content.length)) (0, none)) → h.length ≤ x := fun x hx =>
      (s1.source x hx).elim (fun h' => by cases h') id
    have a1 : Alters [] h1 (h1 ++ [some (Block.text 1024 [])] ++ [some (Block.text 1024 [])]) :=
      (Alters.malloc _ _).trans (Alters.malloc _ _) (by simp)
    have g1 : Heap.get (h1 ++ [some (Block.text 1024 [])] ++ [some (Block.text 1024 [])]) h1.length = some (.text 1024 []) :=
      (Alters.malloc _ _).keep (Heap.get_new _ _)
    have g2 := Heap.get_new (h1 ++ [some (Block.text 1024 [])]) (Block.text 1024 [])
    have r2 : Reading h (h1 ++ [some (Block.text 1024 [])] ++ [some (Block.text 1024 [])]) t ra none _ _ h1.length
        (h1 ++ [some (Block.text 1024 [])]).length :=
      ⟨a1.table l1 (by simp), (s1.alters).trans a1 (by simp), nw, ⟨_, g1⟩, ⟨_, g2⟩, by simp,
        ⟨s1.grows, fun hc => by have := l1.lt hc; omega⟩, ⟨by have := s1.grows; simp; omega, fun hc => by have := l1.lt hc; simp at this; omega⟩⟩
    refine Follows.does (parseLines_does (ctype := ctype) (inside := false) (ls := fileLines content.length content)
      (fun l hl => Nat.lt_succ_of_le (fileLines_facts _ _ l hl).2) r2) ?_
    rintro ok h3 ⟨dp, rs, T, r3, hr⟩
    obtain ⟨s, hw⟩ := r3.workAt
    obtain ⟨u, hp⟩ := r3.parsedAt
    have e : (some content).bind (parseTableContent ctype) = (parseTableLines ctype (false, tableInit ↑(tableRowsFor content.length))
      (fileLines content.length content)).map Prod.snd := rfl
    rw [e]
    cases ok with
    | true =>
      rw [if_pos rfl] at hr
      rw [hr, if_pos rfl]
      have hp2 : Heap.get (h3.set h1.length none) (h1 ++ [some (Block.text 1024 [])]).length = some (.text 1024 u) := by
        rw [Heap.get_set_ne (Ne.symm r3.apart)]; exact hp
      refine Follows.step (Mem.free_eq hw) (Follows.step (Mem.free_eq hp2) (.ret _ _ _ ⟨ra, dp, rs, ?_, ?_, r3.fresh⟩))
      · refine (Alters.set _ _).table ((Alters.set _ _).table r3.table ?_) ?_
        · intro x hx hc; rw [List.mem_singleton] at hc; rw [hc] at hx; exact r3.workNew.2 hx
        · intro x hx hc; rw [List.mem_singleton] at hc; rw [hc] at hx; exact r3.parsedNew.2 hx
      · refine (r3.alters.trans (Alters.set _ _) ?_).trans (Alters.set _ _) ?_
        · intro x hx; rw [List.mem_singleton] at hx; rw [hx]; exact .inr r3.workNew.1
        · intro x hx; rw [List.mem_singleton] at hx; rw [hx]; exact .inr r3.parsedNew.1
    | false =>
      rw [if_neg (by simp)] at hr
      rw [hr, if_neg (by simp)]
      obtain ⟨h4, e4, s4⟩ := tableFree_eq r3.table
      have hw4 : h4.get h1.length = some (.text 1024 s) := s4.alters.get hw r3.workNew.2
      have hp4 : h4.get (h1 ++ [some (Block.text 1024 [])]).length = some (.text 1024 u) := s4.alters.get hp r3.parsedNew.2
      have hp5 : Heap.get (h4.set h1.length none) (h1 ++ [some (Block.text 1024 [])]).length = some (.text 1024 u) := by
        rw [Heap.get_set_ne (Ne.symm r3.apart)]; exact hp4
      refine Follows.step e4 (Follows.step (Mem.free_eq hw4) (Follows.step (Mem.free_eq hp5) (.ret _ _ _ ?_)))
      refine ((r3.alters.trans s4.alters ?_).trans (Alters.set _ _) ?_).trans (Alters.set _ _) ?_
      · intro x hx; exact .inr (r3.fresh x hx)
      · intro x hx; rw [List.mem_singleton] at hx; rw [hx]; exact .inr r3.workNew.1
      · intro x hx; rw [List.mem_singleton] at hx; rw [hx]; exact .inr r3.parsedNew.1

end

end Detox
