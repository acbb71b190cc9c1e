import Verif.Lemmas.MemoryTables

/-!
# The tables of a sequence with pointers
-/

set_option autoImplicit false

namespace Detox

section

variable {A : Nat → Bool} {N : Prop}

/-! ### filter.c -/

theorem loadBuiltin_some {h : Heap} {T : Table} : Does A (do let t ← mLoadStatic A T; pure (some t)) h fun p h' =>
    NewOptTable h p h' (some (tableResize T 256 true)) := by
  refine Does.bind (loadStatic_does T h) ?_
  intro t h' l
  exact Does.ret rfl l

theorem loadBuiltin_does (f : Filter) (h : Heap) : Does A (mLoadBuiltin A f.cleaner) h fun p h' => NewOptTable h p h' (filterLoadBuiltin f) := by
  unfold mLoadBuiltin filterLoadBuiltin
  cases f.cleaner with
  | iso8859_1 => exact loadBuiltin_some
  | utf8 => exact loadBuiltin_some
  | safe => exact loadBuiltin_some
  | uncgi => exact Does.ret rfl (Alters.refl _ _)
  | wipeup => exact Does.ret rfl (Alters.refl _ _)
  | maxLength => exact Does.ret rfl (Alters.refl _ _)
  | lower => exact Does.ret rfl (Alters.refl _ _)

theorem loadBuiltinByFilename_does (b : Bytes) (h : Heap) :
    Does A (mLoadBuiltinByFilename A b) h fun p h' => NewOptTable h p h' (filterLoadBuiltinByFilename b) := by
  unfold mLoadBuiltinByFilename filterLoadBuiltinByFilename
  by_cases h1 : b = lit "iso8859_1"
  · rw [if_pos h1, if_pos h1]; exact loadBuiltin_some
  rw [if_neg h1, if_neg h1]
  by_cases h2 : b = lit "unicode"
  · rw [if_pos h2, if_pos h2]; exact loadBuiltin_some
  rw [if_neg h2, if_neg h2]
  by_cases h3 : b = lit "safe"
  · rw [if_pos h3, if_pos h3]; exact loadBuiltin_some
  rw [if_neg h3, if_neg h3]
  by_cases h4 : b = lit "cp1252"
  · rw [if_pos h4, if_pos h4]; exact loadBuiltin_some
  rw [if_neg h4, if_neg h4]
  exact Does.ret rfl (Alters.refl _ _)

theorem tryTable_follows (ctype path : Bytes) (h : Heap) : Follows A N (NewOptTable h) (mTryTable A ctype path h) (tryTable ctype path) := by
  unfold mTryTable tryTable
  by_cases hp : path.length < maxPathLen
  · rw [if_pos hp, if_pos hp]; exact parseTable_follows ctype path h
  · rw [if_neg hp, if_neg hp]; exact .ret _ _ _ (Alters.refl _ _)

/-- What was new stays new. -/
theorem NewTable.after {h h1 h2 : Heap} {t : Addr} {T : Table} (a : Alters [] h h1) (l : NewTable h1 t h2 T) : NewTable h t h2 T := by
  obtain ⟨ra, dp, rs, l, al, nw⟩ := l
  exact ⟨ra, dp, rs, l, a.trans al (by simp), fun x hx => Nat.le_trans a.grows (nw x hx)⟩

theorem NewOptTable.after {h h1 h2 : Heap} {p : Option Addr} {T : Option Table} (a : Alters [] h h1) (l : NewOptTable h1 p h2 T) :
    NewOptTable h p h2 T := by
  cases p with
  | none => cases T with
    | none => exact a.trans l (by simp)
    | some T => cases l
  | some t => cases T with
    | none => cases l
    | some T => exact NewTable.after a l

theorem findTable_follows (ctype : Bytes) (datadir : Option Bytes) (c : Bytes) (h : Heap) :
    Follows A N (NewOptTable h) (mFindTable A ctype datadir c h) (findTable ctype datadir c) := by
  unfold mFindTable findTable
  have rest : ∀ p h1 T, NewOptTable h p h1 T → Follows A N (NewOptTable h) ((match p with
      | some t => pure (some t)
      | none => do
        let t2 ← mTryTable A ctype (lit "/usr/share/detox/" ++ c)
        match t2 with
        | some t => pure (some t)
        | none => mTryTable A ctype (lit "/usr/local/share/detox/" ++ c) : Mem (Option Addr)) h1) (match T with
      | some t => Prog.ret (some t)
      | none =>
        (tryTable ctype (lit "/usr/share/detox/" ++ c)).bind fun t2 =>
        match t2 with
        | some t => .ret (some t)
        | none => tryTable ctype (lit "/usr/local/share/detox/" ++ c)) := by
    intro p h1 T l1
    cases p with
    | some t => cases T with
      | none => cases l1
      | some T => exact .ret _ _ _ l1
    | none => cases T with
      | some T => cases l1
      | none =>
        refine Follows.bind (P := NewOptTable h) ((tryTable_follows _ _ _).mono fun _ _ _ l => l.after l1) ?_
        intro p h2 T l2
        cases p with
        | some t => cases T with
          | none => cases l2
          | some T => exact .ret _ _ _ l2
        | none => cases T with
          | some T => cases l2
          | none => exact (tryTable_follows _ _ _).mono fun _ _ _ l => l.after l2
  cases datadir with
  | none => exact rest none h none (Alters.refl _ _)
  | some d => exact Follows.bind (P := NewOptTable h) (tryTable_follows _ _ _) rest

/-! ### Chains of filters -/

/-- A filter, and where its `next` points. -/
def FilterAt (h : Heap) (a : Addr) (next : Option Addr) (f : Filter) : Prop :=
  ∃ fn bi t, h.get a = some (.filter next f.cleaner fn bi f.removeTrailing f.maxLength t) ∧
    h.optAt fn = some f.filename ∧ h.optAt bi = some f.builtin ∧ OptTableAt h t f.table

/-- A chain of filters with its addresses. -/
def ChainAt (h : Heap) : List Addr → List Filter → Prop
  | [], [] => True
  | a :: as, f :: fs => FilterAt h a as.head? f ∧ ChainAt h as fs
  | _, _ => False

theorem ChainAt.filters {h : Heap} : ∀ {as : List Addr} {fs : List Filter}, ChainAt h as fs → FiltersAt h as.head? fs
  | [], [], _ => rfl
  | _ :: as, f :: fs, ⟨⟨fn, bi, t, h1, h2, h3, h4⟩, l⟩ => ⟨_, as.head?, fn, bi, t, rfl, h1, h2, h3, h4, l.filters⟩
  | [], _ :: _, l => by cases l
  | _ :: _, [], l => by cases l

theorem ChainAt.lengths {h : Heap} : ∀ {as : List Addr} {fs : List Filter}, ChainAt h as fs → as.length = fs.length
  | [], [], _ => rfl
  | _ :: _, _ :: _, ⟨_, l⟩ => by simp [l.lengths]
  | [], _ :: _, l => by cases l
  | _ :: _, [], l => by cases l

/-- The block is a `filter_t`. -/
def Block.isFilter : Block → Bool
  | .filter .. => true
  | _ => false

theorem ChainAt.isFilter {h : Heap} : ∀ {as : List Addr} {fs : List Filter}, ChainAt h as fs → ∀ x, x ∈ as → ∃ b, h.get x = some b ∧ b.isFilter = true
  | [], _, _, _, hx => by cases hx
  | _ :: _, [], l, _, _ => by cases l
  | a :: as, f :: fs, ⟨⟨fn, bi, t, h1, h2, h3, h4⟩, l⟩, x, hx => by
    rcases List.mem_cons.1 hx with rfl | hx
    · exact ⟨_, h1, rfl⟩
    · exact l.isFilter x hx

/-- Only filters have changed. -/
def OnlyFilters (M : List Addr) (h : Heap) : Prop := ∀ x, x ∈ M → ∀ b, h.get x = some b → b.isFilter = true

theorem Alters.optTable {M : List Addr} {h h' : Heap} (a : Alters M h h') (hM : OnlyFilters M h) {p : Option Addr} {T : Option Table}
    (l : OptTableAt h p T) : OptTableAt h' p T := by
  cases p with
  | none => cases T <;> exact l
  | some t => cases T with
    | none => exact l
    | some T =>
      obtain ⟨ra, dp, rs, l⟩ := l
      refine ⟨ra, dp, rs, a.table l fun x hx hc => ?_⟩
      simp only [tableBlocks, List.mem_cons] at hx
      rcases hx with rfl | rfl | hx
      · cases hM _ hc _ l.table
      · cases hM _ hc _ l.rows
      · obtain ⟨_, _, h4⟩ := l.text hx; cases hM _ hc _ h4

theorem Alters.optText {M : List Addr} {h h' : Heap} (a : Alters M h h') (hM : OnlyFilters M h) {p : Option Addr} {d : Option Bytes}
    (e : h.optAt p = some d) : h'.optAt p = some d :=
  a.optAt e fun x hx hc => by
    obtain ⟨n, s, g, _⟩ := Heap.optAt_some e hx
    cases hM _ hc _ g

theorem FilterAt.alters {M : List Addr} {h h' : Heap} (a : Alters M h h') (hM : OnlyFilters M h) {x : Addr} {next : Option Addr} {f : Filter}
    (l : FilterAt h x next f) (hx : x ∉ M) : FilterAt h' x next f := by
  obtain ⟨fn, bi, t, h1, h2, h3, h4⟩ := l
  exact ⟨fn, bi, t, a.get h1 hx, a.optText hM h2, a.optText hM h3, a.optTable hM h4⟩

theorem ChainAt.alters {M : List Addr} {h h' : Heap} (a : Alters M h h') (hM : OnlyFilters M h) : ∀ {as : List Addr} {fs : List Filter},
    ChainAt h as fs → (∀ x, x ∈ as → x ∉ M) → ChainAt h' as fs
  | [], [], _, _ => trivial
  | _ :: _, _ :: _, ⟨l, ls⟩, hx => ⟨l.alters a hM (hx _ (by simp)), ls.alters a hM fun x h' => hx x (by simp [h'])⟩
  | [], _ :: _, l, _ => by cases l
  | _ :: _, [], l, _ => by cases l

theorem NewOptTable.alters {h h' : Heap} {p : Option Addr} {T : Option Table} (l : NewOptTable h p h' T) : Alters [] h h' := by
  cases p with
  | none => cases T with
    | none => exact l
    | some T => cases l
  | some t => cases T with
    | none => cases l
    | some T => obtain ⟨_, _, _, _, a, _⟩ := l; exact a

theorem NewOptTable.table {h h' : Heap} {p : Option Addr} {T : Option Table} (l : NewOptTable h p h' T) : OptTableAt h' p T := by
  cases p with
  | none => cases T with
    | none => trivial
    | some T => cases l
  | some t => cases T with
    | none => cases l
    | some T => obtain ⟨ra, dp, rs, l, _, _⟩ := l; exact ⟨ra, dp, rs, l⟩

theorem loadFilterNames_eq {h : Heap} {a : Addr} {next fn bi t : Option Addr} {c : Cleaner} {rt : Bool} {ml : Nat}
    (e : h.get a = some (.filter next c fn bi rt ml t)) : Mem.loadFilterNames a h = .ret (.ok ((c, fn, bi), h)) := by
  unfold Mem.loadFilterNames
  exact Mem.bind_ok (Mem.load_eq e)

theorem loadTable_follows {h : Heap} {a : Addr} {next : Option Addr} {f : Filter} (ctype : Bytes) (datadir : Option Bytes) (l : FilterAt h a next f) :
    Follows A N (NewOptTable h) (mLoadTable A ctype datadir a h) (loadTable ctype datadir f) := by
  obtain ⟨fn, bi, t, h1, h2, h3, h4⟩ := l
  unfold mLoadTable loadTable
  refine Follows.step (loadFilterNames_eq h1) ?_
  simp only
  cases defaultTableFilename f.cleaner with
  | none => exact .ret _ _ _ (Alters.refl _ _)
  | some c =>
    simp only
    cases bi with
    | some b =>
      obtain ⟨n, s, g, e⟩ := Heap.optAt_some h3 (a := b) (by simp)
      rw [e]
      refine Follows.step (Mem.text_eq g) (Follows.does (loadBuiltinByFilename_does s h) ?_)
      intro p h' l
      simp only
      cases p with
      | none => cases hT : filterLoadBuiltinByFilename s with
        | none => exact .err _ _ _ (.exit _)
        | some T => rw [hT] at l; cases l
      | some t => cases hT : filterLoadBuiltinByFilename s with
        | none => rw [hT] at l; cases l
        | some T => rw [hT] at l; exact .ret _ _ _ l
    | none =>
      rw [← (Option.some.inj h3 : none = f.builtin)]
      simp only
      cases fn with
      | some b =>
        obtain ⟨n, s, g, e⟩ := Heap.optAt_some h2 (a := b) (by simp)
        rw [e]
        refine Follows.step (Mem.text_eq g) (Follows.bind (parseTable_follows ctype s h) ?_)
        intro p h' T l
        cases p with
        | none => cases T with
          | none => exact .err _ _ _ (.exit _)
          | some T => cases l
        | some t => cases T with
          | none => cases l
          | some T => exact .ret _ _ _ l
      | none =>
        rw [← (Option.some.inj h2 : none = f.filename)]
        simp only
        refine Follows.bind (findTable_follows ctype datadir c h) ?_
        intro p h' T l
        cases p with
        | some t => cases T with
          | none => cases l
          | some T => exact .ret _ _ _ l
        | none => cases T with
          | some T => cases l
          | none =>
            refine Follows.does (loadBuiltin_does f h') ?_
            intro p h'' l2
            simp only
            replace l2 := NewOptTable.after l l2
            cases p with
            | none => cases hT : filterLoadBuiltin f with
              | none => exact .err _ _ _ (.exit _)
              | some T => rw [hT] at l2; cases l2
            | some t => cases hT : filterLoadBuiltin f with
              | none => rw [hT] at l2; cases l2
              | some T => rw [hT] at l2; exact .ret _ _ _ l2

/-! ### sequence.c -/

theorem reviewFilters_follows (ctype : Bytes) (datadir : Option Bytes) : ∀ {as : List Addr} {fs : List Filter} {n : Nat} {h : Heap}, as.length ≤ n →
    as.Nodup → ChainAt h as fs →
    Follows A N (fun _ h' fs' => ChainAt h' as fs' ∧ Alters as h h') (mReviewFilters A ctype datadir n as.head? h) (loadTables ctype datadir fs)
  | [], [], n, h, _, _, _ => by
    cases n <;> exact .ret _ _ _ ⟨trivial, Alters.refl _ _⟩
  | [], _ :: _, _, _, _, _, l => by cases l
  | _ :: _, [], _, _, _, _, l => by cases l
  | _ :: _, _ :: _, 0, _, hn, _, _ => absurd hn (by simp)
  | a :: as, f :: fs, n + 1, h, hn, hd, ⟨l, ls⟩ => by
    obtain ⟨hda, hds⟩ := List.nodup_cons.1 hd
    have ih := fun {h : Heap} => reviewFilters_follows ctype datadir (as := as) (fs := fs) (n := n) (h := h) (by simpa using hn) hds
    unfold mReviewFilters loadTables
    refine Follows.bind (loadTable_follows ctype datadir l) ?_
    intro p h1 T l1
    have a1 := l1.alters
    have nil : OnlyFilters [] h := fun x hx => by cases hx
    have f1 := l.alters a1 nil (by simp)
    have c1 := ls.alters a1 nil (by simp)
    have fin : ∀ {h2 : Heap} {f' : Filter}, Alters [a] h h2 → FilterAt h2 a as.head? f' → ChainAt h2 as fs →
        Follows A N (fun _ h' fs' => ChainAt h' (a :: as) fs' ∧ Alters (a :: as) h h') ((do
          let (next, _) ← Mem.loadFilter a
          mReviewFilters A ctype datadir n next : Mem Unit) h2) ((loadTables ctype datadir fs).bind fun fs' => .ret (f' :: fs')) := by
      intro h2 f' a2 l2 c2
      obtain ⟨fn, bi, t, g, _⟩ := id l2
      refine Follows.step (loadFilter_eq g) ((ih c2).map ?_)
      rintro _ h3 fs' ⟨c3, a3⟩
      refine ⟨⟨l2.alters a3 ?_ hda, c3⟩, ?_⟩
      · intro x hx b hb
        obtain ⟨b', hb', hf⟩ := c2.isFilter x hx
        rw [hb'] at hb; cases hb; exact hf
      · exact (a2.mono (by simp)).trans a3 fun x hx => .inl (by simp [hx])
    cases p with
    | none => cases T with
      | some T => cases l1
      | none =>
        simp only
        exact fin (l1.mono (by simp)) f1 c1
    | some t => cases T with
      | none => cases l1
      | some T =>
        simp only
        obtain ⟨fn, bi, t', g1, h2, h3, h4⟩ := f1
        refine Follows.step (Mem.update_eq g1 rfl) ?_
        have a2 : Alters [a] h1 (h1.set a (some (.filter as.head? f.cleaner fn bi f.removeTrailing f.maxLength (some t)))) := Alters.set a _
        have m2 : OnlyFilters [a] h1 := fun x hx b hb => by
          cases (List.mem_singleton.1 hx : x = a)
          rw [g1] at hb; cases hb; rfl
        refine fin (a1.mono (by simp) |>.trans a2 fun x hx => .inl hx) ⟨fn, bi, some t, Heap.get_set_eq (Heap.get_lt g1) _, a2.optText m2 h2,
          a2.optText m2 h3, a2.optTable m2 l1.table⟩ (c1.alters a2 m2 fun x hx hc => ?_)
        cases (List.mem_singleton.1 hc : x = a)
        exact hda hx

end

end Detox
