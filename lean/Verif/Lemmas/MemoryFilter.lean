import Verif.Model.MemoryFile
import Verif.Lemmas.Follows
import Verif.Lemmas.MemoryTable
import Verif.Lemmas.Buf

/-!
# Filters on the heap
-/

set_option autoImplicit false

namespace Detox

/-! ### What the loops write fits into the block -/

theorem Res.bind_eq_ok {α β : Type} {x : Res α} {f : α → Res β} {b : β} (e : (x >>= f) = .ok b) : ∃ a, x = .ok a ∧ f a = .ok b := by
  cases x with
  | ok a => exact ⟨a, rfl, e⟩
  | exit n => cases e
  | ub u => cases e
  | stuck => cases e

/-- The block has `n` bytes, and no more than these are written. -/
def OutBuf.Within (n : Nat) (o : OutBuf) : Prop := o.cap = n ∧ o.data.length ≤ n

theorem push_within {n : Nat} {o o' : OutBuf} {c : Byte} (h : o.Within n) (e : o.push c = .ok o') : o'.Within n := by
  unfold OutBuf.push at e
  split at e
  · next hl =>
    cases e
    refine ⟨h.1, ?_⟩
    have := h.1
    simp
    omega
  · cases e

theorem pushStr_within {n : Nat} : ∀ {s : Bytes} {o o' : OutBuf}, o.Within n → o.pushStr s = .ok o' → o'.Within n
  | [], _, _, h, e => by cases e; exact h
  | c :: s, o, o', h, e => by
    obtain ⟨o1, e1, e2⟩ := Res.bind_eq_ok (show (o.push c >>= fun o => o.pushStr s) = .ok o' from e)
    exact pushStr_within (push_within h e1) e2

theorem finish_within {n : Nat} {o : OutBuf} {r : Bytes} (h : o.Within n) (e : o.finish = .ok r) : r.length < n := by
  obtain ⟨o1, e1, e2⟩ := Res.bind_eq_ok (show (o.push 0 >>= fun o' => Res.ok (cstr o'.data)) = .ok r from e)
  cases e2
  unfold OutBuf.push at e1
  split at e1
  · next hl =>
    cases e1
    have h1 := h.1
    rw [show (o.data ++ [(0 : Byte)]) = o.data ++ 0 :: [] from rfl]
    have : (cstr (o.data ++ 0 :: [])).length ≤ o.data.length := by
      rw [cstr_append_zero]
      unfold cstr
      exact (List.takeWhile_prefix _).length_le
    exact Nat.lt_of_le_of_lt this (h1 ▸ hl)
  · cases e1

theorem alloc_within (n : Nat) : (OutBuf.alloc n).Within n := ⟨rfl, Nat.zero_le _⟩

theorem isoLoop_within {n : Nat} {t : Table} : ∀ {s : Bytes} {o o' : OutBuf}, o.Within n → cleanIsoLoop t o s = .ok o' → o'.Within n
  | [], _, _, h, e => by cases e; exact h
  | c :: s, o, o', h, e => by
    unfold cleanIsoLoop at e
    split at e
    · obtain ⟨o1, e1, e2⟩ := Res.bind_eq_ok e
      exact isoLoop_within (push_within h e1) e2
    · split at e
      · obtain ⟨o1, e1, e2⟩ := Res.bind_eq_ok e
        exact isoLoop_within (pushStr_within h e1) e2
      · split at e
        · obtain ⟨o1, e1, e2⟩ := Res.bind_eq_ok e
          exact isoLoop_within (push_within h e1) e2
        · obtain ⟨o1, e1, e2⟩ := Res.bind_eq_ok e
          exact isoLoop_within (pushStr_within h e1) e2

theorem safeLoop_within {n : Nat} {P : Platform} {t : Table} : ∀ {s : Bytes} {o o' : OutBuf}, o.Within n → cleanSafeLoop P t o s = .ok o' → o'.Within n
  | [], _, _, h, e => by cases e; exact h
  | c :: s, o, o', h, e => by
    unfold cleanSafeLoop at e
    split at e
    · obtain ⟨o1, e1, e2⟩ := Res.bind_eq_ok e
      exact safeLoop_within (pushStr_within h e1) e2
    · split at e
      · obtain ⟨o1, e1, e2⟩ := Res.bind_eq_ok e
        exact safeLoop_within (push_within h e1) e2
      · obtain ⟨o1, e1, e2⟩ := Res.bind_eq_ok e
        exact safeLoop_within (pushStr_within h e1) e2

theorem utf8Loop_within {n : Nat} {t : Table} : ∀ {m : Nat} {s : Bytes} {o o' : OutBuf}, o.Within n → cleanUtf8Loop t m o s = .ok o' → o'.Within n
  | 0, [], _, _, h, e => by cases e; exact h
  | _ + 1, [], _, _, h, e => by cases e; exact h
  | 0, _ :: _, _, _, _, e => by cases e
  | m + 1, c :: s, o, o', h, e => by
    unfold cleanUtf8Loop at e
    split at e
    · obtain ⟨o1, e1, e2⟩ := Res.bind_eq_ok e
      exact utf8Loop_within (push_within h e1) e2
    · split at e
      · obtain ⟨o1, e1, e2⟩ := Res.bind_eq_ok e
        exact utf8Loop_within (push_within h e1) e2
      · split at e
        · obtain ⟨o1, e1, e2⟩ := Res.bind_eq_ok e
          exact utf8Loop_within (pushStr_within h e1) e2
        · obtain ⟨o1, e1, e2⟩ := Res.bind_eq_ok e
          exact utf8Loop_within (pushStr_within h e1) e2

theorem uncgiLoop_within {n : Nat} {P : Platform} : ∀ {m : Nat} {s : Bytes} {o o' : OutBuf}, o.Within n → cleanUncgiLoop P m o s = .ok o' → o'.Within n
  | 0, [], _, _, h, e => by cases e; exact h
  | _ + 1, [], _, _, h, e => by cases e; exact h
  | 0, _ :: _, _, _, _, e => by cases e
  | m + 1, c :: s, o, o', h, e => by
    unfold cleanUncgiLoop at e
    obtain ⟨b, _, e⟩ := Res.bind_eq_ok e
    split at e
    · obtain ⟨o1, e1, e2⟩ := Res.bind_eq_ok e
      exact uncgiLoop_within (push_within h e1) e2
    · split at e
      · obtain ⟨o1, e1, e2⟩ := Res.bind_eq_ok e
        exact uncgiLoop_within (push_within h e1) e2
      · obtain ⟨o1, e1, e2⟩ := Res.bind_eq_ok e
        exact uncgiLoop_within (push_within h e1) e2

theorem lowerLoop_within {n : Nat} {P : Platform} : ∀ {s : Bytes} {o o' : OutBuf}, o.Within n → cleanLowerLoop P o s = .ok o' → o'.Within n
  | [], _, _, h, e => by cases e; exact h
  | c :: s, o, o', h, e => by
    unfold cleanLowerLoop at e
    obtain ⟨b, _, e⟩ := Res.bind_eq_ok e
    split at e
    · obtain ⟨o1, e1, e2⟩ := Res.bind_eq_ok e
      exact lowerLoop_within (push_within h e1) e2
    · obtain ⟨o1, e1, e2⟩ := Res.bind_eq_ok e
      exact lowerLoop_within (push_within h e1) e2

theorem wipeupLoop_within {n : Nat} {q : Bytes} : ∀ {s : Bytes} {c : Option Nat} {o o' : OutBuf}, o.Within n →
    cleanWipeupLoop q o c s = .ok o' → o'.Within n
  | [], c, o, o', h, e => by
    unfold cleanWipeupLoop at e
    split at e
    · cases e; exact h
    · exact push_within h e
  | b :: s, c, o, o', h, e => by
    unfold cleanWipeupLoop at e
    split at e
    · exact wipeupLoop_within h e
    · cases c with
      | none =>
        obtain ⟨o2, e3, e4⟩ := Res.bind_eq_ok (show (o.push b >>= fun o => cleanWipeupLoop q o none s) = .ok o' from e)
        exact wipeupLoop_within (push_within h e3) e4
      | some i =>
        obtain ⟨o1, e1, e2⟩ := Res.bind_eq_ok (show (o.push (q.getD i 0) >>= fun o => o.push b >>= fun o => cleanWipeupLoop q o none s) = .ok o' from e)
        obtain ⟨o2, e3, e4⟩ := Res.bind_eq_ok e2
        exact wipeupLoop_within (push_within (push_within h e1) e3) e4

/-! ### Reading a table -/

theorem readOpt_eq {h : Heap} {p : Option Addr} {d : Option Bytes} (e : h.optAt p = some d) : mReadOpt p h = .ret (.ok (d, h)) := by
  cases p with
  | none => cases e; rfl
  | some a =>
    obtain ⟨n, s, hg, rfl⟩ := Heap.optAt_some e (a := a) (by simp)
    exact Mem.bind_ok (f := fun s => pure (some s)) (Mem.text_eq hg)

theorem readRows_eq {h : Heap} : ∀ {rs : List (Nat × Option Addr)} {vs : List Row}, rs.map h.rowAt = vs.map some →
    mReadRows rs h = .ret (.ok (vs, h))
  | [], [], _ => rfl
  | [], _ :: _, e => by cases e
  | _ :: _, [], e => by cases e
  | r :: rs, v :: vs, e => by
    simp only [List.map_cons, List.cons.injEq] at e
    obtain ⟨h1, h2⟩ := Heap.rowAt_some e.1
    unfold mReadRows
    rw [Mem.bind_ok (readOpt_eq h2), Mem.bind_ok (readRows_eq e.2), ← h1]
    rfl

theorem readTable_eq {h : Heap} {t ra : Addr} {dp : Option Addr} {rs : List (Nat × Option Addr)} {T : Table} (l : TableAt h t ra dp rs T) :
    mReadTable t h = .ret (.ok (T, h)) := by
  unfold mReadTable
  rw [Mem.bind_ok (loadTable_eq l.table)]
  simp only
  rw [Mem.bind_ok (loadRows_eq l.rows), Mem.bind_ok (readRows_eq l.content), Mem.bind_ok (readOpt_eq l.dflt)]
  rfl

/-! ### Representation of filters and sequences -/

/-- A block that keeps its content: everything but the structures of file lists, whose cursors move. -/
def Block.fixed : Block → Bool
  | .filelist .. => false
  | _ => true

/-- The blocks that keep their content are as before. -/
def Heap.Keeps (h h' : Heap) : Prop := ∀ x b, h.get x = some b → b.fixed = true → h'.get x = some b

theorem Heap.Keeps.refl (h : Heap) : h.Keeps h := fun _ _ e _ => e

theorem Heap.Keeps.trans {h h' h'' : Heap} (a : h.Keeps h') (b : h'.Keeps h'') : h.Keeps h'' := fun x c e f => b x c (a x c e f) f

theorem Swap.keeps {h h' : Heap} {o o' : List Addr} (s : Swap h o h' o') (ho : ∀ x, x ∈ o → ∀ b, h.get x = some b → b.fixed = false) :
    h.Keeps h' := by
  intro x b e f
  rw [s.others x (Heap.get_lt e) (fun hx => by rw [ho x hx b e] at f; cases f), e]

theorem Swap.keepsNil {h h' : Heap} {o' : List Addr} (s : Swap h [] h' o') : h.Keeps h' := s.keeps fun x hx => by cases hx

theorem Heap.Keeps.textAt {h h' : Heap} (k : h.Keeps h') {a : Addr} {s : Bytes} (e : h.textAt a = some s) : h'.textAt a = some s := by
  obtain ⟨n, hg⟩ := Heap.textAt_get e
  exact Heap.textAt_of (k _ _ hg rfl)

theorem Heap.Keeps.optAt {h h' : Heap} (k : h.Keeps h') {p : Option Addr} {d : Option Bytes} (e : h.optAt p = some d) : h'.optAt p = some d := by
  cases p with
  | none => exact e
  | some a =>
    obtain ⟨n, s, hg, rfl⟩ := Heap.optAt_some e (a := a) (by simp)
    simp only [Heap.optAt, Heap.textAt_of (k _ _ hg rfl)]
    rfl

theorem Heap.Keeps.table {h h' : Heap} (k : h.Keeps h') {t ra : Addr} {dp : Option Addr} {rs : List (Nat × Option Addr)} {T : Table}
    (l : TableAt h t ra dp rs T) : TableAt h' t ra dp rs T := by
  refine l.congr fun x hx => ?_
  rcases List.mem_cons.1 hx with rfl | hx
  · rw [k _ _ l.table rfl, l.table]
  · rcases List.mem_cons.1 hx with rfl | hx
    · rw [k _ _ l.rows rfl, l.rows]
    · obtain ⟨n, s, hg⟩ := l.text hx
      rw [k _ _ hg rfl, hg]

/-- The table of a filter, or NULL. -/
def OptTableAt (h : Heap) (p : Option Addr) (T : Option Table) : Prop :=
  match p, T with
  | none, none => True
  | some t, some T => ∃ ra dp rs, TableAt h t ra dp rs T
  | _, _ => False

theorem Heap.Keeps.optTable {h h' : Heap} (k : h.Keeps h') {p : Option Addr} {T : Option Table} (l : OptTableAt h p T) : OptTableAt h' p T := by
  cases p with
  | none => cases T <;> exact l
  | some t => cases T with
    | none => exact l
    | some T => obtain ⟨ra, dp, rs, l⟩ := l; exact ⟨ra, dp, rs, k.table l⟩

/-- The chain of filters that starts at `p`. Two chains may share filters. -/
def FiltersAt (h : Heap) : Option Addr → List Filter → Prop
  | p, [] => p = none
  | p, f :: fs => ∃ a next fn bi t, p = some a ∧
      h.get a = some (.filter next f.cleaner fn bi f.removeTrailing f.maxLength t) ∧
      h.optAt fn = some f.filename ∧ h.optAt bi = some f.builtin ∧ OptTableAt h t f.table ∧ FiltersAt h next fs

theorem Heap.Keeps.filters {h h' : Heap} (k : h.Keeps h') : ∀ {fs : List Filter} {p : Option Addr}, FiltersAt h p fs → FiltersAt h' p fs
  | [], _, l => l
  | f :: fs, _, l => by
    obtain ⟨a, next, fn, bi, t, rfl, h1, h2, h3, h4, h5⟩ := l
    exact ⟨a, next, fn, bi, t, rfl, k _ _ h1 rfl, k.optAt h2, k.optAt h3, k.optTable h4, k.filters h5⟩

/-- The sequence at `p`, or NULL. -/
def SequenceAt (h : Heap) (p : Option Addr) (q : Option Sequence) : Prop :=
  match p, q with
  | none, none => True
  | some a, some q => ∃ next nm fl src, h.get a = some (.sequence next (some nm) fl src) ∧ h.textAt nm = some q.name ∧
      h.optAt src = some q.sourceFilename ∧ FiltersAt h fl q.filters
  | _, _ => False

theorem Heap.Keeps.sequence {h h' : Heap} (k : h.Keeps h') {p : Option Addr} {q : Option Sequence} (l : SequenceAt h p q) :
    SequenceAt h' p q := by
  cases p with
  | none => cases q <;> exact l
  | some t => cases q with
    | none => exact l
    | some T =>
      obtain ⟨next, nm, fl, src, h1, h2, h3, h4⟩ := l
      exact ⟨next, nm, fl, src, k _ _ h1 rfl, k.textAt h2, k.optAt h3, k.filters h4⟩

/-! ### A chain is not longer than the heap -/

theorem length_le_of_nodup_lt : ∀ (n : Nat) (l : List Nat), l.Nodup → (∀ x, x ∈ l → x < n) → l.length ≤ n
  | 0, [], _, _ => Nat.le_refl _
  | 0, x :: _, _, h => absurd (h x (by simp)) (Nat.not_lt_zero _)
  | n + 1, l, hn, h => by
    by_cases hx : n ∈ l
    · have h1 : (l.erase n).length = l.length - 1 := List.length_erase_of_mem hx
      have h2 := length_le_of_nodup_lt n (l.erase n) (hn.erase n) fun x hx' => by
        have h3 : x ∈ l := List.mem_of_mem_erase hx'
        have h4 : x ≠ n := fun e => by subst e; exact (hn.not_mem_erase) hx'
        have := h x h3
        omega
      omega
    · have := length_le_of_nodup_lt n l hn fun x hx' => by
        have h4 : x ≠ n := fun e => by subst e; exact hx hx'
        have := h x hx'
        omega
      omega

/-- The addresses of a chain. -/
theorem FiltersAt.addrs {h : Heap} : ∀ {fs : List Filter} {p : Option Addr}, FiltersAt h p fs →
    ∃ l : List Addr, l.length = fs.length ∧ l.Nodup ∧ (∀ x, x ∈ l → x < h.length) ∧
      ∀ x, x ∈ l → ∃ fs', fs'.length ≤ fs.length ∧ FiltersAt h (some x) fs'
  | [], _, _ => ⟨[], rfl, List.nodup_nil, fun _ hx => absurd hx (by simp), fun _ hx => absurd hx (by simp)⟩
  | f :: fs, p, e => by
    have e0 := e
    obtain ⟨a, next, fn, bi, t, rfl, h1, h2, h3, h4, h5⟩ := e
    obtain ⟨l, hl, hn, hlt, hc⟩ := h5.addrs
    refine ⟨a :: l, by simp [hl], List.nodup_cons.2 ⟨?_, hn⟩, ?_, ?_⟩
    · intro ha
      obtain ⟨fs', hle, e'⟩ := hc a ha
      have det : ∀ {xs ys : List Filter} {p : Option Addr}, FiltersAt h p xs → FiltersAt h p ys → xs.length = ys.length := by
        intro xs
        induction xs with
        | nil =>
          intro ys p hx hy
          cases ys with
          | nil => rfl
          | cons y ys => obtain ⟨_, _, _, _, _, h', _⟩ := hy; rw [show p = none from hx] at h'; cases h'
        | cons x xs ih =>
          intro ys p hx hy
          obtain ⟨a1, n1, _, _, _, rfl, g1, _, _, _, r1⟩ := hx
          cases ys with
          | nil => cases (show some a1 = none from hy)
          | cons y ys =>
            obtain ⟨a2, n2, _, _, _, h', g2, _, _, _, r2⟩ := hy
            cases h'
            have := g1.symm.trans g2
            simp only [Option.some.injEq, Block.filter.injEq] at this
            rw [this.1] at r1
            simp [ih r1 r2]
      have := det e0 e'
      simp at this
      omega
    · intro x hx
      rcases List.mem_cons.1 hx with rfl | hx
      · exact Heap.get_lt h1
      · exact hlt x hx
    · intro x hx
      rcases List.mem_cons.1 hx with rfl | hx
      · exact ⟨f :: fs, Nat.le_refl _, e0⟩
      · obtain ⟨fs', hle, e'⟩ := hc x hx
        exact ⟨fs', by simp; omega, e'⟩

theorem FiltersAt.length_le {h : Heap} {fs : List Filter} {p : Option Addr} (e : FiltersAt h p fs) : fs.length ≤ h.length := by
  obtain ⟨l, hl, hn, hlt, _⟩ := e.addrs
  rw [← hl]
  exact length_le_of_nodup_lt _ _ hn hlt

/-! ### The filters -/

/-- The result is a new string, and the only new block. -/
def NewText (h : Heap) (a : Addr) (h' : Heap) (s : Bytes) : Prop := h'.textAt a = some s ∧ Swap h [] h' [a]

section

variable {A : Nat → Bool} {N : Prop}

theorem strdup_does (h : Heap) (s : Bytes) : Does A (wrappedStrdup A s) h fun a h' => NewText h a h' s :=
  Does.malloc ⟨Heap.textAt_of (Heap.get_new h _), Swap.malloc h [] _⟩

theorem malloc_fill {h : Heap} {n : Nat} {s t : Bytes} (hl : t.length < n) :
    Mem.putText h.length t (h ++ [some (Block.text n s)]) = .ret (.ok ((), (h ++ [some (Block.text n s)]).set h.length (some (Block.text n t)))) ∧
    NewText h h.length ((h ++ [some (Block.text n s)]).set h.length (some (Block.text n t))) t := by
  have g := Heap.get_new h (.text n s)
  refine ⟨Mem.putText_eq g hl, Heap.textAt_of (Heap.get_set_eq (Heap.get_lt g) _), ?_⟩
  exact (Swap.malloc h [] _).trans (Swap.store (by simp) _)

theorem emit_follows {h : Heap} {n : Nat} {loop : OutBuf → Res OutBuf} (hw : ∀ o', loop (OutBuf.alloc n) = .ok o' → o'.Within n) :
    Follows A N (NewText h) (mEmit A n loop h) (Prog.ofRes (do let o ← loop (OutBuf.alloc n); o.finish)) := by
  unfold mEmit
  refine Follows.malloc ?_
  refine Follows.ofResRet fun r hr => ?_
  obtain ⟨o, h1, h2⟩ := Res.bind_eq_ok hr
  have hl := finish_within (hw o h1) h2
  exact Follows.step (malloc_fill hl).1 (.ret _ _ _ (malloc_fill hl).2)

theorem cleanIso_follows {h : Heap} {f : Addr} {s : Bytes} {p : Option Addr} {T : Option Table} (hf : h.textAt f = some s)
    (ht : OptTableAt h p T) : Follows A N (NewText h) (mCleanIso A f p h) (Prog.ofRes (cleanIso T s)) := by
  obtain ⟨n, hf⟩ := Heap.textAt_get hf
  cases p with
  | none => cases T with
    | none => exact .exit 1
    | some T => cases ht
  | some t => cases T with
    | none => cases ht
    | some T =>
      obtain ⟨ra, dp, rs, l⟩ := ht
      unfold mCleanIso
      refine Follows.step (Mem.text_eq hf) (Follows.step (readTable_eq l) ?_)
      exact emit_follows fun o' e => isoLoop_within (alloc_within _) e

theorem cleanSafe_follows {P : Platform} {h : Heap} {f : Addr} {s : Bytes} {p : Option Addr} {T : Option Table} (hf : h.textAt f = some s)
    (ht : OptTableAt h p T) : Follows A N (NewText h) (mCleanSafe A P f p h) (Prog.ofRes (cleanSafe P T s)) := by
  obtain ⟨n, hf⟩ := Heap.textAt_get hf
  cases p with
  | none => cases T with
    | none => exact .exit 1
    | some T => cases ht
  | some t => cases T with
    | none => cases ht
    | some T =>
      obtain ⟨ra, dp, rs, l⟩ := ht
      unfold mCleanSafe
      refine Follows.step (Mem.text_eq hf) (Follows.step (readTable_eq l) ?_)
      exact emit_follows fun o' e => safeLoop_within (alloc_within _) e

theorem cleanUtf8_follows {h : Heap} {f : Addr} {s : Bytes} {p : Option Addr} {T : Option Table} (hf : h.textAt f = some s)
    (ht : OptTableAt h p T) : Follows A N (NewText h) (mCleanUtf8 A f p h) (Prog.ofRes (cleanUtf8 T s)) := by
  obtain ⟨n, hf⟩ := Heap.textAt_get hf
  cases p with
  | none => cases T with
    | none => exact .exit 1
    | some T => cases ht
  | some t => cases T with
    | none => cases ht
    | some T =>
      obtain ⟨ra, dp, rs, l⟩ := ht
      unfold mCleanUtf8
      refine Follows.step (Mem.text_eq hf) (Follows.step (readTable_eq l) ?_)
      exact emit_follows fun o' e => utf8Loop_within (alloc_within _) e

theorem cleanUncgi_follows {P : Platform} {h : Heap} {f : Addr} {s : Bytes} (hf : h.textAt f = some s) :
    Follows A N (NewText h) (mCleanUncgi A P f h) (Prog.ofRes (cleanUncgi P s)) := by
  obtain ⟨n, hf⟩ := Heap.textAt_get hf
  exact Follows.step (Mem.text_eq hf) (emit_follows fun o' e => uncgiLoop_within (alloc_within _) e)

theorem cleanLower_follows {P : Platform} {h : Heap} {f : Addr} {s : Bytes} (hf : h.textAt f = some s) :
    Follows A N (NewText h) (mCleanLower A P f h) (Prog.ofRes (cleanLower P s)) := by
  obtain ⟨n, hf⟩ := Heap.textAt_get hf
  exact Follows.step (Mem.text_eq hf) (emit_follows fun o' e => lowerLoop_within (alloc_within _) e)

theorem cleanWipeup_follows {h : Heap} {f : Addr} {s : Bytes} (hf : h.textAt f = some s) (rt : Bool) :
    Follows A N (NewText h) (mCleanWipeup A f rt h) (Prog.ofRes (cleanWipeup rt s)) := by
  obtain ⟨n, hf⟩ := Heap.textAt_get hf
  unfold mCleanWipeup
  refine Follows.step (Mem.text_eq hf) (Follows.malloc (Follows.malloc ?_))
  have g2 := Heap.get_new (h ++ [some (.text ((wipeLead s).length + 1) [])]) (.text ((wipeSearch rt).length + 1) (wipeSearch rt))
  have g1 := Heap.get_append_some (x := [some (.text ((wipeSearch rt).length + 1) (wipeSearch rt))])
    (Heap.get_new h (.text ((wipeLead s).length + 1) []))
  have s1 := Swap.malloc h [] (.text ((wipeLead s).length + 1) [])
  have s2 := Swap.malloc (h ++ [some (.text ((wipeLead s).length + 1) [])]) [h.length] (.text ((wipeSearch rt).length + 1) (wipeSearch rt))
  have s3 := s1.trans s2
  have hne : h.length ≠ (h ++ [some (Block.text ((wipeLead s).length + 1) [])]).length := by simp
  clear s1 s2
  generalize (h ++ [some (Block.text ((wipeLead s).length + 1) [])]).length = b at *
  generalize (h ++ [some (Block.text ((wipeLead s).length + 1) [])] ++ [some (Block.text ((wipeSearch rt).length + 1) (wipeSearch rt))]) = h2 at *
  refine Follows.step (Mem.text_eq g2) ?_
  refine Follows.ofResRet fun r hr => ?_
  obtain ⟨o, h1, h2'⟩ := Res.bind_eq_ok hr
  have hl := finish_within (wipeupLoop_within (alloc_within _) h1) h2'
  refine Follows.step (Mem.putText_eq g1 hl) (Follows.step (Mem.free_eq (by rw [Heap.get_set_ne (Ne.symm hne)]; exact g2)) ?_)
  refine .ret _ _ _ ⟨Heap.textAt_of (n := (wipeLead s).length + 1) ?_, ?_⟩
  · rw [Heap.get_set_ne hne, Heap.get_set_eq (Heap.get_lt g1)]
  · refine s3.trans ((Swap.store (by simp) _).trans (Swap.free (a := b) (by simp) (by simpa using Heap.get_lt g2) _ ?_))
    intro x
    simp only [List.mem_cons, List.not_mem_nil, or_false]
    constructor
    · rintro rfl; exact ⟨.inr rfl, hne⟩
    · rintro ⟨rfl | rfl, h2⟩
      · exact absurd rfl h2
      · rfl

theorem cleanMaxLength_follows {P : Platform} {h : Heap} {f : Addr} {s : Bytes} (hf : h.textAt f = some s) (m : Nat) :
    Follows A N (NewText h) (mCleanMaxLength A P f m h) (Prog.ofRes (cleanMaxLength P m s)) := by
  obtain ⟨n, hf⟩ := Heap.textAt_get hf
  unfold mCleanMaxLength cleanMaxLength
  refine Follows.step (Mem.text_eq hf) ?_
  generalize (if m = 0 then 256 else m) = M
  simp only
  by_cases hM : s.length ≤ M
  · rw [if_pos hM, if_pos hM]
    exact Follows.ofDoes (strdup_does h s) fun _ _ hp => hp
  · rw [if_neg hM, if_neg hM]
    refine Follows.malloc ?_
    have hl : (s.take M).length < M + 1 := by rw [List.length_take]; omega
    obtain ⟨e1, n1⟩ := malloc_fill (h := h) (n := M + 1) (s := []) hl
    refine Follows.step e1 ?_
    have gt : Heap.get ((h ++ [some (Block.text (M + 1) [])]).set h.length (some (Block.text (M + 1) (s.take M)))) h.length =
        some (.text (M + 1) (s.take M)) := Heap.get_set_eq (by simp) _
    generalize (h ++ [some (Block.text (M + 1) [])]).set h.length (some (Block.text (M + 1) (s.take M))) = h1 at *
    cases strrchrIdx 0x2E s with
    | none => exact .ret _ _ _ n1
    | some ext0 =>
      simp only
      by_cases h1' : (s.drop ext0).length = 1
      · rw [if_pos h1', if_pos h1']; exact .ret _ _ _ n1
      · rw [if_neg h1', if_neg h1']
        refine Follows.ofRes' fun ext _ => ?_
        by_cases he : M ≤ (s.drop ext).length
        · rw [if_pos he, if_pos he]
          refine Follows.step (Mem.free_eq gt) ?_
          refine Follows.ofDoes (strdup_does _ s) ?_
          rintro a h' ⟨ha, hs⟩
          refine ⟨ha, n1.2.trans ?_⟩
          refine (Swap.free (a := h.length) (by simp) (Heap.get_lt gt) [] (fun x => by simp)).trans hs
        · rw [if_neg he, if_neg he]
          refine Follows.step (Mem.text_eq gt) ?_
          have hl2 : ((s.take M).take (M - (s.drop ext).length) ++ s.drop ext).length < M + 1 := by
            rw [List.length_append, List.length_take, List.length_take]; omega
          refine Follows.step (Mem.putText_eq gt hl2) (.ret _ _ _ ⟨Heap.textAt_of (Heap.get_set_eq (Heap.get_lt gt) _), ?_⟩)
          exact n1.2.trans (Swap.store (by simp) _)

/-! ### filter.c and sequence.c -/

theorem loadFilter_eq {h : Heap} {a : Addr} {next : Option Addr} {c : Cleaner} {fn bi : Option Addr} {rt : Bool} {ml : Nat} {t : Option Addr}
    (e : h.get a = some (.filter next c fn bi rt ml t)) : Mem.loadFilter a h = .ret (.ok ((next, c, rt, ml, t), h)) := by
  have : (Mem.load a >>= fun b => match b with
      | .filter next cleaner _ _ removeTrailing maxLength table => Mem.pure (next, cleaner, removeTrailing, maxLength, table)
      | _ => Mem.fault .pointer) h = .ret (.ok ((next, c, rt, ml, t), h)) := by rw [Mem.bind_ok (Mem.load_eq e)]; rfl
  exact this

theorem loadSequence_eq {h : Heap} {a : Addr} {next nm fl src : Option Addr} (e : h.get a = some (.sequence next nm fl src)) :
    Mem.loadSequence a h = .ret (.ok ((next, nm, fl, src), h)) := by
  have : (Mem.load a >>= fun b => match b with
      | .sequence next name filters source => Mem.pure (next, name, filters, source)
      | _ => Mem.fault .pointer) h = .ret (.ok ((next, nm, fl, src), h)) := by rw [Mem.bind_ok (Mem.load_eq e)]; rfl
  exact this

/-- What `filter_run` does on a name. -/
def runFilter (P : Platform) (f : Filter) (s : Bytes) : Res Bytes :=
  match f.cleaner with
  | .iso8859_1 => cleanIso f.table s
  | .lower => cleanLower P s
  | .maxLength => cleanMaxLength P f.maxLength s
  | .safe => cleanSafe P f.table s
  | .uncgi => cleanUncgi P s
  | .utf8 => cleanUtf8 f.table s
  | .wipeup => cleanWipeup f.removeTrailing s

theorem filterRun_some (P : Platform) (f : Filter) (s : Bytes) : filterRun P f (some s) = (runFilter P f s >>= fun r => .ok (some r)) := by
  unfold filterRun runFilter
  cases f.cleaner <;> rfl

theorem filterRun_follows {P : Platform} {h : Heap} {a w : Addr} {next fn bi t : Option Addr} {f : Filter} {s : Bytes}
    (hw : h.textAt w = some s) (hg : h.get a = some (.filter next f.cleaner fn bi f.removeTrailing f.maxLength t))
    (ht : OptTableAt h t f.table) : Follows A N (NewText h) (mFilterRun A P a w h) (Prog.ofRes (runFilter P f s)) := by
  unfold mFilterRun runFilter
  refine Follows.step (loadFilter_eq hg) ?_
  cases f.cleaner with
  | iso8859_1 => exact cleanIso_follows hw ht
  | lower => exact cleanLower_follows hw
  | maxLength => exact cleanMaxLength_follows hw _
  | safe => exact cleanSafe_follows hw ht
  | uncgi => exact cleanUncgi_follows hw
  | utf8 => exact cleanUtf8_follows hw ht
  | wipeup => exact cleanWipeup_follows hw _

theorem runFilters_follows {P : Platform} {h0 : Heap} : ∀ {fs : List Filter} {n : Nat} {h : Heap} {p : Option Addr} {w : Addr} {s : Bytes},
    fs.length ≤ n → FiltersAt h0 p fs → NewText h0 w h s →
    Follows A N (fun a h' b => ∃ r, b = some r ∧ NewText h0 a h' r) (mRunFilters A P n p w h) (Prog.ofRes (runFilters P fs (some s)))
  | [], n, h, p, w, s, _, hp, hw => by
    cases (show p = none from hp)
    cases n <;> exact .ret _ _ _ ⟨s, rfl, hw⟩
  | f :: fs, 0, h, p, w, s, hn, _, _ => absurd hn (by simp)
  | f :: fs, n + 1, h, p, w, s, hn, hp, hw => by
    obtain ⟨a, next, fn, bi, t, rfl, h1, h2, h3, h4, h5⟩ := hp
    have k := hw.2.keepsNil
    unfold mRunFilters runFilters
    rw [filterRun_some]
    have e : ((runFilter P f s >>= fun r => Res.ok (some r)) >>= fun hold => runFilters P fs hold) =
        (runFilter P f s >>= fun r => runFilters P fs (some r)) := by cases runFilter P f s <;> rfl
    rw [e, ofRes_bind]
    refine Follows.bind (filterRun_follows hw.1 (k _ _ h1 rfl) (k.optTable h4)) ?_
    rintro v h' r ⟨hv, hs⟩
    obtain ⟨m, gw⟩ := Heap.textAt_get hw.1
    have gw' : h'.get w = some (.text m s) := by rw [hs.others w (Heap.get_lt gw) (by simp), gw]
    have hne : v ≠ w := by
      intro e
      subst e
      rcases hs.source v (by simp) with h' | h'
      · cases h'
      · have := Heap.get_lt gw; omega
    refine Follows.step (Mem.free_eq gw') ?_
    have sw : Swap h0 [] (h'.set w none) [v] := by
      refine (hw.2.trans ((hs.frame [w]).perm (p := [w]) (p' := [v, w]) (fun x => by simp) (fun x => by simp))).trans
        (Swap.free (a := w) (by simp) (Heap.get_lt gw') _ ?_)
      intro x
      simp only [List.mem_cons, List.not_mem_nil, or_false]
      constructor
      · rintro rfl; exact ⟨.inl rfl, hne⟩
      · rintro ⟨rfl | rfl, h2⟩
        · rfl
        · exact absurd rfl h2
    refine Follows.step (loadFilter_eq (sw.keepsNil _ _ h1 rfl)) ?_
    refine runFilters_follows (by simpa using hn) h5 ⟨?_, sw⟩
    rw [Heap.textAt_congr (Heap.get_set_ne hne _), hv]

/-- `sequence_run_filters` gives a new string, and frees what else it allocates. -/
theorem sequenceRunFilters_follows {P : Platform} {h : Heap} {q w : Option Addr} {Q : Option Sequence} {s : Option Bytes}
    (hq : SequenceAt h q Q) (hw : h.optAt w = some s) :
    Follows A N (fun p h' b => h'.optAt p = some b ∧ Swap h [] h' p.toList) (mSequenceRunFilters A P q w h)
      (Prog.ofRes (sequenceRunFilters P Q s)) := by
  cases q with
  | none => cases Q with
    | none => exact .exit 1
    | some Q => cases hq
  | some a => cases Q with
    | none => cases hq
    | some Q =>
      obtain ⟨next, nm, fl, src, h1, h2, h3, h4⟩ := hq
      cases w with
      | none => cases hw; exact .ret _ _ _ ⟨rfl, Swap.refl _ _⟩
      | some f =>
        obtain ⟨m, t, hg, rfl⟩ := Heap.optAt_some hw (a := f) (by simp)
        unfold mSequenceRunFilters sequenceRunFilters
        refine Follows.step (loadSequence_eq h1) (Follows.step (Mem.text_eq hg) (Follows.does (strdup_does h t) ?_))
        intro w h' hn
        refine Follows.step (a := h'.length) (h' := h') rfl ?_
        refine Follows.bindRet (runFilters_follows (Nat.le_trans h4.length_le hn.2.grows) h4 hn) ?_
        rintro x h'' b ⟨r, rfl, hx⟩
        refine .ret _ _ _ ⟨?_, hx.2⟩
        simp only [Heap.optAt, hx.1]
        rfl

end

end Detox
