import Verif.Model.MemoryLists
import Verif.Lemmas.Memory

/-!
# File lists on the heap
-/

set_option autoImplicit false

namespace Detox

/-- The string at an address. -/
def Heap.textAt (h : Heap) (a : Addr) : Option Bytes :=
  match h.get a with
  | some (.text _ s) => some s
  | _ => none

theorem Heap.textAt_get {h : Heap} {a : Addr} {s : Bytes} (e : h.textAt a = some s) : ∃ n, h.get a = some (.text n s) := by
  unfold Heap.textAt at e
  split at e
  · next n t h1 => cases e; exact ⟨n, h1⟩
  · cases e

theorem Heap.textAt_of {h : Heap} {a : Addr} {n : Nat} {s : Bytes} (e : h.get a = some (.text n s)) : h.textAt a = some s := by
  unfold Heap.textAt
  rw [e]

theorem Heap.textAt_congr {h h' : Heap} {a : Addr} (e : h'.get a = h.get a) : h'.textAt a = h.textAt a := by
  unfold Heap.textAt
  rw [e]

/-- The strings at several addresses. -/
def Strings (h : Heap) (qs : List Addr) (ws : List Bytes) : Prop := qs.map h.textAt = ws.map some

theorem Strings.length {h : Heap} {qs : List Addr} {ws : List Bytes} (e : Strings h qs ws) : qs.length = ws.length := by
  have := congrArg List.length e
  simpa using this

theorem Strings.mem {h : Heap} {qs : List Addr} {ws : List Bytes} (e : Strings h qs ws) {q : Addr} (hq : q ∈ qs) :
    ∃ n s, h.get q = some (.text n s) := by
  have h1 : h.textAt q ∈ qs.map h.textAt := List.mem_map_of_mem hq
  rw [e] at h1
  obtain ⟨s, _, h2⟩ := List.mem_map.1 h1
  obtain ⟨n, h3⟩ := Heap.textAt_get h2.symm
  exact ⟨n, s, h3⟩

theorem Strings.congr {h h' : Heap} {qs : List Addr} {ws : List Bytes} (e : Strings h qs ws) (hh : ∀ q, q ∈ qs → h'.get q = h.get q) :
    Strings h' qs ws := by
  unfold Strings at *
  rw [← e]
  exact List.map_congr_left fun q hq => Heap.textAt_congr (hh q hq)

theorem Strings.lt {h : Heap} {qs : List Addr} {ws : List Bytes} (e : Strings h qs ws) {q : Addr} (hq : q ∈ qs) : q < h.length := by
  obtain ⟨_, _, h1⟩ := e.mem hq
  exact Heap.get_lt h1

/-- At `a` is a file list with the names `ws`; the next one is number `n`. `fa` is the block of the pointers, `qs` are the strings. -/
structure ListAt (h : Heap) (a fa : Addr) (qs : List Addr) (ws : List Bytes) (n : Nat) : Prop where
  list : ∃ k, h.get a = some (.filelist (some fa) (qs.length + k) qs.length n) ∧
    h.get fa = some (.slots (qs.map some ++ List.replicate k none))
  strings : Strings h qs ws
  nodup : qs.Nodup
  cursor : n ≤ ws.length

/-- The blocks of a file list. -/
def listBlocks (a fa : Addr) (qs : List Addr) : List Addr := a :: fa :: qs

theorem ne_of_mem_of_not_mem {x y : Addr} {l : List Addr} (hx : x ∈ l) (hy : y ∉ l) : x ≠ y := by
  rintro rfl
  exact hy hx

theorem ListAt.ne {h : Heap} {a fa : Addr} {qs : List Addr} {ws : List Bytes} {n : Nat} (l : ListAt h a fa qs ws n) :
    a ≠ fa ∧ a ∉ qs ∧ fa ∉ qs := by
  obtain ⟨⟨k, h1, h2⟩, h3, _, _⟩ := l
  refine ⟨?_, ?_, ?_⟩
  · rintro rfl; rw [h1] at h2; cases h2
  · intro hc; obtain ⟨_, _, h4⟩ := h3.mem hc; rw [h1] at h4; cases h4
  · intro hc; obtain ⟨_, _, h4⟩ := h3.mem hc; rw [h2] at h4; cases h4

theorem ListAt.congr {h h' : Heap} {a fa : Addr} {qs : List Addr} {ws : List Bytes} {n : Nat} (l : ListAt h a fa qs ws n)
    (hh : ∀ x, x ∈ listBlocks a fa qs → h'.get x = h.get x) : ListAt h' a fa qs ws n := by
  obtain ⟨⟨k, h1, h2⟩, h3, h4, h5⟩ := l
  refine ⟨⟨k, ?_, ?_⟩, h3.congr fun q hq => hh q ?_, h4, h5⟩
  · rw [hh a (by simp [listBlocks]), h1]
  · rw [hh fa (by simp [listBlocks]), h2]
  · simp [listBlocks, hq]

theorem loadFilelist_eq {h : Heap} {a : Addr} {files : Option Addr} {max count ptr : Nat}
    (e : h.get a = some (.filelist files max count ptr)) : Mem.loadFilelist a h = .ret (.ok ((files, max, count, ptr), h)) := by
  have : (Mem.load a >>= fun b => match b with | .filelist files max count ptr => Mem.pure (files, max, count, ptr) | _ => Mem.fault .pointer) h =
      .ret (.ok ((files, max, count, ptr), h)) := by rw [Mem.bind_ok (Mem.load_eq e)]; rfl
  exact this

theorem loadSlots_eq {h : Heap} {a : Addr} {ps : List (Option Addr)} (e : h.get a = some (.slots ps)) :
    Mem.loadSlots (some a) h = .ret (.ok (ps, h)) := by
  have : (Mem.load a >>= fun b => match b with | .slots ps => Mem.pure ps | _ => Mem.fault .pointer) h = .ret (.ok (ps, h)) := by
    rw [Mem.bind_ok (Mem.load_eq e)]; rfl
  exact this

theorem deref_eq (a : Addr) (h : Heap) : Mem.deref (some a) h = .ret (.ok (a, h)) := rfl

theorem filelistInit_does (A : Nat → Bool) (h : Heap) :
    Does A (mFilelistInit A) h fun a h' => ∃ fa, ListAt h' a fa [] [] 0 ∧ Swap h [] h' (listBlocks a fa []) := by
  unfold mFilelistInit
  refine Does.bind (P := fun l h1 => l = h.length ∧ h1 = h ++ [some (.filelist none 0 0 0)]) (Does.malloc ⟨rfl, rfl⟩) ?_
  rintro l h1 ⟨rfl, rfl⟩
  refine Does.bind (P := fun fs h2 => fs = h.length + 1 ∧
    h2 = h ++ [some (.filelist none 0 0 0)] ++ [some (.slots (List.replicate filelistChunk none))]) (Does.malloc ⟨by simp, rfl⟩) ?_
  rintro fs h2 ⟨rfl, rfl⟩
  have g1 : Heap.get (h ++ [some (.filelist none 0 0 0)]) h.length = some (.filelist none 0 0 0) := Heap.get_new _ _
  have g2 := Heap.get_append_some (x := [some (.slots (List.replicate filelistChunk none))]) g1
  have g3 : Heap.get (h ++ [some (.filelist none 0 0 0)] ++ [some (.slots (List.replicate filelistChunk none))]) (h.length + 1) =
      some (.slots (List.replicate filelistChunk none)) := by
    have := Heap.get_new (h ++ [some (.filelist none 0 0 0)]) (.slots (List.replicate filelistChunk none))
    rwa [show (h ++ [some (Block.filelist none 0 0 0)]).length = h.length + 1 by simp] at this
  refine Does.step (Mem.store_eq g2 _) (Does.ret rfl ⟨h.length + 1, ⟨⟨filelistChunk, ?_, ?_⟩, rfl, List.nodup_nil, Nat.le_refl _⟩, ?_⟩)
  · rw [Heap.get_set_eq (Heap.get_lt g2)]
    simp
  · rw [Heap.get_set_ne (Nat.succ_ne_self _), g3]
    rfl
  · have s1 := Swap.malloc h [] (.filelist none 0 0 0)
    have s2 := Swap.malloc (h ++ [some (.filelist none 0 0 0)]) [h.length] (.slots (List.replicate filelistChunk none))
    rw [show (h ++ [some (Block.filelist none 0 0 0)]).length = h.length + 1 by simp] at s2
    refine ((s1.trans s2).trans (Swap.store (a := h.length) (by simp) _)).perm (fun _ => Iff.rfl) (fun x => ?_)
    simp [listBlocks, or_comm]

theorem filelistCount_eq {h : Heap} {a fa : Addr} {qs : List Addr} {ws : List Bytes} {n : Nat} (l : ListAt h a fa qs ws n) :
    mFilelistCount (some a) h = .ret (.ok (ws.length, h)) := by
  obtain ⟨⟨k, h1, h2⟩, h3, h4, h5⟩ := l
  change (Mem.loadFilelist a >>= fun x => Mem.pure x.2.2.1) h = _
  rw [Mem.bind_ok (loadFilelist_eq h1), ← h3.length]
  rfl

/-- Growing leaves everything where it is, but for the block of pointers. -/
theorem filelistGrow_does {A : Nat → Bool} {h : Heap} {a fa : Addr} {qs : List Addr} {ws : List Bytes} {n : Nat}
    (l : ListAt h a fa qs ws n) : Does A (mFilelistGrow A a) h fun _ h' => ∃ fa', ListAt h' a fa' qs ws n ∧
      (∃ k, h'.get a = some (.filelist (some fa') (qs.length + (k + 1)) qs.length n)) ∧
      Swap h (listBlocks a fa qs) h' (listBlocks a fa' qs) := by
  have ne := l.ne
  obtain ⟨⟨k, h1, h2⟩, h3, h4, h5⟩ := l
  unfold mFilelistGrow
  refine Does.step (loadFilelist_eq h1) ?_
  simp only
  cases k with
  | succ k =>
    rw [if_neg (by omega)]
    exact Does.ret rfl ⟨fa, ⟨⟨k + 1, h1, h2⟩, h3, h4, h5⟩, ⟨k, h1⟩, Swap.refl _ _⟩
  | zero =>
    rw [if_pos (by omega)]
    refine Does.bind (P := fun x h' => x = h.length ∧ h' = h ++ [some (.slots (List.replicate (qs.length + 0 + filelistChunk) none))])
      (Does.malloc ⟨rfl, rfl⟩) ?_
    rintro x h' ⟨rfl, rfl⟩
    have g1 := Heap.get_append_some (x := [some (.slots (List.replicate (qs.length + 0 + filelistChunk) none))]) h1
    have g2 := Heap.get_append_some (x := [some (.slots (List.replicate (qs.length + 0 + filelistChunk) none))]) h2
    have g3 := Heap.get_new h (.slots (List.replicate (qs.length + 0 + filelistChunk) none))
    have s1 := Swap.malloc h (listBlocks a fa qs) (.slots (List.replicate (qs.length + 0 + filelistChunk) none))
    have gq : Strings (h ++ [some (.slots (List.replicate (qs.length + 0 + filelistChunk) none))]) qs ws :=
      h3.congr fun q hq => Heap.get_append_old (h3.lt hq)
    have ha := Heap.get_lt h1
    have hfa := Heap.get_lt h2
    have hq : ∀ q, q ∈ qs → q < h.length := fun q hq => h3.lt hq
    generalize h ++ [some (Block.slots (List.replicate (qs.length + 0 + filelistChunk) none))] = h1 at *
    refine Does.step (loadSlots_eq g2) ?_
    rw [if_neg (by simp)]
    refine Does.step (Mem.store_eq g3 _) ?_
    refine Does.step (deref_eq fa _) ?_
    have n1 : fa ≠ h.length := Nat.ne_of_lt hfa
    have n2 : a ≠ h.length := Nat.ne_of_lt ha
    have n3 : ∀ q, q ∈ qs → q ≠ h.length := fun q hq' => Nat.ne_of_lt (hq q hq')
    refine Does.step (Mem.free_eq (h := h1.set h.length _) (a := fa) (by rw [Heap.get_set_ne n1]; exact g2)) ?_
    have e1 := Heap.get_lt g1
    have e3 := Heap.get_lt g3
    refine Does.ret (Mem.store_eq (a := a) (by rw [Heap.get_set_ne ne.1, Heap.get_set_ne n2]; exact g1) _) ?_
    have etake : (qs.map some ++ List.replicate 0 (none : Option Addr)).take qs.length = qs.map some := by
      rw [List.take_append_of_le_length (by simp)]
      rw [List.take_of_length_le (by simp)]
    have el : qs.length + 0 + filelistChunk - qs.length = 15 + 1 := by
      have : filelistChunk = 16 := rfl
      omega
    rw [etake, el]
    refine ⟨h.length, ⟨⟨15 + 1, ?_, ?_⟩, ?_, h4, h5⟩, ⟨15, ?_⟩, ?_⟩
    · rw [Heap.get_set_eq (by simpa using e1)]; rfl
    · rw [Heap.get_set_ne (Ne.symm n2), Heap.get_set_ne (Ne.symm n1), Heap.get_set_eq e3]
    · refine gq.congr fun q hq' => ?_
      rw [Heap.get_set_ne (ne_of_mem_of_not_mem hq' ne.2.1), Heap.get_set_ne (ne_of_mem_of_not_mem hq' ne.2.2), Heap.get_set_ne (n3 q hq')]
    · rw [Heap.get_set_eq (by simpa using e1)]; rfl
    · refine s1.trans ((Swap.store (by simp) _).trans ((Swap.free (a := fa) (o' := listBlocks a h.length qs) ?_ ?_ ?_).trans (Swap.store ?_ _)))
      · simp [listBlocks]
      · simpa using Heap.get_lt g2
      · intro x
        simp only [listBlocks, List.mem_cons]
        constructor
        · rintro (rfl | rfl | h')
          · exact ⟨by simp, ne.1⟩
          · exact ⟨by simp, Ne.symm n1⟩
          · exact ⟨by simp [h'], fun e => ne.2.2 (e ▸ h')⟩
        · rintro ⟨h1 | h1 | h1 | h1, h2⟩
          · exact .inr (.inl h1)
          · exact .inl h1
          · exact absurd h1 h2
          · exact .inr (.inr h1)
      · simp [listBlocks]

theorem filelistPut_does {A : Nat → Bool} {h : Heap} {a fa : Addr} {qs : List Addr} {ws : List Bytes} {n : Nat}
    (l : ListAt h a fa qs ws n) (w : Bytes) : Does A (mFilelistPut A (some a) w) h fun _ h' => ∃ fa' q,
      ListAt h' a fa' (qs ++ [q]) (ws ++ [w]) 0 ∧ Swap h (listBlocks a fa qs) h' (listBlocks a fa' (qs ++ [q])) := by
  unfold mFilelistPut
  refine Does.bind (filelistGrow_does l) ?_
  rintro _ h1 ⟨fa', l', ⟨k, g0⟩, s1⟩
  have ne := l'.ne
  obtain ⟨⟨k', g1, g2⟩, h3, h4, h5⟩ := l'
  have ek : k' = k + 1 := by
    have h' := g0.symm.trans g1
    simp only [Option.some.injEq, Block.filelist.injEq] at h'
    omega
  subst ek
  unfold wrappedStrdup
  refine Does.bind (P := fun x h' => x = h1.length ∧ h' = h1 ++ [some (.text (w.length + 1) w)]) (Does.malloc ⟨rfl, rfl⟩) ?_
  rintro x h' ⟨rfl, rfl⟩
  have s2 := Swap.malloc h1 (listBlocks a fa' qs) (.text (w.length + 1) w)
  have e1 := Heap.get_append_some (x := [some (.text (w.length + 1) w)]) g1
  have e2 := Heap.get_append_some (x := [some (.text (w.length + 1) w)]) g2
  have e3 := Heap.get_new h1 (.text (w.length + 1) w)
  have e4 : Strings (h1 ++ [some (.text (w.length + 1) w)]) qs ws := h3.congr fun q hq => Heap.get_append_old (h3.lt hq)
  have hq : ∀ q, q ∈ qs → q < h1.length := fun q hq => h3.lt hq
  generalize h1 ++ [some (Block.text (w.length + 1) w)] = h2 at *
  refine Does.step (loadFilelist_eq e1) ?_
  refine Does.step (loadSlots_eq e2) ?_
  refine Does.step (deref_eq fa' _) ?_
  rw [if_pos (by simp)]
  refine Does.step (Mem.store_eq e2 _) ?_
  refine Does.ret (Mem.store_eq (a := a) (by rw [Heap.get_set_ne ne.1]; exact e1) _) ?_
  have n1 : h1.length ≠ a := fun e => by have := Heap.get_lt g1; omega
  have n2 : h1.length ≠ fa' := fun e => by have := Heap.get_lt g2; omega
  refine ⟨fa', h1.length, ⟨⟨k, ?_, ?_⟩, ?_, ?_, Nat.zero_le _⟩, ?_⟩
  · rw [Heap.get_set_eq (by simpa using Heap.get_lt e1)]
    simp [Nat.add_assoc, Nat.add_comm 1]
  · rw [Heap.get_set_ne (Ne.symm ne.1), Heap.get_set_eq (Heap.get_lt e2)]
    congr 2
    rw [List.set_append_right _ _ (by simp)]
    simp [List.replicate_succ]
  · unfold Strings
    rw [List.map_append, List.map_append]
    congr 1
    · refine e4.congr fun q hq' => ?_
      rw [Heap.get_set_ne (ne_of_mem_of_not_mem hq' ne.2.1), Heap.get_set_ne (ne_of_mem_of_not_mem hq' ne.2.2)]
    · simp only [List.map_cons, List.map_nil]
      congr 1
      refine Heap.textAt_of (n := w.length + 1) ?_
      rw [Heap.get_set_ne n1, Heap.get_set_ne n2, e3]
  · rw [List.nodup_append]
    refine ⟨h4, by simp, ?_⟩
    intro x hx y hy
    simp only [List.mem_singleton] at hy
    subst hy
    have := hq x hx
    omega
  · refine s1.trans (s2.trans ((Swap.store ?_ _).trans ((Swap.store ?_ _).perm (fun _ => Iff.rfl) (fun x => ?_))))
    · simp [listBlocks]
    · simp [listBlocks]
    · simp only [listBlocks, List.mem_cons, List.mem_append, List.not_mem_nil, or_false]
      constructor
      · rintro (h | h | h | h) <;> simp [h]
      · rintro (h | h | h | h) <;> simp [h]

theorem filelistGet_some {h : Heap} {a fa : Addr} {qs : List Addr} {ws : List Bytes} {n : Nat} (l : ListAt h a fa qs ws n)
    (hn : n < ws.length) : ∃ q h', mFilelistGet (some a) h = .ret (.ok (some q, h')) ∧ q ∈ qs ∧ h'.textAt q = some ws[n] ∧
      ListAt h' a fa qs ws (n + 1) ∧ (∃ b, h' = h.set a b) := by
  have ne := l.ne
  obtain ⟨⟨k, h1, h2⟩, h3, h4, h5⟩ := l
  have hl := h3.length
  have hnq : n < qs.length := by omega
  have eg : (qs.map some ++ List.replicate k (none : Option Addr))[n]? = some (some qs[n]) := by
    rw [List.getElem?_append_left (by simpa using hnq)]
    simp [hnq]
  have et : h.textAt qs[n] = some ws[n] := by
    have : (qs.map h.textAt)[n]? = (ws.map some)[n]? := by rw [h3]
    simpa [hnq, hn] using this
  refine ⟨qs[n], h.set a (some (.filelist (some fa) (qs.length + k) qs.length (n + 1))), ?_, List.getElem_mem _, ?_, ?_, ⟨_, rfl⟩⟩
  · unfold mFilelistGet
    simp only
    rw [Mem.bind_ok (loadFilelist_eq h1)]
    simp only
    rw [if_neg (by omega), if_neg (by omega), Mem.bind_ok (loadSlots_eq h2)]
    simp only [eg]
    rw [Mem.bind_ok (Mem.store_eq h1 _)]
    rfl
  · rw [Heap.textAt_congr (Heap.get_set_ne (ne_of_mem_of_not_mem (List.getElem_mem _) ne.2.1) _), et]
  · refine ⟨⟨k, ?_, ?_⟩, h3.congr fun q hq => Heap.get_set_ne (ne_of_mem_of_not_mem hq ne.2.1) _, h4, hn⟩
    · rw [Heap.get_set_eq (Heap.get_lt h1)]
    · rw [Heap.get_set_ne (Ne.symm ne.1), h2]

theorem filelistGet_none {h : Heap} {a fa : Addr} {qs : List Addr} {ws : List Bytes} {n : Nat} (l : ListAt h a fa qs ws n)
    (hn : ¬ n < ws.length) : ∃ h', mFilelistGet (some a) h = .ret (.ok (none, h')) ∧
      ListAt h' a fa qs ws 0 ∧ (h' = h ∨ ∃ b, h' = h.set a (some b)) := by
  have ne := l.ne
  obtain ⟨⟨k, h1, h2⟩, h3, h4, h5⟩ := l
  have hl := h3.length
  have en : n = qs.length := by omega
  unfold mFilelistGet
  simp only
  rw [Mem.bind_ok (loadFilelist_eq h1)]
  simp only
  by_cases h0 : qs.length = 0
  · rw [if_pos h0]
    refine ⟨h, rfl, ⟨⟨k, ?_, h2⟩, h3, h4, Nat.zero_le _⟩, .inl rfl⟩
    rw [h1]; congr 2; omega
  · rw [if_neg h0, if_pos en, Mem.bind_ok (Mem.store_eq h1 _)]
    refine ⟨_, rfl, ⟨⟨k, ?_, ?_⟩, h3.congr fun q hq => Heap.get_set_ne (ne_of_mem_of_not_mem hq ne.2.1) _, h4, Nat.zero_le _⟩, .inr ⟨_, rfl⟩⟩
    · rw [Heap.get_set_eq (Heap.get_lt h1)]
    · rw [Heap.get_set_ne (Ne.symm ne.1), h2]

theorem filelistReset_eq {h : Heap} {a fa : Addr} {qs : List Addr} {ws : List Bytes} {n : Nat} (l : ListAt h a fa qs ws n) :
    ∃ b, mFilelistReset (some a) h = .ret (.ok ((), h.set a (some b))) ∧ ListAt (h.set a (some b)) a fa qs ws 0 := by
  have ne := l.ne
  obtain ⟨⟨k, h1, h2⟩, h3, h4, h5⟩ := l
  refine ⟨.filelist (some fa) (qs.length + k) qs.length 0, ?_, ⟨⟨k, ?_, ?_⟩, h3.congr fun q hq => ?_, h4, Nat.zero_le _⟩⟩
  · unfold mFilelistReset
    simp only
    rw [Mem.bind_ok (loadFilelist_eq h1)]
    exact Mem.store_eq h1 _
  · rw [Heap.get_set_eq (Heap.get_lt h1)]
  · rw [Heap.get_set_ne (Ne.symm ne.1), h2]
  · exact Heap.get_set_ne (ne_of_mem_of_not_mem hq ne.2.1) _

theorem freeSlots_eq : ∀ {qs : List Addr} {h : Heap}, qs.Nodup → (∀ q, q ∈ qs → ∃ b, h.get q = some b) →
    ∃ h', mFreeSlots (qs.map some) h = .ret (.ok ((), h')) ∧ Swap h qs h' [] := by
  intro qs
  induction qs with
  | nil => intro h _ _; exact ⟨h, rfl, Swap.refl _ _⟩
  | cons q qs ih =>
    intro h hn hl
    obtain ⟨hq, hn'⟩ := List.nodup_cons.1 hn
    obtain ⟨b, hb⟩ := hl q (by simp)
    have nx : ∀ x, x ∈ qs → x ≠ q := fun x hx e => hq (e ▸ hx)
    obtain ⟨h', e, s⟩ := ih (h := h.set q none) hn' (fun x hx => by
      obtain ⟨b', hb'⟩ := hl x (by simp [hx])
      exact ⟨b', by rw [Heap.get_set_ne (nx x hx), hb']⟩)
    refine ⟨h', ?_, ?_⟩
    · simp only [List.map_cons, mFreeSlots]
      rw [Mem.bind_ok (Mem.free_eq hb), e]
    · refine (Swap.free (a := q) (by simp) (Heap.get_lt hb) qs ?_).trans s
      intro x
      simp only [List.mem_cons]
      constructor
      · intro hx; exact ⟨.inr hx, nx x hx⟩
      · rintro ⟨rfl | hx, h2⟩
        · exact absurd rfl h2
        · exact hx

theorem filelistFree_eq {h : Heap} {a fa : Addr} {qs : List Addr} {ws : List Bytes} {n : Nat} (l : ListAt h a fa qs ws n) :
    ∃ h', mFilelistFree (some a) h = .ret (.ok ((), h')) ∧ Swap h (listBlocks a fa qs) h' [] := by
  have ne := l.ne
  obtain ⟨⟨k, h1, h2⟩, h3, h4, h5⟩ := l
  unfold mFilelistFree
  simp only
  rw [Mem.bind_ok (loadFilelist_eq h1), Mem.bind_ok (loadSlots_eq h2)]
  rw [if_neg (by simp)]
  rw [List.take_append_of_le_length (by simp), List.take_of_length_le (by simp)]
  obtain ⟨h', e, s⟩ := freeSlots_eq h4 (fun q hq => by obtain ⟨n, s, h'⟩ := h3.mem hq; exact ⟨_, h'⟩)
  rw [Mem.bind_ok e, Mem.bind_ok (deref_eq fa h')]
  have g2 : h'.get fa = some _ := (s.others fa (Heap.get_lt h2) ne.2.2).trans h2
  have g1 : h'.get a = some _ := (s.others a (Heap.get_lt h1) ne.2.1).trans h1
  rw [Mem.bind_ok (Mem.free_eq g2)]
  refine ⟨_, Mem.free_eq (by rw [Heap.get_set_ne ne.1]; exact g1), ?_⟩
  have s0 : Swap h (listBlocks a fa qs) h' [a, fa] := (s.frame [a, fa]).perm (fun x => by simp only [listBlocks, List.mem_append, List.mem_cons, List.not_mem_nil, or_false]; exact ⟨fun z => by rcases z with z | z | z <;> simp [z], fun z => by rcases z with z | z | z <;> simp [z]⟩) (fun x => by simp)
  refine s0.trans ((Swap.free (a := fa) (by simp) (Heap.get_lt g2) [a] ?_).trans (Swap.free (a := a) (by simp) (by simpa using Heap.get_lt g1) [] ?_))
  · intro x
    simp only [List.mem_cons, List.not_mem_nil, or_false]
    constructor
    · rintro rfl; exact ⟨.inl rfl, ne.1⟩
    · rintro ⟨rfl | rfl, h2⟩
      · rfl
      · exact absurd rfl h2
  · intro x; simp

end Detox
