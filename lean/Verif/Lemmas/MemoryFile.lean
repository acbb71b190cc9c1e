import Verif.Lemmas.MemoryFilter
import Verif.Lemmas.Filelist
import Verif.Lemmas.Leaks

/-!
# Files and directories on the heap
-/

set_option autoImplicit false

namespace Detox

open Spec

section

variable {A : Nat → Bool} {N : Prop}

theorem Follows.bindRes {α α' β β' : Type} {m : Mem α} {f : α → Mem α'} {h : Heap} {x : Res β} {g : β → Prog β'} {P : α → Heap → β → Prop}
    {Q : α' → Heap → β' → Prop} (hm : Follows A N P (m h) (Prog.ofRes x))
    (hf : ∀ a h' b, x = .ok b → P a h' b → Follows A N Q (f a h') (g b)) :
    Follows A N Q ((m >>= f) h) ((Prog.ofRes x).bind g) := by
  have h1 : Follows A N (fun a h' b => x = .ok b ∧ P a h' b) (m h) (Prog.ofRes x) := by
    generalize m h = p at hm
    cases x with
    | ok b =>
      change Follows A N P p (.ret b) at hm
      change Follows A N _ p (.ret b)
      cases hm with
      | ret a h' _ hp => exact .ret _ _ _ ⟨rfl, hp⟩
      | memory _ hF => exact .memory _ hF
      | null _ hF hN => exact .null _ hF hN
    | exit n =>
      change Follows A N P p (.exit n) at hm
      change Follows A N _ p (.exit n)
      cases hm with
      | exit => exact .exit n
      | memory _ hF => exact .memory _ hF
      | null _ hF hN => exact .null _ hF hN
    | ub n =>
      change Follows A N P p (.ub n) at hm
      change Follows A N _ p (.ub n)
      cases hm with
      | ub => exact .ub n
      | memory _ hF => exact .memory _ hF
      | null _ hF hN => exact .null _ hF hN
    | stuck =>
      change Follows A N P p .stuck at hm
      change Follows A N _ p .stuck
      cases hm with
      | stuck => exact .stuck
      | memory _ hF => exact .memory _ hF
      | null _ hF hN => exact .null _ hF hN
  exact h1.bind fun a h' b ⟨e, hp⟩ => hf a h' b e hp

/-! ### The ignore list -/

/-- The file list at `p`, or NULL. `bs` are the blocks of the list that do not change. -/
def OptListAt (h : Heap) (p : Option Addr) (bs : List Addr) (l : Option Filelist) : Prop :=
  match p, l with
  | none, none => bs = []
  | some a, some l => ∃ fa qs ws n, bs = fa :: qs ∧ ListAt h a fa qs ws n ∧ l.Holds ws n
  | _, _ => False

theorem OptListAt.live {h : Heap} {p : Option Addr} {bs : List Addr} {l : Option Filelist} (e : OptListAt h p bs l) :
    ∀ x, x ∈ p.toList → ∃ b, h.get x = some b ∧ b.fixed = false := by
  cases p with
  | none => intro x hx; cases hx
  | some a => cases l with
    | none => cases e
    | some l =>
      obtain ⟨fa, qs, ws, n, _, ⟨⟨k, h1, h2⟩, _, _, _⟩, _⟩ := e
      intro x hx
      cases (List.mem_singleton.1 hx : x = a)
      exact ⟨_, h1, rfl⟩

theorem OptListAt.moving {h : Heap} {p : Option Addr} {bs : List Addr} {l : Option Filelist} (e : OptListAt h p bs l) :
    ∀ x, x ∈ p.toList → ∀ b, h.get x = some b → b.fixed = false := by
  intro x hx b hb
  obtain ⟨b', h1, h2⟩ := e.live x hx
  rw [h1] at hb
  cases hb
  exact h2

theorem OptListAt.still {h : Heap} {p : Option Addr} {bs : List Addr} {l : Option Filelist} (e : OptListAt h p bs l) :
    ∀ x, x ∈ bs → ∃ b, h.get x = some b ∧ b.fixed = true := by
  cases p with
  | none => cases l with
    | none => cases e; intro x hx; cases hx
    | some l => cases e
  | some a => cases l with
    | none => cases e
    | some l =>
      obtain ⟨fa, qs, ws, n, rfl, ⟨⟨k, h1, h2⟩, h3, _, _⟩, _⟩ := e
      intro x hx
      rcases List.mem_cons.1 hx with rfl | hx
      · exact ⟨_, h2, rfl⟩
      · obtain ⟨m, s, hg⟩ := h3.mem hx
        exact ⟨_, hg, rfl⟩

theorem OptListAt.congr {h h' : Heap} {p : Option Addr} {bs : List Addr} {l : Option Filelist} (e : OptListAt h p bs l)
    (hp : ∀ x, x ∈ p.toList → h'.get x = h.get x) (hb : ∀ x, x ∈ bs → h'.get x = h.get x) : OptListAt h' p bs l := by
  cases p with
  | none => cases l <;> exact e
  | some a => cases l with
    | none => cases e
    | some l =>
      obtain ⟨fa, qs, ws, n, rfl, L, H⟩ := e
      refine ⟨fa, qs, ws, n, rfl, L.congr fun x hx => ?_, H⟩
      rcases List.mem_cons.1 hx with rfl | hx
      · exact hp _ (by simp)
      · exact hb x hx

/-- A list that nobody touches. -/
theorem OptListAt.swap {h h' : Heap} {p : Option Addr} {bs : List Addr} {l : Option Filelist} (e : OptListAt h p bs l) {o o' : List Addr}
    (s : Swap h o h' o') (hp : ∀ x, x ∈ p.toList → x ∉ o) (hb : ∀ x, x ∈ bs → x ∉ o) : OptListAt h' p bs l := by
  refine e.congr (fun x hx => ?_) (fun x hx => ?_)
  · obtain ⟨b, h1, _⟩ := e.live x hx; exact s.others x (Heap.get_lt h1) (hp x hx)
  · obtain ⟨b, h1, _⟩ := e.still x hx; exact s.others x (Heap.get_lt h1) (hb x hx)

/-- One step through a file list. -/
theorem filelistGet_follows {h : Heap} {a : Addr} {bs : List Addr} {l : Filelist} (e : OptListAt h (some a) bs (some l)) :
    ∃ q h' l' w, mFilelistGet (some a) h = .ret (.ok (q, h')) ∧ filelistGet l = .ok (l', w) ∧ h'.optAt q = some w ∧
      OptListAt h' (some a) bs (some l') ∧ Swap h [a] h' [a] ∧ l'.count = l.count ∧ (∀ x, x ∈ q.toList → x ∈ bs) := by
  obtain ⟨fa, qs, ws, n, rfl, L, H⟩ := e
  have hv := filelistGet_holds H
  by_cases hn : n < ws.length
  · rw [dif_pos hn] at hv
    obtain ⟨l', e1, H'⟩ := hv
    obtain ⟨q, h', e2, hq, ht, L', ⟨b, rfl⟩⟩ := filelistGet_some L hn
    refine ⟨some q, _, l', some ws[n], e2, e1, ?_, ⟨fa, qs, ws, n + 1, rfl, L', H'⟩, ?_, ?_, ?_⟩
    · simp only [Heap.optAt, ht]; rfl
    · obtain ⟨⟨k, g, _⟩, _, _, _⟩ := L
      obtain ⟨⟨k', g', _⟩, _, _, _⟩ := L'
      cases b with
      | none => rw [Heap.get_set_eq (Heap.get_lt g)] at g'; cases g'
      | some b => exact Swap.store (by simp) _
    · rw [H'.1, H.1]
    · intro x hx; cases (List.mem_singleton.1 hx : x = q); exact List.mem_cons_of_mem _ hq
  · rw [dif_neg hn] at hv
    obtain ⟨l', e1, H'⟩ := hv
    obtain ⟨h', e2, L', hh⟩ := filelistGet_none L hn
    refine ⟨none, h', l', none, e2, e1, rfl, ⟨fa, qs, ws, 0, rfl, L', H'⟩, ?_, ?_, fun x hx => by cases hx⟩
    · rcases hh with rfl | ⟨b, rfl⟩
      · exact Swap.refl _ _
      · exact Swap.store (by simp) _
    · rw [H'.1, H.1]

theorem ignoreLoop_follows {a : Addr} {bs : List Addr} {name : Bytes} : ∀ {n : Nat} {h : Heap} {l : Filelist}, OptListAt h (some a) bs (some l) →
    Follows A N (fun b h' r => r.2 = b ∧ OptListAt h' (some a) bs (some r.1) ∧ Swap h [a] h' [a]) (mIgnoreLoop name (some a) n h)
      (Prog.ofRes (ignoreLoop name n l))
  | 0, h, l, _ => .stuck
  | n + 1, h, l, e => by
    obtain ⟨q, h', l', w, e1, e2, ho, e3, s, _⟩ := filelistGet_follows e
    unfold mIgnoreLoop ignoreLoop
    rw [e2]
    refine Follows.step e1 ?_
    simp only [Res.bind_ok]
    cases q with
    | none => cases ho; exact .ret _ _ _ ⟨rfl, e3, s⟩
    | some q =>
      obtain ⟨m, t, hg, rfl⟩ := Heap.optAt_some ho (a := q) (by simp)
      refine Follows.step (Mem.text_eq hg) ?_
      simp only
      by_cases hw : name = t
      · rw [if_pos hw, if_pos hw]; exact .ret _ _ _ ⟨rfl, e3, s⟩
      · rw [if_neg hw, if_neg hw]
        refine (ignoreLoop_follows e3).mono ?_
        rintro b h'' r ⟨r1, r2, r3⟩
        exact ⟨r1, r2, s.trans r3⟩

theorem filelistCount_opt {h : Heap} {p : Option Addr} {bs : List Addr} {l : Option Filelist} (e : OptListAt h p bs l) :
    mFilelistCount p h = .ret (.ok (filelistCount l, h)) := by
  cases p with
  | none => cases l with
    | none => rfl
    | some l => cases e
  | some a => cases l with
    | none => cases e
    | some l =>
      obtain ⟨fa, qs, ws, n, _, L, H⟩ := e
      rw [filelistCount_eq L, ← H.1]
      rfl

/-- A program on values that changes its result only. -/
theorem Follows.map {α β γ : Type} {p : Prog (Except Fault (α × Heap))} {q : Prog β} {P : α → Heap → β → Prop} {Q : α → Heap → γ → Prop}
    {g : β → γ} (hm : Follows A N P p q) (hpq : ∀ a h b, P a h b → Q a h (g b)) : Follows A N Q p (q.bind fun b => .ret (g b)) := by
  induction hm with
  | ret a h b hp => exact .ret _ _ _ (hpq a h b hp)
  | exit n => exact .exit n
  | ub u => exact .ub u
  | stuck => exact .stuck
  | lstat p k k' _ ih => exact .lstat _ _ _ ih
  | rename o n k k' _ ih => exact .rename _ _ _ _ ih
  | opendir p k k' _ ih => exact .opendir _ _ _ ih
  | readdir p k k' _ ih => exact .readdir _ _ _ ih
  | closedir p k k' _ ih => exact .closedir _ _ _ ih
  | slurp p k k' _ ih => exact .slurp _ _ _ ih
  | out s k k' _ ih => exact .out _ _ _ ih
  | err s k k' _ ih => exact .err _ _ _ ih
  | memory q hF => exact .memory _ hF
  | null q hF hN => exact .null _ hF hN

theorem ignoreFile_follows {h : Heap} {p : Option Addr} {bs : List Addr} {l : Option Filelist} (e : OptListAt h p bs l) (name : Bytes) :
    Follows A N (fun b h' r => r.2 = b ∧ OptListAt h' p bs r.1 ∧ Swap h p.toList h' p.toList) (mIgnoreFile name p h)
      (Prog.ofRes (ignoreFile name l)) := by
  unfold mIgnoreFile ignoreFile
  by_cases hd : name.head? = some 0x2E
  · rw [if_pos hd, if_pos hd]; exact .ret _ _ _ ⟨rfl, e, Swap.refl _ _⟩
  · rw [if_neg hd, if_neg hd]
    refine Follows.step (filelistCount_opt e) ?_
    cases p with
    | none => cases l with
      | none => exact .ret _ _ _ ⟨rfl, e, Swap.refl _ _⟩
      | some l => cases e
    | some a => cases l with
      | none => cases e
      | some l =>
        simp only
        rw [ofRes_bind]
        exact Follows.map (ignoreLoop_follows e) fun b h' r hr => hr

/-! ### parse_file -/

/-- Freeing one of two blocks. -/
theorem Swap.free2 {h0 h : Heap} {a b : Addr} (s : Swap h0 [] h [a, b]) (hne : a ≠ b) (hb : b < h.length) : Swap h0 [] (h.set b none) [a] := by
  refine s.trans (Swap.free (a := b) (by simp) hb _ ?_)
  intro x
  simp only [List.mem_cons, List.not_mem_nil, or_false]
  constructor
  · rintro rfl; exact ⟨.inl rfl, hne⟩
  · rintro ⟨rfl | rfl, h2⟩
    · rfl
    · exact absurd rfl h2

theorem Swap.swap2 {h0 h : Heap} {a b : Addr} (s : Swap h0 [] h [a, b]) : Swap h0 [] h [b, a] :=
  s.perm (fun _ => Iff.rfl) (fun x => by simp [or_comm])

theorem NewText.freed {h0 h : Heap} {a b : Addr} {s t : Bytes} (sw : Swap h0 [] h [a, b]) (hne : a ≠ b) (ha : h.textAt a = some s)
    (hb : h.textAt b = some t) : ∃ h', Mem.free b h = .ret (.ok ((), h')) ∧ NewText h0 a h' s := by
  obtain ⟨n, hg⟩ := Heap.textAt_get hb
  exact ⟨_, Mem.free_eq hg, by rw [Heap.textAt_congr (Heap.get_set_ne hne _), ha], sw.free2 hne (Heap.get_lt hg)⟩

theorem announceAndRename_follows {o : Options} {h0 h : Heap} {a b : Addr} {s t : Bytes} (sw : Swap h0 [] h [a, b]) (hne : a ≠ b)
    (ha : h.textAt a = some s) (hb : h.textAt b = some t) :
    Follows A N (NewText h0) (mAnnounceAndRename o a b h) (announceAndRename o s t) := by
  obtain ⟨na, ga⟩ := Heap.textAt_get ha
  obtain ⟨nb, gb⟩ := Heap.textAt_get hb
  unfold mAnnounceAndRename announceAndRename
  refine Follows.step (Mem.text_eq ga) (Follows.step (Mem.text_eq gb) ?_)
  have tail : Follows A N (NewText h0) ((if o.dryRun then do
      Mem.free b
      pure a
    else do
      let ok ← Mem.rename s t
      if ok then do
        Mem.free a
        pure b
      else do
        Mem.err (lit "Cannot rename " ++ s ++ lit " to " ++ t ++ lit ": ")
        Mem.free b
        pure a : Mem Addr) h) (if o.dryRun then .ret s else doRename s t) := by
    by_cases hd : o.dryRun = true
    · rw [if_pos hd, if_pos hd]
      obtain ⟨h', e, n⟩ := NewText.freed sw hne ha hb
      exact Follows.step e (.ret _ _ _ n)
    · rw [if_neg hd, if_neg hd]
      unfold doRename
      refine Follows.rename' fun ok => ?_
      cases ok with
      | true =>
        obtain ⟨h', e, n⟩ := NewText.freed sw.swap2 (Ne.symm hne) hb ha
        exact Follows.step e (.ret _ _ _ n)
      | false =>
        obtain ⟨h', e, n⟩ := NewText.freed sw hne ha hb
        exact Follows.err' (Follows.step e (.ret _ _ _ n))
  by_cases hv : (decide (o.verbose ≠ 0) || o.dryRun) = true
  · rw [if_pos hv, if_pos hv]
    exact Follows.out' tail
  · rw [if_neg hv, if_neg hv]
    exact tail

theorem checkAndRename_follows {o : Options} {h0 h : Heap} {a b : Addr} {s t : Bytes} (sw : Swap h0 [] h [a, b]) (hne : a ≠ b)
    (ha : h.textAt a = some s) (hb : h.textAt b = some t) :
    Follows A N (NewText h0) (mCheckAndRename o a b h) (checkAndRename o s t) := by
  obtain ⟨na, ga⟩ := Heap.textAt_get ha
  obtain ⟨nb, gb⟩ := Heap.textAt_get hb
  unfold mCheckAndRename checkAndRename
  refine Follows.step (Mem.text_eq ga) (Follows.lstat' fun r => ?_)
  cases r with
  | none =>
    obtain ⟨h', e, n⟩ := NewText.freed sw hne ha hb
    exact Follows.step e (.ret _ _ _ n)
  | some so =>
    refine Follows.step (Mem.text_eq gb) (Follows.lstat' fun rn => ?_)
    by_cases ht : isTaken so rn = true
    · rw [if_pos ht, if_pos ht]
      obtain ⟨h', e, n⟩ := NewText.freed sw hne ha hb
      exact Follows.err' (Follows.step e (.ret _ _ _ n))
    · rw [if_neg ht, if_neg ht]
      exact announceAndRename_follows sw hne ha hb

/-- From `h` to `h'` the program replaced its blocks `own` by `own'` and lost `n` strings. -/
def Leaves (h : Heap) (own : List Addr) (h' : Heap) (own' : List Addr) (n : Nat) : Prop :=
  ∃ lost, Swap h own h' (lost ++ own') ∧ Lost h' own' lost ∧ lost.length = n

theorem Leaves.ofSwap {h h' : Heap} {o o' : List Addr} (s : Swap h o h' o') : Leaves h o h' o' 0 := ⟨[], s, Lost.nil _ _, rfl⟩

theorem Leaves.trans {h h1 h2 : Heap} {o o1 o2 : List Addr} {n m : Nat} (a : Leaves h o h1 o1 n) (b : Leaves h1 o1 h2 o2 m) :
    Leaves h o h2 o2 (n + m) := by
  obtain ⟨l1, s1, L1, e1⟩ := a
  obtain ⟨l2, s2, L2, e2⟩ := b
  exact ⟨l1 ++ l2, s1.lost s2, L1.append s2 L2, by rw [List.length_append, e1, e2]⟩

theorem Leaves.perm {h h' : Heap} {o o' p p' : List Addr} {n : Nat} (a : Leaves h o h' o' n) (e : ∀ x, x ∈ o ↔ x ∈ p) (e' : ∀ x, x ∈ o' ↔ x ∈ p') :
    Leaves h p h' p' n := by
  obtain ⟨l, s, L, hn⟩ := a
  refine ⟨l, s.perm e (fun x => ?_), ⟨L.nodup, fun x hx hc => L.apart x hx ((e' x).2 hc), L.live⟩, hn⟩
  rw [List.mem_append, List.mem_append, e']

theorem Leaves.frame {h h' : Heap} {o o' : List Addr} {n : Nat} (a : Leaves h o h' o' n) {f : List Addr} (hf : ∀ x, x ∈ f → x < h.length ∧ x ∉ o) :
    Leaves h (o ++ f) h' (o' ++ f) n := by
  obtain ⟨l, s, L, hn⟩ := a
  refine ⟨l, (s.frame f).perm (fun _ => Iff.rfl) (fun x => by simp only [List.mem_append, or_assoc]), ⟨L.nodup, fun x hx hc => ?_, L.live⟩, hn⟩
  rcases List.mem_append.1 hc with h' | h'
  · exact L.apart x hx h'
  · rcases s.source x (List.mem_append_left _ hx) with h2 | h2
    · exact (hf x h').2 h2
    · have := (hf x h').1; omega

theorem Leaves.grows {h h' : Heap} {o o' : List Addr} {n : Nat} (a : Leaves h o h' o' n) : h.length ≤ h'.length := by
  obtain ⟨l, s, L, hn⟩ := a; exact s.grows

theorem Leaves.source {h h' : Heap} {o o' : List Addr} {n : Nat} (a : Leaves h o h' o' n) : ∀ x, x ∈ o' → x ∈ o ∨ h.length ≤ x := by
  obtain ⟨l, s, L, hn⟩ := a; exact fun x hx => s.source x (List.mem_append_right _ hx)

theorem Leaves.others {h h' : Heap} {o o' : List Addr} {n : Nat} (a : Leaves h o h' o' n) : ∀ x, x < h.length → x ∉ o → h'.get x = h.get x := by
  obtain ⟨l, s, L, hn⟩ := a; exact s.others

theorem Leaves.keeps {h h' : Heap} {o o' : List Addr} {n : Nat} (a : Leaves h o h' o' n)
    (ho : ∀ x, x ∈ o → ∀ b, h.get x = some b → b.fixed = false) : h.Keeps h' := by
  obtain ⟨l, s, L, hn⟩ := a; exact s.keeps ho

theorem OptListAt.leaves {h h' : Heap} {p : Option Addr} {bs : List Addr} {l : Option Filelist} (e : OptListAt h p bs l) {o o' : List Addr} {n : Nat}
    (s : Leaves h o h' o' n) (hp : ∀ x, x ∈ p.toList → x ∉ o) (hb : ∀ x, x ∈ bs → x ∉ o) : OptListAt h' p bs l := by
  obtain ⟨l, s, L, hn⟩ := s; exact e.swap s hp hb

theorem Lost.one {h : Heap} {own : List Addr} {x : Addr} {s : Bytes} (hx : x ∉ own) (hs : h.textAt x = some s) : Lost h own [x] := by
  obtain ⟨n, hg⟩ := Heap.textAt_get hs
  refine ⟨by simp, ?_, ?_⟩
  · intro y hy; cases (List.mem_singleton.1 hy); exact hx
  · intro y hy; cases (List.mem_singleton.1 hy); exact ⟨n, s, hg⟩

theorem parseFile_follows {P : Platform} {o : Options} {h : Heap} {q : Option Addr} {f : Addr} {s : Bytes}
    (hq : SequenceAt h q o.sequenceToUse) (hf : h.textAt f = some s) :
    Follows A N (fun r h' b => h'.textAt r = some b ∧ Leaves h [] h' [r] (fileLeaks P o s)) (mParseFile A P o q f h) (parseFile P o s) := by
  obtain ⟨nf, gf⟩ := Heap.textAt_get hf
  unfold mParseFile
  refine Follows.step (Mem.text_eq gf) (Follows.malloc ?_)
  obtain ⟨e1, ta, s1⟩ := malloc_fill (h := h) (n := s.length + 1) (s := []) (t := s) (Nat.lt_succ_self _)
  refine Follows.step e1 ?_
  generalize h.length = a at *
  generalize ((h ++ [some (Block.text (s.length + 1) [])]).set a (some (Block.text (s.length + 1) s))) = h1 at *
  refine Follows.does (strdup_does h1 (basePart s)) ?_
  rintro w h2 ⟨tw, s2⟩
  have ta2 := s2.keepsNil.textAt ta
  obtain ⟨na, ga⟩ := Heap.textAt_get ta
  obtain ⟨nw, gw⟩ := Heap.textAt_get tw
  have haw : a ≠ w := by
    intro e
    rcases s2.source w (by simp) with h' | h'
    · cases h'
    · have := Heap.get_lt ga; omega
  have s12 : Swap h [] h2 [a, w] := s1.trans ((s2.frame [a]).perm (p := [a]) (p' := [a, w]) (fun x => by simp) (fun x => by simp [or_comm]))
  refine Follows.step (Mem.text_eq gw) ?_
  have hq2 := s12.keepsNil.sequence hq
  unfold parseFile
  simp only
  by_cases hp : isProtected (basePart s) = true
  · simp only [hp, if_true]
    refine Follows.bindRes (sequenceRunFilters_follows (w := none) (s := none) hq2 rfl) ?_
    rintro p h3 b hb ⟨hp3, s3⟩
    have hbn : b = none := by
      unfold sequenceRunFilters at hb
      cases hs : o.sequenceToUse with
      | none => rw [hs] at hb; cases hb
      | some q => rw [hs] at hb; cases hb; rfl
    subst hbn
    cases p with
    | some p => obtain ⟨_, _, _, h'⟩ := Heap.optAt_some hp3 (a := p) (by simp); cases h'
    | none =>
      refine Follows.step (show Mem.freeOpt none h3 = .ret (.ok ((), h3)) from rfl) ?_
      refine .ret _ _ _ ⟨s3.keepsNil.textAt ta2, [w], ?_, Lost.one (by simpa using Ne.symm haw) (s3.keepsNil.textAt tw), ?_⟩
      · exact (s12.trans ((s3.frame [a, w]).perm (p := [a, w]) (p' := [w, a]) (fun x => by simp) (fun x => by simp [or_comm])))
      · simp [fileLeaks, hp]
  · simp only [hp]
    refine Follows.bindRes (sequenceRunFilters_follows (w := some w) (s := some (basePart s)) hq2 (by simp only [Heap.optAt, tw]; rfl)) ?_
    rintro p h3 b hb ⟨hp3, s3⟩
    change sequenceRunFilters P o.sequenceToUse (some (basePart s)) = _ at hb
    have k3 := s3.keepsNil
    obtain ⟨nw3, gw3⟩ := Heap.textAt_get (k3.textAt tw)
    refine Follows.step (show Mem.freeOpt (some w) h3 = _ from Mem.free_eq gw3) ?_
    have hpw : ∀ x, x ∈ p.toList → x ≠ w ∧ x ≠ a := fun x hx => by
      rcases s3.source x hx with h' | h'
      · cases h'
      · have := Heap.get_lt gw
        obtain ⟨_, ga2⟩ := Heap.textAt_get ta2
        have := Heap.get_lt ga2
        constructor <;> omega
    have s4 : Swap h [] (h3.set w none) (a :: p.toList) := by
      refine (s12.trans ((s3.frame [a, w]).perm (p := [a, w]) (p' := a :: w :: p.toList) (fun x => by simp) (fun x => ?_))).trans
        (Swap.free (a := w) (by simp) (Heap.get_lt gw3) _ ?_)
      · simp only [List.mem_append, List.mem_cons, List.not_mem_nil, or_false]
        constructor
        · rintro (h' | h' | h') <;> simp [h']
        · rintro (h' | h' | h') <;> simp [h']
      · intro x
        simp only [List.mem_cons]
        constructor
        · rintro (rfl | h')
          · exact ⟨.inl rfl, haw⟩
          · exact ⟨.inr (.inr h'), (hpw x h').1⟩
        · rintro ⟨rfl | rfl | h', h2⟩
          · exact .inl rfl
          · exact absurd rfl h2
          · exact .inr h'
    have ta4 : Heap.textAt (h3.set w none) a = some s := by
      rw [Heap.textAt_congr (Heap.get_set_ne haw _)]; exact k3.textAt ta2
    have hp4 : Heap.optAt (h3.set w none) p = some b := by
      rw [Heap.optAt_congr (fun x hx => Heap.get_set_ne (hpw x hx).1 _), hp3]
    generalize h3.set w none = h4 at *
    cases p with
    | none =>
      cases hp4
      refine .ret _ _ _ ⟨ta4, [], s4, Lost.nil _ _, ?_⟩
      unfold fileLeaks
      rw [hb, if_neg]
      · rfl
      · rintro (h' | h')
        · exact hp h'
        · cases h'
    | some v =>
      obtain ⟨nv, t, gv, rfl⟩ := Heap.optAt_some hp4 (a := v) (by simp)
      obtain ⟨na4, ga4⟩ := Heap.textAt_get ta4
      have hav : a ≠ v := Ne.symm (hpw v (by simp)).2
      refine Follows.step (Mem.text_eq gv) (Follows.step (Mem.text_eq ga4) ?_)
      simp only
      by_cases ht : basePart s = t
      · rw [if_pos ht, if_pos ht]
        refine .ret _ _ _ ⟨ta4, [v], s4.perm (fun _ => Iff.rfl) (fun x => by simp [or_comm]), Lost.one (by simpa using Ne.symm hav) (Heap.textAt_of gv), ?_⟩
        unfold fileLeaks
        rw [hb, ht, if_pos (.inr rfl)]
        rfl
      · rw [if_neg ht, if_neg ht]
        refine Follows.malloc ?_
        have hl : (dirPart s ++ t).length < (dirPart s).length + t.length + 1 := by rw [List.length_append]; omega
        obtain ⟨e5, t5, s5⟩ := malloc_fill (h := h4) (n := (dirPart s).length + t.length + 1) (s := []) hl
        refine Follows.step e5 ?_
        have hb5 : v < h4.length := Heap.get_lt gv
        have ha5 : a < h4.length := Heap.get_lt ga4
        generalize h4.length = c at *
        generalize ((h4 ++ [some (Block.text ((dirPart s).length + t.length + 1) [])]).set c
          (some (Block.text ((dirPart s).length + t.length + 1) (dirPart s ++ t)))) = h5 at *
        have k5 := s5.keepsNil
        have gv5 := k5 _ _ gv rfl
        refine Follows.step (Mem.free_eq gv5) ?_
        have hcv : c ≠ v := by omega
        have hca : a ≠ c := by omega
        have s6 : Swap h [] (h5.set v none) [a, c] := by
          refine (s4.trans ((s5.frame [a, v]).perm (p := a :: (some v).toList) (p' := [a, v, c]) (fun x => by simp) (fun x => ?_))).trans
            (Swap.free (a := v) (by simp) (Heap.get_lt gv5) _ ?_)
          · simp only [List.mem_append, List.mem_cons, List.not_mem_nil, or_false]
            constructor
            · rintro (h' | h' | h') <;> simp [h']
            · rintro (h' | h' | h') <;> simp [h']
          · intro x
            simp only [List.mem_cons, List.not_mem_nil, or_false]
            constructor
            · rintro (rfl | rfl)
              · exact ⟨.inl rfl, hav⟩
              · exact ⟨.inr (.inr rfl), hcv⟩
            · rintro ⟨rfl | rfl | rfl, h2⟩
              · exact .inl rfl
              · exact absurd rfl h2
              · exact .inr rfl
        have r6 := checkAndRename_follows (A := A) (N := N) (o := o) s6 hca (s := s) (t := dirPart s ++ t)
          (by rw [Heap.textAt_congr (Heap.get_set_ne hav _)]; exact k5.textAt ta4)
          (by rw [Heap.textAt_congr (Heap.get_set_ne hcv _)]; exact t5)
        refine r6.mono ?_
        rintro r h' x ⟨r1, r2⟩
        refine ⟨r1, [], r2, Lost.nil _ _, ?_⟩
        unfold fileLeaks
        rw [hb, if_neg]
        · rfl
        · rintro (h' | h')
          · exact hp h'
          · cases h'; exact ht rfl

/-- A string that the program still had, and that is lost now. -/
theorem Leaves.drop {h h' : Heap} {o o' : List Addr} {n : Nat} {x : Addr} {t : Bytes} (a : Leaves h o h' (x :: o') n) (hx : x ∉ o')
    (ht : h'.textAt x = some t) : Leaves h o h' o' (n + 1) := by
  obtain ⟨l, s, L, hn⟩ := a
  obtain ⟨m, hg⟩ := Heap.textAt_get ht
  refine ⟨x :: l, s.perm (fun _ => Iff.rfl) (fun y => ?_), ⟨?_, ?_, ?_⟩, by simp [hn]⟩
  · simp only [List.mem_append, List.mem_cons]
    constructor
    · rintro (h' | h' | h') <;> simp [h']
    · rintro ((h' | h') | h') <;> simp [h']
  · exact List.nodup_cons.2 ⟨fun hc => L.apart x hc (by simp), L.nodup⟩
  · intro y hy
    rcases List.mem_cons.1 hy with rfl | hy
    · exact hx
    · exact fun hc => L.apart y hy (List.mem_cons_of_mem _ hc)
  · intro y hy
    rcases List.mem_cons.1 hy with rfl | hy
    · exact ⟨m, t, hg⟩
    · exact L.live y hy

theorem Leaves.free {h h' : Heap} {o o' : List Addr} {n : Nat} {x : Addr} (a : Leaves h o h' (x :: o') n) (hx : x ∉ o') {b : Block}
    (hg : h'.get x = some b) : Leaves h o (h'.set x none) o' n := by
  refine a.trans (m := 0) (Leaves.ofSwap (Swap.free (a := x) (by simp) (Heap.get_lt hg) _ fun y => ?_))
  constructor
  · intro hy; exact ⟨List.mem_cons_of_mem _ hy, fun e => hx (e ▸ hy)⟩
  · rintro ⟨hy, hne⟩
    rcases List.mem_cons.1 hy with rfl | hy
    · exact absurd rfl hne
    · exact hy

/-! ### parse_dir -/

/-- What a scan of a directory does, seen from outside. -/
def ScansDir (A : Nat → Bool) (N : Prop) (q p : Option Addr) (bs : List Addr) (Q : Option Sequence) (rec : Addr → Mem Unit)
    (rec' : Option Filelist → Bytes → Prog (Option Filelist × Nat)) : Prop :=
  ∀ h w t ign, SequenceAt h q Q → h.textAt w = some t → OptListAt h p bs ign →
    Follows A N (fun _ h' r => OptListAt h' p bs r.1 ∧ Leaves h p.toList h' p.toList r.2) (rec w h) (rec' ign t)

theorem dirLoop_follows {P : Platform} {o : Options} {q p : Option Addr} {bs : List Addr} {rec : Addr → Mem Unit}
    {rec' : Option Filelist → Bytes → Prog (Option Filelist × Nat)} (hrec : ScansDir A N q p bs o.sequenceToUse rec rec')
    {h0 : Heap} {ign0 : Option Filelist} {f nf : Addr} {dir : Bytes} {d : Nat} (hq : SequenceAt h0 q o.sequenceToUse)
    (hf : h0.textAt f = some dir) (hi : OptListAt h0 p bs ign0) (hnf : h0.length ≤ nf) :
    ∀ {m : Nat} {h : Heap} {st : Stat} {ign : Option Filelist} {k : Nat} {u : Bytes}, OptListAt h p bs ign →
      Leaves h0 p.toList h (nf :: p.toList) k → h.get nf = some (.text (dir.length + 1024) u) →
      Follows A N (fun _ h' r => OptListAt h' p bs r.1 ∧ Leaves h0 p.toList h' p.toList r.2)
        (mDirLoop A P o q p rec d f nf m st h) (dirLoopLost P o rec' d dir m st ign (k + 1)) := by
  have hpl : ∀ x, x ∈ p.toList → x < h0.length := fun x hx => by obtain ⟨b, hb, _⟩ := hi.live x hx; exact Heap.get_lt hb
  have hbl : ∀ x, x ∈ bs → x < h0.length := fun x hx => by obtain ⟨b, hb, _⟩ := hi.still x hx; exact Heap.get_lt hb
  have hnp : nf ∉ p.toList := fun hx => by have := hpl nf hx; omega
  have hnb : nf ∉ bs := fun hx => by have := hbl nf hx; omega
  intro m
  induction m with
  | zero => intros; exact .stuck
  | succ m ih =>
    intro h st ign k u hl lv gn
    unfold mDirLoop dirLoopLost
    refine Follows.readdir' fun e => ?_
    cases e with
    | none =>
      refine .closedir _ _ _ (.ret _ _ _ ⟨hl, ?_⟩)
      exact lv.drop hnp (Heap.textAt_of gn)
    | some name =>
      refine Follows.bind (ignoreFile_follows hl name) ?_
      rintro ig h1 r ⟨rfl, hl1, s1⟩
      have k1 := s1.keeps hl.moving
      have gn1 := k1 _ _ gn rfl
      have lv1 : Leaves h0 p.toList h1 (nf :: p.toList) k := by
        refine (lv.trans (m := 0) ((Leaves.ofSwap s1).frame (f := [nf]) (fun x hx => ?_) |>.perm (fun x => ?_) (fun x => ?_)))
        · cases (List.mem_singleton.1 hx : x = nf); exact ⟨Heap.get_lt gn, hnp⟩
        · simp [or_comm]
        · simp [or_comm]
      by_cases hig : r.2 = true
      · simp only [hig, if_true]
        exact ih hl1 lv1 gn1
      · simp only [if_neg hig]
        have hf1 := (lv1.keeps hi.moving).textAt hf
        obtain ⟨nx, gf1⟩ := Heap.textAt_get hf1
        refine Follows.step (Mem.text_eq gf1) ?_
        generalize hpath : (dir ++ [0x2F] ++ name).take (dir.length + 1023) = path
        have hlen : path.length < dir.length + 1024 := by rw [← hpath, List.length_take]; omega
        refine Follows.step (Mem.putText_eq gn1 hlen) ?_
        have gn2 : Heap.get (h1.set nf (some (.text (dir.length + 1024) path))) nf = some (.text (dir.length + 1024) path) :=
          Heap.get_set_eq (Heap.get_lt gn1) _
        have lv2 : Leaves h0 p.toList (h1.set nf (some (.text (dir.length + 1024) path))) (nf :: p.toList) k :=
          lv1.trans (m := 0) (Leaves.ofSwap (Swap.store (by simp) _))
        have hl2 : OptListAt (h1.set nf (some (.text (dir.length + 1024) path))) p bs r.1 :=
          hl1.congr (fun x hx => Heap.get_set_ne (fun (e : x = nf) => hnp (e ▸ hx)) _) (fun x hx => Heap.get_set_ne (fun (e : x = nf) => hnb (e ▸ hx)) _)
        generalize h1.set nf (some (.text (dir.length + 1024) path)) = h2 at *
        clear k1 gn1 lv1 gf1 hl1 s1
        refine Follows.step (Mem.text_eq gn2) (Follows.lstat' fun rr => ?_)
        have hq2 := (lv2.keeps hi.moving).sequence hq
        have hpf := parseFile_follows (A := A) (N := N) (P := P) (o := o) hq2 (Heap.textAt_of gn2)
        -- what holds after the name has been dealt with
        have after : ∀ (w : Addr) (h3 : Heap) (t : Bytes), h3.textAt w = some t → Leaves h2 [] h3 [w] (fileLeaks P o path) →
            OptListAt h3 p bs r.1 ∧ Leaves h0 p.toList h3 (w :: nf :: p.toList) (k + fileLeaks P o path) ∧
            h3.get nf = some (.text (dir.length + 1024) path) ∧ h2.length ≤ w := by
          intro w h3 t tw l3
          have hw : h2.length ≤ w := by
            rcases l3.source w (by simp) with h' | h'
            · cases h'
            · exact h'
          refine ⟨hl2.leaves l3 (by simp) (by simp), lv2.trans ((l3.frame (f := nf :: p.toList) (fun x hx => ⟨?_, by simp⟩)).perm (fun x => by simp) (fun x => by simp)), ?_, hw⟩
          · rcases List.mem_cons.1 hx with rfl | hx
            · exact Heap.get_lt gn2
            · exact Nat.lt_of_lt_of_le (hpl x hx) lv2.grows
          · rw [l3.others nf (Heap.get_lt gn2) (by simp), gn2]
        have wne : ∀ w, h2.length ≤ w → w ∉ nf :: p.toList := fun w hw hc => by
          rcases List.mem_cons.1 hc with rfl | hc
          · have := Heap.get_lt gn2; omega
          · have := hpl w hc; have := lv2.grows; omega
        by_cases hk : (rr.getD st).kind = .dir
        · rw [if_pos hk, if_pos hk]
          refine Follows.bind hpf ?_
          rintro w h3 t ⟨tw, l3⟩
          obtain ⟨hl3, lv3, gn3, hw⟩ := after w h3 t tw l3
          obtain ⟨nw, gw3⟩ := Heap.textAt_get tw
          by_cases hrc : o.recurse = true
          · rw [if_pos hrc, if_pos hrc]
            refine Follows.bind (hrec h3 w t r.1 ((lv3.keeps hi.moving).sequence hq) tw hl3) ?_
            rintro _ h4 r4 ⟨hl4, l4⟩
            have k4 := l4.keeps hl3.moving
            have gn4 := k4 _ _ gn3 rfl
            have gw4 := k4 _ _ gw3 rfl
            have lv4 : Leaves h0 p.toList h4 (w :: nf :: p.toList) (k + fileLeaks P o path + r4.2) := by
              refine lv3.trans ((l4.frame (f := [w, nf]) (fun x hx => ?_)).perm (fun x => ?_) (fun x => ?_))
              · rcases List.mem_cons.1 hx with rfl | hx
                · exact ⟨Heap.get_lt gw3, fun hc => wne x hw (List.mem_cons_of_mem _ hc)⟩
                · cases (List.mem_singleton.1 hx : x = nf)
                  exact ⟨Heap.get_lt gn3, hnp⟩
              · simp only [List.mem_append, List.mem_cons, List.not_mem_nil, or_false]
                constructor
                · rintro (h' | h' | h') <;> simp [h']
                · rintro (h' | h' | h') <;> simp [h']
              · simp only [List.mem_append, List.mem_cons, List.not_mem_nil, or_false]
                constructor
                · rintro (h' | h' | h') <;> simp [h']
                · rintro (h' | h' | h') <;> simp [h']
            refine Follows.step (Mem.free_eq gw4) ?_
            have hwn : nf ≠ w := fun e => wne w hw (by simp [e])
            have := ih (h := h4.set w none) (st := rr.getD st) (ign := r4.1) (k := k + fileLeaks P o path + r4.2) (u := path)
              (hl4.congr (fun x hx => Heap.get_set_ne (fun (e : x = w) => wne w hw (List.mem_cons_of_mem _ (e ▸ hx))) _)
                (fun x hx => Heap.get_set_ne (fun (e : x = w) => by have := hbl x hx; have := lv2.grows; omega) _))
              (lv4.free (wne w hw) gw4) (by rw [Heap.get_set_ne hwn]; exact gn4)
            rw [show k + 1 + fileLeaks P o path + r4.2 = k + fileLeaks P o path + r4.2 + 1 by omega]
            exact this
          · rw [if_neg hrc, if_neg hrc]
            refine Follows.step (Mem.free_eq gw3) ?_
            have hwn : nf ≠ w := fun e => wne w hw (by simp [e])
            have := ih (h := h3.set w none) (st := rr.getD st) (ign := r.1) (k := k + fileLeaks P o path) (u := path)
              (hl3.congr (fun x hx => Heap.get_set_ne (fun (e : x = w) => wne w hw (List.mem_cons_of_mem _ (e ▸ hx))) _)
                (fun x hx => Heap.get_set_ne (fun (e : x = w) => by have := hbl x hx; have := lv2.grows; omega) _))
              (lv3.free (wne w hw) gw3) (by rw [Heap.get_set_ne hwn]; exact gn3)
            rw [show k + 1 + fileLeaks P o path = k + fileLeaks P o path + 1 by omega]
            exact this
        · rw [if_neg hk, if_neg hk]
          by_cases hrg : (decide ((rr.getD st).kind = .reg) || o.special) = true
          · rw [if_pos hrg, if_pos hrg]
            refine Follows.bind hpf ?_
            rintro w h3 t ⟨tw, l3⟩
            obtain ⟨hl3, lv3, gn3, hw⟩ := after w h3 t tw l3
            obtain ⟨nw, gw3⟩ := Heap.textAt_get tw
            refine Follows.step (Mem.free_eq gw3) ?_
            have hwn : nf ≠ w := fun e => wne w hw (by simp [e])
            have := ih (h := h3.set w none) (st := rr.getD st) (ign := r.1) (k := k + fileLeaks P o path) (u := path)
              (hl3.congr (fun x hx => Heap.get_set_ne (fun (e : x = w) => wne w hw (List.mem_cons_of_mem _ (e ▸ hx))) _)
                (fun x hx => Heap.get_set_ne (fun (e : x = w) => by have := hbl x hx; have := lv2.grows; omega) _))
              (lv3.free (wne w hw) gw3) (by rw [Heap.get_set_ne hwn]; exact gn3)
            rw [show k + 1 + fileLeaks P o path = k + fileLeaks P o path + 1 by omega]
            exact this
          · rw [if_neg hrg, if_neg hrg]
            exact ih hl2 lv2 gn2

theorem parseDir_follows {P : Platform} {o : Options} {q p : Option Addr} {bs : List Addr} :
    ∀ (n : Nat), ScansDir A N q p bs o.sequenceToUse (mParseDir A P o q p n) (parseDirLost P o n)
  | 0 => fun _ _ _ _ _ _ _ => .stuck
  | n + 1 => by
    intro h w t ign hq hw hl
    obtain ⟨nw, gw⟩ := Heap.textAt_get hw
    have hpl : ∀ x, x ∈ p.toList → x < h.length := fun x hx => by obtain ⟨b, hb, _⟩ := hl.live x hx; exact Heap.get_lt hb
    unfold mParseDir parseDirLost
    refine Follows.step (Mem.text_eq gw) (Follows.lstat' fun r => ?_)
    cases r with
    | none => exact .ret _ _ _ ⟨hl, Leaves.ofSwap (Swap.refl _ _)⟩
    | some st =>
      simp only
      by_cases hk : st.kind ≠ .dir
      · rw [if_pos hk, if_pos hk]; exact .ret _ _ _ ⟨hl, Leaves.ofSwap (Swap.refl _ _)⟩
      · rw [if_neg hk, if_neg hk]
        refine Follows.malloc ?_
        have s1 := Swap.malloc h p.toList (.text (t.length + 1024) [])
        have g1 := Heap.get_new h (.text (t.length + 1024) [])
        have hl1 : OptListAt (h ++ [some (Block.text (t.length + 1024) [])]) p bs ign :=
          hl.swap (Swap.malloc h [] (.text (t.length + 1024) [])) (by simp) (by simp)
        refine Follows.opendir' fun d => ?_
        cases d with
        | ok d => exact dirLoop_follows (parseDir_follows n) hq hw hl (Nat.le_refl _) hl1 (Leaves.ofSwap s1) g1
        | fail =>
          refine Follows.err' ?_
          rw [Mem.free_eq g1]
          refine .ret _ _ _ ⟨?_, (Leaves.ofSwap s1).free (fun hc => Nat.lt_irrefl _ (hpl _ hc)) g1⟩
          refine hl1.congr (fun x hx => Heap.get_set_ne (fun (e : x = h.length) => by have := hpl x hx; omega) _)
            (fun x hx => Heap.get_set_ne (fun (e : x = h.length) => ?_) _)
          obtain ⟨b, hb, _⟩ := hl.still x hx
          have := Heap.get_lt hb
          omega
        | emfile =>
          exact Follows.err' (Follows.step (Mem.free_eq g1) (.exit 1))

end

end Detox
