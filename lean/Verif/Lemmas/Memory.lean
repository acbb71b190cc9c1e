import Verif.Model.Memory

/-!
# Reasoning about programs with memory
-/

set_option autoImplicit false

namespace Detox

/-! ### The heap -/

theorem Heap.get_lt {h : Heap} {a : Addr} {b : Block} (e : h.get a = some b) : a < h.length := by
  unfold Heap.get at e
  cases hh : h[a]? with
  | none => rw [hh] at e; cases e
  | some x => exact (List.getElem?_eq_some_iff.1 hh).1

theorem Heap.get_none_of_le {h : Heap} {a : Addr} (e : h.length ≤ a) : h.get a = none := by
  unfold Heap.get
  rw [List.getElem?_eq_none e]

theorem Heap.get_append_old {h : Heap} {a : Addr} {x : List (Option Block)} (e : a < h.length) : Heap.get (h ++ x) a = h.get a := by
  unfold Heap.get
  rw [List.getElem?_append_left e]

theorem Heap.get_append_some {h : Heap} {a : Addr} {x : List (Option Block)} {b : Block} (e : h.get a = some b) :
    Heap.get (h ++ x) a = some b := by rw [Heap.get_append_old (Heap.get_lt e), e]

theorem Heap.get_new (h : Heap) (b : Block) : Heap.get (h ++ [some b]) h.length = some b := by
  unfold Heap.get
  rw [List.getElem?_append_right (Nat.le_refl _)]
  simp

theorem Heap.get_set_eq {h : Heap} {a : Addr} (e : a < h.length) (x : Option Block) : Heap.get (h.set a x) a = x := by
  unfold Heap.get
  rw [List.getElem?_set_self e]
  cases x <;> rfl

theorem Heap.get_set_ne {h : Heap} {a c : Addr} (e : c ≠ a) (x : Option Block) : Heap.get (h.set a x) c = h.get c := by
  unfold Heap.get
  rw [List.getElem?_set_ne (Ne.symm e)]

theorem Heap.length_set (h : Heap) (a : Addr) (x : Option Block) : (h.set a x).length = h.length := List.length_set

/-! ### Steps -/

theorem Mem.bind_ok {α β : Type} {m : Mem α} {f : α → Mem β} {h h' : Heap} {a : α} (e : m h = .ret (.ok (a, h'))) :
    (m >>= f) h = f a h' := by
  change Mem.bind m f h = _
  unfold Mem.bind
  rw [e]
  rfl

theorem Mem.bind_error {α β : Type} {m : Mem α} {f : α → Mem β} {h : Heap} {x : Fault} (e : m h = .ret (.error x)) :
    (m >>= f) h = .ret (.error x) := by
  change Mem.bind m f h = _
  unfold Mem.bind
  rw [e]
  rfl

theorem Mem.bind_assoc' {α β γ : Type} (m : Mem α) (f : α → Mem β) (g : β → Mem γ) (h : Heap) :
    ((m >>= f) >>= g) h = (m >>= fun a => f a >>= g) h := by
  change Mem.bind (Mem.bind m f) g h = Mem.bind m (fun a => Mem.bind (f a) g) h
  unfold Mem.bind
  generalize m h = p
  induction p with
  | ret r => cases r with
    | ok p => rfl
    | error e => rfl
  | exit => rfl
  | ub => rfl
  | stuck => rfl
  | lstat p k ih => simp only [Prog.bind]; congr 1; funext r; exact ih r
  | rename o n k ih => simp only [Prog.bind]; congr 1; funext r; exact ih r
  | opendir p k ih => simp only [Prog.bind]; congr 1; funext r; exact ih r
  | readdir p k ih => simp only [Prog.bind]; congr 1; funext r; exact ih r
  | closedir p k ih => simp only [Prog.bind]; congr 1
  | slurp p k ih => simp only [Prog.bind]; congr 1; funext r; exact ih r
  | out p k ih => simp only [Prog.bind]; congr 1
  | err p k ih => simp only [Prog.bind]; congr 1

theorem Mem.pure_eq {α : Type} (a : α) (h : Heap) : (pure a : Mem α) h = .ret (.ok (a, h)) := rfl

theorem Mem.pure_bind {α β : Type} (a : α) (f : α → Mem β) (h : Heap) : ((pure a : Mem α) >>= f) h = f a h := rfl

theorem Mem.load_eq {h : Heap} {a : Addr} {b : Block} (e : h.get a = some b) : Mem.load a h = .ret (.ok (b, h)) := by
  unfold Mem.load
  rw [e]

theorem Mem.store_eq {h : Heap} {a : Addr} {b : Block} (e : h.get a = some b) (c : Block) :
    Mem.store a c h = .ret (.ok ((), h.set a (some c))) := by
  unfold Mem.store
  rw [e]

theorem Mem.free_eq {h : Heap} {a : Addr} {b : Block} (e : h.get a = some b) : Mem.free a h = .ret (.ok ((), h.set a none)) := by
  unfold Mem.free
  rw [e]

theorem Mem.text_eq {h : Heap} {a : Addr} {n : Nat} {s : Bytes} (e : h.get a = some (.text n s)) : Mem.text a h = .ret (.ok (s, h)) := by
  unfold Mem.text
  have : (Mem.load a >>= fun b => match b with | .text _ s => Mem.pure s | _ => Mem.fault .pointer) h = .ret (.ok (s, h)) := by
    rw [Mem.bind_ok (Mem.load_eq e)]; rfl
  exact this

theorem Mem.putText_eq {h : Heap} {a : Addr} {n : Nat} {s t : Bytes} (e : h.get a = some (.text n s)) (hl : t.length < n) :
    Mem.putText a t h = .ret (.ok ((), h.set a (some (.text n t)))) := by
  unfold Mem.putText
  have : (Mem.load a >>= fun b =>
      match b with
      | .text size _ => if t.length < size then Mem.store a (.text size t) else Mem.fault .bounds
      | _ => Mem.fault .pointer) h = .ret (.ok ((), h.set a (some (.text n t)))) := by
    rw [Mem.bind_ok (Mem.load_eq e)]
    simp only [hl, if_true]
    exact Mem.store_eq e _
  exact this

/-! ### Programs that only use memory -/

/-- Some allocation fails. -/
def SomeFails (A : Nat → Bool) : Prop := ∃ n, A n = false

/-- The program returns, with `Post` for its result and the heap, unless memory is exhausted. -/
def Does (A : Nat → Bool) {α : Type} (m : Mem α) (h : Heap) (Post : α → Heap → Prop) : Prop :=
  (∃ a h', m h = .ret (.ok (a, h')) ∧ Post a h') ∨ (SomeFails A ∧ m h = .err outOfMemory (.exit 1))

theorem Does.ret {A : Nat → Bool} {α : Type} {m : Mem α} {h h' : Heap} {a : α} {Post : α → Heap → Prop}
    (e : m h = .ret (.ok (a, h'))) (hp : Post a h') : Does A m h Post := .inl ⟨a, h', e, hp⟩

theorem Does.bind {A : Nat → Bool} {α β : Type} {m : Mem α} {f : α → Mem β} {h : Heap} {P : α → Heap → Prop} {Q : β → Heap → Prop}
    (hm : Does A m h P) (hf : ∀ a h', P a h' → Does A (f a) h' Q) : Does A (m >>= f) h Q := by
  rcases hm with ⟨a, h', e, hp⟩ | ⟨hF, e⟩
  · unfold Does
    rw [Mem.bind_ok e]
    exact hf a h' hp
  · right
    refine ⟨hF, ?_⟩
    change Mem.bind m f h = _
    unfold Mem.bind
    rw [e]
    rfl

theorem Does.step {A : Nat → Bool} {α β : Type} {m : Mem α} {f : α → Mem β} {h h' : Heap} {a : α} {Q : β → Heap → Prop}
    (e : m h = .ret (.ok (a, h'))) (hf : Does A (f a) h' Q) : Does A (m >>= f) h Q := by
  unfold Does
  rw [Mem.bind_ok e]
  exact hf

theorem Does.mono {A : Nat → Bool} {α : Type} {m : Mem α} {h : Heap} {P Q : α → Heap → Prop} (hm : Does A m h P)
    (hpq : ∀ a h', P a h' → Q a h') : Does A m h Q := by
  rcases hm with ⟨a, h', e, hp⟩ | hx
  · exact .inl ⟨a, h', e, hpq _ _ hp⟩
  · exact .inr hx

theorem Does.malloc {A : Nat → Bool} {b : Block} {h : Heap} {Q : Addr → Heap → Prop} (hq : Q h.length (h ++ [some b])) :
    Does A (wrappedMalloc A b) h Q := by
  unfold Does wrappedMalloc
  cases e : A h.length with
  | true => exact .inl ⟨_, _, by simp, hq⟩
  | false => exact .inr ⟨⟨_, e⟩, by simp⟩

/-- If nothing fails, the program returns. -/
theorem Does.total {A : Nat → Bool} {α : Type} {m : Mem α} {h : Heap} {Post : α → Heap → Prop} (hd : Does A m h Post)
    (hA : ∀ n, A n = true) : ∃ a h', m h = .ret (.ok (a, h')) ∧ Post a h' := by
  rcases hd with hd | ⟨⟨n, hn⟩, _⟩
  · exact hd
  · rw [hA n] at hn; cases hn

/-! ### Who owns what -/

/-- From `h` to `h'` a part of the program replaced its blocks `old` by `new`: every other block is as before, and what was allocated and is
not among `new` was freed. -/
structure Swap (h : Heap) (old : List Addr) (h' : Heap) (new : List Addr) : Prop where
  grows : h.length ≤ h'.length
  source : ∀ x, x ∈ new → x ∈ old ∨ h.length ≤ x
  others : ∀ x, x < h.length → x ∉ old → h'.get x = h.get x
  freed : ∀ x, x ∈ old → x ∉ new → h'.get x = none
  nothing : ∀ x, h.length ≤ x → x ∉ new → h'.get x = none

theorem Swap.refl (h : Heap) (o : List Addr) : Swap h o h o :=
  ⟨Nat.le_refl _, fun _ hx => .inl hx, fun _ _ _ => rfl, fun _ h1 h2 => absurd h1 h2, fun _ hx _ => Heap.get_none_of_le hx⟩

theorem Swap.trans {h h' h'' : Heap} {o o' o'' : List Addr} (s1 : Swap h o h' o') (s2 : Swap h' o' h'' o'') : Swap h o h'' o'' := by
  refine ⟨Nat.le_trans s1.grows s2.grows, ?_, ?_, ?_, ?_⟩
  · intro x hx
    rcases s2.source x hx with h1 | h1
    · exact s1.source x h1
    · exact .inr (Nat.le_trans s1.grows h1)
  · intro x hx ho
    have ho' : x ∉ o' := fun hc => by
      rcases s1.source x hc with h1 | h1
      · exact ho h1
      · omega
    rw [s2.others x (Nat.lt_of_lt_of_le hx s1.grows) ho', s1.others x hx ho]
  · intro x hx hn
    by_cases ho' : x ∈ o'
    · exact s2.freed x ho' hn
    · have := s1.freed x hx ho'
      by_cases hl : x < h'.length
      · rw [s2.others x hl ho', this]
      · exact s2.nothing x (Nat.le_of_not_lt hl) hn
  · intro x hx hn
    by_cases ho' : x ∈ o'
    · exact s2.freed x ho' hn
    · have := s1.nothing x hx ho'
      by_cases hl : x < h'.length
      · rw [s2.others x hl ho', this]
      · exact s2.nothing x (Nat.le_of_not_lt hl) hn

theorem Swap.perm {h h' : Heap} {o o' p p' : List Addr} (s : Swap h o h' o') (e : ∀ x, x ∈ o ↔ x ∈ p) (e' : ∀ x, x ∈ o' ↔ x ∈ p') :
    Swap h p h' p' :=
  ⟨s.grows, fun x hx => (s.source x ((e' x).2 hx)).imp (fun z => (e x).1 z) id,
    fun x hx hn => s.others x hx (fun z => hn ((e x).1 z)), fun x hx hn => s.freed x ((e x).2 hx) (fun z => hn ((e' x).1 z)),
    fun x hx hn => s.nothing x hx (fun z => hn ((e' x).1 z))⟩

/-- A part that owns more. -/
theorem Swap.frame {h h' : Heap} {o o' : List Addr} (s : Swap h o h' o') (f : List Addr) : Swap h (o ++ f) h' (o' ++ f) := by
  refine ⟨s.grows, ?_, ?_, ?_, ?_⟩
  · intro x hx
    rcases List.mem_append.1 hx with h1 | h1
    · exact (s.source x h1).imp (fun z => List.mem_append_left _ z) id
    · exact .inl (List.mem_append_right _ h1)
  · intro x hx hn; exact s.others x hx (fun z => hn (List.mem_append_left _ z))
  · intro x hx hn
    rcases List.mem_append.1 hx with h1 | h1
    · exact s.freed x h1 (fun z => hn (List.mem_append_left _ z))
    · exact absurd (List.mem_append_right _ h1) hn
  · intro x hx hn; exact s.nothing x hx (fun z => hn (List.mem_append_left _ z))

theorem Swap.malloc (h : Heap) (o : List Addr) (b : Block) : Swap h o (h ++ [some b]) (h.length :: o) := by
  refine ⟨by simp, ?_, ?_, ?_, ?_⟩
  · intro x hx
    rcases List.mem_cons.1 hx with rfl | h1
    · exact .inr (Nat.le_refl _)
    · exact .inl h1
  · intro x hx _; exact Heap.get_append_old hx
  · intro x hx hn; exact absurd (List.mem_cons_of_mem _ hx) hn
  · intro x hx hn
    have : x ≠ h.length := fun e => hn (e ▸ List.mem_cons_self ..)
    exact Heap.get_none_of_le (by simp; omega)

theorem Swap.store {h : Heap} {o : List Addr} {a : Addr} (ha : a ∈ o) (b : Block) : Swap h o (h.set a (some b)) o := by
  refine ⟨by simp, fun _ hx => .inl hx, ?_, fun _ h1 h2 => absurd h1 h2, ?_⟩
  · intro x _ hn; exact Heap.get_set_ne (fun (e : x = a) => hn (by rw [e]; exact ha)) _
  · intro x hx _; exact Heap.get_none_of_le (by simpa using hx)

theorem Swap.free {h : Heap} {o : List Addr} {a : Addr} (ha : a ∈ o) (hl : a < h.length) (o' : List Addr)
    (e : ∀ x, x ∈ o' ↔ x ∈ o ∧ x ≠ a) : Swap h o (h.set a none) o' := by
  refine ⟨by simp, fun x hx => .inl ((e x).1 hx).1, ?_, ?_, ?_⟩
  · intro x _ hn; exact Heap.get_set_ne (fun (e : x = a) => hn (by rw [e]; exact ha)) _
  · intro x hx hn
    have : x = a := Classical.byContradiction fun hne => hn ((e x).2 ⟨hx, hne⟩)
    subst this
    exact Heap.get_set_eq hl none
  · intro x hx _; exact Heap.get_none_of_le (by simpa using hx)

end Detox
