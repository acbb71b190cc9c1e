import Verif.Lemmas.MemoryFile
import Verif.Model.MemoryTables

/-!
# Which blocks a program changes
-/

set_option autoImplicit false

namespace Detox

/-- From `h` to `h'` blocks may have been added, and of the others only those in `M` may have changed. -/
structure Alters (M : List Addr) (h h' : Heap) : Prop where
  grows : h.length ≤ h'.length
  others : ∀ x, x < h.length → x ∉ M → h'.get x = h.get x

theorem Alters.refl (M : List Addr) (h : Heap) : Alters M h h := ⟨Nat.le_refl _, fun _ _ _ => rfl⟩

theorem Alters.trans {M M' : List Addr} {h h' h'' : Heap} (a : Alters M h h') (b : Alters M' h' h'')
    (hm : ∀ x, x ∈ M' → x ∈ M ∨ h.length ≤ x) : Alters M h h'' := by
  refine ⟨Nat.le_trans a.grows b.grows, fun x hx hn => ?_⟩
  rw [b.others x (Nat.lt_of_lt_of_le hx a.grows) (fun hc => (hm x hc).elim hn (fun h' => by omega)), a.others x hx hn]

theorem Alters.mono {M M' : List Addr} {h h' : Heap} (a : Alters M h h') (hm : ∀ x, x ∈ M → x ∈ M') : Alters M' h h' :=
  ⟨a.grows, fun x hx hn => a.others x hx fun hc => hn (hm x hc)⟩

/-- Changes of blocks that were not there do not count. -/
theorem Alters.old {M M' : List Addr} {h h' : Heap} (a : Alters M h h') (hm : ∀ x, x ∈ M → x ∈ M' ∨ h.length ≤ x) : Alters M' h h' :=
  ⟨a.grows, fun x hx hn => a.others x hx fun hc => (hm x hc).elim hn (fun h' => by omega)⟩

theorem Alters.get {M : List Addr} {h h' : Heap} (a : Alters M h h') {x : Addr} {b : Block} (e : h.get x = some b) (hn : x ∉ M) :
    h'.get x = some b := by rw [a.others x (Heap.get_lt e) hn, e]

theorem Alters.keep {h h' : Heap} (a : Alters [] h h') {x : Addr} {b : Block} (e : h.get x = some b) : h'.get x = some b :=
  a.get e (by simp)

theorem Alters.keeps {h h' : Heap} (a : Alters [] h h') : h.Keeps h' := fun _ _ e _ => a.keep e

theorem Swap.alters {h h' : Heap} {o o' : List Addr} (s : Swap h o h' o') : Alters o h h' := ⟨s.grows, s.others⟩

theorem Alters.malloc (h : Heap) (b : Block) : Alters [] h (h ++ [some b]) := ⟨by simp, fun _ hx _ => Heap.get_append_old hx⟩

theorem Alters.set {h : Heap} (a : Addr) (b : Option Block) : Alters [a] h (h.set a b) :=
  ⟨by simp, fun x _ hn => Heap.get_set_ne (by simpa using hn) _⟩

/-- A block of another kind than the changed ones is kept. -/
theorem Alters.kind {M : List Addr} {h h' : Heap} (a : Alters M h h') {p : Block → Bool} (hM : ∀ x, x ∈ M → ∀ b, h.get x = some b → p b = false)
    {x : Addr} {b : Block} (e : h.get x = some b) (hp : p b = true) : h'.get x = some b :=
  a.get e fun hx => by rw [hM x hx b e] at hp; cases hp

theorem Alters.textAt {M : List Addr} {h h' : Heap} (a : Alters M h h') {x : Addr} {s : Bytes} (e : h.textAt x = some s) (hn : x ∉ M) :
    h'.textAt x = some s := by
  obtain ⟨n, g⟩ := Heap.textAt_get e
  exact Heap.textAt_of (a.get g hn)

theorem Alters.optAt {M : List Addr} {h h' : Heap} (a : Alters M h h') {p : Option Addr} {d : Option Bytes} (e : h.optAt p = some d)
    (hn : ∀ x, x ∈ p.toList → x ∉ M) : h'.optAt p = some d := by
  cases p with
  | none => exact e
  | some x =>
    obtain ⟨n, s, g, rfl⟩ := Heap.optAt_some e (a := x) (by simp)
    have := Heap.textAt_of (a.get g (hn x (by simp)))
    simp only [Heap.optAt, this]
    rfl

theorem Alters.table {M : List Addr} {h h' : Heap} (a : Alters M h h') {t ra : Addr} {dp : Option Addr} {rs : List (Nat × Option Addr)} {T : Table}
    (l : TableAt h t ra dp rs T) (hn : ∀ x, x ∈ tableBlocks t ra dp rs → x ∉ M) : TableAt h' t ra dp rs T := by
  refine l.congr fun x hx => ?_
  obtain ⟨b, hb⟩ := l.live hx
  exact a.others x (Heap.get_lt hb) (hn x hx)

theorem Alters.list {M : List Addr} {h h' : Heap} (s : Alters M h h') {a fa : Addr} {qs : List Addr} {ws : List Bytes} {n : Nat}
    (l : ListAt h a fa qs ws n) (hn : ∀ x, x ∈ listBlocks a fa qs → x ∉ M) : ListAt h' a fa qs ws n := by
  refine l.congr fun x hx => s.others x ?_ (hn x hx)
  obtain ⟨⟨k, h1, h2⟩, h3, _, _⟩ := l
  simp only [listBlocks, List.mem_cons] at hx
  rcases hx with rfl | rfl | hx
  · exact Heap.get_lt h1
  · exact Heap.get_lt h2
  · exact h3.lt hx

/-- Two facts about the same run. -/
theorem Does.and {A : Nat → Bool} {α : Type} {m : Mem α} {h : Heap} {P Q : α → Heap → Prop} (hp : Does A m h P) (hq : Does A m h Q) :
    Does A m h fun a h' => P a h' ∧ Q a h' := by
  rcases hp with ⟨a, h', e, hp⟩ | hp
  · rcases hq with ⟨a', h'', e', hq⟩ | ⟨_, e'⟩
    · rw [e] at e'
      simp only [Prog.ret.injEq, Except.ok.injEq, Prod.mk.injEq] at e'
      obtain ⟨rfl, rfl⟩ := e'
      exact .inl ⟨_, _, e, hp, hq⟩
    · rw [e] at e'; cases e'
  · exact .inr hp

theorem Mem.update_eq {h : Heap} {a : Addr} {b b' : Block} {f : Block → Option Block} (e : h.get a = some b) (hf : f b = some b') :
    Mem.update a f h = .ret (.ok ((), h.set a (some b'))) := by
  have : (Mem.load a >>= fun b => match f b with
      | some b' => Mem.store a b'
      | none => Mem.fault .pointer) h = .ret (.ok ((), h.set a (some b'))) := by
    rw [Mem.bind_ok (Mem.load_eq e)]
    simp only [hf]
    exact Mem.store_eq e _
  exact this

theorem strdup_alters {A : Nat → Bool} (h : Heap) (s : Bytes) : Does A (wrappedStrdup A s) h fun a h' =>
    a = h.length ∧ h' = h ++ [some (.text (s.length + 1) s)] := Does.malloc ⟨rfl, rfl⟩

end Detox
