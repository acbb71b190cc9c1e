import Verif.Lemmas.MemoryReview
import Verif.Lemmas.Grammar

/-!
# Chains of sequences and filters
-/

set_option autoImplicit false

namespace Detox

/-! ### Linked lists -/

section

variable {β : Type}

/-- A linked list: `P a next b` says that at `a` is `b`, and that `next` points on. The last one points to `t`. -/
def Links (P : Addr → Option Addr → β → Prop) : List Addr → List β → Option Addr → Prop
  | [], [], _ => True
  | a :: as, b :: bs, t => P a (as.head?.or t) b ∧ Links P as bs t
  | _, _, _ => False

theorem Links.length {P : Addr → Option Addr → β → Prop} : ∀ {as : List Addr} {bs : List β} {t : Option Addr}, Links P as bs t → as.length = bs.length
  | [], [], _, _ => rfl
  | _ :: _, _ :: _, _, ⟨_, l⟩ => by simp [l.length]
  | [], _ :: _, _, l => by cases l
  | _ :: _, [], _, l => by cases l

theorem Links.mono {P Q : Addr → Option Addr → β → Prop} : ∀ {as : List Addr} {bs : List β} {t : Option Addr}, Links P as bs t →
    (∀ a, a ∈ as → ∀ n b, P a n b → Q a n b) → Links Q as bs t
  | [], [], _, _, _ => trivial
  | _ :: _, _ :: _, _, ⟨h, l⟩, hq => ⟨hq _ (by simp) _ _ h, l.mono fun a ha => hq a (by simp [ha])⟩
  | [], _ :: _, _, l, _ => by cases l
  | _ :: _, [], _, l, _ => by cases l

theorem Links.mem {P : Addr → Option Addr → β → Prop} : ∀ {as : List Addr} {bs : List β} {t : Option Addr}, Links P as bs t →
    ∀ a, a ∈ as → ∃ n b, P a n b
  | _ :: _, _ :: _, _, ⟨h, l⟩, a, ha => by
    rcases List.mem_cons.1 ha with rfl | ha
    · exact ⟨_, _, h⟩
    · exact l.mem a ha
  | [], _, _, _, _, ha => by cases ha
  | _ :: _, [], _, l, _, _ => by cases l

theorem Links.append {P : Addr → Option Addr → β → Prop} {as' : List Addr} {bs' : List β} {t : Option Addr} (l' : Links P as' bs' t) :
    ∀ {as : List Addr} {bs : List β}, Links P as bs (as'.head?.or t) → Links P (as ++ as') (bs ++ bs') t
  | [], [], _ => l'
  | a :: as, b :: bs, ⟨h, l⟩ => by
    refine ⟨?_, Links.append l' l⟩
    cases as with
    | nil => exact h
    | cons x as => exact h
  | [], _ :: _, l => by cases l
  | _ :: _, [], l => by cases l

/-- The last element. -/
theorem Links.last {P : Addr → Option Addr → β → Prop} {l : Addr} {t : Option Addr} : ∀ {as : List Addr} {bs : List β}, Links P (as ++ [l]) bs t →
    ∃ bs' b, bs = bs' ++ [b] ∧ Links P as bs' (some l) ∧ P l t b
  | [], [], e => by cases e
  | [], b :: bs, ⟨h, e⟩ => by
    cases bs with
    | nil => exact ⟨[], b, rfl, trivial, h⟩
    | cons c bs => cases e
  | a :: as, [], e => by cases e
  | a :: as, b :: bs, ⟨h, e⟩ => by
    obtain ⟨bs', b', rfl, e', h'⟩ := Links.last e
    refine ⟨b :: bs', b', rfl, ⟨?_, e'⟩, h'⟩
    cases as with
    | nil => exact h
    | cons x as => exact h

/-- A new element at the end: the `next` of the last one is set. -/
theorem Links.extend {P Q : Addr → Option Addr → β → Prop} {as : List Addr} {l w : Addr} {bs : List β} {b : β} (e : Links P (as ++ [l]) bs none)
    (hP : ∀ a, a ∈ as → ∀ n b, P a n b → Q a n b) (hl : ∀ b, P l none b → Q l (some w) b) (hw : Q w none b) :
    Links Q (as ++ [l] ++ [w]) (bs ++ [b]) none := by
  obtain ⟨bs', b', rfl, e', h'⟩ := e.last
  refine Links.append (as' := [w]) (bs' := [b]) (t := none) ⟨hw, trivial⟩ ?_
  exact Links.append (as' := [l]) (bs' := [b']) ⟨hl _ h', trivial⟩ (e'.mono hP)

/-- One element is changed. -/
theorem Links.replace {P Q : Addr → Option Addr → β → Prop} {w : Addr} {b b' : β} {ys : List Addr} {vs : List β} {t : Option Addr}
    (hw : ∀ n, P w n b → Q w n b') (hy : ∀ a, a ∈ ys → ∀ n b, P a n b → Q a n b) : ∀ {xs : List Addr} {us : List β}, xs.length = us.length →
    Links P (xs ++ w :: ys) (us ++ b :: vs) t → (∀ a, a ∈ xs → ∀ n b, P a n b → Q a n b) → Links Q (xs ++ w :: ys) (us ++ b' :: vs) t
  | [], [], _, ⟨h, e⟩, _ => ⟨hw _ h, e.mono hy⟩
  | [], _ :: _, hl, _, _ => by cases hl
  | _ :: _, [], hl, _, _ => by cases hl
  | x :: xs, u :: us, hl, ⟨h, e⟩, hx => by
    refine ⟨?_, Links.replace hw hy (by simpa using hl) e fun a ha => hx a (by simp [ha])⟩
    exact hx x (by simp) _ _ h

theorem Links.at {P : Addr → Option Addr → β → Prop} {w : Addr} {b : β} {ys : List Addr} {vs : List β} {t : Option Addr} :
    ∀ {xs : List Addr} {us : List β}, xs.length = us.length → Links P (xs ++ w :: ys) (us ++ b :: vs) t → ∃ n, P w n b
  | [], [], _, ⟨h, _⟩ => ⟨_, h⟩
  | [], _ :: _, hl, _ => by cases hl
  | _ :: _, [], hl, _ => by cases hl
  | _ :: _, _ :: _, hl, ⟨_, e⟩ => Links.at (by simpa using hl) e

end

/-! ### What stays -/

/-- No string changes. -/
def KeepsText (h h' : Heap) : Prop := ∀ x s, h.textAt x = some s → h'.textAt x = some s

theorem KeepsText.refl (h : Heap) : KeepsText h h := fun _ _ e => e

theorem KeepsText.trans {h h' h'' : Heap} (a : KeepsText h h') (b : KeepsText h' h'') : KeepsText h h'' := fun x s e => b x s (a x s e)

/-- The block is a string. -/
def Block.isText : Block → Bool
  | .text .. => true
  | _ => false

theorem Alters.keepsText {M : List Addr} {h h' : Heap} (a : Alters M h h') (hM : ∀ x, x ∈ M → ∀ b, h.get x = some b → b.isText = false) :
    KeepsText h h' := fun x s e => by
  obtain ⟨n, g⟩ := Heap.textAt_get e
  exact Heap.textAt_of (a.get g fun hx => by cases hM x hx _ g)

theorem Alters.keepsTextNil {h h' : Heap} (a : Alters [] h h') : KeepsText h h' := a.keepsText fun x hx => by cases hx

/-- Filters below `n` do not change. -/
def KeepsFilters (n : Nat) (h h' : Heap) : Prop := ∀ x b, x < n → h.get x = some b → b.isFilter = true → h'.get x = some b

theorem Alters.keepsFilters {M : List Addr} {n : Nat} {h h' : Heap} (a : Alters M h h')
    (hM : ∀ x, x ∈ M → ∀ b, h.get x = some b → b.isFilter = true → n ≤ x) : KeepsFilters n h h' := fun x b hx e hf =>
  a.get e fun hc => by have := hM x hc b e hf; omega

theorem Alters.keepsFiltersNil {n : Nat} {h h' : Heap} (a : Alters [] h h') : KeepsFilters n h h' := a.keepsFilters fun x hx => by cases hx

theorem KeepsFilters.mono {n m : Nat} {h h' : Heap} (k : KeepsFilters n h h') (hm : m ≤ n) : KeepsFilters m h h' :=
  fun x b hx => k x b (by omega)

/-- Nothing below `lo` changes. -/
def Below (lo : Nat) (h h' : Heap) : Prop := h.length ≤ h'.length ∧ ∀ x, x < lo → h'.get x = h.get x

theorem Below.refl (lo : Nat) (h : Heap) : Below lo h h := ⟨Nat.le_refl _, fun _ _ => rfl⟩

theorem Below.trans {lo : Nat} {h h' h'' : Heap} (a : Below lo h h') (b : Below lo h' h'') : Below lo h h'' :=
  ⟨Nat.le_trans a.1 b.1, fun x hx => (b.2 x hx).trans (a.2 x hx)⟩

theorem Alters.below {M : List Addr} {lo : Nat} {h h' : Heap} (a : Alters M h h') (hl : lo ≤ h.length) (hM : ∀ x, x ∈ M → lo ≤ x) : Below lo h h' :=
  ⟨a.grows, fun x hx => a.others x (by omega) fun hc => by have := hM x hc; omega⟩

/-! ### The structures -/

/-- A string above `lo`. -/
def TextIn (h : Heap) (lo : Nat) (a : Addr) (s : Bytes) : Prop := lo ≤ a ∧ h.textAt a = some s

/-- A string above `lo`, or NULL. -/
def OptIn (h : Heap) (lo : Nat) (p : Option Addr) (d : Option Bytes) : Prop := h.optAt p = some d ∧ ∀ x, x ∈ p.toList → lo ≤ x

/-- A filter above `lo` without a table. -/
def FilterIn (h : Heap) (lo : Nat) (a : Addr) (next : Option Addr) (f : Filter) : Prop :=
  lo ≤ a ∧ f.table = none ∧ ∃ fn bi, h.get a = some (.filter next f.cleaner fn bi f.removeTrailing f.maxLength none) ∧
    OptIn h lo fn f.filename ∧ OptIn h lo bi f.builtin

/-- A sequence above `lo`, whose filters are below `n`. -/
def SeqIn (h : Heap) (lo n : Nat) (a : Addr) (next : Option Addr) (q : Sequence) : Prop :=
  lo ≤ a ∧ ∃ nm src fas, h.get a = some (.sequence next (some nm) fas.head? src) ∧ TextIn h lo nm q.name ∧ OptIn h lo src q.sourceFilename ∧
    fas.Nodup ∧ Links (FilterIn h lo) fas q.filters none ∧ ∀ x, x ∈ fas → x < n

theorem TextIn.keep {h h' : Heap} {lo : Nat} {a : Addr} {s : Bytes} (k : KeepsText h h') (l : TextIn h lo a s) : TextIn h' lo a s := ⟨l.1, k _ _ l.2⟩

theorem KeepsText.opt {h h' : Heap} (k : KeepsText h h') {p : Option Addr} {d : Option Bytes} (e : h.optAt p = some d) : h'.optAt p = some d := by
  cases p with
  | none => exact e
  | some x =>
    obtain ⟨n, s, g, rfl⟩ := Heap.optAt_some e (a := x) (by simp)
    have := k x s (Heap.textAt_of g)
    simp only [Heap.optAt, this]
    rfl

theorem OptIn.keep {h h' : Heap} {lo : Nat} {p : Option Addr} {d : Option Bytes} (k : KeepsText h h') (l : OptIn h lo p d) : OptIn h' lo p d :=
  ⟨k.opt l.1, l.2⟩

theorem FilterIn.keep {h h' : Heap} {lo : Nat} {a : Addr} {next : Option Addr} {f : Filter} (k : KeepsText h h') (l : FilterIn h lo a next f)
    (e : ∀ b, h.get a = some b → b.isFilter = true → h'.get a = some b) : FilterIn h' lo a next f := by
  obtain ⟨h1, h2, fn, bi, h3, h4, h5⟩ := l
  exact ⟨h1, h2, fn, bi, e _ h3 rfl, h4.keep k, h5.keep k⟩

theorem FilterIn.isFilter {h : Heap} {lo : Nat} {a : Addr} {next : Option Addr} {f : Filter} (l : FilterIn h lo a next f) :
    ∃ b, h.get a = some b ∧ b.isFilter = true := by
  obtain ⟨_, _, fn, bi, h3, _⟩ := l; exact ⟨_, h3, rfl⟩

/-- The block is a `sequence_t`. -/
def Block.isSequence : Block → Bool
  | .sequence .. => true
  | _ => false

theorem SeqIn.isSequence {h : Heap} {lo n : Nat} {a : Addr} {next : Option Addr} {q : Sequence} (l : SeqIn h lo n a next q) :
    ∃ b, h.get a = some b ∧ b.isSequence = true := by
  obtain ⟨_, _, _, _, h3, _⟩ := l; exact ⟨_, h3, rfl⟩

theorem filtersIn_keep {h h' : Heap} {lo n : Nat} {fas : List Addr} {fs : List Filter} {t : Option Addr} (k : KeepsText h h') (kf : KeepsFilters n h h')
    (l : Links (FilterIn h lo) fas fs t) (hn : ∀ x, x ∈ fas → x < n) : Links (FilterIn h' lo) fas fs t :=
  l.mono fun a ha _ _ e => e.keep k fun b hb hf => kf a b (hn a ha) hb hf

theorem SeqIn.keep {h h' : Heap} {lo n m : Nat} {a : Addr} {next : Option Addr} {q : Sequence} (k : KeepsText h h') (kf : KeepsFilters n h h')
    (hm : n ≤ m) (l : SeqIn h lo n a next q) (e : ∀ b, h.get a = some b → b.isSequence = true → h'.get a = some b) : SeqIn h' lo m a next q := by
  obtain ⟨h1, nm, src, fas, h3, h4, h5, h6, h7, h8⟩ := l
  exact ⟨h1, nm, src, fas, e _ h3 rfl, h4.keep k, h5.keep k, h6, filtersIn_keep k kf h7 h8, fun x hx => Nat.lt_of_lt_of_le (h8 x hx) hm⟩

end Detox
