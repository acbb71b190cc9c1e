import Verif.Lemmas.Buf
import Verif.Spec.Wipeup

set_option autoImplicit false

namespace Detox

open Spec

theorem wipeLead_eq (s : Bytes) : wipeLead s = s.dropWhile leading := by
  induction s with
  | nil => rfl
  | cons c s ih =>
    unfold wipeLead
    by_cases hc : c = 0x2D ∨ c = 0x5F ∨ c = 0x23
    · rw [if_pos hc, ih, List.dropWhile_cons_of_pos]
      rcases hc with rfl | rfl | rfl <;> rfl
    · rw [if_neg hc, List.dropWhile_cons_of_neg]
      simp only [not_or] at hc
      simp [leading, hc]

theorem reducible_iff_idx (rt : Bool) (c : Byte) :
    reducible rt c = ((wipeSearch rt).findIdx? (· = c)).isSome := by
  cases rt <;>
    simp [reducible, wipeSearch, List.findIdx?_cons, eq_comm] <;>
    by_cases h1 : c = 0x2E <;> by_cases h2 : c = 0x2D <;> by_cases h3 : c = 0x5F <;>
    simp [h1, h2, h3, eq_comm]

/-- A pending run: its characters are reducible and `i` is the index of its strongest character. -/
structure Pending (rt : Bool) (r : Bytes) (i : Nat) : Prop where
  all : ∀ c ∈ r, reducible rt c = true
  lt : i < (wipeSearch rt).length
  mem : (wipeSearch rt).getD i 0 ∈ r
  first : ∀ j, j < i → (wipeSearch rt).getD j 0 ∉ r

theorem Pending.char {rt : Bool} {r : Bytes} {i : Nat} (h : Pending rt r i) :
    (wipeSearch rt).getD i 0 = runChar r := by
  obtain ⟨hall, hlt, hmem, hfirst⟩ := h
  cases rt with
  | true =>
    simp only [wipeSearch, if_true, List.length_cons, List.length_nil] at hlt
    have : i = 0 ∨ i = 1 ∨ i = 2 := by omega
    rcases this with rfl | rfl | rfl
    · simp only [wipeSearch, if_true] at hmem ⊢
      have : (0x2E : Byte) ∈ r := hmem
      simp [runChar, this]
    · have h0 : (0x2E : Byte) ∉ r := hfirst 0 (by omega)
      have h1 : (0x2D : Byte) ∈ r := hmem
      simp [runChar, h0, h1, wipeSearch]
    · have h0 : (0x2E : Byte) ∉ r := hfirst 0 (by omega)
      have h1 : (0x2D : Byte) ∉ r := hfirst 1 (by omega)
      simp [runChar, h0, h1, wipeSearch]
  | false =>
    have hdot : (0x2E : Byte) ∉ r := by
      intro hm
      have := hall _ hm
      simp [reducible] at this
    have : i = 0 ∨ i = 1 := by simp [wipeSearch] at hlt; omega
    rcases this with rfl | rfl
    · have h1 : (0x2D : Byte) ∈ r := hmem
      simp [runChar, hdot, h1, wipeSearch]
    · have h1 : (0x2D : Byte) ∉ r := hfirst 0 (by omega)
      simp [runChar, hdot, h1, wipeSearch]

theorem idx_spec {rt : Bool} {c : Byte} {seek : Nat} (h : (wipeSearch rt).findIdx? (· = c) = some seek) :
    seek < (wipeSearch rt).length ∧ (wipeSearch rt).getD seek 0 = c ∧
      ∀ j, j < seek → (wipeSearch rt).getD j 0 ≠ c := by
  rw [List.findIdx?_eq_some_iff_getElem] at h
  obtain ⟨hl, hp, hlt⟩ := h
  refine ⟨hl, ?_, ?_⟩
  · rw [List.getD_eq_getElem?_getD, List.getElem?_eq_getElem hl]
    simpa using hp
  · intro j hj
    have := hlt j hj
    have hjl : j < (wipeSearch rt).length := by omega
    rw [List.getD_eq_getElem?_getD, List.getElem?_eq_getElem hjl]
    simpa using this

theorem Pending.one {rt : Bool} {c : Byte} {seek : Nat} (h : (wipeSearch rt).findIdx? (· = c) = some seek) :
    Pending rt [c] seek := by
  obtain ⟨hl, hc, hlt⟩ := idx_spec h
  refine ⟨?_, hl, by rw [hc]; simp, ?_⟩
  · intro x hx
    simp only [List.mem_singleton] at hx
    subst hx
    rw [reducible_iff_idx, h]; rfl
  · intro j hj
    simpa using hlt j hj

theorem Pending.snoc {rt : Bool} {r : Bytes} {i : Nat} (hp : Pending rt r i) {c : Byte} {seek : Nat}
    (h : (wipeSearch rt).findIdx? (· = c) = some seek) :
    Pending rt (r ++ [c]) (if seek < i then seek else i) := by
  have h1 := Pending.one h
  have hall : ∀ x ∈ r ++ [c], reducible rt x = true := by
    intro x hx
    rw [List.mem_append] at hx
    exact hx.elim (hp.all x) (h1.all x)
  split
  · refine ⟨hall, h1.lt, List.mem_append_right _ h1.mem, ?_⟩
    intro j hj
    rw [List.mem_append, not_or]
    exact ⟨hp.first j (by omega), h1.first j hj⟩
  · refine ⟨hall, hp.lt, List.mem_append_left _ hp.mem, ?_⟩
    intro j hj
    rw [List.mem_append, not_or]
    exact ⟨hp.first j hj, h1.first j (by omega)⟩

theorem wipeOut_reduces (rt : Bool) (s : Bytes) :
    Reduces rt s (wipeOut (wipeSearch rt) none s) ∧
    ∀ r i, Pending rt r i → Reduces rt (r ++ s) (wipeOut (wipeSearch rt) (some i) s) := by
  induction s with
  | nil =>
    refine ⟨Reduces.nil, ?_⟩
    intro r i hp
    unfold wipeOut
    dsimp only
    rw [hp.char]
    exact Reduces.run r [] [] (List.ne_nil_of_mem hp.mem) hp.all (by simp) Reduces.nil
  | cons c s ih =>
    cases hf : (wipeSearch rt).findIdx? (· = c) with
    | some seek =>
      constructor
      · unfold wipeOut
        rw [hf]
        exact ih.2 [c] seek (Pending.one hf)
      · intro r i hp
        have := ih.2 _ _ (hp.snoc hf)
        unfold wipeOut
        rw [hf]
        dsimp only
        rw [List.append_assoc] at this
        split <;> simp_all
    | none =>
      have hc : reducible rt c = false := by rw [reducible_iff_idx, hf]; rfl
      have hk : Reduces rt (c :: s) (c :: wipeOut (wipeSearch rt) none s) := Reduces.keep _ _ _ hc ih.1
      constructor
      · unfold wipeOut
        rw [hf]
        exact hk
      · intro r i hp
        unfold wipeOut
        rw [hf]
        dsimp only
        rw [hp.char]
        refine Reduces.run r _ _ (List.ne_nil_of_mem hp.mem) hp.all ?_ hk
        intro x hx
        simp only [List.head?_cons, Option.some.injEq] at hx
        rw [← hx]; exact hc

/-! ### The specification is a function -/

theorem run_prefix_unique {rt : Bool} {r r' s s' : Bytes} (hr : ∀ c ∈ r, reducible rt c = true)
    (hr' : ∀ c ∈ r', reducible rt c = true) (hs : ∀ c, s.head? = some c → reducible rt c = false)
    (hs' : ∀ c, s'.head? = some c → reducible rt c = false) (he : r ++ s = r' ++ s') :
    r = r' ∧ s = s' := by
  induction r generalizing r' with
  | nil =>
    cases r' with
    | nil => exact ⟨rfl, he⟩
    | cons c r' =>
      simp only [List.nil_append, List.cons_append] at he
      have h1 := hs c (by rw [he]; rfl)
      have h2 := hr' c (by simp)
      rw [h1] at h2; cases h2
  | cons c r ih =>
    cases r' with
    | nil =>
      simp only [List.nil_append, List.cons_append] at he
      have h1 := hs' c (by rw [← he]; rfl)
      have h2 := hr c (by simp)
      rw [h1] at h2; cases h2
    | cons c' r' =>
      simp only [List.cons_append, List.cons.injEq] at he
      obtain ⟨rfl, he⟩ := he
      have := ih (fun x hx => hr x (by simp [hx])) (fun x hx => hr' x (by simp [hx])) he
      exact ⟨by rw [this.1], this.2⟩

theorem Spec.Reduces.unique {rt : Bool} {s o : Bytes} (h : Reduces rt s o) :
    ∀ {o' : Bytes}, Reduces rt s o' → o = o' := by
  induction h with
  | nil =>
    intro o' h'
    generalize hs : ([] : Bytes) = s' at h'
    cases h' with
    | nil => rfl
    | keep c s o _ _ => cases hs
    | run r s o hr _ _ _ =>
      have := List.append_eq_nil_iff.mp hs.symm
      exact absurd this.1 hr
  | keep c s o hc _ ih =>
    intro o' h'
    generalize hs : (c :: s : Bytes) = s' at h'
    cases h' with
    | nil => cases hs
    | keep c' s' o' _ h' =>
      cases hs
      rw [ih h']
    | run r s' o' hr hall _ _ =>
      cases r with
      | nil => exact absurd rfl hr
      | cons x r =>
        simp only [List.cons_append, List.cons.injEq] at hs
        have := hall x (by simp)
        rw [← hs.1, hc] at this
        cases this
  | run r s o hr hall hs' _ ih =>
    intro o' h'
    generalize hs : (r ++ s : Bytes) = t at h'
    cases h' with
    | nil => exact absurd (List.append_eq_nil_iff.mp hs).1 hr
    | keep c t o' hc h' =>
      cases r with
      | nil => exact absurd rfl hr
      | cons x r =>
        simp only [List.cons_append, List.cons.injEq] at hs
        have := hall x (by simp)
        rw [hs.1, hc] at this
        cases this
    | run r' t o' hr' hall' ht h' =>
      obtain ⟨rfl, rfl⟩ := run_prefix_unique hall hall' hs' ht hs
      rw [ih h']

/-! ### Properties of the specification -/

theorem reducible_runChar {rt : Bool} {r : Bytes} (hr : r ≠ []) (hall : ∀ c ∈ r, reducible rt c = true) :
    reducible rt (runChar r) = true ∧ runChar r ∈ r := by
  have hm : runChar r ∈ r := by
    unfold runChar
    split
    · assumption
    · split
      · assumption
      · rename_i h1 h2
        obtain ⟨x, r', rfl⟩ := List.exists_cons_of_ne_nil hr
        have := hall x (by simp)
        simp only [reducible, Bool.or_eq_true, decide_eq_true_eq, Bool.and_eq_true] at this
        rcases this with (h | h) | h
        · subst h; simp at h2
        · subst h; simp
        · rw [h.2] at h1; simp at h1
  exact ⟨hall _ hm, hm⟩

/-- No two adjacent reducible characters. -/
def NoAdjacent (rt : Bool) : Bytes → Prop
  | a :: b :: s => ¬ (reducible rt a = true ∧ reducible rt b = true) ∧ NoAdjacent rt (b :: s)
  | _ => True

theorem Spec.Reduces.head {rt : Bool} {s o : Bytes} (h : Reduces rt s o) (c : Byte) (ho : o.head? = some c) :
    (reducible rt c = false ∧ s.head? = some c) ∨
    (reducible rt c = true ∧ ∃ x, s.head? = some x ∧ reducible rt x = true) := by
  cases h with
  | nil => simp at ho
  | keep c' s o hc _ =>
    simp only [List.head?_cons, Option.some.injEq] at ho
    subst ho
    exact Or.inl ⟨hc, by simp⟩
  | run r s o hr hall _ _ =>
    simp only [List.head?_cons, Option.some.injEq] at ho
    subst ho
    obtain ⟨x, r', rfl⟩ := List.exists_cons_of_ne_nil hr
    exact Or.inr ⟨(reducible_runChar hr hall).1, x, by simp, hall x (by simp)⟩

theorem noAdjacent_cons {rt : Bool} {c : Byte} {o : Bytes}
    (h : ∀ x, o.head? = some x → ¬ (reducible rt c = true ∧ reducible rt x = true)) (ho : NoAdjacent rt o) :
    NoAdjacent rt (c :: o) := by
  cases o with
  | nil => trivial
  | cons x o => exact ⟨h x rfl, ho⟩

theorem Spec.Reduces.noAdjacent {rt : Bool} {s o : Bytes} (h : Reduces rt s o) : NoAdjacent rt o := by
  induction h with
  | nil => trivial
  | keep c s o hc _ ih =>
    exact noAdjacent_cons (fun x _ hh => by rw [hc] at hh; cases hh.1) ih
  | run r s o hr hall hs h' ih =>
    refine noAdjacent_cons (fun x hx hh => ?_) ih
    rcases h'.head x hx with ⟨hf, _⟩ | ⟨_, y, hy, hyt⟩
    · rw [hf] at hh; cases hh.2
    · rw [hs y hy] at hyt; cases hyt

theorem Spec.Reduces.length_le {rt : Bool} {s o : Bytes} (h : Reduces rt s o) : o.length ≤ s.length := by
  induction h with
  | nil => simp
  | keep c s o hc _ ih => simpa using ih
  | run r s o hr _ _ _ ih =>
    have := List.length_pos_iff.mpr hr
    simp only [List.length_cons, List.length_append]; omega

theorem Spec.Reduces.mem {rt : Bool} {s o : Bytes} (h : Reduces rt s o) : ∀ c ∈ o, c ∈ s := by
  induction h with
  | nil => simp
  | keep c s o hc _ ih =>
    intro x hx
    simp only [List.mem_cons] at hx ⊢
    exact hx.imp id (ih x)
  | run r s o hr hall _ _ ih =>
    intro x hx
    simp only [List.mem_cons] at hx
    rcases hx with rfl | hx
    · exact List.mem_append_left _ (reducible_runChar hr hall).2
    · exact List.mem_append_right _ (ih x hx)

theorem Spec.Reduces.filter {rt : Bool} {s o : Bytes} (h : Reduces rt s o) (p : Byte → Bool)
    (hp : ∀ c, reducible rt c = true → p c = false) : o.filter p = s.filter p := by
  induction h with
  | nil => rfl
  | keep c s o hc _ ih => simp only [List.filter_cons, ih]
  | run r s o hr hall _ _ ih =>
    have h1 := hp _ (reducible_runChar hr hall).1
    have h2 : r.filter p = [] := by
      rw [List.filter_eq_nil_iff]
      intro x hx
      simp [hp x (hall x hx)]
    rw [List.filter_append, h2, List.filter_cons, h1]
    simpa using ih

/-- A string without adjacent reducible characters is its own reduction. -/
theorem reduces_self {rt : Bool} {s : Bytes} (h : NoAdjacent rt s) : Reduces rt s s := by
  induction s with
  | nil => exact Reduces.nil
  | cons c s ih =>
    have hs : NoAdjacent rt s := by
      cases s with
      | nil => trivial
      | cons x s => exact h.2
    cases hc : reducible rt c with
    | false => exact Reduces.keep _ _ _ hc (ih hs)
    | true =>
      have hr : runChar [c] = c := by
        have := (reducible_runChar (rt := rt) (r := [c]) (by simp) (by simpa using hc)).2
        simpa using this
      have := Reduces.run (rt := rt) [c] s s (by simp) (by simpa using hc) ?_ (ih hs)
      · rw [hr] at this; exact this
      · intro x hx
        cases s with
        | nil => simp at hx
        | cons y s =>
          simp only [List.head?_cons, Option.some.injEq] at hx
          subst hx
          have := h.1
          cases hy : reducible rt y with
          | false => rfl
          | true => exact absurd ⟨hc, hy⟩ this

theorem dropWhile_self {p : Byte → Bool} {s : Bytes} (h : ∀ c, s.head? = some c → p c = false) :
    s.dropWhile p = s := by
  cases s with
  | nil => rfl
  | cons c s => rw [List.dropWhile_cons_of_neg]; simp [h c rfl]

theorem dropWhile_head {p : Byte → Bool} {s : Bytes} (c : Byte) (h : (s.dropWhile p).head? = some c) :
    p c = false := by
  induction s with
  | nil => simp at h
  | cons x s ih =>
    cases hx : p x with
    | true => rw [List.dropWhile_cons_of_pos hx] at h; exact ih h
    | false =>
      rw [List.dropWhile_cons_of_neg (by simp [hx])] at h
      simp only [List.head?_cons, Option.some.injEq] at h
      rw [← h]; exact hx

/-- `clean_wipeup` never fails and returns the documented reduction. -/
theorem cleanWipeup_ok (rt : Bool) (s : Bytes) (hs : NulFree s) :
    cleanWipeup rt s = .ok (wipeOut (wipeSearch rt) none (wipeLead s)) ∧
    IsWipeup rt s (wipeOut (wipeSearch rt) none (wipeLead s)) ∧
    NulFree (wipeOut (wipeSearch rt) none (wipeLead s)) := by
  have hw : IsWipeup rt s (wipeOut (wipeSearch rt) none (wipeLead s)) := by
    unfold IsWipeup
    rw [← wipeLead_eq]
    exact (wipeOut_reduces rt _).1
  have hn : NulFree (wipeOut (wipeSearch rt) none (wipeLead s)) := by
    intro h0
    have h1 := Reduces.mem hw 0 h0
    exact hs ((List.dropWhile_sublist leading).subset h1)
  refine ⟨?_, hw, hn⟩
  rw [cleanWipeup_eq, emit_eq, if_pos, cstr_of_nulFree hn]
  have := wipeOut_length (wipeSearch rt) none (wipeLead s)
  simp at this
  omega

end Detox
