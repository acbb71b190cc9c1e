import Verif.Lemmas.Buf
import Verif.Lemmas.Builtin
import Verif.Spec.Utf8

/-!
# The utf_8 filter as a pure function on units
-/

set_option autoImplicit false

namespace Detox

open Spec

/-- What `clean_utf_8` writes, with a loop bound. -/
def utf8Out (t : Table) : Nat → Bytes → Bytes
  | 0, _ => []
  | _, [] => []
  | n + 1, c :: rest =>
    match utf8Width c with
    | none => invalidReplacement :: utf8Out t n rest
    | some w =>
      match eatCont (w - 1) (unpackStart w c) rest with
      | (none, rest') => invalidReplacement :: utf8Out t n rest'
      | (some v, rest') => (utf8Replacement t v).getD ((c :: rest).take w) ++ utf8Out t n rest'

theorem eatCont_length (n v : Nat) (s : Bytes) : (eatCont n v s).2.length ≤ s.length := by
  induction n generalizing v s with
  | zero => simp [eatCont]
  | succ n ih =>
    cases s with
    | nil => simp [eatCont]
    | cons c s =>
      unfold eatCont
      split
      · have := ih (v * 64 + unpackCont c) s
        simp only [List.length_cons]; omega
      · simp

theorem cleanUtf8Loop_eq (t : Table) (n : Nat) (o : OutBuf) (s : Bytes) (hn : s.length ≤ n) :
    cleanUtf8Loop t n o s = o.pushStr (utf8Out t n s) := by
  induction n generalizing o s with
  | zero =>
    cases s with
    | nil => rfl
    | cons c s => simp at hn
  | succ n ih =>
    cases s with
    | nil => rfl
    | cons c s =>
      simp only [List.length_cons] at hn
      unfold cleanUtf8Loop utf8Out
      cases utf8Width c with
      | none =>
        dsimp only
        rw [← OutBuf.push_bind]
        simp only [ih _ s (by omega)]
      | some w =>
        dsimp only
        have hlen := eatCont_length (w - 1) (unpackStart w c) s
        generalize hg : eatCont (w - 1) (unpackStart w c) s = g at hlen
        obtain ⟨ov, rest'⟩ := g
        have hr : rest'.length ≤ n := Nat.le_trans hlen (by omega)
        cases ov with
        | none =>
          dsimp only
          rw [← OutBuf.push_bind]
          simp only [ih _ rest' hr]
        | some v =>
          dsimp only
          cases utf8Replacement t v with
          | none => simp only [Option.getD_none, OutBuf.pushStr_append, ih _ rest' hr]
          | some r => simp only [Option.getD_some, OutBuf.pushStr_append, ih _ rest' hr]

theorem cleanUtf8_eq (t : Table) (s : Bytes) :
    cleanUtf8 (some t) s = emit (s.length * t.maxDataLength + 1) (utf8Out t s.length s) := by
  unfold cleanUtf8 emit
  simp only [cleanUtf8Loop_eq _ _ _ _ (Nat.le_refl _)]

theorem utf8Out_fuel (t : Table) (n m : Nat) (s : Bytes) (hn : s.length ≤ n) (hm : s.length ≤ m) :
    utf8Out t n s = utf8Out t m s := by
  induction n generalizing m s with
  | zero =>
    cases s with
    | nil => cases m <;> rfl
    | cons c s => simp at hn
  | succ n ih =>
    cases s with
    | nil => cases m <;> rfl
    | cons c s =>
      simp only [List.length_cons] at hn hm
      cases m with
      | zero => omega
      | succ m =>
        unfold utf8Out
        cases utf8Width c with
        | none => dsimp only; rw [ih m s (by omega) (by omega)]
        | some w =>
          dsimp only
          have hlen := eatCont_length (w - 1) (unpackStart w c) s
          generalize eatCont (w - 1) (unpackStart w c) s = g at hlen
          obtain ⟨ov, rest'⟩ := g
          dsimp only at hlen
          cases ov <;> dsimp only <;> rw [ih m rest' (by omega) (by omega)]

/-- The pure utf_8 filter. -/
def utf8Fn (t : Table) (s : Bytes) : Bytes := utf8Out t s.length s

theorem utf8Fn_nil (t : Table) : utf8Fn t [] = [] := rfl

/-! ### Bit tests against the specification -/

theorem utf8Width_eq : ∀ c : Byte, utf8Width c = (leadOf c).map Prod.fst := forall_byte (by decide +kernel)

theorem isUtf8Cont_eq : ∀ c : Byte, isUtf8Cont c = isCont c := forall_byte (by decide +kernel)

theorem unpackCont_eq : ∀ c : Byte, isCont c = true → unpackCont c = c.toNat - 0x80 := forall_byte (by decide +kernel)

theorem unpackStart_eq : ∀ (c : Byte) (w base : Nat), leadOf c = some (w, base) → unpackStart w c = c.toNat - base := by
  have key : ∀ c : Byte, ∀ p ∈ leadOf c, unpackStart p.1 c = c.toNat - p.2 := forall_byte (by decide +kernel)
  intro c w base h
  exact key c (w, base) h

theorem leadOf_width : ∀ (c : Byte) (w base : Nat), leadOf c = some (w, base) → 1 ≤ w ∧ w ≤ 6 ∧ (c.toNat < 0x80 ↔ w = 1) := by
  have key : ∀ c : Byte, ∀ p ∈ leadOf c, 1 ≤ p.1 ∧ p.1 ≤ 6 ∧ (c.toNat < 0x80 ↔ p.1 = 1) := forall_byte (by decide +kernel)
  intro c w base h
  exact key c (w, base) h

/-- The value accumulated by the continuation loop. -/
def contVal (v : Nat) (conts : Bytes) : Nat := conts.foldl (fun acc x => acc * 64 + (x.toNat - 0x80)) v

theorem contVal_cons (v : Nat) (c : Byte) (conts : Bytes) :
    contVal v (c :: conts) = contVal (v * 64 + (c.toNat - 0x80)) conts := by
  unfold contVal
  rw [List.foldl_cons]

/-- The continuation loop either eats `n` continuation bytes or fails on fewer. -/
theorem eatCont_spec (n v : Nat) (s : Bytes) :
    (∃ conts rest, s = conts ++ rest ∧ conts.length = n ∧ (∀ x ∈ conts, isCont x = true) ∧
      eatCont n v s = (some (contVal v conts), rest)) ∨
    (∃ conts rest, s = conts ++ rest ∧ conts.length < n ∧ (∀ x ∈ conts, isCont x = true) ∧
      (∀ x, rest.head? = some x → isCont x = false) ∧ eatCont n v s = (none, rest)) := by
  induction n generalizing v s with
  | zero => exact Or.inl ⟨[], s, rfl, rfl, by simp, rfl⟩
  | succ n ih =>
    cases s with
    | nil => exact Or.inr ⟨[], [], rfl, by simp, by simp, by simp, rfl⟩
    | cons c s =>
      unfold eatCont
      rw [isUtf8Cont_eq]
      by_cases hc : isCont c = true
      · rw [if_pos hc, unpackCont_eq c hc]
        rcases ih (v * 64 + (c.toNat - 0x80)) s with ⟨conts, rest, h1, h2, h3, h4⟩ | ⟨conts, rest, h1, h2, h3, h4, h5⟩
        · refine Or.inl ⟨c :: conts, rest, by simp [h1], by simp [h2], ?_, by rw [contVal_cons]; exact h4⟩
          intro x hx
          rcases List.mem_cons.mp hx with rfl | hx
          · exact hc
          · exact h3 x hx
        · refine Or.inr ⟨c :: conts, rest, by simp [h1], by simp; omega, ?_, h4, h5⟩
          intro x hx
          rcases List.mem_cons.mp hx with rfl | hx
          · exact hc
          · exact h3 x hx
      · rw [if_neg hc]
        exact Or.inr ⟨[], c :: s, rfl, by simp, by simp, by simpa using hc, rfl⟩

theorem eatCont_conts (v : Nat) (conts rest : Bytes) (h : ∀ x ∈ conts, isCont x = true) :
    eatCont conts.length v (conts ++ rest) = (some (contVal v conts), rest) := by
  induction conts generalizing v with
  | nil => rfl
  | cons c conts ih =>
    have hc := h c (by simp)
    simp only [List.length_cons, List.cons_append]
    unfold eatCont
    rw [isUtf8Cont_eq, if_pos hc, unpackCont_eq c hc, ih _ (fun x hx => h x (by simp [hx])), contVal_cons]

/-- One step on a complete unit. -/
theorem utf8Fn_unit {t : Table} {u : Bytes} {v : Nat} (h : IsUnit u v) (rest : Bytes) :
    utf8Fn t (u ++ rest) = (utf8Replacement t v).getD u ++ utf8Fn t rest := by
  obtain ⟨c, conts, w, base, rfl, hl, hw, hc, rfl⟩ := h
  unfold utf8Fn
  rw [List.cons_append, List.length_cons]
  conv => lhs; unfold utf8Out
  rw [utf8Width_eq, hl]
  simp only [Option.map_some]
  rw [unpackStart_eq c w base hl, show w - 1 = conts.length by omega, eatCont_conts _ _ _ hc]
  dsimp only
  rw [utf8Out_fuel t _ rest.length rest (by simp) (Nat.le_refl _)]
  congr 2
  rw [← hw, List.take_succ_cons, List.take_left]

/-- One step on bytes that do not start a complete unit. -/
theorem utf8Fn_cases (t : Table) (s : Bytes) :
    s = [] ∨ (∃ u v rest, s = u ++ rest ∧ IsUnit u v) ∨
      (∃ bad rest, s = bad ++ rest ∧ bad ≠ [] ∧ utf8Fn t s = invalidReplacement :: utf8Fn t rest) := by
  cases s with
  | nil => exact Or.inl rfl
  | cons c s =>
    refine Or.inr ?_
    cases hl : leadOf c with
    | none =>
      refine Or.inr ⟨[c], s, rfl, by simp, ?_⟩
      unfold utf8Fn
      rw [List.length_cons]
      conv => lhs; unfold utf8Out
      rw [utf8Width_eq, hl]
      rfl
    | some p =>
      obtain ⟨w, base⟩ := p
      have hw := (leadOf_width c w base hl).1
      rcases eatCont_spec (w - 1) (c.toNat - base) s with ⟨conts, rest, h1, h2, h3, h4⟩ | ⟨conts, rest, h1, h2, h3, _, h4⟩
      · exact Or.inl ⟨c :: conts, _, rest, by simp [h1], c, conts, w, base, rfl, hl, by omega, h3, rfl⟩
      · refine Or.inr ⟨c :: conts, rest, by simp [h1], by simp, ?_⟩
        unfold utf8Fn
        rw [List.length_cons]
        conv => lhs; unfold utf8Out
        rw [utf8Width_eq, hl]
        simp only [Option.map_some]
        rw [unpackStart_eq c w base hl, h4]
        dsimp only
        rw [utf8Out_fuel t _ rest.length rest (by simp [h1]) (Nat.le_refl _)]

theorem Spec.IsUnit.ne_nil {u : Bytes} {v : Nat} (h : IsUnit u v) : u ≠ [] := by
  obtain ⟨c, conts, _, _, rfl, _⟩ := h
  simp

/-- Induction over what the filter sees: complete units and bad stretches. -/
theorem utf8_induction {p : Bytes → Prop} (t : Table) (nil : p [])
    (unit : ∀ u v rest, IsUnit u v → p rest → p (u ++ rest))
    (bad : ∀ b rest, b ≠ [] → utf8Fn t (b ++ rest) = invalidReplacement :: utf8Fn t rest → p rest → p (b ++ rest))
    (s : Bytes) : p s := by
  generalize hn : s.length = n
  induction n using Nat.strongRecOn generalizing s with
  | _ n ih =>
    rcases utf8Fn_cases t s with rfl | ⟨u, v, rest, rfl, hu⟩ | ⟨b, rest, rfl, hb, he⟩
    · exact nil
    · have := List.length_pos_iff.mpr (IsUnit.ne_nil hu)
      exact unit u v rest hu (ih rest.length (by simp at hn; omega) rest rfl)
    · have := List.length_pos_iff.mpr hb
      exact bad b rest hb he (ih rest.length (by simp at hn; omega) rest rfl)

theorem toNat_ofNat_lt {n : Nat} (h : n < 256) : (UInt8.ofNat n).toNat = n := by
  simp [UInt8.toNat_ofNat']; omega

/-- The encoding of a code point is a unit whose value is that code point. -/
theorem encode_unit {cp : Nat} (h : cp ≤ 0x10FFFF) : IsUnit (encode cp) cp := by
  unfold encode
  have cont : ∀ n, n < 64 → isCont (UInt8.ofNat (0x80 + n)) = true := by
    intro n hn
    unfold isCont
    rw [toNat_ofNat_lt (by omega)]
    simp; omega
  split
  · rename_i h1
    refine ⟨_, [], 1, 0, rfl, ?_, rfl, by simp, ?_⟩
    · unfold leadOf; rw [toNat_ofNat_lt (by omega), if_pos h1]
    · simp only [List.foldl_nil]; rw [toNat_ofNat_lt (by omega)]; omega
  · split
    · refine ⟨_, [_], 2, 0xC0, rfl, ?_, rfl, ?_, ?_⟩
      · unfold leadOf
        rw [toNat_ofNat_lt (by omega), if_neg (by omega), if_neg (by omega), if_pos (by omega)]
      · intro x hx
        rw [List.mem_singleton] at hx; subst hx
        exact cont _ (by omega)
      · simp only [List.foldl_cons, List.foldl_nil]
        rw [toNat_ofNat_lt (by omega), toNat_ofNat_lt (by omega)]
        omega
    · split
      · refine ⟨_, [_, _], 3, 0xE0, rfl, ?_, rfl, ?_, ?_⟩
        · unfold leadOf
          rw [toNat_ofNat_lt (by omega), if_neg (by omega), if_neg (by omega), if_neg (by omega), if_pos (by omega)]
        · intro x hx
          simp only [List.mem_cons, List.not_mem_nil, or_false] at hx
          rcases hx with rfl | rfl <;> exact cont _ (by omega)
        · simp only [List.foldl_cons, List.foldl_nil]
          rw [toNat_ofNat_lt (by omega), toNat_ofNat_lt (by omega), toNat_ofNat_lt (by omega)]
          omega
      · refine ⟨_, [_, _, _], 4, 0xF0, rfl, ?_, rfl, ?_, ?_⟩
        · unfold leadOf
          rw [toNat_ofNat_lt (by omega), if_neg (by omega), if_neg (by omega), if_neg (by omega),
            if_neg (by omega), if_pos (by omega)]
        · intro x hx
          simp only [List.mem_cons, List.not_mem_nil, or_false] at hx
          rcases hx with rfl | rfl | rfl <;> exact cont _ (by omega)
        · simp only [List.foldl_cons, List.foldl_nil]
          rw [toNat_ofNat_lt (by omega), toNat_ofNat_lt (by omega), toNat_ofNat_lt (by omega), toNat_ofNat_lt (by omega)]
          omega

/-- A unit determines its continuation: two units that are both prefixes of the same text coincide. -/
theorem Spec.IsUnit.append_inj {u u' r r' : Bytes} {v v' : Nat} (h : IsUnit u v) (h' : IsUnit u' v')
    (he : u ++ r = u' ++ r') : u = u' ∧ v = v' ∧ r = r' := by
  obtain ⟨c, conts, w, base, rfl, hl, hw, hc, rfl⟩ := h
  obtain ⟨c', conts', w', base', rfl, hl', hw', hc', rfl⟩ := h'
  simp only [List.cons_append, List.cons.injEq] at he
  obtain ⟨rfl, he⟩ := he
  rw [hl] at hl'
  injection hl' with hl'
  injection hl' with e1 e2
  subst e1; subst e2
  obtain ⟨rfl, rfl⟩ := List.append_inj he (by omega)
  exact ⟨rfl, rfl, rfl⟩

theorem isUnit_ascii {c : Byte} (h : c.toNat < 0x80) : IsUnit [c] c.toNat := by
  refine ⟨c, [], 1, 0, rfl, ?_, rfl, by simp, by simp⟩
  unfold leadOf
  rw [if_pos h]

/-- All bytes of a unit longer than one byte are `>= 0x80`. -/
theorem Spec.IsUnit.ascii_or_high {u : Bytes} {v : Nat} (h : IsUnit u v) :
    (∃ c : Byte, u = [c] ∧ c.toNat < 0x80 ∧ v = c.toNat) ∨ (2 ≤ u.length ∧ ∀ x ∈ u, 0x80 ≤ x.toNat) := by
  obtain ⟨c, conts, w, base, rfl, hl, hw, hc, rfl⟩ := h
  obtain ⟨h1, _, h3⟩ := leadOf_width c w base hl
  by_cases hlt : c.toNat < 0x80
  · have : conts = [] := List.length_eq_zero_iff.mp (by have := h3.mp hlt; omega)
    subst this
    have hb : base = 0 := by
      unfold leadOf at hl
      rw [if_pos hlt] at hl
      injection hl with hl
      injection hl with _ hl
      exact hl.symm
    exact Or.inl ⟨c, rfl, hlt, by simp [hb]⟩
  · refine Or.inr ⟨?_, ?_⟩
    · have : ¬ w = 1 := fun h => hlt (h3.mpr h)
      simp only [List.length_cons]; omega
    · intro x hx
      rcases List.mem_cons.mp hx with rfl | hx
      · omega
      · have := hc x hx
        unfold isCont at this
        simp at this
        exact this.1

theorem Spec.IsUnit.nulFree {u : Bytes} {v : Nat} (h : IsUnit u v) (hv : v ≠ 0) : NulFree u := by
  rcases h.ascii_or_high with ⟨c, rfl, _, rfl⟩ | ⟨_, hx⟩
  · refine nulFree_cons.mpr ⟨fun h0 => hv ?_, NulFree.nil⟩
    subst h0; rfl
  · intro h0
    have := hx 0 h0
    simp at this

end Detox
