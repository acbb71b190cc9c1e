import Verif.Lemmas.Flex
import Verif.Model.FlexBuffer
import Verif.Spec.ConfigScan

/-!
# The scanner in its buffer matches what the scanner on a list matches
-/

set_option autoImplicit false

namespace Detox

/-! ### Tables -/

/-- The states that text leads to. -/
def usedState (s : Nat) : Bool := decide (s < 111) && s != 0 && s != 2 && s != 3

def accOf (s : Nat) : Nat := (yyAccept[s]?).getD 0

def baseOf (s : Nat) : Nat := (yyBase[s]?).getD 234

def nextOf (s e : Nat) : Nat := (yyNextState 4 s e).getD 110

def bufferFacts (s : Nat) : Bool :=
  !usedState s ||
    (match yyAccept[s]? with | some a => decide (a ≤ 23) | none => false) && (yyBase[s]?).isSome && decide (yyNextState 4 s 0 = some 3) &&
    ((List.range 57).all fun e =>
      match yyNextState 4 s (e + 1) with
      | some s' => usedState s' && (baseOf s != 234 || s' == 110)
      | none => false) && (baseOf s != 234 || s == 110 || accOf s != 0)

theorem bufferFacts_all : (List.range 111).all bufferFacts = true := by decide +kernel

theorem eobFacts_all : (List.range 58).all (fun e => decide (yyNextState 4 3 e = some 110)) = true := by decide +kernel

theorem yyClass_range : ∀ c : Byte, ∃ e, yyClass c = some (e + 1) ∧ e < 57 ∧ (c ≠ 0 → yyEc[c.toNat]? = some (e + 1)) := by
  have h : ∀ c : Byte, (match yyClass c with
      | some (e + 1) => decide (e < 57) && (c == 0 || decide (yyEc[c.toNat]? = some (e + 1)))
      | _ => false) = true := forall_byte (by decide +kernel)
  intro c
  have := h c
  split at this
  · rename_i e he
    simp only [Bool.and_eq_true, decide_eq_true_eq, Bool.or_eq_true, beq_iff_eq] at this
    exact ⟨e, he, this.1, fun h => this.2.resolve_left h⟩
  · cases this

theorem used_spec {s : Nat} (h : usedState s = true) :
    yyAccept[s]? = some (accOf s) ∧ accOf s ≤ 23 ∧ yyBase[s]? = some (baseOf s) ∧ yyNextState 4 s 0 = some 3 ∧
    (∀ e, e < 57 → yyNextState 4 s (e + 1) = some (nextOf s (e + 1)) ∧ usedState (nextOf s (e + 1)) = true ∧
      (baseOf s = 234 → nextOf s (e + 1) = 110)) ∧ (baseOf s = 234 → s ≠ 110 → accOf s ≠ 0) := by
  have hlt : s < 111 := by unfold usedState at h; simp at h; omega
  have := List.all_eq_true.1 bufferFacts_all s (List.mem_range.2 hlt)
  unfold bufferFacts at this
  simp only [h, Bool.not_true, Bool.false_or, Bool.and_eq_true, decide_eq_true_eq] at this
  obtain ⟨⟨⟨⟨h1, h2⟩, h3⟩, h4⟩, h5⟩ := this
  refine ⟨?_, ?_, ?_, h3, ?_, ?_⟩
  · split at h1
    · rename_i a ha
      simp [accOf, ha]
    · cases h1
  · split at h1
    · rename_i a ha
      simpa [accOf, ha] using h1
    · cases h1
  · cases hb : yyBase[s]? with
    | none => rw [hb] at h2; cases h2
    | some b => simp [baseOf, hb]
  · intro e he
    have := List.all_eq_true.1 h4 e (List.mem_range.2 he)
    split at this
    · rename_i s' hs'
      simp only [Bool.and_eq_true, Bool.or_eq_true, bne_iff_ne, ne_eq, beq_iff_eq] at this
      have hn : nextOf s (e + 1) = s' := by simp [nextOf, hs']
      rw [hn]
      exact ⟨hs', this.1, fun hb => this.2.resolve_left fun h => h hb⟩
    · cases this
  · intro hb h110
    simp only [Bool.or_eq_true, bne_iff_ne, ne_eq, beq_iff_eq] at h5
    rcases h5 with (h5 | h5) | h5
    · exact absurd hb h5
    · exact absurd h5 h110
    · exact h5

theorem eob_spec (e : Nat) (h : e < 58) : yyNextState 4 3 e = some 110 :=
  of_decide_eq_true (List.all_eq_true.1 eobFacts_all e (List.mem_range.2 h))

theorem acc_110 : accOf 110 = 0 := by decide +kernel

theorem base_110 : baseOf 110 = 234 := by decide +kernel

theorem used_1 : usedState 1 = true := by decide

theorem base_1 : baseOf 1 ≠ 234 := by decide +kernel

/-- The state after a character. -/
def afterByte (s : Nat) (c : Byte) : Nat := nextOf s ((yyClass c).getD 0)

theorem after_spec {s : Nat} (h : usedState s = true) (c : Byte) :
    ∃ e, yyClass c = some (e + 1) ∧ (c ≠ 0 → yyEc[c.toNat]? = some (e + 1)) ∧ yyNextState 4 s (e + 1) = some (afterByte s c) ∧
      usedState (afterByte s c) = true ∧ (baseOf s = 234 → afterByte s c = 110) := by
  obtain ⟨e, h1, h2, h3⟩ := yyClass_range c
  obtain ⟨_, _, _, _, h4, _⟩ := used_spec h
  obtain ⟨h5, h6, h7⟩ := h4 e h2
  have : afterByte s c = nextOf s (e + 1) := by simp [afterByte, h1]
  rw [this]
  exact ⟨e, h1, h3, h5, h6, h7⟩

/-! ### Matching on a list -/

/-- What is found in a state that ends the matching. -/
def finish (s k : Nat) (last : Option (Nat × Nat)) : Option (Nat × Nat) := if accOf s ≠ 0 then some (accOf s, k) else last

/-- As `yyMatch`, but the state can be one that ends the matching. -/
def yyMatchFrom (s k : Nat) (last : Option (Nat × Nat)) (q : Bytes) : Option (Nat × Nat) :=
  if baseOf s = 234 then finish s k last else yyMatch s k last q

theorem yyMatch_nil {s : Nat} (h : usedState s = true) (k : Nat) (last : Option (Nat × Nat)) : yyMatch s k last [] = finish s k last := by
  simp only [yyMatch, (used_spec h).1, Option.bind_some, finish]

theorem yyMatchFrom_nil {s : Nat} (h : usedState s = true) (k : Nat) (last : Option (Nat × Nat)) :
    yyMatchFrom s k last [] = finish s k last := by
  unfold yyMatchFrom
  split
  · rfl
  · exact yyMatch_nil h k last

theorem yyMatch_cons {s : Nat} (h : usedState s = true) (k : Nat) (last : Option (Nat × Nat)) (c : Byte) (q : Bytes) :
    yyMatch s k last (c :: q) = yyMatchFrom (afterByte s c) (k + 1) (finish s k last) q := by
  obtain ⟨e, h1, _, h3, h4, _⟩ := after_spec h c
  simp only [yyMatch, (used_spec h).1, h1, h3, (used_spec h4).1, (used_spec h4).2.2.1, Option.bind_some]
  unfold yyMatchFrom
  by_cases hb : baseOf (afterByte s c) = 234
  · rw [if_pos hb, if_neg (by simpa using hb)]
    unfold finish
    split <;> rfl
  · rw [if_neg hb, if_pos hb]
    rfl

/-- The states on the way from the start over `p`, none of which but the last ends the matching; `last` is the last accepting one and
its position. -/
inductive Along : Bytes → Nat → Option (Nat × Nat) → Prop
  | nil : Along [] 1 none
  | snoc {p : Bytes} {s : Nat} {last : Option (Nat × Nat)} (c : Byte) : Along p s last → baseOf s ≠ 234 →
      Along (p ++ [c]) (afterByte s c) (if accOf s ≠ 0 then some (s, p.length) else last)

theorem Along.used {p : Bytes} {s : Nat} {last : Option (Nat × Nat)} (h : Along p s last) : usedState s = true := by
  induction h with
  | nil => exact used_1
  | snoc c _ _ ih => exact (after_spec ih c).choose_spec.2.2.2.1

theorem Along.last_le {p : Bytes} {s : Nat} {last : Option (Nat × Nat)} (h : Along p s last) : ∀ x, last = some x → x.2 < p.length := by
  induction h with
  | nil => intro x hx; cases hx
  | snoc c _ _ ih =>
    intro x hx
    split at hx
    · cases hx; simp
    · have := ih x hx
      simp; omega

/-- The rule of an accepting state. -/
def ruleOf (last : Option (Nat × Nat)) : Option (Nat × Nat) := last.map fun x => (accOf x.1, x.2)

theorem Along.match_eq {p : Bytes} {s : Nat} {last : Option (Nat × Nat)} (h : Along p s last) : ∀ q,
    yyMatch 1 0 none (p ++ q) = yyMatchFrom s p.length (ruleOf last) q := by
  induction h with
  | nil =>
    intro q
    unfold yyMatchFrom
    rw [if_neg base_1]
    rfl
  | @snoc p s last c h hb ih =>
    intro q
    rw [List.append_assoc, ih]
    unfold yyMatchFrom
    rw [if_neg hb, List.singleton_append, yyMatch_cons h.used]
    rw [show (p ++ [c]).length = p.length + 1 by simp]
    unfold yyMatchFrom
    have : finish s p.length (ruleOf last) = ruleOf (if accOf s ≠ 0 then some (s, p.length) else last) := by
      unfold finish
      split <;> rfl
    rw [this]

theorem Along.last_acc {p : Bytes} {s : Nat} {last : Option (Nat × Nat)} (h : Along p s last) :
    ∀ x, last = some x → accOf x.1 ≠ 0 ∧ usedState x.1 = true := by
  induction h with
  | nil => intro x hx; cases hx
  | @snoc p s last c h _ ih =>
    intro x hx
    split at hx
    · cases hx; exact ⟨by assumption, h.used⟩
    · exact ih x hx

/-! ### Matching in the buffer -/

/-- The variables for the last accepting state, if there is one, for a text that begins at `bp`. -/
def LastIs (L : Nat × Option Nat) (bp : Nat) (last : Option (Nat × Nat)) : Prop := ∀ x, last = some x → L = (x.1, some (bp + x.2))

theorem LastIs.step {L : Nat × Option Nat} {bp : Nat} {last : Option (Nat × Nat)} (h : LastIs L bp last) (s k : Nat) :
    LastIs (if accOf s ≠ 0 then (s, some (bp + k)) else L) bp (if accOf s ≠ 0 then some (s, k) else last) := by
  intro x hx
  split at hx
  · cases hx
    rename_i ha
    rw [if_pos ha]
  · rename_i ha
    rw [if_neg ha]
    exact h x hx

/-- `yy_find_action` will find this match, in state `s` after `n` characters; at most `m` characters are there. -/
def Found (M : Option (Nat × Nat)) (s n : Nat) (L : Nat × Option Nat) (bp m : Nat) : Prop :=
  M = none ∨
  (accOf s ≠ 0 ∧ n ≤ m ∧ M = some (accOf s, n)) ∨
  (accOf s = 0 ∧ ∃ ls k, L = (ls, some (bp + k)) ∧ usedState ls = true ∧ accOf ls ≠ 0 ∧ k ≤ m ∧ M = some (accOf ls, k))

theorem found_finish {p : Bytes} {s : Nat} {last : Option (Nat × Nat)} (h : Along p s last) {L : Nat × Option Nat} {bp : Nat}
    (hL : LastIs L bp last) (m : Nat) (hm : p.length ≤ m) : Found (finish s p.length (ruleOf last)) s p.length L bp m := by
  unfold finish
  split
  · rename_i ha
    exact .inr (.inl ⟨ha, hm, rfl⟩)
  · rename_i ha
    cases hl : last with
    | none => exact .inl rfl
    | some x =>
      have h1 := h.last_acc x hl
      have h2 := h.last_le x hl
      exact .inr (.inr ⟨by simpa using ha, x.1, x.2, hL x hl, h1.2, h1.1, by omega, rfl⟩)

theorem ec_zero : yyEc[(0 : Byte).toNat]? = some 0 := by decide +kernel

theorem ec_range : ∀ c : Byte, ∃ e, yyEc[c.toNat]? = some e ∧ e < 58 := by
  have h : ∀ c : Byte, (match yyEc[c.toNat]? with | some e => decide (e < 58) | none => false) = true := forall_byte (by decide +kernel)
  intro c
  have := h c
  split at this
  · rename_i e he
    exact ⟨e, he, of_decide_eq_true this⟩
  · cases this

theorem acc_3 : yyAccept[3]? = some 24 := by decide +kernel

theorem base_3 : yyBase[3]? = some 225 := by decide +kernel

theorem base_110' : yyBase[110]? = some 234 := by decide +kernel

/-- At a NUL. -/
theorem yyScan_nul {s : Nat} (hs : usedState s = true) (cp : Nat) (L : Nat × Option Nat) (x : Byte) (rest : Cells) :
    yyScan s cp L (some 0 :: some x :: rest) = .ok (110, cp + 2, (3, some (cp + 1))) := by
  obtain ⟨e, he, hlt⟩ := ec_range x
  obtain ⟨h1, _, _, h4, _⟩ := used_spec hs
  simp only [yyScan, ec_zero, h1, h4, base_3, yyGet, Yy.bind, acc_3, he, eob_spec e hlt, base_110']
  simp

/-- The loop stops at a NUL, in the text or behind it, or finds the match. -/
theorem yyScan_spec (ahead : Bytes) (junk : Cells) (bp : Nat) : ∀ {p : Bytes} {s : Nat} {last : Option (Nat × Nat)}, Along p s last →
    ∀ L, LastIs L bp last →
    (∃ a1 a2 s1 last1, ahead = a1 ++ a2 ∧ (a2 = [] ∨ ∃ a3, a2 = 0 :: a3) ∧ Along (p ++ a1) s1 last1 ∧
      yyScan s (bp + p.length) L ((ahead ++ [0, 0]).map some ++ junk) =
        .ok (110, bp + (p ++ a1).length + 2, (3, some (bp + (p ++ a1).length + 1)))) ∨
    (∃ s1 n L1, yyScan s (bp + p.length) L ((ahead ++ [0, 0]).map some ++ junk) = .ok (s1, bp + n, L1) ∧ usedState s1 = true ∧ ahead ≠ [] ∧
      ∀ q, Found (yyMatch 1 0 none (p ++ ahead ++ q)) s1 n L1 bp (p ++ ahead).length) := by
  induction ahead with
  | nil =>
    intro p s last h L hL
    refine .inl ⟨[], [], s, last, rfl, .inl rfl, by simpa using h, ?_⟩
    rw [List.append_nil]
    exact yyScan_nul h.used _ _ _ _
  | cons c ahead ih =>
    intro p s last h L hL
    by_cases hc : c = 0
    · subst hc
      refine .inl ⟨[], 0 :: ahead, s, last, rfl, .inr ⟨ahead, rfl⟩, by simpa using h, ?_⟩
      rw [List.append_nil]
      cases ahead with
      | nil => exact yyScan_nul h.used _ _ _ _
      | cons d ahead => exact yyScan_nul h.used _ _ _ _
    · obtain ⟨e, h1, h2, h3, h4, h5⟩ := after_spec h.used c
      obtain ⟨u1, _, u3, _, _, u6⟩ := used_spec h.used
      obtain ⟨v1, _, v3, _, _, _⟩ := used_spec h4
      have hstep : yyScan s (bp + p.length) L (((c :: ahead) ++ [0, 0]).map some ++ junk) =
          if baseOf (afterByte s c) ≠ 234 then
            yyScan (afterByte s c) (bp + p.length + 1) (if accOf s ≠ 0 then (s, some (bp + p.length)) else L)
              ((ahead ++ [0, 0]).map some ++ junk)
          else .ok (afterByte s c, bp + p.length + 1, (if accOf s ≠ 0 then (s, some (bp + p.length)) else L)) := by
        simp only [List.cons_append, List.map_cons, yyScan, h2 hc, u1, h3, v3, yyGet, Yy.bind]
      have hL' := hL.step s p.length
      by_cases hb : baseOf s = 234
      · have h110 := h5 hb
        refine .inr ⟨110, p.length + 1, if accOf s ≠ 0 then (s, some (bp + p.length)) else L, ?_, by decide, by simp, fun q => ?_⟩
        · rw [hstep, h110, if_neg (by rw [base_110]; decide)]
          rfl
        · rw [List.append_assoc, h.match_eq]
          unfold yyMatchFrom
          rw [if_pos hb]
          rcases found_finish h hL (p ++ c :: ahead).length (by simp) with hf | ⟨ha, hm, hf⟩ | ⟨ha, ls, k, e1, e2, e3, e4, e5⟩
          · exact .inl hf
          · refine .inr (.inr ⟨acc_110, s, p.length, ?_, h.used, ha, hm, hf⟩)
            rw [if_pos ha]
          · refine .inr (.inr ⟨acc_110, ls, k, ?_, e2, e3, e4, e5⟩)
            rw [if_neg (by simpa using ha)]
            exact e1
      · have hA := h.snoc c hb
        have hlen : (p ++ [c]).length = p.length + 1 := by simp
        by_cases hb' : baseOf (afterByte s c) = 234
        · refine .inr ⟨afterByte s c, p.length + 1, if accOf s ≠ 0 then (s, some (bp + p.length)) else L, ?_, h4, by simp, fun q => ?_⟩
          · rw [hstep, if_neg (by simpa using hb')]
            rfl
          · have : p ++ c :: ahead ++ q = p ++ [c] ++ (ahead ++ q) := by simp
            rw [this, hA.match_eq]
            unfold yyMatchFrom
            rw [if_pos hb', ← hlen]
            exact found_finish hA hL' _ (by simp)
        · rw [hstep, if_pos hb']
          have := ih hA _ hL'
          rw [hlen, ← Nat.add_assoc] at this
          rcases this with ⟨a1, a2, s1, last1, e1, e2, e3, e4⟩ | ⟨s1, n, L1, e1, e2, _, e3⟩
          · refine .inl ⟨c :: a1, a2, s1, last1, by simp [e1], e2, by simpa using e3, ?_⟩
            rw [e4]
            simp
          · refine .inr ⟨s1, n, L1, e1, e2, by simp, fun q => ?_⟩
            have h := e3 q
            simpa using h

/-- `yy_get_previous_state` finds the state again, and what was accepted last. -/
theorem yyPrev_spec (p : Bytes) (bp : Nat) (L : Nat × Option Nat) {s : Nat} {last : Option (Nat × Nat)} (h : Along p s last) :
    ∃ L', yyPrev 1 bp L (p.map some) = .ok (s, L') ∧ LastIs L' bp last := by
  have gen : ∀ (q : Bytes) (t cp : Nat) (L : Nat × Option Nat) (rest : Bytes) (t' : Nat) (L' : Nat × Option Nat),
      yyPrev t cp L (q.map some) = .ok (t', L') → yyPrev t cp L ((q ++ rest).map some) = yyPrev t' (cp + q.length) L' (rest.map some) := by
    intro q
    induction q with
    | nil => intro t cp L rest t' L' h; cases h; rfl
    | cons c q ih =>
      intro t cp L rest t' L' h
      simp only [List.map_cons, List.cons_append, yyPrev] at h ⊢
      cases h1 : yyGet (yyClass c) <;> rw [h1] at h <;> simp only [Yy.bind] at h ⊢ <;> try cases h
      cases h2 : yyGet yyAccept[t]? <;> rw [h2] at h <;> simp only at h ⊢ <;> try cases h
      rename_i e a
      cases h3 : yyGet (yyNextState 4 t e) <;> rw [h3] at h <;> simp only at h ⊢ <;> try cases h
      rw [ih _ _ _ _ _ _ h]
      simp only [List.length_cons]
      congr 1
      omega
  induction h with
  | nil => exact ⟨L, rfl, fun x hx => by cases hx⟩
  | @snoc p s last c h hb ih =>
    obtain ⟨L', h1, h2⟩ := ih
    refine ⟨_, ?_, h2.step s p.length⟩
    rw [gen _ _ _ _ _ _ _ h1]
    obtain ⟨e, k1, _, k3, _, _⟩ := after_spec h.used c
    simp only [List.map_cons, List.map_nil, yyPrev, k1, k3, (used_spec h.used).1, yyGet, Yy.bind]

/-! ### The block -/

/-- The block begins with these bytes. -/
def Filled (cs : Cells) (bs : Bytes) : Prop := ∀ j, j < bs.length → cs[j]? = some bs[j]?

theorem Filled.length_le {cs : Cells} {bs : Bytes} (h : Filled cs bs) : bs.length ≤ cs.length := by
  refine Nat.le_of_not_lt fun hlt => ?_
  have := h cs.length hlt
  rw [List.getElem?_eq_none (Nat.le_refl _)] at this
  cases this

theorem Filled.prefix {cs : Cells} {a b : Bytes} (h : Filled cs (a ++ b)) : Filled cs a := by
  intro j hj
  rw [h j (by simp; omega), List.getElem?_append_left hj]

theorem Filled.split {cs : Cells} {bs : Bytes} (h : Filled cs bs) : cs = bs.map some ++ cs.drop bs.length := by
  apply List.ext_getElem?
  intro j
  by_cases hj : j < bs.length
  · rw [h j hj, List.getElem?_append_left (by simpa using hj), List.getElem?_map, List.getElem?_eq_getElem hj]
    rfl
  · rw [List.getElem?_append_right (by simpa using hj), List.getElem?_drop]
    congr 1
    simp
    omega

theorem Filled.drop {cs : Cells} {a b : Bytes} (h : Filled cs (a ++ b)) : Filled (cs.drop a.length) b := by
  intro j hj
  rw [List.getElem?_drop, h _ (by simp; omega), List.getElem?_append_right (by omega)]
  congr 2
  omega

theorem Filled.set {cs : Cells} {a b : Bytes} {x : Byte} (h : Filled cs (a ++ x :: b)) (y : Byte) :
    Filled (cs.set a.length (some y)) (a ++ y :: b) := by
  intro j hj
  have hl := h.length_le
  simp only [List.length_append, List.length_cons] at hj hl
  rw [List.getElem?_set]
  by_cases he : a.length = j
  · subst he
    rw [if_pos rfl, if_pos (by omega)]
    simp
  · rw [if_neg he, h j (by simp; omega)]
    congr 1
    by_cases hlt : j < a.length
    · rw [List.getElem?_append_left hlt, List.getElem?_append_left hlt]
    · rw [List.getElem?_append_right (by omega), List.getElem?_append_right (by omega)]
      rw [show j - a.length = (j - a.length - 1) + 1 by omega]
      simp

theorem Filled.push {cs : Cells} {a : Bytes} (h : Filled cs a) (y : Byte) (hl : a.length < cs.length) :
    Filled (cs.set a.length (some y)) (a ++ [y]) := by
  intro j hj
  simp only [List.length_append, List.length_cons, List.length_nil] at hj
  rw [List.getElem?_set]
  by_cases he : a.length = j
  · subst he
    rw [if_pos rfl, if_pos hl]
    simp
  · rw [if_neg he, h j (by omega), List.getElem?_append_left (by omega)]

theorem Filled.cell {cs : Cells} {a b : Bytes} {x : Byte} (h : Filled cs (a ++ x :: b)) : cs[a.length]? = some (some x) := by
  rw [h _ (by simp)]
  simp

theorem Filled.set_same {cs : Cells} {a b : Bytes} {x : Byte} (h : Filled cs (a ++ x :: b)) : cs.set a.length (some x) = cs := by
  apply List.ext_getElem?
  intro j
  rw [List.getElem?_set]
  by_cases he : a.length = j
  · subst he
    have hl := h.length_le
    simp only [List.length_append, List.length_cons] at hl
    rw [if_pos rfl, if_pos (by omega), h.cell]
  · rw [if_neg he]

theorem yyBytes_map (bs : Bytes) : yyBytes (bs.map some) = .ok bs := by
  induction bs with
  | nil => rfl
  | cons c bs ih => simp only [List.map_cons, yyBytes, ih, Yy.bind]

theorem Filled.between {cs : Cells} {a b c : Bytes} (h : Filled cs (a ++ b ++ c)) :
    (cs.drop a.length).take b.length = b.map some := by
  have h1 : Filled (cs.drop a.length) b := (by rw [List.append_assoc] at h; exact h.drop.prefix)
  rw [h1.split, List.take_left' (by simp)]

theorem yyMove_spec (n : Nat) : ∀ (d s : Nat) (cs : Cells), d ≤ s → (∀ i, i < n → ∃ b, cs[s + i]? = some (some b)) →
    ∃ cs', yyMove n d s cs = .ok cs' ∧ cs'.length = cs.length ∧ (∀ i, i < n → cs'[d + i]? = cs[s + i]?) ∧ (∀ i, i < d → cs'[i]? = cs[i]?) := by
  induction n with
  | zero => intro d s cs _ _; exact ⟨cs, rfl, rfl, fun i h => absurd h (Nat.not_lt_zero i), fun _ _ => rfl⟩
  | succ n ih =>
    intro d s cs hd hc
    obtain ⟨b, hb⟩ := hc 0 (by omega)
    rw [Nat.add_zero] at hb
    have hs : s < cs.length := (List.getElem?_eq_some_iff.1 hb).1
    obtain ⟨cs', h1, h2, h3, h4⟩ := ih (d + 1) (s + 1) (cs.set d (some b)) (by omega) (fun i hi => by
      obtain ⟨x, hx⟩ := hc (i + 1) (by omega)
      refine ⟨x, ?_⟩
      rw [List.getElem?_set, if_neg (by omega), show s + 1 + i = s + (i + 1) by omega, hx])
    refine ⟨cs', ?_, by simpa using h2, fun i hi => ?_, fun i hi => ?_⟩
    · simp only [yyMove, hb, Option.join_some, yyGet, Yy.bind]
      rw [if_pos (by omega)]
      exact h1
    · cases i with
      | zero =>
        rw [Nat.add_zero, Nat.add_zero, h4 d (by omega), List.getElem?_set, if_pos rfl, if_pos (by omega), hb]
      | succ i =>
        rw [show d + (i + 1) = d + 1 + i by omega, h3 i (by omega), List.getElem?_set, if_neg (by omega)]
        congr 1
        omega
    · rw [h4 i (by omega), List.getElem?_set, if_neg (by omega)]

theorem yyStore_spec (bs : Bytes) : ∀ (i : Nat) (cs : Cells), i + bs.length ≤ cs.length →
    ∃ cs', yyStore i bs cs = .ok cs' ∧ cs'.length = cs.length ∧ (∀ j, j < bs.length → cs'[i + j]? = some bs[j]?) ∧
      (∀ j, j < i → cs'[j]? = cs[j]?) := by
  induction bs with
  | nil => intro i cs _; exact ⟨cs, rfl, rfl, fun j h => absurd h (Nat.not_lt_zero j), fun _ _ => rfl⟩
  | cons c bs ih =>
    intro i cs h
    simp only [List.length_cons] at h
    obtain ⟨cs', h1, h2, h3, h4⟩ := ih (i + 1) (cs.set i (some c)) (by simp; omega)
    refine ⟨cs', ?_, by simpa using h2, fun j hj => ?_, fun j hj => ?_⟩
    · rw [yyStore, if_pos (by omega)]
      exact h1
    · cases j with
      | zero => rw [Nat.add_zero, h4 i (by omega), List.getElem?_set, if_pos rfl, if_pos (by omega)]; rfl
      | succ j =>
        simp only [List.length_cons] at hj
        rw [show i + (j + 1) = i + 1 + j by omega, h3 j (by omega)]
        simp
    · rw [h4 j (by omega), List.getElem?_set, if_neg (by omega)]

/-- The block begins with `pre`, which was scanned before, then `mid`, and then the two NULs. -/
structure BufHolds (f : Flex) (src : Source) (pre mid : Bytes) : Prop where
  cells : Filled f.buf (pre ++ mid ++ [0, 0])
  size : f.buf.length = f.bufSize + 2
  pos : 1 ≤ f.bufSize
  chars : f.nChars = (pre ++ mid).length
  fresh : f.status = .fresh → f.bufChars = 0 ∧ pre = [] ∧ mid = []
  eof : f.status = .eofPending → src.rest = [] ∧ src.feof = true

theorem YyWorld.Good.not_fails {w : YyWorld} (h : w.Good) (msg : Bytes) : ¬ w.Fails msg := by
  rintro (⟨_, n, hn⟩ | ⟨_, n, hn⟩)
  · obtain ⟨i, hn⟩ := hn
    exact h.1 n i hn
  · rw [h.2 n] at hn; cases hn

/-! ### What `YY_INPUT` gives -/

theorem ferror_fails {w : YyWorld} {src : Source} (h : src.ferror w = true) : ∃ n i, w.read n = .fail i := by
  unfold Source.ferror at h
  obtain ⟨n, _, hn⟩ := List.any_eq_true.1 h
  cases hr : w.read n with
  | fail i => exact ⟨n, i, hr⟩
  | upto k => rw [hr] at hn; cases hn

theorem yySysRead_spec (w : YyWorld) (size : Nat) (src : Source) :
    (∃ i j src', yySysRead w size src = (.inr i, src') ∧ src'.rest = src.rest ∧ w.read src.reads = .fail j ∧ src'.ferror w = true) ∨
    ∃ c src', yySysRead w size src = (.inl c, src') ∧ src'.buffer = src.buffer ∧ src.left = c ++ src'.left ∧ (c = [] → src'.left = [] ∧ src'.feof = true) := by
  unfold yySysRead
  cases hr : w.read src.reads with
  | fail i =>
    refine .inl ⟨_, i, _, rfl, rfl, rfl, List.any_eq_true.2 ⟨src.reads, ?_, by rw [hr]⟩⟩
    rw [List.mem_range'_1]
    simp only
    omega
  | upto k =>
    refine .inr ⟨_, _, rfl, rfl, (List.take_append_drop _ _).symm, fun h => ?_⟩
    have hl : src.left = [] := (List.take_eq_nil_iff.1 h).resolve_left (by omega)
    simp [hl]

theorem yyFread_spec (w : YyWorld) : ∀ (n want : Nat) (got : Bytes) (src : Source), want ≤ n → ∃ more e src', yyFread w n want got src = (got ++ more, e, src') ∧
    more.length ≤ want ∧ src.rest = more ++ src'.rest ∧ (e = none → more.length < want → src'.rest = [] ∧ src'.feof = true) ∧
    (∀ i, e = some i → src'.ferror w = true) := by
  intro n
  induction n with
  | zero =>
    intro want got src hn
    exact ⟨[], none, src, by simp [yyFread], by simp, rfl, fun _ h => absurd h (by simp only [List.length_nil]; omega), nofun⟩
  | succ n ih =>
    intro want got src hn
    rw [yyFread]
    by_cases hw : want = 0
    · rw [if_pos hw]
      exact ⟨[], none, src, by simp, by simp, rfl, fun _ h => absurd h (by simp only [List.length_nil]; omega), nofun⟩
    rw [if_neg hw]
    by_cases hb : src.buffer ≠ []
    · rw [if_pos hb]
      have hlen : 0 < src.buffer.length := List.length_pos_iff.2 hb
      obtain ⟨more, e, src', h1, h2, h3, h4, h5⟩ := ih (want - src.buffer.length) (got ++ src.buffer.take want) { src with buffer := src.buffer.drop want } (by omega)
      refine ⟨src.buffer.take want ++ more, e, src', by rw [h1, List.append_assoc], ?_, ?_, fun he hl => h4 he ?_, h5⟩
      · rw [List.length_append, List.length_take]; omega
      · rw [List.append_assoc, ← h3]
        simp only [Source.rest]
        rw [← List.append_assoc, List.take_append_drop]
      · rw [List.length_append, List.length_take] at hl; omega
    · rw [if_neg hb]
      have hb : src.buffer = [] := Classical.not_not.1 hb
      rcases yySysRead_spec w (if want < w.block then w.block else want - want % w.block) src with ⟨i, j, src', h1, h2, h3, hf⟩ | ⟨c, src', h1, h2, h3, h4⟩
      · simp only [h1]
        exact ⟨[], some i, src', by simp, by simp, h2.symm, nofun, fun _ _ => hf⟩
      · simp only [h1]
        by_cases hc : c = []
        · rw [if_pos hc]
          obtain ⟨k1, k2⟩ := h4 hc
          have hr : src'.rest = [] := by rw [Source.rest, h2, hb, k1]; rfl
          refine ⟨[], none, src', by simp, by simp, ?_, fun _ _ => ⟨hr, k2⟩, nofun⟩
          rw [hr, Source.rest, hb, h3, hc, k1]; rfl
        · rw [if_neg hc]
          have hlen : 0 < c.length := List.length_pos_iff.2 hc
          obtain ⟨more, e, src2, g1, g2, g3, g4, g5⟩ := ih (want - c.length) (got ++ c.take want) { src' with buffer := c.drop want } (by omega)
          refine ⟨c.take want ++ more, e, src2, by rw [g1, List.append_assoc], ?_, ?_, fun he hl => g4 he ?_, g5⟩
          · rw [List.length_append, List.length_take]; omega
          · rw [List.append_assoc, ← g3]
            simp only [Source.rest]
            rw [← List.append_assoc, List.take_append_drop, hb, h3]
            rfl
          · rw [List.length_append, List.length_take] at hl; omega

theorem yyInputLine_spec (w : YyWorld) : ∀ (n : Nat) (got : Bytes) (src : Source),
    (∃ k j, yyInputLine w n got src = .fatal (lit "input in flex scanner failed") ∧ w.read k = .fail j) ∨
    ∃ more src', yyInputLine w n got src = .ok (got ++ more, src') ∧ more.length ≤ n ∧ src.rest = more ++ src'.rest ∧
      (more = [] → n ≠ 0 → src'.rest = [] ∧ src'.feof = true) := by
  intro n
  induction n with
  | zero => exact fun got src => .inr ⟨[], src, by simp [yyInputLine], by simp, rfl, fun _ h => absurd rfl h⟩
  | succ n ih =>
    intro got src
    have one : ∀ (c : Byte) (b : Bytes) (src1 : Source), src.rest = c :: b ++ src1.left →
        (∃ k j, (if c = 0x0A then Yy.ok (got ++ [c], { src1 with buffer := b }) else yyInputLine w n (got ++ [c]) { src1 with buffer := b }) =
          .fatal (lit "input in flex scanner failed") ∧ w.read k = .fail j) ∨
        ∃ more src', (if c = 0x0A then Yy.ok (got ++ [c], { src1 with buffer := b }) else yyInputLine w n (got ++ [c]) { src1 with buffer := b }) =
          .ok (got ++ more, src') ∧ more.length ≤ n + 1 ∧ src.rest = more ++ src'.rest ∧ (more = [] → n + 1 ≠ 0 → src'.rest = [] ∧ src'.feof = true) := by
      intro c b src1 hrest
      by_cases hc : c = 0x0A
      · simp only [if_pos hc]
        exact .inr ⟨[c], _, rfl, by simp, hrest, nofun⟩
      · simp only [if_neg hc]
        rcases ih (got ++ [c]) { src1 with buffer := b } with ⟨k, j, h1, h2⟩ | ⟨more, src', h1, h2, h3, _⟩
        · exact .inl ⟨k, j, h1, h2⟩
        · refine .inr ⟨c :: more, src', by rw [h1]; simp, by simp only [List.length_cons]; omega, ?_, nofun⟩
          rw [hrest, List.cons_append, List.cons_append, ← h3]
          rfl
    rw [yyInputLine]
    cases hb : src.buffer with
    | cons c b => exact one c b src (by rw [Source.rest, hb])
    | nil =>
      rcases yySysRead_spec w w.block src with ⟨i, j, src', h1, _, h3, _⟩ | ⟨c, src', h1, h2, h3, h4⟩
      · simp only [h1]
        exact .inl ⟨_, j, trivial, h3⟩
      · simp only [h1]
        cases c with
        | cons c b => exact one c b src' (by rw [Source.rest, hb, h3]; rfl)
        | nil =>
          obtain ⟨k1, k2⟩ := h4 rfl
          have hr : src'.rest = [] := by rw [Source.rest, h2, hb, k1]; rfl
          by_cases hf : src'.ferror w = true
          · obtain ⟨k, j, hk⟩ := ferror_fails hf
            simp only [if_pos hf]
            exact .inl ⟨k, j, trivial, hk⟩
          · simp only [if_neg hf]
            refine .inr ⟨[], src', by simp, by simp, ?_, fun _ _ => ⟨hr, k2⟩⟩
            rw [hr, Source.rest, hb, h3, k1]; rfl

theorem yyInputBlock_spec (w : YyWorld) (n : Nat) (hn : 1 ≤ n) : ∀ (m : Nat) (src : Source),
    (∃ k j, yyInputBlock w n m src = .fatal (lit "input in flex scanner failed") ∧ w.read k = .fail j) ∨
    ∃ more src', yyInputBlock w n m src = .ok (more, src') ∧ more.length ≤ n ∧ src.rest = more ++ src'.rest ∧ (more = [] → src'.rest = [] ∧ src'.feof = true) := by
  intro m
  have fine : ∀ (src : Source) (more : Bytes) (e : Option Bool) (src' : Source), yyFread w n n [] src = (more, e, src') → ¬ (more = [] ∧ src'.ferror w = true) →
      more.length ≤ n ∧ src.rest = more ++ src'.rest ∧ (more = [] → src'.rest = [] ∧ src'.feof = true) := by
    intro src more e src' h hnot
    obtain ⟨more', e', src1, h1, h2, h3, h4, h5⟩ := yyFread_spec w n n [] src (Nat.le_refl _)
    rw [h1, List.nil_append] at h
    obtain ⟨ha, h⟩ := Prod.mk.inj h
    obtain ⟨hb, hc⟩ := Prod.mk.inj h
    subst ha hb hc
    refine ⟨h2, h3, fun hm => h4 ?_ (by rw [hm]; simp only [List.length_nil]; omega)⟩
    cases e' with
    | none => rfl
    | some i => exact absurd ⟨hm, h5 i rfl⟩ hnot
  induction m with
  | zero =>
    intro src
    rw [yyInputBlock]
    by_cases hc : (yyFread w n n [] src).1 = [] ∧ (yyFread w n n [] src).2.2.ferror w = true
    · simp only [if_pos hc]
      obtain ⟨k, j, hk⟩ := ferror_fails hc.2
      exact .inl ⟨k, j, trivial, hk⟩
    · simp only [if_neg hc]
      exact .inr ⟨_, _, rfl, fine src _ _ _ rfl hc⟩
  | succ m ih =>
    intro src
    rw [yyInputBlock]
    by_cases hc : (yyFread w n n [] src).1 = [] ∧ (yyFread w n n [] src).2.2.ferror w = true
    · simp only [if_pos hc]
      obtain ⟨k, j, hk⟩ := ferror_fails hc.2
      by_cases hi : (yyFread w n n [] src).2.1 = some true
      · rw [if_pos hi]
        obtain ⟨more', e', src1, h1, h2, h3, _⟩ := yyFread_spec w n n [] src (Nat.le_refl _)
        rcases ih { (yyFread w n n [] src).2.2 with feof := false, since := 0 } with h | ⟨more, src', g1, g2, g3, g4⟩
        · exact .inl h
        · refine .inr ⟨more, src', g1, g2, ?_, g4⟩
          rw [h1] at hc g3
          have hm : more' = [] := hc.1
          rw [h3, hm, List.nil_append, ← g3]
          rfl
      · rw [if_neg hi]
        exact .inl ⟨k, j, rfl, hk⟩
    · simp only [if_neg hc]
      exact .inr ⟨_, _, rfl, fine src _ _ _ rfl hc⟩

/-- `YY_INPUT` gives the next bytes of the file, at least one unless it is over, or a read has failed. -/
theorem yyInput_spec (w : YyWorld) (n : Nat) (hn : 1 ≤ n) (src : Source) :
    (∃ k j, yyInput w n src = .fatal (lit "input in flex scanner failed") ∧ w.read k = .fail j) ∨
    ∃ more src', yyInput w n src = .ok (more, src') ∧ more.length ≤ n ∧ src.rest = more ++ src'.rest ∧ (more = [] → src'.rest = [] ∧ src'.feof = true) := by
  unfold yyInput
  split
  · rcases yyInputLine_spec w n [] src with h | ⟨more, src', h1, h2, h3, h4⟩
    · exact .inl h
    · exact .inr ⟨more, src', h1, h2, h3, fun h => h4 h (by omega)⟩
  · exact yyInputBlock_spec w n hn _ src

/-- A read that fails, and is not interrupted, before anything was got. -/
theorem yyInput_failed {w : YyWorld} {n : Nat} (hn : 1 ≤ n) {src : Source} (hb : src.buffer = []) (hr : w.read src.reads = .fail false) :
    yyInput w n src = .fatal (lit "input in flex scanner failed") := by
  obtain ⟨n, rfl⟩ : ∃ m, n = m + 1 := ⟨n - 1, by omega⟩
  have hs : ∀ size, yySysRead w size src = (.inr false, { src with reads := src.reads + 1, since := src.since + 1 }) := by
    intro size
    simp [yySysRead, hr]
  have hf : Source.ferror w { src with reads := src.reads + 1, since := src.since + 1 } = true := by
    refine List.any_eq_true.2 ⟨src.reads, ?_, by rw [hr]⟩
    rw [List.mem_range'_1]
    simp only
    omega
  unfold yyInput
  split
  · simp only [yyInputLine, hb, hs]
  · have h : yyFread w (n + 1) (n + 1) [] src = ([], some false, { src with reads := src.reads + 1, since := src.since + 1 }) := by
      rw [yyFread, if_neg (by omega), if_neg (by simp [hb])]
      simp only [hs]
    cases w.calm - src.reads <;> simp [yyInputBlock, h, hf]

/-- `yy_buf_size` can be doubled for a text of that length. -/
def yyTextMax : Nat := 1073741822

theorem yyGrow_spec (w : YyWorld) (moved : Nat) (hm : moved ≤ yyTextMax) (n : Nat) : ∀ (f : Flex) (src : Source), moved + 3 ≤ n + f.bufSize →
    1 ≤ n → 1 ≤ f.bufSize → f.buf.length = f.bufSize + 2 →
    (∃ msg, yyGrow w moved n f src = .fatal msg ∧ w.Fails msg) ∨
    ∃ f' src', yyGrow w moved n f src = .ok (f', src') ∧ src'.rest = src.rest ∧ moved + 1 < f'.bufSize ∧ f'.buf.length = f'.bufSize + 2 ∧
      (∃ more, f'.buf = f.buf ++ more) ∧ f'.status = f.status ∧ f'.lineno = f.lineno ∧ f'.text = f.text ∧ f'.cBufP = f.cBufP := by
  induction n with
  | zero => intro f src _ h _ _; omega
  | succ n ih =>
    intro f src h1 _ hp hl
    by_cases hb : moved + 1 < f.bufSize
    · exact .inr ⟨f, src, by rw [yyGrow, if_pos hb], rfl, hb, hl, ⟨[], by simp⟩, rfl, rfl, rfl, rfl⟩
    · have hi : ¬ f.bufSize * 2 > intMax := by unfold intMax; unfold yyTextMax at hm; omega
      rw [yyGrow, if_neg hb, if_neg hi]
      by_cases hw : w.memory src.allocs = true
      · rw [if_pos hw]
        rcases ih { f with bufSize := f.bufSize * 2, buf := f.buf ++ List.replicate (f.bufSize * 2 + 2 - f.buf.length) none, lastCpos := none }
          { src with allocs := src.allocs + 1 } (by simp only; omega) (by omega) (by simp only; omega) (by simp; omega) with h | h
        · exact .inl h
        · obtain ⟨f', src', h2, h3, h4, h5, ⟨more, h6⟩, h7, h8, h9, h10⟩ := h
          exact .inr ⟨f', src', h2, h3, h4, h5, ⟨_, by rw [h6, List.append_assoc]⟩, h7, h8, h9, h10⟩
      · rw [if_neg hw]
        exact .inl ⟨_, rfl, .inr ⟨.inl rfl, src.allocs, by simpa using hw⟩⟩

theorem Yy.bind_ok {α β : Type} (a : α) (k : α → Yy β) : (Yy.ok a).bind k = k a := rfl

theorem Yy.bind_fatal {α β : Type} (m : Bytes) (k : α → Yy β) : (Yy.fatal m : Yy α).bind k = .fatal m := rfl

theorem Yy.bind_assoc {α β γ : Type} (x : Yy α) (k : α → Yy β) (l : β → Yy γ) : (x.bind k).bind l = x.bind fun a => (k a).bind l := by
  cases x <;> rfl

/-- The end of `yy_get_next_buffer`. -/
theorem nextBuffer_end (w : YyWorld) (act : EobAct) (moved : Nat) (f : Flex) (src : Source) (bs : Bytes) (hf : Filled f.buf bs)
    (hl : f.buf.length = f.bufSize + 2) (hn : f.nChars + moved = bs.length) (hb : bs.length ≤ f.bufSize) :
    ∃ buf, ((yyExtend w moved f src).bind fun r =>
        (({ r.1 with nChars := r.1.nChars + moved } : Flex).setCell (r.1.nChars + moved) 0).bind fun f =>
        (f.setCell (f.nChars + 1) 0).bind fun f => Yy.ok (act, { f with text := 0 }, r.2)) =
      .ok (act, { f with buf := buf, nChars := bs.length, text := 0 }, src) ∧ Filled buf (bs ++ [0, 0]) ∧ buf.length = f.bufSize + 2 := by
  have h1 : yyExtend w moved f src = .ok (f, src) := by rw [yyExtend, if_neg (by omega)]
  refine ⟨(f.buf.set bs.length (some 0)).set (bs.length + 1) (some 0), ?_, ?_, by simpa using hl⟩
  · rw [h1]
    simp only [Yy.bind, Flex.setCell, hn]
    rw [if_pos (by omega)]
    simp only
    rw [if_pos (by simp; omega)]
  · have h2 := hf.push 0 (by omega)
    have h3 := h2.push 0 (by simp; omega)
    simpa using h3

/-- `yy_get_next_buffer` at the end of the block: the text that is not matched yet goes to the begin, and more is read; or the file is
over. -/
theorem yyGetNextBuffer_spec (w : YyWorld) (f : Flex) (src : Source) (pre p : Bytes) (h : BufHolds f src pre p) (hs : f.status ≠ .fresh)
    (hc : f.cBufP = f.nChars + 1) (ht : f.text = pre.length) (hm : p.length ≤ yyTextMax) :
    (∃ msg, yyGetNextBuffer w f src = .fatal msg ∧ w.Fails msg) ∨
    (∃ f' src', yyGetNextBuffer w f src = .ok (.endOfFile, f', src') ∧ p = [] ∧ src.rest = [] ∧ (src'.rest = [] ∧ src'.feof = true) ∧ f'.status = .fresh ∧
      (∀ s, BufHolds f' s [] []) ∧ f'.text = 0 ∧ f'.hold = 0 ∧ f'.lineno = f.lineno) ∨
    (∃ f' src' chunk, yyGetNextBuffer w f src = .ok (.continueScan, f', src') ∧ chunk ≠ [] ∧ src.rest = chunk ++ src'.rest ∧
      f'.status ≠ .fresh ∧ BufHolds f' src' [] (p ++ chunk) ∧ f'.text = 0 ∧ f'.lineno = f.lineno) ∨
    (∃ f' src', yyGetNextBuffer w f src = .ok (.lastMatch, f', src') ∧ p ≠ [] ∧ src.rest = [] ∧ src'.rest = [] ∧ f'.status ≠ .fresh ∧
      BufHolds f' src' [] p ∧ f'.text = 0 ∧ f'.lineno = f.lineno) := by
  have hlen := h.cells.length_le
  have hch := h.chars
  have hsz := h.size
  simp only [List.length_append, List.length_cons, List.length_nil] at hlen hch
  have hmoved : f.cBufP - f.text - 1 = p.length := by omega
  -- the text is moved
  obtain ⟨cs, m1, m2, m3, _⟩ := yyMove_spec p.length 0 pre.length f.buf (Nat.zero_le _) (fun i hi => by
    refine ⟨p[i], ?_⟩
    rw [h.cells _ (by simp; omega), List.append_assoc, List.getElem?_append_right (by omega), Nat.add_sub_cancel_left, List.getElem?_append_left hi,
      List.getElem?_eq_getElem hi])
  have hcs : Filled cs p := by
    intro i hi
    have := m3 i hi
    rw [Nat.zero_add] at this
    rw [this, h.cells _ (by simp; omega), List.append_assoc, List.getElem?_append_right (by omega), Nat.add_sub_cancel_left,
      List.getElem?_append_left hi]
  -- what happens to the rest, when nothing was read
  have hnone : ∀ (f2 : Flex) (src2 : Source), Filled f2.buf p → f2.buf.length = f2.bufSize + 2 → p.length ≤ f2.bufSize → 1 ≤ f2.bufSize →
      f2.nChars = 0 → f2.bufChars = 0 → src.rest = [] → (src2.rest = [] ∧ src2.feof = true) → f2.lineno = f.lineno →
      (p = [] ∧ ∃ f', ((yyNextAct p.length f2).bind fun a => (yyExtend w p.length a.2 src2).bind fun r =>
          (({ r.1 with nChars := r.1.nChars + p.length } : Flex).setCell (r.1.nChars + p.length) 0).bind fun f =>
          (f.setCell (f.nChars + 1) 0).bind fun f => Yy.ok (a.1, { f with text := 0 }, r.2)) = .ok (.endOfFile, f', src2) ∧ f'.status = .fresh ∧
        (∀ s, BufHolds f' s [] []) ∧ f'.text = 0 ∧ f'.hold = 0 ∧ f'.lineno = f.lineno) ∨
      (p ≠ [] ∧ ∃ f', ((yyNextAct p.length f2).bind fun a => (yyExtend w p.length a.2 src2).bind fun r =>
          (({ r.1 with nChars := r.1.nChars + p.length } : Flex).setCell (r.1.nChars + p.length) 0).bind fun f =>
          (f.setCell (f.nChars + 1) 0).bind fun f => Yy.ok (a.1, { f with text := 0 }, r.2)) = .ok (.lastMatch, f', src2) ∧ f'.status ≠ .fresh ∧
        BufHolds f' src2 [] p ∧ f'.text = 0 ∧ f'.lineno = f.lineno) := by
    intro f2 src2 g1 g2 g3 g4 g5 g6 g7 g8 g9
    by_cases hp : p = []
    · left
      refine ⟨hp, ?_⟩
      subst hp
      simp only [List.length_nil]
      -- yyrestart
      have hr : yyRestart f2 = .ok { f2 with buf := (f2.buf.set 0 (some 0)).set 1 (some 0), bufChars := 0, status := .fresh, nChars := 0, text := 0, cBufP := 0, hold := 0 } := by
        have hc0 : ((f2.buf.set 0 (some (0 : Byte))).set 1 (some 0))[0]? = some (some 0) := by
          rw [List.getElem?_set, if_neg (by omega), List.getElem?_set, if_pos rfl, if_pos (by omega)]
        simp only [yyRestart, Flex.setCell]
        rw [if_pos (by omega)]
        simp only [Yy.bind]
        rw [if_pos (by simp; omega)]
        simp only [yyLoadBufferState, Flex.cell, hc0, Option.join_some, yyGet, Yy.bind]
      have hact : yyNextAct 0 f2 = .ok (.endOfFile, { f2 with buf := (f2.buf.set 0 (some 0)).set 1 (some 0), bufChars := 0, status := .fresh, nChars := 0, text := 0, cBufP := 0, hold := 0 }) := by
        rw [yyNextAct, if_pos g5, if_pos rfl, hr]
        rfl
      obtain ⟨buf, e1, e2, e3⟩ := nextBuffer_end w .endOfFile 0 { f2 with buf := (f2.buf.set 0 (some 0)).set 1 (some 0), bufChars := 0, status := .fresh, nChars := 0, text := 0, cBufP := 0, hold := 0 } src2 [] (fun j hj => absurd hj (Nat.not_lt_zero j)) (by simpa using g2) rfl (by simp)
      refine ⟨_, (congrArg (Yy.bind · _) hact).trans e1, ?_⟩
      · exact ⟨rfl, fun s => ⟨by simpa using e2, e3, g4, rfl, fun _ => ⟨rfl, rfl, rfl⟩, fun hh => by cases hh⟩, rfl, rfl, g9⟩
    · right
      refine ⟨hp, ?_⟩
      have hpos : p.length ≠ 0 := fun e => hp (List.eq_nil_of_length_eq_zero e)
      have hact : yyNextAct p.length f2 = .ok (.lastMatch, { f2 with status := .eofPending }) := by
        rw [yyNextAct, if_pos g5, if_neg hpos]
      obtain ⟨buf, e1, e2, e3⟩ := nextBuffer_end w .lastMatch p.length { f2 with status := .eofPending } src2 p g1 g2 (by simp only [g5]; omega) g3
      refine ⟨_, (congrArg (Yy.bind · _) hact).trans e1, ?_⟩
      · exact ⟨by simp, ⟨by simpa using e2, e3, g4, rfl, fun hh => (by cases hh), fun _ => g8⟩, rfl, g9⟩
  unfold yyGetNextBuffer
  rw [if_neg (by omega), if_neg (by omega)]
  simp only [hmoved]
  have m1' : yyMove p.length 0 f.text f.buf = .ok cs := by rw [ht]; exact m1
  rw [m1', Yy.bind_ok]
  by_cases he : f.status = .eofPending
  · have hrest := h.eof he
    have hrf : yyRefill w p.length { f with buf := cs } src = .ok ({ f with buf := cs, bufChars := 0, nChars := 0 }, src) := by
      rw [yyRefill, if_pos he]
    rw [hrf, Yy.bind_ok]
    rcases hnone { f with buf := cs, bufChars := 0, nChars := 0 } src hcs (by simp only; omega) (by simp only; omega) h.pos rfl rfl hrest.1 hrest rfl with
      ⟨hp, f', e1, e2⟩ | ⟨hp, f', e1, e2⟩
    · exact .inr (.inl ⟨f', src, e1, hp, hrest.1, hrest, e2⟩)
    · exact .inr (.inr (.inr ⟨f', src, e1, hp, hrest.1, hrest.1, e2⟩))
  · have hrf : yyRefill w p.length { f with buf := cs } src =
        (yyGrow w p.length (p.length + 2) { f with buf := cs } src).bind fun r =>
        (yyInput w (min (r.1.bufSize - p.length - 1) yyReadBufSize) r.2).bind fun i =>
        (yyStore p.length i.1 r.1.buf).bind fun cs =>
          .ok ({ r.1 with buf := cs, nChars := i.1.length, bufChars := i.1.length }, i.2) := by
      rw [yyRefill, if_neg he]
    rw [hrf]
    have hpos := h.pos
    rcases yyGrow_spec w p.length hm (p.length + 2) { f with buf := cs } src (by simp only; omega) (by omega) hpos (by simp only; omega) with
      ⟨msg, g1, g2⟩ | ⟨f2, src2, g1, g2, g3, g4, ⟨more, g5⟩, g6, g7, g8, g9⟩
    · left
      rw [g1]
      exact ⟨msg, rfl, g2⟩
    · rw [g1, Yy.bind_ok]
      rcases yyInput_spec w (min (f2.bufSize - p.length - 1) yyReadBufSize) (by unfold yyReadBufSize; omega) src2 with ⟨k, j, hi, hk⟩ | ⟨chunk, src3, hi, i1, i2, i3⟩
      · left
        rw [hi]
        exact ⟨_, rfl, .inl ⟨rfl, _, _, hk⟩⟩
      · rw [hi, Yy.bind_ok]
        have hm2 : chunk.length + p.length + 1 ≤ f2.bufSize := by omega
        obtain ⟨cs3, s1, s2, s3, s4⟩ := yyStore_spec chunk p.length f2.buf (by omega)
        have hcs3 : Filled cs3 (p ++ chunk) := by
          intro j hj
          by_cases hjp : j < p.length
          · rw [s4 j hjp, g5, List.getElem?_append_left (Nat.lt_of_lt_of_le hjp hcs.length_le), hcs j hjp, List.getElem?_append_left hjp]
          · have hj' : j - p.length < chunk.length := by rw [List.length_append] at hj; omega
            have := s3 (j - p.length) hj'
            rw [show p.length + (j - p.length) = j by omega] at this
            rw [this, List.getElem?_append_right (by omega)]
        rw [s1, Yy.bind_ok, Yy.bind_ok]
        by_cases hrest : src.rest = []
        · have hrest2 : src2.rest = [] := by rw [g2, hrest]
          have hempty : chunk = [] := (List.append_eq_nil_iff.1 (i2.symm.trans hrest2)).1
          rw [hempty, List.append_nil] at hcs3
          rcases hnone { f2 with buf := cs3, nChars := chunk.length, bufChars := chunk.length }
              src3 hcs3 (by simp only; omega) (by simp only; omega) (by simp only; omega)
              (by simp only [hempty]; rfl) (by simp only [hempty]; rfl) hrest (i3 hempty) g7 with
            ⟨hp, f', e1, e2⟩ | ⟨hp, f', e1, e2⟩
          · exact .inr (.inl ⟨f', _, e1, hp, hrest, i3 hempty, e2⟩)
          · exact .inr (.inr (.inr ⟨f', _, e1, hp, hrest, (i3 hempty).1, e2⟩))
        · right; right; left
          have hne : chunk ≠ [] := by
            intro e
            rw [← g2, i2, e, (i3 e).1] at hrest
            exact hrest rfl
          have hact : yyNextAct p.length { f2 with buf := cs3, nChars := chunk.length, bufChars := chunk.length } =
              .ok (.continueScan, { f2 with buf := cs3, nChars := chunk.length, bufChars := chunk.length }) := by
            rw [yyNextAct, if_neg]
            intro e
            exact hne (List.eq_nil_of_length_eq_zero e)
          obtain ⟨buf, e1, e2, e3⟩ := nextBuffer_end w .continueScan p.length
            { f2 with buf := cs3, nChars := chunk.length, bufChars := chunk.length }
            src3 (p ++ chunk) hcs3 (by simp only; omega)
            (by simp only [List.length_append]; omega) (by simp only [List.length_append]; omega)
          refine ⟨_, _, chunk, (congrArg (Yy.bind · _) hact).trans e1, hne, ?_, ?_⟩
          · rw [← g2, i2]
          · refine ⟨by simp only; rw [g6]; exact hs, ⟨by simpa using e2, e3, by simp only; omega, by simp, fun hh => ?_, fun hh => ?_⟩, rfl, g7⟩
            · simp only at hh
              rw [g6] at hh
              exact absurd hh hs
            · simp only at hh
              rw [g6] at hh
              exact absurd hh he

/-! ### One match -/

theorem Filled.get {cs : Cells} {bs : Bytes} (h : Filled cs bs) (i : Nat) (hi : i < bs.length) : cs[i]? = some (some bs[i]) := by
  rw [h i hi, List.getElem?_eq_getElem hi]

theorem Filled.set_get {cs : Cells} {bs : Bytes} (h : Filled cs bs) (i : Nat) (hi : i < bs.length) : cs.set i (some bs[i]) = cs := by
  apply List.ext_getElem?
  intro j
  rw [List.getElem?_set]
  by_cases he : i = j
  · subst he
    have hl := h.length_le
    rw [if_pos rfl, if_pos (by omega), h.get i hi]
  · rw [if_neg he]

/-- From this label on `yylex` ends within `b` jumps, as `Q` says, or with `yy_fatal_error` because a read or an allocation failed. -/
def YyEnds (w : YyWorld) (b : Nat) (l : YyLabel) (f : Flex) (src : Source) (Q : Option Located → Flex → Source → Prop) : Prop :=
  ∃ r, ((∃ msg, r = .fatal msg ∧ w.Fails msg) ∨ ∃ t f' src', r = .ok (t, f', src') ∧ Q t f' src') ∧ ∀ n, b ≤ n → yyGo w n l f src = r

theorem YyEnds.goto {w : YyWorld} {b : Nat} {l l' : YyLabel} {f f' : Flex} {src src' : Source} {Q : Option Located → Flex → Source → Prop}
    (h : yyJump w f src l = .ok (.goto l' f' src')) (h' : YyEnds w b l' f' src' Q) : YyEnds w (b + 1) l f src Q := by
  obtain ⟨r, h1, h2⟩ := h'
  refine ⟨r, h1, fun n hn => ?_⟩
  obtain ⟨m, rfl⟩ : ∃ m, n = m + 1 := ⟨n - 1, by omega⟩
  rw [yyGo, h]
  exact h2 m (by omega)

theorem YyEnds.done {w : YyWorld} {l : YyLabel} {f f' : Flex} {src src' : Source} {t : Option Located}
    {Q : Option Located → Flex → Source → Prop} (h : yyJump w f src l = .ok (.done t f' src')) (h' : Q t f' src') : YyEnds w 1 l f src Q := by
  refine ⟨_, .inr ⟨t, f', src', rfl, h'⟩, fun n hn => ?_⟩
  obtain ⟨m, rfl⟩ : ∃ m, n = m + 1 := ⟨n - 1, by omega⟩
  rw [yyGo, h]
  rfl

theorem YyEnds.fatal {w : YyWorld} {l : YyLabel} {f : Flex} {src : Source} {Q : Option Located → Flex → Source → Prop} {msg : Bytes}
    (h : yyJump w f src l = .fatal msg) (h' : w.Fails msg) : YyEnds w 1 l f src Q := by
  refine ⟨_, .inl ⟨msg, rfl, h'⟩, fun n hn => ?_⟩
  obtain ⟨m, rfl⟩ : ∃ m, n = m + 1 := ⟨n - 1, by omega⟩
  rw [yyGo, h]
  rfl

theorem YyEnds.mono {w : YyWorld} {b : Nat} {l : YyLabel} {f : Flex} {src : Source} {Q Q' : Option Located → Flex → Source → Prop}
    (h : YyEnds w b l f src Q) (hQ : ∀ t f' src', Q t f' src' → Q' t f' src') : YyEnds w b l f src Q' := by
  obtain ⟨r, h1 | ⟨t, f', src', h1, h2⟩, h3⟩ := h
  · exact ⟨r, .inl h1, h3⟩
  · exact ⟨r, .inr ⟨t, f', src', h1, hQ _ _ _ h2⟩, h3⟩

theorem YyEnds.le {w : YyWorld} {b b' : Nat} {l : YyLabel} {f : Flex} {src : Source} {Q : Option Located → Flex → Source → Prop}
    (h : YyEnds w b l f src Q) (hb : b ≤ b') : YyEnds w b' l f src Q := by
  obtain ⟨r, h1, h2⟩ := h
  exact ⟨r, h1, fun n hn => h2 n (by omega)⟩

/-- What the end of the block leads to, in the text or behind it. -/
theorem eob_jump (w : YyWorld) (f : Flex) (src : Source) (pre p a : Bytes) (h : BufHolds f src pre (p ++ a)) (hs : f.lastState = 3)
    (hc : f.lastCpos = some (pre.length + p.length + 1)) : ∃ x,
    yyJump w f src (.find 110 (pre.length + p.length + 2) pre.length) =
      yyEobAction w p.length { f with text := pre.length, hold := x, cBufP := pre.length + p.length + 1 } src := by
  have hlt : pre.length + p.length + 1 < (pre ++ (p ++ a) ++ [0, 0]).length := by simp; omega
  refine ⟨(pre ++ (p ++ a) ++ [0, 0])[pre.length + p.length + 1], ?_⟩
  have h110 : yyAccept[110]? = some 0 := by decide +kernel
  have hl := h.cells.length_le
  simp only [yyJump, h110, yyGet, Yy.bind_ok, if_true, hc, hs, acc_3, Flex.cell, h.cells.get _ hlt, Option.join_some, Flex.setCell]
  rw [if_pos (by omega)]
  simp only [Yy.bind_ok]
  rw [if_neg (by decide)]
  simp only [yyEndOfBuffer, Flex.setCell]
  rw [if_neg (by omega), if_pos (by simp; omega)]
  simp only [Yy.bind_ok, List.set_set, h.cells.set_get _ hlt]
  congr 1
  omega

/-- `yy_get_previous_state` for text that begins at `yytext_ptr`. -/
theorem previous_spec (f : Flex) (src : Source) (pre p a : Bytes) (h : BufHolds f src pre (p ++ a)) (ht : f.text = pre.length)
    (hc : f.cBufP = pre.length + p.length) {s : Nat} {last : Option (Nat × Nat)} (hA : Along p s last) :
    ∃ L : Nat × Option Nat, yyGetPreviousState f = .ok (s, { f with lastState := L.1, lastCpos := L.2 }) ∧ LastIs L pre.length last := by
  obtain ⟨L, h1, h2⟩ := yyPrev_spec p pre.length (f.lastState, f.lastCpos) hA
  refine ⟨L, ?_, h2⟩
  have hl := h.cells.length_le
  simp only [List.length_append] at hl
  have hb : f.between f.text f.cBufP = .ok (p.map some) := by
    rw [Flex.between, if_pos (by omega), ht, hc, Nat.add_sub_cancel_left]
    congr 1
    have := h.cells
    exact Filled.between (c := a ++ [0, 0]) (by simpa using this)
  rw [yyGetPreviousState, hb, Yy.bind_ok, ht, h1]
  rfl

theorem BufHolds.congr {f f' : Flex} {src : Source} {pre mid : Bytes} (h : BufHolds f src pre mid) (h1 : f'.buf = f.buf)
    (h2 : f'.bufSize = f.bufSize) (h3 : f'.nChars = f.nChars) (h4 : f'.status = f.status) (h5 : f'.bufChars = f.bufChars) :
    BufHolds f' src pre mid :=
  ⟨by rw [h1]; exact h.cells, by rw [h1, h2]; exact h.size, by rw [h2]; exact h.pos, by rw [h3]; exact h.chars,
    by rw [h4, h5]; exact h.fresh, by rw [h4]; exact h.eof⟩

/-- The loop ends, and `yy_find_action` will find the match; or the file is over. -/
theorem match_ends (w : YyWorld) (input : Bytes) (hsize : input.length ≤ yyTextMax) (line b : Nat) (hb : 1 ≤ b) (Q : Option Located → Flex → Source → Prop)
    (hAct : input ≠ [] → ∀ f src pre mid s n, BufHolds f src pre mid → mid ++ src.rest = input → usedState s = true →
      Found (yyMatch 1 0 none input) s n (f.lastState, f.lastCpos) pre.length mid.length → f.lineno = line →
      YyEnds w b (.find s (pre.length + n) pre.length) f src Q)
    (hEof : input = [] → ∀ f src, f.status = .fresh → (∀ s, BufHolds f s [] []) → f.cBufP = 0 → f.text = 0 → f.hold = 0 → src.rest = [] ∧ src.feof = true →
      f.lineno = line → Q none f src) (m : Nat) : ∀ (f : Flex) (src : Source) (pre p ahead : Bytes) (s : Nat) (last : Option (Nat × Nat)),
    2 * src.rest.length + ahead.length < m → BufHolds f src pre (p ++ ahead) → p ++ ahead ++ src.rest = input → Along p s last →
    LastIs (f.lastState, f.lastCpos) pre.length last → f.lineno = line → YyEnds w (2 * m + b) (.scan s (pre.length + p.length) pre.length) f src Q := by
  induction m with
  | zero => intro f src pre p ahead s last h; omega
  | succ m ih =>
    intro f src pre p ahead s last hm hB hin hA hL hline
    refine YyEnds.le (b := 2 * m + b + 1 + 1) ?_ (by omega)
    have hdrop : f.buf.drop (pre.length + p.length) = (ahead ++ [0, 0]).map some ++ (f.buf.drop (pre.length + p.length)).drop (ahead ++ [0, 0]).length := by
      have h1 : Filled f.buf ((pre ++ p) ++ (ahead ++ [0, 0])) := by simpa using hB.cells
      have h2 := h1.drop
      rw [List.length_append] at h2
      exact h2.split
    rcases yyScan_spec ahead ((f.buf.drop (pre.length + p.length)).drop (ahead ++ [0, 0]).length) pre.length hA (f.lastState, f.lastCpos) hL with
      ⟨a1, a2, s1, last1, e1, e2, e3, e4⟩ | ⟨s1, n, L1, e1, e2, e3, e4⟩
    · -- at a NUL
      rw [← hdrop] at e4
      refine YyEnds.goto (l' := .find 110 (pre.length + (p ++ a1).length + 2) pre.length)
        (f' := { f with lastState := 3, lastCpos := some (pre.length + (p ++ a1).length + 1) }) (src' := src) (by
          simp only [yyJump, e4, Yy.bind_ok]) ?_
      generalize hp' : p ++ a1 = p' at e3 e4
      have hmid : p ++ ahead = p' ++ a2 := by rw [← hp', e1, List.append_assoc]
      rw [hmid] at hB hin
      obtain ⟨x, hj⟩ := eob_jump w { f with lastState := 3, lastCpos := some (pre.length + p'.length + 1) } src pre p' a2
        (hB.congr rfl rfl rfl rfl rfl) rfl rfl
      -- the new file
      have hf3 : ∃ f3 : Flex, yyEobAction w p'.length { f with lastState := 3, lastCpos := some (pre.length + p'.length + 1), text := pre.length, hold := x, cBufP := pre.length + p'.length + 1 } src = yyEobAction w p'.length f3 src ∧
          BufHolds f3 src pre (p' ++ a2) ∧ f3.status ≠ .fresh ∧ f3.text = pre.length ∧ f3.cBufP = pre.length + p'.length + 1 ∧ f3.lineno = line := by
        by_cases hst : f.status = .fresh
        · obtain ⟨g1, g2, g3⟩ := hB.fresh hst
          refine ⟨{ f with lastState := 3, lastCpos := some (pre.length + p'.length + 1), text := pre.length, hold := x, cBufP := pre.length + p'.length + 1, nChars := f.bufChars, status := .normal }, ?_, ⟨hB.cells, hB.size, hB.pos, ?_, (fun h => by cases h), (fun h => by cases h)⟩, by simp, rfl, rfl, hline⟩
          · unfold yyEobAction
            simp [hst]
          · rw [g2, g3]
            exact g1
        · exact ⟨_, rfl, hB.congr rfl rfl rfl rfl rfl, hst, rfl, rfl, hline⟩
      obtain ⟨f3, k1, k2, k3, k4, k5, k6⟩ := hf3
      have hchars := k2.chars
      simp only [List.length_append] at hchars
      have hplen : p'.length ≤ input.length := by rw [← hin]; simp
      rcases e2 with rfl | ⟨a3, rfl⟩
      · -- the end of the block
        have hnl : ¬ f3.cBufP ≤ f3.nChars := by simp only [List.length_nil] at hchars; omega
        have hact : yyEobAction w p'.length f3 src = (yyGetNextBuffer w f3 src).bind fun r =>
            match r with
            | (.endOfFile, f, src) => .ok (.done none { f with cBufP := f.text } src)
            | (.continueScan, f, src) =>
              (yyGetPreviousState { f with cBufP := f.text + p'.length }).bind fun p => .ok (.goto (.scan p.1 p.2.cBufP p.2.text) p.2 src)
            | (.lastMatch, f, src) =>
              (yyGetPreviousState { f with cBufP := f.nChars }).bind fun p => .ok (.goto (.find p.1 p.2.cBufP p.2.text) p.2 src) := by
          unfold yyEobAction
          simp only [k3, if_false]
          rw [if_neg hnl]
          congr 1
        rw [List.append_nil] at k2 hin
        rcases yyGetNextBuffer_spec w f3 src pre p' k2 k3 (by simp only [List.length_nil] at hchars; omega) k4 (by omega) with
          ⟨msg, b1, b2⟩ | ⟨f', src', b1, b2, b3, b4, b5, b6, b7, b8, b9⟩ | ⟨f', src', chunk, b1, b2, b3, b4, b5, b6, b7⟩ |
          ⟨f', src', b1, b2, b3, b4, b5, b6, b7, b8⟩
        · exact (YyEnds.fatal (by rw [hj, k1, hact, b1, Yy.bind_fatal]) b2).le (by omega)
        · refine YyEnds.le (b := 1) ?_ (by omega)
          refine YyEnds.done (t := none) (f' := { f' with cBufP := f'.text }) (src' := src') (by rw [hj, k1, hact, b1, Yy.bind_ok]) ?_
          exact hEof (by rw [← hin, b2, b3]; rfl) _ _ b5 (fun s => (b6 s).congr rfl rfl rfl rfl rfl) b7 b7 b8 b4 (b9.trans k6)
        · obtain ⟨L, c1, c2⟩ := previous_spec { f' with cBufP := f'.text + p'.length } src' [] p' chunk (b5.congr rfl rfl rfl rfl rfl) b6
            (by simp only [b6, List.length_nil]) e3
          refine YyEnds.goto (l' := .scan s1 (0 + p'.length) 0)
            (f' := { f' with cBufP := f'.text + p'.length, lastState := L.1, lastCpos := L.2 }) (src' := src') (by
              rw [hj, k1, hact, b1, Yy.bind_ok]
              simp only
              rw [c1, Yy.bind_ok]
              simp only [b6]) ?_
          refine ih _ src' [] p' chunk s1 last1 ?_ (b5.congr rfl rfl rfl rfl rfl) ?_ e3 c2 (b7.trans k6)
          · have : 0 < chunk.length := List.length_pos_iff.2 b2
            rw [b3] at hm
            simp only [List.length_append] at hm
            omega
          · rw [← hin, b3, List.append_assoc]
        · obtain ⟨L, c1, c2⟩ := previous_spec { f' with cBufP := f'.nChars } src' [] p' [] (by rw [List.append_nil]; exact b6.congr rfl rfl rfl rfl rfl) b7
            (by have := b6.chars; simpa using this) e3
          have hn : f'.nChars = 0 + p'.length := by have := b6.chars; simpa using this
          refine YyEnds.goto (l' := .find s1 (0 + p'.length) 0)
            (f' := { f' with cBufP := f'.nChars, lastState := L.1, lastCpos := L.2 }) (src' := src') (by
              rw [hj, k1, hact, b1, Yy.bind_ok]
              simp only
              rw [c1, Yy.bind_ok]
              simp only [b7, hn]) ?_
          refine YyEnds.le (b := b) ?_ (by omega)
          refine hAct ?_ _ src' [] p' s1 p'.length (b6.congr rfl rfl rfl rfl rfl) ?_ e3.used ?_ (b8.trans k6)
          · rw [← hin, b3, List.append_nil]; exact b2
          · rw [b4, ← hin, b3]
          · rw [← hin, b3, e3.match_eq, yyMatchFrom_nil e3.used]
            exact found_finish e3 c2 _ (Nat.le_refl _)
      · -- a NUL in the text
        have hle : f3.cBufP ≤ f3.nChars := by simp only [List.length_cons] at hchars; omega
        obtain ⟨L, c1, c2⟩ := previous_spec { f3 with cBufP := f3.text + p'.length } src pre p' (0 :: a3) (k2.congr rfl rfl rfl rfl rfl) k4
          (by simp only [k4]) e3
        obtain ⟨e, z1, _, z3, z4, z5⟩ := after_spec e3.used 0
        have he : e + 1 = 1 := by
          have : yyClass 0 = some 1 := rfl
          rw [this] at z1
          exact (Option.some.inj z1).symm
        rw [he] at z3
        have u1 := (used_spec e3.used).1
        have htry : yyTryNulTrans s1 { f3 with cBufP := f3.text + p'.length, lastState := L.1, lastCpos := L.2 } =
            .ok (if afterByte s1 0 = 110 then 0 else afterByte s1 0,
              { f3 with cBufP := f3.text + p'.length, lastState := (if accOf s1 ≠ 0 then (s1, some (pre.length + p'.length)) else L).1, lastCpos := (if accOf s1 ≠ 0 then (s1, some (pre.length + p'.length)) else L).2 }) := by
          simp only [yyTryNulTrans, u1, yyGet, Yy.bind_ok, z3, k4]
          by_cases ha : accOf s1 = 0
          · simp [ha]
          · simp [ha]
        have hact : yyEobAction w p'.length f3 src =
            if (if afterByte s1 0 = 110 then 0 else afterByte s1 0) ≠ 0 then
              .ok (.goto (.scan (if afterByte s1 0 = 110 then 0 else afterByte s1 0) (pre.length + p'.length + 1) pre.length)
                { f3 with cBufP := pre.length + p'.length + 1, lastState := (if accOf s1 ≠ 0 then (s1, some (pre.length + p'.length)) else L).1, lastCpos := (if accOf s1 ≠ 0 then (s1, some (pre.length + p'.length)) else L).2 } src)
            else .ok (.goto (.find s1 (pre.length + p'.length) pre.length)
                { f3 with cBufP := pre.length + p'.length, lastState := (if accOf s1 ≠ 0 then (s1, some (pre.length + p'.length)) else L).1, lastCpos := (if accOf s1 ≠ 0 then (s1, some (pre.length + p'.length)) else L).2 } src) := by
          unfold yyEobAction
          simp only [k3, if_false]
          rw [if_pos hle, c1, Yy.bind_ok]
          simp only
          rw [htry, Yy.bind_ok]
          simp only [k4]
        have hL2 := c2.step s1 p'.length
        by_cases h110 : afterByte s1 0 = 110
        · refine YyEnds.goto (by rw [hj, k1, hact, if_neg (by simp [h110])]) ?_
          refine YyEnds.le (b := b) ?_ (by omega)
          refine hAct (by rw [← hin]; simp) _ src pre (p' ++ 0 :: a3) s1 p'.length (k2.congr rfl rfl rfl rfl rfl) hin e3.used ?_ k6
          have hM : yyMatch 1 0 none input = finish s1 p'.length (ruleOf last1) := by
            rw [← hin, List.append_assoc, e3.match_eq]
            unfold yyMatchFrom
            by_cases hb : baseOf s1 = 234
            · rw [if_pos hb]
            · rw [if_neg hb, List.cons_append, yyMatch_cons e3.used, h110]
              unfold yyMatchFrom
              rw [if_pos base_110]
              rw [finish, if_neg (by simp [acc_110])]
          rw [hM]
          rcases found_finish e3 c2 (p' ++ 0 :: a3).length (by simp) with hf | ⟨ha, hm', hf⟩ | ⟨ha, ls, k, f1, f2⟩
          · exact .inl hf
          · exact .inr (.inl ⟨ha, hm', hf⟩)
          · refine .inr (.inr ⟨ha, ls, k, ?_, f2⟩)
            simp only [ha, ne_eq, not_true_eq_false, if_false]
            exact f1
        · have hb : baseOf s1 ≠ 234 := fun hb => h110 (z5 hb)
          have hne : afterByte s1 0 ≠ 0 := by
            intro h0
            rw [h0] at z4
            cases z4
          refine YyEnds.goto (by rw [hj, k1, hact, if_pos (by simp [h110, hne])]) ?_
          rw [if_neg h110]
          have hA' := e3.snoc 0 hb
          have := ih { f3 with cBufP := pre.length + p'.length + 1, lastState := (if accOf s1 ≠ 0 then (s1, some (pre.length + p'.length)) else L).1, lastCpos := (if accOf s1 ≠ 0 then (s1, some (pre.length + p'.length)) else L).2 }
            src pre (p' ++ [0]) a3 (afterByte s1 0) _ (by
              have : ahead.length = a1.length + (a3.length + 1) := by rw [e1]; simp
              omega) (by
              have := k2.congr (f' := { f3 with cBufP := pre.length + p'.length + 1, lastState := (if accOf s1 ≠ 0 then (s1, some (pre.length + p'.length)) else L).1, lastCpos := (if accOf s1 ≠ 0 then (s1, some (pre.length + p'.length)) else L).2 }) rfl rfl rfl rfl rfl
              simpa using this) (by rw [← hin]; simp) hA' hL2 k6
          simpa [Nat.add_assoc] using this
    · -- a match
      rw [← hdrop] at e1
      refine YyEnds.goto (l' := .find s1 (pre.length + n) pre.length) (f' := { f with lastState := L1.1, lastCpos := L1.2 }) (src' := src) (by
          simp only [yyJump, e1, Yy.bind_ok]) ?_
      refine YyEnds.le (b := b) ?_ (by omega)
      refine hAct ?_ _ src pre (p ++ ahead) s1 n (hB.congr rfl rfl rfl rfl rfl) hin e2 ?_ hline
      · rw [← hin]
        intro h
        simp only [List.append_eq_nil_iff] at h
        exact e3 h.1.2
      · have := e4 src.rest
        rw [hin] at this
        exact this

end Detox
