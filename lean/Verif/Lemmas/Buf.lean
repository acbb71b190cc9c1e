import Verif.Model.Utf8

/-!
# Output buffers: a filter loop writes a pure function of its input, or overflows
-/

set_option autoImplicit false

namespace Detox

/-- `s` is the content of a C string. -/
def NulFree (s : Bytes) : Prop := (0 : Byte) ∉ s

instance (s : Bytes) : Decidable (NulFree s) := by unfold NulFree; infer_instance

theorem NulFree.nil : NulFree [] := by simp [NulFree]

theorem nulFree_cons {c : Byte} {s : Bytes} : NulFree (c :: s) ↔ c ≠ 0 ∧ NulFree s := by
  simp [NulFree, eq_comm]

theorem nulFree_append {a b : Bytes} : NulFree (a ++ b) ↔ NulFree a ∧ NulFree b := by
  simp [NulFree, not_or]

theorem NulFree.of_sublist {a b : Bytes} (h : a.Sublist b) (hb : NulFree b) : NulFree a :=
  fun ha => hb (h.subset ha)

theorem cstr_cons (c : Byte) (s : Bytes) : cstr (c :: s) = if c = 0 then [] else c :: cstr s := by
  unfold cstr
  by_cases hc : c = 0 <;> simp [hc]

theorem cstr_of_nulFree {s : Bytes} (h : NulFree s) : cstr s = s := by
  induction s with
  | nil => rfl
  | cons c s ih =>
    rw [nulFree_cons] at h
    rw [cstr_cons, if_neg h.1, ih h.2]

theorem nulFree_cstr (s : Bytes) : NulFree (cstr s) := by
  induction s with
  | nil => exact NulFree.nil
  | cons c s ih =>
    rw [cstr_cons]
    split
    · exact NulFree.nil
    · exact nulFree_cons.mpr ⟨by assumption, ih⟩

theorem cstr_append_zero (s : Bytes) (r : Bytes) : cstr (s ++ 0 :: r) = cstr s := by
  induction s with
  | nil => simp [cstr]
  | cons c s ih => rw [List.cons_append, cstr_cons, cstr_cons, ih]

theorem OutBuf.push_eq (o : OutBuf) (c : Byte) : o.push c = o.pushStr [c] := by
  unfold OutBuf.pushStr
  cases h : o.push c with
  | ok o' => simp [OutBuf.pushStr]
  | exit n => simp
  | ub u => simp
  | stuck => simp

theorem OutBuf.pushStr_append (o : OutBuf) (a b : Bytes) :
    o.pushStr (a ++ b) = (o.pushStr a >>= fun o' => o'.pushStr b) := by
  induction a generalizing o with
  | nil => rfl
  | cons c a ih =>
    simp only [List.cons_append, OutBuf.pushStr]
    cases h : o.push c with
    | ok o' => simp [ih]
    | exit n => simp
    | ub u => simp
    | stuck => simp

theorem OutBuf.push_bind (o : OutBuf) (c : Byte) (rest : Bytes) :
    (o.push c >>= fun o' => o'.pushStr rest) = o.pushStr (c :: rest) := rfl

theorem OutBuf.pushStr_eq (o : OutBuf) (s : Bytes) (h : o.data.length ≤ o.cap) :
    o.pushStr s = if o.data.length + s.length ≤ o.cap then .ok { o with data := o.data ++ s }
      else .ub .oobWrite := by
  induction s generalizing o with
  | nil => simp [OutBuf.pushStr, h]
  | cons c s ih =>
    unfold OutBuf.pushStr OutBuf.push
    by_cases hlt : o.data.length < o.cap
    · rw [if_pos hlt]
      simp only [Res.bind_ok]
      rw [ih _ (by simp; omega)]
      simp only [List.length_append, List.length_cons, List.length_nil, List.append_assoc,
        List.cons_append, List.nil_append]
      congr 1
      apply propext
      omega
    · rw [if_neg hlt]
      simp only [Res.bind_ub, List.length_cons]
      rw [if_neg (by omega)]

/-- Allocate, write `out`, terminate, return the C string. -/
def emit (cap : Nat) (out : Bytes) : Res Bytes := do
  let o ← (OutBuf.alloc cap).pushStr out
  o.finish

theorem emit_eq (cap : Nat) (out : Bytes) :
    emit cap out = if out.length < cap then .ok (cstr out) else .ub .oobWrite := by
  unfold emit
  rw [OutBuf.pushStr_eq _ _ (by simp [OutBuf.alloc])]
  simp only [OutBuf.alloc, List.length_nil, Nat.zero_add, List.nil_append]
  by_cases h : out.length < cap
  · rw [if_pos (by omega), if_pos h]
    simp only [Res.bind_ok, OutBuf.finish, OutBuf.push, if_pos h, Res.pure_eq]
    rw [cstr_append_zero]
  · rw [if_neg h]
    by_cases h' : out.length ≤ cap
    · rw [if_pos h']
      simp only [Res.bind_ok, OutBuf.finish, OutBuf.push]
      rw [if_neg h]; rfl
    · rw [if_neg h']; rfl

/-! ### Table driven filters -/

/-- What `clean_iso8859_1` writes for one byte. -/
def isoSub (t : Table) (c : Byte) : Bytes :=
  if c &&& 0x80 = 0 then [c]
  else
    match tableGet t c.toNat with
    | some r => r
    | none => t.defaultTranslation.getD [c]

/-- What `clean_safe` writes for one byte. -/
def safeSub (P : Platform) (t : Table) (c : Byte) : Bytes :=
  match tableGet t (P.charToUInt c) with
  | some r => r
  | none => t.defaultTranslation.getD [c]

theorem cleanIsoLoop_eq (t : Table) (o : OutBuf) (s : Bytes) :
    cleanIsoLoop t o s = o.pushStr (s.flatMap (isoSub t)) := by
  induction s generalizing o with
  | nil => rfl
  | cons c s ih =>
    rw [List.flatMap_cons, OutBuf.pushStr_append]
    unfold cleanIsoLoop
    rw [show isoSub t c = (if c &&& 0x80 = 0 then [c] else
      match tableGet t c.toNat with
      | some r => r
      | none => t.defaultTranslation.getD [c]) from rfl]
    split
    · rw [← OutBuf.push_eq]; simp only [ih]
    · cases tableGet t c.toNat with
      | some r => simp only [ih]
      | none =>
        cases t.defaultTranslation with
        | some d => simp only [ih, Option.getD_some]
        | none => simp only [Option.getD_none]; rw [← OutBuf.push_eq]; simp only [ih]

theorem cleanIso_eq (t : Table) (s : Bytes) :
    cleanIso (some t) s = emit (s.length * t.maxDataLength + 1) (s.flatMap (isoSub t)) := by
  unfold cleanIso emit
  simp only [cleanIsoLoop_eq]

theorem cleanSafeLoop_eq (P : Platform) (t : Table) (o : OutBuf) (s : Bytes) :
    cleanSafeLoop P t o s = o.pushStr (s.flatMap (safeSub P t)) := by
  induction s generalizing o with
  | nil => rfl
  | cons c s ih =>
    rw [List.flatMap_cons, OutBuf.pushStr_append]
    unfold cleanSafeLoop
    rw [show safeSub P t c = (match tableGet t (P.charToUInt c) with
      | some r => r
      | none => t.defaultTranslation.getD [c]) from rfl]
    cases tableGet t (P.charToUInt c) with
    | some r => simp only [ih]
    | none =>
      cases t.defaultTranslation with
      | some d => simp only [ih, Option.getD_some]
      | none => simp only [Option.getD_none]; rw [← OutBuf.push_eq]; simp only [ih]

theorem cleanSafe_eq (P : Platform) (t : Table) (s : Bytes) :
    cleanSafe P (some t) s = emit (s.length * t.maxDataLength + 1) (s.flatMap (safeSub P t)) := by
  unfold cleanSafe emit
  simp only [cleanSafeLoop_eq]

/-- Length of a byte-wise substitution. -/
theorem flatMap_length_le {f : Byte → Bytes} {m : Nat} (h : ∀ c, (f c).length ≤ m) (s : Bytes) :
    (s.flatMap f).length ≤ s.length * m := by
  induction s with
  | nil => simp
  | cons c s ih =>
    simp only [List.flatMap_cons, List.length_append, List.length_cons]
    have := h c
    rw [Nat.succ_mul]; omega

theorem nulFree_flatMap {f : Byte → Bytes} {s : Bytes} (h : ∀ c ∈ s, NulFree (f c)) :
    NulFree (s.flatMap f) := by
  intro hm
  obtain ⟨c, hc, hm⟩ := List.mem_flatMap.mp hm
  exact h c hc hm

theorem nulFree_list_flatMap {α : Type} {f : α → Bytes} {s : List α} (h : ∀ c ∈ s, NulFree (f c)) :
    NulFree (s.flatMap f) := by
  intro hm
  obtain ⟨c, hc, hm⟩ := List.mem_flatMap.mp hm
  exact h c hc hm

/-! ### lower -/

theorem ctypeCall_benign {P : Platform} (hP : P.ctypeNegDefined = true) {α : Type} (f : Byte → α) (c : Byte) :
    ctypeCall P f c = .ok (f c) := by
  unfold ctypeCall
  simp [hP]

theorem ctypeCall_ascii {P : Platform} {α : Type} (f : Byte → α) {c : Byte} (hc : c.toNat < 128) :
    ctypeCall P f c = .ok (f c) := by
  unfold ctypeCall
  have : ¬ 128 ≤ c.toNat := by omega
  simp [this]

theorem cleanLowerLoop_eq {P : Platform} (o : OutBuf) (s : Bytes)
    (h : P.ctypeNegDefined = true ∨ ∀ c ∈ s, c.toNat < 128) :
    cleanLowerLoop P o s = o.pushStr (s.map toLowerC) := by
  induction s generalizing o with
  | nil => rfl
  | cons c s ih =>
    unfold cleanLowerLoop
    have hc : ctypeCall P isUpperC c = .ok (isUpperC c) := by
      rcases h with h | h
      · exact ctypeCall_benign h _ _
      · exact ctypeCall_ascii _ (h c (by simp))
    have h' : P.ctypeNegDefined = true ∨ ∀ c ∈ s, c.toNat < 128 := by
      rcases h with h | h
      · exact Or.inl h
      · exact Or.inr (fun c hc => h c (by simp [hc]))
    rw [hc]
    simp only [Res.bind_ok, List.map_cons]
    rw [← OutBuf.push_bind]
    split
    · simp only [ih _ h']
    · rename_i hu
      have : toLowerC c = c := by unfold toLowerC; rw [if_neg hu]
      simp only [ih _ h', this]

theorem cleanLower_eq {P : Platform} (s : Bytes) (h : P.ctypeNegDefined = true ∨ ∀ c ∈ s, c.toNat < 128) :
    cleanLower P s = emit (s.length + 1) (s.map toLowerC) := by
  unfold cleanLower emit
  simp only [cleanLowerLoop_eq _ _ h]

/-! ### uncgi -/

/-- What `clean_uncgi` writes, with a loop bound. -/
def uncgiOut : Nat → Bytes → Bytes
  | 0, _ => []
  | _, [] => []
  | n + 1, c :: rest =>
    if c = 0x25 ∧ isXDigitC (peek rest) = true ∧ isXDigitC (peek rest.tail) = true then
      UInt8.ofNat (hexVal (peek rest) * 16 + hexVal (peek rest.tail)) :: uncgiOut n (rest.drop 2)
    else if c = 0x2B then 0x20 :: uncgiOut n rest
    else c :: uncgiOut n rest

theorem cleanUncgiLoop_eq {P : Platform} (n : Nat) (o : OutBuf) (s : Bytes) (hn : s.length ≤ n)
    (h : P.ctypeNegDefined = true ∨ ∀ c ∈ s, c.toNat < 128) :
    cleanUncgiLoop P n o s = o.pushStr (uncgiOut n s) := by
  induction n generalizing o s with
  | zero =>
    cases s with
    | nil => rfl
    | cons c s => simp at hn
  | succ n ih =>
    cases s with
    | nil => rfl
    | cons c s =>
      simp only [List.length_cons] at hn
      have hsub : ∀ s' : Bytes, s'.Sublist s → P.ctypeNegDefined = true ∨ ∀ c ∈ s', c.toNat < 128 := by
        intro s' hs'
        rcases h with h | h
        · exact Or.inl h
        · exact Or.inr (fun x hx => h x (by simp [hs'.subset hx]))
      have hpk : ∀ s' : Bytes, s'.Sublist s → ctypeCall P isXDigitC (peek s') = .ok (isXDigitC (peek s')) := by
        intro s' hs'
        rcases hsub s' hs' with h | h
        · exact ctypeCall_benign h _ _
        · cases s' with
          | nil => exact ctypeCall_ascii _ (by decide)
          | cons x s' => exact ctypeCall_ascii _ (h x (by simp))
      have htest : uncgiTest P s = .ok (isXDigitC (peek s) && isXDigitC (peek s.tail)) := by
        unfold uncgiTest
        rw [hpk s (List.Sublist.refl s)]
        simp only [Res.bind_ok]
        cases hx : isXDigitC (peek s) with
        | true => simp [hpk s.tail (List.tail_sublist s)]
        | false => simp
      unfold cleanUncgiLoop uncgiOut
      have htest' : uncgiEsc P c s =
          .ok (decide (c = 0x25 ∧ isXDigitC (peek s) = true ∧ isXDigitC (peek s.tail) = true)) := by
        unfold uncgiEsc
        by_cases hc : c = 0x25
        · rw [if_pos hc, htest]
          simp [hc, Bool.decide_and]
        · simp [hc]
      simp only [htest', Res.bind_ok, decide_eq_true_eq]
      split
      · rw [← OutBuf.push_bind]
        have : ∀ o', cleanUncgiLoop P n o' (s.drop 2) = o'.pushStr (uncgiOut n (s.drop 2)) :=
          fun o' => ih o' _ (by simp; omega) (hsub _ (List.drop_sublist 2 s))
        simp only [this]
      · split
        · rw [← OutBuf.push_bind]
          simp only [ih _ s (by omega) (hsub s (List.Sublist.refl s))]
        · rw [← OutBuf.push_bind]
          simp only [ih _ s (by omega) (hsub s (List.Sublist.refl s))]

theorem cleanUncgi_eq {P : Platform} (s : Bytes) (h : P.ctypeNegDefined = true ∨ ∀ c ∈ s, c.toNat < 128) :
    cleanUncgi P s = emit (s.length + 1) (uncgiOut s.length s) := by
  unfold cleanUncgi emit
  simp only [cleanUncgiLoop_eq _ _ _ (Nat.le_refl _) h]

theorem uncgiOut_length (n : Nat) (s : Bytes) : (uncgiOut n s).length ≤ s.length := by
  induction n generalizing s with
  | zero => simp [uncgiOut]
  | succ n ih =>
    cases s with
    | nil => simp [uncgiOut]
    | cons c s =>
      unfold uncgiOut
      split
      · have := ih (s.drop 2)
        simp only [List.length_cons, List.length_drop] at *
        omega
      · split <;> simpa using ih s

/-! ### wipeup -/

/-- What `clean_wipeup`'s loop writes. -/
def wipeOut (search : Bytes) (current : Option Nat) : Bytes → Bytes
  | [] =>
    match current with
    | none => []
    | some i => [search.getD i 0]
  | c :: rest =>
    match search.findIdx? (· = c) with
    | some seek =>
      wipeOut search (match current with
        | none => some seek
        | some i => if seek < i then some seek else some i) rest
    | none =>
      (match current with
        | none => []
        | some i => [search.getD i 0]) ++ c :: wipeOut search none rest

theorem cleanWipeupLoop_eq (search : Bytes) (o : OutBuf) (current : Option Nat) (s : Bytes) :
    cleanWipeupLoop search o current s = o.pushStr (wipeOut search current s) := by
  induction s generalizing o current with
  | nil =>
    unfold cleanWipeupLoop wipeOut
    cases current with
    | none => rfl
    | some i => exact OutBuf.push_eq _ _
  | cons c s ih =>
    unfold cleanWipeupLoop wipeOut
    cases search.findIdx? (· = c) with
    | some seek => exact ih _ _
    | none =>
      dsimp only
      rw [OutBuf.pushStr_append]
      cases current with
      | none =>
        simp only [Res.pure_eq, Res.bind_ok, ih]
        rfl
      | some i =>
        simp only [ih]
        rw [← OutBuf.push_eq]
        rfl

theorem cleanWipeup_eq (rt : Bool) (s : Bytes) :
    cleanWipeup rt s = emit ((wipeLead s).length + 1) (wipeOut (wipeSearch rt) none (wipeLead s)) := by
  unfold cleanWipeup emit
  simp only [cleanWipeupLoop_eq]

theorem wipeOut_length (search : Bytes) (current : Option Nat) (s : Bytes) :
    (wipeOut search current s).length ≤ s.length + (if current.isSome then 1 else 0) := by
  induction s generalizing current with
  | nil => unfold wipeOut; cases current <;> simp
  | cons c s ih =>
    unfold wipeOut
    cases search.findIdx? (· = c) with
    | some seek =>
      dsimp only
      refine Nat.le_trans (ih _) ?_
      cases current with
      | none => simp
      | some i => dsimp only; split <;> simp
    | none =>
      have := ih none
      simp only [Option.isSome_none, Bool.false_eq_true, if_false, Nat.add_zero] at this
      cases current <;> simp <;> omega

end Detox
