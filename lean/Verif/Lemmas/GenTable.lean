import Verif.Model.GenTable
import Verif.Lemmas.EscapeUtf8
import Verif.Lemmas.Buf
import Verif.Spec.CSource

/-!
# generate-builtin-table: lemmas
-/

set_option autoImplicit false

namespace Detox
open Spec

/-! ### Escaping -/

/-- What `escape_string` makes. -/
def escapedText : Bytes → Bytes
  | [] => []
  | c :: s =>
    if c = 0x22 then 0x5C :: c :: escapedText s
    else if c = 0x5C ∧ peek s ≠ 0x75 ∧ peek s ≠ 0x55 then 0x5C :: c :: escapedText s
    else c :: escapedText s

theorem escapedText_length (s : Bytes) : (escapedText s).length ≤ s.length * 2 := by
  induction s with
  | nil => simp [escapedText]
  | cons c s ih =>
    rw [escapedText]
    split
    · simp; omega
    · split <;> simp <;> omega

theorem escapeStringLoop_eq (o : OutBuf) (s : Bytes) : escapeStringLoop o s = o.pushStr (escapedText s) := by
  induction s generalizing o with
  | nil => rfl
  | cons c s ih =>
    rw [escapeStringLoop, escapedText]
    by_cases h1 : c = 0x22
    · simp only [if_pos h1, ih]; rfl
    · by_cases h2 : c = 0x5C
      · by_cases h3 : peek s ≠ 0x75 ∧ peek s ≠ 0x55
        · simp only [if_neg h1, if_pos h2, if_pos h3, if_pos (And.intro h2 h3), ih]; rfl
        · have h4 : ¬ (c = 0x5C ∧ peek s ≠ 0x75 ∧ peek s ≠ 0x55) := fun h => h3 h.2
          simp only [if_neg h1, if_pos h2, if_neg h3, if_neg h4, ih]; rfl
      · have h4 : ¬ (c = 0x5C ∧ peek s ≠ 0x75 ∧ peek s ≠ 0x55) := fun h => h2 h.1
        simp only [if_neg h1, if_neg h2, if_neg h4, ih]; rfl

theorem escapedText_nulFree {s : Bytes} (h : NulFree s) : NulFree (escapedText s) := by
  induction s with
  | nil => exact h
  | cons c s ih =>
    rw [nulFree_cons] at h
    have := ih h.2
    rw [escapedText]
    split
    · exact nulFree_cons.2 ⟨by decide, nulFree_cons.2 ⟨h.1, this⟩⟩
    · split
      · exact nulFree_cons.2 ⟨by decide, nulFree_cons.2 ⟨h.1, this⟩⟩
      · exact nulFree_cons.2 ⟨h.1, this⟩

theorem escapeString_eq {s : Bytes} (h : NulFree s) : escapeString s = .ok (escapedText s) := by
  have : escapeString s = emit (s.length * 2 + 1) (escapedText s) := by
    unfold escapeString emit
    rw [escapeStringLoop_eq]
  rw [this, emit_eq, if_pos (by have := escapedText_length s; omega), cstr_of_nulFree (escapedText_nulFree h)]

theorem hexOf_quote : hexOf 0x22 = none := by decide

theorem hexOf_backslash : hexOf 0x5C = none := by decide

theorem readHex_escaped (w acc : Nat) (s rest : Bytes) :
    readHex w acc (escapedText s ++ 0x22 :: rest) = (readHex w acc s).map fun p => (p.1, escapedText p.2 ++ 0x22 :: rest) := by
  induction w generalizing acc s with
  | zero => rfl
  | succ w ih =>
    cases s with
    | nil => rw [escapedText, List.nil_append, readHex.eq_def]; simp only [hexOf_quote]; rfl
    | cons c s =>
      rw [escapedText]
      by_cases h1 : c = 0x22
      · rw [if_pos h1, List.cons_append, readHex, readHex, hexOf_backslash, h1, hexOf_quote]; rfl
      · rw [if_neg h1]
        by_cases h2 : c = 0x5C
        · have : readHex (w + 1) acc (c :: s) = none := by rw [readHex, h2, hexOf_backslash]; rfl
          rw [this]
          split <;> rw [List.cons_append, readHex]
          · rw [hexOf_backslash]; rfl
          · rw [h2, hexOf_backslash]; rfl
        · rw [if_neg (fun h => h2 h.1), List.cons_append, readHex, readHex]
          cases hexOf c with
          | none => rfl
          | some d => exact ih _ _

theorem named_escaped (w : Nat) (s rest : Bytes) :
    named w (escapedText s ++ 0x22 :: rest) = (named w s).map fun p => (p.1, escapedText p.2 ++ 0x22 :: rest) := by
  unfold named
  rw [readHex_escaped]
  cases readHex w 0 s with
  | none => rfl
  | some p =>
    simp only [Option.map_some, Option.bind_some]
    split <;> rfl

theorem readHex_mem {w acc : Nat} {s : Bytes} {p : Nat × Bytes} (h : readHex w acc s = some p) : ∀ c ∈ p.2, c ∈ s := by
  induction w generalizing acc s with
  | zero => cases h; exact fun _ h => h
  | succ w ih =>
    cases s with
    | nil => cases h
    | cons c s =>
      rw [readHex] at h
      cases hc : hexOf c with
      | none => rw [hc] at h; cases h
      | some d =>
        rw [hc] at h
        exact fun x hx => List.mem_cons_of_mem _ (ih h x hx)

theorem readHex_length {w acc : Nat} {s : Bytes} {p : Nat × Bytes} (h : readHex w acc s = some p) : p.2.length ≤ s.length := by
  induction w generalizing acc s with
  | zero => cases h; exact Nat.le_refl _
  | succ w ih =>
    cases s with
    | nil => cases h
    | cons c s =>
      rw [readHex] at h
      cases hc : hexOf c with
      | none => rw [hc] at h; cases h
      | some d =>
        rw [hc] at h
        have := ih h
        simp; omega

theorem named_length {w : Nat} {s : Bytes} {p : Bytes × Bytes} (h : named w s = some p) :
    p.2.length ≤ s.length ∧ ∀ c ∈ p.2, c ∈ s := by
  unfold named at h
  cases hr : readHex w 0 s with
  | none => rw [hr] at h; cases h
  | some q =>
    rw [hr] at h
    simp only [Option.bind_some] at h
    split at h
    · cases h; exact ⟨readHex_length hr, readHex_mem hr⟩
    · cases h

theorem cString_escape (n : Nat) (r : Bytes) : cString (n + 1) (0x5C :: r) =
    (cEscaped r).bind fun p => (cString n p.2).map fun q => (p.1 ++ q.1, q.2) := by
  rw [cString, if_neg (by decide), if_neg (by decide), if_pos rfl]

theorem cString_escapedText (s rest : Bytes) : ∀ (N n m : Nat), s.length ≤ N → s.length < n → s.length ≤ m → (0x0A : Byte) ∉ s →
    cString n (escapedText s ++ 0x22 :: rest) = (expandNames m s).map fun e => (e, rest) := by
  intro N
  induction N generalizing s with
  | zero =>
    intro n m hN hn hm hnl
    have : s = [] := List.eq_nil_of_length_eq_zero (by omega)
    subst this
    cases n with
    | zero => simp at hn
    | succ n => cases m <;> rfl
  | succ N ih =>
    intro n m hN hn hm hnl
    cases s with
    | nil =>
      cases n with
      | zero => simp at hn
      | succ n => cases m <;> rfl
    | cons c s =>
      simp only [List.length_cons] at hN hn hm
      rw [List.mem_cons, not_or] at hnl
      cases n with
      | zero => omega
      | succ n =>
        cases m with
        | zero => omega
        | succ m =>
          have step := ih s n m (by omega) (by omega) (by omega) hnl.2
          have plain : ((cString n (escapedText s ++ 0x22 :: rest)).map fun q : Bytes × Bytes => (c :: q.1, q.2)) =
              ((expandNames m s).map (c :: ·)).map fun e => (e, rest) := by
            rw [step]; cases expandNames m s <;> rfl
          by_cases h1 : c = 0x22
          · rw [escapedText, if_pos h1, expandNames, if_neg (fun h => by rw [h1] at h; exact absurd h.1 (by decide)),
              if_neg (fun h => by rw [h1] at h; exact absurd h.1 (by decide)), List.cons_append, List.cons_append, cString_escape,
              ← plain, h1]
            rfl
          · by_cases h2 : c = 0x5C
            · subst h2
              rw [escapedText, if_neg h1]
              cases s with
              | nil =>
                rw [if_pos ⟨rfl, by decide, by decide⟩, expandNames, if_neg (by simp), if_neg (by simp), List.cons_append, List.cons_append,
                  cString_escape, ← plain]
                rfl
              | cons e s =>
                have name : ∀ w, ((named w (escapedText s ++ 0x22 :: rest)).bind fun p : Bytes × Bytes =>
                      (cString n p.2).map fun q : Bytes × Bytes => (p.1 ++ q.1, q.2)) =
                    ((named w s).bind fun p => (expandNames m p.2).map (p.1 ++ ·)).map fun e => (e, rest) := by
                  intro w
                  rw [named_escaped]
                  cases hnm : named w s with
                  | none => rfl
                  | some p =>
                    obtain ⟨hl, hm'⟩ := named_length hnm
                    simp only [List.length_cons] at hN hn hm
                    simp only [Option.map_some, Option.bind_some]
                    rw [ih p.2 n m (by omega) (by omega) (by omega) (fun h => hnl.2 (List.mem_cons_of_mem _ (hm' _ h)))]
                    cases expandNames m p.2 <;> rfl
                by_cases hu : e = 0x75
                · subst hu
                  rw [if_neg (fun h => h.2.1 rfl), expandNames, if_pos ⟨rfl, rfl⟩, List.cons_append, cString_escape, escapedText,
                    if_neg (by decide), if_neg (fun h => absurd h.1 (by decide)), List.cons_append, cEscaped, if_neg (by decide),
                    if_neg (by decide), if_pos rfl, List.tail_cons]
                  exact name 4
                · by_cases hU : e = 0x55
                  · subst hU
                    rw [if_neg (fun h => h.2.2 rfl), expandNames, if_neg (by simp), if_pos ⟨rfl, rfl⟩, List.cons_append, cString_escape,
                      escapedText, if_neg (by decide), if_neg (fun h => absurd h.1 (by decide)), List.cons_append, cEscaped,
                      if_neg (by decide), if_neg (by decide), if_neg (by decide), if_pos rfl, List.tail_cons]
                    exact name 8
                  · rw [if_pos ⟨rfl, hu, hU⟩, expandNames, if_neg (by simpa using hu), if_neg (by simpa using hU), List.cons_append,
                      List.cons_append, cString_escape, ← plain]
                    rfl
            · rw [escapedText, if_neg h1, if_neg (fun h => h2 h.1), expandNames, if_neg (fun h => h2 h.1), if_neg (fun h => h2 h.1),
                List.cons_append, cString, if_neg h1, if_neg (fun h => hnl.1 h.symm), if_neg h2, plain]

theorem escapedText_length_ge (s : Bytes) : s.length ≤ (escapedText s).length := by
  induction s with
  | nil => simp
  | cons c s ih =>
    rw [escapedText]
    split
    · simp; omega
    · split <;> simp <;> omega

theorem stringLit_escapedText (s rest : Bytes) (h : (0x0A : Byte) ∉ s) :
    stringLit (escapedText s ++ 0x22 :: rest) = (expandNames s.length s).map fun e => (e, rest) :=
  cString_escapedText s rest s.length _ _ (Nat.le_refl _) (by
    have := escapedText_length_ge s
    simp; omega) (Nat.le_refl _) h

theorem cString_plain (s rest : Bytes) (n : Nat) (hn : s.length < n) (h : ∀ c ∈ s, c ≠ 0x0A ∧ c ≠ 0x22 ∧ c ≠ 0x5C) :
    cString n (s ++ 0x22 :: rest) = some (s, rest) := by
  induction s generalizing n with
  | nil =>
    cases n with
    | zero => simp at hn
    | succ n => rfl
  | cons c s ih =>
    cases n with
    | zero => simp at hn
    | succ n =>
      obtain ⟨h1, h2, h3⟩ := h c (by simp)
      rw [List.cons_append, cString, if_neg h2, if_neg h1, if_neg h3, ih n (by simpa using hn) (fun c hc => h c (by simp [hc]))]
      rfl

theorem stringLit_plain (s rest : Bytes) (h : ∀ c ∈ s, c ≠ 0x0A ∧ c ≠ 0x22 ∧ c ≠ 0x5C) :
    stringLit (s ++ 0x22 :: rest) = some (s, rest) := cString_plain s rest _ (by simp) h

/-! ### Numbers -/

theorem numeral_snoc (b : Nat) (ds : Bytes) (c : Byte) : numeral b (ds ++ [c]) = b * numeral b ds + (hexOf c).getD 0 := by
  simp [numeral]

theorem numeral_zeros (b n : Nat) (ds : Bytes) : numeral b (List.replicate n 0x30 ++ ds) = numeral b ds := by
  induction n with
  | zero => rfl
  | succ n ih =>
    rw [← ih, List.replicate_succ]
    simp only [numeral, List.cons_append, List.foldl_cons]
    rw [show b * 0 + (hexOf 0x30).getD 0 = 0 from by rw [Nat.mul_zero]; rfl]

theorem decDigit_val : ∀ d < 10, (hexOf (UInt8.ofNat (0x30 + d))).getD 0 = d ∧ isDecDigit (UInt8.ofNat (0x30 + d)) = true ∧
    (UInt8.ofNat (0x30 + d) = 0x30 → d = 0) := by decide +kernel

theorem head?_append_ne {l m : Bytes} (h : l ≠ []) : (l ++ m).head? = l.head? := by
  cases l with
  | nil => exact absurd rfl h
  | cons c l => rfl

theorem decDigits_spec : ∀ (f n : Nat), n < 10 ^ f → 0 < f →
    numeral 10 (decDigits f n) = n ∧ (∀ c ∈ decDigits f n, isDecDigit c = true) ∧ decDigits f n ≠ [] ∧
    ((decDigits f n).head? = some 0x30 → n = 0) := by
  intro f
  induction f with
  | zero => intro n _ h; omega
  | succ f ih =>
    intro n hn _
    rw [decDigits]
    by_cases h : n < 10
    · obtain ⟨h1, h2, h3⟩ := decDigit_val n h
      rw [if_pos h]
      refine ⟨(Nat.zero_add _).trans h1, List.forall_mem_singleton.2 h2, List.cons_ne_nil _ _, fun hh => h3 (Option.some.inj hh)⟩
    · rw [if_neg h]
      have hf : 0 < f := by
        rcases Nat.eq_zero_or_pos f with h0 | h0
        · subst h0; simp at hn; omega
        · exact h0
      have hd : n / 10 < 10 ^ f := by
        rw [Nat.pow_succ] at hn
        exact Nat.div_lt_of_lt_mul (by omega)
      obtain ⟨i1, i2, i3, i4⟩ := ih (n / 10) hd hf
      obtain ⟨h1, h2, _⟩ := decDigit_val (n % 10) (Nat.mod_lt _ (by omega))
      refine ⟨by rw [numeral_snoc, i1, h1]; omega, ?_, by simp, ?_⟩
      · intro c hc
        rw [List.mem_append, List.mem_singleton] at hc
        rcases hc with hc | hc
        · exact i2 c hc
        · rw [hc]; exact h2
      · intro hh
        rw [head?_append_ne i3] at hh
        have := i4 hh
        omega

theorem span_digits {p : Byte → Bool} {ds : Bytes} (h : ∀ c ∈ ds, p c = true) {c : Byte} (hc : p c = false) (rest : Bytes) :
    (ds ++ c :: rest).takeWhile p = ds ∧ (ds ++ c :: rest).dropWhile p = c :: rest := by
  rw [List.takeWhile_append_of_pos h, List.dropWhile_append_of_pos h, List.takeWhile_cons_of_neg (by simp [hc]),
    List.dropWhile_cons_of_neg (by simp [hc])]
  simp

theorem decConst_printf {n : Nat} (hn : n < 10 ^ 10) {c : Byte} (hc : isDecDigit c = false) (rest : Bytes) :
    decConst (printfDec n ++ c :: rest) = some (n, c :: rest) := by
  obtain ⟨h1, h2, h3, h4⟩ := decDigits_spec 10 n hn (by omega)
  obtain ⟨t1, t2⟩ := span_digits h2 hc rest
  unfold decConst printfDec
  rw [t1, t2, if_neg h3, if_neg, h1]
  rintro ⟨k1, k2⟩
  rw [head?_append_ne h3] at k1
  rw [h4 k1] at k2
  exact k2 rfl

theorem hexDigit_val : ∀ d < 16, (hexOf (hexChar false d)).getD 0 = d ∧ isHexDigit (hexChar false d) = true := by decide +kernel

theorem hexDigits_spec : ∀ (f n : Nat), n < 16 ^ f → 0 < f →
    numeral 16 (hexDigits false f n) = n ∧ (∀ c ∈ hexDigits false f n, isHexDigit c = true) ∧ hexDigits false f n ≠ [] := by
  intro f
  induction f with
  | zero => intro n _ h; omega
  | succ f ih =>
    intro n hn _
    rw [hexDigits]
    by_cases h : n < 16
    · obtain ⟨h1, h2⟩ := hexDigit_val n h
      rw [if_pos h]
      exact ⟨(Nat.zero_add _).trans h1, List.forall_mem_singleton.2 h2, List.cons_ne_nil _ _⟩
    · rw [if_neg h]
      have hf : 0 < f := by
        rcases Nat.eq_zero_or_pos f with h0 | h0
        · subst h0; simp at hn; omega
        · exact h0
      have hd : n / 16 < 16 ^ f := by
        rw [Nat.pow_succ] at hn
        exact Nat.div_lt_of_lt_mul (by omega)
      obtain ⟨i1, i2, i3⟩ := ih (n / 16) hd hf
      obtain ⟨h1, h2⟩ := hexDigit_val (n % 16) (Nat.mod_lt _ (by omega))
      refine ⟨by rw [numeral_snoc, i1, h1]; omega, ?_, by simp⟩
      intro c hc
      rw [List.mem_append, List.mem_singleton] at hc
      rcases hc with hc | hc
      · exact i2 c hc
      · rw [hc]; exact h2

theorem hexConst_printf {n : Nat} (hn : n < 2 ^ 32) {c : Byte} (hc : isHexDigit c = false) (rest : Bytes) :
    hexConst (printfHex false 4 n ++ c :: rest) = some (n, c :: rest) := by
  obtain ⟨h1, h2, h3⟩ := hexDigits_spec 8 n (by omega) (by omega)
  have h2' : ∀ c ∈ printfHex false 4 n, isHexDigit c = true := by
    intro c hc
    unfold printfHex List.leftpad at hc
    rw [List.mem_append] at hc
    rcases hc with hc | hc
    · rw [(List.mem_replicate.1 hc).2]; decide
    · exact h2 c hc
  have h1' : numeral 16 (printfHex false 4 n) = n := by
    unfold printfHex List.leftpad
    rw [numeral_zeros, h1]
  have h3' : printfHex false 4 n ≠ [] := by
    unfold printfHex List.leftpad
    simp [h3]
  obtain ⟨t1, t2⟩ := span_digits h2' hc rest
  unfold hexConst
  rw [t1, t2, if_neg h3', h1']

/-! ### Fixed text -/

theorem strip_append (p s : Bytes) : strip p (p ++ s) = some s := by
  induction p with
  | nil => rfl
  | cons c p ih => rw [List.cons_append, strip, if_pos rfl, ih]

/-! ### The table that is printed -/

/-- A table in which every row is at the index of its key. -/
structure Direct (t : Table) : Prop where
  hash : t.useHash = true
  place : ∀ (i : Nat) (r : Row), t.rows[i]? = some r → r.key = 0 ∨ r.key = i
  used : t.used = usedRows t.rows

theorem Direct.room {t : Table} (h : Direct t) (hpos : 0 < t.rows.length) : t.used < t.rows.length := by
  rw [h.used]
  cases hr : t.rows with
  | nil => rw [hr] at hpos; simp at hpos
  | cons r rs =>
    have h0 : r.key = 0 := by
      rcases h.place 0 r (by rw [hr]; rfl) with h | h <;> exact h
    have : usedRows (r :: rs) = usedRows rs := by
      unfold usedRows
      rw [List.countP_cons_of_neg (by simp [h0])]
    rw [this]
    have : usedRows rs ≤ rs.length := List.countP_le_length
    simp; omega

theorem Direct.put {t : Table} (h : Direct t) {k : Nat} (h0 : k ≠ 0) (hk : k < t.rows.length)
    (hfree : ∀ r, t.rows[k]? = some r → r.key = 0) (d : Bytes) :
    Direct (tablePut t k d).1 ∧ (tablePut t k d).1.rows = t.rows.set k ⟨k, some d⟩ ∧ (tablePut t k d).1.used = t.used + 1 ∧
    (tablePut t k d).1.overwrites = t.overwrites := by
  have hu := h.room (by omega)
  have ho : t.putOffset k = some k := by
    unfold Table.putOffset Table.putProbe
    have hm : tableHash t.length k = k := Nat.mod_eq_of_lt hk
    rw [if_pos h.hash]
    simp only [hm, List.getElem?_eq_getElem hk]
    rw [if_pos (.inl (hfree _ (List.getElem?_eq_getElem hk)))]
  have hkey := hfree _ (List.getElem?_eq_getElem hk)
  rw [tablePut_eq, if_neg h0, if_neg (by omega), ho]
  refine ⟨⟨h.hash, ?_, ?_⟩, rfl, rfl, ?_⟩
  · intro i r hi
    simp only [List.getElem?_set] at hi
    split at hi
    · cases hi; right; assumption
    · exact h.place i r hi
  · show t.used + 1 = usedRows (t.rows.set k ⟨k, some d⟩)
    unfold usedRows
    rw [List.countP_set hk, h.used]
    unfold usedRows
    simp [h0, hkey]
  · simp only [List.getElem?_eq_getElem hk, hkey]
    simp [Ne.symm h0]

theorem Direct.copyRows {t : Table} (h : Direct t) (rows : List Row)
    (hlt : ∀ r ∈ rows, r.key < t.rows.length) (hfull : ∀ r ∈ rows, r.key ≠ 0 → ∃ d, r.data = some d)
    (hfree : ∀ r ∈ rows, r.key ≠ 0 → ∀ r', t.rows[r.key]? = some r' → r'.key = 0)
    (hd : rows.Pairwise fun r r' => r.key ≠ 0 → r.key ≠ r'.key) :
    Direct (tableCopyRows t rows) ∧ (tableCopyRows t rows).used = t.used + usedRows rows ∧
    (tableCopyRows t rows).overwrites = t.overwrites := by
  induction rows generalizing t with
  | nil => exact ⟨h, rfl, rfl⟩
  | cons r rs ih =>
    rw [List.pairwise_cons] at hd
    have skip : r.key = 0 → tableCopyRows t (r :: rs) = tableCopyRows t rs := by
      intro h0
      rw [tableCopyRows]
      cases r.data with
      | none => rfl
      | some d => simp [h0]
    by_cases h0 : r.key = 0
    · rw [skip h0]
      obtain ⟨a, b, c⟩ := ih h (fun r hr => hlt r (by simp [hr])) (fun r hr => hfull r (by simp [hr])) (fun r hr => hfree r (by simp [hr])) hd.2
      refine ⟨a, ?_, c⟩
      rw [b]
      unfold usedRows
      rw [List.countP_cons_of_neg (by simp [h0])]
    · obtain ⟨d, hd'⟩ := hfull r (by simp) h0
      have heq : tableCopyRows t (r :: rs) = tableCopyRows (tablePut t r.key d).1 rs := by
        rw [tableCopyRows, hd']
        simp only
        rw [if_pos (by omega)]
      obtain ⟨p1, p2, p3, p4⟩ := h.put h0 (hlt r (by simp)) (hfree r (by simp) h0) d
      rw [heq]
      obtain ⟨a, b, c⟩ := ih p1 (by rw [p2, List.length_set]; exact fun r hr => hlt r (by simp [hr])) (fun r hr => hfull r (by simp [hr]))
        (by
          intro r' hr' h0' r'' hr''
          rw [p2, List.getElem?_set_ne (hd.1 r' hr' h0)] at hr''
          exact hfree r' (by simp [hr']) h0' r'' hr'') hd.2
      refine ⟨a, ?_, c.trans p4⟩
      rw [b, p3]
      unfold usedRows
      rw [List.countP_cons_of_pos (by simp [h0])]
      omega

theorem Direct.fresh {n : Nat} (d : Option Bytes) (o : Nat) :
    Direct { freshTable (n + 1 : Nat) true with defaultTranslation := d, overwrites := o } := by
  have hr : ∀ (i : Nat) (r : Row), (freshTable (n + 1 : Nat) true).rows[i]? = some r → r.key = 0 := by
    intro i r h
    have := List.eq_of_mem_replicate (List.mem_of_getElem? h)
    rw [this]; rfl
  refine ⟨rfl, fun i r h => .inl (hr i r h), ?_⟩
  show 0 = List.countP _ _
  symm
  rw [List.countP_eq_zero]
  intro r h
  obtain ⟨i, hi⟩ := List.getElem?_of_mem h
  simp [hr i r hi]

theorem Direct.resize {t : Table} (hw : t.WF) {n : Nat} (hn : ∀ k d, tableGet t k = some d → k ≤ n) :
    Direct (tableResize t (n + 1 : Nat) true) ∧ (tableResize t (n + 1 : Nat) true).used = usedRows t.rows ∧
    usedRows t.rows ≤ n ∧ (tableResize t (n + 1 : Nat) true).overwrites = t.overwrites := by
  have hlen : ({ freshTable (n + 1 : Nat) true with defaultTranslation := t.defaultTranslation, overwrites := t.overwrites } : Table).rows.length
      = n + 1 := by
    rw [show ({ freshTable (n + 1 : Nat) true with defaultTranslation := t.defaultTranslation, overwrites := t.overwrites } : Table).rows.length
      = rowsFor (n + 1 : Nat) from freshTable_length _ true]
    unfold rowsFor
    rw [if_neg (by omega)]
    omega
  have h := (Direct.fresh (n := n) t.defaultTranslation t.overwrites).copyRows t.rows
    (by
      intro r hr
      rw [hlen]
      by_cases h0 : r.key = 0
      · omega
      · obtain ⟨i, hi⟩ := List.getElem?_of_mem hr
        obtain ⟨d, hd, _⟩ := hw.full i r hi h0
        have := hn r.key d ((hw.get_eq_some _ _).2 ⟨h0, i, by rw [hi, ← hd]⟩)
        omega)
    (by
      intro r hr h0
      obtain ⟨i, hi⟩ := List.getElem?_of_mem hr
      obtain ⟨d, hd, _⟩ := hw.full i r hi h0
      exact ⟨d, hd⟩)
    (by
      intro r _ _ r' h
      have := List.eq_of_mem_replicate (List.mem_of_getElem? h)
      rw [this]; rfl)
    (by
      rw [List.pairwise_iff_getElem]
      intro i j hi hj hij h0 he
      have := hw.unique i j _ _ (List.getElem?_eq_getElem hi) (List.getElem?_eq_getElem hj) h0 he
      omega)
  rw [← tableResize_eq] at h
  have hu : (tableResize t (n + 1 : Nat) true).used = usedRows t.rows := by
    rw [h.2.1]; exact Nat.zero_add _
  have hl : (tableResize t (n + 1 : Nat) true).rows.length = n + 1 := by
    rw [tableResize_eq, (tableCopyRows_size _ _).1, hlen]
  have := h.1.room (by omega)
  exact ⟨h.1, hu, by omega, h.2.2⟩

/-! ### Rows -/

/-- The entries in rows. -/
def entriesOf : List Row → List (Nat × Bytes)
  | [] => []
  | r :: rs =>
    if r.key = 0 then entriesOf rs
    else
      match r.data with
      | none => entriesOf rs
      | some d => (r.key, d) :: entriesOf rs

/-- The text for a row. -/
def rowText (p : Nat × Bytes) : Bytes :=
  lit "    { .key  = 0x" ++ (printfHex false 4 p.1 ++ (lit ", .data = \"" ++ (escapedText p.2 ++ lit "\" },\n")))

theorem generateRows_eq (rows : List Row) (h : ∀ r ∈ rows, r.key ≠ 0 → ∃ d, r.data = some d ∧ NulFree d) :
    generateRows rows = .ok ((entriesOf rows).flatMap rowText) := by
  induction rows with
  | nil => rfl
  | cons r rs ih =>
    have ih := ih fun r hr => h r (by simp [hr])
    rw [generateRows, entriesOf]
    by_cases h0 : r.key = 0
    · rw [if_pos h0, if_pos h0, ih]
    · obtain ⟨d, hd, hn⟩ := h r (by simp) h0
      rw [if_neg h0, if_neg h0]
      simp only [hd, escapeString_eq hn, ih, Res.bind_ok, List.flatMap_cons, rowText, List.append_assoc]

theorem entriesOf_mem {rows : List Row} {p : Nat × Bytes} (h : p ∈ entriesOf rows) : p.1 ≠ 0 ∧ (⟨p.1, some p.2⟩ : Row) ∈ rows := by
  induction rows with
  | nil => cases h
  | cons r rs ih =>
    rw [entriesOf] at h
    by_cases h0 : r.key = 0
    · rw [if_pos h0] at h
      exact ⟨(ih h).1, List.mem_cons_of_mem _ (ih h).2⟩
    · rw [if_neg h0] at h
      obtain ⟨k, d⟩ := r
      cases d with
      | none => exact ⟨(ih h).1, List.mem_cons_of_mem _ (ih h).2⟩
      | some d =>
        simp only [List.mem_cons] at h
        rcases h with h | h
        · rw [h]; exact ⟨h0, by simp⟩
        · exact ⟨(ih h).1, List.mem_cons_of_mem _ (ih h).2⟩

theorem entriesOf_length (rows : List Row) (h : ∀ r ∈ rows, r.key ≠ 0 → ∃ d, r.data = some d) :
    (entriesOf rows).length = usedRows rows := by
  induction rows with
  | nil => rfl
  | cons r rs ih =>
    have ih := ih fun r hr => h r (by simp [hr])
    rw [entriesOf]
    unfold usedRows at *
    by_cases h0 : r.key = 0
    · rw [if_pos h0, ih, List.countP_cons_of_neg (by simp [h0])]
    · obtain ⟨d, hd⟩ := h r (by simp) h0
      rw [if_neg h0, hd, List.countP_cons_of_pos (by simp [h0])]
      simp [ih]

theorem entriesOf_sorted (rows : List Row) (o : Nat) (h : ∀ (i : Nat) (r : Row), rows[i]? = some r → r.key = 0 ∨ r.key = o + i) :
    (entriesOf rows).Pairwise (fun p q => p.1 < q.1) ∧ ∀ p ∈ entriesOf rows, o ≤ p.1 := by
  induction rows generalizing o with
  | nil => exact ⟨.nil, fun _ h => by cases h⟩
  | cons r rs ih =>
    obtain ⟨i1, i2⟩ := ih (o + 1) (fun i r hi => by
      have := h (i + 1) r (by simpa using hi)
      omega)
    rw [entriesOf]
    by_cases h0 : r.key = 0
    · rw [if_pos h0]
      exact ⟨i1, fun p hp => by have := i2 p hp; omega⟩
    · rw [if_neg h0]
      have hr := (h 0 r rfl).resolve_left h0
      cases r.data with
      | none => exact ⟨i1, fun p hp => by have := i2 p hp; omega⟩
      | some d =>
        refine ⟨List.pairwise_cons.2 ⟨fun p hp => ?_, i1⟩, fun p hp => ?_⟩
        · have := i2 p hp
          show r.key < p.1
          omega
        · rcases List.mem_cons.1 hp with hp | hp
          · rw [hp]; show o ≤ r.key; omega
          · have := i2 p hp; omega

theorem lastRow_entriesOf (rows : List Row) (f : Bytes → Bytes) (h : ∀ r ∈ rows, r.key ≠ 0 → ∃ d, r.data = some d) (k : Nat) :
    lastRow ((entriesOf rows).map fun p => ⟨p.1, some (f p.2)⟩) k = (lastRow rows k).map f := by
  induction rows with
  | nil => rfl
  | cons r rs ih =>
    have ih := ih fun r hr => h r (by simp [hr])
    rw [entriesOf]
    by_cases h0 : r.key = 0
    · rw [if_pos h0, ih, lastRow]
      cases lastRow rs k with
      | some d => rfl
      | none =>
        simp only
        rw [if_neg (fun hk => hk.2 (hk.1.symm.trans h0))]
    · obtain ⟨d, hd⟩ := h r (by simp) h0
      rw [if_neg h0, hd]
      simp only [List.map_cons]
      rw [lastRow, ih, lastRow]
      cases lastRow rs k with
      | some d => rfl
      | none =>
        simp only [Option.map_none]
        split
        · rw [hd]; rfl
        · rfl

/-! ### Reading back -/

theorem hexConst_then {n : Nat} (hn : n < 2 ^ 32) {tail : Bytes} {c : Byte} (ht : tail.head? = some c) (hc : isHexDigit c = false) :
    hexConst (printfHex false 4 n ++ tail) = some (n, tail) := by
  cases tail with
  | nil => cases ht
  | cons x rest => cases ht; exact hexConst_printf hn hc rest

theorem decConst_then {n : Nat} (hn : n < 10 ^ 10) {tail : Bytes} {c : Byte} (ht : tail.head? = some c) (hc : isDecDigit c = false) :
    decConst (printfDec n ++ tail) = some (n, tail) := by
  cases tail with
  | nil => cases ht
  | cons x rest => cases ht; exact decConst_printf hn hc rest

theorem readRow_rowText {p : Nat × Bytes} (hk : p.1 < 2 ^ 32) (hn : (0x0A : Byte) ∉ p.2) {e : Bytes}
    (he : expandNames p.2.length p.2 = some e) (tail : Bytes) : readRow (rowText p ++ tail) = some ((p.1, e), tail) := by
  unfold readRow rowText
  simp only [List.append_assoc, strip_append, Option.bind_eq_bind, Option.bind_some]
  rw [hexConst_then hk (c := 0x2C) rfl (by decide)]
  simp only [strip_append, Option.bind_some]
  rw [show lit "\" },\n" ++ tail = 0x22 :: (lit " },\n" ++ tail) from rfl, stringLit_escapedText _ _ hn, he]
  simp only [strip_append, Option.bind_some, Option.map_some]

theorem readRows_rowText (f : Bytes → Bytes) (es : List (Nat × Bytes)) (tail : Bytes)
    (h : ∀ p ∈ es, p.1 < 2 ^ 32 ∧ (0x0A : Byte) ∉ p.2 ∧ expandNames p.2.length p.2 = some (f p.2)) (n : Nat) (hn : es.length < n) :
    readRows n (es.flatMap rowText ++ (lit "};\n\n" ++ tail)) = some (es.map fun p => (p.1, f p.2), tail) := by
  induction es generalizing n with
  | nil =>
    cases n with
    | zero => simp at hn
    | succ n => rw [List.flatMap_nil, List.nil_append, readRows, strip_append]; rfl
  | cons p es ih =>
    cases n with
    | zero => simp at hn
    | succ n =>
      obtain ⟨h1, h2, h3⟩ := h p (by simp)
      rw [List.flatMap_cons, List.append_assoc, readRows]
      have hs : ∀ s, strip (lit "};\n\n") (rowText p ++ s) = none := fun s => rfl
      rw [hs]
      simp only [readRow_rowText h1 h2 h3, Option.bind_eq_bind, Option.bind_some,
        ih (fun p hp => h p (by simp [hp])) n (by simpa using hn)]
      rfl

theorem skipComment_skip (x rest : Bytes) (hx : (0x2F : Byte) ∉ x) (hr : rest.head? ≠ some 0x2F) :
    skipComment (x ++ rest) = skipComment rest := by
  induction x with
  | nil => rfl
  | cons c x ih =>
    rw [List.mem_cons, not_or] at hx
    rw [List.cons_append, skipComment, if_neg, ih hx.2]
    rintro ⟨_, h⟩
    cases x with
    | nil => exact hr h
    | cons d x =>
      simp at h
      exact hx.2 (by simp [h])

theorem baseName_slash (p : Bytes) : baseName p = lit "/" ∨ (0x2F : Byte) ∉ baseName p := by
  unfold baseName
  simp only
  split
  · split
    · right; decide
    · left; rfl
  · right
    intro h
    rw [List.mem_reverse] at h
    have := List.all_eq_true.1 List.all_takeWhile _ h
    simp at this

theorem skipComment_header (p rest : Bytes) :
    skipComment (lit "\n * Generated from " ++ (baseName p ++ (lit "\n */\n\n" ++ rest))) = some (lit "\n\n" ++ rest) := by
  rcases baseName_slash p with h | h
  · rw [h]; rfl
  · rw [skipComment_skip _ _ (by decide), skipComment_skip _ _ h (by rw [show (lit "\n */\n\n" ++ rest).head? = some 0x0A from rfl]; decide)]
    · rfl
    · cases hb : baseName p with
      | nil => rw [List.nil_append, show (lit "\n */\n\n" ++ rest).head? = some 0x0A from rfl]; decide
      | cons c s =>
        rw [hb] at h
        intro hh
        simp at hh
        exact h (by simp [hh])

/-- The whole text. -/
def sourceText (file rows : Bytes) (t : Table) : Bytes :=
  lit "\n/**" ++ (lit "\n * Generated from " ++ (baseName file ++ (lit "\n */\n\n" ++
    (lit "static table_row_t builtin_NEW_rows[" ++ (printfDec t.used ++ (lit "] = {\n" ++ (rows ++ (lit "};\n\n" ++
    (lit "static table_t builtin_NEW_table = {\n    .length              = " ++ (printfDec t.used ++
    (lit ",\n    .used                = " ++ (printfDec t.used ++
    (lit ",\n    .max_data_length     = " ++ (printfDec t.maxDataLength ++
    (lit ",\n    .max_key             = 0x" ++ (printfHex false 4 t.maxKey ++
    (lit ",\n    .hits                = 0,\n    .misses              = 0,\n    .seeks               = 0,\n    .overwrites          = " ++
    (printfDec t.overwrites ++
    (lit ",\n    .use_hash            = 0,\n    .builtin             = 1,\n    .rows                = builtin_NEW_rows,\n" ++
    (defaultText t.defaultTranslation ++
    (lit "};\n\n" ++ (lit "table_t *load_builtin_NEW_table(void)\n{\n    return table_resize(&builtin_NEW_table, " ++ (printfDec (loaderRows t.used) ++
    lit ", 1);\n}\n")))))))))))))))))))))))

theorem generateLoader_eq {file rows : Bytes} {hold t : Table} (ht : tableResize hold (intOfUnsigned (hold.maxKey + 1)) true = t)
    (hr : generateRows t.rows = .ok rows) : generateLoader file hold = .ok (sourceText file rows t) := by
  unfold generateLoader
  rw [ht]
  simp only [hr, Res.bind_ok, sourceText, List.append_assoc]

theorem readDefault_text (d : Option Bytes) (hd : ∀ x, d = some x → ∀ c ∈ x, c ≠ 0x0A ∧ c ≠ 0x22 ∧ c ≠ 0x5C) (tail : Bytes) :
    readDefault (defaultText d ++ tail) = some (d, tail) := by
  unfold readDefault
  cases d with
  | none => rw [defaultText, strip_append]
  | some d =>
    have hs : ∀ s, strip (lit "    .default_translation = NULL,\n") (lit "    .default_translation = \"" ++ s) = none := fun s => rfl
    rw [defaultText, List.append_assoc, List.append_assoc, hs]
    simp only [strip_append, Option.bind_eq_bind, Option.bind_some]
    rw [show lit "\",\n" ++ tail = 0x22 :: (lit ",\n" ++ tail) from rfl, stringLit_plain _ _ (hd d rfl)]
    simp only [strip_append, Option.bind_some]

theorem readSource_text (file : Bytes) (f : Bytes → Bytes) (es : List (Nat × Bytes)) (t : Table)
    (h : ∀ p ∈ es, p.1 < 2 ^ 32 ∧ (0x0A : Byte) ∉ p.2 ∧ expandNames p.2.length p.2 = some (f p.2))
    (hu : t.used < 2 ^ 31) (hm : t.maxDataLength < 2 ^ 31) (hk : t.maxKey < 2 ^ 32) (ho : t.overwrites < 2 ^ 31)
    (hd : ∀ x, t.defaultTranslation = some x → ∀ c ∈ x, c ≠ 0x0A ∧ c ≠ 0x22 ∧ c ≠ 0x5C) :
    readSource (sourceText file (es.flatMap rowText) t) = some
      { declared := t.used, rows := es.map fun p => (p.1, f p.2), length := t.used, used := t.used,
        maxDataLength := t.maxDataLength, maxKey := t.maxKey, overwrites := t.overwrites, dflt := t.defaultTranslation,
        loaderRows := loaderRows t.used } := by
  have hl : loaderRows t.used < 10 ^ 10 := by unfold loaderRows; omega
  have hes : es.length ≤ (es.flatMap rowText).length := by
    clear h
    induction es with
    | nil => simp
    | cons p es ih =>
      have : 1 ≤ (rowText p).length := by
        unfold rowText
        rw [List.length_append]
        exact Nat.le_add_right_of_le (by decide)
      rw [List.flatMap_cons, List.length_append, List.length_cons]
      omega
  unfold readSource sourceText
  simp only [strip_append, skipComment_header, Option.bind_eq_bind, Option.bind_some]
  rw [show ∀ x, lit "\n\n" ++ (lit "static table_row_t builtin_NEW_rows[" ++ x) = lit "\n\nstatic table_row_t builtin_NEW_rows[" ++ x from
    fun x => rfl, strip_append, Option.bind_some, decConst_then (by omega) (c := 0x5D) rfl (by decide)]
  simp only [strip_append, Option.bind_some]
  rw [readRows_rowText f es _ h _ (by rw [List.length_append, List.length_append, show (lit "};\n\n").length = 4 from rfl]; omega)]
  simp only [strip_append, Option.bind_some]
  rw [decConst_then (by omega) (c := 0x2C) (by rw [head?_append_ne (by decide +kernel)]; decide +kernel) (by decide)]
  simp only [strip_append, Option.bind_some]
  rw [decConst_then (by omega) (c := 0x2C) (by rw [head?_append_ne (by decide +kernel)]; decide +kernel) (by decide)]
  simp only [strip_append, Option.bind_some]
  rw [decConst_then (by omega) (c := 0x2C) (by rw [head?_append_ne (by decide +kernel)]; decide +kernel) (by decide)]
  simp only [strip_append, Option.bind_some]
  rw [hexConst_then hk (c := 0x2C) (by rw [head?_append_ne (by decide +kernel)]; decide +kernel) (by decide)]
  simp only [strip_append, Option.bind_some]
  rw [decConst_then (by omega) (c := 0x2C) (by rw [head?_append_ne (by decide +kernel)]; decide +kernel) (by decide)]
  simp only [strip_append, Option.bind_some]
  rw [readDefault_text _ hd]
  simp only [strip_append, Option.bind_some]
  rw [decConst_then hl (c := 0x2C) (by decide +kernel) (by decide)]
  simp only [Option.bind_some]
  rw [show strip (lit ", 1);\n}\n") (lit ", 1);\n}\n") = some [] from by decide]
  rfl

end Detox
