import Verif.Lemmas.Buf
import Verif.Lemmas.Builtin
import Verif.Spec.Cgi

/-!
# C09, C10: the uncgi filter
-/

set_option autoImplicit false

namespace Detox

open Spec

theorem hexDigit_iff : ∀ (h : Byte) (v : Nat), HexDigit h v ↔ isXDigitC h = true ∧ hexVal h = v := by
  have key : ∀ h : Byte, (isXDigitC h = true → HexDigit h (hexVal h)) ∧
      ∀ v : Fin 16, HexDigit h v.val → isXDigitC h = true ∧ hexVal h = v.val := by
    unfold HexDigit
    exact forall_byte (by decide +kernel)
  intro h v
  constructor
  · intro hd
    have hv : v < 16 := by rcases hd with h | h <;> omega
    exact (key h).2 ⟨v, hv⟩ hd
  · rintro ⟨h1, rfl⟩
    exact (key h).1 h1

theorem isXDigitC_zero : isXDigitC 0 = false := by decide +kernel

theorem uncgiOut_decodes (n : Nat) (s : Bytes) (hn : s.length ≤ n) : Decodes s (uncgiOut n s) := by
  induction n generalizing s with
  | zero =>
    cases s with
    | nil => exact .nil
    | cons c s => simp at hn
  | succ n ih =>
    cases s with
    | nil => exact .nil
    | cons c s =>
      simp only [List.length_cons] at hn
      unfold uncgiOut
      split
      · rename_i hc
        obtain ⟨rfl, h1, h2⟩ := hc
        match s, h1, h2, hn with
        | [], h1, _, _ => exact absurd h1 (by simp [peek, isXDigitC_zero])
        | [_], _, h2, _ => exact absurd h2 (by simp [peek, isXDigitC_zero])
        | a :: b :: s, h1, h2, hn =>
          have := ih s (by simp at hn; omega)
          simp only [peek, List.tail_cons, List.drop_succ_cons, List.drop_zero] at h1 h2 ⊢
          rw [Nat.mul_comm]
          exact .esc _ _ _ _ _ _ ((hexDigit_iff _ _).mpr ⟨h1, rfl⟩) ((hexDigit_iff _ _).mpr ⟨h2, rfl⟩) this
      · rename_i hc
        split
        · rename_i hp
          subst hp
          exact .plus _ _ (ih s (by omega))
        · rename_i hp
          refine .self _ _ _ hp ?_ (ih s (by omega))
          rintro rfl ⟨h1, h2, tl, v1, v2, rfl, d1, d2⟩
          exact hc ⟨rfl, by simpa [peek] using ((hexDigit_iff _ _).mp d1).1, by simpa [peek] using ((hexDigit_iff _ _).mp d2).1⟩

theorem Decodes.unique {s a b : Bytes} (h : Decodes s a) (h' : Decodes s b) : a = b := by
  induction h generalizing b with
  | nil => cases h'; rfl
  | esc h1 h2 v1 v2 rest out d1 d2 _ ih =>
    cases h' with
    | esc _ _ w1 w2 _ out' e1 e2 h' =>
      rw [ih h']
      have := ((hexDigit_iff _ _).mp d1).2.symm.trans ((hexDigit_iff _ _).mp e1).2
      have := ((hexDigit_iff _ _).mp d2).2.symm.trans ((hexDigit_iff _ _).mp e2).2
      subst_vars
      rfl
    | self _ _ _ hq hp h' => exact absurd ⟨h1, h2, rest, v1, v2, rfl, d1, d2⟩ (hp rfl)
  | plus rest out _ ih =>
    cases h' with
    | plus _ _ h' => rw [ih h']
    | self _ _ _ hq hp h' => exact absurd rfl hq
  | self c rest out hq hp _ ih =>
    cases h' with
    | esc h1 h2 w1 w2 tl out' e1 e2 h' => exact absurd ⟨h1, h2, tl, w1, w2, rfl, e1, e2⟩ (hp rfl)
    | plus _ _ h' => exact absurd rfl hq
    | self _ _ _ _ _ h' => rw [ih h']

theorem cleanUncgi_decodes {P : Platform} {s : Bytes} (hP : P.ctypeNegDefined = true ∨ ∀ c ∈ s, c.toNat < 128) :
    ∃ out, Decodes s out ∧ cleanUncgi P s = .ok (cstr out) := by
  refine ⟨uncgiOut s.length s, uncgiOut_decodes _ _ (Nat.le_refl _), ?_⟩
  rw [cleanUncgi_eq s hP, emit_eq, if_pos]
  have := uncgiOut_length s.length s
  omega

theorem Spec.Encodes.decodes {text enc : Bytes} (h : Encodes text enc) : Decodes enc text := by
  induction h with
  | nil => exact .nil
  | esc c h1 h2 text enc d1 d2 _ ih =>
    have := Decodes.esc h1 h2 _ _ _ _ d1 d2 ih
    rwa [Nat.div_add_mod, UInt8.ofNat_toNat] at this
  | plus text enc _ ih => exact .plus _ _ ih
  | self c text enc hp hq _ ih => exact .self _ _ _ hq (fun h => absurd h hp) ih

/-- **C09.** `uncgi` inverts every CGI encoding of every text. -/
theorem C09_uncgi_inverts_encoding (P : Platform) (text enc : Bytes) (ht : NulFree text) (h : Encodes text enc)
    (hP : P.ctypeNegDefined = true ∨ ∀ c ∈ enc, c.toNat < 128) : cleanUncgi P enc = .ok text := by
  obtain ⟨out, h1, h2⟩ := cleanUncgi_decodes hP
  rw [h2, Decodes.unique h1 h.decodes, cstr_of_nulFree ht]

/- Non-vacuous: `a b%é` in mixed style. -/
example : Encodes [0x61, 0x20, 0x62, 0x25, 0xE9] [0x61, 0x2B, 0x25, 0x36, 0x32, 0x25, 0x32, 0x35, 0x25, 0x65, 0x39] :=
  .self _ _ _ (by decide) (by decide) <| .plus _ _ <|
    .esc _ _ _ _ _ (by decide +kernel) (by decide +kernel) <|
    .esc _ _ _ _ _ (by decide +kernel) (by decide +kernel) <|
    .esc _ _ _ _ _ (by decide +kernel) (by decide +kernel) .nil
example : cleanUncgi .linux (lit "a+%62%25%e9") = .ok (lit "a b%" ++ [0xE9]) := by decide +kernel

/-- Every text has an encoding (so C09 says something about every text). -/
theorem encodes_total (text : Bytes) : ∃ enc, Encodes text enc ∧ ∀ c ∈ enc, c.toNat < 128 := by
  have key : ∀ c : Byte, ∃ h1 h2, HexDigit h1 (c.toNat / 16) ∧ HexDigit h2 (c.toNat % 16) ∧
      h1.toNat < 128 ∧ h2.toNat < 128 := by
    intro c
    have hx : ∀ v : Fin 16, ∃ h : Fin 128, HexDigit (UInt8.ofNat h.val) v.val := by
      unfold HexDigit; decide +kernel
    obtain ⟨a, ha⟩ := hx ⟨c.toNat / 16, by have := c.toNat_lt; omega⟩
    obtain ⟨b, hb⟩ := hx ⟨c.toNat % 16, by omega⟩
    have h128 : ∀ x : Fin 128, (UInt8.ofNat x.val).toNat < 128 := by decide +kernel
    exact ⟨_, _, ha, hb, h128 a, h128 b⟩
  induction text with
  | nil => exact ⟨[], .nil, by simp⟩
  | cons c text ih =>
    obtain ⟨enc, h, ha⟩ := ih
    obtain ⟨h1, h2, d1, d2, a1, a2⟩ := key c
    refine ⟨_, .esc c h1 h2 _ _ d1 d2 h, ?_⟩
    intro x hx
    simp only [List.mem_cons] at hx
    rcases hx with rfl | rfl | rfl | hx
    · decide
    · exact a1
    · exact a2
    · exact ha x hx

/-- `%00`. -/
def pct00 : Bytes := [0x25, 0x30, 0x30]

theorem hexDigit_zero : ∀ h : Byte, HexDigit h 0 ↔ h = 0x30 := by
  unfold HexDigit
  exact forall_byte (by decide +kernel)

/-- Decoding stops being NUL-free only at `%00`. -/
theorem decodes_nulFree {s out : Bytes} (h : Decodes s out) (hs : NulFree s)
    (hno : ∀ a b, s ≠ a ++ pct00 ++ b) : NulFree out := by
  induction h with
  | nil => exact NulFree.nil
  | esc h1 h2 v1 v2 rest out d1 d2 _ ih =>
    simp only [nulFree_cons] at hs
    refine nulFree_cons.mpr ⟨fun h0 => ?_, ih hs.2.2.2 fun a b hab => hno (0x25 :: h1 :: h2 :: a) b (by simp [hab])⟩
    have hv1 : v1 < 16 := by rcases d1 with h | h <;> omega
    have hv2 : v2 < 16 := by rcases d2 with h | h <;> omega
    have : 16 * v1 + v2 = 0 := by
      have := congrArg UInt8.toNat h0
      simp only [UInt8.toNat_ofNat', UInt8.reduceToNat] at this
      omega
    obtain ⟨rfl, rfl⟩ : v1 = 0 ∧ v2 = 0 := by omega
    rw [hexDigit_zero] at d1 d2
    subst d1; subst d2
    exact hno [] rest rfl
  | plus rest out _ ih =>
    rw [nulFree_cons] at hs ⊢
    exact ⟨by decide, ih hs.2 fun a b hab => hno (0x2B :: a) b (by simp [hab])⟩
  | self c rest out hq hp _ ih =>
    rw [nulFree_cons] at hs ⊢
    exact ⟨hs.1, ih hs.2 fun a b hab => hno (c :: a) b (by simp [hab])⟩

theorem hexDigit_not_pct {v : Nat} : ¬ HexDigit 0x25 v := by
  rintro (h | h)
  · have := h.2; simp at this; omega
  · have := h.2.2; simp at this; omega

/-- Text before a `%` is decoded independently of what follows. -/
theorem decodes_append_pct {a b oa ob : Bytes} (ha : Decodes a oa) (hb : Decodes (0x25 :: b) ob) :
    Decodes (a ++ 0x25 :: b) (oa ++ ob) := by
  induction ha with
  | nil => exact hb
  | esc h1 h2 v1 v2 rest out d1 d2 _ ih => exact .esc _ _ _ _ _ _ d1 d2 ih
  | plus rest out _ ih => exact .plus _ _ ih
  | self c rest out hq hp _ ih =>
    refine .self _ _ _ hq ?_ ih
    rintro rfl ⟨h1, h2, tl, v1, v2, heq, d1, d2⟩
    rcases rest with _ | ⟨x, _ | ⟨y, r⟩⟩
    · injection heq with e1 _
      exact hexDigit_not_pct (e1 ▸ d1)
    · injection heq with _ e2
      injection e2 with e2 _
      exact hexDigit_not_pct (e2 ▸ d2)
    · injection heq with e1 e2
      injection e2 with e2 _
      subst e1; subst e2
      exact hp rfl ⟨_, _, _, v1, v2, rfl, d1, d2⟩

theorem decodes_total (s : Bytes) : ∃ out, Decodes s out := ⟨_, uncgiOut_decodes _ _ (Nat.le_refl _)⟩

/-- **C10.** Up to the first `%00` everything is decoded, from there on everything is dropped; without
`%00` the result is the full decoding. -/
theorem C10_uncgi_cuts_at_encoded_nul (P : Platform) (s : Bytes) (hs : NulFree s)
    (hP : P.ctypeNegDefined = true ∨ ∀ c ∈ s, c.toNat < 128) :
    (∀ pre post, s = pre ++ pct00 ++ post → (∀ a b, pre ≠ a ++ pct00 ++ b) →
      ∃ out, Decodes pre out ∧ NulFree out ∧ cleanUncgi P s = .ok out) ∧
    ((∀ a b, s ≠ a ++ pct00 ++ b) → ∃ out, Decodes s out ∧ NulFree out ∧ cleanUncgi P s = .ok out) := by
  obtain ⟨out, h1, h2⟩ := cleanUncgi_decodes hP
  constructor
  · rintro pre post rfl hno
    obtain ⟨o1, ho1⟩ := decodes_total pre
    obtain ⟨o2, ho2⟩ := decodes_total post
    have hpre : NulFree pre := by
      rw [List.append_assoc] at hs
      exact (nulFree_append.mp hs).1
    have hnf := decodes_nulFree ho1 hpre hno
    have hz : Decodes (pct00 ++ post) (UInt8.ofNat (16 * 0 + 0) :: o2) :=
      .esc 0x30 0x30 0 0 post o2 ((hexDigit_zero _).mpr rfl) ((hexDigit_zero _).mpr rfl) ho2
    have := decodes_append_pct ho1 hz
    refine ⟨o1, ho1, hnf, ?_⟩
    rw [h2, Decodes.unique h1 (by rw [List.append_assoc]; exact this)]
    rw [show (UInt8.ofNat (16 * 0 + 0) : Byte) = 0 by decide, cstr_append_zero, cstr_of_nulFree hnf]
  · intro hno
    have hnf := decodes_nulFree h1 hs hno
    exact ⟨out, h1, hnf, by rw [h2, cstr_of_nulFree hnf]⟩

/- Non-vacuous. -/
example : cleanUncgi .linux (lit "a%41%%00b%42") = .ok (lit "aA%") := by decide +kernel
example : cleanUncgi .linux (lit "a%0x%4") = .ok (lit "a%0x%4") := by decide +kernel

end Detox
