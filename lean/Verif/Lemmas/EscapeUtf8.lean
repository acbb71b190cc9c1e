import Verif.Model.EscapeUtf8
import Verif.Lemmas.Table
import Verif.Lemmas.Utf8
import Verif.Spec.CLiteral

/-!
# The table of escape-utf-8
-/

set_option autoImplicit false

namespace Detox
open Spec

theorem hexChar_eq (up : Bool) (d : Nat) : hexChar up d = hexDigit up d := by
  unfold hexChar hexDigit
  congr 1
  cases up <;> split <;> simp <;> omega

theorem hexFixed_zero (up : Bool) (w : Nat) : hexFixed up w 0 = List.replicate w 0x30 := by
  induction w with
  | zero => rfl
  | succ w ih =>
    rw [hexFixed, Nat.zero_div, ih, List.replicate_succ']
    cases up <;> rfl

theorem hexFixed_length (up : Bool) (w n : Nat) : (hexFixed up w n).length = w := by
  induction w generalizing n with
  | zero => rfl
  | succ w ih => rw [hexFixed, List.length_append, ih]; rfl

theorem leftpad_snoc (w : Nat) (a : Byte) (l : Bytes) (x : Byte) :
    List.leftpad (w + 1) a (l ++ [x]) = List.leftpad w a l ++ [x] := by
  unfold List.leftpad
  rw [List.append_assoc]
  congr 2
  simp

theorem hexDigits_pad (up : Bool) : ∀ (w f n : Nat), w ≤ f → n < 16 ^ w → 0 < w →
    List.leftpad w 0x30 (hexDigits up f n) = hexFixed up w n := by
  intro w
  induction w with
  | zero => intro f n _ _ h; omega
  | succ w ih =>
    intro f n hf hn _
    cases f with
    | zero => omega
    | succ f =>
      rw [hexDigits]
      by_cases h : n < 16
      · rw [if_pos h, hexFixed, Nat.div_eq_of_lt h, Nat.mod_eq_of_lt h, hexFixed_zero, hexChar_eq]
        unfold List.leftpad
        simp
      · rw [if_neg h, leftpad_snoc, hexChar_eq, hexFixed]
        have h16 : n / 16 < 16 ^ w := by
          rw [Nat.pow_succ] at hn
          exact Nat.div_lt_of_lt_mul (by omega)
        have hw : 0 < w := by
          rcases Nat.eq_zero_or_pos w with h0 | h0
          · subst h0
            simp at h16
            omega
          · exact h0
        rw [ih f (n / 16) (by omega) h16 hw]

theorem printfHex_eq (up : Bool) {w n : Nat} (hw : w ≤ 8) (h0 : 0 < w) (hn : n < 16 ^ w) : printfHex up w n = hexFixed up w n :=
  hexDigits_pad up w 8 n hw hn h0

/-! ### The loops -/

/-- What the table is like during the loops: keys from 1 to `n - 1` (or so, see `look`) have entries. -/
structure Filling (t : Table) (used : Nat) (look : Nat → Option Bytes) : Prop where
  wf : t.WF
  len : t.rows.length = 0x110000
  used : t.used ≤ used
  dflt : t.defaultTranslation = none
  get : ∀ k, tableGet t k = look k

theorem Filling.put {t : Table} {used : Nat} {look : Nat → Option Bytes} (h : Filling t used look) {k : Nat} (hk : k ≠ 0)
    (hu : used < 0x110000) (d : Bytes) :
    Filling (tablePut t k d).1 (used + 1) (fun k' => if k' = k then some d else look k') := by
  have hroom : t.used < t.rows.length := by have := h.used; have := h.len; omega
  obtain ⟨o, t', heq, hwf, hrows, hused, _, hd, _⟩ := h.wf.put_ok hk hroom d
  refine ⟨by rw [heq]; exact hwf, ?_, ?_, ?_, ?_⟩
  · rw [heq]; show t'.rows.length = _; rw [hrows, List.length_set, h.len]
  · rw [heq]; show t'.used ≤ _; rw [hused]; have := h.used; omega
  · rw [heq]; show t'.defaultTranslation = _; rw [hd, h.dflt]
  · intro k'
    rw [h.wf.get_put hk hroom, h.get]

theorem escapeOthers_fill (f : Nat → Bytes) : ∀ (n i : Nat) (t : Table) (used : Nat) (look : Nat → Option Bytes),
    Filling t used look → i ≠ 0 → used + n ≤ 0x110000 →
    Filling (escapeOthers f (List.range' i n) t) (used + n)
      (fun k => if i ≤ k ∧ k < i + n then some ((f k).take 15) else look k) := by
  intro n
  induction n with
  | zero =>
    intro i t used look h _ _
    have : (fun k => if i ≤ k ∧ k < i + 0 then some ((f k).take 15) else look k) = look := by
      funext k; rw [if_neg (by omega)]
    rw [this]
    exact h
  | succ n ih =>
    intro i t used look h hi hu
    rw [List.range'_succ, escapeOthers]
    have := ih (i + 1) _ _ _ (h.put hi (by omega) ((f i).take (escapeMaxLength - 1))) (by omega) (by omega)
    have e : (fun k => if i + 1 ≤ k ∧ k < i + 1 + n then some ((f k).take 15) else
        if k = i then some ((f i).take (escapeMaxLength - 1)) else look k) =
        fun k => if i ≤ k ∧ k < i + (n + 1) then some ((f k).take 15) else look k := by
      funext k
      by_cases hk : k = i
      · subst hk
        rw [if_neg (by omega), if_pos rfl, if_pos (by omega)]
        rfl
      · by_cases hr : i + 1 ≤ k ∧ k < i + 1 + n
        · rw [if_pos hr, if_pos (by omega)]
        · rw [if_neg hr, if_neg hk, if_neg (by omega)]
    rw [e] at this
    rw [show used + (n + 1) = used + 1 + n by omega]
    exact this

theorem escapePrintable_fill : ∀ (n i : Nat) (t : Table) (used : Nat) (look : Nat → Option Bytes),
    Filling t used look → i ≠ 0 → used + n ≤ 0x110000 →
    Filling (escapePrintable (List.range' i n) t) (used + (List.range' i n).countP (fun k => decide (look k = none)))
      (fun k => if i ≤ k ∧ k < i + n ∧ look k = none then some [UInt8.ofNat k] else look k) := by
  intro n
  induction n with
  | zero =>
    intro i t used look h _ _
    have : (fun k => if i ≤ k ∧ k < i + 0 ∧ look k = none then some [UInt8.ofNat k] else look k) = look := by
      funext k; rw [if_neg (by omega)]
    rw [this]
    exact h
  | succ n ih =>
    intro i t used look h hi hu
    rw [List.range'_succ, escapePrintable]
    by_cases hg : tableGet t i = none
    · rw [if_pos hg]
      rw [h.get] at hg
      have := ih (i + 1) _ _ _ (h.put hi (by omega) ([UInt8.ofNat i].take (escapeMaxLength - 1))) (by omega) (by omega)
      have e : (fun k => if i + 1 ≤ k ∧ k < i + 1 + n ∧ (if k = i then some ([UInt8.ofNat i].take (escapeMaxLength - 1)) else look k) = none
            then some [UInt8.ofNat k] else
          if k = i then some ([UInt8.ofNat i].take (escapeMaxLength - 1)) else look k) =
          fun k => if i ≤ k ∧ k < i + (n + 1) ∧ look k = none then some [UInt8.ofNat k] else look k := by
        funext k
        by_cases hk : k = i
        · subst hk
          rw [if_neg (by omega), if_pos rfl, if_pos ⟨by omega, by omega, hg⟩]
          rfl
        · simp only [if_neg hk]
          by_cases hr : i + 1 ≤ k ∧ k < i + 1 + n ∧ look k = none
          · rw [if_pos hr, if_pos ⟨by omega, by omega, hr.2.2⟩]
          · rw [if_neg hr, if_neg (fun hc => hr ⟨by omega, by omega, hc.2.2⟩)]
      rw [e] at this
      rw [List.countP_cons_of_pos (by simpa using hg)]
      refine { this with used := ?_ }
      have hu' := this.used
      have hc : (List.range' (i + 1) n).countP (fun k => decide ((if k = i then some ([UInt8.ofNat i].take (escapeMaxLength - 1))
          else look k) = none)) ≤ (List.range' (i + 1) n).countP (fun k => decide (look k = none)) := by
        apply List.countP_mono_left
        intro x hx hp
        rw [List.mem_range'_1] at hx
        rw [if_neg (by omega)] at hp
        exact hp
      omega
    · rw [if_neg hg]
      rw [h.get] at hg
      have := ih (i + 1) _ _ _ h (by omega) (by omega)
      have e : (fun k => if i + 1 ≤ k ∧ k < i + 1 + n ∧ look k = none then some [UInt8.ofNat k] else look k) =
          fun k => if i ≤ k ∧ k < i + (n + 1) ∧ look k = none then some [UInt8.ofNat k] else look k := by
        funext k
        by_cases hk : k = i
        · subst hk
          rw [if_neg (by omega), if_neg (fun hc => hg hc.2.2)]
        · by_cases hr : i + 1 ≤ k ∧ k < i + 1 + n ∧ look k = none
          · rw [if_pos hr, if_pos ⟨by omega, by omega, hr.2.2⟩]
          · rw [if_neg hr, if_neg (fun hc => hr ⟨by omega, by omega, hc.2.2⟩)]
      rw [e] at this
      rw [List.countP_cons_of_neg (by simpa using hg)]
      exact this

theorem escape_ascii_rows : ∀ k < 0x80, (if 0x20 ≤ k ∧ k < 0x7F ∧ lastRow builtin_c_escape_rows k = none then some [UInt8.ofNat k]
    else lastRow builtin_c_escape_rows k) = if k = 0 then none else some (cEscape k) := by decide +kernel

theorem escape_rows_small : ∀ r ∈ builtin_c_escape_rows, r.key ≤ 0x7F := by decide +kernel

theorem escape_printable_missing :
    (List.range' 0x20 (0x7F - 0x20)).countP (fun k => decide (lastRow builtin_c_escape_rows k = none)) = 91 := by decide +kernel

theorem tableCopyRows_size (rows : List Row) (dst : Table) : (tableCopyRows dst rows).rows.length = dst.rows.length ∧
    (tableCopyRows dst rows).used ≤ dst.used + rows.length := by
  induction rows generalizing dst with
  | nil => exact ⟨rfl, Nat.le_refl _⟩
  | cons r rs ih =>
    have hput : ∀ d, (tablePut dst r.key d).1.used ≤ dst.used + 1 := by
      intro d
      rw [tablePut_eq]
      repeat' split
      all_goals simp
    unfold tableCopyRows
    cases r.data with
    | none => dsimp only; have := ih dst; rw [List.length_cons]; exact ⟨this.1, by omega⟩
    | some d =>
      dsimp only
      split
      · have := ih (tablePut dst r.key d).1
        have h2 := hput d
        rw [tablePut_length] at this
        rw [List.length_cons]
        exact ⟨this.1, by omega⟩
      · have := ih dst; rw [List.length_cons]; exact ⟨this.1, by omega⟩

/-- The table of escape-utf-8 has an entry for every character, and which. -/
theorem escapeTable_fill : Filling generateCEscapeTable 0x110000
    (fun k => if k ≠ 0 ∧ k < 0x110000 then some (cEscape k) else none) := by
  have h0 : Filling (tableResize builtin_c_escape_table 0x110000 true) 36 (lastRow builtin_c_escape_rows) := by
    have hur : usedRows builtin_c_escape_table.rows = 36 := by decide +kernel
    have hwf : (tableResize builtin_c_escape_table 0x110000 true).WF := by
      rw [tableResize_eq]; exact (freshTable_WF' _ _ _ _).copyRows _
    refine ⟨hwf, ?_, ?_, ?_, ?_⟩
    · rw [tableResize_eq, (tableCopyRows_size _ _).1]
      exact freshTable_length _ _
    · rw [tableResize_eq]
      exact (tableCopyRows_size _ _).2
    · rw [tableResize_eq, tableCopyRows_default]; rfl
    · intro k
      exact resize_get _ _ _ (by rw [hur]; decide) k
  have h1 := escapePrintable_fill (0x7F - 0x20) 0x20 _ _ _ h0 (by omega) (by omega)
  rw [escape_printable_missing] at h1
  have h2 := escapeOthers_fill (fun i => lit "\\u" ++ printfHex true 4 i) (0x10000 - 0x80) 0x80 _ _ _ h1 (by omega) (by omega)
  have h3 := escapeOthers_fill (fun i => lit "\\U" ++ printfHex true 8 i) (0x110000 - 0x10000) 0x10000 _ _ _ h2 (by omega) (by omega)
  refine ⟨h3.wf, h3.len, Nat.le_trans h3.used (by omega), h3.dflt, ?_⟩
  intro k
  show tableGet _ k = _
  unfold generateCEscapeTable
  rw [h3.get]
  by_cases hA : 0x10000 ≤ k
  · by_cases hB : k < 0x110000
    · rw [if_pos (by omega), if_pos ⟨by omega, hB⟩, printfHex_eq true (by omega) (by omega) (by omega)]
      congr 1
      unfold cEscape
      simp only [show ¬ k = 7 by omega, show ¬ k = 8 by omega, show ¬ k = 9 by omega, show ¬ k = 10 by omega,
        show ¬ k = 11 by omega, show ¬ k = 12 by omega, show ¬ k = 13 by omega, show ¬ k = 34 by omega, show ¬ k = 39 by omega,
        show ¬ k = 63 by omega, show ¬ k = 92 by omega, show ¬ k < 32 by omega, show ¬ k = 127 by omega, show ¬ k < 127 by omega,
        show ¬ k < 65536 by omega, or_self, if_false]
      apply List.take_of_length_le
      rw [List.length_append, hexFixed_length]
      decide
    · rw [if_neg (by omega), if_neg (by omega), if_neg (by omega), if_neg (by omega)]
      exact lastRow_none_of_lt escape_rows_small (by omega)
  · rw [if_neg (by omega)]
    by_cases hC : 0x80 ≤ k
    · rw [if_pos (by omega), if_pos ⟨by omega, by omega⟩, printfHex_eq true (by omega) (by omega) (by omega)]
      congr 1
      unfold cEscape
      simp only [show ¬ k = 7 by omega, show ¬ k = 8 by omega, show ¬ k = 9 by omega, show ¬ k = 10 by omega,
        show ¬ k = 11 by omega, show ¬ k = 12 by omega, show ¬ k = 13 by omega, show ¬ k = 34 by omega, show ¬ k = 39 by omega,
        show ¬ k = 63 by omega, show ¬ k = 92 by omega, show ¬ k < 32 by omega, show ¬ k = 127 by omega, show ¬ k < 127 by omega,
        show k < 65536 by omega, or_self, if_false, if_true]
      apply List.take_of_length_le
      rw [List.length_append, hexFixed_length]
      decide
    · rw [if_neg (by omega)]
      have := escape_ascii_rows k (by omega)
      simp only [show 0x20 + (0x7F - 0x20) = 0x7F from rfl]
      rw [this]
      by_cases hz : k = 0
      · rw [if_pos hz, if_neg (by omega)]
      · rw [if_neg hz, if_pos ⟨hz, by omega⟩]

/-! ### Reading escapes -/

theorem hexOf_hexDigit (up : Bool) {d : Nat} (h : d < 16) : hexOf (hexDigit up d) = some d := by
  have : ∀ d < 16, hexOf (hexDigit true d) = some d ∧ hexOf (hexDigit false d) = some d := by decide +kernel
  cases up
  · exact (this d h).2
  · exact (this d h).1

theorem readHex_append (w v acc : Nat) (a b : Bytes) (n : Nat) (h : readHex w acc a = some (n, [])) :
    readHex (w + v) acc (a ++ b) = readHex v n b := by
  induction w generalizing acc a with
  | zero =>
    simp only [readHex] at h
    cases h
    rw [Nat.zero_add]; rfl
  | succ w ih =>
    cases a with
    | nil => simp [readHex] at h
    | cons c a =>
      rw [Nat.succ_add, List.cons_append, readHex]
      rw [readHex] at h
      cases hc : hexOf c with
      | none => rw [hc] at h; cases h
      | some d =>
        rw [hc] at h
        exact ih _ _ h

theorem readHex_rest (w acc : Nat) (a rest : Bytes) (n : Nat) (h : readHex w acc a = some (n, [])) :
    readHex w acc (a ++ rest) = some (n, rest) := by
  have := readHex_append w 0 acc a rest n h
  exact this

theorem readHex_fixed (up : Bool) (w : Nat) : ∀ n, n < 16 ^ w → ∀ acc, readHex w acc (hexFixed up w n) = some (16 ^ w * acc + n, []) := by
  induction w with
  | zero => intro n h acc; simp at h; subst h; simp [readHex, hexFixed]
  | succ w ih =>
    intro n h acc
    rw [Nat.pow_succ] at h
    have h16 : n / 16 < 16 ^ w := Nat.div_lt_of_lt_mul (by omega)
    rw [hexFixed, readHex_append w 1 acc _ _ _ (ih (n / 16) h16 acc)]
    simp only [readHex, hexOf_hexDigit up (Nat.mod_lt n (by omega : 16 > 0)), Option.bind_some]
    congr 2
    rw [Nat.pow_succ, Nat.mul_add, ← Nat.mul_assoc, Nat.mul_comm 16 (16 ^ w)]
    omega

end Detox
