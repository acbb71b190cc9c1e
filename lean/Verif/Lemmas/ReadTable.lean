import Verif.Model.LegacyTables
import Verif.Spec.Denote
import Verif.Lemmas.Shipped

/-!
# Reading table files by the specification of their format

Functions on numbers, which the kernel evaluates quickly, with proofs that what they find is what `Spec/TableFile.lean` says.
-/

set_option autoImplicit false

namespace Detox
open Spec

/-! ## Numbers and bytes -/

/-- A line of numbers as bytes. -/
def asBytes (l : List Nat) : Bytes := l.map UInt8.ofNat

/-- All are bytes. -/
def Small (l : List Nat) : Prop := ∀ c ∈ l, c < 256

theorem Small.cons {c : Nat} {l : List Nat} (h : Small (c :: l)) : c < 256 ∧ Small l :=
  ⟨h c (by simp), fun x hx => h x (by simp [hx])⟩

theorem Small.right {a b : List Nat} (h : Small (a ++ b)) : Small b := fun x hx => h x (by simp [hx])
theorem Small.left {a b : List Nat} (h : Small (a ++ b)) : Small a := fun x hx => h x (by simp [hx])

theorem toNat_small {c : Nat} (h : c < 256) : (UInt8.ofNat c).toNat = c := by
  rw [UInt8.toNat_ofNat']; omega

theorem ofNat_eq {c d : Nat} (hc : c < 256) (hd : d < 256) : UInt8.ofNat c = UInt8.ofNat d ↔ c = d := by
  rw [← UInt8.toNat_inj, toNat_small hc, toNat_small hd]

theorem asBytes_append (a b : List Nat) : asBytes (a ++ b) = asBytes a ++ asBytes b := List.map_append

theorem small_packed (l : Nat × Nat) : Small (packedLine l) := by
  obtain ⟨n, x⟩ := l
  unfold packedLine
  simp only
  intro c hc
  induction n with
  | zero => cases hc
  | succ n ih =>
    rw [bytesOfNumber, List.mem_cons] at hc
    rcases hc with rfl | hc
    · exact Nat.mod_lt _ (by decide)
    · exact ih hc

theorem length_packed (l : Nat × Nat) : (packedLine l).length = l.1 := by
  obtain ⟨n, x⟩ := l
  unfold packedLine
  simp only
  induction n with
  | zero => rfl
  | succ n ih => rw [bytesOfNumber, List.length_cons, ih]

/-! ## The functions -/

def blankN (c : Nat) : Bool := Nat.beq c 32 || Nat.beq c 9 || (Nat.ble 11 c && Nat.ble c 13)

/-- Value of a hexadecimal digit. -/
def hexN (c : Nat) : Option Nat :=
  if (Nat.ble 48 c && Nat.ble c 57) = true then some (c - 48)
  else if (Nat.ble 65 c && Nat.ble c 70) = true then some (c - 55)
  else if (Nat.ble 97 c && Nat.ble c 102) = true then some (c - 87)
  else none

/-- The value with the digits at the begin, and the rest. -/
def readHex : Nat → List Nat → Nat × List Nat
  | v, [] => (v, [])
  | v, c :: l =>
    match hexN c with
    | some x => readHex (16 * v + x) l
    | none => (v, c :: l)

/-- What is in front of `q`, if there is one. -/
def upTo (q : Nat) : List Nat → Option (List Nat)
  | [] => none
  | c :: l => if Nat.beq c q = true then some [] else (upTo q l).map (c :: ·)

/-- What is in front of the first blank. -/
def upToBlank : List Nat → List Nat
  | [] => []
  | c :: l => if blankN c = true then [] else c :: upToBlank l

def skipBlanks : List Nat → List Nat
  | [] => []
  | c :: l => if blankN c = true then skipBlanks l else c :: l

/-- The word at the begin. -/
def readWord : List Nat → Option (List Nat)
  | [] => none
  | c :: l =>
    if Nat.beq c 34 = true then upTo 34 l
    else if Nat.beq c 39 = true then upTo 39 l
    else if blankN c = true then none
    else some (c :: upToBlank l)

/-- A line with a row. -/
def readRow : List Nat → Option (Nat × List Nat)
  | a :: b :: c :: l =>
    if (Nat.beq a 48 && Nat.beq b 120 && (hexN c).isSome) = true then
      match readHex 0 (c :: l) with
      | (v, d :: r) =>
        if (blankN d && Nat.ble 1 v && Nat.ble v 2147483647) = true then (readWord (skipBlanks r)).map fun w => (v, w) else none
      | (_, []) => none
    else none
  | _ => none

def noteN : List Nat → Bool
  | [] => true
  | c :: l => Nat.beq c 35 || (blankN c && l.all blankN)

/-- A line inside a block. -/
def readEntry (l : List Nat) : Option (Option (Nat × List Nat)) :=
  if noteN l = true then some none else (readRow l).map some

/-- Lines inside a block: the rows. -/
def readBody : List (Nat × Nat) → Option (List (Nat × List Nat))
  | [] => some []
  | l :: ls =>
    match readEntry (packedLine l) with
    | some none => readBody ls
    | some (some r) => (readBody ls).map (r :: ·)
    | none => none

/-- The product of the bytes and of their distances from 10. -/
def apartFrom0And10 : Nat → Nat → Nat
  | 0, _ => nat_lit 1
  | n + 1, x =>
    Nat.mul (Nat.mul (Nat.mod (Nat.div x (Nat.pow (nat_lit 256) n)) (nat_lit 256))
      (Nat.add (Nat.sub (Nat.mod (Nat.div x (Nat.pow (nat_lit 256) n)) (nat_lit 256)) (nat_lit 10))
        (Nat.sub (nat_lit 10) (Nat.mod (Nat.div x (Nat.pow (nat_lit 256) n)) (nat_lit 256))))) (apartFrom0And10 n x)

/-- Good lines. -/
def plainN (l : Nat × Nat) : Bool := Nat.ble 1 (apartFrom0And10 l.1 l.2) && Nat.ble l.1 1022

/-! ## What they find -/

theorem beqN_iff {a b : Nat} : Nat.beq a b = true ↔ a = b := ⟨Nat.eq_of_beq_eq_true, fun h => by rw [h]; exact Nat.beq_refl b⟩

theorem blankN_iff {c : Nat} (h : c < 256) : blankN c = true ↔ Blank (UInt8.ofNat c) := by
  have e : ∀ d : Nat, d < 256 → (UInt8.ofNat c = UInt8.ofNat d ↔ c = d) := fun d hd => ofNat_eq h hd
  unfold blankN Blank
  rw [show (0x20 : Byte) = UInt8.ofNat 32 from rfl, show (0x09 : Byte) = UInt8.ofNat 9 from rfl, show (0x0B : Byte) = UInt8.ofNat 11 from rfl,
    show (0x0C : Byte) = UInt8.ofNat 12 from rfl, show (0x0D : Byte) = UInt8.ofNat 13 from rfl, e 32 (by decide), e 9 (by decide), e 11 (by decide),
    e 12 (by decide), e 13 (by decide)]
  simp only [Bool.or_eq_true, Bool.and_eq_true, beqN_iff, Nat.ble_eq]
  omega

theorem hexN_digit {c x : Nat} (h : c < 256) (hx : hexN c = some x) : HexDigit (UInt8.ofNat c) x ∧ x < 16 := by
  unfold hexN at hx
  unfold HexDigit
  rw [toNat_small h]
  simp only [Bool.and_eq_true, Nat.ble_eq] at hx
  split at hx
  · cases hx; omega
  · split at hx
    · cases hx; omega
    · split at hx
      · cases hx; omega
      · cases hx

theorem readHex_digits : ∀ {l r : List Nat} {v v' : Nat} {pre : Bytes}, Small l → Digits 16 pre v → readHex v l = (v', r) →
    ∃ ds, l = ds ++ r ∧ Digits 16 (pre ++ asBytes ds) v'
  | [], r, v, v', pre, _, hd, h => by
    cases h
    exact ⟨[], rfl, by simpa [asBytes] using hd⟩
  | c :: l, r, v, v', pre, hs, hd, h => by
    rw [readHex] at h
    cases hx : hexN c with
    | none =>
      rw [hx] at h
      cases h
      exact ⟨[], rfl, by simpa [asBytes] using hd⟩
    | some x =>
      rw [hx] at h
      have hc := hexN_digit hs.cons.1 hx
      obtain ⟨ds, e, hd'⟩ := readHex_digits hs.cons.2 (.snoc pre v _ x hd hc.1 hc.2) h
      exact ⟨c :: ds, by rw [e]; rfl, by simpa [asBytes] using hd'⟩

theorem upTo_found {q : Nat} : ∀ {l w : List Nat}, upTo q l = some w → ∃ remark, l = w ++ q :: remark ∧ ∀ c ∈ w, c ≠ q
  | [], w, h => by cases h
  | c :: l, w, h => by
    rw [upTo] at h
    split at h
    · next hc =>
      cases h
      rw [beqN_iff] at hc
      exact ⟨l, by rw [hc]; rfl, by simp⟩
    · next hc =>
      cases hu : upTo q l with
      | none => rw [hu] at h; cases h
      | some w' =>
        rw [hu] at h
        cases h
        obtain ⟨remark, e, hw⟩ := upTo_found hu
        refine ⟨remark, by rw [e]; rfl, ?_⟩
        intro x hx
        rw [List.mem_cons] at hx
        rcases hx with rfl | hx
        · intro e'; exact hc (by rw [beqN_iff]; exact e')
        · exact hw x hx

theorem upToBlank_found : ∀ l : List Nat, ∃ remark, l = upToBlank l ++ remark ∧ (∀ c ∈ upToBlank l, blankN c = false) ∧
    (remark = [] ∨ ∃ b r, remark = b :: r ∧ blankN b = true)
  | [] => ⟨[], rfl, by simp [upToBlank], .inl rfl⟩
  | c :: l => by
    rw [upToBlank]
    by_cases h : blankN c = true
    · rw [if_pos h]
      exact ⟨c :: l, rfl, by simp, .inr ⟨c, l, rfl, h⟩⟩
    · rw [if_neg h]
      obtain ⟨remark, e, hb, hr⟩ := upToBlank_found l
      refine ⟨remark, by rw [List.cons_append, ← e], ?_, hr⟩
      intro x hx
      rw [List.mem_cons] at hx
      rcases hx with rfl | hx
      · simpa using h
      · exact hb x hx

theorem skipBlanks_found : ∀ l : List Nat, ∃ ws, l = ws ++ skipBlanks l ∧ ∀ c ∈ ws, blankN c = true
  | [] => ⟨[], rfl, by simp⟩
  | c :: l => by
    rw [skipBlanks]
    by_cases h : blankN c = true
    · rw [if_pos h]
      obtain ⟨ws, e, hb⟩ := skipBlanks_found l
      refine ⟨c :: ws, by rw [List.cons_append, ← e], ?_⟩
      intro x hx
      rw [List.mem_cons] at hx
      rcases hx with rfl | hx
      · exact h
      · exact hb x hx
    · rw [if_neg h]
      exact ⟨[], rfl, by simp⟩

theorem asBytes_ne {w : List Nat} {q : Nat} (hs : Small w) (hq : q < 256) (h : ∀ c ∈ w, c ≠ q) : ∀ c ∈ asBytes w, c ≠ UInt8.ofNat q := by
  intro c hc
  obtain ⟨x, hx, rfl⟩ := List.mem_map.1 hc
  rw [Ne, ofNat_eq (hs x hx) hq]
  exact h x hx

theorem asBytes_blanks {w : List Nat} (hs : Small w) (h : ∀ c ∈ w, blankN c = true) : Blanks (asBytes w) := by
  intro c hc
  obtain ⟨x, hx, rfl⟩ := List.mem_map.1 hc
  exact (blankN_iff (hs x hx)).1 (h x hx)

theorem readWord_word {l w : List Nat} (hs : Small l) (h : readWord l = some w) : Word (asBytes l) (asBytes w) := by
  cases l with
  | nil => cases h
  | cons c l =>
    rw [readWord] at h
    split at h
    · next hc =>
      obtain ⟨remark, e, hw⟩ := upTo_found h
      rw [beqN_iff] at hc
      subst hc e
      rw [show asBytes (34 :: (w ++ 34 :: remark)) = 0x22 :: (asBytes w ++ 0x22 :: asBytes remark) by simp [asBytes]]
      exact .dquote _ _ (asBytes_ne hs.cons.2.left (by decide) hw)
    · next hc =>
      split at h
      · next hc' =>
        obtain ⟨remark, e, hw⟩ := upTo_found h
        rw [beqN_iff] at hc'
        subst hc' e
        rw [show asBytes (39 :: (w ++ 39 :: remark)) = 0x27 :: (asBytes w ++ 0x27 :: asBytes remark) by simp [asBytes]]
        exact .squote _ _ (asBytes_ne hs.cons.2.left (by decide) hw)
      · next hc' =>
        split at h
        · cases h
        · next hb =>
          cases h
          obtain ⟨remark, e, hw, hr⟩ := upToBlank_found l
          have hs' := hs.cons
          rw [e] at hs'
          rw [show asBytes (c :: l) = UInt8.ofNat c :: asBytes (upToBlank l) ++ asBytes remark by
            rw [List.cons_append, ← asBytes_append, ← e]; rfl]
          refine .bare _ _ _ ?_ ?_ ?_ ?_
          · rw [show (0x22 : Byte) = UInt8.ofNat 34 from rfl, Ne, ofNat_eq hs'.1 (by decide)]
            intro h; exact hc (by rw [beqN_iff]; exact h)
          · rw [show (0x27 : Byte) = UInt8.ofNat 39 from rfl, Ne, ofNat_eq hs'.1 (by decide)]
            intro h; exact hc' (by rw [beqN_iff]; exact h)
          · intro x hx
            rw [List.mem_cons] at hx
            rcases hx with rfl | hx
            · rw [← blankN_iff hs'.1]; exact hb
            · obtain ⟨y, hy, rfl⟩ := List.mem_map.1 hx
              rw [← blankN_iff (hs'.2.left y hy), hw y hy]
              decide
          · rcases hr with rfl | ⟨b, r, rfl, hb⟩
            · exact .inl rfl
            · exact .inr ⟨UInt8.ofNat b, asBytes r, rfl, (blankN_iff (hs'.2.right b (by simp))).1 hb⟩

theorem readRow_row {l w : List Nat} {v : Nat} (hs : Small l) (h : readRow l = some (v, w)) : EntryLine (asBytes l) (some (v, asBytes w)) := by
  unfold readRow at h
  split at h
  · next a b c l =>
    split at h
    · next hab =>
      simp only [Bool.and_eq_true, beqN_iff] at hab
      obtain ⟨⟨rfl, rfl⟩, hc⟩ := hab
      split at h
      · next v' d r hh =>
        split at h
        · next hd =>
          simp only [Bool.and_eq_true, Nat.ble_eq] at hd
          obtain ⟨ds, e, hdig⟩ := readHex_digits hs.cons.2.cons.2 .nil hh
          rw [List.nil_append] at hdig
          cases hw : readWord (skipBlanks r) with
          | none => rw [hw] at h; cases h
          | some w' =>
            rw [hw] at h
            cases h
            obtain ⟨ws, er, hb⟩ := skipBlanks_found r
            have hne : ds ≠ [] := by
              rintro rfl
              rw [List.nil_append] at e
              obtain ⟨rfl, _⟩ := List.cons.inj e
              obtain ⟨x, hx⟩ := Option.isSome_iff_exists.1 hc
              have h1 := (hexN_digit hs.cons.2.cons.2.cons.1 hx).1
              have h2 := (blankN_iff hs.cons.2.cons.2.cons.1).1 hd.1.1
              have h3 := hs.cons.2.cons.2.cons.1
              unfold HexDigit at h1
              unfold Blank at h2
              rcases h2 with h2 | h2 | h2 | h2 | h2 <;> rw [h2] at h1 <;> revert h1 <;> simp <;> omega
            have hsl := hs.cons.2.cons.2
            rw [e, er] at hsl
            have e2 : asBytes (48 :: 120 :: c :: l) = [] ++ (0x30 :: 0x78 :: asBytes ds) ++ (UInt8.ofNat d :: asBytes ws) ++ asBytes (skipBlanks r) := by
              rw [e]
              conv => lhs; rw [er]
              simp [asBytes]
            rw [e2]
            refine .row [] _ _ _ v _ (by intro c hc; cases hc) (.hex 0x78 _ v (.inl rfl) ?_ hdig) ?_ (by simp) ?_ (by omega) (by omega)
            · intro h
              exact hne (List.map_eq_nil_iff.1 h)
            · intro x hx
              rw [List.mem_cons] at hx
              rcases hx with rfl | hx
              · exact (blankN_iff (hsl.right d (by simp))).1 hd.1.1
              · exact asBytes_blanks (fun c hc => hsl.right c (by simp [hc])) hb x hx
            · exact readWord_word (fun c hc => hsl.right c (by simp [hc])) hw
        · cases h
      · cases h
    · cases h
  · cases h

theorem noteN_note {l : List Nat} (hs : Small l) (h : noteN l = true) : NoteLine (asBytes l) := by
  cases l with
  | nil => exact .blank [] (by intro c hc; cases hc)
  | cons c l =>
    simp only [noteN, Bool.or_eq_true, beqN_iff, Bool.and_eq_true, List.all_eq_true] at h
    rcases h with rfl | ⟨h1, h2⟩
    · exact .comment _
    · refine .blank _ (asBytes_blanks hs ?_)
      intro x hx
      rw [List.mem_cons] at hx
      rcases hx with rfl | hx
      · exact h1
      · exact h2 x hx

/-- A line given as a number, as bytes. -/
def lineOf (l : Nat × Nat) : Bytes := asBytes (packedLine l)

/-- A row as bytes. -/
def rowOf (r : Nat × List Nat) : Nat × Bytes := (r.1, asBytes r.2)

theorem readBody_entries : ∀ {ls : List (Nat × Nat)} {rows : List (Nat × List Nat)}, readBody ls = some rows →
    Entries (ls.map lineOf) (rows.map rowOf)
  | [], rows, h => by cases h; exact .nil
  | l :: ls, rows, h => by
    rw [readBody] at h
    cases he : readEntry (packedLine l) with
    | none => rw [he] at h; cases h
    | some e =>
      rw [he] at h
      unfold readEntry at he
      split at he
      · next hn =>
        cases he
        exact .note _ _ _ (.note _ (noteN_note (small_packed l) hn)) (readBody_entries h)
      · cases hr : readRow (packedLine l) with
        | none => rw [hr] at he; cases he
        | some r =>
          rw [hr] at he
          cases he
          cases hb : readBody ls with
          | none => simp only [hb] at h; cases h
          | some rs =>
            simp only [hb] at h
            cases h
            exact .row _ _ _ _ (readRow_row (small_packed l) hr) (readBody_entries hb)

theorem Entries.append {a b : List Bytes} {r s : List (Nat × Bytes)} (h : Entries a r) (h' : Entries b s) : Entries (a ++ b) (r ++ s) := by
  induction h with
  | nil => exact h'
  | note l ls rows hl _ ih => exact .note _ _ _ hl ih
  | row l ls x rows hl _ ih => exact .row _ _ _ _ hl ih

theorem FileLines.append {a b : List Bytes} {r s : List Section} (h : FileLines a r) (h' : FileLines b s) : FileLines (a ++ b) (r ++ s) := by
  induction h with
  | nil => exact h'
  | cons ls sec rest secs hl _ ih => rw [List.append_assoc]; exact .cons _ _ _ _ hl ih

/-- Notes outside a block. -/
theorem notes_file : ∀ {ls : List (Nat × Nat)}, (ls.all fun l => noteN (packedLine l)) = true →
    FileLines (ls.map lineOf) (ls.map fun _ => .note)
  | [], _ => .nil
  | l :: ls, h => by
    rw [List.all_cons, Bool.and_eq_true] at h
    exact .cons [lineOf l] _ _ _ (.note _ (noteN_note (small_packed l) h.1)) (notes_file h.2)

/-- The rows of a part. -/
def partRows (p : List (Nat × Nat)) : List (Nat × List Nat) := (readBody p).getD []

theorem parts_entries : ∀ {ps : List (List (Nat × Nat))}, (ps.all fun p => (readBody p).isSome) = true →
    Entries (ps.flatten.map lineOf) ((ps.map partRows).flatten.map rowOf)
  | [], _ => .nil
  | p :: ps, h => by
    rw [List.all_cons, Bool.and_eq_true] at h
    obtain ⟨rows, hr⟩ := Option.isSome_iff_exists.1 h.1
    rw [List.flatten_cons, List.map_append, List.map_cons, List.flatten_cons, List.map_append]
    refine Entries.append ?_ (parts_entries h.2)
    have := readBody_entries hr
    unfold partRows
    rw [hr]
    exact this

theorem apart_good : ∀ (n x : Nat), 1 ≤ apartFrom0And10 n x → ∀ c ∈ bytesOfNumber n x, c ≠ 0 ∧ c ≠ 10
  | 0, _, _, c, hc => by cases hc
  | n + 1, x, h, c, hc => by
    have h' : 1 ≤ (x / 256 ^ n % 256) * ((x / 256 ^ n % 256 - 10) + (10 - x / 256 ^ n % 256)) * apartFrom0And10 n x := h
    rw [bytesOfNumber, List.mem_cons] at hc
    rcases hc with rfl | hc
    · constructor
      · intro e; rw [e] at h'; simp at h'
      · intro e; rw [e] at h'; simp at h'
    · refine apart_good n x ?_ c hc
      rcases Nat.eq_zero_or_pos (apartFrom0And10 n x) with e | e
      · rw [e] at h'; simp at h'
      · exact e

theorem plainN_good {l : Nat × Nat} (h : plainN l = true) : GoodLine (lineOf l) := by
  unfold plainN at h
  simp only [Bool.and_eq_true, Nat.ble_eq] at h
  refine ⟨?_, ?_⟩
  · unfold lineOf asBytes
    rw [List.length_map, length_packed]
    exact h.2
  · intro c hc
    obtain ⟨x, hx, rfl⟩ := List.mem_map.1 hc
    have h1 := apart_good l.1 l.2 h.1 x hx
    have h2 := small_packed l x hx
    rw [show (0 : Byte) = UInt8.ofNat 0 from rfl, show (0x0A : Byte) = UInt8.ofNat 10 from rfl, Ne, Ne, ofNat_eq h2 (by decide), ofNat_eq h2 (by decide)]
    exact h1

theorem packed_lines {ls : List (Nat × Nat)} (h : ∀ l ∈ ls, plainN l = true) : HasLines (packedFile ls) (ls.map lineOf) := by
  refine ⟨?_, .inl ?_⟩
  · intro l hl
    obtain ⟨x, hx, rfl⟩ := List.mem_map.1 hl
    exact plainN_good (h x hx)
  · unfold packedFile
    rw [List.map_map]
    rfl

theorem packedFile_length (ls : List (Nat × Nat)) : (packedFile ls).length = (ls.map fun l => l.1 + 1).sum := by
  induction ls with
  | nil => rfl
  | cons l ls ih =>
    have e : packedFile (l :: ls) = ((packedLine l).map UInt8.ofNat ++ [0x0A]) ++ packedFile ls := rfl
    rw [e, List.length_append, ih, List.map_cons, List.sum_cons]
    simp [length_packed]

/-- Keys go up, from above `k`; the last one. -/
def upwards : Nat → List (Nat × List Nat) → Option Nat
  | k, [] => some k
  | k, r :: rs => if Nat.ble (k + 1) r.1 = true then upwards r.1 rs else none

theorem upwards_above : ∀ {k k' : Nat} {rs : List (Nat × List Nat)}, upwards k rs = some k' → k ≤ k' ∧ ∀ r ∈ rs, k < r.1 ∧ r.1 ≤ k'
  | k, k', [], h => by cases h; exact ⟨Nat.le_refl _, by simp⟩
  | k, k', r :: rs, h => by
    rw [upwards] at h
    split at h
    · next hk =>
      rw [Nat.ble_eq] at hk
      have ih := upwards_above h
      refine ⟨by omega, ?_⟩
      intro x hx
      rw [List.mem_cons] at hx
      rcases hx with rfl | hx
      · exact ⟨by omega, ih.1⟩
      · have := ih.2 x hx; omega
    · cases h

/-- The parts one after the other. -/
def upwardsParts : Nat → List (List (Nat × Nat)) → Bool
  | _, [] => true
  | k, p :: ps =>
    match upwards k (partRows p) with
    | some k' => upwardsParts k' ps
    | none => false

theorem lastOf_upwards : ∀ {k k' : Nat} {rs : List (Nat × List Nat)}, upwards k rs = some k' → ∀ r ∈ rs, lastOf (rs.map rowOf) r.1 = some (asBytes r.2)
  | _, _, [], _, r, hr => by cases hr
  | k, k', x :: rs, h, r, hr => by
    rw [upwards] at h
    split at h
    · rw [List.map_cons, lastOf_cons]
      rw [List.mem_cons] at hr
      by_cases hm : r ∈ rs
      · rw [lastOf_upwards h r hm]
      · rcases hr with rfl | hr
        · have : lastOf (rs.map rowOf) r.1 = none := by
            refine lastOf_eq_none fun y hy => ?_
            obtain ⟨z, hz, rfl⟩ := List.mem_map.1 hy
            have := ((upwards_above h).2 z hz).1
            show z.1 ≠ r.1
            omega
          rw [this]
          simp [rowOf]
        · exact absurd hr hm
    · cases h

theorem upwards_append : ∀ {k k' : Nat} {a b : List (Nat × List Nat)}, upwards k a = some k' → upwards k (a ++ b) = upwards k' b
  | k, k', [], b, h => by cases h; rfl
  | k, k', r :: a, b, h => by
    rw [upwards] at h
    rw [List.cons_append, upwards]
    split at h
    · next hk => rw [if_pos hk]; exact upwards_append h
    · cases h

theorem upwardsParts_all : ∀ {ps : List (List (Nat × Nat))} {k : Nat}, upwardsParts k ps = true → ∃ k', upwards k (ps.map partRows).flatten = some k'
  | [], k, _ => ⟨k, rfl⟩
  | p :: ps, k, h => by
    rw [upwardsParts] at h
    cases hu : upwards k (partRows p) with
    | none => rw [hu] at h; cases h
    | some k' =>
      rw [hu] at h
      obtain ⟨k'', h2⟩ := upwardsParts_all h
      exact ⟨k'', by rw [List.map_cons, List.flatten_cons, upwards_append hu]; exact h2⟩

end Detox
