import Verif.Spec.Encoding
import Verif.Props.EscapeUtf8
import Verif.Props.Denote

/-!
# UTF-8 put together and taken apart
-/

set_option autoImplicit false

namespace Detox

open Spec

theorem valid_nil : ValidUtf8 [] := ⟨[], by simp, rfl⟩

theorem valid_append {a b : Bytes} (ha : ValidUtf8 a) (hb : ValidUtf8 b) : ValidUtf8 (a ++ b) := by
  obtain ⟨ca, h1, rfl⟩ := ha
  obtain ⟨cb, h2, rfl⟩ := hb
  exact ⟨ca ++ cb, fun cp h => (List.mem_append.1 h).elim (h1 cp) (h2 cp), by rw [List.flatMap_append]⟩

theorem valid_encode {cp : Nat} (h : Scalar cp) : ValidUtf8 (encode cp) := ⟨[cp], by simpa using h, by simp⟩

theorem valid_byte {c : Byte} (h : c.toNat < 128) : ValidUtf8 [c] :=
  ⟨[c.toNat], by intro cp hcp; rw [List.mem_singleton.1 hcp]; unfold Scalar; omega, by
    rw [List.flatMap_cons, List.flatMap_nil, List.append_nil, encode_ascii h, UInt8.ofNat_toNat]⟩

theorem valid_cons {c : Byte} {s : Bytes} (h : c.toNat < 128) (hs : ValidUtf8 s) : ValidUtf8 (c :: s) := valid_append (valid_byte h) hs

theorem valid_ascii {s : Bytes} (h : ∀ c ∈ s, c.toNat < 128) : ValidUtf8 s := by
  induction s with
  | nil => exact valid_nil
  | cons c s ih => exact valid_cons (h c (by simp)) (ih fun x hx => h x (by simp [hx]))

/-- A character is an ASCII byte, or bytes none of which is ASCII. -/
theorem encode_cases {cp : Nat} (h : Scalar cp) : (∃ c : Byte, c.toNat < 128 ∧ encode cp = [c]) ∨ ∀ c ∈ encode cp, 128 ≤ c.toNat := by
  obtain ⟨c, conts, w, b, e1, e2, e3, e4, _⟩ := encode_unit (scalar_le h)
  obtain ⟨w1, w2, w3⟩ := leadOf_width _ _ _ e2
  by_cases hc : c.toNat < 128
  · have := w3.1 hc
    have : conts = [] := List.length_eq_zero_iff.1 (by omega)
    exact .inl ⟨c, hc, by rw [e1, this]⟩
  · refine .inr fun x hx => ?_
    rw [e1] at hx
    rcases List.mem_cons.1 hx with rfl | hx
    · omega
    · exact isCont_high x (e4 x hx)

/-- UTF-8 can be cut in front of any byte that does not go on with a character. -/
theorem valid_split {a b : Bytes} (h : ValidUtf8 (a ++ b)) (hb : ∀ c, b.head? = some c → isCont c = false) : ValidUtf8 a ∧ ValidUtf8 b := by
  obtain ⟨cps, h1, h2⟩ := h
  rcases validUtf8_cut cps a b h1 h2.symm with h | ⟨pre, cp, post, u1, u2, g1, g2, g3, g4, g5, g6⟩
  · exact h
  · exfalso
    have hu := encode_unit (scalar_le (g1 cp (by simp)))
    rw [g2] at hu
    obtain ⟨_, _, _, _, _, _, hc, _⟩ := unit_cut hu g3 g4
    cases u2 with
    | nil => exact g4 rfl
    | cons x u2 =>
      have := hb x (by rw [g6]; rfl)
      rw [← isUtf8Cont_eq, hc x (by simp)] at this
      cases this

theorem valid_rest {a b : Bytes} (h : ValidUtf8 (a ++ b)) (ha : ValidUtf8 a) : ValidUtf8 b := by
  obtain ⟨ca, h1, rfl⟩ := ha
  obtain ⟨cs, h2, h3⟩ := h
  induction ca generalizing cs with
  | nil => exact ⟨cs, h2, h3⟩
  | cons cp ca ih =>
    cases cs with
    | nil =>
      have := (encode_unit (scalar_le (h1 cp (by simp)))).ne_nil
      rw [List.flatMap_cons, List.append_assoc, List.flatMap_nil] at h3
      exact absurd (List.append_eq_nil_iff.1 h3).1 this
    | cons cp' cs =>
      rw [List.flatMap_cons, List.flatMap_cons, List.append_assoc] at h3
      obtain ⟨_, _, h3⟩ := (encode_unit (scalar_le (h1 cp (by simp)))).append_inj (encode_unit (scalar_le (h2 cp' (by simp)))) h3
      exact ih (fun x hx => h1 x (by simp [hx])) cs (fun x hx => h2 x (by simp [hx])) h3

theorem lead_not_cont : ∀ c : Byte, leadOf c ≠ none → isCont c = false := forall_byte (by decide +kernel)

theorem valid_starts {s : Bytes} (h : ValidUtf8 s) : ∀ c, s.head? = some c → isCont c = false := by
  intro c hc
  cases s with
  | nil => cases hc
  | cons x s =>
    cases hc
    obtain ⟨w, b, hw⟩ := validUtf8_head h
    exact lead_not_cont c (by rw [hw]; simp)

/-- Exactly where UTF-8 can be cut. -/
theorem valid_take {s : Bytes} (h : ValidUtf8 s) (k : Nat) : ValidUtf8 (s.take k) ↔ ∀ c, s[k]? = some c → isCont c = false := by
  have h' := h
  rw [← List.take_append_drop k s] at h'
  have hh : (s.drop k).head? = s[k]? := by rw [List.head?_drop]
  constructor
  · intro ht c hc
    exact valid_starts (valid_rest h' ht) c (by rw [hh]; exact hc)
  · intro hc
    exact (valid_split h' fun c h => hc c (by rw [← hh]; exact h)).1

theorem ascii_not_cont : ∀ c : Byte, c.toNat < 128 → isCont c = false := forall_byte (by decide +kernel)

theorem valid_at_ascii {p s : Bytes} {c : Byte} (hc : c.toNat < 128) (h : ValidUtf8 (p ++ c :: s)) : ValidUtf8 p ∧ ValidUtf8 s := by
  obtain ⟨h1, h2⟩ := valid_split h fun x hx => by cases hx; exact ascii_not_cont _ hc
  exact ⟨h1, valid_rest (a := [c]) h2 (valid_byte hc)⟩

/-- Byte by byte, ASCII bytes becoming UTF-8, and of the others none, or all of them. -/
theorem valid_flatMap {f : Byte → Bytes} (ha : ∀ c : Byte, c.toNat < 128 → ValidUtf8 (f c))
    (hh : (∀ c : Byte, 128 ≤ c.toNat → f c = [c]) ∨ ∀ c : Byte, 128 ≤ c.toNat → ValidUtf8 (f c)) {s : Bytes} (h : ValidUtf8 s) :
    ValidUtf8 (s.flatMap f) := by
  rcases hh with hh | hh
  · obtain ⟨cps, h1, rfl⟩ := h
    induction cps with
    | nil => exact valid_nil
    | cons cp cps ih =>
      rw [List.flatMap_cons, List.flatMap_append]
      refine valid_append ?_ (ih fun x hx => h1 x (by simp [hx]))
      have hcp := h1 cp (by simp)
      rcases encode_cases hcp with ⟨c, hc, e⟩ | hc
      · rw [e]
        simpa using ha c hc
      · have key : ∀ l : Bytes, (∀ c ∈ l, 128 ≤ c.toNat) → l.flatMap f = l := by
          intro l hl
          induction l with
          | nil => rfl
          | cons c l ih => rw [List.flatMap_cons, hh c (hl c (by simp)), ih fun x hx => hl x (by simp [hx])]; rfl
        rw [key _ hc]
        exact valid_encode hcp
  · clear h
    induction s with
    | nil => exact valid_nil
    | cons c s ih =>
      rw [List.flatMap_cons]
      refine valid_append ?_ ih
      by_cases hc : c.toNat < 128
      · exact ha c hc
      · exact hh c (by omega)

theorem reducible_ascii : ∀ (rt : Bool) (c : Byte), reducible rt c = true → c.toNat < 128
  | true => forall_byte (by decide +kernel)
  | false => forall_byte (by decide +kernel)

theorem leading_ascii : ∀ c : Byte, leading c = true → c.toNat < 128 := forall_byte (by decide +kernel)

theorem runChar_ascii (r : Bytes) : (runChar r).toNat < 128 := by
  unfold runChar
  split
  · decide
  · split <;> decide

theorem valid_reduces {rt : Bool} {s o : Bytes} (h : Reduces rt s o) : ∀ p : Bytes, ValidUtf8 (p ++ s) → ValidUtf8 (p ++ o) := by
  induction h with
  | nil => exact fun p h => h
  | keep c s o _ _ ih =>
    intro p h
    have := ih (p ++ [c]) (by simpa using h)
    simpa using this
  | run r s o hne hr _ _ ih =>
    intro p h
    have key : ∀ (r p : Bytes), (∀ c ∈ r, reducible rt c = true) → r ≠ [] → ValidUtf8 (p ++ (r ++ s)) → ValidUtf8 p ∧ ValidUtf8 s := by
      intro r
      induction r with
      | nil => exact fun _ _ h => absurd rfl h
      | cons c r ih =>
        intro p hr _ h
        obtain ⟨h1, h2⟩ := valid_at_ascii (reducible_ascii rt c (hr c (by simp))) h
        cases r with
        | nil => exact ⟨h1, h2⟩
        | cons x r => exact ⟨h1, (ih [] (fun y hy => hr y (by simp [hy])) (by simp) h2).2⟩
    obtain ⟨h1, h2⟩ := key r p hr hne h
    exact valid_append h1 (valid_cons (runChar_ascii r) (ih [] h2))

theorem valid_wipeup {rt : Bool} {s o : Bytes} (h : IsWipeup rt s o) (hs : ValidUtf8 s) : ValidUtf8 o := by
  refine valid_reduces h [] ?_
  show ValidUtf8 (s.dropWhile leading)
  clear h
  induction s with
  | nil => exact valid_nil
  | cons c s ih =>
    by_cases hc : leading c = true
    · rw [List.dropWhile_cons_of_pos hc]
      exact ih (valid_at_ascii (p := []) (leading_ascii c hc) hs).2
    · rw [List.dropWhile_cons_of_neg (by simpa using hc)]
      exact hs

theorem small_ascii : ∀ c : Byte, c.toNat < 128 → (small c).toNat < 128 := forall_byte (by decide +kernel)
theorem small_high : ∀ c : Byte, 128 ≤ c.toNat → small c = c := forall_byte (by decide +kernel)

theorem valid_small {s : Bytes} (h : ValidUtf8 s) : ValidUtf8 (s.map small) := by
  rw [show s.map small = s.flatMap fun c => [small c] by clear h; induction s <;> simp_all]
  exact valid_flatMap (fun c hc => valid_byte (small_ascii c hc)) (.inl fun c hc => by rw [small_high c hc]) h

theorem valid_unicodeSays {m : TableText} (hm : m.InUtf8) {v : Nat} {u : Bytes} (hu : ValidUtf8 u) : ValidUtf8 (unicodeSays m v u) := by
  unfold unicodeSays
  split
  · next d hd => exact hm.1 v d hd
  · split
    · exact valid_ascii (by decide +kernel)
    · split
      · exact valid_ascii (by decide +kernel)
      · cases hd : m.dflt with
        | none => exact hu
        | some d => exact hm.2 d hd

theorem valid_reads {m : TableText} (hm : m.InUtf8) {s out : Bytes} (h : UnicodeReads m s out) (hs : ValidUtf8 s) : ValidUtf8 out := by
  obtain ⟨cps, h1, rfl⟩ := hs
  have key : ∀ cps : List Nat, (∀ cp ∈ cps, Scalar cp) → ∃ o, UnicodeReads m (cps.flatMap encode) o ∧ ValidUtf8 o := by
    intro cps
    induction cps with
    | nil => exact fun _ => ⟨[], .nil, valid_nil⟩
    | cons cp cps ih =>
      intro h
      obtain ⟨o, h2, h3⟩ := ih fun x hx => h x (by simp [hx])
      have hcp := h cp (by simp)
      exact ⟨_, .char _ cp _ _ (encode_unit (scalar_le hcp)) h2, valid_append (valid_unicodeSays hm (valid_encode hcp)) h3⟩
  obtain ⟨o, h2, h3⟩ := key cps h1
  rw [reads_unique h h2]
  exact h3

theorem valid_says {m : TableText} (hm : m.InUtf8) {code : Option Nat} {self : Bytes} (hs : m.dflt ≠ none ∨ code.bind m.row ≠ none ∨ ValidUtf8 self) :
    ValidUtf8 (m.says code self) := by
  unfold TableText.says
  split
  · next d hd =>
    cases code with
    | none => cases hd
    | some k => exact hm.1 k d hd
  · next hd =>
    cases he : m.dflt with
    | some d => exact hm.2 d he
    | none =>
      rcases hs with hs | hs | hs
      · exact absurd he hs
      · exact absurd hd hs
      · exact hs

theorem valid_table {m : TableText} (hm : m.InUtf8) {code : Byte → Option Nat} (ha : m.AllOrNone code) {s : Bytes} (hs : ValidUtf8 s) :
    ValidUtf8 (s.flatMap fun c => m.says (code c) [c]) := by
  refine valid_flatMap (fun c hc => valid_says hm (.inr (.inr (valid_byte hc)))) ?_ hs
  rcases ha with ⟨h1, h2⟩ | h | h
  · refine .inl fun c hc => ?_
    unfold TableText.says
    rw [h2 c hc, h1]
    rfl
  · exact .inr fun c _ => valid_says hm (.inl h)
  · exact .inr fun c hc => valid_says hm (.inr (.inl (h c hc)))

theorem valid_iso {m : TableText} (hm : m.InUtf8) (ha : m.AllOrNone fun c => some c.toNat) {s : Bytes} (hs : ValidUtf8 s) :
    ValidUtf8 (s.flatMap fun c => if c.toNat < 128 then [c] else m.says (some c.toNat) [c]) := by
  refine valid_flatMap (fun c hc => by rw [if_pos hc]; exact valid_byte hc) ?_ hs
  have neg : ∀ c : Byte, 128 ≤ c.toNat → ¬ c.toNat < 128 := fun c h => by omega
  rcases ha with ⟨h1, h2⟩ | h | h
  · refine .inl fun c hc => ?_
    rw [if_neg (neg c hc)]
    unfold TableText.says
    rw [h2 c hc, h1]
    rfl
  · exact .inr fun c hc => by rw [if_neg (neg c hc)]; exact valid_says hm (.inl h)
  · exact .inr fun c hc => by rw [if_neg (neg c hc)]; exact valid_says hm (.inr (.inl (h c hc)))

theorem valid_filter {P : Platform} {locale : Bytes} {datadir : Option Bytes} {files : Bytes → Option Bytes} {f : Filter}
    (hf : MindsUtf8 P locale datadir files f) {s out : Bytes} (h : FilterSays P locale datadir files f s out) (hs : ValidUtf8 s) : ValidUtf8 out := by
  have no : ∀ {a b : Cleaner}, f.cleaner = a → f.cleaner = b → a ≠ b → False := fun h1 h2 h => h (h1.symm.trans h2)
  cases hf with
  | lower hc =>
    rw [filterSays_unique h (.lower hc)]
    exact valid_small hs
  | wipeup hc =>
    cases h with
    | wipeup _ _ hw => exact valid_wipeup hw hs
    | lower h | uncgi _ h _ | maxLength _ h _ | iso8859_1 _ h _ | safe _ h _ | utf8 _ _ h _ _ => exact (no hc h (by simp)).elim
  | utf8 m hc hm hu =>
    cases h with
    | utf8 m' _ _ hm' hr =>
      cases tableSays_unique hm hm'
      exact valid_reads hu hr hs
    | lower h | uncgi _ h _ | maxLength _ h _ | iso8859_1 _ h _ | safe _ h _ | wipeup _ h _ => exact (no hc h (by simp)).elim
  | iso8859_1 m hc hm hu ha =>
    rw [filterSays_unique h (.iso8859_1 m hc hm)]
    exact valid_iso hu ha hs
  | safe m hc hm hu ha =>
    rw [filterSays_unique h (.safe m hc hm)]
    exact valid_table hu ha hs

end Detox
