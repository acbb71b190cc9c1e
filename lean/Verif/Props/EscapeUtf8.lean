import Verif.Lemmas.EscapeUtf8
import Verif.Props.Utf8
import Verif.Props.Inline

/-!
# C50, C75 — escape-utf-8
-/

set_option autoImplicit false

namespace Detox
open Spec

theorem escape_get {cp : Nat} (h0 : cp ≠ 0) (h : cp ≤ 0x10FFFF) : tableGet generateCEscapeTable cp = some (cEscape cp) := by
  rw [escapeTable_fill.get, if_pos ⟨h0, by omega⟩]

/-- The characters that are escaped with `\x`. -/
def HexEscaped (cp : Nat) : Prop := cp ≤ 0x06 ∨ (0x0E ≤ cp ∧ cp ≤ 0x1F) ∨ cp = 0x7F

instance (cp : Nat) : Decidable (HexEscaped cp) := by unfold HexEscaped; infer_instance

/-- `\c` stands for the character. -/
def SimplyEscaped (cp : Nat) (c : Byte) : Prop :=
  simpleEscape c = some (UInt8.ofNat cp) ∧ (UInt8.ofNat cp).toNat = cp ∧ c ≠ 0x78 ∧ c ≠ 0x75 ∧ c ≠ 0x55 ∧
    0x20 ≤ c.toNat ∧ c.toNat < 0x7F ∧ isOctDigit c = false ∧ cp < 0x80

instance (cp : Nat) (c : Byte) : Decidable (SimplyEscaped cp c) := by unfold SimplyEscaped; infer_instance

/-- The kinds of escapes. -/
theorem cEscape_cases {cp : Nat} (h0 : cp ≠ 0) (h : cp ≤ 0x10FFFF) :
    (cEscape cp = [UInt8.ofNat cp] ∧ 0x20 ≤ cp ∧ cp < 0x7F ∧ cp ≠ 0x5C ∧ cp ≠ 0x22) ∨
    (∃ c v, cEscape cp = [0x5C, c] ∧ simpleEscape c = some v ∧ v.toNat = cp ∧ c ≠ 0x78 ∧ c ≠ 0x75 ∧ c ≠ 0x55 ∧
      0x20 ≤ c.toNat ∧ c.toNat < 0x7F ∧ isOctDigit c = false ∧ cp < 0x80) ∨
    (cEscape cp = 0x5C :: 0x78 :: hexFixed false 2 cp ∧ cp < 0x80 ∧ HexEscaped cp) ∨
    (cEscape cp = 0x5C :: 0x75 :: hexFixed true 4 cp ∧ 0x80 ≤ cp ∧ cp < 0x10000) ∨
    (cEscape cp = 0x5C :: 0x55 :: hexFixed true 8 cp ∧ 0x10000 ≤ cp) := by
  by_cases h1 : cp < 0x80
  · have key : ∀ cp < 0x80, cp ≠ 0 →
        (cEscape cp = [UInt8.ofNat cp] ∧ 0x20 ≤ cp ∧ cp < 0x7F ∧ cp ≠ 0x5C ∧ cp ≠ 0x22) ∨
        ((cEscape cp).head? = some 0x5C ∧ (cEscape cp).length = 2 ∧
          SimplyEscaped cp ((cEscape cp).getLast?.getD 0)) ∨
        (cEscape cp = 0x5C :: 0x78 :: hexFixed false 2 cp ∧ cp < 0x80 ∧ HexEscaped cp) := by decide +kernel
    rcases key cp h1 h0 with h | ⟨e1, e2, h⟩ | h
    · exact .inl h
    · refine .inr (.inl ⟨_, _, ?_, h⟩)
      match hl : cEscape cp, e1, e2 with
      | [a, b], e1, _ =>
        simp at e1
        rw [e1]
        rfl
    · exact .inr (.inr (.inl h))
  · have hz : ∀ {a : Nat}, a < 0x80 → ¬ cp = a := fun ha => by omega
    unfold cEscape
    simp only [hz (show 7 < 0x80 by omega), hz (show 8 < 0x80 by omega), hz (show 9 < 0x80 by omega), hz (show 10 < 0x80 by omega),
      hz (show 11 < 0x80 by omega), hz (show 12 < 0x80 by omega), hz (show 13 < 0x80 by omega), hz (show 34 < 0x80 by omega),
      hz (show 39 < 0x80 by omega), hz (show 63 < 0x80 by omega), hz (show 92 < 0x80 by omega), hz (show 127 < 0x80 by omega),
      show ¬ cp < 32 by omega, show ¬ cp < 127 by omega, or_self, if_false]
    by_cases h2 : cp < 0x10000
    · rw [if_pos h2]
      exact .inr (.inr (.inr (.inl ⟨rfl, by omega, h2⟩)))
    · rw [if_neg h2]
      exact .inr (.inr (.inr (.inr ⟨rfl, by omega⟩)))

theorem readChar_cEscape {cp : Nat} (h0 : cp ≠ 0) (h : cp ≤ 0x10FFFF) (rest : Bytes) :
    readChar (cEscape cp ++ rest) = some (cp, rest) := by
  have hx : ∀ up w, cp < 16 ^ w → readHex w 0 (hexFixed up w cp ++ rest) = some (cp, rest) := by
    intro up w hw
    refine readHex_rest _ _ _ _ _ ?_
    rw [readHex_fixed up w cp hw 0]
    simp
  rcases cEscape_cases h0 h with ⟨e, h1, h2, h3, _⟩ | ⟨c, v, e, hs, hv, hx1, hx2, hx3, _⟩ | ⟨e, h1⟩ | ⟨e, _, h1⟩ | ⟨e, _⟩
  · have hn : (UInt8.ofNat cp).toNat = cp := toNat_ofNat_lt (by omega)
    have hne : UInt8.ofNat cp ≠ 0x5C := fun hc => h3 (by rw [hc] at hn; exact hn.symm)
    rw [e, List.singleton_append, readChar.eq_def]
    simp only [if_neg hne, hn]
  · rw [e]
    show readChar (0x5C :: c :: rest) = _
    rw [readChar.eq_def]
    simp only [if_true, if_neg hx1, if_neg hx2, if_neg hx3, hs, Option.map_some, hv]
  · rw [e]; exact hx false 2 (by omega)
  · rw [e]; exact hx true 4 (by omega)
  · rw [e]; exact hx true 8 (by omega)

theorem cEscape_ne_nil {cp : Nat} (h0 : cp ≠ 0) (h : cp ≤ 0x10FFFF) : cEscape cp ≠ [] := by
  rcases cEscape_cases h0 h with ⟨e, _⟩ | ⟨c, v, e, _⟩ | ⟨e, _⟩ | ⟨e, _⟩ | ⟨e, _⟩ <;> rw [e] <;> simp

theorem hexFixed_printable (up : Bool) (w n : Nat) : ∀ c ∈ hexFixed up w n, 0x20 ≤ c.toNat ∧ c.toNat ≤ 0x7E := by
  have key : ∀ d < 16, (0x20 ≤ (hexDigit true d).toNat ∧ (hexDigit true d).toNat ≤ 0x7E) ∧
    (0x20 ≤ (hexDigit false d).toNat ∧ (hexDigit false d).toNat ≤ 0x7E) := by decide +kernel
  induction w generalizing n with
  | zero => intro c hc; cases hc
  | succ w ih =>
    intro c hc
    rw [hexFixed, List.mem_append, List.mem_singleton] at hc
    rcases hc with hc | hc
    · exact ih _ c hc
    · rw [hc]
      have := key (n % 16) (Nat.mod_lt _ (by omega))
      cases up
      · exact this.2
      · exact this.1

theorem cEscape_printable {cp : Nat} (h0 : cp ≠ 0) (h : cp ≤ 0x10FFFF) : ∀ c ∈ cEscape cp, 0x20 ≤ c.toNat ∧ c.toNat ≤ 0x7E := by
  have hb : ∀ x : Byte, ∀ l : Bytes, (x = 0x78 ∨ x = 0x75 ∨ x = 0x55) → (∀ c ∈ l, 0x20 ≤ c.toNat ∧ c.toNat ≤ 0x7E) →
      ∀ c ∈ 0x5C :: x :: l, 0x20 ≤ c.toNat ∧ c.toNat ≤ 0x7E := by
    intro x l hx hl c hc
    rw [List.mem_cons, List.mem_cons] at hc
    rcases hc with hc | hc | hc
    · rw [hc]; decide
    · rw [hc]; rcases hx with hx | hx | hx <;> rw [hx] <;> decide
    · exact hl c hc
  rcases cEscape_cases h0 h with ⟨e, h1, h2, _⟩ | ⟨c, v, e, _, _, _, _, _, h1, h2, _⟩ | ⟨e, _⟩ | ⟨e, _⟩ | ⟨e, _⟩
  · rw [e]
    intro c hc
    rw [List.mem_singleton] at hc
    rw [hc, toNat_ofNat_lt (by omega)]
    omega
  · rw [e]
    intro d hd
    simp only [List.mem_cons, List.not_mem_nil, or_false] at hd
    rcases hd with hd | hd
    · rw [hd]; decide
    · rw [hd]; omega
  · rw [e]; exact hb _ _ (by simp) (hexFixed_printable _ _ _)
  · rw [e]; exact hb _ _ (by simp) (hexFixed_printable _ _ _)
  · rw [e]; exact hb _ _ (by simp) (hexFixed_printable _ _ _)

theorem escape_reachable : Reachable generateCEscapeTable := by
  have h1 : ∀ l t, Reachable t → Reachable (escapePrintable l t) := by
    intro l
    induction l with
    | nil => intro t h; exact h
    | cons i l ih =>
      intro t h
      refine ih _ ?_
      split
      · exact .op _ (.put _ _) h
      · exact h
  have h2 : ∀ f l t, Reachable t → Reachable (escapeOthers f l t) := by
    intro f l
    induction l with
    | nil => intro t h; exact h
    | cons i l ih => intro t h; exact ih _ (.op _ (.put _ _) h)
  exact h2 _ _ _ (h2 _ _ _ (h1 _ _ (.resize _ _ _)))

/-- **C50.** On well-formed UTF-8 the filter of escape-utf-8 gives the escapes of the characters, one after the other. -/
theorem C50_escapes_every_character (cps : List Nat) (hcps : ∀ cp ∈ cps, Scalar cp ∧ cp ≠ 0) :
    cleanUtf8 (some generateCEscapeTable) (cps.flatMap encode) = .ok (cps.flatMap cEscape) := by
  have hct : generateCEscapeTable.CStrings := by
    refine ⟨fun k r hr => ?_, fun d hd => ?_⟩
    · rw [escapeTable_fill.get] at hr
      split at hr
      · rename_i hk
        cases hr
        intro h0
        have := cEscape_printable hk.1 (by omega) 0 h0
        simp at this
      · cases hr
    · rw [escapeTable_fill.dflt] at hd; cases hd
  have h := C11_utf8_translates_code_points generateCEscapeTable hct cps hcps
  have ht : ∀ cp ∈ cps, translate (tableGet generateCEscapeTable) generateCEscapeTable.defaultTranslation cp = cEscape cp := by
    intro cp hcp
    unfold translate
    rw [escape_get (hcps cp hcp).2 (scalar_le (hcps cp hcp).1)]
  have hout : cps.flatMap (translate (tableGet generateCEscapeTable) generateCEscapeTable.defaultTranslation) = cps.flatMap cEscape := by
    clear h
    induction cps with
    | nil => rfl
    | cons cp cps ih =>
      rw [List.flatMap_cons, List.flatMap_cons, ht cp (by simp),
        ih (fun c hc => hcps c (by simp [hc])) (fun c hc => ht c (by simp [hc]))]
  simp only [hout] at h
  rw [h, if_pos]
  clear h hout ht
  induction cps with
  | nil => simp
  | cons cp cps ih =>
    have hc := hcps cp (by simp)
    have ih := ih (fun c h => hcps c (by simp [h]))
    have h1 := C23_max_data_length_is_an_upper_bound _ escape_reachable cp _ (escape_get hc.2 (scalar_le hc.1))
    have h2 : 1 ≤ (encode cp).length := by
      have := (encode_unit (scalar_le hc.1)).ne_nil
      cases he : encode cp with
      | nil => exact absurd he this
      | cons _ _ => simp
    have h3 : generateCEscapeTable.maxDataLength ≤ (encode cp).length * generateCEscapeTable.maxDataLength :=
      Nat.le_mul_of_pos_left _ h2
    rw [List.flatMap_cons, List.flatMap_cons, List.length_append, List.length_append, Nat.add_mul]
    omega

/-- **C50.** The escapes are printable ASCII. -/
theorem C50_output_is_printable (cps : List Nat) (hcps : ∀ cp ∈ cps, Scalar cp ∧ cp ≠ 0) :
    ∀ c ∈ cps.flatMap cEscape, 0x20 ≤ c.toNat ∧ c.toNat ≤ 0x7E := by
  intro c hc
  rw [List.mem_flatMap] at hc
  obtain ⟨cp, hcp, hc⟩ := hc
  exact cEscape_printable (hcps cp hcp).2 (scalar_le (hcps cp hcp).1) c hc

/-- **C50.** The text can be read back from the escapes (where `\x` is known to have two digits). -/
theorem C50_output_is_reversible (cps : List Nat) (hcps : ∀ cp ∈ cps, Scalar cp ∧ cp ≠ 0) (n : Nat) (hn : cps.length ≤ n) :
    readText n (cps.flatMap cEscape) = some cps := by
  induction cps generalizing n with
  | nil => cases n <;> rfl
  | cons cp cps ih =>
    cases n with
    | zero => simp at hn
    | succ n =>
      have hc := hcps cp (by simp)
      have hr := readChar_cEscape hc.2 (scalar_le hc.1) (cps.flatMap cEscape)
      rw [List.flatMap_cons]
      have hne := cEscape_ne_nil hc.2 (scalar_le hc.1)
      cases he : cEscape cp with
      | nil => exact absurd he hne
      | cons a l =>
        rw [he] at hr
        rw [List.cons_append] at hr ⊢
        rw [readText, hr, Option.bind_some, ih (fun c h => hcps c (by simp [h])) n (by simpa using hn)]
        rfl

/- All kinds of escapes. -/
example : ([0x41, 0x07, 0x01, 0x22, 0x7F, 0xE9, 0x1F600].flatMap cEscape) = lit "A\\a\\x01\\\"\\x7f\\u00E9\\U0001F600" := by decide +kernel
example : readText 7 (lit "A\\a\\x01\\\"\\x7f\\u00E9\\U0001F600") = some [0x41, 0x07, 0x01, 0x22, 0x7F, 0xE9, 0x1F600] := by
  decide +kernel

/-! ### The whole program -/

theorem encode_flatMap_inj : ∀ (l l' : List Nat), (∀ cp ∈ l, Scalar cp) → (∀ cp ∈ l', Scalar cp) →
    l.flatMap encode = l'.flatMap encode → l = l'
  | [], [], _, _, _ => rfl
  | [], cp :: l', _, h', h => by
    have := (encode_unit (scalar_le (h' cp (by simp)))).ne_nil
    rw [List.flatMap_cons] at h
    have := List.append_eq_nil_iff.1 h.symm
    simp_all
  | cp :: l, [], h', _, h => by
    have := (encode_unit (scalar_le (h' cp (by simp)))).ne_nil
    rw [List.flatMap_cons] at h
    have := List.append_eq_nil_iff.1 h
    simp_all
  | cp :: l, cp' :: l', h1, h2, h => by
    rw [List.flatMap_cons, List.flatMap_cons] at h
    obtain ⟨_, e, h⟩ := (encode_unit (scalar_le (h1 cp (by simp)))).append_inj (encode_unit (scalar_le (h2 cp' (by simp)))) h
    rw [e, encode_flatMap_inj l l' (fun c hc => h1 c (by simp [hc])) (fun c hc => h2 c (by simp [hc])) h]

theorem chunks_no_newline {s : Bytes} {cs : List Chunk} (h : Chunks s cs) : ∀ c ∈ cs, (0x0A : Byte) ∉ c.1 := by
  induction h with
  | nil => simp
  | line l rest cs h _ _ ih => intro c hc; rw [List.mem_cons] at hc; exact hc.elim (fun e => e ▸ h) (ih c)
  | piece l rest cs h _ _ _ ih => intro c hc; rw [List.mem_cons] at hc; exact hc.elim (fun e => e ▸ h) (ih c)
  | last l h _ _ => intro c hc; rw [List.mem_singleton] at hc; rw [hc]; exact h

/-- What escape-utf-8 prints for a character: newlines stay. -/
def escapedInLine (cp : Nat) : Bytes := if cp = 0x0A then [0x0A] else cEscape cp

theorem cleanedLine_escapes {P : Platform} {t c : Bytes} (h : CleanedLine P escapeOptions t c) (hv : ValidUtf8 t) (hn : NulFree t)
    (hl : (0x0A : Byte) ∉ t) : ∃ cps : List Nat, (∀ cp ∈ cps, Scalar cp) ∧ t = cps.flatMap encode ∧ c = cps.flatMap escapedInLine := by
  obtain ⟨cps, h1, rfl⟩ := hv
  have hne : ∀ cp ∈ cps, cp ≠ 0 ∧ cp ≠ 0x0A := by
    intro cp hcp
    constructor
    · rintro rfl
      exact hn (List.mem_flatMap.2 ⟨0, hcp, by decide⟩)
    · rintro rfl
      exact hl (List.mem_flatMap.2 ⟨0x0A, hcp, by decide⟩)
  have hesc : cps.flatMap escapedInLine = cps.flatMap cEscape := by
    clear h hn hl
    induction cps with
    | nil => rfl
    | cons cp cps ih =>
      rw [List.flatMap_cons, List.flatMap_cons, ih (fun c hc => h1 c (by simp [hc])) (fun c hc => hne c (by simp [hc]))]
      rw [escapedInLine, if_neg (hne cp (by simp)).2]
  refine ⟨cps, h1, rfl, ?_⟩
  rw [hesc]
  rcases h with ⟨hp, rfl⟩ | ⟨_, hr⟩
  · rcases hp with hp | hp
    · have e : cps = [0x2E] := encode_flatMap_inj _ _ h1 (by decide) (hp.trans (by decide))
      rw [e]; decide
    · have e : cps = [0x2E, 0x2E] := encode_flatMap_inj _ _ h1 (by decide) (hp.trans (by decide))
      rw [e]; decide
  · have hf := C50_escapes_every_character cps (fun cp hcp => ⟨h1 cp hcp, (hne cp hcp).1⟩)
    have : sequenceRunFilters P escapeOptions.sequenceToUse (some (cps.flatMap encode)) = .ok (some (cps.flatMap cEscape)) := by
      show runFilters P [_] (some (cps.flatMap encode)) = _
      simp only [runFilters, filterRun, filterInit, hf]
      rfl
    rw [this] at hr
    cases hr
    rfl

theorem cleanedChunks_escapes {P : Platform} {cs : List Chunk} {out : Bytes} (h : CleanedChunks P escapeOptions cs out)
    (hv : ∀ c ∈ cs, ValidUtf8 c.1) (hn : ∀ c ∈ cs, NulFree c.1) (hl : ∀ c ∈ cs, (0x0A : Byte) ∉ c.1) :
    ∃ cps : List Nat, (∀ cp ∈ cps, Scalar cp) ∧ cs.flatMap Chunk.full = cps.flatMap encode ∧ out = cps.flatMap escapedInLine := by
  induction h with
  | nil => exact ⟨[], by simp, rfl, rfl⟩
  | cons l c nl cs out hcl _ ih =>
    obtain ⟨cps1, a1, a2, a3⟩ := cleanedLine_escapes hcl (hv (l, nl) (by simp)) (hn (l, nl) (by simp)) (hl (l, nl) (by simp))
    obtain ⟨cps2, b1, b2, b3⟩ := ih (fun c hc => hv c (by simp [hc])) (fun c hc => hn c (by simp [hc])) (fun c hc => hl c (by simp [hc]))
    refine ⟨cps1 ++ ((if nl then [0x0A] else []) ++ cps2), ?_, ?_, ?_⟩
    · intro cp hcp
      rw [List.mem_append, List.mem_append] at hcp
      rcases hcp with hcp | hcp | hcp
      · exact a1 cp hcp
      · cases nl
        · simp at hcp
        · simp at hcp; rw [hcp]; decide
      · exact b1 cp hcp
    · rw [List.flatMap_cons, List.flatMap_append, List.flatMap_append, b2]
      simp only [Chunk.full, a2]
      cases nl <;> simp [show encode 0x0A = [0x0A] from by decide]
    · rw [List.flatMap_append, List.flatMap_append, b3, a3]
      simp only [Chunk.full]
      cases nl <;> simp [show escapedInLine 0x0A = [0x0A] from by decide]

/-- **C50.** The program as a whole, on every text in UTF-8 (whatever the length of its lines): it prints the escapes of all characters;
newlines stay. -/
theorem C50_program_escapes_the_text (P : Platform) (cps : List Nat) (hcps : ∀ cp ∈ cps, Scalar cp ∧ cp ≠ 0) (tr : List Event)
    (ht : Trace (escapeMain P) (.slurp none (some (cps.flatMap encode)) :: tr) (.ret ())) :
    outText tr = cps.flatMap (fun cp => if cp = 0x0A then [0x0A] else cEscape cp) := by
  have hn : NulFree (cps.flatMap encode) :=
    nulFree_list_flatMap fun cp hcp => (encode_unit (scalar_le (hcps cp hcp).1)).nulFree (hcps cp hcp).2
  obtain ⟨cs, h1, h2, h3, h4⟩ := C39_inline_never_splits_a_character P escapeOptions none _ hn
    ⟨cps, fun cp hcp => (hcps cp hcp).1, rfl⟩ tr ht
  have hnc : ∀ c ∈ cs, NulFree c.1 := by
    intro c hc h0
    rw [h1] at hn
    exact hn (List.mem_flatMap.2 ⟨c, hc, List.mem_append_left _ h0⟩)
  obtain ⟨cps', a1, a2, a3⟩ := cleanedChunks_escapes h4 h2 hnc (chunks_no_newline h3)
  rw [← h1] at a2
  have := encode_flatMap_inj _ _ (fun cp hcp => (hcps cp hcp).1) a1 a2
  subst this
  exact a3

/-- **C50.** It never does anything undefined on such texts, nor does it fail. -/
theorem C50_program_is_safe (P : Platform) (hP : P.Benign) (cps : List Nat) (hcps : ∀ cp ∈ cps, Scalar cp ∧ cp ≠ 0) (tr : List Event)
    (oc : Outcome Unit) (ht : Trace (escapeMain P) (.slurp none (some (cps.flatMap encode)) :: tr) oc) :
    oc = .running ∨ oc = .ret () := by
  have hn : NulFree (cps.flatMap encode) :=
    nulFree_list_flatMap fun cp hcp => (encode_unit (scalar_le (hcps cp hcp).1)).nulFree (hcps cp hcp).2
  refine C39_inline_is_safe_on_utf8 P hP escapeOptions _ rfl ?_ none _ hn ⟨cps, fun cp hcp => (hcps cp hcp).1, rfl⟩ tr oc ht
  intro f hf
  have h10 : 10 ≤ generateCEscapeTable.maxDataLength :=
    C23_max_data_length_is_an_upper_bound _ escape_reachable 0x10000 _ (escape_get (by omega) (by omega))
  have hf' : f = { filterInit .utf8 with filename := some (lit "escape_utf_8.c"), table := some generateCEscapeTable } := by
    simpa [escapeOptions] using hf
  rw [hf']
  refine ⟨_, rfl, ⟨escape_reachable, by omega, ?_⟩, by omega⟩
  intro d hd
  rw [escapeTable_fill.dflt] at hd
  cases hd

/-! ### C75 -/

/-- **C75** is false of the code: by the rules of C, `\x` takes all hexadecimal digits that follow, so that the output for U+0001 and
`a` denotes the one byte 1A ... -/
theorem C75_hex_escape_swallows_the_next_character :
    [0x01, 0x61].flatMap cEscape = lit "\\x01a" ∧ cString 10 (lit "\\x01a" ++ [0x22]) = some ([0x1A], []) := by decide +kernel

/-- ... and `\u0080` is not allowed at all. -/
theorem C75_c1_controls_are_no_c_string :
    [0x80].flatMap cEscape = lit "\\u0080" ∧ cString 10 (lit "\\u0080" ++ [0x22]) = none := by decide +kernel

/-- No control character that is escaped with `\x` is followed by a hexadecimal digit, and there are no characters from U+0080 to U+009F. -/
def CSafe : List Nat → Prop
  | [] => True
  | cp :: cps => (cp < 0x80 ∨ 0xA0 ≤ cp) ∧
      (HexEscaped cp → ∀ c ∈ cps.head?, ¬ (c < 0x80 ∧ isHexDigit (UInt8.ofNat c) = true)) ∧ CSafe cps

theorem encode_ascii {cp : Nat} (h : cp < 0x80) : encode cp = [UInt8.ofNat cp] := by
  unfold encode; rw [if_pos h]

theorem hexFixed_two : ∀ cp < 0x80, numeral 16 (hexFixed false 2 cp) = cp ∧ ∀ c ∈ hexFixed false 2 cp, isHexDigit c = true := by
  decide +kernel

theorem named_fixed (w : Nat) {cp : Nat} (hw : cp < 16 ^ w) (hn : Nameable cp) (tail : Bytes) :
    named w (hexFixed true w cp ++ tail) = some (encode cp, tail) := by
  unfold named
  have h1 := readHex_fixed true w cp hw 0
  rw [Nat.mul_zero, Nat.zero_add] at h1
  rw [readHex_rest _ _ _ _ _ h1]
  simp only [Option.bind_some, if_pos hn]

theorem cString_cEscape {cp : Nat} (h0 : cp ≠ 0) (hs : Scalar cp) (hc1 : cp < 0x80 ∨ 0xA0 ≤ cp) (n : Nat) (tail : Bytes)
    (ht : HexEscaped cp → tail.takeWhile isHexDigit = []) :
    cString (n + 1) (cEscape cp ++ tail) = (cString n tail).map (fun q => (encode cp ++ q.1, q.2)) := by
  have esc : ∀ r v t, cEscaped r = some (v, t) →
      cString (n + 1) (0x5C :: r) = (cString n t).map (fun q => (v ++ q.1, q.2)) := by
    intro r v t h
    rw [cString, if_neg (by decide), if_neg (by decide), if_pos rfl, h]
    rfl
  rcases cEscape_cases h0 (scalar_le hs) with ⟨e, h1, h2, h3, h4⟩ | ⟨c, v, e, hv, hvc, hx1, hx2, hx3, _, _, ho, hlt⟩ | ⟨e, h1, hh⟩ |
    ⟨e, h1, h2⟩ | ⟨e, h1⟩
  · have hn : (UInt8.ofNat cp).toNat = cp := toNat_ofNat_lt (by omega)
    have ne : ∀ b : Byte, cp ≠ b.toNat → UInt8.ofNat cp ≠ b := fun b hb hc => hb (by rw [← hc, hn])
    rw [e, List.singleton_append, cString, if_neg (ne 0x22 h4), if_neg (ne 0x0A (by simp; omega)), if_neg (ne 0x5C h3), encode_ascii (by omega)]
    rfl
  · rw [e]
    show cString (n + 1) (0x5C :: c :: tail) = _
    have hve : [v] = encode cp := by
      rw [encode_ascii hlt, ← hvc]
      simp
    rw [← hve]
    refine esc _ _ _ ?_
    rw [cEscaped, if_neg hx1, if_neg (by rw [ho]; decide), if_neg hx2, if_neg hx3, hv]
    rfl
  · rw [e]
    show cString (n + 1) (0x5C :: 0x78 :: (hexFixed false 2 cp ++ tail)) = _
    refine esc _ _ _ ?_
    obtain ⟨k1, k2⟩ := hexFixed_two cp h1
    have t1 : (hexFixed false 2 cp ++ tail).takeWhile isHexDigit = hexFixed false 2 cp := by
      rw [List.takeWhile_append_of_pos k2, ht hh, List.append_nil]
    have t2 : (hexFixed false 2 cp ++ tail).dropWhile isHexDigit = tail := by
      rw [List.dropWhile_append_of_pos k2]
      have := List.takeWhile_append_dropWhile (p := isHexDigit) (l := tail)
      rw [ht hh] at this
      exact this
    have hne : hexFixed false 2 cp ≠ [] := by
      intro hc
      have := hexFixed_length false 2 cp
      rw [hc] at this
      simp at this
    rw [cEscaped, if_pos rfl, t1, t2, if_neg hne, byteEscape, k1, if_pos (by omega), encode_ascii h1]
  · rw [e]
    show cString (n + 1) (0x5C :: 0x75 :: (hexFixed true 4 cp ++ tail)) = _
    refine esc _ _ _ ?_
    rw [cEscaped, if_neg (by decide), if_neg (by decide), if_pos rfl]
    exact named_fixed 4 (by omega) ⟨.inl (by omega), hs⟩ tail
  · rw [e]
    show cString (n + 1) (0x5C :: 0x55 :: (hexFixed true 8 cp ++ tail)) = _
    refine esc _ _ _ ?_
    rw [cEscaped, if_neg (by decide), if_neg (by decide), if_neg (by decide), if_pos rfl]
    exact named_fixed 8 (by have := scalar_le hs; omega) ⟨.inl (by omega), hs⟩ tail

theorem no_digit_after {cps : List Nat} (hcps : ∀ cp ∈ cps, Scalar cp ∧ cp ≠ 0)
    (h2 : ∀ c ∈ cps.head?, ¬ (c < 0x80 ∧ isHexDigit (UInt8.ofNat c) = true)) (rest : Bytes) :
    (cps.flatMap cEscape ++ 0x22 :: rest).takeWhile isHexDigit = [] := by
  cases cps with
  | nil => rfl
  | cons c cps =>
    have hc' := hcps c (by simp)
    have hno := h2 c rfl
    rw [List.flatMap_cons, List.append_assoc]
    rcases cEscape_cases hc'.2 (scalar_le hc'.1) with ⟨e, k1, k2, _⟩ | ⟨d, v, e, _⟩ | ⟨e, _⟩ | ⟨e, _⟩ | ⟨e, _⟩
    · rw [e, List.singleton_append, List.takeWhile_cons_of_neg (fun hd => hno ⟨by omega, hd⟩)]
    · rw [e]; rfl
    · rw [e]; rfl
    · rw [e]; rfl
    · rw [e]; rfl

/-- **C75**, except for these cases: between quotes the output is a C string literal that denotes the text. -/
theorem C75_output_is_a_c_string_partial (cps : List Nat) (hcps : ∀ cp ∈ cps, Scalar cp ∧ cp ≠ 0) (hsafe : CSafe cps) (rest : Bytes) (n : Nat)
    (hn : cps.length < n) : cString n (cps.flatMap cEscape ++ 0x22 :: rest) = some (cps.flatMap encode, rest) := by
  induction cps generalizing n with
  | nil =>
    cases n with
    | zero => omega
    | succ n => rfl
  | cons cp cps ih =>
    cases n with
    | zero => omega
    | succ n =>
      obtain ⟨h1, h2, h3⟩ := hsafe
      have hc := hcps cp (by simp)
      rw [List.flatMap_cons, List.flatMap_cons, List.append_assoc, cString_cEscape hc.2 hc.1 h1,
        ih (fun c h => hcps c (by simp [h])) h3 n (by simpa using hn)]
      · rfl
      · exact fun hh => no_digit_after (fun c h => hcps c (by simp [h])) (h2 hh) rest

theorem numeral_foldl (ds : Bytes) : ∀ a : Nat, 0 < a → a ≤ ds.foldl (fun a c => 16 * a + (hexOf c).getD 0) a ∧
    (ds ≠ [] → a < ds.foldl (fun a c => 16 * a + (hexOf c).getD 0) a) := by
  induction ds with
  | nil => exact fun a _ => ⟨Nat.le_refl _, fun h => absurd rfl h⟩
  | cons c ds ih =>
    intro a ha
    have := (ih (16 * a + (hexOf c).getD 0) (by omega)).1
    rw [List.foldl_cons]
    exact ⟨by omega, fun _ => by omega⟩

/-- A digit after `\x` and two digits spoils the literal. -/
theorem cString_spoiled {cp : Nat} (h0 : cp ≠ 0) (h1 : cp < 0x80) (n : Nat) (tail : Bytes) (ht : tail.takeWhile isHexDigit ≠ [])
    (x rest : Bytes) : cString (n + 1) (0x5C :: 0x78 :: hexFixed false 2 cp ++ tail) ≠ some (encode cp ++ x, rest) := by
  obtain ⟨k1, k2⟩ := hexFixed_two cp h1
  intro h
  have t1 : (hexFixed false 2 cp ++ tail).takeWhile isHexDigit = hexFixed false 2 cp ++ tail.takeWhile isHexDigit := by
    rw [List.takeWhile_append_of_pos k2]
  have hv : cp < numeral 16 (hexFixed false 2 cp ++ tail.takeWhile isHexDigit) := by
    unfold numeral at k1 ⊢
    rw [List.foldl_append, k1]
    exact (numeral_foldl _ cp (by omega)).2 ht
  have hne : hexFixed false 2 cp ++ tail.takeWhile isHexDigit ≠ [] := by simp [ht]
  rw [List.cons_append, cString, if_neg (by decide), if_neg (by decide), if_pos rfl, List.cons_append, cEscaped, if_pos rfl, t1, if_neg hne,
    byteEscape] at h
  split at h
  · next hlt =>
    rw [Option.bind_some, Option.map_eq_some_iff] at h
    obtain ⟨q, _, h⟩ := h
    rw [encode_ascii h1] at h
    simp only [List.singleton_append, Prod.mk.injEq, List.cons.injEq] at h
    have := congrArg UInt8.toNat h.1.1
    rw [toNat_ofNat_lt hlt, toNat_ofNat_lt (by omega)] at this
    omega
  · cases h

/-- **C75**, exactly: for these texts, and for no others. -/
theorem C75_output_is_a_c_string_iff_partial (cps : List Nat) (hcps : ∀ cp ∈ cps, Scalar cp ∧ cp ≠ 0) (rest : Bytes) (n : Nat)
    (hn : cps.length < n) : cString n (cps.flatMap cEscape ++ 0x22 :: rest) = some (cps.flatMap encode, rest) ↔ CSafe cps := by
  refine ⟨fun h => ?_, fun h => C75_output_is_a_c_string_partial cps hcps h rest n hn⟩
  induction cps generalizing n with
  | nil => trivial
  | cons cp cps ih =>
    cases n with
    | zero => omega
    | succ n =>
      have hc := hcps cp (by simp)
      have hcps' : ∀ c ∈ cps, Scalar c ∧ c ≠ 0 := fun c h => hcps c (by simp [h])
      rw [List.flatMap_cons, List.flatMap_cons, List.append_assoc] at h
      have h1 : cp < 0x80 ∨ 0xA0 ≤ cp := by
        refine Classical.byContradiction fun hno => ?_
        have hlt : 0x80 ≤ cp ∧ cp < 0xA0 := by omega
        rcases cEscape_cases hc.2 (scalar_le hc.1) with ⟨_, _, _, _⟩ | ⟨_, _, _, _, _, _, _, _, _, _, _, _⟩ | ⟨_, _, _⟩ | ⟨e, _, _⟩ | ⟨_, _⟩
        case inr.inr.inr.inl =>
          have k := readHex_fixed true 4 cp (by omega) 0
          rw [Nat.mul_zero, Nat.zero_add] at k
          have hnn : ¬ Nameable cp := by rintro ⟨h, _⟩; omega
          rw [e, List.cons_append, cString, if_neg (by decide), if_neg (by decide), if_pos rfl, List.cons_append, cEscaped,
            if_neg (by decide), if_neg (by decide), if_pos rfl, named, readHex_rest _ _ _ _ _ k, Option.bind_some, if_neg hnn] at h
          cases h
        all_goals omega
      have h2 : HexEscaped cp → ∀ c ∈ cps.head?, ¬ (c < 0x80 ∧ isHexDigit (UInt8.ofNat c) = true) := by
        rintro hh c hm ⟨hl, hd⟩
        cases cps with
        | nil => cases hm
        | cons c' cps =>
          cases hm
          rcases cEscape_cases hc.2 (scalar_le hc.1) with ⟨_, _, _, _⟩ | ⟨_, _, e, _, _, _, _, _, _, _, _, _⟩ | ⟨e, hlt, _⟩ | ⟨_, _, _⟩ | ⟨_, _⟩
          · unfold HexEscaped at hh; omega
          · have key : ∀ cp < 0x80, HexEscaped cp → cp ≠ 0 → (cEscape cp).length = 4 := by decide +kernel
            have := key cp (by unfold HexEscaped at hh; omega) hh hc.2
            rw [e] at this
            cases this
          · rw [e] at h
            refine cString_spoiled hc.2 hlt n _ ?_ _ _ h
            have key : ∀ c < 0x80, isHexDigit (UInt8.ofNat c) = true → cEscape c = [UInt8.ofNat c] := by decide +kernel
            rw [List.flatMap_cons, key c hl hd, List.append_assoc, List.singleton_append, List.takeWhile_cons_of_pos hd]
            simp
          · unfold HexEscaped at hh; omega
          · unfold HexEscaped at hh; omega
      refine ⟨h1, h2, ih hcps' n (by simpa using hn) ?_⟩
      rw [cString_cEscape hc.2 hc.1 h1 _ _ fun hh => no_digit_after hcps' (h2 hh) rest, Option.map_eq_some_iff] at h
      obtain ⟨q, e1, e2⟩ := h
      rw [e1]
      simp only [Prod.mk.injEq, List.append_cancel_left_eq] at e2
      rw [← e2.1, ← e2.2]

/- A text that meets the condition. -/
example : CSafe [0x01, 0x78, 0x0A, 0x61, 0xE9, 0x1F600] := by
  simp only [CSafe, HexEscaped, List.head?_cons, Option.mem_def, Option.some.injEq, forall_eq']
  simp
  decide

end Detox
