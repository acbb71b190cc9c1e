import Verif.Lemmas.Units
import Verif.Props.Default

/-!
# C11–C14: the utf_8 filter
-/

set_option autoImplicit false

namespace Detox

open Spec

/-- What should happen to one code point: table entry, else default, else itself. -/
def translate (look : Nat → Option Bytes) (dflt : Option Bytes) (cp : Nat) : Bytes :=
  match look cp, dflt with
  | some r, _ => r
  | none, some d => d
  | none, none => encode cp

/-- Entries of a table are C strings. -/
def Table.CStrings (t : Table) : Prop :=
  (∀ k r, tableGet t k = some r → NulFree r) ∧ (∀ d, t.defaultTranslation = some d → NulFree d)

theorem Table.Ascii.cstrings {t : Table} (h : t.Ascii) : t.CStrings :=
  ⟨fun k r hr h0 => (h.1 k r hr 0 h0).2 rfl, fun d hd h0 => (h.2 d hd 0 h0).2 rfl⟩

/-- **C11.** On well-formed UTF-8 without U+0000 the filter works code point by code point, for every
table. (When the result does not fit the buffer the code sizes by `max_data_length`, it overflows: C17.) -/
theorem C11_utf8_translates_code_points (t : Table) (ht : t.CStrings) (cps : List Nat)
    (hcps : ∀ cp ∈ cps, Scalar cp ∧ cp ≠ 0) :
    let out := cps.flatMap (translate (tableGet t) t.defaultTranslation)
    cleanUtf8 (some t) (cps.flatMap encode) =
      if out.length ≤ (cps.flatMap encode).length * t.maxDataLength then .ok out else .ub .oobWrite := by
  intro out
  have hle : ∀ cp ∈ cps, cp ≤ 0x10FFFF := by
    intro cp hcp
    rcases (hcps cp hcp).1 with h | h <;> omega
  have hrep : ∀ cp ∈ cps, (utf8Replacement t cp).getD (encode cp) = translate (tableGet t) t.defaultTranslation cp := by
    intro cp hcp
    have h0 := (hcps cp hcp).2
    have hm : ¬ cp > unicodeMax := by have := hle cp hcp; unfold unicodeMax; omega
    unfold utf8Replacement translate
    cases hg : tableGet t cp with
    | some r => simp
    | none =>
      simp only [h0, hm, and_false, if_false, if_true]
      cases t.defaultTranslation <;> rfl
  have hout : utf8Fn t (cps.flatMap encode) = out := by
    show utf8Fn t (cps.flatMap encode) = cps.flatMap (translate (tableGet t) t.defaultTranslation)
    clear out
    induction cps with
    | nil => rfl
    | cons cp cps ih =>
      rw [List.flatMap_cons, List.flatMap_cons, utf8Fn_unit (encode_unit (hle cp (by simp))), hrep cp (by simp),
        ih (fun c hc => hcps c (by simp [hc])) (fun c hc => hle c (by simp [hc])) (fun c hc => hrep c (by simp [hc]))]
  have hnf : NulFree out := by
    refine nulFree_list_flatMap ?_
    intro cp hcp
    unfold translate
    cases hg : tableGet t cp with
    | some r => exact ht.1 cp r hg
    | none =>
      cases hd : t.defaultTranslation with
      | some d => exact ht.2 d hd
      | none => exact (encode_unit (hle cp hcp)).nulFree (hcps cp hcp).2
  rw [cleanUtf8_eq, show utf8Out t _ (cps.flatMap encode) = out from hout, emit_eq, cstr_of_nulFree hnf]
  by_cases h : out.length ≤ (cps.flatMap encode).length * t.maxDataLength
  · rw [if_pos (by omega), if_pos h]
  · rw [if_neg (by omega), if_neg h]

/- Non-vacuous: a zero width space (dropped), `é` and `😀` (kept) under the built-in table. -/
example : cleanUtf8 (some load_builtin_unicode_table) ([0x200B, 0xE9, 0x1F600, 0x41].flatMap encode) =
    .ok ([0xE9, 0x1F600, 0x41].flatMap encode) := by decide +kernel
example : ∀ cp ∈ [0x200B, 0xE9, 0x1F600, 0x41], Scalar cp ∧ cp ≠ 0 := by decide +kernel

/-- The result of the utf_8 filter, when there is one. -/
theorem cleanUtf8_some {t : Table} (ht : t.Ascii) {s out : Bytes} (h : cleanUtf8 (some t) s = .ok out) :
    out = utf8Fn t s := by
  rw [cleanUtf8_eq, emit_eq] at h
  split at h
  · injection h with h
    rw [← h, cstr_of_nulFree]
    · rfl
    · exact (utf8Fn_units ht s).nulFree fun u v h => h.1
  · cases h

/-- **C12.** Whatever bytes come in, the output splits into complete lead+continuation units. -/
theorem C12_utf8_output_is_structurally_valid (t : Table) (ht : t.Ascii) (s out : Bytes)
    (h : cleanUtf8 (some t) s = .ok out) : Units (fun _ _ => True) out := by
  rw [cleanUtf8_some ht h]
  exact (utf8Fn_units ht s).mono fun _ _ _ => trivial

/-- **C13.** No unit of the output has value 0 or a value above 0x10FFFF. -/
theorem C13_utf8_output_values_in_range (t : Table) (ht : t.Ascii) (s out : Bytes)
    (h : cleanUtf8 (some t) s = .ok out) (a u b : Bytes) (v : Nat) (ho : out = a ++ u ++ b)
    (ha : Units (fun _ _ => True) a) (hu : IsUnit u v) : v ≠ 0 ∧ v ≤ 0x10FFFF := by
  rw [cleanUtf8_some ht h] at ho
  exact (utf8Fn_units ht s).at ha hu ho

theorem unicode_rows_ascii : ∀ r ∈ builtin_unicode_rows, ∀ d ∈ r.data,
    d = [] ∨ ∃ c ∈ d, d = [c] ∧ c.toNat < 0x80 ∧ c ≠ 0 ∧ lastRow builtin_unicode_rows c.toNat = some [c] := by
  decide +kernel

theorem unicode_entry {k : Nat} {r : Bytes} (h : tableGet load_builtin_unicode_table k = some r) :
    r = [] ∨ ∃ c, r = [c] ∧ c.toNat < 0x80 ∧ c ≠ 0 ∧ tableGet load_builtin_unicode_table c.toNat = some [c] := by
  rw [unicode_get] at h
  obtain ⟨_, i, hi⟩ := lastRow_eq_some h
  rcases unicode_rows_ascii _ (List.mem_of_getElem? hi) r rfl with h | ⟨c, _, h1, h2, h3, h4⟩
  · exact Or.inl h
  · exact Or.inr ⟨c, h1, h2, h3, by rw [unicode_get]; exact h4⟩

theorem unicode_table_ascii : load_builtin_unicode_table.Ascii := by
  constructor
  · intro k r h c hc
    rcases unicode_entry h with rfl | ⟨c', rfl, h1, h2, _⟩
    · simp at hc
    · rw [List.mem_singleton] at hc; subst hc; exact ⟨h1, h2⟩
  · intro d hd
    rw [unicode_default] at hd
    cases hd

/- C12 and C13 are non-vacuous for the built-in table: a stray byte, a truncated character, an overlong
`/`, and a value above U+10FFFF. -/
example : cleanUtf8 (some load_builtin_unicode_table) [0x41, 0xFF, 0xE2, 0x82, 0x42, 0xC0, 0xAF, 0xF4, 0x90, 0x80, 0x80, 0xC3, 0xA9] =
    .ok [0x41, 0x5F, 0x5F, 0x42, 0x2F, 0x5F, 0xC3, 0xA9] := by decide +kernel

theorem fixUnit_ascii {c : Byte} (h : tableGet load_builtin_unicode_table c.toNat = some [c]) :
    fixUnit load_builtin_unicode_table [c] c.toNat := by
  unfold fixUnit utf8Replacement
  rw [h]
  simp

/-- Printable ASCII is mapped to itself by the built-in unicode table. -/
theorem unicode_printable : ∀ c : Byte, 0x20 ≤ c.toNat → c.toNat < 0x7F →
    lastRow builtin_unicode_rows c.toNat = some [c] := forall_byte (by decide +kernel)

theorem fixUnit_printable {c : Byte} (h1 : 0x20 ≤ c.toNat) (h2 : c.toNat < 0x7F) :
    fixUnit load_builtin_unicode_table [c] c.toNat :=
  fixUnit_ascii (by rw [unicode_get]; exact unicode_printable c h1 h2)

theorem utf8Fn_fixUnits (s : Bytes) :
    Units (fun u v => fixUnit load_builtin_unicode_table u v ∧ v ≠ 0) (utf8Fn load_builtin_unicode_table s) := by
  have pr : ∀ c : Byte, 0x20 ≤ c.toNat ∧ c.toNat < 0x7F →
      c.toNat < 0x80 ∧ fixUnit load_builtin_unicode_table [c] c.toNat ∧ c.toNat ≠ 0 :=
    fun c h => ⟨by omega, fixUnit_printable h.1 h.2, by omega⟩
  induction s using utf8_induction load_builtin_unicode_table with
  | nil => exact .nil
  | unit u v rest hu ih =>
    rw [utf8Fn_unit hu]
    refine Units.append ?_ ih
    cases hr : utf8Replacement load_builtin_unicode_table v with
    | none =>
      rw [Option.getD_none, ← List.append_nil u]
      refine .cons u v [] hu ⟨?_, (utf8Replacement_none hr).1⟩ .nil
      unfold fixUnit
      rw [hr]; rfl
    | some r =>
      rw [Option.getD_some]
      rcases utf8Replacement_some hr with h | ⟨_, rfl⟩ | ⟨_, rfl⟩ | h
      · rcases unicode_entry h with rfl | ⟨c, rfl, h1, h2, h3⟩
        · exact .nil
        · refine units_ascii fun d hd => ?_
          rw [List.mem_singleton] at hd; subst hd
          exact ⟨h1, fixUnit_ascii h3, fun h0 => h2 (UInt8.toNat_inj.mp h0)⟩
      · have key : ∀ c ∈ nullReplacement, 0x20 ≤ c.toNat ∧ c.toNat < 0x7F := by decide +kernel
        exact units_ascii fun c hc => pr c (key c hc)
      · have key : ∀ c ∈ [invalidReplacement], 0x20 ≤ c.toNat ∧ c.toNat < 0x7F := by decide +kernel
        exact units_ascii fun c hc => pr c (key c hc)
      · rw [unicode_default] at h; cases h
  | bad b rest _ he ih =>
    rw [he]
    have key : 0x20 ≤ invalidReplacement.toNat ∧ invalidReplacement.toNat < 0x7F := by decide +kernel
    exact .cons [_] _ _ (isUnit_ascii (pr _ key).1) (pr _ key).2 ih

/-- Running the built-in unicode filter on a name made of fixed units. -/
theorem cleanUtf8_fixed {s : Bytes} (h : Units (fun u v => fixUnit load_builtin_unicode_table u v ∧ v ≠ 0) s) :
    cleanUtf8 (some load_builtin_unicode_table) s = .ok s := by
  have hf : utf8Out load_builtin_unicode_table s.length s = s := utf8Fn_fix (h.mono fun _ _ h => h.1)
  rw [cleanUtf8_eq, hf, emit_eq, unicode_max, if_pos (by omega), cstr_of_nulFree (h.nulFree fun _ _ h => h.2)]

/-- **C14**, filter alone. -/
theorem C14_utf8_filter_idempotent (s out : Bytes)
    (h : cleanUtf8 (some load_builtin_unicode_table) s = .ok out) :
    cleanUtf8 (some load_builtin_unicode_table) out = .ok out := by
  rw [cleanUtf8_some unicode_table_ascii h]
  exact cleanUtf8_fixed (utf8Fn_fixUnits s)

theorem runFilters_utf8 {P : Platform} {fs : List Filter} {s : Bytes} :
    runFilters P (utf8F :: fs) (some s) =
      (cleanUtf8 (some load_builtin_unicode_table) s >>= fun r => runFilters P fs (some r)) := by
  show ((cleanUtf8 (some load_builtin_unicode_table) s >>= fun r => pure (some r)) >>= fun h => runFilters P fs h) = _
  cases cleanUtf8 (some load_builtin_unicode_table) s <;> rfl

/-- **C14**, the whole built-in sequence `utf_8`. -/
theorem C14_utf8_sequence_idempotent (P : Platform) (E : TableEnv) (s out : Bytes)
    (h : runBuiltin P E (some (lit "utf_8")) s = .ok (some out)) :
    runBuiltin P E (some (lit "utf_8")) out = .ok (some out) := by
  have hmem : (lit "utf_8", [utf8F, safeF, wipeF]) ∈ builtinFilters := by simp [builtinFilters]
  rw [runBuiltin_eq P E _ _ _ hmem, runFilters_utf8] at h
  cases hu : cleanUtf8 (some load_builtin_unicode_table) s with
  | exit n => rw [hu] at h; cases h
  | ub u => rw [hu] at h; cases h
  | stuck => rw [hu] at h; cases h
  | ok r =>
    rw [hu] at h
    simp only [Res.bind_ok] at h
    have hr := cleanUtf8_some unicode_table_ascii hu
    have hunits := utf8Fn_fixUnits s
    rw [← hr] at hunits
    have hnf : NulFree r := hunits.nulFree fun _ _ h => h.2
    rw [run_safe_wipe P r hnf] at h
    injection h with h
    injection h with h
    subst h
    have hfix : Units (fun u v => fixUnit load_builtin_unicode_table u v ∧ v ≠ 0) (safeWipe r) := by
      have pr : ∀ c : Byte, 0x20 ≤ c.toNat ∧ c.toNat < 0x7F →
          fixUnit load_builtin_unicode_table [c] c.toNat ∧ c.toNat ≠ 0 :=
        fun c h => ⟨fixUnit_printable h.1 h.2, by omega⟩
      refine wipe_units true (units_flatMap_safe hunits ?_ hnf) ?_
      · intro c hc hc0 d hd
        have key : ∀ c : Byte, c.toNat < 0x80 → c ≠ 0 → ∀ d ∈ safeMap c, 0x20 ≤ d.toNat ∧ d.toNat < 0x7F :=
          forall_byte (by decide +kernel)
        exact pr d (key c hc hc0 d hd)
      · have key : ∀ c ∈ ([0x2E, 0x2D, 0x5F] : Bytes), 0x20 ≤ c.toNat ∧ c.toNat < 0x7F := by decide +kernel
        exact fun c hc => pr c (key c hc)
    rw [runBuiltin_eq P E _ _ _ hmem, runFilters_utf8, cleanUtf8_fixed hfix]
    simp only [Res.bind_ok]
    rw [run_safe_wipe P _ (nulFree_safeWipe hnf), safeWipe_idem hnf]

/- Non-vacuous: the sequence does return on ordinary names. -/
example : runBuiltin .linux ⟨fun _ => none, none⟩ (some (lit "utf_8")) (lit "a " ++ encode 0x2019 ++ encode 0x200B ++ [0xFF] ++ lit "!") =
    .ok (some (lit "a_" ++ encode 0x2019 ++ lit "_")) := by decide +kernel

/-- The output need not be well-formed UTF-8 in the sense of RFC 3629: an encoded surrogate survives. -/
theorem C52_utf8_output_not_always_rfc3629 :
    ¬ ∀ s out, cleanUtf8 (some load_builtin_unicode_table) s = .ok out → ValidUtf8 out := by
  intro h
  obtain ⟨cps, hcps, he⟩ := h [0xED, 0xA0, 0x80] [0xED, 0xA0, 0x80] (by decide +kernel)
  have hu : IsUnit [0xED, 0xA0, 0x80] 0xD800 := ⟨0xED, [0xA0, 0x80], 3, 0xE0, rfl, by decide +kernel, rfl,
    by decide +kernel, by decide +kernel⟩
  cases cps with
  | nil => simp at he
  | cons cp cps =>
    have hcp := hcps cp (by simp)
    rw [List.flatMap_cons, ← List.append_nil [(0xED : Byte), 0xA0, 0x80]] at he
    have := (hu.append_inj (encode_unit (by rcases hcp with h | h <;> omega)) he).2.1
    subst this
    rcases hcp with h | h <;> omega

end Detox
