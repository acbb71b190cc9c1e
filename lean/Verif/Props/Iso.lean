import Verif.Lemmas.Utf8
import Verif.Lemmas.Filters

/-!
# C15, C16: the iso8859_1 filter with the built-in tables
-/

set_option autoImplicit false

namespace Detox

open Spec

/-- Latin-1 to UTF-8 as documented: C1 controls become `_`, a no-break space becomes a space, a soft
hyphen a hyphen. -/
def latin1 (c : Byte) : Bytes :=
  if 0x80 ≤ c.toNat ∧ c.toNat ≤ 0x9F then [0x5F]
  else if c.toNat = 0xA0 then [0x20]
  else if c.toNat = 0xAD then [0x2D]
  else encode c.toNat

theorem isoSub_builtin (c : Byte) : isoSub load_builtin_iso8859_1_table c = latin1 c := by
  have key : ∀ c : Byte, (if c &&& 0x80 = 0 then [c]
      else match lastRow builtin_iso8859_1_rows c.toNat with
        | some r => r
        | none => [0x5F]) = latin1 c := forall_byte (by decide +kernel)
  rw [← key c]
  unfold isoSub
  rw [iso_get, iso_default]
  rfl

theorem latin1_facts : ∀ c : Byte, c ≠ 0 → (latin1 c).length ≤ 2 ∧ NulFree (latin1 c) ∧
    (∃ cp ∈ List.range 256, latin1 c = encode cp) ∧ (c ≠ 0x2F → (0x2F : Byte) ∉ latin1 c) := by
  have h : ∀ c : Byte, c ≠ 0 → (latin1 c).length ≤ 2 ∧ NulFree (latin1 c) ∧
      (latin1 c = encode c.toNat ∨ latin1 c = encode 0x5F ∨ latin1 c = encode 0x20 ∨ latin1 c = encode 0x2D) ∧
      (c ≠ 0x2F → (0x2F : Byte) ∉ latin1 c) :=
    forall_byte (by decide +kernel)
  intro c hc
  obtain ⟨h1, h2, h3, h4⟩ := h c hc
  refine ⟨h1, h2, ?_, h4⟩
  rcases h3 with h | h | h | h
  · exact ⟨c.toNat, List.mem_range.mpr c.toNat_lt, h⟩
  · exact ⟨_, by decide, h⟩
  · exact ⟨_, by decide, h⟩
  · exact ⟨_, by decide, h⟩

theorem latin1_length : ∀ c : Byte, (latin1 c).length ≤ 2 := forall_byte (by decide +kernel)

theorem nulFree_latin1 {s : Bytes} (hs : NulFree s) : NulFree (s.flatMap latin1) :=
  nulFree_flatMap fun c hc => (latin1_facts c (fun h0 => hs (h0 ▸ hc))).2.1

theorem cleanIso_builtin (s : Bytes) (hs : NulFree s) :
    cleanIso (some load_builtin_iso8859_1_table) s = .ok (s.flatMap latin1) := by
  rw [cleanIso_eq, flatMap_congr_byte isoSub_builtin, emit_eq, iso_max, if_pos, cstr_of_nulFree (nulFree_latin1 hs)]
  have := flatMap_length_le latin1_length s
  omega

/-- **C15.** The filter transcodes byte by byte, and its output is always valid UTF-8. -/
theorem C15_iso8859_1_transcodes (s : Bytes) (hs : NulFree s) :
    cleanIso (some load_builtin_iso8859_1_table) s = .ok (s.flatMap latin1) ∧ ValidUtf8 (s.flatMap latin1) := by
  refine ⟨cleanIso_builtin s hs, ?_⟩
  induction s with
  | nil => exact ⟨[], by simp, rfl⟩
  | cons c s ih =>
    rw [nulFree_cons] at hs
    obtain ⟨cps, h1, h2⟩ := ih hs.2
    obtain ⟨cp, h3, h4⟩ := (latin1_facts c hs.1).2.2.1
    refine ⟨cp :: cps, ?_, by rw [List.flatMap_cons, List.flatMap_cons, h2, h4]⟩
    intro x hx
    rcases List.mem_cons.mp hx with rfl | hx
    · exact Or.inl (by have := List.mem_range.mp h3; omega)
    · exact h1 x hx

/- Non-vacuous: `Müller` in Latin-1, a no-break space and a C1 control. -/
example : cleanIso (some load_builtin_iso8859_1_table) [0x4D, 0xFC, 0x6C, 0xA0, 0x85] =
    .ok [0x4D, 0xC3, 0xBC, 0x6C, 0x20, 0x5F] := by decide +kernel

/-! ### CP-1252 -/

/-- The characters of Windows code page 1252 at 0x80–0x9F (`none`: unassigned). -/
def cp1252 : List (Option Nat) := [
  some 0x20AC, none, some 0x201A, some 0x0192, some 0x201E, some 0x2026, some 0x2020, some 0x2021,
  some 0x02C6, some 0x2030, some 0x0160, some 0x2039, some 0x0152, none, some 0x017D, none,
  none, some 0x2018, some 0x2019, some 0x201C, some 0x201D, some 0x2022, some 0x2013, some 0x2014,
  some 0x02DC, some 0x2122, some 0x0161, some 0x203A, some 0x0153, none, some 0x017E, some 0x0178]

/-- Transcoding of one byte by the built-in cp1252 table alone: unassigned positions become `-`. -/
def cp1252Fn (c : Byte) : Bytes :=
  if 0x80 ≤ c.toNat ∧ c.toNat ≤ 0x9F then
    match cp1252.getD (c.toNat - 0x80) none with
    | some cp => encode cp
    | none => [0x2D]
  else [c]

theorem cpSub_builtin (c : Byte) : isoSub load_builtin_cp1252_table c = cp1252Fn c := by
  have key : ∀ c : Byte, (if c &&& 0x80 = 0 then [c]
      else match lastRow builtin_cp1252_rows c.toNat with
        | some r => r
        | none => [c]) = cp1252Fn c := forall_byte (by decide +kernel)
  rw [← key c]
  unfold isoSub
  rw [cp1252_get, cp1252_default]
  rfl

theorem cp1252_facts : ∀ c : Byte, (cp1252Fn c).length ≤ 3 ∧ (c ≠ 0 → NulFree (cp1252Fn c)) ∧
    (c ≠ 0x2F → (0x2F : Byte) ∉ cp1252Fn c) := forall_byte (by decide +kernel)

theorem nulFree_cp1252 {s : Bytes} (hs : NulFree s) : NulFree (s.flatMap cp1252Fn) :=
  nulFree_flatMap fun c hc => (cp1252_facts c).2.1 (fun h0 => hs (h0 ▸ hc))

theorem cleanCp_builtin (s : Bytes) (hs : NulFree s) :
    cleanIso (some load_builtin_cp1252_table) s = .ok (s.flatMap cp1252Fn) := by
  rw [cleanIso_eq, flatMap_congr_byte cpSub_builtin, emit_eq, cp1252_max, if_pos, cstr_of_nulFree (nulFree_cp1252 hs)]
  have := flatMap_length_le (fun c => (cp1252_facts c).1) s
  omega

theorem run_isoF (P : Platform) (s : Bytes) (hs : NulFree s) :
    filterRun P isoF (some s) = .ok (some (s.flatMap latin1)) := by
  show (cleanIso (some load_builtin_iso8859_1_table) s >>= fun r => pure (some r)) = _
  rw [cleanIso_builtin s hs]
  rfl

theorem run_cpF (P : Platform) (s : Bytes) (hs : NulFree s) :
    filterRun P cpF (some s) = .ok (some (s.flatMap cp1252Fn)) := by
  show (cleanIso (some load_builtin_cp1252_table) s >>= fun r => pure (some r)) = _
  rw [cleanCp_builtin s hs]
  rfl

/-- Exactly what the sequence `iso8859_1-legacy` computes. -/
theorem run_legacy (P : Platform) (E : TableEnv) (s : Bytes) (hs : NulFree s) :
    runBuiltin P E (some (lit "iso8859_1-legacy")) s =
      .ok (some (safeWipe ((s.flatMap cp1252Fn).flatMap latin1))) := by
  rw [runBuiltin_eq P E _ _ [cpF, isoF, safeF, wipeF] (by simp [builtinFilters]),
    runFilters_cons (run_cpF P s hs), runFilters_cons (run_isoF P _ (nulFree_cp1252 hs)),
    run_safe_wipe P _ (nulFree_latin1 (nulFree_cp1252 hs))]

theorem run_iso_seq (P : Platform) (E : TableEnv) (s : Bytes) (hs : NulFree s) :
    runBuiltin P E (some (lit "iso8859_1")) s = .ok (some (safeWipe (s.flatMap latin1))) := by
  rw [runBuiltin_eq P E _ _ [isoF, safeF, wipeF] (by simp [builtinFilters]),
    runFilters_cons (run_isoF P s hs), run_safe_wipe P _ (nulFree_latin1 hs)]

/-- **C16** is false of the code: `iso8859_1-legacy` turns CP-1252 `€` (0x80) into `â_¬`. -/
theorem C16_legacy_is_wrong_for_cp1252 :
    ¬ ∀ (P : Platform) (E : TableEnv) (i cp : Nat), cp1252[i]? = some (some cp) →
      runBuiltin P E (some (lit "iso8859_1-legacy")) [UInt8.ofNat (0x80 + i)] = .ok (some (encode cp)) := by
  intro h
  have h1 := h .linux ⟨fun _ => none, none⟩ 0 0x20AC rfl
  rw [run_legacy _ _ _ (by decide +kernel)] at h1
  exact absurd h1 (by decide +kernel)

/-- **C16**, the extent of the defect: *no* assigned CP-1252 character comes out right. -/
theorem C16_legacy_is_wrong_for_every_cp1252_character (P : Platform) (E : TableEnv) (i cp : Nat)
    (h : cp1252[i]? = some (some cp)) :
    runBuiltin P E (some (lit "iso8859_1-legacy")) [UInt8.ofNat (0x80 + i)] ≠ .ok (some (encode cp)) := by
  have key : ∀ i : Fin 32, ∀ cp ∈ cp1252.getD i.val none,
      safeWipe ((cp1252Fn (UInt8.ofNat (0x80 + i.val))).flatMap latin1) ≠ encode cp ∧
      NulFree [UInt8.ofNat (0x80 + i.val)] := by decide +kernel
  have hi : i < 32 := by
    rcases Nat.lt_or_ge i 32 with h' | h'
    · exact h'
    · rw [List.getElem?_eq_none (show cp1252.length ≤ i from h')] at h
      cases h
  obtain ⟨k1, k2⟩ := key ⟨i, hi⟩ cp (by rw [List.getD_eq_getElem?_getD, h]; rfl)
  rw [run_legacy P E _ k2, List.flatMap_cons, List.flatMap_nil, List.append_nil]
  intro he
  injection he with he
  injection he with he
  exact k1 he

/-- **C16 (partial).** On names without bytes 0x80–0x9F, `iso8859_1-legacy` does what `iso8859_1` does: both
give what the default sequence makes of the name read as Latin-1 and written in UTF-8 (C15). Missing: the CP-1252
range itself (refuted above). -/
theorem C16_legacy_on_latin1_partial (P : Platform) (E : TableEnv) (s : Bytes) (hs : NulFree s)
    (h : ∀ c ∈ s, ¬ (0x80 ≤ c.toNat ∧ c.toNat ≤ 0x9F)) :
    runBuiltin P E (some (lit "iso8859_1-legacy")) s = runBuiltin P E none (s.flatMap latin1) ∧
    runBuiltin P E (some (lit "iso8859_1")) s = runBuiltin P E none (s.flatMap latin1) := by
  have hid : s.flatMap cp1252Fn = s := by
    clear hs
    induction s with
    | nil => rfl
    | cons c s ih =>
      rw [List.flatMap_cons, ih fun x hx => h x (by simp [hx])]
      unfold cp1252Fn
      rw [if_neg (h c (by simp))]
      rfl
  rw [runBuiltin_none, run_safe_wipe P _ (nulFree_latin1 hs)]
  refine ⟨?_, run_iso_seq P E s hs⟩
  rw [run_legacy P E s hs, hid]

/-- The cp1252 table alone (sequence `cp1252-only`) is right for every assigned character, and leaves
every byte outside 0x80–0x9F alone. -/
theorem C16_cp1252_alone_is_right (P : Platform) (E : TableEnv) (s : Bytes) (hs : NulFree s) :
    runBuiltin P E (some (lit "cp1252-only")) s = .ok (some (s.flatMap cp1252Fn)) := by
  rw [runBuiltin_eq P E _ _ [cpF] (by simp [builtinFilters]), runFilters_cons (run_cpF P s hs)]
  rfl

example : runBuiltin .linux ⟨fun _ => none, none⟩ (some (lit "iso8859_1-legacy")) [0x80, 0x2E, 0xFC] =
    .ok (some [0xC3, 0xA2, 0x5F, 0xC2, 0xAC, 0x2E, 0xC3, 0xBC]) := by decide +kernel

end Detox
