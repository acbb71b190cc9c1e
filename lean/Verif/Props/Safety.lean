import Verif.Props.Utf8
import Verif.Props.Iso
import Verif.Props.Lower
import Verif.Props.MaxLength
import Verif.Props.Uncgi
import Verif.Props.Table

/-!
# C17, C18: memory safety and termination of cleaning
-/

set_option autoImplicit false

namespace Detox

open Spec

/-- Bytes written for a character without considering which: entry, else default, else `orig` bytes. -/
def replacementLength (entry dflt : Option Bytes) (orig : Nat) : Nat :=
  match entry, dflt with
  | some r, _ => r.length
  | none, some d => d.length
  | none, none => orig

theorem safeSub_length (P : Platform) (t : Table) (c : Byte) :
    (safeSub P t c).length = replacementLength (tableGet t (P.charToUInt c)) t.defaultTranslation 1 := by
  unfold safeSub replacementLength
  cases tableGet t (P.charToUInt c) <;> cases t.defaultTranslation <;> rfl

theorem isoSub_length (t : Table) (c : Byte) :
    (isoSub t c).length = if c.toNat < 0x80 then 1 else replacementLength (tableGet t c.toNat) t.defaultTranslation 1 := by
  have hb : ∀ c : Byte, (c &&& 0x80 = 0) ↔ c.toNat < 0x80 := forall_byte (by decide +kernel)
  unfold isoSub replacementLength
  by_cases h : c.toNat < 0x80
  · rw [if_pos ((hb c).mpr h), if_pos h]; rfl
  · rw [if_neg (fun h' => h ((hb c).mp h')), if_neg h]
    cases tableGet t c.toNat <;> cases t.defaultTranslation <;> rfl

theorem flatMap_length_le_of {f : Byte → Bytes} {m : Nat} (s : Bytes) (h : ∀ c ∈ s, (f c).length ≤ m) :
    (s.flatMap f).length ≤ s.length * m := by
  induction s with
  | nil => simp
  | cons c s ih =>
    simp only [List.flatMap_cons, List.length_append, List.length_cons]
    have := h c (by simp)
    have := ih fun x hx => h x (by simp [hx])
    rw [Nat.succ_mul]; omega

theorem emit_ub_iff (n : Nat) (out : Bytes) : (emit (n + 1) out = .ub .oobWrite ↔ n < out.length) ∧
    (emit (n + 1) out ≠ .ub .oobWrite → emit (n + 1) out = .ok (cstr out)) := by
  rw [emit_eq]
  by_cases h : out.length < n + 1
  · rw [if_pos h]
    exact ⟨⟨(fun h' => by cases h'), fun h' => absurd h' (by omega)⟩, fun _ => rfl⟩
  · rw [if_neg h]
    exact ⟨⟨fun _ => by omega, fun _ => rfl⟩, fun h' => absurd rfl h'⟩

/-- **C17**, `safe` filter, exactly: it stays inside its buffer on every name if and only if every
replacement it can make for a byte is at most `max_data_length` long. -/
theorem C17_safe_in_bounds_iff (P : Platform) (t : Table) :
    (∀ s, NulFree s → cleanSafe P (some t) s ≠ .ub .oobWrite) ↔
    ∀ c : Byte, c ≠ 0 → replacementLength (tableGet t (P.charToUInt c)) t.defaultTranslation 1 ≤ t.maxDataLength := by
  constructor
  · intro h c hc
    have := h [c] (nulFree_cons.mpr ⟨hc, NulFree.nil⟩)
    rw [cleanSafe_eq, Ne, (emit_ub_iff _ _).1] at this
    simp only [List.flatMap_cons, List.flatMap_nil, List.append_nil, safeSub_length, List.length_cons, List.length_nil] at this
    omega
  · intro h s hs
    rw [cleanSafe_eq, Ne, (emit_ub_iff _ _).1]
    have := flatMap_length_le_of (f := safeSub P t) (m := t.maxDataLength) s (fun c hc => by
      rw [safeSub_length]; exact h c fun h0 => hs (h0 ▸ hc))
    omega

/-- **C17**, `iso8859_1` filter, exactly. -/
theorem C17_iso_in_bounds_iff (t : Table) :
    (∀ s, NulFree s → cleanIso (some t) s ≠ .ub .oobWrite) ↔
    (1 ≤ t.maxDataLength ∧
      ∀ c : Byte, 0x80 ≤ c.toNat → replacementLength (tableGet t c.toNat) t.defaultTranslation 1 ≤ t.maxDataLength) := by
  constructor
  · intro h
    have h1 : ∀ c : Byte, c ≠ 0 → (isoSub t c).length ≤ t.maxDataLength := by
      intro c hc
      have := h [c] (nulFree_cons.mpr ⟨hc, NulFree.nil⟩)
      rw [cleanIso_eq, Ne, (emit_ub_iff _ _).1] at this
      simp only [List.flatMap_cons, List.flatMap_nil, List.append_nil, List.length_cons, List.length_nil] at this
      omega
    refine ⟨?_, fun c hc => ?_⟩
    · have := h1 0x41 (by decide)
      rwa [isoSub_length, if_pos (by decide)] at this
    · have := h1 c (by rintro rfl; simp at hc)
      rwa [isoSub_length, if_neg (by omega)] at this
  · intro ⟨h1, h2⟩ s hs
    rw [cleanIso_eq, Ne, (emit_ub_iff _ _).1]
    have := flatMap_length_le_of (f := isoSub t) (m := t.maxDataLength) s (fun c hc => by
      rw [isoSub_length]
      split
      · exact h1
      · exact h2 c (by omega))
    omega

/-- Length of what the utf_8 filter writes for a unit of value `v` that is `w` bytes long. -/
def utf8ReplacementLength (t : Table) (v w : Nat) : Nat :=
  match tableGet t v with
  | some r => r.length
  | none =>
    if v = 0 then 13
    else if v > 0x10FFFF then 1
    else match t.defaultTranslation with
      | some d => d.length
      | none => w

theorem utf8ReplacementLength_eq (t : Table) (v : Nat) (u : Bytes) :
    ((utf8Replacement t v).getD u).length = utf8ReplacementLength t v u.length := by
  unfold utf8Replacement utf8ReplacementLength
  dsimp only
  cases tableGet t v with
  | some r => simp
  | none =>
    by_cases h0 : v = 0
    · simp only [h0, if_true]; rfl
    · by_cases hm : v > 0x10FFFF
      · have : v > unicodeMax := hm
        simp [h0, this, hm]
      · have : ¬ v > unicodeMax := hm
        simp only [h0, this, hm, and_false, if_false, if_true]
        cases t.defaultTranslation <;> rfl

theorem utf8Fn_length {t : Table} (s : Bytes) (h1 : 1 ≤ t.maxDataLength)
    (h : ∀ a u b v, s = a ++ u ++ b → IsUnit u v → utf8ReplacementLength t v u.length ≤ u.length * t.maxDataLength) :
    (utf8Fn t s).length ≤ s.length * t.maxDataLength := by
  induction s using utf8_induction t with
  | nil => simp [utf8Fn_nil]
  | unit u v rest hu ih =>
    have hi := ih fun a u' b v' he hu' => h (u ++ a) u' b v' (by rw [he]; simp) hu'
    have hh := h [] u rest v (by simp) hu
    rw [utf8Fn_unit hu, List.length_append, List.length_append, Nat.add_mul, utf8ReplacementLength_eq]
    omega
  | bad b rest hb he ih =>
    have hi := ih fun a u' b' v' he' hu' => h (b ++ a) u' b' v' (by rw [he']; simp) hu'
    rw [he, List.length_cons, List.length_append, Nat.add_mul]
    have hb' := List.length_pos_iff.mpr hb
    have : 1 * 1 ≤ b.length * t.maxDataLength := Nat.mul_le_mul hb' h1
    omega

/-- **C17**, `utf_8` filter, exactly: in bounds on every name iff `max_data_length` is at least 1 and
every lead+continuation unit is replaced by at most `max_data_length` bytes per byte. -/
theorem C17_utf8_in_bounds_iff (t : Table) :
    (∀ s, NulFree s → cleanUtf8 (some t) s ≠ .ub .oobWrite) ↔
    (1 ≤ t.maxDataLength ∧ ∀ u v, NulFree u → IsUnit u v → utf8ReplacementLength t v u.length ≤ u.length * t.maxDataLength) := by
  constructor
  · intro h
    constructor
    · have := h [0xFF] (by decide)
      rw [cleanUtf8_eq, Ne, (emit_ub_iff _ _).1] at this
      rw [show utf8Out t ([0xFF] : Bytes).length [0xFF] = [0x5F] from rfl] at this
      simp only [List.length_cons, List.length_nil] at this
      omega
    · intro u v hnf hu
      have := h u hnf
      rw [cleanUtf8_eq, Ne, (emit_ub_iff _ _).1] at this
      have he : utf8Out t u.length u = (utf8Replacement t v).getD u := by
        have := utf8Fn_unit (t := t) hu []
        rwa [List.append_nil, utf8Fn_nil, List.append_nil] at this
      rw [he, utf8ReplacementLength_eq] at this
      omega
  · intro ⟨h1, h2⟩ s hs
    rw [cleanUtf8_eq, Ne, (emit_ub_iff _ _).1]
    have := utf8Fn_length s h1 (fun a u b v he hu => h2 u v (by
      rw [he] at hs
      exact (nulFree_append.mp (nulFree_append.mp hs).1).2) hu)
    show ¬ _ < (utf8Fn t s).length
    omega

/-! ### The property as stated is false -/

/-- **C17** is false of the code: with the *built-in* unicode table, the two-byte name `C0 80` makes
`clean_utf_8` write 13 bytes and a NUL into a 3-byte block. -/
theorem C17_unicode_table_overflows :
    NulFree [0xC0, 0x80] ∧ cleanUtf8 (some load_builtin_unicode_table) [0xC0, 0x80] = .ub .oobWrite := by
  decide +kernel

/-- ... and the overflow is unbounded: `n` encoded NULs overrun the block by at least `11 n` bytes. -/
theorem C17_unicode_overflow_is_unbounded (n : Nat) :
    (utf8Fn load_builtin_unicode_table ((List.replicate n [0xC0, 0x80]).flatten)).length =
      ((List.replicate n ([0xC0, 0x80] : Bytes)).flatten).length * load_builtin_unicode_table.maxDataLength + 11 * n := by
  have hu : IsUnit [0xC0, 0x80] 0 := ⟨0xC0, [0x80], 2, 0xC0, rfl, by decide +kernel, rfl, by decide +kernel, by decide +kernel⟩
  rw [unicode_max]
  induction n with
  | zero => rfl
  | succ n ih =>
    rw [List.replicate_succ, List.flatten_cons, utf8Fn_unit hu, List.length_append, ih, utf8ReplacementLength_eq]
    have : utf8ReplacementLength load_builtin_unicode_table 0 2 = 13 := by decide +kernel
    simp only [List.length_cons, List.length_nil, List.length_append]
    rw [show (0 + 1 + 1) = 2 from rfl, this]
    omega

/-- A table with one entry `A -> x` and default `__`. -/
def longDefault : Table := { (freshTable 500 true).after [.put 0x41 [0x78]] with defaultTranslation := some [0x5F, 0x5F] }

/-- **C17**: a default translation longer than every entry overflows too, in `safe` as in
`iso8859_1` and `utf_8`; and so does a table without entries. -/
theorem C17_long_default_overflows :
    Reachable longDefault ∧ cleanSafe .linux (some longDefault) (lit "b") = .ub .oobWrite ∧
    cleanIso (some longDefault) [0xE9] = .ub .oobWrite ∧ cleanUtf8 (some longDefault) (lit "b") = .ub .oobWrite ∧
    Reachable (freshTable 500 true) ∧ cleanSafe .linux (some (freshTable 500 true)) (lit "b") = .ub .oobWrite := by
  refine ⟨.setDefault _ _ (.op _ (.put 0x41 [0x78]) (.fresh 500 true)), ?_, ?_, ?_, .fresh 500 true, ?_⟩ <;> decide +kernel

/-! ### What does hold -/

/-- A table that leaves the filters in bounds. -/
structure Table.Roomy (t : Table) : Prop where
  reachable : Reachable t
  nonempty : 1 ≤ t.maxDataLength
  dflt : ∀ d, t.defaultTranslation = some d → d.length ≤ t.maxDataLength

theorem Table.Roomy.replacement {t : Table} (h : t.Roomy) (k : Nat) :
    replacementLength (tableGet t k) t.defaultTranslation 1 ≤ t.maxDataLength := by
  unfold replacementLength
  cases hg : tableGet t k with
  | some r => exact C23_max_data_length_is_an_upper_bound t h.reachable k r hg
  | none =>
    cases hd : t.defaultTranslation with
    | some d => exact h.dflt d hd
    | none => exact h.nonempty

/-- The name contains an overlong encoding of U+0000 (such as `C0 80`). -/
def HasEncodedNul (s : Bytes) : Prop := ∃ a u b, s = a ++ u ++ b ∧ 2 ≤ u.length ∧ IsUnit u 0

/-- **C17 (partial).** For every table obtained by any history of table operations, if the table has a
non-empty entry and its default is no longer than its longest entry, then `safe` and `iso8859_1` stay
inside their buffers on every name, and `utf_8` does so on every name without an encoded NUL, and on
every name at all when the longest entry has at least 7 bytes. Missing: tables violating these
conditions and encoded NULs under short tables, both refuted above. -/
theorem C17_tables_in_bounds_partial (P : Platform) (t : Table) (h : t.Roomy) (s : Bytes) (hs : NulFree s) :
    (∃ out, cleanSafe P (some t) s = .ok out) ∧ (∃ out, cleanIso (some t) s = .ok out) ∧
    (¬ HasEncodedNul s ∨ 7 ≤ t.maxDataLength → ∃ out, cleanUtf8 (some t) s = .ok out) := by
  refine ⟨?_, ?_, fun hn => ?_⟩
  · have := (C17_safe_in_bounds_iff P t).mpr (fun c _ => h.replacement _) s hs
    rw [cleanSafe_eq] at this ⊢
    exact ⟨_, (emit_ub_iff _ _).2 this⟩
  · have := (C17_iso_in_bounds_iff t).mpr ⟨h.nonempty, fun c _ => h.replacement _⟩ s hs
    rw [cleanIso_eq] at this ⊢
    exact ⟨_, (emit_ub_iff _ _).2 this⟩
  · rw [cleanUtf8_eq]
    refine ⟨_, (emit_ub_iff _ _).2 ?_⟩
    rw [Ne, (emit_ub_iff _ _).1]
    have := utf8Fn_length s h.nonempty (fun a u b v he hu => ?_)
    · show ¬ _ < (utf8Fn t s).length
      omega
    · have hpos := hu.length_pos
      have hmul : t.maxDataLength ≤ u.length * t.maxDataLength := Nat.le_mul_of_pos_left _ hpos
      have hw : u.length ≤ u.length * t.maxDataLength := Nat.le_mul_of_pos_right _ h.nonempty
      unfold utf8ReplacementLength
      cases hg : tableGet t v with
      | some r => exact Nat.le_trans (C23_max_data_length_is_an_upper_bound t h.reachable v r hg) hmul
      | none =>
        dsimp only
        by_cases h0 : v = 0
        · subst h0
          rw [if_pos rfl]
          have h2 : 2 ≤ u.length := by
            rcases hu.ascii_or_high with ⟨c, rfl, _, hc⟩ | ⟨h2, _⟩
            · exfalso
              have : c = 0 := UInt8.toNat_inj.mp hc.symm
              subst this
              exact hs (by rw [he]; simp)
            · exact h2
          rcases hn with hn | hn
          · exact absurd ⟨a, u, b, he, h2, hu⟩ hn
          · have : 2 * 7 ≤ u.length * t.maxDataLength := Nat.mul_le_mul h2 hn
            omega
        · rw [if_neg h0]
          split
          · have := h.nonempty; omega
          · cases hd : t.defaultTranslation with
            | some d => exact Nat.le_trans (h.dflt d hd) hmul
            | none => exact hw

/- Non-vacuous: the four built-in tables qualify. -/
theorem builtin_roomy : load_builtin_safe_table.Roomy ∧ load_builtin_iso8859_1_table.Roomy ∧
    load_builtin_unicode_table.Roomy ∧ load_builtin_cp1252_table.Roomy := by
  refine ⟨⟨.resize _ _ _, by rw [safe_max]; omega, ?_⟩, ⟨.resize _ _ _, by rw [iso_max]; omega, ?_⟩,
    ⟨.resize _ _ _, by rw [unicode_max]; omega, ?_⟩, ⟨.resize _ _ _, by rw [cp1252_max]; omega, ?_⟩⟩
  · intro d hd; rw [safe_default] at hd; cases hd
  · intro d hd
    rw [iso_default] at hd
    injection hd with hd
    subst hd
    rw [iso_max]; simp
  · intro d hd; rw [unicode_default] at hd; cases hd
  · intro d hd; rw [cp1252_default] at hd; cases hd

/-- **C17**, the other filters are in bounds on every name, with no condition. -/
theorem C17_plain_filters_in_bounds (P : Platform) (hP : P.Benign) (s : Bytes) (n : Nat) (rt : Bool) (hs : NulFree s) :
    (∃ out, cleanUncgi P s = .ok out ∧ NulFree out) ∧ (∃ out, cleanWipeup rt s = .ok out ∧ NulFree out) ∧
    (∃ out, cleanLower P s = .ok out ∧ NulFree out) ∧ (∃ out, cleanMaxLength P n s = .ok out ∧ NulFree out) := by
  refine ⟨?_, ?_, ?_, ?_⟩
  · obtain ⟨out, _, h⟩ := cleanUncgi_decodes (s := s) (Or.inl hP.1)
    exact ⟨_, h, nulFree_cstr _⟩
  · exact ⟨_, (cleanWipeup_ok rt s hs).1, (cleanWipeup_ok rt s hs).2.2⟩
  · exact ⟨_, cleanLower_ok hs (Or.inl hP.1), nulFree_map_lower hs⟩
  · obtain ⟨h1, h2, h3, h4, _⟩ := C06_max_length_exact P n _ s rfl (Or.inl hP.2)
    by_cases hle : s.length ≤ (if n = 0 then 256 else n)
    · exact ⟨s, h1 hle, hs⟩
    · have hne : s ≠ [] := by rintro rfl; simp at hle
      rcases extension_or_not s hne with ⟨h0, _⟩ | ⟨_, e, he, _⟩
      · exact ⟨_, h2 (by omega) h0, NulFree.of_sublist (List.take_sublist _ _) hs⟩
      · by_cases hg : (if n = 0 then 256 else n) ≤ s.length - e
        · exact ⟨s, h3 e (by omega) he hg, hs⟩
        · obtain ⟨body, hb, hpre, _⟩ := h4 e (by omega) he (by omega)
          refine ⟨_, hb, nulFree_append.mpr ⟨?_, NulFree.of_sublist (List.drop_sublist _ _) hs⟩⟩
          exact NulFree.of_sublist (hpre.sublist.trans (List.take_sublist _ _)) hs

/-! ### C18 -/

/-- A filter whose table is loaded and leaves it in bounds (for `utf_8` also without the help of an
assumption on the name). -/
def Filter.Ready (f : Filter) : Prop :=
  match f.cleaner with
  | .safe => ∃ t, f.table = some t ∧ t.Roomy
  | .iso8859_1 => ∃ t, f.table = some t ∧ t.Roomy
  | .utf8 => ∃ t, f.table = some t ∧ t.Roomy ∧ 7 ≤ t.maxDataLength
  | _ => True

theorem filterRun_ready {P : Platform} (hP : P.Benign) {f : Filter} (hf : f.Ready) {s : Bytes} (hs : NulFree s) :
    ∃ out, filterRun P f (some s) = .ok (some out) ∧ NulFree out := by
  have fin : ∀ {x : Res Bytes}, (∃ out, x = .ok out ∧ NulFree out) →
      ∃ out, (x >>= fun r => (pure (some r) : Res (Option Bytes))) = .ok (some out) ∧ NulFree out := by
    rintro x ⟨out, rfl, h⟩
    exact ⟨out, rfl, h⟩
  have emitted : ∀ {cap : Nat} {o : Bytes}, (∃ out, emit cap o = .ok out) → ∃ out, emit cap o = .ok out ∧ NulFree out := by
    rintro cap o ⟨out, h⟩
    refine ⟨out, h, ?_⟩
    rw [emit_eq] at h
    split at h
    · injection h with h; subst h; exact nulFree_cstr _
    · cases h
  obtain ⟨p1, p2, p3, p4⟩ := C17_plain_filters_in_bounds P hP s f.maxLength f.removeTrailing hs
  unfold filterRun
  unfold Filter.Ready at hf
  cases hc : f.cleaner with
  | safe =>
    rw [hc] at hf
    obtain ⟨t, ht, hr⟩ := hf
    rw [ht]
    refine fin ?_
    have := (C17_tables_in_bounds_partial P t hr s hs).1
    rw [cleanSafe_eq] at this ⊢
    exact emitted this
  | iso8859_1 =>
    rw [hc] at hf
    obtain ⟨t, ht, hr⟩ := hf
    rw [ht]
    refine fin ?_
    have := (C17_tables_in_bounds_partial P t hr s hs).2.1
    rw [cleanIso_eq] at this ⊢
    exact emitted this
  | utf8 =>
    rw [hc] at hf
    obtain ⟨t, ht, hr, h7⟩ := hf
    rw [ht]
    refine fin ?_
    have := (C17_tables_in_bounds_partial P t hr s hs).2.2 (Or.inr h7)
    rw [cleanUtf8_eq] at this ⊢
    exact emitted this
  | uncgi => exact fin p1
  | wipeup => exact fin p2
  | lower => exact fin p3
  | maxLength => exact fin p4

/-- **C18.** A sequence whose tables are loaded (and roomy) turns every name into a name. In the model
`stuck` is running out of loop bound, so this includes termination. -/
theorem C18_cleaning_returns_a_name (P : Platform) (hP : P.Benign) (q : Sequence) (hq : ∀ f ∈ q.filters, f.Ready)
    (s : Bytes) (hs : NulFree s) :
    ∃ out, sequenceRunFilters P (some q) (some s) = .ok (some out) ∧ NulFree out := by
  show ∃ out, runFilters P q.filters (some s) = .ok (some out) ∧ NulFree out
  generalize q.filters = fs at hq
  induction fs generalizing s with
  | nil => exact ⟨s, rfl, hs⟩
  | cons f fs ih =>
    obtain ⟨r, hr, hnf⟩ := filterRun_ready hP (hq f (by simp)) hs
    rw [runFilters_cons hr]
    exact ih r hnf (fun g hg => hq g (by simp [hg]))

/-- **C18**, whatever the tables: the only other outcome of running a loaded sequence is the overflow
of C17 — never an endless loop, an exit, or "no result". -/
theorem C18_cleaning_only_fails_by_overflow (P : Platform) (hP : P.Benign) (q : Sequence)
    (hq : ∀ f ∈ q.filters, (f.cleaner = .safe ∨ f.cleaner = .iso8859_1 ∨ f.cleaner = .utf8) → f.table ≠ none)
    (s : Bytes) (hs : NulFree s) :
    (∃ out, sequenceRunFilters P (some q) (some s) = .ok (some out) ∧ NulFree out) ∨
    sequenceRunFilters P (some q) (some s) = .ub .oobWrite := by
  have step : ∀ f : Filter, ((f.cleaner = .safe ∨ f.cleaner = .iso8859_1 ∨ f.cleaner = .utf8) → f.table ≠ none) →
      ∀ s, NulFree s → (∃ out, filterRun P f (some s) = .ok (some out) ∧ NulFree out) ∨
        filterRun P f (some s) = .ub .oobWrite := by
    intro f hf s hs
    have fin : ∀ (n : Nat) (o : Bytes), (∃ out, (emit n o >>= fun r => (pure (some r) : Res (Option Bytes))) = .ok (some out) ∧ NulFree out) ∨
        (emit n o >>= fun r => (pure (some r) : Res (Option Bytes))) = .ub .oobWrite := by
      intro n o
      rw [emit_eq]
      split
      · exact Or.inl ⟨_, rfl, nulFree_cstr _⟩
      · exact Or.inr rfl
    have tab : (f.cleaner = .safe ∨ f.cleaner = .iso8859_1 ∨ f.cleaner = .utf8) → ∃ t, f.table = some t :=
      fun h => Option.ne_none_iff_exists'.mp (hf h)
    cases hc : f.cleaner with
    | safe =>
      obtain ⟨t, ht⟩ := tab (by simp [hc])
      have := fin (s.length * t.maxDataLength + 1) (s.flatMap (safeSub P t))
      rw [← cleanSafe_eq] at this
      simpa only [filterRun, hc, ht] using this
    | iso8859_1 =>
      obtain ⟨t, ht⟩ := tab (by simp [hc])
      have := fin (s.length * t.maxDataLength + 1) (s.flatMap (isoSub t))
      rw [← cleanIso_eq] at this
      simpa only [filterRun, hc, ht] using this
    | utf8 =>
      obtain ⟨t, ht⟩ := tab (by simp [hc])
      have := fin (s.length * t.maxDataLength + 1) (utf8Out t s.length s)
      rw [← cleanUtf8_eq] at this
      simpa only [filterRun, hc, ht] using this
    | uncgi => exact Or.inl (filterRun_ready hP (by simp [Filter.Ready, hc]) hs)
    | wipeup => exact Or.inl (filterRun_ready hP (by simp [Filter.Ready, hc]) hs)
    | lower => exact Or.inl (filterRun_ready hP (by simp [Filter.Ready, hc]) hs)
    | maxLength => exact Or.inl (filterRun_ready hP (by simp [Filter.Ready, hc]) hs)
  show (∃ out, runFilters P q.filters (some s) = .ok (some out) ∧ NulFree out) ∨ runFilters P q.filters (some s) = .ub .oobWrite
  generalize q.filters = fs at hq
  induction fs generalizing s with
  | nil => exact Or.inl ⟨s, rfl, hs⟩
  | cons f fs ih =>
    rcases step f (hq f (by simp)) s hs with ⟨r, hr, hnf⟩ | hub
    · rw [runFilters_cons hr]
      exact ih r hnf (fun g hg => hq g (by simp [hg]))
    · refine Or.inr ?_
      unfold runFilters
      rw [hub]; rfl

/-- **C18**, loading: reviewing a sequence either exits with status 1 or loads a table into every
filter that needs one, leaving everything else as it was. -/
theorem C18_review_loads_tables (E : TableEnv) (q : Sequence) :
    sequenceReview E q = .exit 1 ∨
    ∃ q', sequenceReview E q = .ok q' ∧ q'.name = q.name ∧ q'.filters.map Filter.cleaner = q.filters.map Filter.cleaner ∧
      ∀ f ∈ q'.filters, (f.cleaner = .safe ∨ f.cleaner = .iso8859_1 ∨ f.cleaner = .utf8) → f.table ≠ none := by
  have load : ∀ f : Filter, filterLoadTable E f = .exit 1 ∨
      (∃ t, filterLoadTable E f = .ok (some t)) ∨
      (filterLoadTable E f = .ok none ∧ ¬ (f.cleaner = .safe ∨ f.cleaner = .iso8859_1 ∨ f.cleaner = .utf8)) := by
    intro f
    unfold filterLoadTable
    cases hd : defaultTableFilename f.cleaner with
    | none =>
      refine Or.inr (Or.inr ⟨rfl, ?_⟩)
      rintro (h | h | h) <;> rw [h] at hd <;> cases hd
    | some cf =>
      dsimp only
      cases f.builtin with
      | some b =>
        dsimp only
        cases filterLoadBuiltinByFilename b with
        | none => exact Or.inl rfl
        | some t => exact Or.inr (Or.inl ⟨t, rfl⟩)
      | none =>
        dsimp only
        cases f.filename with
        | some fn =>
          dsimp only
          cases E.parseTable fn with
          | none => exact Or.inl rfl
          | some t => exact Or.inr (Or.inl ⟨t, rfl⟩)
        | none =>
          dsimp only
          cases filterFindTable E cf with
          | some t => exact Or.inr (Or.inl ⟨t, rfl⟩)
          | none =>
            dsimp only
            cases filterLoadBuiltin f with
            | none => exact Or.inl rfl
            | some t => exact Or.inr (Or.inl ⟨t, rfl⟩)
  have key : ∀ fs : List Filter, reviewFilters E fs = .exit 1 ∨
      ∃ fs', reviewFilters E fs = .ok fs' ∧ fs'.map Filter.cleaner = fs.map Filter.cleaner ∧
        ∀ f ∈ fs', (f.cleaner = .safe ∨ f.cleaner = .iso8859_1 ∨ f.cleaner = .utf8) → f.table ≠ none := by
    intro fs
    induction fs with
    | nil => exact Or.inr ⟨[], rfl, rfl, by simp⟩
    | cons f fs ih =>
      unfold reviewFilters
      rcases load f with h | ⟨t, h⟩ | ⟨h, hn⟩
      · rw [h]; exact Or.inl rfl
      · rw [h]
        simp only [Res.bind_ok]
        rcases ih with ih | ⟨fs', h1, h2, h3⟩
        · rw [ih]; exact Or.inl rfl
        · rw [h1]
          refine Or.inr ⟨_, rfl, by simp [h2], ?_⟩
          intro g hg
          rcases List.mem_cons.mp hg with rfl | hg
          · intro _; simp
          · exact h3 g hg
      · rw [h]
        simp only [Res.bind_ok]
        rcases ih with ih | ⟨fs', h1, h2, h3⟩
        · rw [ih]; exact Or.inl rfl
        · rw [h1]
          refine Or.inr ⟨_, rfl, by simp [h2], ?_⟩
          intro g hg
          rcases List.mem_cons.mp hg with rfl | hg
          · intro h'; exact absurd h' hn
          · exact h3 g hg
  unfold sequenceReview
  rcases key q.filters with h | ⟨fs', h1, h2, h3⟩
  · rw [h]; exact Or.inl rfl
  · rw [h1]; exact Or.inr ⟨_, rfl, rfl, h2, h3⟩

/- Non-vacuous: the filters of the built-in `lower` sequence are ready. -/
example : ∀ f ∈ [safeF, lowerF, wipeF], f.Ready := by
  intro f hf
  simp only [List.mem_cons, List.not_mem_nil, or_false] at hf
  rcases hf with rfl | rfl | rfl
  · exact ⟨_, rfl, builtin_roomy.1⟩
  · trivial
  · trivial

end Detox
