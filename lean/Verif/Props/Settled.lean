import Verif.Spec.Tidy
import Verif.Props.Slash
import Verif.Props.Uncgi
import Verif.Props.Iso
import Verif.Props.EndToEnd

/-!
# C92: which names the built-in sequences leave alone, and which sequences are done after one run
-/

set_option autoImplicit false

namespace Detox

open Spec

theorem hostile_iff : ∀ c : Byte, hostile c = true ↔ Unsafe c := by
  intro c
  unfold hostile Unsafe
  simp only [Bool.or_eq_true, decide_eq_true_eq, List.any_eq_true, or_assoc]

theorem noAdjacent_iff {s : Bytes} : NoAdjacent true s ↔
    ∀ p a b q, s = p ++ a :: b :: q → ¬ ((a = 0x2D ∨ a = 0x5F ∨ a = 0x2E) ∧ (b = 0x2D ∨ b = 0x5F ∨ b = 0x2E)) := by
  have red : ∀ c : Byte, reducible true c = true ↔ (c = 0x2D ∨ c = 0x5F ∨ c = 0x2E) := by
    intro c
    simp [reducible, or_assoc]
  induction s with
  | nil => exact ⟨fun _ p a b q h => (by cases p <;> cases h), fun _ => trivial⟩
  | cons x s ih =>
    cases s with
    | nil =>
      refine ⟨fun _ p a b q h => ?_, fun _ => trivial⟩
      cases p with
      | nil => cases h
      | cons y p => cases p <;> cases h
    | cons y s =>
      show ¬ _ ∧ NoAdjacent true (y :: s) ↔ _
      rw [red, red]
      constructor
      · rintro ⟨h1, h2⟩ p a b q h
        cases p with
        | nil => cases h; exact h1
        | cons z p => exact ih.mp h2 p a b q (List.cons.inj h).2
      · intro h
        exact ⟨h [] x y s rfl, ih.mpr fun p a b q e => h (x :: p) a b q (by rw [e]; rfl)⟩

theorem tidy_iff {s : Bytes} : Tidy s ↔ (∀ c ∈ s, hostile c = false) ∧ (∀ c, s.head? = some c → leading c = false) ∧ NoAdjacent true s := by
  have hl : ∀ c : Byte, leading c = false ↔ (c ≠ 0x2D ∧ c ≠ 0x5F ∧ c ≠ 0x23) := by
    intro c
    simp [leading, and_assoc]
  have hh : ∀ c : Byte, hostile c = false ↔ ¬ Unsafe c := by
    intro c
    rw [← hostile_iff]
    simp
  rw [noAdjacent_iff]
  constructor
  · intro h
    exact ⟨fun c hc => (hh c).mpr (h.safe c hc), fun c hc => (hl c).mpr (h.front c hc), h.apart⟩
  · rintro ⟨h1, h2, h3⟩
    exact ⟨fun c hc => (hh c).mp (h1 c hc), fun c hc => (hl c).mp (h2 c hc), h3⟩

theorem tidy_nulFree {s : Bytes} (h : Tidy s) : NulFree s := fun h0 => h.safe 0 h0 (.inl (by decide))

theorem wipe_tidy {s : Bytes} (h : Tidy s) : wipe true s = s := by
  have hs := tidy_nulFree h
  rw [tidy_iff] at h
  refine Reduces.unique (wipe_spec (rt := true) hs) ?_
  show Reduces true (s.dropWhile leading) s
  rw [dropWhile_self h.2.1]
  exact reduces_self h.2.2

theorem safeWipe_tidy {s : Bytes} (h : Tidy s) : safeWipe s = s := by
  unfold safeWipe
  rw [flatMap_safe_fixed (tidy_iff.mp h).1, wipe_tidy h]

theorem wipe_front {s : Bytes} (hs : NulFree s) : ∀ c, (wipe true s).head? = some c → leading c = false :=
  fun c hc => wipeup_head (wipe_spec hs) c hc

theorem wipe_apart {s : Bytes} (hs : NulFree s) : NoAdjacent true (wipe true s) := (show Reduces true _ _ from wipe_spec hs).noAdjacent

/-- What the default sequence makes is tidy. -/
theorem safeWipe_is_tidy {s : Bytes} (hs : NulFree s) : Tidy (safeWipe s) :=
  tidy_iff.mpr ⟨safeWipe_clean hs, wipe_front (nulFree_safe hs), wipe_apart (nulFree_safe hs)⟩

/-! ### Exactly the names that are left alone -/

/-- **C92.** The default sequence leaves alone exactly the tidy names. -/
theorem C92_default_leaves_alone (P : Platform) (E : TableEnv) (s : Bytes) (hs : NulFree s) :
    runBuiltin P E none s = .ok (some s) ↔ Tidy s := by
  rw [runBuiltin_none, run_safe_wipe P s hs]
  constructor
  · intro h
    rw [← Option.some.inj (Res.ok.inj h)]
    exact safeWipe_is_tidy hs
  · intro h
    rw [safeWipe_tidy h]

/-- **C92.** What it makes is tidy. -/
theorem C92_default_makes_tidy (P : Platform) (E : TableEnv) (s out : Bytes) (hs : NulFree s)
    (h : runBuiltin P E none s = .ok (some out)) : Tidy out := by
  rw [runBuiltin_none, run_safe_wipe P s hs] at h
  rw [← Option.some.inj (Res.ok.inj h)]
  exact safeWipe_is_tidy hs

theorem lower_fixed {s : Bytes} : s.map toLowerC = s ↔ ∀ c ∈ s, ¬ (0x41 ≤ c.toNat ∧ c.toNat ≤ 0x5A) := by
  have key : ∀ c : Byte, toLowerC c = c ↔ ¬ (0x41 ≤ c.toNat ∧ c.toNat ≤ 0x5A) := forall_byte (by decide +kernel)
  induction s with
  | nil => simp
  | cons c s ih =>
    rw [List.map_cons, List.cons.injEq, key]
    exact ⟨fun h d hd => (List.mem_cons.mp hd).elim (fun e => e ▸ h.1) (ih.mp h.2 d), fun h => ⟨h c (by simp), ih.mpr fun d hd => h d (by simp [hd])⟩⟩

theorem lower_hostile : ∀ c : Byte, hostile (toLowerC c) = false ↔ hostile c = false := forall_byte (by decide +kernel)

theorem run_lower_only (P : Platform) (hP : P.Benign) (E : TableEnv) (s : Bytes) (hs : NulFree s) :
    runBuiltin P E (some (lit "lower-only")) s = .ok (some (s.map toLowerC)) := by
  rw [runBuiltin_eq P E _ _ [lowerF] (by simp [builtinFilters]), runFilters_cons (run_lowerF P hP s hs)]
  rfl

theorem run_lower_seq (P : Platform) (hP : P.Benign) (E : TableEnv) (s : Bytes) (hs : NulFree s) :
    runBuiltin P E (some (lit "lower")) s = .ok (some (wipe true ((s.flatMap safeMap).map toLowerC))) := by
  rw [runBuiltin_eq P E _ _ [safeF, lowerF, wipeF] (by simp [builtinFilters]), runFilters_cons (run_safeF P s hs),
    runFilters_cons (run_lowerF P hP _ (nulFree_safe hs)), runFilters_cons (run_wipeF P _ (nulFree_map_lower (nulFree_safe hs)))]
  rfl

/-- **C92.** `lower-only` leaves alone exactly the names without a capital letter. -/
theorem C92_lower_only_leaves_alone (P : Platform) (hP : P.Benign) (E : TableEnv) (s : Bytes) (hs : NulFree s) :
    runBuiltin P E (some (lit "lower-only")) s = .ok (some s) ↔ ∀ c ∈ s, ¬ (0x41 ≤ c.toNat ∧ c.toNat ≤ 0x5A) := by
  rw [run_lower_only P hP E s hs, ← lower_fixed]
  exact ⟨fun h => Option.some.inj (Res.ok.inj h), fun h => by rw [h]⟩

/-- What `lower` makes is tidy and has no capital letters. -/
theorem lower_seq_tidy {s : Bytes} (hs : NulFree s) : Tidy (wipe true ((s.flatMap safeMap).map toLowerC)) ∧
    ∀ c ∈ wipe true ((s.flatMap safeMap).map toLowerC), ¬ (0x41 ≤ c.toNat ∧ c.toNat ≤ 0x5A) := by
  have hn := nulFree_map_lower (nulFree_safe hs)
  have low : ∀ c : Byte, ¬ (0x41 ≤ (toLowerC c).toNat ∧ (toLowerC c).toNat ≤ 0x5A) := forall_byte (by decide +kernel)
  refine ⟨tidy_iff.mpr ⟨fun c hc => ?_, wipe_front hn, wipe_apart hn⟩, fun c hc => ?_⟩
  · obtain ⟨d, hd, rfl⟩ := List.mem_map.mp (wipe_mem hn c hc)
    obtain ⟨e, he, hd⟩ := List.mem_flatMap.mp hd
    rw [lower_hostile]
    exact safeMap_clean e d hd fun h0 => hs (h0 ▸ he)
  · obtain ⟨d, _, rfl⟩ := List.mem_map.mp (wipe_mem hn c hc)
    exact low d

/-- **C92.** `lower` leaves alone exactly the tidy names without a capital letter. -/
theorem C92_lower_leaves_alone (P : Platform) (hP : P.Benign) (E : TableEnv) (s : Bytes) (hs : NulFree s) :
    runBuiltin P E (some (lit "lower")) s = .ok (some s) ↔ Tidy s ∧ ∀ c ∈ s, ¬ (0x41 ≤ c.toNat ∧ c.toNat ≤ 0x5A) := by
  rw [run_lower_seq P hP E s hs]
  constructor
  · intro h
    have h := Option.some.inj (Res.ok.inj h)
    have ht := lower_seq_tidy hs
    rw [h] at ht
    exact ht
  · rintro ⟨h1, h2⟩
    rw [flatMap_safe_fixed (tidy_iff.mp h1).1, lower_fixed.mpr h2, wipe_tidy h1]

/-- A translation that makes at least one byte of each leaves a name alone only if it does so byte by byte. -/
theorem flatMap_fixed {f : Byte → Bytes} (hf : ∀ c, c ≠ 0 → 1 ≤ (f c).length) {s : Bytes} (hs : NulFree s) :
    s.flatMap f = s ↔ ∀ c ∈ s, f c = [c] := by
  have grow : ∀ t : Bytes, NulFree t → t.length ≤ (t.flatMap f).length := by
    intro t ht
    induction t with
    | nil => simp
    | cons c t ih =>
      rw [nulFree_cons] at ht
      have := hf c ht.1
      have := ih ht.2
      simp only [List.flatMap_cons, List.length_append, List.length_cons]
      omega
  induction s with
  | nil => simp
  | cons c s ih =>
    rw [nulFree_cons] at hs
    rw [List.flatMap_cons]
    constructor
    · intro h
      have h1 := hf c hs.1
      have h2 := grow s hs.2
      have h3 := congrArg List.length h
      simp only [List.length_append, List.length_cons] at h3
      obtain ⟨h4, h5⟩ := List.append_inj (s₂ := [c]) (t₂ := s) h (by simp only [List.length_cons, List.length_nil]; omega)
      intro d hd
      rcases List.mem_cons.mp hd with rfl | hd
      · exact h4
      · exact (ih hs.2).mp h5 d hd
    · intro h
      rw [h c (by simp), (ih hs.2).mpr fun d hd => h d (by simp [hd])]
      rfl

/-- **C92.** `iso8859_1-only` leaves alone exactly the ASCII names. -/
theorem C92_iso_only_leaves_alone (P : Platform) (E : TableEnv) (s : Bytes) (hs : NulFree s) :
    runBuiltin P E (some (lit "iso8859_1-only")) s = .ok (some s) ↔ ∀ c ∈ s, c.toNat < 128 := by
  have h1 : ∀ c : Byte, c ≠ 0 → 1 ≤ (latin1 c).length := forall_byte (by decide +kernel)
  have h2 : ∀ c : Byte, latin1 c = [c] ↔ c.toNat < 128 := forall_byte (by decide +kernel)
  rw [runBuiltin_eq P E _ _ [isoF] (by simp [builtinFilters]), runFilters_cons (run_isoF P s hs)]
  show Res.ok (some _) = _ ↔ _
  rw [show (∀ c ∈ s, c.toNat < 128) ↔ ∀ c ∈ s, latin1 c = [c] from ⟨fun h c hc => (h2 c).mpr (h c hc), fun h c hc => (h2 c).mp (h c hc)⟩,
    ← flatMap_fixed h1 hs]
  exact ⟨fun h => Option.some.inj (Res.ok.inj h), fun h => by rw [h]⟩

/-- **C92.** `cp1252-only` leaves alone exactly the names without a byte in 0x80–0x9F. -/
theorem C92_cp1252_only_leaves_alone (P : Platform) (E : TableEnv) (s : Bytes) (hs : NulFree s) :
    runBuiltin P E (some (lit "cp1252-only")) s = .ok (some s) ↔ ∀ c ∈ s, ¬ (0x80 ≤ c.toNat ∧ c.toNat ≤ 0x9F) := by
  have h1 : ∀ c : Byte, c ≠ 0 → 1 ≤ (cp1252Fn c).length := forall_byte (by decide +kernel)
  have h2 : ∀ c : Byte, cp1252Fn c = [c] ↔ ¬ (0x80 ≤ c.toNat ∧ c.toNat ≤ 0x9F) := forall_byte (by decide +kernel)
  rw [runBuiltin_eq P E _ _ [cpF] (by simp [builtinFilters]), runFilters_cons (run_cpF P s hs)]
  show Res.ok (some _) = _ ↔ _
  rw [show (∀ c ∈ s, ¬ (0x80 ≤ c.toNat ∧ c.toNat ≤ 0x9F)) ↔ ∀ c ∈ s, cp1252Fn c = [c] from
    ⟨fun h c hc => (h2 c).mpr (h c hc), fun h c hc => (h2 c).mp (h c hc)⟩, ← flatMap_fixed h1 hs]
  exact ⟨fun h => Option.some.inj (Res.ok.inj h), fun h => by rw [h]⟩

theorem decodes_short {s out : Bytes} (h : Decodes s out) : out.length ≤ s.length := by
  induction h <;> simp only [List.length_cons, List.length_nil] at * <;> omega

theorem cgiEncoded_cons {c : Byte} {s : Bytes} (h : CgiEncoded s) : CgiEncoded (c :: s) := by
  rcases h with h | ⟨p, h1, h2, q, v1, v2, rfl, d1, d2⟩
  · exact .inl (by simp [h])
  · exact .inr ⟨c :: p, h1, h2, q, v1, v2, rfl, d1, d2⟩

theorem decodes_same_iff {s out : Bytes} (h : Decodes s out) : out = s ↔ ¬ CgiEncoded s := by
  induction h with
  | nil =>
    refine ⟨fun _ h => ?_, fun _ => rfl⟩
    rcases h with h | ⟨p, _, _, _, _, _, h, _⟩
    · cases h
    · cases p <;> cases h
  | esc h1 h2 v1 v2 rest out d1 d2 hd ih =>
    constructor
    · intro h
      have := decodes_short hd
      have := congrArg List.length h
      simp only [List.length_cons] at this
      omega
    · intro h
      exact absurd (.inr ⟨[], h1, h2, rest, v1, v2, rfl, d1, d2⟩) h
  | plus rest out hd ih => exact ⟨fun h => (by cases h), fun h => absurd (.inl (by simp)) h⟩
  | self c rest out hq hp hd ih =>
    constructor
    · intro h he
      have h := (List.cons.inj h).2
      rw [ih] at h
      refine h ?_
      rcases he with he | ⟨p, h1, h2, q, v1, v2, he, d1, d2⟩
      · rcases List.mem_cons.mp he with rfl | he
        · exact absurd rfl hq
        · exact .inl he
      · cases p with
        | nil =>
          cases he
          exact absurd ⟨h1, h2, q, v1, v2, rfl, d1, d2⟩ (hp rfl)
        | cons x p =>
          cases he
          exact .inr ⟨p, h1, h2, q, v1, v2, rfl, d1, d2⟩
    · intro h
      rw [ih.mpr fun h' => h (cgiEncoded_cons h')]

theorem cstr_length_le (s : Bytes) : (cstr s).length ≤ s.length := by
  unfold cstr
  exact (List.takeWhile_sublist _).length_le

theorem uncgi_same_iff (P : Platform) (hP : P.Benign) (s : Bytes) (hs : NulFree s) : cleanUncgi P s = .ok s ↔ ¬ CgiEncoded s := by
  obtain ⟨out, h1, h2⟩ := cleanUncgi_decodes (P := P) (s := s) (.inl hP.1)
  rw [h2, ← decodes_same_iff h1]
  constructor
  · intro h
    have h := Res.ok.inj h
    have h3 := cstr_length_le out
    have h4 := decodes_short h1
    rw [← h]
    unfold cstr at h h3 ⊢
    have : (List.takeWhile (fun c => c ≠ 0) out).length = out.length := by rw [h] at h3 ⊢; omega
    exact ((List.takeWhile_sublist _).eq_of_length this).symm
  · rintro rfl
    rw [cstr_of_nulFree hs]

/-- **C92.** `uncgi-only` leaves alone exactly the names without a `+` or a `%` with two hexadecimal digits after it. -/
theorem C92_uncgi_only_leaves_alone (P : Platform) (hP : P.Benign) (E : TableEnv) (s : Bytes) (hs : NulFree s) :
    runBuiltin P E (some (lit "uncgi-only")) s = .ok (some s) ↔ ¬ CgiEncoded s := by
  rw [runBuiltin_eq P E _ _ [uncgiF] (by simp [builtinFilters]), ← uncgi_same_iff P hP s hs]
  show ((cleanUncgi P s >>= fun r => pure (some r)) >>= fun h => runFilters P [] h) = _ ↔ _
  cases cleanUncgi P s with
  | ok r => exact ⟨fun h => by rw [Option.some.inj (Res.ok.inj h)], fun h => by rw [Res.ok.inj h]; rfl⟩
  | exit n => exact ⟨fun h => (by cases h), fun h => (by cases h)⟩
  | ub u => exact ⟨fun h => (by cases h), fun h => (by cases h)⟩
  | stuck => exact ⟨fun h => (by cases h), fun h => (by cases h)⟩

/-- **C92.** Of ASCII names, `iso8859_1`, `iso8859_1-legacy` and `utf_8` leave alone exactly the tidy ones, too. -/
theorem C92_ascii_names (P : Platform) (E : TableEnv) (name : Bytes) (hname : name ∈ [lit "iso8859_1", lit "iso8859_1-legacy", lit "utf_8"])
    (s : Bytes) (hs : NulFree s) (ha : ∀ c ∈ s, c.toNat < 128) : runBuiltin P E (some name) s = .ok (some s) ↔ Tidy s := by
  have h1 : ∀ c : Byte, c.toNat < 128 → latin1 c = [c] := forall_byte (by decide +kernel)
  have h2 : ∀ c : Byte, c.toNat < 128 → cp1252Fn c = [c] := forall_byte (by decide +kernel)
  have id : ∀ {f : Byte → Bytes}, (∀ c : Byte, c.toNat < 128 → f c = [c]) → s.flatMap f = s := by
    intro f hf
    clear hs
    induction s with
    | nil => rfl
    | cons c s ih =>
      rw [List.flatMap_cons, hf c (ha c (by simp)), ih fun d hd => ha d (by simp [hd])]
      rfl
  have key : safeWipe s = s ↔ Tidy s := ⟨fun h => h ▸ safeWipe_is_tidy hs, safeWipe_tidy⟩
  rw [← key]
  simp only [List.mem_cons, List.not_mem_nil, or_false] at hname
  rcases hname with rfl | rfl | rfl
  · rw [run_iso_seq P E s hs, id h1]
    exact ⟨fun h => Option.some.inj (Res.ok.inj h), fun h => by rw [h]⟩
  · rw [run_legacy P E s hs, id h2, id h1]
    exact ⟨fun h => Option.some.inj (Res.ok.inj h), fun h => by rw [h]⟩
  · constructor
    · intro h
      rw [runBuiltin_eq P E _ _ [utf8F, safeF, wipeF] (by simp [builtinFilters]), runFilters_utf8] at h
      cases hu : cleanUtf8 (some load_builtin_unicode_table) s with
      | exit n => rw [hu] at h; cases h
      | ub u => rw [hu] at h; cases h
      | stuck => rw [hu] at h; cases h
      | ok r =>
        rw [hu] at h
        simp only [Res.bind_ok] at h
        have hr : NulFree r := by
          rw [cleanUtf8_some unicode_table_ascii hu]
          exact (utf8Fn_units unicode_table_ascii s).nulFree fun _ _ h => h.1
        rw [run_safe_wipe P r hr] at h
        exact safeWipe_tidy (Option.some.inj (Res.ok.inj h) ▸ safeWipe_is_tidy hr)
    · intro h
      have ht : Tidy s := key.mp h
      have hf : Units (fun u v => fixUnit load_builtin_unicode_table u v ∧ v ≠ 0) s := by
        refine units_ascii fun c hc => ?_
        have low : ∀ c : Byte, hostile c = false → c.toNat < 128 → 0x20 ≤ c.toNat ∧ c.toNat < 0x7F := forall_byte (by decide +kernel)
        have := low c ((tidy_iff.mp ht).1 c hc) (ha c hc)
        exact ⟨ha c hc, fixUnit_printable this.1 this.2, by omega⟩
      rw [runBuiltin_eq P E _ _ [utf8F, safeF, wipeF] (by simp [builtinFilters]), runFilters_utf8, cleanUtf8_fixed hf]
      simp only [Res.bind_ok]
      rw [run_safe_wipe P s hs, h]

/-- **C92.** A tidy name without `+` and without a `%` with two hexadecimal digits after it is left alone by `uncgi`. -/
theorem C92_uncgi_leaves_alone (P : Platform) (hP : P.Benign) (E : TableEnv) (s : Bytes) (ht : Tidy s) (hc : ¬ CgiEncoded s) :
    runBuiltin P E (some (lit "uncgi")) s = .ok (some s) := by
  have hs := tidy_nulFree ht
  have hr : filterRun P uncgiF (some s) = .ok (some s) := by
    show (cleanUncgi P s >>= fun r => pure (some r)) = _
    rw [(uncgi_same_iff P hP s hs).mpr hc]
    rfl
  rw [runBuiltin_eq P E _ _ [uncgiF, safeF, wipeF] (by simp [builtinFilters]), runFilters_cons hr, run_safe_wipe P s hs, safeWipe_tidy ht]

/- Non-vacuous. -/
example : Tidy (lit "a-b.d+%z") := tidy_iff.mpr ⟨by decide +kernel, by decide +kernel,
  by decide, by decide, by decide, by decide, by decide, by decide, by decide, trivial⟩
example : ¬ Tidy (lit "a_-b") := fun h => h.apart (lit "a") 0x5F 0x2D (lit "b") rfl (by decide)

/-! ### Done after one run, or not -/

/-- **C92.** With five of the sequences a second run changes nothing. -/
theorem C92_done_after_one_run (P : Platform) (hP : P.Benign) (E : TableEnv) (name : Bytes)
    (hname : name ∈ [lit "default", lit "utf_8", lit "lower", lit "utf_8-only", lit "lower-only"]) (s out : Bytes) (hs : NulFree s)
    (h : runBuiltin P E (some name) s = .ok (some out)) : runBuiltin P E (some name) out = .ok (some out) := by
  simp only [List.mem_cons, List.not_mem_nil, or_false] at hname
  rcases hname with rfl | rfl | rfl | rfl | rfl
  · rw [runBuiltin_asked (.inr rfl)] at h ⊢
    exact C02_default_idempotent P E s out hs h
  · exact C14_utf8_sequence_idempotent P E s out h
  · have hn := nulFree_wipe (rt := true) (nulFree_map_lower (nulFree_safe hs))
    rw [run_lower_seq P hP E s hs] at h
    have h := Option.some.inj (Res.ok.inj h)
    subst h
    exact (C92_lower_leaves_alone P hP E _ hn).mpr (lower_seq_tidy hs)
  · rw [runBuiltin_eq P E _ _ [utf8F] (by simp [builtinFilters]), runFilters_utf8] at h ⊢
    cases hu : cleanUtf8 (some load_builtin_unicode_table) s with
    | exit n => rw [hu] at h; cases h
    | ub u => rw [hu] at h; cases h
    | stuck => rw [hu] at h; cases h
    | ok r =>
      rw [hu] at h
      have h : r = out := Option.some.inj (Res.ok.inj h)
      subst h
      rw [C14_utf8_filter_idempotent s r hu]
      rfl
  · rw [run_lower_only P hP E s hs] at h
    have h := Option.some.inj (Res.ok.inj h)
    subst h
    rw [run_lower_only P hP E _ (nulFree_map_lower hs), List.map_map]
    congr 2
    exact List.map_congr_left fun c _ => toLowerC_idem c

/-- **C92.** With the other six there are names that change again: `é` in Latin-1 (twice converted), `€` in CP-1252, and `%2520`, `%2B`. -/
theorem C92_not_done_after_one_run (E : TableEnv) :
    (runBuiltin .linux E (some (lit "iso8859_1")) [0xE9] = .ok (some [0xC3, 0xA9]) ∧
     runBuiltin .linux E (some (lit "iso8859_1")) [0xC3, 0xA9] ≠ .ok (some [0xC3, 0xA9])) ∧
    (runBuiltin .linux E (some (lit "iso8859_1-legacy")) [0xE9] = .ok (some [0xC3, 0xA9]) ∧
     runBuiltin .linux E (some (lit "iso8859_1-legacy")) [0xC3, 0xA9] ≠ .ok (some [0xC3, 0xA9])) ∧
    (runBuiltin .linux E (some (lit "iso8859_1-only")) [0xE9] = .ok (some [0xC3, 0xA9]) ∧
     runBuiltin .linux E (some (lit "iso8859_1-only")) [0xC3, 0xA9] ≠ .ok (some [0xC3, 0xA9])) ∧
    (runBuiltin .linux E (some (lit "cp1252-only")) [0x80] = .ok (some [0xE2, 0x82, 0xAC]) ∧
     runBuiltin .linux E (some (lit "cp1252-only")) [0xE2, 0x82, 0xAC] ≠ .ok (some [0xE2, 0x82, 0xAC])) ∧
    (runBuiltin .linux E (some (lit "uncgi")) (lit "a%2Bb") = .ok (some (lit "a+b")) ∧
     runBuiltin .linux E (some (lit "uncgi")) (lit "a+b") ≠ .ok (some (lit "a+b"))) ∧
    (runBuiltin .linux E (some (lit "uncgi-only")) (lit "a%2520b") = .ok (some (lit "a%20b")) ∧
     runBuiltin .linux E (some (lit "uncgi-only")) (lit "a%20b") ≠ .ok (some (lit "a%20b"))) := by
  rw [runBuiltin_eq .linux E _ _ [isoF, safeF, wipeF] (by simp [builtinFilters]), runBuiltin_eq .linux E _ _ [isoF, safeF, wipeF] (by simp [builtinFilters]),
    runBuiltin_eq .linux E _ _ [cpF, isoF, safeF, wipeF] (by simp [builtinFilters]), runBuiltin_eq .linux E _ _ [cpF, isoF, safeF, wipeF] (by simp [builtinFilters]),
    runBuiltin_eq .linux E _ _ [isoF] (by simp [builtinFilters]), runBuiltin_eq .linux E _ _ [isoF] (by simp [builtinFilters]),
    runBuiltin_eq .linux E _ _ [cpF] (by simp [builtinFilters]), runBuiltin_eq .linux E _ _ [cpF] (by simp [builtinFilters]),
    runBuiltin_eq .linux E _ _ [uncgiF, safeF, wipeF] (by simp [builtinFilters]), runBuiltin_eq .linux E _ _ [uncgiF, safeF, wipeF] (by simp [builtinFilters]),
    runBuiltin_eq .linux E _ _ [uncgiF] (by simp [builtinFilters]), runBuiltin_eq .linux E _ _ [uncgiF] (by simp [builtinFilters])]
  decide +kernel

/-! ### The whole program -/

/-- **C92.** Plain `detox` with nothing configured: whatever it renames had an untidy name, and is given a tidy one. So no tidy name is ever changed, and
no later run changes a name that was given by an earlier one. -/
theorem C92_only_untidy_names_are_changed {P : Platform} {I : Invocation} {fuel : Nat} {ss : List Setting} {ws : List Bytes}
    (hc : CommandLine I.posixlyCorrect I.args ss ws) {tr : List Event} {out : Outcome Unit} (h : Trace (detoxMain P I fuel) tr out)
    (hu : Unconfigured I ss tr) (hn : requested I ss = none ∨ requested I ss = some (lit "default"))
    (old new : Bytes) (ok : Bool) (hmem : Event.rename old new ok ∈ tr) (hold : NulFree old) :
    ∃ dir name cleaned, SplitsAs old dir name ∧ SplitsAs new dir cleaned ∧ ¬ Tidy name ∧ Tidy cleaned := by
  obtain ⟨dir, name, cleaned, a, rfl, c', d⟩ := C70_builtin_renames hc h hu old new ok hmem
  have hnn : NulFree name := fun hm => hold (by rw [a.1]; exact List.mem_append_right _ hm)
  have d := d ⟨fun _ => none, none⟩
  rw [runBuiltin_asked hn] at d
  have ht := C92_default_makes_tidy P _ name cleaned hnn d
  refine ⟨dir, name, cleaned, a, ⟨rfl, fun hm => ht.safe _ hm (.inr (.inr ⟨'/', by decide, by decide⟩)), a.2.2⟩, fun hy => ?_, ht⟩
  rw [(C92_default_leaves_alone P _ name hnn).mpr hy] at d
  exact c' (Option.some.inj (Res.ok.inj d)).symm

end Detox
