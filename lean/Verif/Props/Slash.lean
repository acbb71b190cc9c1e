import Verif.Props.Safety

/-!
# C19: which built-in sequences can create a `/`
-/

set_option autoImplicit false

namespace Detox

open Spec

theorem hostile_slash : hostile 0x2F = true := by decide +kernel

theorem safeWipe_slash {s : Bytes} (hs : NulFree s) : (0x2F : Byte) ∉ safeWipe s := fun h =>
  absurd (safeWipe_clean hs _ h) (by rw [hostile_slash]; simp)

theorem flatMap_slash {f : Byte → Bytes} {s : Bytes} (h : ∀ c ∈ s, (0x2F : Byte) ∉ f c) : (0x2F : Byte) ∉ s.flatMap f := by
  intro hm
  obtain ⟨c, hc, hm⟩ := List.mem_flatMap.mp hm
  exact h c hc hm

theorem run_lowerF (P : Platform) (hP : P.Benign) (s : Bytes) (hs : NulFree s) :
    filterRun P lowerF (some s) = .ok (some (s.map toLowerC)) := by
  show (cleanLower P s >>= fun r => pure (some r)) = _
  rw [cleanLower_ok hs (Or.inl hP.1)]
  rfl

theorem toLowerC_slash : ∀ c : Byte, c ≠ 0x2F → toLowerC c ≠ 0x2F := forall_byte (by decide +kernel)

theorem map_lower_slash {s : Bytes} (h : (0x2F : Byte) ∉ s) : (0x2F : Byte) ∉ s.map toLowerC := by
  intro hm
  obtain ⟨c, hc, he⟩ := List.mem_map.mp hm
  exact toLowerC_slash c (fun h' => h (h' ▸ hc)) he

/-- **C19.** Nine of the eleven built-in sequences never produce a `/` from a name without one. -/
theorem C19_no_slash (P : Platform) (hP : P.Benign) (E : TableEnv) (name : Bytes)
    (hname : name ∈ [lit "default", lit "iso8859_1", lit "iso8859_1-legacy", lit "utf_8", lit "uncgi", lit "lower",
      lit "iso8859_1-only", lit "cp1252-only", lit "lower-only"])
    (s out : Bytes) (hs : NulFree s) (hslash : (0x2F : Byte) ∉ s)
    (h : runBuiltin P E (some name) s = .ok (some out)) : (0x2F : Byte) ∉ out := by
  have done : ∀ {r : Bytes}, NulFree r → runFilters P [safeF, wipeF] (some r) = .ok (some out) → (0x2F : Byte) ∉ out := by
    intro r hr h
    rw [run_safe_wipe P r hr] at h
    injection h with h
    injection h with h
    subst h
    exact safeWipe_slash hr
  simp only [List.mem_cons, List.not_mem_nil, or_false] at hname
  rcases hname with rfl | rfl | rfl | rfl | rfl | rfl | rfl | rfl | rfl
  · rw [runBuiltin_eq P E _ _ [safeF, wipeF] (by simp [builtinFilters])] at h
    exact done hs h
  · rw [runBuiltin_eq P E _ _ [isoF, safeF, wipeF] (by simp [builtinFilters]), runFilters_cons (run_isoF P s hs)] at h
    exact done (nulFree_latin1 hs) h
  · rw [runBuiltin_eq P E _ _ [cpF, isoF, safeF, wipeF] (by simp [builtinFilters]),
      runFilters_cons (run_cpF P s hs), runFilters_cons (run_isoF P _ (nulFree_cp1252 hs))] at h
    exact done (nulFree_latin1 (nulFree_cp1252 hs)) h
  · rw [runBuiltin_eq P E _ _ [utf8F, safeF, wipeF] (by simp [builtinFilters]), runFilters_utf8] at h
    cases hu : cleanUtf8 (some load_builtin_unicode_table) s with
    | exit n => rw [hu] at h; cases h
    | ub u => rw [hu] at h; cases h
    | stuck => rw [hu] at h; cases h
    | ok r =>
      rw [hu] at h
      simp only [Res.bind_ok] at h
      refine done ?_ h
      rw [cleanUtf8_some unicode_table_ascii hu]
      exact (utf8Fn_units unicode_table_ascii s).nulFree fun _ _ h => h.1
  · rw [runBuiltin_eq P E _ _ [uncgiF, safeF, wipeF] (by simp [builtinFilters])] at h
    obtain ⟨r, hr, hnf⟩ := filterRun_ready hP (f := uncgiF) trivial hs
    rw [runFilters_cons hr] at h
    exact done hnf h
  · rw [runBuiltin_eq P E _ _ [safeF, lowerF, wipeF] (by simp [builtinFilters]), runFilters_cons (run_safeF P s hs),
      runFilters_cons (run_lowerF P hP _ (nulFree_safe hs)),
      runFilters_cons (run_wipeF P _ (nulFree_map_lower (nulFree_safe hs)))] at h
    injection h with h
    injection h with h
    subst h
    intro hm
    have hm := wipe_mem (nulFree_map_lower (nulFree_safe hs)) _ hm
    refine map_lower_slash (flatMap_slash fun c hc hm' => ?_) hm
    exact absurd (safeMap_clean c _ hm' fun h0 => hs (h0 ▸ hc)) (by rw [hostile_slash]; simp)
  · rw [runBuiltin_eq P E _ _ [isoF] (by simp [builtinFilters]), runFilters_cons (run_isoF P s hs)] at h
    injection h with h
    injection h with h
    subst h
    exact flatMap_slash fun c hc => (latin1_facts c fun h0 => hs (h0 ▸ hc)).2.2.2 fun h' => hslash (h' ▸ hc)
  · rw [runBuiltin_eq P E _ _ [cpF] (by simp [builtinFilters]), runFilters_cons (run_cpF P s hs)] at h
    injection h with h
    injection h with h
    subst h
    exact flatMap_slash fun c hc => (cp1252_facts c).2.2 fun h' => hslash (h' ▸ hc)
  · rw [runBuiltin_eq P E _ _ [lowerF] (by simp [builtinFilters]), runFilters_cons (run_lowerF P hP s hs)] at h
    injection h with h
    injection h with h
    subst h
    exact map_lower_slash hslash

/- Non-vacuous: `uncgi` on `..%2F..`. -/
example : runBuiltin .linux ⟨fun _ => none, none⟩ (some (lit "uncgi")) (lit "..%2F..a") = .ok (some (lit ".a")) := by
  decide +kernel

/-- **C19**, the other two can: `%2F` and the overlong `C0 AF`. -/
theorem C19_slash_from_uncgi_only_and_utf8_only (E : TableEnv) :
    runBuiltin .linux E (some (lit "uncgi-only")) (lit "..%2Fx") = .ok (some (lit "../x")) ∧
    runBuiltin .linux E (some (lit "utf_8-only")) (lit ".." ++ [0xC0, 0xAF] ++ lit "x") = .ok (some (lit "../x")) := by
  constructor
  · rw [runBuiltin_eq .linux E _ _ [uncgiF] (by simp [builtinFilters])]
    decide +kernel
  · rw [runBuiltin_eq .linux E _ _ [utf8F] (by simp [builtinFilters])]
    decide +kernel

end Detox
