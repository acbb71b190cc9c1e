import Verif.Lemmas.Sequences
import Verif.Lemmas.Wipeup

/-!
# The built-in filters as total functions
-/

set_option autoImplicit false

namespace Detox

open Spec

/-- The built-in safe table on one byte. -/
def safeMap (c : Byte) : Bytes := (lastRow builtin_safe_rows c.toNat).getD [c]

theorem safe_keys : ∀ r ∈ builtin_safe_rows, r.key ≤ 127 := by decide +kernel

theorem safeSub_builtin (P : Platform) (c : Byte) : safeSub P load_builtin_safe_table c = safeMap c := by
  unfold safeSub safeMap
  rw [safe_get, safe_default]
  have hk : lastRow builtin_safe_rows (P.charToUInt c) = lastRow builtin_safe_rows c.toNat := by
    unfold Platform.charToUInt
    split
    · rename_i h
      simp only [Bool.and_eq_true, decide_eq_true_eq] at h
      rw [lastRow_none_of_lt safe_keys (by omega), lastRow_none_of_lt safe_keys (by omega)]
    · rfl
  rw [hk]
  cases lastRow builtin_safe_rows c.toNat <;> rfl

/-- A `decide`-friendly summary of what `safeMap` does to each byte. -/
theorem safeMap_facts (c : Byte) :
    (safeMap c).length ≤ 5 ∧ (c ≠ 0 → NulFree (safeMap c)) ∧
    (∀ d ∈ safeMap c, safeMap d = [d]) ∧
    (128 ≤ c.toNat → safeMap c = [c]) ∧ (c.toNat < 128 → ∀ d ∈ safeMap c, d.toNat < 128) ∧
    safeMap c ≠ [] := by
  revert c
  exact forall_byte (by decide +kernel)

theorem flatMap_congr_byte {f g : Byte → Bytes} (h : ∀ c, f c = g c) (s : Bytes) : s.flatMap f = s.flatMap g := by
  rw [show f = g from funext h]

theorem run_safeF (P : Platform) (s : Bytes) (hs : NulFree s) :
    filterRun P safeF (some s) = .ok (some (s.flatMap safeMap)) := by
  show (cleanSafe P (some load_builtin_safe_table) s >>= fun r => pure (some r)) = _
  rw [cleanSafe_eq, flatMap_congr_byte (safeSub_builtin P), emit_eq, safe_max, if_pos, cstr_of_nulFree]
  · rfl
  · exact nulFree_flatMap (fun c hc => (safeMap_facts c).2.1 (fun h0 => hs (h0 ▸ hc)))
  · have := flatMap_length_le (fun c => (safeMap_facts c).1) s
    omega

theorem nulFree_safe {s : Bytes} (hs : NulFree s) : NulFree (s.flatMap safeMap) :=
  nulFree_flatMap (fun c hc => (safeMap_facts c).2.1 (fun h0 => hs (h0 ▸ hc)))

/-- The reduction computed by `wipeup`. -/
def wipe (rt : Bool) (s : Bytes) : Bytes := wipeOut (wipeSearch rt) none (wipeLead s)

theorem run_wipeF (P : Platform) (s : Bytes) (hs : NulFree s) :
    filterRun P wipeF (some s) = .ok (some (wipe true s)) := by
  show (cleanWipeup true s >>= fun r => pure (some r)) = _
  rw [(cleanWipeup_ok true s hs).1]
  rfl

theorem nulFree_wipe {rt : Bool} {s : Bytes} (hs : NulFree s) : NulFree (wipe rt s) := (cleanWipeup_ok rt s hs).2.2

theorem wipe_spec {rt : Bool} {s : Bytes} (hs : NulFree s) : IsWipeup rt s (wipe rt s) := (cleanWipeup_ok rt s hs).2.1

theorem wipe_mem {rt : Bool} {s : Bytes} (hs : NulFree s) : ∀ c ∈ wipe rt s, c ∈ s := by
  intro c hc
  exact (List.dropWhile_sublist leading).subset (Reduces.mem (wipe_spec hs) c hc)

/-- One step of `sequence_run_filters`. -/
theorem runFilters_cons {P : Platform} {f : Filter} {fs : List Filter} {s r : Bytes}
    (h : filterRun P f (some s) = .ok (some r)) :
    runFilters P (f :: fs) (some s) = runFilters P fs (some r) := by
  unfold runFilters
  rw [h]
  simp only [Res.bind_ok]
  cases fs <;> rfl

/-- The tail shared by most built-in sequences: safe, then wipeup with remove_trailing. -/
def safeWipe (s : Bytes) : Bytes := wipe true (s.flatMap safeMap)

theorem run_safe_wipe (P : Platform) (s : Bytes) (hs : NulFree s) :
    runFilters P [safeF, wipeF] (some s) = .ok (some (safeWipe s)) := by
  rw [runFilters_cons (run_safeF P s hs), runFilters_cons (run_wipeF P _ (nulFree_safe hs))]
  rfl

theorem nulFree_safeWipe {s : Bytes} (hs : NulFree s) : NulFree (safeWipe s) := nulFree_wipe (nulFree_safe hs)

end Detox
