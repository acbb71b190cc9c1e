import Verif.Lemmas.Filters
import Verif.Props.Wipeup

/-!
# C01–C03: the built-in default sequence
-/

set_option autoImplicit false

namespace Detox

open Spec

/-- Control characters, DEL, space, and ``! " $ & ' ( ) * / : ; < > ? @ [ \ ] ` { | }``. -/
def hostile (c : Byte) : Bool :=
  c.toNat ≤ 0x20 || c.toNat = 0x7F || "!\"$&'()*/:;<>?@[\\]`{|}".toList.any (fun x => c.toNat = x.toNat)

theorem safeMap_clean (c : Byte) : ∀ d ∈ safeMap c, c ≠ 0 → hostile d = false := by
  revert c
  exact forall_byte (by decide +kernel)

theorem safeMap_fixed (c : Byte) : hostile c = false → safeMap c = [c] := by
  revert c
  exact forall_byte (by decide +kernel)

theorem safeWipe_clean {s : Bytes} (hs : NulFree s) : ∀ c ∈ safeWipe s, hostile c = false := by
  intro c hc
  obtain ⟨d, hd, hc'⟩ := List.mem_flatMap.mp (wipe_mem (nulFree_safe hs) c hc)
  exact safeMap_clean d c hc' (fun h0 => hs (h0 ▸ hd))

theorem flatMap_safe_fixed {s : Bytes} (h : ∀ c ∈ s, hostile c = false) : s.flatMap safeMap = s := by
  induction s with
  | nil => rfl
  | cons c s ih =>
    rw [List.flatMap_cons, safeMap_fixed c (h c (by simp)), ih (fun x hx => h x (by simp [hx]))]
    rfl

theorem wipe_idem {rt : Bool} {s : Bytes} (hs : NulFree s) : wipe rt (wipe rt s) = wipe rt s := by
  have h1 := (cleanWipeup_ok rt s hs).1
  have h2 := (C05_wipeup_normal_and_idempotent rt s _ hs h1).2.2.2.2
  have h3 := (cleanWipeup_ok rt (wipe rt s) (nulFree_wipe hs)).1
  have h4 : cleanWipeup rt (wipe rt s) = .ok (wipe rt s) := h2
  rw [h4] at h3
  injection h3 with h3
  exact h3.symm

theorem safeWipe_idem {s : Bytes} (hs : NulFree s) : safeWipe (safeWipe s) = safeWipe s := by
  have h : (safeWipe s).flatMap safeMap = safeWipe s := flatMap_safe_fixed (safeWipe_clean hs)
  rw [show safeWipe (safeWipe s) = wipe true ((safeWipe s).flatMap safeMap) from rfl, h]
  exact wipe_idem (nulFree_safe hs)

/-- **C01.** Whatever the name and whatever table files lie around, the built-in default sequence
returns a name, without any shell-hostile character. -/
theorem C01_default_output_has_no_hostile_character (P : Platform) (E : TableEnv) (s : Bytes) (hs : NulFree s) :
    ∃ out, runBuiltin P E none s = .ok (some out) ∧ ∀ c ∈ out, hostile c = false :=
  ⟨safeWipe s, run_safe_wipe P s hs, safeWipe_clean hs⟩

/- Non-vacuous. -/
example : runBuiltin .linux ⟨fun _ => none, none⟩ none (lit "a &(b)\t*.txt") = .ok (some (lit "a_and-b.txt")) := by
  decide +kernel
example : hostile 0x26 = true ∧ hostile 0x41 = false ∧ hostile 0xC3 = false := by decide +kernel

/-- **C02.** Running the default sequence on its own output changes nothing. -/
theorem C02_default_idempotent (P : Platform) (E : TableEnv) (s out : Bytes) (hs : NulFree s)
    (h : runBuiltin P E none s = .ok (some out)) : runBuiltin P E none out = .ok (some out) := by
  rw [runBuiltin_none, run_safe_wipe P s hs] at h
  injection h with h
  injection h with h
  subst h
  rw [runBuiltin_none, run_safe_wipe P _ (nulFree_safeWipe hs), safeWipe_idem hs]

example : runBuiltin .linux ⟨fun _ => none, none⟩ none (lit "a_and-b.txt") = .ok (some (lit "a_and-b.txt")) := by
  decide +kernel

theorem filter_flatMap_safe (s : Bytes) :
    (s.flatMap safeMap).filter (fun c => decide (128 ≤ c.toNat)) = s.filter (fun c => decide (128 ≤ c.toNat)) := by
  induction s with
  | nil => rfl
  | cons c s ih =>
    rw [List.flatMap_cons, List.filter_append, ih, List.filter_cons]
    obtain ⟨_, _, _, hhi, hlo, _⟩ := safeMap_facts c
    by_cases hc : 128 ≤ c.toNat
    · rw [hhi hc]
      simp [hc]
    · rw [if_neg (by simpa using hc)]
      have : (safeMap c).filter (fun c => decide (128 ≤ c.toNat)) = [] := by
        rw [List.filter_eq_nil_iff]
        intro d hd
        have := hlo (by omega) d hd
        simp; omega
      rw [this]; rfl

theorem wipe_filter_high {rt : Bool} {s : Bytes} (hs : NulFree s) :
    (wipe rt s).filter (fun c => decide (128 ≤ c.toNat)) = s.filter (fun c => decide (128 ≤ c.toNat)) := by
  have h1 := Reduces.filter (wipe_spec (rt := rt) hs) (fun c => decide (128 ≤ c.toNat)) (by
    intro c
    revert c
    cases rt
    · exact forall_byte (by decide +kernel)
    · exact forall_byte (by decide +kernel))
  rw [h1]
  have hlead : ∀ c, leading c = true → decide (128 ≤ c.toNat) = false := forall_byte (by decide +kernel)
  clear h1 hs
  induction s with
  | nil => rfl
  | cons c s ih =>
    cases hc : leading c with
    | true =>
      rw [List.dropWhile_cons_of_pos hc, ih, List.filter_cons, hlead c hc]
      rfl
    | false => rw [List.dropWhile_cons_of_neg (by simp [hc])]

/-- **C03.** On every platform the bytes `>= 0x80` of the name, in order, are untouched. -/
theorem C03_default_preserves_non_ascii (P : Platform) (E : TableEnv) (s out : Bytes) (hs : NulFree s)
    (h : runBuiltin P E none s = .ok (some out)) :
    out.filter (fun c => decide (128 ≤ c.toNat)) = s.filter (fun c => decide (128 ≤ c.toNat)) := by
  rw [runBuiltin_none, run_safe_wipe P s hs] at h
  injection h with h
  injection h with h
  subst h
  unfold safeWipe
  rw [wipe_filter_high (nulFree_safe hs), filter_flatMap_safe]

/- Non-vacuous: `é (1)` keeps C3 A9. -/
example : runBuiltin .linux ⟨fun _ => none, none⟩ none [0xC3, 0xA9, 0x20, 0x28, 0x31, 0x29] =
    .ok (some [0xC3, 0xA9, 0x2D, 0x31, 0x2D]) := by decide +kernel

end Detox
