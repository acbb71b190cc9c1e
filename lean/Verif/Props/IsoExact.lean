import Verif.Props.Iso
import Verif.Props.Default

/-!
# C16: exactly which names `iso8859_1-legacy` converts correctly
-/

set_option autoImplicit false

namespace Detox

open Spec

/-- What etc/detoxrc promises for one byte: CP-1252 in 0x80–0x9F, Latin-1 elsewhere. -/
def cpLatin (c : Byte) : Bytes :=
  if 0x80 ≤ c.toNat ∧ c.toNat ≤ 0x9F then cp1252Fn c else latin1 c

/-- An assigned character of the CP-1252 range. -/
def cpAssigned (c : Byte) : Bool :=
  0x80 ≤ c.toNat && c.toNat ≤ 0x9F && (cp1252.getD (c.toNat - 0x80) none).isSome

theorem cpLatin_facts : ∀ c : Byte, (c ≠ 0 → NulFree (cpLatin c)) ∧
    (cpAssigned c = false → (cp1252Fn c).flatMap latin1 = cpLatin c) ∧
    (cpAssigned c = true → ∃ d ∈ cpLatin c, 0xC4 ≤ d.toNat) :=
  forall_byte (by decide +kernel)

theorem latin1_low : ∀ c : Byte, c ≠ 0 → ∀ d ∈ latin1 c, d.toNat < 0xC4 :=
  forall_byte (by decide +kernel)

theorem nulFree_cpLatin {s : Bytes} (hs : NulFree s) : NulFree (s.flatMap cpLatin) :=
  nulFree_flatMap fun c hc => (cpLatin_facts c).1 (fun h0 => hs (h0 ▸ hc))

theorem safeWipe_filter_high {s : Bytes} (hs : NulFree s) :
    (safeWipe s).filter (fun c => decide (128 ≤ c.toNat)) = s.filter (fun c => decide (128 ≤ c.toNat)) := by
  unfold safeWipe
  rw [wipe_filter_high (nulFree_safe hs), filter_flatMap_safe]

/-- **C16, the exact condition (partial).** `iso8859_1-legacy` gives what the default sequence makes of
the transcoded name exactly for the names without an assigned CP-1252 character: one such character
anywhere in the name, whatever surrounds it, spoils the result. Missing: the claim as it stands, false
by `C16_legacy_is_wrong_for_cp1252`. -/
theorem C16_legacy_right_iff_partial (P : Platform) (E : TableEnv) (s : Bytes) (hs : NulFree s) :
    runBuiltin P E (some (lit "iso8859_1-legacy")) s = runBuiltin P E none (s.flatMap cpLatin) ↔
      ∀ c ∈ s, cpAssigned c = false := by
  rw [run_legacy P E s hs, runBuiltin_none, run_safe_wipe P _ (nulFree_cpLatin hs)]
  constructor
  · intro h c hc
    have h1 := Option.some.inj (Res.ok.inj h)
    cases ha : cpAssigned c with
    | false => rfl
    | true =>
      exfalso
      obtain ⟨d, hd, hd4⟩ := (cpLatin_facts c).2.2 ha
      have h2 := congrArg (List.filter (fun c : Byte => decide (128 ≤ c.toNat))) h1
      rw [safeWipe_filter_high (nulFree_latin1 (nulFree_cp1252 hs)), safeWipe_filter_high (nulFree_cpLatin hs)] at h2
      have h3 : d ∈ List.filter (fun c : Byte => decide (128 ≤ c.toNat)) (s.flatMap cpLatin) :=
        List.mem_filter.mpr ⟨List.mem_flatMap.mpr ⟨c, hc, hd⟩, by simp; omega⟩
      rw [← h2] at h3
      obtain ⟨e, he, hde⟩ := List.mem_flatMap.mp (List.mem_filter.mp h3).1
      have h0 : e ≠ 0 := fun h0 => nulFree_cp1252 hs (h0 ▸ he)
      have := latin1_low e h0 d hde
      omega
  · intro h
    have : (s.flatMap cp1252Fn).flatMap latin1 = s.flatMap cpLatin := by
      clear hs
      induction s with
      | nil => rfl
      | cons c s ih =>
        rw [List.flatMap_cons, List.flatMap_append, List.flatMap_cons, ih fun x hx => h x (by simp [hx]),
          (cpLatin_facts c).2.1 (h c (by simp))]
    rw [this]

/- Both sides occur: `Müller` with an unassigned 0x81 is right, a quotation mark is not. -/
example : ∀ c ∈ ([0x4D, 0xFC, 0x6C, 0x81] : Bytes), cpAssigned c = false := by decide +kernel
example : runBuiltin .linux ⟨fun _ => none, none⟩ none ([0x4D, 0xFC, 0x6C, 0x81, 0x6C].flatMap cpLatin) =
    .ok (some [0x4D, 0xC3, 0xBC, 0x6C, 0x2D, 0x6C]) := by decide +kernel
example : cpAssigned 0x93 = true ∧ cpLatin 0x93 = [0xE2, 0x80, 0x9C] := by decide +kernel

end Detox
