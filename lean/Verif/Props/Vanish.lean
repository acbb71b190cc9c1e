import Verif.Props.Default
import Verif.Props.Wipeup

/-!
# C134: names of which nothing is left, and names that get hidden

Of `___` the default sequence leaves nothing, of `-.-` a dot, and `_.profile` becomes `.profile`. Exactly which names these are.
-/

set_option autoImplicit false

namespace Detox
namespace Spec

/-- The characters that vanish at the front of a name: control characters, blank, DEL, and the punctuation that is, or is replaced by, `-`, `_` or `#`. -/
def vanishing (c : Byte) : Bool := (1 ≤ c.toNat && c.toNat ≤ 0x20) || c = 0x7F || (lit "!\"#$'()*-/:;<>?@[\\]_`{|}").contains c

/-- The characters that are swallowed by a dot beside them: the same but for `#`, and dots. -/
def swallowed (c : Byte) : Bool := c = 0x2E || (vanishing c && c ≠ 0x23)

end Spec
open Spec

theorem vanishing_iff : ∀ c : Byte, vanishing c = true ↔ ∀ x ∈ safeMap c, leading x = true := forall_byte (by decide +kernel)
theorem swallowed_iff : ∀ c : Byte, swallowed c = true ↔ ∀ x ∈ safeMap c, reducible true x = true := forall_byte (by decide +kernel)

/-- What is left of the front of a name. -/
theorem front_left (s : Bytes) : ((s.flatMap safeMap).dropWhile leading = [] ↔ ∀ c ∈ s, vanishing c = true) ∧
    (((s.flatMap safeMap).dropWhile leading).head? = some 0x2E ↔ (s.dropWhile vanishing).head? = some 0x2E) ∧
    ((s.dropWhile vanishing).head? = some 0x2E → (s.flatMap safeMap).dropWhile leading = (s.dropWhile vanishing).flatMap safeMap) := by
  have one : ∀ c : Byte, vanishing c = true → ∃ x, safeMap c = [x] ∧ leading x = true := by
    have h : ∀ c : Byte, vanishing c = true → (safeMap c).length = 1 := forall_byte (by decide +kernel)
    intro c hc
    obtain ⟨x, hx⟩ := List.length_eq_one_iff.1 (h c hc)
    exact ⟨x, hx, (vanishing_iff c).1 hc x (by rw [hx]; simp)⟩
  have stay : ∀ c : Byte, vanishing c = false → ((safeMap c).dropWhile leading) ≠ [] ∧
      (((safeMap c).dropWhile leading).head? = some 0x2E ↔ c = 0x2E) := forall_byte (by decide +kernel)
  induction s with
  | nil => simp
  | cons c s ih =>
    cases hc : vanishing c with
    | true =>
      obtain ⟨x, hx, hl⟩ := one c hc
      rw [List.flatMap_cons, hx, List.singleton_append, List.dropWhile_cons_of_pos hl, List.dropWhile_cons_of_pos hc]
      refine ⟨ih.1.trans ?_, ih.2⟩
      simp [hc]
    | false =>
      obtain ⟨h1, h2⟩ := stay c hc
      have e : ((c :: s).flatMap safeMap).dropWhile leading = (safeMap c).dropWhile leading ++ s.flatMap safeMap := by
        rw [List.flatMap_cons, List.dropWhile_append, if_neg (by simpa using h1)]
      rw [e, List.dropWhile_cons_of_neg (by simp [hc])]
      cases hd : (safeMap c).dropWhile leading with
      | nil => exact absurd hd h1
      | cons x t =>
        rw [hd] at h2
        refine ⟨iff_of_false (by simp) fun h => by simp [h c (by simp)] at hc, by simpa using h2, fun h => ?_⟩
        obtain rfl : c = 0x2E := by simpa using h
        rw [← hd, List.flatMap_cons]
        rfl

theorem reduces_nil {rt : Bool} {u : Bytes} (h : Reduces rt u []) : u = [] := by cases h; rfl

theorem reduces_nil_left {rt : Bool} {o : Bytes} (h : Reduces rt [] o) : o = [] := by
  generalize hu : ([] : Bytes) = u at h
  cases h with
  | nil => rfl
  | keep => cases hu
  | run r _ _ hr => exact absurd (List.append_eq_nil_iff.1 hu.symm).1 hr

theorem reduces_head {u o : Bytes} (h : Reduces true u o) (hl : ∀ c, u.head? = some c → leading c = false) : o.head? = some 0x2E ↔ u.head? = some 0x2E := by
  have dot : ∀ c : Byte, reducible true c = true → leading c = false → c = 0x2E := forall_byte (by decide +kernel)
  cases h with
  | nil => rfl
  | keep c s o hc _ =>
    have : c ≠ 0x2E := by rintro rfl; exact absurd hc (by decide)
    simp [this]
  | run r s o hr hall _ _ =>
    cases r with
    | nil => exact absurd rfl hr
    | cons x r =>
      obtain rfl := dot x (hall x (by simp)) (hl x rfl)
      have : runChar (0x2E :: r) = 0x2E := if_pos (by simp)
      simp [this]

theorem reduces_dot {u : Bytes} : Reduces true u [0x2E] ↔ 0x2E ∈ u ∧ ∀ c ∈ u, reducible true c = true := by
  constructor
  · intro h
    generalize ho : ([0x2E] : Bytes) = o at h
    cases h with
    | nil => cases ho
    | keep c s o hc h =>
      cases ho
      exact absurd hc (by decide)
    | run r s o hr hall hh h =>
      obtain ⟨h1, rfl⟩ := List.cons.inj ho
      rw [reduces_nil h, List.append_nil]
      refine ⟨?_, hall⟩
      unfold runChar at h1
      split at h1
      · assumption
      · split at h1 <;> cases h1
  · rintro ⟨h1, h2⟩
    have := Reduces.run (rt := true) u [] [] (by rintro rfl; cases h1) h2 nofun .nil
    rwa [List.append_nil, show runChar u = 0x2E from if_pos h1] at this

theorem reduces_dots {u : Bytes} : ¬ Reduces true u [0x2E, 0x2E] := by
  intro h
  generalize ho : ([0x2E, 0x2E] : Bytes) = o at h
  cases h with
  | nil => cases ho
  | keep c s o hc h => cases ho; exact absurd hc (by decide)
  | run r s o hr hall hh h =>
    obtain ⟨_, rfl⟩ := List.cons.inj ho
    obtain ⟨h1, h2⟩ := reduces_dot.1 h
    cases s with
    | nil => cases h1
    | cons c s => exact absurd (hh c rfl) (by simp [h2 c (by simp)])

section
variable {P : Platform} {E : TableEnv} {s out : Bytes}

theorem default_reduces (hs : NulFree s) (h : runBuiltin P E none s = .ok (some out)) : Reduces true ((s.flatMap safeMap).dropWhile leading) out := by
  rw [runBuiltin_none, run_safe_wipe P s hs] at h
  rw [← Option.some.inj (Res.ok.inj h)]
  exact wipe_spec (nulFree_safe hs)

theorem front_clear (s : Bytes) : ∀ c, ((s.flatMap safeMap).dropWhile leading).head? = some c → leading c = false := by
  intro c hc
  have := List.head?_dropWhile_not leading (s.flatMap safeMap)
  rw [hc] at this
  simpa using this

/-- **C134.** The default sequence makes an empty name exactly of those names in which every character vanishes. -/
theorem C134_nothing_left (hs : NulFree s) (h : runBuiltin P E none s = .ok (some out)) : out = [] ↔ ∀ c ∈ s, vanishing c = true := by
  have hr := default_reduces hs h
  rw [← (front_left s).1]
  constructor
  · rintro rfl
    exact reduces_nil hr
  · intro he
    rw [he] at hr
    exact reduces_nil_left hr

/-- **C134.** It makes a name that is hidden exactly of those names that begin with a dot once the vanishing characters at the front are gone. -/
theorem C134_gets_hidden (hs : NulFree s) (h : runBuiltin P E none s = .ok (some out)) :
    out.head? = some 0x2E ↔ (s.dropWhile vanishing).head? = some 0x2E := by
  rw [reduces_head (default_reduces hs h) (front_clear s), (front_left s).2.1]

/-- **C134.** It makes `.` exactly of those names that, once the vanishing characters at the front are gone, begin with a dot and have nothing but what dots swallow. -/
theorem C134_only_a_dot (hs : NulFree s) (h : runBuiltin P E none s = .ok (some out)) :
    out = [0x2E] ↔ (s.dropWhile vanishing).head? = some 0x2E ∧ ∀ c ∈ s.dropWhile vanishing, swallowed c = true := by
  have hr := default_reduces hs h
  have flat : ∀ t : Bytes, (∀ x ∈ t.flatMap safeMap, reducible true x = true) ↔ ∀ c ∈ t, swallowed c = true := by
    intro t
    simp only [List.mem_flatMap, swallowed_iff]
    exact ⟨fun h c hc x hx => h x ⟨c, hc, hx⟩, fun h x ⟨c, hc, hx⟩ => h c hc x hx⟩
  constructor
  · rintro rfl
    have hd := (C134_gets_hidden hs h).1 rfl
    refine ⟨hd, (flat _).1 ?_⟩
    rw [← (front_left s).2.2 hd]
    exact (reduces_dot.1 hr).2
  · rintro ⟨hd, hall⟩
    have e := (front_left s).2.2 hd
    have h2 : Reduces true ((s.flatMap safeMap).dropWhile leading) [0x2E] := by
      refine reduces_dot.2 ⟨List.mem_of_mem_head? ((front_left s).2.1.2 hd), ?_⟩
      rw [e]
      exact (flat _).2 hall
    obtain ⟨_, _, _, hu⟩ := C04_wipeup_is_the_documented_reduction true (s.flatMap safeMap) (nulFree_safe hs)
    exact (hu _ hr).trans (hu _ h2).symm

/-- **C134.** It never makes `..`. -/
theorem C134_never_two_dots (hs : NulFree s) (h : runBuiltin P E none s = .ok (some out)) : out ≠ [0x2E, 0x2E] := by
  rintro rfl
  exact reduces_dots (default_reduces hs h)

end

/- `( )`, `_.profile` and `-._.-` -/
example : (∀ c ∈ lit "( )", vanishing c = true) ∧ runBuiltin .linux ⟨fun _ => none, none⟩ none (lit "( )") = .ok (some []) := by decide +kernel
example : ((lit "_.profile").dropWhile vanishing).head? = some 0x2E ∧ runBuiltin .linux ⟨fun _ => none, none⟩ none (lit "_.profile") = .ok (some (lit ".profile")) := by decide +kernel
example : (∀ c ∈ (lit "-._.-").dropWhile vanishing, swallowed c = true) ∧ runBuiltin .linux ⟨fun _ => none, none⟩ none (lit "-._.-") = .ok (some (lit ".")) := by decide +kernel

end Detox
