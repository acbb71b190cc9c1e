import Verif.Lemmas.Wipeup

/-!
# C04, C05: the wipeup filter
-/

set_option autoImplicit false

namespace Detox

open Spec

/-- **C04.** `wipeup` always returns, and its result is *the* documented reduction of the name
(`IsWipeup` determines its result: second conjunct). -/
theorem C04_wipeup_is_the_documented_reduction (rt : Bool) (s : Bytes) (hs : NulFree s) :
    ∃ out, cleanWipeup rt s = .ok out ∧ IsWipeup rt s out ∧ ∀ out', IsWipeup rt s out' → out' = out := by
  obtain ⟨h1, h2, _⟩ := cleanWipeup_ok rt s hs
  exact ⟨_, h1, h2, fun out' h' => Reduces.unique h' h2⟩

/- Non-vacuous: `__a-_b.` both ways. -/
example : cleanWipeup true (lit "#_-a_-_b.-.c__") = .ok (lit "a-b.c_") := by decide +kernel
example : cleanWipeup false (lit "#_-a_-_b.-.c__") = .ok (lit "a-b.-.c_") := by decide +kernel
example : NulFree (lit "#_-a_-_b.-.c__") := by decide +kernel

theorem wipeup_head {rt : Bool} {s out : Bytes} (h : IsWipeup rt s out) (c : Byte)
    (hc : out.head? = some c) : leading c = false := by
  unfold IsWipeup at h
  generalize hd : s.dropWhile leading = d at h
  have hhead : ∀ c, d.head? = some c → leading c = false := fun c h' => dropWhile_head c (hd ▸ h')
  cases h with
  | nil => simp at hc
  | keep c' s' o hk _ =>
    simp only [List.head?_cons, Option.some.injEq] at hc
    subst hc
    exact hhead _ rfl
  | run r s' o hr hall _ _ =>
    simp only [List.head?_cons, Option.some.injEq] at hc
    subst hc
    obtain ⟨x, r', rfl⟩ := List.exists_cons_of_ne_nil hr
    have hx := hhead x (by simp)
    have hx' := hall x (by simp)
    have hdot : x = 0x2E := by
      simp only [leading, reducible, Bool.or_eq_false_iff, decide_eq_false_iff_not, Bool.or_eq_true,
        decide_eq_true_eq, Bool.and_eq_true] at hx hx'
      rcases hx' with (h | h) | h
      · exact absurd h hx.1.1
      · exact absurd h hx.1.2
      · exact h.2
    have : runChar (x :: r') = 0x2E := by simp [runChar, hdot]
    rw [this]; rfl

/-- **C05.** The output of `wipeup` never starts with `-`, `_` or `#`, never has two adjacent
reducible characters, is no longer than the input, has only characters of the input, and is a fixed
point of `wipeup`. -/
theorem C05_wipeup_normal_and_idempotent (rt : Bool) (s out : Bytes) (hs : NulFree s)
    (h : cleanWipeup rt s = .ok out) :
    (∀ c, out.head? = some c → c ≠ 0x2D ∧ c ≠ 0x5F ∧ c ≠ 0x23) ∧
    (∀ i a b, out[i]? = some a → out[i + 1]? = some b → ¬ (reducible rt a = true ∧ reducible rt b = true)) ∧
    out.length ≤ s.length ∧ (∀ c ∈ out, c ∈ s) ∧
    cleanWipeup rt out = .ok out := by
  obtain ⟨h1, h2, h3⟩ := cleanWipeup_ok rt s hs
  rw [h] at h1
  injection h1 with h1
  rw [← h1] at h2 h3
  have hhead := fun c hc => wipeup_head h2 c hc
  have hred : Reduces rt (s.dropWhile leading) out := h2
  refine ⟨?_, ?_, ?_, ?_, ?_⟩
  · intro c hc
    have := hhead c hc
    simp only [leading, Bool.or_eq_false_iff, decide_eq_false_iff_not] at this
    exact ⟨this.1.1, this.1.2, this.2⟩
  · intro i a b ha hb
    have := hred.noAdjacent
    clear hred h2 h3 h h1 hhead
    induction out generalizing i with
    | nil => simp at ha
    | cons x o ih =>
      cases o with
      | nil => simp at hb
      | cons y o =>
        cases i with
        | zero =>
          simp only [List.getElem?_cons_zero, Option.some.injEq, Nat.zero_add, List.getElem?_cons_succ] at ha hb
          subst ha; subst hb
          exact this.1
        | succ i => exact ih i (by simpa using ha) (by simpa using hb) this.2
  · exact Nat.le_trans hred.length_le (List.dropWhile_sublist leading).length_le
  · intro c hc
    exact (List.dropWhile_sublist leading).subset (hred.mem c hc)
  · obtain ⟨h4, h5, _⟩ := cleanWipeup_ok rt out h3
    have hself : IsWipeup rt out out := by
      unfold IsWipeup
      rw [dropWhile_self hhead]
      exact reduces_self hred.noAdjacent
    rw [h4, Reduces.unique h5 hself]

example : cleanWipeup true (lit "a-b.c_") = .ok (lit "a-b.c_") := by decide +kernel

end Detox
