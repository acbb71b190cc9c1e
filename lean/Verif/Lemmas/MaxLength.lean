import Verif.Lemmas.Buf
import Verif.Spec.MaxLength

/-!
# max_length
-/

set_option autoImplicit false

namespace Detox

open Spec

theorem strrchrIdx_none {c : Byte} {s : Bytes} (h : strrchrIdx c s = none) : ∀ j : Nat, s[j]? ≠ some c := by
  induction s with
  | nil => intro j; simp
  | cons x s ih =>
    unfold strrchrIdx at h
    cases hs : strrchrIdx c s with
    | some i => simp [hs] at h
    | none =>
      simp only [hs] at h
      split at h
      · simp at h
      · intro j
        cases j with
        | zero => simpa using by assumption
        | succ j => simpa using ih hs j

theorem strrchrIdx_some {c : Byte} {s : Bytes} {d : Nat} (h : strrchrIdx c s = some d) :
    s[d]? = some c ∧ ∀ j, d < j → s[j]? ≠ some c := by
  induction s generalizing d with
  | nil => simp [strrchrIdx] at h
  | cons x s ih =>
    unfold strrchrIdx at h
    cases hs : strrchrIdx c s with
    | some i =>
      simp only [hs, Option.some.injEq] at h
      subst h
      obtain ⟨h1, h2⟩ := ih hs
      refine ⟨by simpa using h1, fun j hj => ?_⟩
      cases j with
      | zero => omega
      | succ j => simpa using h2 j (by omega)
    | none =>
      simp only [hs] at h
      split at h
      · simp only [Option.some.injEq] at h
        subst h
        refine ⟨by simpa using by assumption, fun j hj => ?_⟩
        cases j with
        | zero => omega
        | succ j => simpa using strrchrIdx_none hs j
      · simp at h

theorem LastDot.unique {s : Bytes} {d d' : Nat} (h : LastDot s d) (h' : LastDot s d') : d = d' := by
  rcases Nat.lt_trichotomy d d' with hlt | heq | hgt
  · exact absurd h'.1 (h.2 d' hlt)
  · exact heq
  · exact absurd h.1 (h'.2 d hgt)

theorem getD_dot {s : Bytes} {i : Nat} : s.getD i 0 = 0x2E ↔ s[i]? = some 0x2E := by
  rw [List.getD_eq_getElem?_getD]
  cases s[i]? with
  | none => simp
  | some x => simp

/-- The look-back loop. Invariant: no dot between `i` and `d`. -/
theorem lookBack_ok {P : Platform} {s : Bytes} {d i : Nat} (hi : i ≤ d)
    (hP : P.ptrBelowDefined = true ∨ 0 < i)
    (hno : ∀ j, i ≤ j → j < d → s[j]? ≠ some 0x2E) :
    ∃ e, lookBack P s d i = .ok e ∧
      ((e = d ∧ ∀ j, 0 < j → j < d → d ≤ j + 5 → s[j]? ≠ some 0x2E) ∨
       (0 < e ∧ e < d ∧ d ≤ e + 5 ∧ s[e]? = some 0x2E ∧ ∀ j, e < j → j < d → s[j]? ≠ some 0x2E)) := by
  induction i with
  | zero =>
    refine ⟨d, ?_, Or.inl ⟨rfl, fun j _ hj _ => hno j (by omega) hj⟩⟩
    unfold lookBack
    rcases hP with h | h
    · rw [if_pos h]
    · omega
  | succ i ih =>
    unfold lookBack
    by_cases h0 : 0 < i
    · rw [if_pos h0]
      by_cases h5 : d - i > 5
      · rw [if_pos h5]
        refine ⟨d, rfl, Or.inl ⟨rfl, fun j _ hj hj5 => hno j (by omega) hj⟩⟩
      · rw [if_neg h5]
        by_cases hd : s.getD i 0 = 0x2E
        · rw [if_pos hd]
          exact ⟨i, rfl, Or.inr ⟨h0, by omega, by omega, getD_dot.mp hd, fun j hj hjd => hno j (by omega) hjd⟩⟩
        · rw [if_neg hd]
          refine ih (by omega) (Or.inr h0) (fun j hj hjd => ?_)
          by_cases hji : j = i
          · subst hji; exact fun h => hd (getD_dot.mpr h)
          · exact hno j (by omega) hjd
    · rw [if_neg h0]
      refine ⟨d, rfl, Or.inl ⟨rfl, fun j hj0 hj _ => hno j (by omega) hj⟩⟩

end Detox
