import Verif.Lemmas.MaxLength

/-!
# C06, C07: the max_length filter
-/

set_option autoImplicit false

namespace Detox

open Spec

/-- Every name has an extension at exactly one place or has none, never both. -/
theorem extension_or_not (s : Bytes) (hs : s ≠ []) :
    (NoExtension s ∧ ∀ e, ¬ ExtensionAt s e) ∨ (¬ NoExtension s ∧ ∃ e, ExtensionAt s e ∧ ∀ e', ExtensionAt s e' → e' = e) := by
  have hlen : 0 < s.length := List.length_pos_iff.mpr hs
  cases hd : strrchrIdx 0x2E s with
  | none =>
    have := strrchrIdx_none hd
    exact Or.inl ⟨Or.inl this, fun e ⟨d, h, _⟩ => this d h.1⟩
  | some d =>
    have hld : LastDot s d := strrchrIdx_some hd
    have hdl : d < s.length := by
      rcases Nat.lt_or_ge d s.length with h | h
      · exact h
      · have := hld.1; rw [List.getElem?_eq_none h] at this; simp at this
    by_cases hlast : d + 1 = s.length
    · refine Or.inl ⟨Or.inr ?_, fun e ⟨d', h, h', _⟩ => ?_⟩
      · rw [show s.length - 1 = d by omega]; exact hld
      · have := LastDot.unique hld h; omega
    · refine Or.inr ⟨?_, ?_⟩
      · rintro (h | h)
        · exact h d hld.1
        · have := LastDot.unique hld h; omega
      · obtain ⟨e, _, he⟩ := lookBack_ok (P := .linux) (s := s) (Nat.le_refl d) (Or.inl rfl)
          (fun j h1 h2 => absurd h2 (by omega))
        refine ⟨e, ⟨d, hld, by omega, he⟩, ?_⟩
        rintro e' ⟨d', hld', _, he'⟩
        have := LastDot.unique hld hld'; subst this
        rcases he with ⟨he, hno⟩ | ⟨h1, h2, h3, h4, h5⟩ <;> rcases he' with ⟨he', hno'⟩ | ⟨h1', h2', h3', h4', h5'⟩
        · omega
        · exact absurd h4' (hno e' h1' h2' h3')
        · exact absurd h4 (hno' e h1 h2 h3)
        · rcases Nat.lt_trichotomy e e' with h | h | h
          · exact absurd h4' (h5 e' h h2')
          · exact h.symm
          · exact absurd h4 (h5' e h h2)

/-- **C06.** `max_length`, exactly. `L` is the effective limit. The five cases are exhaustive
(`extension_or_not`). The hypothesis on `P` is needed only for a name whose single dot is its first
character, where the code steps below the start of the string. -/
theorem C06_max_length_exact (P : Platform) (n L : Nat) (s : Bytes)
    (hL : L = if n = 0 then 256 else n) (hP : P.ptrBelowDefined = true ∨ s.head? ≠ some 0x2E) :
    (s.length ≤ L → cleanMaxLength P n s = .ok s) ∧
    (L < s.length → NoExtension s → cleanMaxLength P n s = .ok (s.take L)) ∧
    (∀ e, L < s.length → ExtensionAt s e → L ≤ s.length - e → cleanMaxLength P n s = .ok s) ∧
    (∀ e, L < s.length → ExtensionAt s e → s.length - e < L →
      ∃ body, cleanMaxLength P n s = .ok (body ++ s.drop e) ∧ body <+: s.take e ∧
        (body ++ s.drop e).length = L) ∧
    (∀ out, cleanMaxLength P n s = .ok out → cleanMaxLength P n out = .ok out) := by
  have hmain : ∀ d, strrchrIdx 0x2E s = some d → d + 1 < s.length → L < s.length →
      ∃ e, ExtensionAt s e ∧ cleanMaxLength P n s =
        if L ≤ s.length - e then .ok s else .ok ((s.take L).take (L - (s.length - e)) ++ s.drop e) := by
    intro d hd hdl hlt
    have hld : LastDot s d := strrchrIdx_some hd
    have hP' : P.ptrBelowDefined = true ∨ 0 < d := by
      rcases hP with h | h
      · exact Or.inl h
      · refine Or.inr (Nat.pos_of_ne_zero fun h0 => h ?_)
        subst h0
        have := hld.1
        rwa [← List.head?_eq_getElem?] at this
    obtain ⟨e, he1, he2⟩ := lookBack_ok (P := P) (s := s) (Nat.le_refl d) hP' (fun j h1 h2 => absurd h2 (by omega))
    refine ⟨e, ⟨d, hld, hdl, he2⟩, ?_⟩
    unfold cleanMaxLength
    simp only [← hL]
    rw [if_neg (by omega), hd]
    simp only [List.length_drop]
    rw [if_neg (by omega), he1]
    simp only [Res.bind_ok]
  have huniq : ∀ e e', ExtensionAt s e → ExtensionAt s e' → e = e' := by
    intro e e' h h'
    have hne : s ≠ [] := by
      rintro rfl
      obtain ⟨d, _, h, _⟩ := h
      simp at h
    rcases extension_or_not s hne with ⟨_, h0⟩ | ⟨_, e0, _, h0⟩
    · exact absurd h (h0 e)
    · rw [h0 e h, h0 e' h']
  have hdot : ∀ e, ExtensionAt s e → ∃ d, strrchrIdx 0x2E s = some d ∧ d + 1 < s.length := by
    rintro e ⟨d, hld, hdl, _⟩
    cases hd : strrchrIdx 0x2E s with
    | none => exact absurd hld.1 (strrchrIdx_none hd d)
    | some d' => exact ⟨d', rfl, by have := LastDot.unique hld (strrchrIdx_some hd); omega⟩
  have hshort : ∀ t : Bytes, t.length ≤ L → cleanMaxLength P n t = .ok t := by
    intro t ht
    unfold cleanMaxLength
    simp only [← hL]
    rw [if_pos ht]
  have hnoext : L < s.length → NoExtension s → cleanMaxLength P n s = .ok (s.take L) := by
    intro hlt hne
    unfold cleanMaxLength
    simp only [← hL]
    rw [if_neg (by omega)]
    cases hd : strrchrIdx 0x2E s with
    | none => rfl
    | some d =>
      dsimp only
      have hld : LastDot s d := strrchrIdx_some hd
      rw [if_pos]
      rcases hne with h | h
      · exact absurd hld.1 (h d)
      · have := LastDot.unique hld h
        simp only [List.length_drop]
        omega
  refine ⟨hshort s, hnoext, ?_, ?_, ?_⟩
  · intro e hlt he hle
    obtain ⟨d, hd, hdl⟩ := hdot e he
    obtain ⟨e', he', h⟩ := hmain d hd hdl hlt
    rw [huniq e e' he he'] at hle
    rw [h, if_pos hle]
  · intro e hlt he hgt
    obtain ⟨d, hd, hdl⟩ := hdot e he
    obtain ⟨e', he', h⟩ := hmain d hd hdl hlt
    have := huniq e e' he he'; subst this
    rw [if_neg (by omega)] at h
    have hes : e < s.length := by
      obtain ⟨d, _, h2, h3⟩ := he
      omega
    refine ⟨_, h, ?_, ?_⟩
    · rw [List.take_take, show min (L - (s.length - e)) L = min (L - (s.length - e)) e by omega, ← List.take_take]
      exact List.take_prefix _ _
    · simp only [List.length_append, List.length_take, List.length_drop]
      omega
  · intro out hout
    by_cases hle : s.length ≤ L
    · rw [hshort s hle] at hout
      injection hout with hout
      subst hout
      exact hshort s hle
    · have hne : s ≠ [] := by rintro rfl; simp at hle
      rcases extension_or_not s hne with ⟨h0, _⟩ | ⟨_, e0, he0, _⟩
      · rw [hnoext (by omega) h0] at hout
        injection hout with hout
        subst hout
        exact hshort _ (by simp; omega)
      · obtain ⟨d, hd, hdl⟩ := hdot e0 he0
        obtain ⟨e, he, h⟩ := hmain d hd hdl (by omega)
        have hes : e < s.length := by
          obtain ⟨d, _, h2, h3⟩ := he
          omega
        by_cases hg : L ≤ s.length - e
        · rw [if_pos hg] at h
          rw [h] at hout
          injection hout with hout
          subst hout
          exact h
        · rw [if_neg hg] at h
          rw [h] at hout
          injection hout with hout
          subst hout
          refine hshort _ ?_
          simp only [List.length_append, List.length_take, List.length_drop]
          omega

/- Non-vacuous: the four shapes. -/
example : cleanMaxLength .linux 12 (lit "abcdefghij.tar.gz") = .ok (lit "abcde.tar.gz") := by decide +kernel
example : cleanMaxLength .linux 5 (lit "abcdefghij") = .ok (lit "abcde") := by decide +kernel
example : cleanMaxLength .linux 7 (lit "abcdefghij.tar.gz") = .ok (lit "abcdefghij.tar.gz") := by decide +kernel
example : ExtensionAt (lit "abcdefghij.tar.gz") 10 :=
  ⟨14, ⟨by decide +kernel, fun j hj => by
      rcases Nat.lt_or_ge j 17 with h | h
      · have : j = 15 ∨ j = 16 := by omega
        rcases this with rfl | rfl <;> decide +kernel
      · rw [List.getElem?_eq_none (show (lit "abcdefghij.tar.gz").length ≤ j from h)]; simp⟩, by decide +kernel,
    Or.inr ⟨by omega, by omega, by omega, by decide +kernel, fun i h1 h2 => by
      have : i = 11 ∨ i = 12 ∨ i = 13 := by omega
      rcases this with rfl | rfl | rfl <;> decide +kernel⟩⟩

/-- **C07** is false of the code: with limit 4, `a.jpeg` comes back with 6 bytes. -/
theorem C07_max_length_limit_exceeded :
    ¬ ∀ (n : Nat) (s out : Bytes), 0 < n → NulFree s → cleanMaxLength .linux n s = .ok out → out.length ≤ n := by
  intro h
  have := h 4 (lit "a.jpeg") (lit "a.jpeg") (by omega) (by decide +kernel) (by decide +kernel)
  exact absurd this (by decide +kernel)

/-- **C07 (partial).** The limit is met whenever the name has no extension, or one shorter than the
limit. Missing: names whose extension does not fit (refuted above). -/
theorem C07_max_length_limit_met_partial (P : Platform) (n : Nat) (s out : Bytes) (hn : 0 < n)
    (hP : P.ptrBelowDefined = true ∨ s.head? ≠ some 0x2E)
    (hext : ∀ e, ExtensionAt s e → s.length - e < n) (h : cleanMaxLength P n s = .ok out) : out.length ≤ n := by
  obtain ⟨h1, h2, _, h4, _⟩ := C06_max_length_exact P n n s (by rw [if_neg (by omega)]) hP
  by_cases hle : s.length ≤ n
  · rw [h1 hle] at h
    injection h with h
    subst h; exact hle
  · have hne : s ≠ [] := by rintro rfl; simp at hle
    rcases extension_or_not s hne with ⟨h0, _⟩ | ⟨_, e, he, _⟩
    · rw [h2 (by omega) h0] at h
      injection h with h
      subst h
      simp; omega
    · obtain ⟨body, hb, _, hlen⟩ := h4 e (by omega) he (hext e he)
      rw [hb] at h
      injection h with h
      subst h
      omega

/-- **C07**, exactly: the limit is met if the name is not longer than it, or the extension, if there is one, is shorter; and not otherwise. -/
theorem C07_max_length_limit_met_iff_partial (P : Platform) (n : Nat) (s out : Bytes) (hn : 0 < n)
    (hP : P.ptrBelowDefined = true ∨ s.head? ≠ some 0x2E) (h : cleanMaxLength P n s = .ok out) :
    out.length ≤ n ↔ s.length ≤ n ∨ ∀ e, ExtensionAt s e → s.length - e < n := by
  obtain ⟨h1, _, h3, _, _⟩ := C06_max_length_exact P n n s (by rw [if_neg (by omega)]) hP
  constructor
  · intro hle
    refine Classical.byContradiction fun hno => ?_
    obtain ⟨ha, hb⟩ := not_or.1 hno
    refine hb fun e he => Nat.lt_of_not_le fun hf => ?_
    rw [h3 e (by omega) he hf] at h
    cases h
    exact ha hle
  · rintro (hle | hext)
    · rw [h1 hle] at h
      cases h
      exact hle
    · exact C07_max_length_limit_met_partial P n s out hn hP hext h

end Detox
