import Verif.Lemmas.Buf
import Verif.Lemmas.Builtin

/-!
# C08: the lower filter
-/

set_option autoImplicit false

namespace Detox

theorem toLowerC_spec : ∀ c : Byte, toLowerC c = if 0x41 ≤ c.toNat ∧ c.toNat ≤ 0x5A then UInt8.ofNat (c.toNat + 32) else c :=
  forall_byte (by decide +kernel)

theorem toLowerC_ne_zero : ∀ c : Byte, c ≠ 0 → toLowerC c ≠ 0 := forall_byte (by decide +kernel)

theorem toLowerC_idem : ∀ c : Byte, toLowerC (toLowerC c) = toLowerC c := forall_byte (by decide +kernel)

theorem toLowerC_ascii : ∀ c : Byte, c.toNat < 128 → (toLowerC c).toNat < 128 := forall_byte (by decide +kernel)

theorem nulFree_map_lower {s : Bytes} (hs : NulFree s) : NulFree (s.map toLowerC) := by
  intro h
  obtain ⟨c, hc, h0⟩ := List.mem_map.mp h
  exact toLowerC_ne_zero c (fun hc0 => hs (hc0 ▸ hc)) h0

theorem cleanLower_ok {P : Platform} {s : Bytes} (hs : NulFree s)
    (h : P.ctypeNegDefined = true ∨ ∀ c ∈ s, c.toNat < 128) : cleanLower P s = .ok (s.map toLowerC) := by
  rw [cleanLower_eq s h, emit_eq, List.length_map, if_pos (by omega), cstr_of_nulFree (nulFree_map_lower hs)]

/-- **C08.** `lower` changes `A`-`Z` to `a`-`z`, position by position, and nothing else; it is
idempotent. (For bytes `>= 0x80` this needs `isupper` to tolerate negative arguments, as glibc's does;
for ASCII names it holds on every platform.) -/
theorem C08_lower_exact (P : Platform) (s : Bytes) (hs : NulFree s)
    (hP : P.ctypeNegDefined = true ∨ ∀ c ∈ s, c.toNat < 128) :
    ∃ out, cleanLower P s = .ok out ∧ out.length = s.length ∧
      (∀ (i : Nat) (c : Byte), s[i]? = some c →
        out[i]? = some (if 0x41 ≤ c.toNat ∧ c.toNat ≤ 0x5A then UInt8.ofNat (c.toNat + 32) else c)) ∧
      cleanLower P out = .ok out := by
  refine ⟨s.map toLowerC, cleanLower_ok hs hP, by simp, ?_, ?_⟩
  · intro i c hc
    rw [List.getElem?_map, hc, ← toLowerC_spec]
    rfl
  · have hP' : P.ctypeNegDefined = true ∨ ∀ c ∈ s.map toLowerC, c.toNat < 128 := by
      rcases hP with h | h
      · exact Or.inl h
      · refine Or.inr fun c hc => ?_
        obtain ⟨d, hd, rfl⟩ := List.mem_map.mp hc
        exact toLowerC_ascii d (h d hd)
    rw [cleanLower_ok (nulFree_map_lower hs) hP', List.map_map]
    congr 1
    apply List.map_congr_left
    intro c _
    exact toLowerC_idem c

example : cleanLower .linux (lit "AbC.ZIP[\\]@" ++ [0xC3, 0x89]) = .ok (lit "abc.zip[\\]@" ++ [0xC3, 0x89]) := by
  decide +kernel

/-- The hypothesis of C08 is necessary: under the letter of ISO C with signed `char`, any name that
reaches a byte `>= 0x80` is undefined behaviour. -/
theorem C08_lower_strict_iso_c_undefined (s : Bytes) (h : ∃ c ∈ s, 128 ≤ c.toNat) :
    cleanLower .strict s = .ub .ctypeArg := by
  have key : ∀ (s : Bytes) (o : OutBuf), (∃ c ∈ s, 128 ≤ c.toNat) → o.data.length + s.length ≤ o.cap →
      cleanLowerLoop .strict o s = .ub .ctypeArg := by
    intro s
    induction s with
    | nil => rintro o ⟨c, hc, _⟩; simp at hc
    | cons x s ih =>
      rintro o ⟨c, hc, hge⟩ hcap
      unfold cleanLowerLoop
      by_cases hx : 128 ≤ x.toNat
      · have : ctypeCall .strict isUpperC x = .ub .ctypeArg := by
          unfold ctypeCall
          simp [Platform.strict, hx]
        rw [this]; rfl
      · rw [ctypeCall_ascii _ (by omega)]
        simp only [Res.bind_ok]
        have hpush : ∀ y, (o.push y >>= fun o => cleanLowerLoop .strict o s) = .ub .ctypeArg := by
          intro y
          unfold OutBuf.push
          rw [if_pos (by simp at hcap; omega)]
          simp only [Res.bind_ok]
          refine ih _ ⟨c, ?_, hge⟩ (by simp at hcap ⊢; omega)
          rcases List.mem_cons.mp hc with rfl | h
          · omega
          · exact h
        split
        · exact hpush _
        · exact hpush _
  unfold cleanLower
  rw [key s _ h (by simp [OutBuf.alloc])]
  rfl

end Detox
