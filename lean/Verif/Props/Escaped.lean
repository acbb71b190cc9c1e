import Verif.Props.Front

/-!
# C137: how `uncgi` can lose an extension

C135 leaves `uncgi` out, because of `a%00.txt`. An escaped NUL is the only reason for that.
-/

set_option autoImplicit false

namespace Detox
open Spec

theorem decodes_kept {e d : Bytes} (he : ∀ x ∈ e, x ≠ 0x25 ∧ x ≠ 0x2B) (h : Decodes e d) : d = e := by
  induction h with
  | nil => rfl
  | esc h1 h2 v1 v2 rest out _ _ _ _ => exact absurd rfl (he _ (by simp)).1
  | plus rest out _ _ => exact absurd rfl (he _ (by simp)).2
  | self c rest out _ _ _ ih => rw [ih fun x hx => he x (by simp [hx])]

/-- An escape that stands for a NUL is `%00`. -/
theorem escape_nul {h1 h2 : Byte} {v1 v2 : Nat} (d1 : HexDigit h1 v1) (d2 : HexDigit h2 v2) (h : UInt8.ofNat (16 * v1 + v2) = 0) : h1 = 0x30 ∧ h2 = 0x30 := by
  have l1 : v1 < 16 := by unfold HexDigit at d1; omega
  have l2 : v2 < 16 := by unfold HexDigit at d2; omega
  have hv : (16 * v1 + v2) % 256 = 0 := by
    have := congrArg UInt8.toNat h
    simpa using this
  have e1 : v1 = 0 := by omega
  have e2 : v2 = 0 := by omega
  subst e1 e2
  unfold HexDigit at d1 d2
  exact ⟨UInt8.toNat_inj.1 (by simp; omega), UInt8.toNat_inj.1 (by simp; omega)⟩

theorem decodes_extension {e u d : Bytes} (he : ∀ x ∈ e, x ≠ 0x25 ∧ x ≠ 0x2B) (h : Decodes u d) :
    ∀ a, u = a ++ 0x2E :: e → ∃ b, d = b ++ 0x2E :: e ∧ ((0 : Byte) ∈ b → (0 : Byte) ∈ a ∨ lit "%00" <:+: a) := by
  have nothex : ∀ v, ¬ HexDigit 0x2E v := by
    intro v hv
    unfold HexDigit at hv
    simp at hv
    omega
  induction h with
  | nil => intro a ha; simp at ha
  | esc h1 h2 v1 v2 rest out d1 d2 _ ih =>
    intro a ha
    match a, ha with
    | [], ha => exact absurd (List.cons.inj ha).1 (by decide)
    | [_], ha => exact absurd d1 ((List.cons.inj (List.cons.inj ha).2).1 ▸ nothex v1)
    | [_, _], ha => exact absurd d2 ((List.cons.inj (List.cons.inj (List.cons.inj ha).2).2).1 ▸ nothex v2)
    | x :: y :: z :: a, ha =>
      obtain ⟨rfl, g1⟩ := List.cons.inj ha
      obtain ⟨rfl, g2⟩ := List.cons.inj g1
      obtain ⟨rfl, g3⟩ := List.cons.inj g2
      obtain ⟨b, rfl, hb⟩ := ih a g3
      refine ⟨_ :: b, rfl, fun h0 => ?_⟩
      rcases List.mem_cons.1 h0 with h0 | h0
      · obtain ⟨rfl, rfl⟩ := escape_nul d1 d2 h0.symm
        exact .inr ⟨[], a, rfl⟩
      · rcases hb h0 with h | ⟨l, r, h⟩
        · exact .inl (by simp [h])
        · exact .inr ⟨0x25 :: h1 :: h2 :: l, r, by rw [← h]; rfl⟩
  | plus rest out _ ih =>
    intro a ha
    match a, ha with
    | [], ha => exact absurd (List.cons.inj ha).1 (by decide)
    | x :: a, ha =>
      obtain ⟨rfl, g1⟩ := List.cons.inj ha
      obtain ⟨b, rfl, hb⟩ := ih a g1
      refine ⟨_ :: b, rfl, fun h0 => ?_⟩
      rcases List.mem_cons.1 h0 with h0 | h0
      · exact absurd h0 (by decide)
      · rcases hb h0 with h | ⟨l, r, h⟩
        · exact .inl (by simp [h])
        · exact .inr ⟨0x2B :: l, r, by rw [← h]; rfl⟩
  | self c rest out _ _ h ih =>
    intro a ha
    match a, ha with
    | [], ha =>
      obtain ⟨rfl, rfl⟩ := List.cons.inj ha
      exact ⟨[], by rw [decodes_kept he h]; rfl, by simp⟩
    | x :: a, ha =>
      obtain ⟨rfl, g1⟩ := List.cons.inj ha
      obtain ⟨b, rfl, hb⟩ := ih a g1
      refine ⟨_ :: b, rfl, fun h0 => ?_⟩
      rcases List.mem_cons.1 h0 with h0 | h0
      · exact .inl (by simp [h0])
      · rcases hb h0 with h | ⟨l, r, h⟩
        · exact .inl (by simp [h])
        · exact .inr ⟨c :: l, r, by rw [← h]; rfl⟩

section
variable {P : Platform} {locale : Bytes} {datadir : Option Bytes} {files : Bytes → Option Bytes}

/-- **C137.** An extension without `%` and `+` survives `uncgi` if there is no `%00` in front of it. -/
theorem C137_lost_only_by_a_nul {f : Filter} (hc : f.cleaner = .uncgi) {a e out : Bytes} (hn : NulFree (a ++ 0x2E :: e))
    (he : ∀ x ∈ e, x ≠ 0x25 ∧ x ≠ 0x2B) (h00 : ¬ lit "%00" <:+: a) (h : FilterSays P locale datadir files f (a ++ 0x2E :: e) out) :
    ∃ b, out = b ++ 0x2E :: e := by
  cases h with
  | uncgi d _ hd =>
    obtain ⟨b, rfl, hb⟩ := decodes_extension he hd a rfl
    have hb0 : (0 : Byte) ∉ b := fun h0 => (hb h0).elim (fun h => hn (by simp [h])) h00
    refine ⟨b, ?_⟩
    have all : ∀ x ∈ b ++ 0x2E :: e, x ≠ 0 := by
      intro x hx h0
      subst h0
      rcases List.mem_append.1 hx with h | h
      · exact hb0 h
      · exact hn (List.mem_append_right _ h)
    have := List.takeWhile_append_of_pos (p := fun x : Byte => decide (x ≠ 0)) (l₁ := b ++ 0x2E :: e) (l₂ := []) (fun x hx => by simpa using all x hx)
    simpa using this
  | lower h => rw [h] at hc; cases hc
  | wipeup _ h => rw [h] at hc; cases hc
  | maxLength _ h => rw [h] at hc; cases hc
  | iso8859_1 _ h => rw [h] at hc; cases hc
  | safe _ h => rw [h] at hc; cases hc
  | utf8 _ _ h => rw [h] at hc; cases hc

/-- **C137.** In a sequence that starts with `uncgi` and goes on with filters as in C135, the extension stays under the same condition. -/
theorem C137_uncgi_first {f : Filter} (hc : f.cleaner = .uncgi) {fs : List Filter} (hf : ∀ g ∈ fs, g.cleaner ≠ .uncgi) {a e out : Bytes}
    (hn : NulFree (a ++ 0x2E :: e)) (he : ∀ x ∈ e, x ≠ 0x25 ∧ x ≠ 0x2B ∧ x ≠ 0x2E) (hne : e ≠ []) (h00 : ¬ lit "%00" <:+: a)
    (hx : ∀ g ∈ fs, ∀ x ∈ (0x2E : Byte) :: e, FilterSays P locale datadir files g [x] [x])
    (h : FiltersSay P locale datadir files (f :: fs) (a ++ 0x2E :: e) out) : ∃ b, out = b ++ 0x2E :: e := by
  cases h with
  | cons _ _ _ mid _ h1 h2 =>
    obtain ⟨b, rfl⟩ := C137_lost_only_by_a_nul hc hn (fun x hx => ⟨(he x hx).1, (he x hx).2.1⟩) h00 h1
    exact C135_extension_stays hf hne (fun hd => (he _ hd).2.2 rfl) hx h2

end

/-- A name that meets the hypotheses: `uncgi` makes `a b.txt` of `a%20b.txt`. -/
example : ∃ b, lit "a b.txt" = b ++ 0x2E :: lit "txt" := by
  have h1 : FilterSays .linux [] none (fun _ => none) (usualFilter .uncgi) (lit "a%20b" ++ 0x2E :: lit "txt") (lit "a b.txt") :=
    loaded_says (by decide) (by unfold NulFree; decide +kernel) (by decide +kernel)
  exact C137_lost_only_by_a_nul rfl (by unfold NulFree; decide +kernel) (by decide +kernel) (by decide +kernel) h1

end Detox
