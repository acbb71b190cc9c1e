import Verif.Props.EndToEnd
import Verif.Lemmas.LoadedTable

/-!
# How long new names can be
-/

set_option autoImplicit false

namespace Detox
open Spec

/-- What a byte may cost after `safe` and `wipeup`: four for `&`, two for any other. -/
def cost (s : Bytes) : Nat := (s.map fun c => if c = 0x26 then 4 else 2).sum

theorem cost_cons (c : Byte) (s : Bytes) : cost (c :: s) = (if c = 0x26 then 4 else 2) + cost s := by
  unfold cost
  rw [List.map_cons, List.sum_cons]

theorem cost_append (s t : Bytes) : cost (s ++ t) = cost s + cost t := by
  unfold cost
  rw [List.map_append, List.sum_append]

theorem cost_le (s : Bytes) : cost s ≤ 4 * s.length := by
  induction s with
  | nil => exact Nat.le_refl _
  | cons c s ih =>
    rw [cost_cons, List.length_cons]
    split <;> omega

/-- `&` is spelled out, everything else stays one byte. -/
def SpellsOut (g : Byte → Bytes) : Prop := ∀ c, (c = 0x26 ∧ g c = lit "_and_") ∨ (c ≠ 0x26 ∧ ∃ d, g c = [d])

theorem wipeOut_and {cur : Option Nat} {s : Bytes} : (wipeOut (wipeSearch true) cur (lit "_and_" ++ s)).length ≤ 4 + (wipeOut (wipeSearch true) (some 2) s).length := by
  have h1 : ∀ cur, ∃ i, wipeOut (wipeSearch true) cur (lit "_and_" ++ s) = wipeOut (wipeSearch true) (some i) (lit "and_" ++ s) := by
    intro cur
    cases cur with
    | none => exact ⟨2, rfl⟩
    | some i => exact ⟨if 2 < i then 2 else i, by show wipeOut _ (if 2 < i then some 2 else some i) _ = _; split <;> rfl⟩
  obtain ⟨i, h⟩ := h1 cur
  rw [h]
  show (_ :: _ :: _ :: _ :: wipeOut (wipeSearch true) (some 2) s).length ≤ _
  simp only [List.length_cons]
  omega

theorem wipeOut_cost {g : Byte → Bytes} (hg : SpellsOut g) (s : Bytes) : ∀ cur : Option Nat, (wipeOut (wipeSearch true) cur (s.flatMap g)).length ≤ cost s + 1 := by
  induction s with
  | nil =>
    intro cur
    unfold wipeOut
    cases cur <;> simp
  | cons c s ih =>
    intro cur
    rw [List.flatMap_cons, cost_cons]
    rcases hg c with ⟨h1, h2⟩ | ⟨h1, d, h2⟩
    · rw [h2, if_pos h1]
      have := wipeOut_and (cur := cur) (s := s.flatMap g)
      have := ih (some 2)
      omega
    · rw [h2, if_neg h1, List.singleton_append]
      unfold wipeOut
      split
      · exact Nat.le_trans (ih _) (by omega)
      · have := ih none
        cases cur <;> simp only [List.length_append, List.length_cons, List.length_nil] <;> omega

theorem wipe_cost {g : Byte → Bytes} (hg : SpellsOut g) (s : Bytes) : (wipe true (s.flatMap g)).length ≤ cost s := by
  unfold wipe
  induction s with
  | nil => exact Nat.le_refl _
  | cons c s ih =>
    rw [List.flatMap_cons, cost_cons]
    rcases hg c with ⟨h1, h2⟩ | ⟨h1, d, h2⟩
    · rw [h2, if_pos h1]
      have := wipeOut_cost hg s (some 2)
      show (_ :: _ :: _ :: wipeOut (wipeSearch true) (some 2) (s.flatMap g)).length ≤ _
      simp only [List.length_cons]
      omega
    · rw [h2, if_neg h1, List.singleton_append]
      unfold wipeLead
      split
      · omega
      · unfold wipeOut
        split
        · have := wipeOut_cost hg s (some ‹Nat›)
          show (wipeOut (wipeSearch true) (some _) (s.flatMap g)).length ≤ _
          omega
        · have := wipeOut_cost hg s none
          simp only [List.length_append, List.length_cons, List.length_nil]
          omega

theorem wipe_length (s : Bytes) : (wipe true s).length ≤ s.length := by
  unfold wipe
  have h1 := wipeOut_length (wipeSearch true) none (wipeLead s)
  rw [wipeLead_eq] at h1 ⊢
  have h2 := (List.dropWhile_sublist leading (l := s)).length_le
  simp only [Option.isSome_none, Bool.false_eq_true, if_false, Nat.add_zero] at h1
  omega

theorem safe_spellsOut : SpellsOut safeMap := by
  have key : ∀ c : Byte, (c = 0x26 ∧ safeMap c = lit "_and_") ∨ (c ≠ 0x26 ∧ (safeMap c).length = 1) := forall_byte (by decide +kernel)
  intro c
  exact (key c).imp id fun h => ⟨h.1, List.length_eq_one_iff.1 h.2⟩

theorem lower_spellsOut : SpellsOut fun c => (safeMap c).map toLowerC := by
  have key : ∀ c : Byte, (c = 0x26 ∧ (safeMap c).map toLowerC = lit "_and_") ∨ (c ≠ 0x26 ∧ ((safeMap c).map toLowerC).length = 1) :=
    forall_byte (by decide +kernel)
  intro c
  exact (key c).imp id fun h => ⟨h.1, List.length_eq_one_iff.1 h.2⟩

theorem safeWipe_cost (s : Bytes) : (safeWipe s).length ≤ cost s := wipe_cost safe_spellsOut s

theorem flatMap_sum_le {f : Byte → Bytes} {k : Nat} (m : Bytes → Nat) (h0 : m [] = 0) (ha : ∀ s t, m (s ++ t) = m s + m t) (h : ∀ c, m (f c) ≤ k) (s : Bytes) :
    m (s.flatMap f) ≤ k * s.length := by
  induction s with
  | nil => rw [List.flatMap_nil, h0]; exact Nat.zero_le _
  | cons c s ih =>
    rw [List.flatMap_cons, ha, List.length_cons, Nat.mul_succ]
    have := h c
    omega

theorem latin1_cost (s : Bytes) : cost (s.flatMap latin1) ≤ 4 * s.length :=
  flatMap_sum_le cost rfl cost_append (forall_byte (by decide +kernel)) s

theorem latin1_twice (s : Bytes) : (s.flatMap latin1).length ≤ 2 * s.length :=
  flatMap_sum_le List.length rfl (fun _ _ => List.length_append) (forall_byte (by decide +kernel)) s

theorem cp1252_length (s : Bytes) : (s.flatMap cp1252Fn).length ≤ 3 * s.length :=
  flatMap_sum_le List.length rfl (fun _ _ => List.length_append) (forall_byte (by decide +kernel)) s

theorem legacy_length (s : Bytes) : (safeWipe ((s.flatMap cp1252Fn).flatMap latin1)).length ≤ 5 * s.length := by
  refine Nat.le_trans (wipe_length _) ?_
  rw [List.flatMap_assoc, List.flatMap_assoc]
  exact flatMap_sum_le List.length rfl (fun _ _ => List.length_append) (forall_byte (by decide +kernel)) s

theorem cleanUtf8_length {s r : Bytes} (h : cleanUtf8 (some load_builtin_unicode_table) s = .ok r) : r.length ≤ s.length := by
  rw [cleanUtf8_eq, emit_eq, unicode_max] at h
  split at h
  · rw [← Res.ok.inj h]
    have := (cstr_sublist (utf8Out load_builtin_unicode_table s.length s)).length_le
    omega
  · cases h

theorem cleanUncgi_length {P : Platform} (hP : P.Benign) {s r : Bytes} (h : cleanUncgi P s = .ok r) : r.length ≤ s.length := by
  rw [cleanUncgi_eq s (.inl hP.1), emit_eq] at h
  split at h
  · rw [← Res.ok.inj h]
    have := (cstr_sublist (uncgiOut s.length s)).length_le
    have := uncgiOut_length s.length s
    omega
  · cases h

/-! ### The worst there is -/

theorem wipeOut_ands (n : Nat) : (wipeOut (wipeSearch true) (some 2) ((List.replicate n (0x26 : Byte)).flatMap safeMap)).length = 4 * n + 1 := by
  induction n with
  | zero => rfl
  | succ n ih =>
    rw [List.replicate_succ, List.flatMap_cons]
    show (_ :: _ :: _ :: _ :: wipeOut (wipeSearch true) (some 2) ((List.replicate n (0x26 : Byte)).flatMap safeMap)).length = _
    simp only [List.length_cons, ih]
    omega

theorem safeWipe_ands (n : Nat) : (safeWipe (List.replicate n 0x26)).length = 4 * n := by
  cases n with
  | zero => rfl
  | succ n =>
    unfold safeWipe wipe
    rw [List.replicate_succ, List.flatMap_cons]
    show (_ :: _ :: _ :: wipeOut (wipeSearch true) (some 2) ((List.replicate n (0x26 : Byte)).flatMap safeMap)).length = _
    simp only [List.length_cons, wipeOut_ands]
    omega

theorem flatMap_replicate_length {f : Byte → Bytes} {c : Byte} {k : Nat} (h : (f c).length = k) (n : Nat) :
    ((List.replicate n c).flatMap f).length = k * n := by
  induction n with
  | zero => rfl
  | succ n ih =>
    rw [List.replicate_succ, List.flatMap_cons, List.length_append, ih, h, Nat.mul_succ, Nat.add_comm]

theorem euros (n : Nat) : ((List.replicate n (0x80 : Byte)).flatMap cp1252Fn).flatMap latin1 = (List.replicate n ([0xC3, 0xA2, 0x5F, 0xC2, 0xAC] : Bytes)).flatten := by
  rw [List.flatMap_assoc, List.flatMap_replicate]
  rfl

theorem safeWipe_euros (n : Nat) : (safeWipe (((List.replicate n (0x80 : Byte)).flatMap cp1252Fn).flatMap latin1)).length = 5 * n := by
  rw [euros]
  have key : ∀ n, (wipeOut (wipeSearch true) none (((List.replicate n ([0xC3, 0xA2, 0x5F, 0xC2, 0xAC] : Bytes)).flatten).flatMap safeMap)).length = 5 * n := by
    intro n
    induction n with
    | zero => rfl
    | succ n ih =>
      rw [List.replicate_succ, List.flatten_cons, List.flatMap_append]
      show (_ :: _ :: _ :: _ :: _ :: wipeOut (wipeSearch true) none (((List.replicate n ([0xC3, 0xA2, 0x5F, 0xC2, 0xAC] : Bytes)).flatten).flatMap safeMap)).length = _
      simp only [List.length_cons, ih]
      omega
  unfold safeWipe wipe
  cases n with
  | zero => rfl
  | succ n => exact key (n + 1)

/-! ### No encoded NUL in what `utf_8` makes -/

theorem isUnit_width {u u' : Bytes} {v v' : Nat} (h : IsUnit u v) (h' : IsUnit u' v') {a b : Bytes} (e : u ++ a = u' ++ b) : u = u' ∧ v = v' := by
  obtain ⟨c, cs, w, base, rfl, h1, h2, _, rfl⟩ := h
  obtain ⟨c', cs', w', base', rfl, h1', h2', _, rfl⟩ := h'
  rw [List.cons_append, List.cons_append] at e
  injection e with e1 e2
  subst e1
  rw [h1] at h1'
  injection h1' with h1'
  injection h1' with hw hb
  obtain ⟨rfl, _⟩ := List.append_inj e2 (by omega)
  exact ⟨rfl, by rw [hb]⟩

theorem units_no_encodedNul {s : Bytes} (h : Units (fun _ v => v ≠ 0) s) : ¬ HasEncodedNul s := by
  rintro ⟨a, u, b, e, hl, hu⟩
  induction h generalizing a with
  | nil =>
    have := congrArg List.length e
    simp only [List.length_nil, List.length_append] at this
    omega
  | cons u' v rest hu' hv _ ih =>
    cases a with
    | nil =>
      rw [List.nil_append] at e
      exact hv (isUnit_width hu' hu e).2
    | cons x a =>
      obtain ⟨c, cs, w, base, rfl, h1, h2, h3, _⟩ := hu'
      rw [List.cons_append, List.cons_append, List.cons_append] at e
      injection e with e1 e2
      subst e1
      rw [List.append_assoc] at e2
      rcases List.append_eq_append_iff.1 e2 with ⟨d, k1, k2⟩ | ⟨d, k1, k2⟩
      · exact ih d (by rw [k2, List.append_assoc])
      · cases d with
        | nil => exact ih [] (by simpa using k2.symm)
        | cons y d =>
          obtain ⟨c', cs', w', base', rfl, g1, _, _, _⟩ := hu
          rw [List.cons_append, List.cons_append] at k2
          injection k2 with k2 k3
          have hy := h3 y (by rw [k1]; simp)
          have key : ∀ c : Byte, isCont c = true → leadOf c = none := forall_byte (by decide +kernel)
          rw [k2, key y hy] at g1
          cases g1

end Detox
