import Verif.Spec.Brings
import Verif.Lemmas.Buf
import Verif.Lemmas.Utf8
import Verif.Lemmas.LoadedTable

/-!
# Bytes of the output
-/

set_option autoImplicit false

namespace Detox
open Spec

theorem emit_mem {cap : Nat} {out r : Bytes} (h : emit cap out = .ok r) {b : Byte} (hb : b ∈ r) : b ∈ out := by
  rw [emit_eq] at h
  split at h
  · cases h; exact (cstr_sublist out).mem hb
  · cases h

theorem lowerLoop_push {P : Platform} (s : Bytes) (o o' : OutBuf) (h : cleanLowerLoop P o s = .ok o') : o.pushStr (s.map toLowerC) = .ok o' := by
  induction s generalizing o with
  | nil => exact h
  | cons c s ih =>
    unfold cleanLowerLoop at h
    rw [show (c :: s).map toLowerC = toLowerC c :: s.map toLowerC from rfl, ← OutBuf.push_bind]
    unfold ctypeCall at h
    split at h
    · cases h
    · rw [Res.bind_ok] at h
      by_cases hu : isUpperC c = true
      · rw [if_pos hu] at h
        cases hp : o.push (toLowerC c) with
        | ok o1 => rw [hp] at h; exact ih o1 h
        | exit => rw [hp] at h; cases h
        | ub => rw [hp] at h; cases h
        | stuck => rw [hp] at h; cases h
      · rw [if_neg hu] at h
        rw [show toLowerC c = c from if_neg hu]
        cases hp : o.push c with
        | ok o1 => rw [hp] at h; exact ih o1 h
        | exit => rw [hp] at h; cases h
        | ub => rw [hp] at h; cases h
        | stuck => rw [hp] at h; cases h

theorem cleanLower_emit {P : Platform} {s r : Bytes} (h : cleanLower P s = .ok r) : emit (s.length + 1) (s.map toLowerC) = .ok r := by
  unfold cleanLower at h
  unfold emit
  cases hl : cleanLowerLoop P (OutBuf.alloc (s.length + 1)) s with
  | ok o => rw [hl] at h; rw [lowerLoop_push _ _ _ hl]; exact h
  | exit => rw [hl] at h; cases h
  | ub => rw [hl] at h; cases h
  | stuck => rw [hl] at h; cases h

theorem toLower_cases : ∀ c : Byte, (toLowerC c = c ∧ ¬ (0x41 ≤ c.toNat ∧ c.toNat ≤ 0x5A)) ∨ (0x61 ≤ (toLowerC c).toNat ∧ (toLowerC c).toNat ≤ 0x7A) :=
  forall_byte (by decide +kernel)

theorem isoSub_has {t : Table} {c b : Byte} (h : b ∈ isoSub t c) :
    TableHas t b ∨ (b = c ∧ (c.toNat < 0x80 ∨ (t.defaultTranslation = none ∧ tableGet t c.toNat = none))) := by
  have low : ∀ c : Byte, c &&& 0x80 = 0 → c.toNat < 0x80 := forall_byte (by decide +kernel)
  unfold isoSub at h
  split at h
  · next hl => exact .inr ⟨List.mem_singleton.1 h, .inl (low c hl)⟩
  · cases hg : tableGet t c.toNat with
    | some r => rw [hg] at h; exact .inl (.inl ⟨_, r, hg, h⟩)
    | none =>
      rw [hg] at h
      cases hd : t.defaultTranslation with
      | some d => rw [hd] at h; exact .inl (.inr ⟨d, hd, h⟩)
      | none => rw [hd] at h; exact .inr ⟨List.mem_singleton.1 h, .inr ⟨rfl, rfl⟩⟩

theorem safeSub_has {P : Platform} {t : Table} {c b : Byte} (h : b ∈ safeSub P t c) :
    TableHas t b ∨ (b = c ∧ t.defaultTranslation = none ∧ tableGet t (P.charToUInt c) = none) := by
  unfold safeSub at h
  cases hg : tableGet t (P.charToUInt c) with
  | some r => rw [hg] at h; exact .inl (.inl ⟨_, r, hg, h⟩)
  | none =>
    rw [hg] at h
    cases hd : t.defaultTranslation with
    | some d => rw [hd] at h; exact .inl (.inr ⟨d, hd, h⟩)
    | none => rw [hd] at h; exact .inr ⟨List.mem_singleton.1 h, rfl, rfl⟩

theorem replacement_has {t : Table} {v : Nat} {r : Bytes} {b : Byte} (h : utf8Replacement t v = some r) (hb : b ∈ r) :
    TableHas t b ∨ b ∈ lit "_hidden_null_" := by
  unfold utf8Replacement at h
  dsimp only at h
  cases hg : tableGet t v with
  | some r' =>
    rw [hg] at h
    simp only [reduceCtorEq, false_and, if_false, Option.some.injEq] at h
    exact .inl (.inl ⟨v, r', hg, h ▸ hb⟩)
  | none =>
    rw [hg] at h
    by_cases h0 : v = 0
    · simp only [h0, and_self, if_true, reduceCtorEq, false_and, if_false, Option.some.injEq] at h
      subst h
      exact .inr hb
    · by_cases h1 : v > unicodeMax
      · simp only [h0, h1, and_self, and_false, if_true, if_false, reduceCtorEq, Option.some.injEq] at h
        subst h
        rw [List.mem_singleton.1 hb]
        exact .inr (by decide)
      · simp only [h0, h1, and_false, if_true, if_false] at h
        exact .inl (.inr ⟨r, h, hb⟩)

theorem replacement_none {t : Table} {v : Nat} (h : utf8Replacement t v = none) : tableGet t v = none ∧ t.defaultTranslation = none := by
  unfold utf8Replacement at h
  dsimp only at h
  cases hg : tableGet t v with
  | some r' => rw [hg] at h; simp at h
  | none =>
    rw [hg] at h
    by_cases h0 : v = 0
    · simp [h0] at h
    · by_cases h1 : v > unicodeMax
      · simp [h0, h1] at h
      · simp only [h0, h1, and_false, if_true, if_false] at h
        exact ⟨rfl, h⟩

theorem utf8Width_low : ∀ c : Byte, c.toNat < 0x80 → utf8Width c = some 1 := forall_byte (by decide +kernel)
theorem utf8Width_high : ∀ c : Byte, ¬ c.toNat < 0x80 → utf8Width c ≠ some 1 := forall_byte (by decide +kernel)
theorem utf8Width_pos : ∀ c : Byte, utf8Width c ≠ some 0 := forall_byte (by decide +kernel)
theorem isCont_high : ∀ c : Byte, isCont c = true → 0x80 ≤ c.toNat := forall_byte (by decide +kernel)

theorem utf8Out_has {t : Table} {b : Byte} : ∀ (n : Nat) (s : Bytes), b ∈ utf8Out t n s →
    TableHas t b ∨ b ∈ lit "_hidden_null_" ∨ (b ∈ s ∧ t.defaultTranslation = none ∧ (b.toNat < 0x80 → tableGet t b.toNat = none)) := by
  have inv : b = invalidReplacement → b ∈ lit "_hidden_null_" := by rintro rfl; decide
  intro n
  induction n with
  | zero => intro s h; cases s <;> cases h
  | succ n ih =>
    intro s h
    cases s with
    | nil => cases h
    | cons c rest =>
      unfold utf8Out at h
      cases hw : utf8Width c with
      | none =>
        rw [hw] at h
        rcases List.mem_cons.1 h with h | h
        · exact .inr (.inl (inv h))
        · rcases ih rest h with h | h | ⟨h1, h2⟩
          · exact .inl h
          · exact .inr (.inl h)
          · exact .inr (.inr ⟨List.mem_cons_of_mem _ h1, h2⟩)
      | some w =>
        rw [hw] at h
        have up : ∀ rest', (∀ x ∈ rest', x ∈ rest) → b ∈ utf8Out t n rest' →
            TableHas t b ∨ b ∈ lit "_hidden_null_" ∨
              (b ∈ c :: rest ∧ t.defaultTranslation = none ∧ (b.toNat < 0x80 → tableGet t b.toNat = none)) := by
          intro rest' hsub h
          rcases ih rest' h with h | h | ⟨h1, h2⟩
          · exact .inl h
          · exact .inr (.inl h)
          · exact .inr (.inr ⟨List.mem_cons_of_mem _ (hsub _ h1), h2⟩)
        rcases eatCont_spec (w - 1) (unpackStart w c) rest with ⟨conts, rest', hr, hl, hc, he⟩ | ⟨conts, rest', hr, hl, hc, _, he⟩
        · dsimp only at h
          rw [he] at h
          dsimp only at h
          have hsub : ∀ x ∈ rest', x ∈ rest := fun x hx => by rw [hr]; exact List.mem_append_right _ hx
          rcases List.mem_append.1 h with h | h
          · cases hu : utf8Replacement t (contVal (unpackStart w c) conts) with
            | some r =>
              rw [hu] at h
              rcases replacement_has hu h with h | h
              · exact .inl h
              · exact .inr (.inl h)
            | none =>
              rw [hu] at h
              obtain ⟨hg, hd⟩ := replacement_none hu
              have hmem : b ∈ (c :: rest).take w := h
              have hb : b = c ∨ b ∈ conts := by
                cases w with
                | zero => cases hmem
                | succ w =>
                  rw [List.take_succ_cons] at hmem
                  rcases List.mem_cons.1 hmem with h | h
                  · exact .inl h
                  · rw [hr, List.take_append_of_le_length (by omega)] at h
                    exact .inr (List.mem_of_mem_take h)
              refine .inr (.inr ⟨?_, hd, fun hlow => ?_⟩)
              · rcases hb with rfl | hb
                · simp
                · rw [hr]; simp [hb]
              · rcases hb with rfl | hb
                · have := utf8Width_low b hlow
                  rw [hw] at this
                  cases this
                  have : conts = [] := List.length_eq_zero_iff.1 hl
                  subst this
                  exact hg
                · have := isCont_high b (hc b hb)
                  omega
          · exact up rest' hsub h
        · dsimp only at h
          rw [he] at h
          dsimp only at h
          rcases List.mem_cons.1 h with h | h
          · exact .inr (.inl (inv h))
          · exact up rest' (fun x hx => by rw [hr]; exact List.mem_append_right _ hx) h

theorem wipeOut_has {search : Bytes} {b : Byte} : ∀ (s : Bytes) (cur : Option Nat), b ∈ wipeOut search cur s →
    b ∈ s ∨ ∃ i, cur = some i ∧ b = search.getD i 0 := by
  intro s
  induction s with
  | nil =>
    intro cur h
    unfold wipeOut at h
    cases cur with
    | none => cases h
    | some i => exact .inr ⟨i, rfl, List.mem_singleton.1 h⟩
  | cons c s ih =>
    intro cur h
    unfold wipeOut at h
    cases hf : search.findIdx? (· = c) with
    | none =>
      rw [hf] at h
      rcases List.mem_append.1 h with h | h
      · cases cur with
        | none => cases h
        | some i => exact .inr ⟨i, rfl, List.mem_singleton.1 h⟩
      · rcases List.mem_cons.1 h with h | h
        · exact .inl (h ▸ by simp)
        · rcases ih none h with h | ⟨i, h, _⟩
          · exact .inl (List.mem_cons_of_mem _ h)
          · cases h
    | some seek =>
      rw [hf] at h
      have hs : search.getD seek 0 = c := by
        obtain ⟨hlt, h1, _⟩ := List.findIdx?_eq_some_iff_getElem.1 hf
        have h1 : search[seek] = c := by simpa using h1
        rw [List.getD_eq_getElem?_getD, List.getElem?_eq_getElem hlt]
        exact h1
      rcases ih _ h with h | ⟨i, h, hb⟩
      · exact .inl (List.mem_cons_of_mem _ h)
      · cases cur with
        | none =>
          cases h
          exact .inl (by rw [hb, hs]; simp)
        | some j =>
          dsimp only at h
          split at h
          · cases h
            exact .inl (by rw [hb, hs]; simp)
          · cases h
            exact .inr ⟨_, rfl, hb⟩

theorem wipeLead_sub {b : Byte} : ∀ (s : Bytes), b ∈ wipeLead s → b ∈ s
  | [], h => h
  | c :: s, h => by
    unfold wipeLead at h
    split at h
    · exact List.mem_cons_of_mem _ (wipeLead_sub s h)
    · exact h

theorem maxLength_sub {P : Platform} {n : Nat} {s r : Bytes} (h : cleanMaxLength P n s = .ok r) {b : Byte} (hb : b ∈ r) : b ∈ s := by
  unfold cleanMaxLength at h
  dsimp only at h
  generalize (if n = 0 then 256 else n) = n at h
  split at h
  · cases h; exact hb
  · cases hx : strrchrIdx 0x2E s with
    | none => rw [hx] at h; cases h; exact List.mem_of_mem_take hb
    | some e =>
      rw [hx] at h
      dsimp only at h
      split at h
      · cases h; exact List.mem_of_mem_take hb
      · cases hl : lookBack P s e e with
        | ok x =>
          rw [hl] at h
          rw [Res.bind_ok] at h
          split at h
          · cases h; exact hb
          · cases h
            rcases List.mem_append.1 hb with hb | hb
            · exact List.mem_of_mem_take (List.mem_of_mem_take hb)
            · exact List.mem_of_mem_drop hb
        | exit => rw [hl] at h; cases h
        | ub => rw [hl] at h; cases h
        | stuck => rw [hl] at h; cases h

/-- Where a byte of the output comes from. -/
theorem filterRun_has {P : Platform} {f : Filter} {s r : Bytes} (h : filterRun P f (some s) = .ok (some r)) {b : Byte} (hb : b ∈ r) :
    Brings f b ∨ (b ∈ s ∧ ¬ Replaces P f b) := by
  have inv : ∀ {x : Res Bytes}, (x >>= fun r => (pure (some r) : Res (Option Bytes))) = .ok (some r) → x = .ok r := by
    intro x h
    cases x with
    | ok a => cases h; rfl
    | exit => cases h
    | ub => cases h
    | stuck => cases h
  unfold filterRun at h
  unfold Brings Replaces
  cases hc : f.cleaner with
  | iso8859_1 =>
    rw [hc] at h
    have h := inv h
    cases ht : f.table with
    | none => rw [ht] at h; cases h
    | some t =>
      rw [ht, cleanIso_eq] at h
      obtain ⟨c, hcs, hbc⟩ := List.mem_flatMap.1 (emit_mem h hb)
      rcases isoSub_has hbc with h1 | ⟨rfl, h1⟩
      · exact .inl ⟨t, rfl, h1⟩
      · refine .inr ⟨hcs, fun ⟨h2, h3⟩ => ?_⟩
        rcases h1 with h1 | ⟨h4, h5⟩
        · omega
        · exact (h3 t rfl).elim (fun h => h h4) (fun h => h h5)
  | safe =>
    rw [hc] at h
    have h := inv h
    cases ht : f.table with
    | none => rw [ht] at h; cases h
    | some t =>
      rw [ht, cleanSafe_eq] at h
      obtain ⟨c, hcs, hbc⟩ := List.mem_flatMap.1 (emit_mem h hb)
      rcases safeSub_has hbc with h1 | ⟨rfl, h4, h5⟩
      · exact .inl ⟨t, rfl, h1⟩
      · exact .inr ⟨hcs, fun h3 => (h3 t rfl).elim (fun h => h h4) (fun h => h h5)⟩
  | utf8 =>
    rw [hc] at h
    have h := inv h
    cases ht : f.table with
    | none => rw [ht] at h; cases h
    | some t =>
      rw [ht, cleanUtf8_eq] at h
      rcases utf8Out_has _ _ (emit_mem h hb) with h1 | h1 | ⟨h1, h2, h3⟩
      · exact .inl (.inr ⟨t, rfl, h1⟩)
      · exact .inl (.inl h1)
      · exact .inr ⟨h1, fun h4 => (h4 t rfl).elim (fun h => h h2) (fun h => h.2 (h3 h.1))⟩
  | lower =>
    rw [hc] at h
    have h := cleanLower_emit (inv h)
    obtain ⟨c, hcs, rfl⟩ := List.mem_map.1 (emit_mem h hb)
    rcases toLower_cases c with ⟨h1, h2⟩ | h1
    · rw [h1]; exact .inr ⟨hcs, h2⟩
    · exact .inl h1
  | maxLength =>
    rw [hc] at h
    exact .inr ⟨maxLength_sub (inv h) hb, fun h => h⟩
  | uncgi => exact .inl trivial
  | wipeup =>
    rw [hc] at h
    have h := inv h
    rw [cleanWipeup_eq] at h
    rcases wipeOut_has _ _ (emit_mem h hb) with h1 | ⟨_, h1, _⟩
    · exact .inr ⟨wipeLead_sub _ h1, fun h => h⟩
    · cases h1

theorem runFilters_inv {P : Platform} {f : Filter} {fs : List Filter} {s out : Bytes} (h : runFilters P (f :: fs) (some s) = .ok (some out)) :
    ∃ r, filterRun P f (some s) = .ok (some r) ∧ runFilters P fs (some r) = .ok (some out) := by
  rw [runFilters] at h
  cases hr : filterRun P f (some s) with
  | ok a =>
    rw [hr] at h
    cases a with
    | none =>
      cases fs <;> cases h
    | some r => exact ⟨r, rfl, h⟩
  | exit => rw [hr] at h; cases h
  | ub => rw [hr] at h; cases h
  | stuck => rw [hr] at h; cases h

theorem runFilters_has {P : Platform} {b : Byte} : ∀ (fs : List Filter) (s out : Bytes), runFilters P fs (some s) = .ok (some out) → b ∈ out →
    (∀ f ∈ fs, ¬ Brings f b) → b ∈ s ∧ ∀ f ∈ fs, ¬ Replaces P f b
  | [], s, out, h, hb, _ => by cases h; exact ⟨hb, fun _ h => by cases h⟩
  | f :: fs, s, out, h, hb, hn => by
    obtain ⟨r, h1, h2⟩ := runFilters_inv h
    obtain ⟨h3, h4⟩ := runFilters_has fs r out h2 hb fun g hg => hn g (List.mem_cons_of_mem _ hg)
    rcases filterRun_has h1 h3 with h5 | ⟨h5, h6⟩
    · exact absurd h5 (hn f (by simp))
    · refine ⟨h5, fun g hg => ?_⟩
      rcases List.mem_cons.1 hg with rfl | hg
      · exact h6
      · exact h4 g hg

theorem runFilters_split {P : Platform} : ∀ (pre fs : List Filter) (s out : Bytes), runFilters P (pre ++ fs) (some s) = .ok (some out) →
    ∃ r, runFilters P fs (some r) = .ok (some out)
  | [], fs, s, out, h => ⟨s, h⟩
  | f :: pre, fs, s, out, h => by
    obtain ⟨r, _, h2⟩ := runFilters_inv (fs := pre ++ fs) h
    exact runFilters_split pre fs r out h2

end Detox
