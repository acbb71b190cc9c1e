import Verif.Lemmas.Utf8
import Verif.Lemmas.Filters

/-!
# Unit structure of the output of the utf_8 filter
-/

set_option autoImplicit false

namespace Detox

open Spec

theorem Spec.Units.append {p : Bytes → Nat → Prop} {a b : Bytes} (ha : Units p a) (hb : Units p b) : Units p (a ++ b) := by
  induction ha with
  | nil => exact hb
  | cons u v rest hu hp _ ih => rw [List.append_assoc]; exact .cons u v _ hu hp ih

theorem Spec.Units.mono {p q : Bytes → Nat → Prop} {a : Bytes} (h : ∀ u v, p u v → q u v) (ha : Units p a) : Units q a := by
  induction ha with
  | nil => exact .nil
  | cons u v rest hu hp _ ih => exact .cons u v _ hu (h u v hp) ih

/-- A string of ASCII characters. -/
theorem units_ascii {p : Bytes → Nat → Prop} {a : Bytes} (h : ∀ c ∈ a, c.toNat < 0x80 ∧ p [c] c.toNat) : Units p a := by
  induction a with
  | nil => exact .nil
  | cons c a ih =>
    have := h c (by simp)
    exact .cons [c] c.toNat a (isUnit_ascii this.1) this.2 (ih fun x hx => h x (by simp [hx]))

theorem Spec.Units.nulFree {p : Bytes → Nat → Prop} {a : Bytes} (h : Units p a) (hp : ∀ u v, p u v → v ≠ 0) : NulFree a := by
  induction h with
  | nil => exact NulFree.nil
  | cons u v rest hu hpu _ ih => exact nulFree_append.mpr ⟨hu.nulFree (hp u v hpu), ih⟩

theorem Spec.IsUnit.length_pos {u : Bytes} {v : Nat} (h : IsUnit u v) : 0 < u.length := List.length_pos_iff.mpr h.ne_nil

/-- Every unit boundary of a split string carries the property. -/
theorem Spec.Units.at {p : Bytes → Nat → Prop} {s : Bytes} (h : Units p s) {q : Bytes → Nat → Prop}
    {a u b : Bytes} {v : Nat} (ha : Units q a) (hu : IsUnit u v) (he : s = a ++ u ++ b) : p u v := by
  induction ha generalizing s with
  | nil =>
    cases h with
    | nil =>
      have := hu.length_pos
      have := congrArg List.length he
      simp at this; omega
    | cons u' v' rest hu' hp _ =>
      obtain ⟨rfl, rfl, _⟩ := hu'.append_inj hu he
      exact hp
  | cons u1 v1 r1 h1 _ _ ih =>
    cases h with
    | nil =>
      have := h1.length_pos
      have := congrArg List.length he
      simp at this; omega
    | cons u' v' rest hu' hp hrest =>
      obtain ⟨_, _, hr⟩ := hu'.append_inj h1 (by rw [he]; simp only [List.append_assoc]; rfl)
      exact ih hrest (by rw [hr]; simp [List.append_assoc])

/-- All entries and the default of a table are ASCII C strings. -/
def Table.Ascii (t : Table) : Prop :=
  (∀ k r, tableGet t k = some r → ∀ c ∈ r, c.toNat < 0x80 ∧ c ≠ 0) ∧
  (∀ d, t.defaultTranslation = some d → ∀ c ∈ d, c.toNat < 0x80 ∧ c ≠ 0)

/-- The value of a unit may be kept in a name. -/
def okValue (_ : Bytes) (v : Nat) : Prop := v ≠ 0 ∧ v ≤ unicodeMax

theorem utf8Replacement_none {t : Table} {v : Nat} (h : utf8Replacement t v = none) :
    v ≠ 0 ∧ v ≤ unicodeMax ∧ tableGet t v = none ∧ t.defaultTranslation = none := by
  unfold utf8Replacement at h
  dsimp only at h
  cases hg : tableGet t v with
  | some r => simp [hg] at h
  | none =>
    simp only [hg, true_and] at h
    by_cases h0 : v = 0
    · simp [h0] at h
    · by_cases hm : v > unicodeMax
      · simp [h0, hm] at h
      · simp [h0, hm] at h
        exact ⟨h0, by omega, rfl, h⟩

theorem utf8Replacement_some {t : Table} {v : Nat} {r : Bytes} (h : utf8Replacement t v = some r) :
    tableGet t v = some r ∨ (v = 0 ∧ r = nullReplacement) ∨ (v > unicodeMax ∧ r = [invalidReplacement]) ∨
      t.defaultTranslation = some r := by
  unfold utf8Replacement at h
  dsimp only at h
  cases hg : tableGet t v with
  | some r' =>
    simp [hg] at h
    exact Or.inl (congrArg some h)
  | none =>
    simp only [hg, true_and] at h
    by_cases h0 : v = 0
    · simp [h0] at h
      exact Or.inr (Or.inl ⟨h0, h.symm⟩)
    · by_cases hm : v > unicodeMax
      · simp [h0, hm] at h
        exact Or.inr (Or.inr (Or.inl ⟨hm, h.symm⟩))
      · simp [h0, hm] at h
        exact Or.inr (Or.inr (Or.inr h))

theorem ascii_okValue {c : Byte} (h : c.toNat < 0x80 ∧ c ≠ 0) : c.toNat < 0x80 ∧ okValue [c] c.toNat := by
  refine ⟨h.1, fun h0 => h.2 ?_, by unfold unicodeMax; omega⟩
  exact UInt8.toNat_inj.mp h0

theorem utf8Fn_units {t : Table} (ht : t.Ascii) (s : Bytes) : Units okValue (utf8Fn t s) := by
  induction s using utf8_induction t with
  | nil => exact .nil
  | unit u v rest hu ih =>
    rw [utf8Fn_unit hu]
    refine Units.append ?_ ih
    cases hr : utf8Replacement t v with
    | none =>
      obtain ⟨h1, h2, _⟩ := utf8Replacement_none hr
      rw [Option.getD_none, ← List.append_nil u]
      exact .cons u v [] hu ⟨h1, h2⟩ .nil
    | some r =>
      rw [Option.getD_some]
      rcases utf8Replacement_some hr with h | ⟨_, rfl⟩ | ⟨_, rfl⟩ | h
      · exact units_ascii fun c hc => ascii_okValue (ht.1 v r h c hc)
      · have key : ∀ c ∈ nullReplacement, c.toNat < 0x80 ∧ c ≠ 0 := by decide +kernel
        exact units_ascii fun c hc => ascii_okValue (key c hc)
      · have key : ∀ c ∈ [invalidReplacement], c.toNat < 0x80 ∧ c ≠ 0 := by decide +kernel
        exact units_ascii fun c hc => ascii_okValue (key c hc)
      · exact units_ascii fun c hc => ascii_okValue (ht.2 r h c hc)
  | bad b rest _ he ih =>
    rw [he]
    have key : invalidReplacement.toNat < 0x80 ∧ invalidReplacement ≠ 0 := by decide +kernel
    exact .cons [_] _ _ (isUnit_ascii key.1) (ascii_okValue key).2 ih

/-! ### Fixed points -/

/-- The unit is left alone by the filter. -/
def fixUnit (t : Table) (u : Bytes) (v : Nat) : Prop := (utf8Replacement t v).getD u = u

theorem utf8Fn_fix {t : Table} {s : Bytes} (h : Units (fixUnit t) s) : utf8Fn t s = s := by
  induction h with
  | nil => rfl
  | cons u v rest hu hp _ ih =>
    rw [utf8Fn_unit hu, ih]
    exact congrArg (· ++ rest) hp

/-- `safe` and `wipeup` keep the unit structure. -/
theorem units_flatMap_safe {p : Bytes → Nat → Prop} {s : Bytes} (h : Units p s)
    (hp : ∀ c : Byte, c.toNat < 0x80 → c ≠ 0 → ∀ d ∈ safeMap c, p [d] d.toNat) (hs : NulFree s) :
    Units p (s.flatMap safeMap) := by
  induction h with
  | nil => exact .nil
  | cons u v rest hu hpu _ ih =>
    rw [nulFree_append] at hs
    rw [List.flatMap_append]
    refine Units.append ?_ (ih hs.2)
    rcases hu.ascii_or_high with ⟨c, rfl, hc, rfl⟩ | ⟨hlen, hx⟩
    · have hc0 : c ≠ 0 := fun h0 => hs.1 (by simp [h0])
      rw [List.flatMap_cons, List.flatMap_nil, List.append_nil]
      exact units_ascii fun d hd => ⟨(safeMap_facts c).2.2.2.2.1 hc d hd, hp c hc hc0 d hd⟩
    · have : u.flatMap safeMap = u := by
        clear hs hu hpu hlen
        induction u with
        | nil => rfl
        | cons x u ih =>
          rw [List.flatMap_cons, (safeMap_facts x).2.2.2.1 (hx x (by simp)), ih fun y hy => hx y (by simp [hy])]
          rfl
      rw [this, ← List.append_nil u]
      exact .cons u v [] hu hpu .nil

theorem wipeOut_high {search : Bytes} (hsearch : ∀ c ∈ search, c.toNat < 0x80) (u rest : Bytes) (hu : u ≠ [])
    (hx : ∀ x ∈ u, 0x80 ≤ x.toNat) (cur : Option Nat) :
    wipeOut search cur (u ++ rest) =
      (match cur with | none => [] | some i => [search.getD i 0]) ++ u ++ wipeOut search none rest := by
  induction u generalizing cur with
  | nil => exact absurd rfl hu
  | cons x u ih =>
    have hf : search.findIdx? (· = x) = none := by
      rw [List.findIdx?_eq_none_iff]
      intro y hy
      have h1 := hsearch y hy
      have h2 := hx x (by simp)
      simp only [decide_eq_false_iff_not]
      rintro rfl; omega
    rw [List.cons_append]
    conv => lhs; unfold wipeOut
    rw [hf]
    dsimp only
    by_cases hu' : u = []
    · subst hu'
      cases cur <;> simp
    · rw [ih hu' (fun y hy => hx y (by simp [hy])) none]
      cases cur <;> simp

theorem wipeOut_units {p : Bytes → Nat → Prop} {search s : Bytes} (h : Units p s)
    (hsearch : ∀ c ∈ search, c.toNat < 0x80 ∧ p [c] c.toNat) (cur : Option Nat) (hcur : ∀ i, cur = some i → i < search.length) :
    Units p (wipeOut search cur s) := by
  have flush : ∀ cur : Option Nat, (∀ i, cur = some i → i < search.length) →
      Units p (match cur with | none => [] | some i => [search.getD i 0]) := by
    intro cur hcur
    cases cur with
    | none => exact .nil
    | some i =>
      have hi := hcur i rfl
      refine units_ascii fun c hc => ?_
      rw [List.mem_singleton, List.getD_eq_getElem?_getD, List.getElem?_eq_getElem hi] at hc
      subst hc
      exact hsearch _ (List.getElem_mem hi)
  induction h generalizing cur with
  | nil =>
    unfold wipeOut
    exact flush cur hcur
  | cons u v rest hu hp _ ih =>
    rcases hu.ascii_or_high with ⟨c, rfl, hc, rfl⟩ | ⟨h2, hx⟩
    · rw [List.singleton_append]
      unfold wipeOut
      cases hf : search.findIdx? (· = c) with
      | some seek =>
        have hseek : seek < search.length := by
          rw [List.findIdx?_eq_some_iff_findIdx_eq] at hf
          exact hf.1
        refine ih _ ?_
        intro i hi
        cases cur with
        | none => injection hi with hi; omega
        | some j =>
          dsimp only at hi
          have := hcur j rfl
          split at hi <;> injection hi with hi <;> omega
      | none =>
        dsimp only
        exact (flush cur hcur).append (.cons [c] _ _ (isUnit_ascii hc) hp (ih none (by simp)))
    · rw [wipeOut_high (fun c hc => (hsearch c hc).1) u rest (by intro h; simp [h] at h2) hx]
      exact ((flush cur hcur).append (by rw [← List.append_nil u]; exact .cons u v [] hu hp .nil)).append (ih none (by simp))

theorem wipeLead_units {p : Bytes → Nat → Prop} {s : Bytes} (h : Units p s) : Units p (wipeLead s) := by
  rw [wipeLead_eq]
  induction h with
  | nil => exact .nil
  | cons u v rest hu hp hrest ih =>
    rcases hu.ascii_or_high with ⟨c, rfl, hc, rfl⟩ | ⟨h2, hx⟩
    · rw [List.singleton_append, List.dropWhile_cons]
      split
      · exact ih
      · exact .cons [c] _ _ hu hp hrest
    · obtain ⟨x, u, rfl⟩ := List.exists_cons_of_ne_nil hu.ne_nil
      rw [List.cons_append, List.dropWhile_cons_of_neg, ← List.cons_append]
      · exact .cons _ _ _ hu hp hrest
      · have hl : ∀ x : Byte, 0x80 ≤ x.toNat → leading x = false := forall_byte (by decide +kernel)
        rw [hl x (hx x (by simp))]; simp

theorem wipe_units {p : Bytes → Nat → Prop} {s : Bytes} (rt : Bool) (h : Units p s)
    (hp : ∀ c ∈ ([0x2E, 0x2D, 0x5F] : Bytes), p [c] c.toNat) : Units p (wipe rt s) := by
  unfold wipe
  refine wipeOut_units (wipeLead_units h) ?_ none (by simp)
  have : ∀ c ∈ wipeSearch rt, c ∈ ([0x2E, 0x2D, 0x5F] : Bytes) ∧ c.toNat < 0x80 := by
    cases rt <;> decide +kernel
  intro c hc
  exact ⟨(this c hc).2, hp c (this c hc).1⟩

end Detox
