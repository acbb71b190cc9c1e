import Verif.Lemmas.TableStream
import Verif.Props.ParseTable

/-!
# What the size of a table file is good for
-/

set_option autoImplicit false

namespace Detox
open Spec

theorem parseTableSized_eq (ctype : Bytes) (size : Int) (content : Bytes) :
    parseTableSized ctype size content = applyActions (tableInit (tableRowsOf size)) (lineActions ctype false (fileLines content.length content)) := by
  unfold parseTableSized
  rw [parseTableLines_eq]

theorem tableRowsOf_ge (size : Int) : 500 ≤ tableRowsOf size := by
  unfold tableRowsOf
  simp only
  split <;> omega

theorem tableRowsOf_nonpos {size : Int} (h : size ≤ 0) : tableRowsOf size = 500 := by
  have h' : ¬ size > 0 := by omega
  unfold tableRowsOf
  simp only [if_neg h']
  rfl

theorem tableRowsOf_small {n : Nat} (h : n < 6 * 2 ^ 31) : tableRowsOf n = ((max 500 (n / 6) : Nat) : Int) := by
  have h1 : ((n : Int) / (lineLength : Int)) = ((n / 6 : Nat) : Int) := by unfold lineLength; omega
  have h2 : n / 6 < 2 ^ 31 := by omega
  have h3 : intOfLong ((n / 6 : Nat) : Int) = ((n / 6 : Nat) : Int) := by
    unfold intOfLong
    have : ¬ (((n / 6 : Nat) : Int) > 2 ^ 63 - 1) := by omega
    have h4 : ¬ (((n / 6 : Nat) : Int) < -(2 ^ 63)) := by omega
    simp only [if_neg this, if_neg h4]
    rw [if_neg (by omega)]
    omega
  unfold tableRowsOf
  simp only [h1, h3]
  split <;> split <;> omega

theorem tableInit_rows_length (size : Int) : (tableInit (tableRowsOf size)).rows.length = (tableRowsOf size).toNat := by
  have := tableRowsOf_ge size
  unfold tableInit
  simp only [List.length_replicate]
  rw [if_neg (by omega)]

theorem applyActions_keys : ∀ (as : List LineAction) (t t' : Table), applyActions t as = some t' → ∀ r ∈ actionRows as, r.1 ≠ 0
  | [], _, _, _, _, hr => by cases hr
  | .skip :: as, t, t', h, r, hr => applyActions_keys as t t' h r hr
  | .enter :: as, t, t', h, r, hr => applyActions_keys as t t' h r hr
  | .leave :: as, t, t', h, r, hr => applyActions_keys as t t' h r hr
  | .dflt d :: as, t, t', h, r, hr => applyActions_keys as _ t' h r hr
  | .row k d :: as, t, t', h, r, hr => by
    have hk : k ≠ 0 := by
      intro hk
      subst hk
      simp [applyActions, tablePut] at h
    simp only [actionRows, List.mem_cons] at hr
    rcases hr with rfl | hr
    · exact hk
    · unfold applyActions at h
      cases hp : tablePut t k d with
      | mk t1 o =>
        rw [hp] at h
        cases o with
        | none => cases h
        | some o => exact applyActions_keys as t1 t' h r hr

/-- A table that was read: its rows, default and longest entry are those of the text. -/
theorem sized_some {ctype content : Bytes} {size : Int} {t : Table} (h : parseTableSized ctype size content = some t) :
    let as := lineActions ctype false (fileLines content.length content)
    (∀ k, tableGet t k = lastOf (actionRows as) k) ∧ t.defaultTranslation = actionDefault none as ∧
    t.maxDataLength = longestOf 0 ((actionRows as).map Prod.snd) ∧ (actionRows as).length ≤ (tableRowsOf size).toNat := by
  intro as
  rw [parseTableSized_eq] at h
  have hwf : (tableInit (tableRowsOf size)).WF := Table.WF.init _
  obtain ⟨s1, s2⟩ := applyActions_spec as _ hwf (applyActions_keys as _ t h)
  have hroom : (actionRows as).length ≤ (tableInit (tableRowsOf size)).rows.length := by
    refine Nat.le_of_not_lt fun hlt => ?_
    rw [s2 (by show _ < 0 + _; omega)] at h
    cases h
  obtain ⟨t', e1, _, _, e4, e5⟩ := s1 (by show 0 + _ ≤ _; omega)
  rw [h] at e1
  cases e1
  refine ⟨fun k => ?_, e4, (applyActions_longest as _ t hwf h).1, by rwa [tableInit_rows_length] at hroom⟩
  rw [e5 k, show tableGet (tableInit (tableRowsOf size)) k = none from freshTable_get _ true k]
  cases lastOf _ k <;> rfl

theorem sized_none {ctype content : Bytes} {size : Int} (h0 : ∀ r ∈ actionRows (lineActions ctype false (fileLines content.length content)), r.1 ≠ 0) :
    parseTableSized ctype size content = none ↔ (tableRowsOf size).toNat < (actionRows (lineActions ctype false (fileLines content.length content))).length := by
  constructor
  · intro h
    rw [parseTableSized_eq] at h
    refine Nat.lt_of_not_le fun hle => ?_
    obtain ⟨t, e, _⟩ := (applyActions_spec _ _ (Table.WF.init (tableRowsOf size)) h0).1 (by
      show 0 + _ ≤ (tableInit (tableRowsOf size)).rows.length
      rw [tableInit_rows_length]; omega)
    have e : applyActions (tableInit (tableRowsOf size)) (lineActions ctype false (fileLines content.length content)) = some t := e
    rw [h] at e
    cases e
  · intro h
    cases ht : parseTableSized ctype size content with
    | none => rfl
    | some t => exact absurd (sized_some ht).2.2.2 (by omega)

/-! ### The filters only see lookups -/

/-- Nothing that the filters look at is different. -/
def SameLookups (t t' : Table) : Prop :=
  (∀ k, tableGet t k = tableGet t' k) ∧ t.defaultTranslation = t'.defaultTranslation ∧ t.maxDataLength = t'.maxDataLength

theorem SameLookups.iso {t t' : Table} (h : SameLookups t t') : cleanIso (some t) = cleanIso (some t') := by
  have loop : ∀ (s : Bytes) (o : OutBuf), cleanIsoLoop t o s = cleanIsoLoop t' o s := by
    intro s
    induction s with
    | nil => intro o; rfl
    | cons c s ih => intro o; unfold cleanIsoLoop; simp only [h.1, h.2.1, ih]
  funext s
  unfold cleanIso
  simp only [h.2.2, loop]

theorem SameLookups.safe {t t' : Table} (h : SameLookups t t') (P : Platform) : cleanSafe P (some t) = cleanSafe P (some t') := by
  have loop : ∀ (s : Bytes) (o : OutBuf), cleanSafeLoop P t o s = cleanSafeLoop P t' o s := by
    intro s
    induction s with
    | nil => intro o; rfl
    | cons c s ih => intro o; unfold cleanSafeLoop; simp only [h.1, h.2.1, ih]
  funext s
  unfold cleanSafe
  simp only [h.2.2, loop]

theorem SameLookups.utf8 {t t' : Table} (h : SameLookups t t') : cleanUtf8 (some t) = cleanUtf8 (some t') := by
  have hr : ∀ v, utf8Replacement t v = utf8Replacement t' v := by
    intro v; unfold utf8Replacement; simp only [h.1, h.2.1]
  have loop : ∀ (n : Nat) (s : Bytes) (o : OutBuf), cleanUtf8Loop t n o s = cleanUtf8Loop t' n o s := by
    intro n
    induction n with
    | zero => intro s o; cases s <;> rfl
    | succ n ih => intro s o; cases s with
      | nil => rfl
      | cons c s => unfold cleanUtf8Loop; simp only [hr, ih]
  funext s
  unfold cleanUtf8
  simp only [h.2.2, loop]

/-! ### First parts of a text in lines -/

theorem lines_prefix : ∀ (ls : List Bytes) (x : Bytes), (∀ l ∈ ls, (0x0A : Byte) ∉ l) → x ++ [0x0A] <+: (ls.map (· ++ [0x0A])).flatten →
    ∃ k, k ≤ ls.length ∧ x ++ [0x0A] = ((ls.take k).map (· ++ [0x0A])).flatten
  | [], x, _, h => by
    have := List.prefix_nil.1 h
    simp at this
  | l :: ls, x, hl, h => by
    simp only [List.map_cons, List.flatten_cons] at h
    have hnl := hl l (by simp)
    by_cases hlen : x.length < l.length
    · exfalso
      have h1 : x ++ [0x0A] <+: l := by
        refine List.prefix_of_prefix_length_le h ?_ (by simp; omega)
        rw [List.append_assoc]
        exact List.prefix_append _ _
      exact hnl (h1.subset (by simp))
    · have h1 : l ++ [0x0A] <+: x ++ [0x0A] :=
        List.prefix_of_prefix_length_le (List.prefix_append _ _) h (by simp; omega)
      obtain ⟨y, hy⟩ := h1
      rcases List.eq_nil_or_concat y with rfl | ⟨y', c, rfl⟩
      · exact ⟨1, by simp, by simpa using hy.symm⟩
      · rw [List.concat_eq_append, ← List.append_assoc] at hy
        have hc := List.append_inj' hy (by simp)
        have h2 : y' ++ [0x0A] <+: (ls.map (· ++ [0x0A])).flatten := by
          rw [← hc.1, List.append_assoc] at h
          simpa using h
        obtain ⟨k, hk, e⟩ := lines_prefix ls y' (fun l hm => hl l (by simp [hm])) h2
        refine ⟨k + 1, by simp; omega, ?_⟩
        rw [← hc.1, List.take_succ_cons, List.map_cons, List.flatten_cons, ← e, List.append_assoc]

theorem lines_chunk : ∀ (ls : List Bytes) (x y : Bytes) (m : Nat), (∀ l ∈ ls, l.length ≤ m) → (0x0A : Byte) ∉ y →
    x ++ y <+: (ls.map (· ++ [0x0A])).flatten → y.length ≤ m
  | [], x, y, m, _, _, h => by
    have := List.prefix_nil.1 h
    simp at this
    simp [this]
  | l :: ls, x, y, m, hl, hy, h => by
    simp only [List.map_cons, List.flatten_cons] at h
    by_cases hx : l.length < x.length
    · have h1 : l ++ [0x0A] <+: x := by
        refine List.prefix_of_prefix_length_le (List.prefix_append _ _) ((List.prefix_append x y).trans h) (by simp; omega)
      obtain ⟨z, rfl⟩ := h1
      rw [List.append_assoc, List.append_assoc, List.append_assoc] at h
      exact lines_chunk ls z y m (fun l hm => hl l (by simp [hm])) hy (by simpa using h)
    · by_cases hlen : x.length + y.length ≤ l.length
      · have := hl l (by simp)
        omega
      · exfalso
        have h1 : l ++ [0x0A] <+: x ++ y :=
          List.prefix_of_prefix_length_le (List.prefix_append _ _) h (by simp; omega)
        have h2 : x <+: l := List.prefix_of_prefix_length_le ((List.prefix_append x y).trans h)
          ((List.prefix_append l [0x0A]).trans (List.prefix_append _ _)) (by omega)
        obtain ⟨z, rfl⟩ := h2
        rw [List.append_assoc] at h1
        have h3 : z ++ [0x0A] <+: y := by simpa using h1
        exact hy (h3.subset (by simp))

end Detox
