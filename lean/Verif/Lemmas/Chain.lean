import Verif.Spec.Chain
import Verif.Props.Denote
import Verif.Lemmas.Units

/-!
# Lemmas for C113: tables in a row
-/

set_option autoImplicit false

namespace Detox
open Spec

/-! ### Filters that work byte by byte -/

section
variable {touch : Byte → Bool} {code : Byte → Option Nat}

/-- A filter that works on the bytes of `touch`. -/
def byteSays (touch : Byte → Bool) (code : Byte → Option Nat) (m : TableText) (c : Byte) : Bytes := if touch c = true then m.says (code c) [c] else [c]

theorem merged_row {m m' : TableText} {ms : List TableText} (k : Option Nat) :
    k.bind (merged (m :: m' :: ms)).row = (k.bind m.row).or (k.bind (merged (m' :: ms)).row) := by
  cases k <;> rfl

theorem onlyLast_head {m m' : TableText} {ms : List TableText} (h : OnlyLastDefault (m :: m' :: ms)) : m.dflt = none := h m (by simp)

theorem onlyLast_tail {m m' : TableText} {ms : List TableText} (h : OnlyLastDefault (m :: m' :: ms)) : OnlyLastDefault (m' :: ms) :=
  fun x hx => h x (by rw [List.dropLast_cons_of_ne_nil (by simp)]; simp [hx])

theorem byteSays_merged {m m' : TableText} {ms : List TableText} (c : Byte) :
    byteSays touch code (merged (m :: m' :: ms)) c =
      match if touch c = true then (code c).bind m.row else none with
      | some d => d
      | none => byteSays touch code (merged (m' :: ms)) c := by
  unfold byteSays TableText.says
  rw [merged_row]
  by_cases ht : touch c = true
  · rw [if_pos ht, if_pos ht, if_pos ht]
    cases (code c).bind m.row <;> rfl
  · rw [if_neg ht, if_neg ht, if_neg ht]

theorem byteSays_first {m : TableText} (hd : m.dflt = none) (c : Byte) :
    byteSays touch code m c = (if touch c = true then (code c).bind m.row else none).getD [c] := by
  unfold byteSays TableText.says
  rw [hd]
  by_cases ht : touch c = true
  · rw [if_pos ht, if_pos ht]
    cases (code c).bind m.row <;> rfl
  · rw [if_neg ht, if_neg ht]; rfl

/-- One filter after the other. -/
def inTurn (touch : Byte → Bool) (code : Byte → Option Nat) : List TableText → Bytes → Bytes
  | [], s => s
  | m :: ms, s => inTurn touch code ms (s.flatMap (byteSays touch code m))

theorem inTurn_append (ms : List TableText) (a b : Bytes) : inTurn touch code ms (a ++ b) = inTurn touch code ms a ++ inTurn touch code ms b := by
  induction ms generalizing a b with
  | nil => rfl
  | cons m ms ih => simp only [inTurn, List.flatMap_append, ih]

theorem inTurn_nil (ms : List TableText) : inTurn touch code ms [] = [] := by
  induction ms with
  | nil => rfl
  | cons m ms ih => simpa [inTurn] using ih

theorem inTurn_flatMap (ms : List TableText) (s : Bytes) : inTurn touch code ms s = s.flatMap fun c => inTurn touch code ms [c] := by
  induction s with
  | nil => exact inTurn_nil ms
  | cons c s ih => rw [List.flatMap_cons, ← ih, ← inTurn_append]; rfl

theorem inTurn_left (ms : List TableText) (d : Bytes) (h : ∀ m ∈ ms, d.flatMap (byteSays touch code m) = d) : inTurn touch code ms d = d := by
  induction ms with
  | nil => rfl
  | cons m ms ih =>
    rw [inTurn, h m (by simp)]
    exact ih fun m' hm => h m' (by simp [hm])

theorem inTurn_merged {m : TableText} {ms : List TableText} (hd : OnlyLastDefault (m :: ms))
    (hp : (m :: ms).Pairwise fun a b => ∀ c, c ≠ 0 → touch c = true → ∀ d, (code c).bind a.row = some d → d.flatMap (byteSays touch code b) = d)
    {s : Bytes} (hs : (0 : Byte) ∉ s) :
    inTurn touch code (m :: ms) s = s.flatMap (byteSays touch code (merged (m :: ms))) := by
  rw [inTurn_flatMap]
  have key : ∀ c : Byte, c ≠ 0 → inTurn touch code (m :: ms) [c] = byteSays touch code (merged (m :: ms)) c := by
    intro c hc
    induction ms generalizing m with
    | nil => simp [inTurn, merged]
    | cons m' ms ih =>
      rw [byteSays_merged, inTurn]
      simp only [List.flatMap_cons, List.flatMap_nil, List.append_nil]
      rw [byteSays_first (onlyLast_head hd)]
      rw [List.pairwise_cons] at hp
      by_cases ht : touch c = true
      · rw [if_pos ht]
        cases hr : (code c).bind m.row with
        | some d => exact inTurn_left _ _ fun b hb => hp.1 b hb c hc ht d hr
        | none => exact ih (onlyLast_tail hd) hp.2
      · rw [if_neg ht]
        exact ih (onlyLast_tail hd) hp.2
  induction s with
  | nil => rfl
  | cons c s ih =>
    rw [List.flatMap_cons, List.flatMap_cons, ih fun h => hs (by simp [h]), key c fun h => hs (by simp [h])]

theorem inTurn_two_iff {m m' : TableText} (hd : m.dflt = none) :
    (∀ s : Bytes, (0 : Byte) ∉ s → inTurn touch code [m, m'] s = s.flatMap (byteSays touch code (merged [m, m']))) ↔
      ∀ c, c ≠ 0 → touch c = true → ∀ d, (code c).bind m.row = some d → d.flatMap (byteSays touch code m') = d := by
  constructor
  · intro h c hc ht d hr
    have := h [c] (by simpa using fun h => hc h.symm)
    simp only [inTurn, List.flatMap_cons, List.flatMap_nil, List.append_nil] at this
    rw [byteSays_merged, byteSays_first hd, if_pos ht, hr] at this
    exact this
  · intro h s hs
    refine inTurn_merged (fun x hx => ?_) ?_ hs
    · simp at hx; rw [hx]; exact hd
    · rw [List.pairwise_cons]
      exact ⟨fun b hb => by simp at hb; rw [hb]; exact h, List.pairwise_singleton _ _⟩

end

/-! ### utf_8 -/

/-- One filter after the other. -/
inductive UnicodeTurns : List TableText → Bytes → Bytes → Prop
  | nil (s : Bytes) : UnicodeTurns [] s s
  | cons (m : TableText) (ms : List TableText) (s mid out : Bytes) : UnicodeReads m s mid → UnicodeTurns ms mid out → UnicodeTurns (m :: ms) s out

theorem reads_other {m m' : TableText} {s out : Bytes} (h : UnicodeReads m s out) : ∃ out', UnicodeReads m' s out' := by
  induction h with
  | nil => exact ⟨_, .nil⟩
  | char u v rest out hu _ ih =>
    obtain ⟨o, ho⟩ := ih
    exact ⟨_, .char u v rest o hu ho⟩
  | broken u rest out hb _ ih =>
    obtain ⟨o, ho⟩ := ih
    exact ⟨_, .broken u rest o hb ho⟩

theorem reads_left {m : TableText} {d s out : Bytes} (hd : LeavesText m d) (h : UnicodeReads m s out) : UnicodeReads m (d ++ s) (d ++ out) := by
  induction hd with
  | nil => exact h
  | cons u v rest hu hp _ ih =>
    rw [List.append_assoc, List.append_assoc]
    have := UnicodeReads.char u v _ _ hu ih
    rw [hp] at this
    exact this

theorem turns_left {ms : List TableText} {d s out : Bytes} (hd : ∀ m ∈ ms, LeavesText m d) (h : UnicodeTurns ms s out) :
    UnicodeTurns ms (d ++ s) (d ++ out) := by
  induction h with
  | nil s => exact .nil _
  | cons m ms s mid out hr _ ih => exact .cons _ _ _ _ _ (reads_left (hd m (by simp)) hr) (ih fun m' hm => hd m' (by simp [hm]))

theorem merged_goesOn {m : TableText} {ms : List TableText} (h : ∀ x ∈ m :: ms, GoesOn x) :
    (merged (m :: ms)).row 0 = none ∧ ∀ v, 0x10FFFF < v → (merged (m :: ms)).row v = none := by
  induction ms generalizing m with
  | nil => exact ⟨(h m (by simp)).nul, (h m (by simp)).large⟩
  | cons m' ms ih =>
    obtain ⟨h1, h2⟩ := ih (m := m') fun x hx => h x (by simp only [List.mem_cons] at hx ⊢; exact .inr hx)
    have h0 := h m (by simp)
    refine ⟨?_, fun v hv => ?_⟩
    · show (m.row 0).or _ = none
      rw [h0.nul, h1]; rfl
    · show (m.row v).or _ = none
      rw [h0.large v hv, h2 v hv]; rfl

theorem turns_char {m : TableText} {ms : List TableText} (hd : OnlyLastDefault (m :: ms)) (hg : ∀ x ∈ ms, GoesOn x)
    (hp : (m :: ms).Pairwise fun a b => ∀ v d, a.row v = some d → LeavesText b d) {u : Bytes} {v : Nat} (hu : IsUnit u v) {s out : Bytes}
    (h : UnicodeTurns (m :: ms) s out) : UnicodeTurns (m :: ms) (u ++ s) (unicodeSays (merged (m :: ms)) v u ++ out) := by
  induction ms generalizing m s with
  | nil =>
    cases h with
    | cons _ _ _ mid _ hr ht =>
      cases ht
      exact .cons _ _ _ _ _ (.char u v _ _ hu hr) (.nil _)
  | cons m' ms ih =>
    cases h with
    | cons _ _ _ mid _ hr ht =>
      have hrow : (merged (m :: m' :: ms)).row v = (m.row v).or ((merged (m' :: ms)).row v) := rfl
      have hdf : (merged (m :: m' :: ms)).dflt = (merged (m' :: ms)).dflt := rfl
      obtain ⟨g1, g2⟩ := merged_goesOn hg
      rw [List.pairwise_cons] at hp
      have first := UnicodeReads.char (m := m) u v _ _ hu hr
      cases hv : m.row v with
      | some d =>
        have e1 : unicodeSays (merged (m :: m' :: ms)) v u = d := by unfold unicodeSays; rw [hrow, hv]; rfl
        have e2 : unicodeSays m v u = d := by unfold unicodeSays; rw [hv]
        rw [e2] at first
        rw [e1]
        exact .cons _ _ _ _ _ first (turns_left (fun b hb => hp.1 b hb v d hv) ht)
      | none =>
        by_cases h0 : v = 0
        · subst h0
          have e1 : unicodeSays (merged (m :: m' :: ms)) 0 u = lit "_hidden_null_" := by
            unfold unicodeSays; rw [hrow, hv, g1]; rfl
          have e2 : unicodeSays m 0 u = lit "_hidden_null_" := by unfold unicodeSays; rw [hv]; rfl
          rw [e2] at first
          rw [e1]
          exact .cons _ _ _ _ _ first (turns_left (fun b hb => (hg b hb).hidden) ht)
        · by_cases h1 : 0x10FFFF < v
          · have e1 : unicodeSays (merged (m :: m' :: ms)) v u = lit "_" := by
              unfold unicodeSays; rw [hrow, hv, g2 v h1]
              simp [h0, h1]
            have e2 : unicodeSays m v u = lit "_" := by unfold unicodeSays; rw [hv]; simp [h0, h1]
            rw [e2] at first
            rw [e1]
            exact .cons _ _ _ _ _ first (turns_left (fun b hb => (hg b hb).broken) ht)
          · have e1 : unicodeSays (merged (m :: m' :: ms)) v u = unicodeSays (merged (m' :: ms)) v u := by
              unfold unicodeSays; rw [hrow, hv, hdf]; rfl
            have e2 : unicodeSays m v u = u := by
              unfold unicodeSays; rw [hv, onlyLast_head hd]
              simp [h0, h1]
            rw [e2] at first
            rw [e1]
            exact .cons _ _ _ _ _ first (ih (onlyLast_tail hd) (fun x hx => hg x (by simp [hx])) hp.2 ht)

theorem turns_merged {m : TableText} {ms : List TableText} (hd : OnlyLastDefault (m :: ms)) (hg : ∀ x ∈ ms, GoesOn x)
    (hp : (m :: ms).Pairwise fun a b => ∀ v d, a.row v = some d → LeavesText b d) {s out : Bytes} (h : UnicodeReads (merged (m :: ms)) s out) :
    UnicodeTurns (m :: ms) s out := by
  induction h with
  | nil =>
    have : ∀ ms : List TableText, UnicodeTurns ms [] [] := by
      intro ms
      induction ms with
      | nil => exact .nil _
      | cons m ms ih => exact .cons _ _ _ _ _ .nil ih
    exact this _
  | char u v rest out hu _ ih => exact turns_char hd hg hp hu ih
  | broken u rest out hb _ ih =>
    cases ih with
    | cons _ _ _ mid _ hr ht => exact .cons _ _ _ _ _ (.broken u _ _ hb hr) (turns_left (fun b hb => (hg b hb).broken) ht)

end Detox
