import Verif.Lemmas.ParseTable
import Verif.Props.Table

/-!
# What is known of every table read from a file
-/

set_option autoImplicit false

namespace Detox

theorem skipWs_sublist (s : Bytes) : (skipWs s).Sublist s := List.dropWhile_sublist _

theorem scanToken_sublist {s tok rest : Bytes} (h : scanToken s = some (tok, rest)) : tok.Sublist s ∧ rest.Sublist s := by
  unfold scanToken at h
  have hs := skipWs_sublist s
  cases hw : skipWs s with
  | nil => rw [hw] at h; cases h
  | cons c r =>
    rw [hw] at h hs
    simp only [Option.some.injEq, Prod.mk.injEq] at h
    obtain ⟨rfl, rfl⟩ := h
    exact ⟨(List.takeWhile_sublist _).trans hs, ((skipWs_sublist _).trans (List.dropWhile_sublist _)).trans hs⟩

theorem scanUntil_sublist {q : Byte} {s t : Bytes} (h : scanUntil q s = some t) : t.Sublist s := by
  unfold scanUntil at h
  split at h
  · cases h
  · cases h
    rename_i h'
    exact List.takeWhile_sublist _

theorem intOfLong_lt (v : Int) : intOfLong v < 2 ^ 31 := by
  unfold intOfLong
  simp only
  split <;> omega

theorem scanInt_sublist {s rest : Bytes} {v : Int} (h : scanInt s = some (v, rest)) : rest.Sublist s ∧ v < 2 ^ 31 := by
  unfold scanInt at h
  simp only at h
  generalize hs1 : skipWs s = s1 at h
  have h1 : s1.Sublist s := hs1 ▸ skipWs_sublist s
  generalize hs2 : (if peek s1 = 0x2D ∨ peek s1 = 0x2B then s1.tail else s1) = s2 at h
  have h2 : s2.Sublist s := by
    rw [← hs2]
    split
    · exact (List.tail_sublist _).trans h1
    · exact h1
  have fin : ∀ {base : Nat} {body : Bytes}, body.Sublist s → (skipWs (body.dropWhile (isDigitIn base))).Sublist s :=
    fun hb => ((skipWs_sublist _).trans (List.dropWhile_sublist _)).trans hb
  repeat' split at h
  all_goals first
    | (cases h; done)
    | (simp only [Option.some.injEq, Prod.mk.injEq] at h
       obtain ⟨rfl, rfl⟩ := h
       refine ⟨?_, intOfLong_lt _⟩
       first
         | exact fin h2
         | exact fin ((List.tail_sublist _).trans h2)
         | exact fin ((List.tail_sublist _).trans ((List.tail_sublist _).trans h2)))

theorem scanArg_sublist {rest old s : Bytes} (hr : rest.Sublist s) (ho : old.Sublist s) : (scanArg rest old).Sublist s := by
  have u : ∀ q, ((scanUntil q rest.tail).getD old).Sublist s := by
    intro q
    cases h : scanUntil q rest.tail with
    | none => exact ho
    | some t => exact ((scanUntil_sublist h).trans (List.tail_sublist _)).trans hr
  unfold scanArg
  split
  · exact u _
  · split
    · exact u _
    · split
      · rename_i h
        exact (scanToken_sublist h).1.trans hr
      · exact ho

/-- What an action carries comes from the line. -/
def LineAction.From (l : Bytes) : LineAction → Prop
  | .row k d => k < 2 ^ 31 ∧ d.Sublist l
  | .dflt (some d) => d.Sublist l
  | _ => True

theorem baseLine_from (ctype l : Bytes) : (baseLine ctype l).From l := by
  unfold baseLine
  split
  · trivial
  · rename_i parsed rest h
    obtain ⟨h1, h2⟩ := scanToken_sublist h
    split
    · split
      · trivial
      · simp only
        split <;> trivial
    · split
      · split
        · trivial
        · exact scanArg_sublist h2 h1
      · trivial

theorem insideLine_from (l : Bytes) : (insideLine l).From l := by
  unfold insideLine
  have hn : ∀ a, (match scanToken l with
      | some (parsed, _) => if strncaseeq 5 parsed (lit "end") then LineAction.leave else .skip
      | none => LineAction.skip) = a → a.From l := by
    intro a ha
    subst ha
    split
    · split <;> trivial
    · trivial
  simp only
  split
  · exact hn _ rfl
  · rename_i code rest h
    obtain ⟨h1, h2⟩ := scanInt_sublist h
    split
    · exact hn _ rfl
    · split
      · trivial
      · exact ⟨by omega, scanArg_sublist h1 (List.nil_sublist _)⟩

theorem lineActions_from (ctype : Bytes) (b : Bool) (ls : List Bytes) : ∀ a ∈ lineActions ctype b ls, ∃ l ∈ ls, a.From l := by
  induction ls generalizing b with
  | nil => intro a h; cases h
  | cons l ls ih =>
    have up : ∀ b, ∀ a ∈ lineActions ctype b ls, ∃ l' ∈ l :: ls, a.From l' := by
      intro b a ha
      obtain ⟨l', h1, h2⟩ := ih b a ha
      exact ⟨l', by simp [h1], h2⟩
    intro a ha
    unfold lineActions at ha
    split at ha
    · exact up _ a ha
    · have hf : (if b then insideLine l else baseLine ctype l).From l := by
        cases b
        · exact baseLine_from ctype l
        · exact insideLine_from l
      split at ha
      · exact up _ a ha
      · exact up _ a ha
      · exact up _ a ha
      · rename_i h
        rw [h] at hf
        rcases List.mem_cons.1 ha with ha | ha
        · rw [ha]; exact ⟨l, by simp, hf⟩
        · exact up _ a ha
      · rename_i h
        rw [h] at hf
        rcases List.mem_cons.1 ha with ha | ha
        · rw [ha]; exact ⟨l, by simp, hf⟩
        · exact up _ a ha

theorem takeLine_length (n : Nat) (s : Bytes) : (takeLine n s).1.length ≤ n := by
  induction n generalizing s with
  | zero => simp [takeLine]
  | succ n ih =>
    cases s with
    | nil => simp [takeLine]
    | cons c s =>
      rw [takeLine]
      split
      · simp
      · have := ih s
        simp; omega

theorem cstr_sublist (s : Bytes) : (cstr s).Sublist s := by
  induction s with
  | nil => exact List.Sublist.refl _
  | cons c s ih =>
    rw [cstr_cons]
    split
    · exact List.nil_sublist _
    · exact ih.cons_cons c

theorem fileLines_facts (n : Nat) (s : Bytes) : ∀ l ∈ fileLines n s, NulFree l ∧ l.length ≤ 1023 := by
  induction n generalizing s with
  | zero => intro l h; cases h
  | succ n ih =>
    cases s with
    | nil => intro l h; cases h
    | cons c s =>
      intro l h
      rw [fileLines_cons] at h
      rcases List.mem_cons.1 h with h | h
      · rw [h]
        exact ⟨nulFree_cstr _, Nat.le_trans (cstr_sublist _).length_le (takeLine_length _ _)⟩
      · exact ih _ l h

/-- What is known of a table read from a file. -/
structure FromFile (rows : Nat) (t : Table) : Prop where
  reach : Reachable t
  overwrites : t.overwrites ≤ t.used
  rows : t.rows.length = rows
  entry : ∀ k d, tableGet t k = some d → k < 2 ^ 31 ∧ NulFree d ∧ d.length ≤ 1023
  dflt : ∀ d, t.defaultTranslation = some d → NulFree d ∧ d.length ≤ 1023

theorem tablePut_overwrites (t : Table) (k : Nat) (d : Bytes) (o : Nat) (h : (tablePut t k d).2 = some o) :
    (tablePut t k d).1.overwrites ≤ t.overwrites + 1 ∧ (tablePut t k d).1.used = t.used + 1 := by
  rw [tablePut_eq] at h ⊢
  split at h
  · cases h
  · rw [if_neg (by assumption)]
    split at h
    · cases h
    · rw [if_neg (by assumption)]
      split at h
      · cases h
      · simp only
        refine ⟨?_, trivial⟩
        split
        all_goals split
        all_goals first | exact Nat.le_refl _ | exact Nat.le_succ _

theorem applyActions_loaded {n : Nat} (as : List LineAction) {t t' : Table} (ht : FromFile n t)
    (hf : ∀ a ∈ as, ∃ l, (NulFree l ∧ l.length ≤ 1023) ∧ a.From l) (h : applyActions t as = some t') : FromFile n t' := by
  induction as generalizing t with
  | nil => cases h; exact ht
  | cons a as ih =>
    have hf' := fun a h => hf a (List.mem_cons_of_mem _ h)
    obtain ⟨l, ⟨hl1, hl2⟩, hfrom⟩ := hf a (by simp)
    cases a with
    | skip => exact ih ht hf' h
    | enter => exact ih ht hf' h
    | leave => exact ih ht hf' h
    | dflt d =>
      refine ih ⟨.setDefault _ d ht.reach, ht.overwrites, ht.rows, ht.entry, ?_⟩ hf' h
      intro d' hd'
      have hd' : d = some d' := hd'
      subst hd'
      exact ⟨hl1.of_sublist hfrom, Nat.le_trans hfrom.length_le hl2⟩
    | row k d =>
      rw [applyActions] at h
      cases hp : tablePut t k d with
      | mk t1 o =>
        rw [hp] at h
        cases o with
        | none => cases h
        | some o =>
          have he : (tablePut t k d).1 = t1 := by rw [hp]
          have ho := tablePut_overwrites t k d o (by rw [hp])
          rw [he] at ho
          have hr : Reachable t1 := by rw [← he]; exact .op _ (.put k d) ht.reach
          have hk0 : k ≠ 0 := by
            rintro rfl
            rw [tablePut_fail (.inl rfl)] at hp
            cases hp
          have hu : t.used < t.rows.length := by
            have := ht.reach.wf.cap
            have : t.used ≠ t.rows.length := by
              intro hc
              rw [tablePut_fail (.inr hc)] at hp
              cases hp
            omega
          refine ih ⟨hr, by have := ht.overwrites; omega, ?_, ?_, ?_⟩ hf' h
          · rw [← he, tablePut_length]; exact ht.rows
          · intro k' d' hg
            rw [← he, ht.reach.wf.get_put hk0 hu] at hg
            split at hg
            · rename_i hkk
              cases hg
              rw [hkk]
              exact ⟨hfrom.1, hl1.of_sublist hfrom.2, Nat.le_trans hfrom.2.length_le hl2⟩
            · exact ht.entry k' d' hg
          · rw [← he, tablePut_default]; exact ht.dflt

theorem parseTable_loaded {ctype content : Bytes} {t : Table} (h : parseTableContent ctype content = some t) :
    FromFile (max 500 (content.length / 6)) t := by
  unfold parseTableContent at h
  rw [parseTableLines_eq] at h
  have hsz : tableRowsFor content.length = max 500 (content.length / 6) := by
    unfold tableRowsFor lineLength
    split <;> omega
  refine applyActions_loaded _ (t := freshTable (tableRowsFor content.length) true) ⟨.fresh _ _, Nat.le_refl _, ?_, ?_, ?_⟩ ?_ h
  · rw [freshTable_length, hsz]
    unfold rowsFor
    split <;> omega
  · intro k d hg
    rw [freshTable_get] at hg
    cases hg
  · intro d hd
    cases hd
  · intro a ha
    obtain ⟨l, h1, h2⟩ := lineActions_from _ _ _ a ha
    exact ⟨l, fileLines_facts _ _ l h1, h2⟩

end Detox
