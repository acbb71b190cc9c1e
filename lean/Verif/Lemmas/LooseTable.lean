import Verif.Lemmas.ParseTable
import Verif.Spec.LooseTable

/-!
# Lines with an empty word behave as lines with their keyword repeated
-/

set_option autoImplicit false

namespace Detox

open Spec

/-- Two lines the parser cannot tell apart. -/
def SameLine (ctype l m : Bytes) : Prop :=
  (peek l = 0x23 ↔ peek m = 0x23) ∧ insideLine l = insideLine m ∧ baseLine ctype l = baseLine ctype m

/-- Line by line. -/
inductive SameLines (ctype : Bytes) : List Bytes → List Bytes → Prop
  | nil : SameLines ctype [] []
  | cons (l m : Bytes) (ls ms : List Bytes) : SameLine ctype l m → SameLines ctype ls ms →
      SameLines ctype (l :: ls) (m :: ms)

theorem SameLines.refl (ctype : Bytes) (ls : List Bytes) : SameLines ctype ls ls := by
  induction ls with
  | nil => exact .nil
  | cons l ls ih => exact .cons l l ls ls ⟨Iff.rfl, rfl, rfl⟩ ih

theorem SameLines.append {ctype : Bytes} {a b c d : List Bytes} (h1 : SameLines ctype a b)
    (h2 : SameLines ctype c d) : SameLines ctype (a ++ c) (b ++ d) := by
  induction h1 with
  | nil => exact h2
  | cons l m ls ms h _ ih => exact .cons l m _ _ h ih

theorem SameLines.actions {ctype : Bytes} {ls ms : List Bytes} (h : SameLines ctype ls ms) :
    ∀ b, lineActions ctype b ls = lineActions ctype b ms := by
  induction h with
  | nil => intro b; rfl
  | cons l m ls ms h _ ih =>
    intro b
    have hl : (if b then insideLine l else baseLine ctype l) = (if b then insideLine m else baseLine ctype m) := by
      rw [h.2.1, h.2.2]
    have e1 : lineActions ctype true ls = lineActions ctype true ms := ih true
    have e2 : lineActions ctype false ls = lineActions ctype false ms := ih false
    have e3 : lineActions ctype b ls = lineActions ctype b ms := ih b
    rw [lineActions, lineActions, hl, e1, e2, e3]
    by_cases hp : peek l = 0x23
    · rw [if_pos hp, if_pos (h.1.mp hp)]
    · rw [if_neg hp, if_neg (fun h' => hp (h.1.mpr h'))]

/-- A line that starts with a keyword other than `end` does nothing inside a block. -/
theorem keyword_inside {ws k X : Bytes} {kw : Bytes} (h1 : Blanks ws) (h2 : k.map fold = kw)
    (hkw : ∀ c ∈ kw, 0x61 ≤ c.toNat ∧ c.toNat ≤ 0x7A) {x : Byte} {kw' : Bytes} (hx : kw = x :: kw') (hxe : x ≠ 0x65)
    (hend : EndsToken X) : peek (ws ++ k ++ X) ≠ 0x23 ∧ insideLine (ws ++ k ++ X) = .skip := by
  have hk := fold_keyword h2 hkw
  rw [hx] at h2
  obtain ⟨c, k', hck, hfc⟩ := keyword_cons h2
  have htok := scanToken_eq (blanks_space h1) (tok := k) (by simp [hck]) (fun c hc => (hk c hc).1) hend
  have hkc := hk c (by simp [hck])
  constructor
  · rw [hck]
    simp only [List.append_assoc, List.cons_append]
    exact peek_append_ne (blanks_space h1) hkc.2.1
  · have hint : scanInt (ws ++ k ++ X) = none := by
      unfold scanInt
      dsimp only
      have : skipWs (ws ++ k ++ X) = k ++ X := by
        rw [List.append_assoc, skipWs_append (blanks_space h1), hck, List.cons_append, skipWs_cons hkc.1]
      rw [this]
      have hpk : peek (k ++ X) = c := by rw [hck]; rfl
      rw [hpk]
      have hns : ¬ (c = 0x2D ∨ c = 0x2B) := by simp [hkc.2.2.2.1, hkc.2.2.2.2]
      rw [if_neg hns, hpk]
      have h30 : c ≠ 0x30 := by
        intro e; subst e; exact absurd hkc.2.2.1 (by decide)
      rw [if_neg h30, hkc.2.2.1]
      simp
    unfold insideLine
    rw [hint, htok]
    have he : strncaseeq 5 k (lit "end") = false := by
      rw [hck]; exact strncaseeq_head 4 (by rw [hfc]; exact hxe)
    simp [he]

theorem scanArg_empty (q : Byte) (hq : q = 0x22 ∨ q = 0x27) (r old : Bytes) : scanArg (q :: q :: r) old = old := by
  rcases hq with rfl | rfl
  · unfold scanArg scanUntil peek
    simp
  · unfold scanArg scanUntil peek
    simp

theorem scanArg_keyword {kw k : Bytes} (h : k.map fold = kw) (hne : kw ≠ []) (hkw : ∀ c ∈ kw, 0x61 ≤ c.toNat ∧ c.toNat ≤ 0x7A)
    (tl : Bytes) (htl : ∀ c ∈ tl, isSpaceC c = true) : scanArg (k ++ tl) k = k := by
  have hk := fold_keyword h hkw
  cases k with
  | nil => exact absurd h.symm hne
  | cons c k' =>
    have hquote : ∀ d : Byte, 0x61 ≤ (fold d).toNat → d ≠ 0x22 ∧ d ≠ 0x27 := forall_byte (by decide +kernel)
    have hc := hquote c (hkw (fold c) (by rw [← h]; simp)).1
    have htok := scanToken_eq (ws := []) (tok := c :: k') (rest := tl) (by simp) (by simp) (fun x hx => (hk x hx).1)
      (endsToken_space htl)
    rw [List.nil_append] at htok
    unfold scanArg
    rw [show peek (c :: k' ++ tl) = c from rfl, if_neg hc.1, if_neg hc.2, htok]

/-- What replaces such a line. -/
def doubled (k : Bytes) : Bytes := k ++ [0x20] ++ k

theorem doubled_line {kw k : Bytes} (h : k.map fold = kw) (hkw : ∀ c ∈ kw, 0x61 ≤ c.toNat ∧ c.toNat ≤ 0x7A) (hne : kw ≠ []) :
    KeywordWordLine kw (doubled k) k := by
  have hk := fold_keyword h hkw
  have hkne : k ≠ [] := fun e => hne (by rw [← h, e]; rfl)
  have : Word (k ++ []) k := by
    cases k with
    | nil => exact absurd rfl hkne
    | cons c k' =>
      have hquote : ∀ d : Byte, 0x61 ≤ (fold d).toNat → d ≠ 0x22 ∧ d ≠ 0x27 := forall_byte (by decide +kernel)
      have hc := hquote c (hkw (fold c) (by rw [← h]; simp)).1
      refine .bare c k' [] hc.1 hc.2 (fun x hx hb => ?_) (Or.inl rfl)
      have := (hk x hx).1
      rw [space_of_blank hb] at this
      cases this
  rw [List.append_nil] at this
  exact .mk [] k [0x20] k k (by decide) h (by decide) (by decide) this hkne

theorem doubled_good {kw k : Bytes} (h : k.map fold = kw) (hkw : ∀ c ∈ kw, 0x61 ≤ c.toNat ∧ c.toNat ≤ 0x7A)
    (hlen : kw.length ≤ 500) : GoodLine (doubled k) := by
  have hl : k.length = kw.length := by rw [← h, List.length_map]
  have hz : ∀ d : Byte, 0x61 ≤ (fold d).toNat → d ≠ 0 ∧ d ≠ 0x0A := forall_byte (by decide +kernel)
  have hk : ∀ c ∈ k, c ≠ 0 ∧ c ≠ 0x0A := fun c hc => hz c (hkw (fold c) (by rw [← h]; exact List.mem_map_of_mem hc)).1
  constructor
  · unfold doubled
    simp only [List.length_append, List.length_cons, List.length_nil]
    omega
  · intro c hc
    unfold doubled at hc
    simp only [List.mem_append, List.mem_singleton] at hc
    rcases hc with (hc | rfl) | hc
    · exact hk c hc
    · decide
    · exact hk c hc

theorem empty_same {kw l k tl : Bytes} (hkw : kw = kwDefault ∨ kw = kwStart) (h : EmptyWordLine kw l k) (ctype : Bytes) :
    SameLine ctype (l ++ tl) (doubled k ++ [0x0A]) := by
  have hlow : ∀ c ∈ kw, 0x61 ≤ c.toNat ∧ c.toNat ≤ 0x7A := by
    rcases hkw with rfl | rfl <;> decide
  have hhead : ∃ x kw', kw = x :: kw' ∧ x ≠ 0x65 := by
    rcases hkw with rfl | rfl
    · exact ⟨0x64, _, rfl, by decide⟩
    · exact ⟨0x73, _, rfl, by decide⟩
  obtain ⟨x, kw', hx, hxe⟩ := hhead
  cases h with
  | mk ws _ ws' q remark h1 h2 h3 h4 h5 =>
    have hk := fold_keyword h2 hlow
    have hnl : ∀ c ∈ ([0x0A] : Bytes), isSpaceC c = true := by decide
    have hend1 : EndsToken (ws' ++ (q :: q :: (remark ++ tl))) := by
      cases ws' with
      | nil => exact absurd rfl h4
      | cons c ws' => exact Or.inr ⟨c, _, rfl, space_of_blank (h3 c (by simp))⟩
    have hend2 : EndsToken ([0x20] ++ (k ++ [0x0A])) := Or.inr ⟨0x20, _, rfl, by decide⟩
    have e1 : ws ++ k ++ ws' ++ q :: q :: remark ++ tl = ws ++ k ++ (ws' ++ (q :: q :: (remark ++ tl))) := by simp
    have e2 : doubled k ++ [0x0A] = [] ++ k ++ ([0x20] ++ (k ++ [0x0A])) := by simp [doubled]
    rw [e1, e2]
    obtain ⟨a1, a2⟩ := keyword_inside h1 h2 hlow hx hxe hend1
    obtain ⟨b1, b2⟩ := keyword_inside (ws := []) (by decide) h2 hlow hx hxe hend2
    have hkne : k ≠ [] := fun e => by rw [e, hx] at h2; cases h2
    have t1 := scanToken_eq (blanks_space h1) (tok := k) hkne (fun c hc => (hk c hc).1) hend1
    have t2 := scanToken_eq (ws := []) (by simp) (tok := k) hkne (fun c hc => (hk c hc).1) hend2
    have hq : isSpaceC q = false := by rcases h5 with rfl | rfl <;> decide
    have r1 : skipWs (ws' ++ (q :: q :: (remark ++ tl))) = q :: q :: (remark ++ tl) := by
      rw [skipWs_append (blanks_space h3), skipWs_cons hq]
    have r2 : skipWs ([0x20] ++ (k ++ [0x0A])) = k ++ [0x0A] := by
      rw [skipWs_append (by decide)]
      obtain ⟨c, k', hck, _⟩ := keyword_cons (hx ▸ h2)
      rw [hck, List.cons_append, skipWs_cons (hk c (by simp [hck])).1]
    refine ⟨⟨fun h => absurd h a1, fun h => absurd h b1⟩, by rw [a2, b2], ?_⟩
    unfold baseLine
    rw [t1, t2, r1, r2]
    have s1 := scanArg_empty q h5 (remark ++ tl) k
    have s2 := scanArg_keyword h2 (by rw [hx]; simp) hlow [0x0A] hnl
    simp only [s1, s2, List.append_eq_nil_iff, List.cons_ne_nil, and_false, if_false]

/-- A file with empty words, and one without that the parser cannot tell from it. -/
theorem loose_documented {ctype : Bytes} {ls : List Bytes} {secs : List Section} (h : LooseLines ls secs)
    {ls' : List Bytes} (hd : Delivered ls ls') :
    ∃ ms ms', FileLines ms secs ∧ Delivered ms ms' ∧ SameLines ctype ls' ms' := by
  induction h generalizing ls' with
  | nil => cases hd; exact ⟨[], [], .nil, .nil, .nil⟩
  | cons ls sec rest secs ht _ ih =>
    obtain ⟨a, b, e, d1, d2⟩ := hd.split
    subst e
    obtain ⟨ms, ms', h1, h2, h3⟩ := ih d2
    exact ⟨ls ++ ms, a ++ ms', .cons ls sec ms secs ht h1, d1.append h2, (SameLines.refl ctype a).append h3⟩
  | emptyDefault l k rest secs he _ ih =>
    cases hd with
    | cons _ tl _ ls' hg htl hd =>
      obtain ⟨ms, ms', h1, h2, h3⟩ := ih hd
      have hfold : k.map fold = kwDefault := by cases he; assumption
      refine ⟨[doubled k] ++ ms, (doubled k ++ [0x0A]) :: ms', ?_, ?_, ?_⟩
      · exact .cons [doubled k] (.dflt k) ms secs (.dflt _ k (doubled_line hfold (by decide) (by decide))) h1
      · exact .cons (doubled k) [0x0A] ms ms' (doubled_good hfold (by decide) (by decide)) (by decide) h2
      · exact .cons _ _ _ _ (empty_same (Or.inl rfl) he ctype) h3
  | emptyStart l k body rows e rest secs he hb hk _ ih =>
    rw [List.cons_append, List.cons_append] at hd
    cases hd with
    | cons _ tl _ ls' hg htl hd =>
      obtain ⟨a, b, e', d1, d2⟩ := hd.split
      subst e'
      obtain ⟨ms, ms', h1, h2, h3⟩ := ih d2
      have hfold : k.map fold = kwStart := by cases he; assumption
      refine ⟨(doubled k :: body ++ [e]) ++ ms, (doubled k ++ [0x0A]) :: (a ++ ms'), ?_, ?_, ?_⟩
      · exact .cons (doubled k :: body ++ [e]) (.langBlock k rows) ms secs
          (.langBlock _ k body rows e (doubled_line hfold (by decide) (by decide)) hb hk) h1
      · rw [List.cons_append, List.cons_append]
        exact .cons (doubled k) [0x0A] _ _ (doubled_good hfold (by decide) (by decide)) (by decide) (d1.append h2)
      · exact .cons _ _ _ _ (empty_same (Or.inr rfl) he ctype) ((SameLines.refl ctype a).append h3)

theorem loose_actions {ctype : Bytes} {ls : List Bytes} {secs : List Section} (h : LooseLines ls secs)
    {ls' : List Bytes} (hd : Delivered ls ls') :
    actionRows (lineActions ctype false ls') = effectiveRows ctype secs ∧
    (∀ d, actionDefault d (lineActions ctype false ls') = effectiveDefault secs d) ∧
    (∀ r ∈ effectiveRows ctype secs, r.1 ≠ 0) := by
  obtain ⟨ms, ms', h1, h2, h3⟩ := loose_documented (ctype := ctype) h hd
  rw [h3.actions]
  exact file_actions h1 h2

end Detox
