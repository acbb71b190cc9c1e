import Verif.Lemmas.Buf
import Verif.Lemmas.Table
import Verif.Lemmas.Builtin
import Verif.Model.ParseTable
import Verif.Spec.TableFile

/-!
# Lemmas on the table file parser
-/

set_option autoImplicit false

namespace Detox

open Spec

/-! ## Executing the actions of the lines -/

/-- The actions a list of lines asks for, in order. -/
def lineActions (ctype : Bytes) : Bool → List Bytes → List LineAction
  | _, [] => []
  | b, l :: ls =>
    if peek l = 0x23 then lineActions ctype b ls
    else
      match if b then insideLine l else baseLine ctype l with
      | .enter => lineActions ctype true ls
      | .leave => lineActions ctype false ls
      | .skip => lineActions ctype b ls
      | .dflt d => .dflt d :: lineActions ctype b ls
      | .row k d => .row k d :: lineActions ctype b ls

/-- The effect of a list of actions on a table. -/
def applyActions : Table → List LineAction → Option Table
  | t, [] => some t
  | t, .dflt d :: as => applyActions { t with defaultTranslation := d } as
  | t, .row k d :: as =>
    match tablePut t k d with
    | (t', some _) => applyActions t' as
    | (_, none) => none
  | t, _ :: as => applyActions t as

theorem parseTableLines_eq (ctype : Bytes) (b : Bool) (t : Table) (ls : List Bytes) :
    (parseTableLines ctype (b, t) ls).map Prod.snd = applyActions t (lineActions ctype b ls) := by
  induction ls generalizing b t with
  | nil => rfl
  | cons l ls ih =>
    unfold parseTableLines parseTableLine lineActions
    by_cases hc : peek l = 0x23
    · rw [if_pos hc, if_pos hc]; exact ih b t
    · rw [if_neg hc, if_neg hc]
      generalize (if b then insideLine l else baseLine ctype l) = a
      dsimp only
      cases a with
      | skip => exact ih _ _
      | enter => exact ih _ _
      | leave => exact ih _ _
      | dflt d => exact ih _ _
      | row k d =>
        dsimp only
        unfold applyActions
        cases h : tablePut t k d with
        | mk t' o =>
          cases o with
          | none => rfl
          | some o => exact ih _ _

/-- The rows among the actions. -/
def actionRows : List LineAction → List (Nat × Bytes)
  | [] => []
  | .row k d :: as => (k, d) :: actionRows as
  | _ :: as => actionRows as

/-- The default set by the actions. -/
def actionDefault (d : Option Bytes) : List LineAction → Option Bytes
  | [] => d
  | .dflt d' :: as => actionDefault d' as
  | _ :: as => actionDefault d as

theorem lastOf_append (a b : List (Nat × Bytes)) (k : Nat) :
    lastOf (a ++ b) k = match lastOf b k with | some d => some d | none => lastOf a k := by
  unfold lastOf
  rw [List.reverse_append, List.find?_append]
  cases h : List.find? (fun r => decide (r.1 = k)) b.reverse <;> simp

theorem lastOf_cons (r : Nat × Bytes) (b : List (Nat × Bytes)) (k : Nat) :
    lastOf (r :: b) k = match lastOf b k with
      | some d => some d
      | none => if r.1 = k then some r.2 else none := by
  rw [← List.singleton_append, lastOf_append]
  cases lastOf b k with
  | some d => rfl
  | none => 
    by_cases h : r.1 = k <;> simp [lastOf, h]

theorem Table.WF.withDefault {t : Table} (h : t.WF) (d : Option Bytes) :
    ({ t with defaultTranslation := d } : Table).WF := ⟨h.pos, h.count, h.cap, h.unique, h.place, h.full⟩

theorem applyActions_spec (as : List LineAction) : ∀ (t : Table), t.WF →
    (∀ r ∈ actionRows as, r.1 ≠ 0) →
    (t.used + (actionRows as).length ≤ t.rows.length →
      ∃ t', applyActions t as = some t' ∧ t'.WF ∧ t'.rows.length = t.rows.length ∧
        t'.defaultTranslation = actionDefault t.defaultTranslation as ∧
        (∀ k, tableGet t' k = match lastOf (actionRows as) k with
          | some d => some d | none => tableGet t k)) ∧
    (t.rows.length < t.used + (actionRows as).length → applyActions t as = none) := by
  induction as with
  | nil =>
    intro t h _
    refine ⟨fun _ => ⟨t, rfl, h, rfl, rfl, fun k => rfl⟩, fun hlt => ?_⟩
    have := h.cap
    simp [actionRows] at hlt
    omega
  | cons a as ih =>
    intro t h hr
    cases a with
    | skip => exact ih t h hr
    | enter => exact ih t h hr
    | leave => exact ih t h hr
    | dflt d => exact ih _ (h.withDefault d) hr
    | row k d =>
      simp only [actionRows, List.length_cons, List.mem_cons] at hr ⊢
      have hk : k ≠ 0 := hr (k, d) (Or.inl rfl)
      by_cases hu : t.used < t.rows.length
      · obtain ⟨o, t', heq, hwf, hrows, hused, _, hdef, _⟩ := h.put_ok hk hu d
        have hg := h.get_put hk hu d
        rw [heq] at hg
        have hlen : t'.rows.length = t.rows.length := by rw [hrows, List.length_set]
        obtain ⟨ih1, ih2⟩ := ih t' hwf (fun r hr' => hr r (Or.inr hr'))
        have happ : applyActions t (.row k d :: as) = applyActions t' as := by
          simp only [applyActions, heq]
        rw [happ]
        constructor
        · intro hle
          obtain ⟨t'', h1, h2, h3, h4, h5⟩ := ih1 (by omega)
          refine ⟨t'', h1, h2, by omega, by rw [h4, hdef]; rfl, fun k' => ?_⟩
          rw [h5 k', lastOf_cons]
          have hgk : tableGet t' k' = if k' = k then some d else tableGet t k' := hg k'
          cases lastOf (actionRows as) k' with
          | some d' => rfl
          | none =>
            dsimp only
            rw [hgk]
            by_cases he : k' = k
            · simp [he]
            · have : ¬ k = k' := fun e => he e.symm
              simp [he, this]
        · intro hlt
          exact ih2 (by omega)
      · have hcap := h.cap
        refine ⟨fun hle => by omega, fun _ => ?_⟩
        have hf := tablePut_fail (t := t) (k := k) (d := d) (Or.inr (by omega))
        simp only [applyActions, hf]

/-! ## Lines -/

theorem takeLine_line (n : Nat) (l rest : Bytes) (hn : l.length < n) (hl : ∀ c ∈ l, c ≠ 0x0A) :
    takeLine n (l ++ 0x0A :: rest) = (l ++ [0x0A], rest) := by
  induction l generalizing n with
  | nil =>
    cases n with
    | zero => simp at hn
    | succ n => simp [takeLine]
  | cons c l ih =>
    cases n with
    | zero => simp at hn
    | succ n =>
      have hc : c ≠ 0x0A := hl c (by simp)
      have := ih n (by simp at hn; omega) (fun c hc => hl c (by simp [hc]))
      simp only [List.cons_append, takeLine, if_neg hc, this]

theorem takeLine_last (n : Nat) (l : Bytes) (hn : l.length < n) (hl : ∀ c ∈ l, c ≠ 0x0A) :
    takeLine n l = (l, []) := by
  induction l generalizing n with
  | nil =>
    cases n with
    | zero => simp at hn
    | succ n => simp [takeLine]
  | cons c l ih =>
    cases n with
    | zero => simp at hn
    | succ n =>
      have hc : c ≠ 0x0A := hl c (by simp)
      have := ih n (by simp at hn; omega) (fun c hc => hl c (by simp [hc]))
      simp only [takeLine, if_neg hc, this]

theorem Spec.GoodLine.nulFree {l : Bytes} (h : GoodLine l) : NulFree l := fun hc => (h.2 0 hc).1 rfl

theorem fileLines_cons (n : Nat) (c : Byte) (s : Bytes) :
    fileLines (n + 1) (c :: s) = cstr (takeLine 1023 (c :: s)).1 :: fileLines n (takeLine 1023 (c :: s)).2 := rfl

theorem fileLines_line (n : Nat) (l rest : Bytes) (hg : GoodLine l) :
    fileLines (n + 1) (l ++ 0x0A :: rest) = (l ++ [0x0A]) :: fileLines n rest := by
  have h := takeLine_line 1023 l rest (by have := hg.1; omega) (fun c hc => (hg.2 c hc).2)
  have hc : cstr (l ++ [0x0A]) = l ++ [0x0A] := cstr_of_nulFree (by
    rw [nulFree_append]; exact ⟨(Spec.GoodLine.nulFree hg), by simp [NulFree]⟩)
  cases hl : l ++ 0x0A :: rest with
  | nil => simp at hl
  | cons c s =>
    rw [fileLines_cons, ← hl, h]
    simp only [hc]

theorem fileLines_last (n : Nat) (l : Bytes) (hg : GoodLine l) (hne : l ≠ []) :
    fileLines (n + 1) l = [l] := by
  have h := takeLine_last 1023 l (by have := hg.1; omega) (fun c hc => (hg.2 c hc).2)
  cases hl : l with
  | nil => exact absurd hl hne
  | cons c s =>
    rw [fileLines_cons, ← hl, h]
    simp only [cstr_of_nulFree (Spec.GoodLine.nulFree hg)]
    cases n <;> rfl

/-- The lines `fgets` delivers for a file with a final newline. -/
theorem fileLines_lines (ls : List Bytes) (hg : ∀ l ∈ ls, GoodLine l) (n : Nat)
    (hn : ((ls.map (· ++ [0x0A])).flatten : Bytes).length ≤ n) :
    fileLines n (ls.map (· ++ [0x0A])).flatten = ls.map (· ++ [0x0A]) := by
  induction ls generalizing n with
  | nil => cases n <;> rfl
  | cons l ls ih =>
    simp only [List.map_cons, List.flatten_cons, List.append_assoc, List.singleton_append] at hn ⊢
    cases n with
    | zero => simp at hn
    | succ n =>
      rw [fileLines_line n l _ (hg l (by simp))]
      rw [ih (fun l hl => hg l (by simp [hl])) n (by simp at hn ⊢; omega)]

/-- ... and without one. -/
theorem fileLines_lines' (ls : List Bytes) (l : Bytes) (hg : ∀ l ∈ ls, GoodLine l) (hgl : GoodLine l) (n : Nat)
    (hn : ((ls.map (· ++ [0x0A])).flatten ++ l : Bytes).length ≤ n) :
    fileLines n ((ls.map (· ++ [0x0A])).flatten ++ l) =
      ls.map (· ++ [0x0A]) ++ (if l = [] then [] else [l]) := by
  induction ls generalizing n with
  | nil =>
    by_cases h : l = []
    · subst h; cases n <;> rfl
    · simp only [List.map_nil, List.flatten_nil, List.nil_append, if_neg h] at hn ⊢
      cases n with
      | zero => exact absurd (List.length_eq_zero_iff.mp (Nat.le_zero.mp hn)) h
      | succ n => exact fileLines_last n l hgl h
  | cons l' ls ih =>
    simp only [List.map_cons, List.flatten_cons, List.append_assoc, List.cons_append, List.nil_append] at hn ⊢
    cases n with
    | zero => simp at hn
    | succ n =>
      rw [fileLines_line n l' _ (hg l' (by simp))]
      rw [ih (fun l hl => hg l (by simp [hl])) n (by simp at hn ⊢; omega)]

/-! ## Scanning -/

theorem space_of_blank {c : Byte} (h : Blank c) : isSpaceC c = true := by
  rcases h with h | h | h | h | h <;> subst h <;> decide

theorem nonspace_of {c : Byte} (h : ¬ Blank c) (hn : c ≠ 0x0A) : isSpaceC c = false := by
  have : ∀ n : Fin 256, ¬ Blank (UInt8.ofFin n) → UInt8.ofFin n ≠ 0x0A → isSpaceC (UInt8.ofFin n) = false := by
    decide +kernel
  exact forall_byte (p := fun c => ¬ Blank c → c ≠ 0x0A → isSpaceC c = false) this c h hn

theorem skipWs_append {ws s : Bytes} (h : ∀ c ∈ ws, isSpaceC c = true) : skipWs (ws ++ s) = skipWs s := by
  induction ws with
  | nil => rfl
  | cons c ws ih =>
    simp only [skipWs, List.cons_append, List.dropWhile_cons, h c (by simp), if_true]
    exact ih (fun c hc => h c (by simp [hc]))

theorem skipWs_all {ws : Bytes} (h : ∀ c ∈ ws, isSpaceC c = true) : skipWs ws = [] := by
  have := skipWs_append (s := []) h
  simpa [skipWs] using this

theorem skipWs_cons {c : Byte} {s : Bytes} (h : isSpaceC c = false) : skipWs (c :: s) = c :: s := by
  simp [skipWs, h]

/-- `rest` ends a token. -/
def EndsToken (rest : Bytes) : Prop := rest = [] ∨ ∃ c r, rest = c :: r ∧ isSpaceC c = true

theorem takeWhile_token {p : Byte → Bool} {tok rest : Bytes} (ht : ∀ c ∈ tok, p c = true)
    (hr : rest = [] ∨ ∃ c r, rest = c :: r ∧ p c = false) :
    (tok ++ rest).takeWhile p = tok ∧ (tok ++ rest).dropWhile p = rest := by
  induction tok with
  | nil =>
    rcases hr with h | ⟨c, r, h, hc⟩
    · subst h; simp
    · subst h; simp [hc]
  | cons c tok ih =>
    have hc := ht c (by simp)
    obtain ⟨h1, h2⟩ := ih (fun c hc => ht c (by simp [hc]))
    simp [hc, h1, h2]

theorem scanToken_eq {ws tok rest : Bytes} (hws : ∀ c ∈ ws, isSpaceC c = true) (hne : tok ≠ [])
    (ht : ∀ c ∈ tok, isSpaceC c = false) (hr : EndsToken rest) :
    scanToken (ws ++ tok ++ rest) = some (tok, skipWs rest) := by
  unfold scanToken
  rw [List.append_assoc, skipWs_append hws]
  cases tok with
  | nil => exact absurd rfl hne
  | cons c tok =>
    have hc := ht c (by simp)
    rw [List.cons_append, skipWs_cons hc]
    dsimp only
    have := takeWhile_token (p := fun c => !isSpaceC c) (tok := c :: tok) (rest := rest)
      (fun c hc => by simp [ht c hc]) (by
        rcases hr with h | ⟨c, r, h, hc⟩
        · exact Or.inl h
        · exact Or.inr ⟨c, r, h, by simp [hc]⟩)
    rw [List.cons_append] at this
    rw [this.1, this.2]

theorem scanToken_blank {ws : Bytes} (hws : ∀ c ∈ ws, isSpaceC c = true) : scanToken ws = none := by
  unfold scanToken
  rw [skipWs_all hws]

theorem scanUntil_eq {q : Byte} {w rest : Bytes} (h : ∀ c ∈ w, c ≠ q) :
    scanUntil q (w ++ q :: rest) = if w = [] then none else some w := by
  unfold scanUntil
  have := takeWhile_token (p := fun c => decide (c ≠ q)) (tok := w) (rest := q :: rest)
    (fun c hc => by simp [h c hc]) (Or.inr ⟨q, rest, rfl, by simp⟩)
  rw [this.1]
  cases w <;> rfl

theorem scanArg_word {text w : Bytes} (h : Word text w) (hg : ∀ c ∈ text, c ≠ 0x0A)
    (tl : Bytes) (htl : ∀ c ∈ tl, isSpaceC c = true) (old : Bytes) (ho : w ≠ [] ∨ old = []) :
    scanArg (text ++ tl) old = w ∧ text ++ tl ≠ [] ∧ skipWs (text ++ tl) = text ++ tl := by
  cases h with
  | dquote w remark hq =>
    refine ⟨?_, by simp, ?_⟩
    · simp only [scanArg, List.cons_append, peek, List.headD_cons, if_true, List.tail_cons, List.append_assoc]
      rw [scanUntil_eq hq]
      by_cases hw : w = []
      · rcases ho with h | h
        · exact absurd hw h
        · simp [hw, h]
      · simp [hw]
    · exact skipWs_cons (by decide)
  | squote w remark hq =>
    refine ⟨?_, by simp, ?_⟩
    · have h1 : ¬ (0x27 : Byte) = 0x22 := by decide
      simp only [scanArg, List.cons_append, peek, List.headD_cons, if_neg h1, if_true, List.tail_cons, List.append_assoc]
      rw [scanUntil_eq hq]
      by_cases hw : w = []
      · rcases ho with h | h
        · exact absurd hw h
        · simp [hw, h]
      · simp [hw]
    · exact skipWs_cons (by decide)
  | bare c w remark h1 h2 hb hr =>
    have hns : ∀ x ∈ c :: w, isSpaceC x = false := fun x hx =>
      nonspace_of (hb x hx) (hg x (List.mem_append_left _ hx))
    refine ⟨?_, by simp, skipWs_cons (hns c (by simp))⟩
    have hp : peek (c :: w ++ remark ++ tl) = c := rfl
    have hend : EndsToken (remark ++ tl) := by
      rcases hr with h | ⟨b, r, h, hbl⟩
      · subst h
        cases tl with
        | nil => exact Or.inl rfl
        | cons t tl => exact Or.inr ⟨t, tl, rfl, htl t (by simp)⟩
      · subst h; exact Or.inr ⟨b, r ++ tl, rfl, space_of_blank hbl⟩
    have := scanToken_eq (ws := []) (tok := c :: w) (by simp) (by simp) hns hend
    rw [List.nil_append] at this
    unfold scanArg
    rw [hp, if_neg h1, if_neg h2, List.append_assoc, this]

theorem hexDigit_facts {h : Byte} {x : Nat} (hx : HexDigit h x) : isXDigitC h = true ∧ hexVal h = x := by
  unfold isXDigitC hexVal
  rcases hx with ⟨h1, h2⟩ | ⟨h1, h2, h3 | h3⟩
  · rw [h2]
    constructor
    · simp; omega
    · split
      · omega
      · omega
  · rw [h3]
    constructor
    · simp; omega
    · split
      · omega
      · split <;> omega
  · rw [h3]
    constructor
    · simp; omega
    · split
      · omega
      · split <;> omega

theorem digits_facts {base : Nat} {ds : Bytes} {v : Nat} (h : Digits base ds v) :
    (∀ c ∈ ds, isDigitIn base c = true) ∧ digitsVal base ds = v := by
  induction h with
  | nil => simp [digitsVal]
  | snoc ds v h x _ hx hlt ih =>
    obtain ⟨h1, h2⟩ := hexDigit_facts hx
    constructor
    · intro c hc
      rw [List.mem_append, List.mem_singleton] at hc
      rcases hc with hc | hc
      · exact ih.1 c hc
      · subst hc; simp [isDigitIn, h1, h2, hlt]
    · have := ih.2
      unfold digitsVal at this ⊢
      rw [List.foldl_append, List.foldl_cons, List.foldl_nil, this, h2, Nat.mul_comm]

theorem intOfLong_small {v : Nat} (h : v < 2 ^ 31) : intOfLong (v : Int) = v := by
  unfold intOfLong
  dsimp only
  have h1 : ¬ ((v : Int) > 2 ^ 63 - 1) := by omega
  have h2 : ¬ ((v : Int) < -(2 ^ 63)) := by omega
  rw [if_neg h1, if_neg h2]
  have h3 : (v : Int) % 2 ^ 32 = v := by omega
  rw [h3, if_neg (by omega)]

theorem not_digit_of_space {base : Nat} {c : Byte} (h : isSpaceC c = true) : isDigitIn base c = false := by
  have : ∀ n : Fin 256, isSpaceC (UInt8.ofFin n) = true → isXDigitC (UInt8.ofFin n) = false := by decide +kernel
  have := forall_byte (p := fun c => isSpaceC c = true → isXDigitC c = false) this c h
  simp [isDigitIn, this]

theorem digit10_facts {c : Byte} (h : isDigitIn 10 c = true) :
    isSpaceC c = false ∧ c ≠ 0x2D ∧ c ≠ 0x2B ∧ c ≠ 0x23 ∧ toLowerC c ≠ 0x73 ∧ toLowerC c ≠ 0x64 := by
  have : ∀ n : Fin 256, isDigitIn 10 (UInt8.ofFin n) = true →
    isSpaceC (UInt8.ofFin n) = false ∧ UInt8.ofFin n ≠ 0x2D ∧ UInt8.ofFin n ≠ 0x2B ∧ UInt8.ofFin n ≠ 0x23 ∧
      toLowerC (UInt8.ofFin n) ≠ 0x73 ∧ toLowerC (UInt8.ofFin n) ≠ 0x64 := by
    decide +kernel
  exact forall_byte (p := fun c => isDigitIn 10 c = true →
    isSpaceC c = false ∧ c ≠ 0x2D ∧ c ≠ 0x2B ∧ c ≠ 0x23 ∧ toLowerC c ≠ 0x73 ∧ toLowerC c ≠ 0x64) this c h

theorem xdigit_nonspace {c : Byte} (h : isXDigitC c = true) : isSpaceC c = false := by
  have : ∀ n : Fin 256, isXDigitC (UInt8.ofFin n) = true → isSpaceC (UInt8.ofFin n) = false := by
    decide +kernel
  exact forall_byte (p := fun c => isXDigitC c = true → isSpaceC c = false) this c h

theorem digitIn_xdigit {b : Nat} {c : Byte} (h : isDigitIn b c = true) : isXDigitC c = true := by
  simp [isDigitIn] at h; exact h.1

/-- A numeral: first byte a decimal digit, no space in it. -/
theorem numeral_shape {num : Bytes} {v : Nat} (h : Numeral num v) :
    ∃ d ds, num = d :: ds ∧ isDigitIn 10 d = true ∧ ∀ c ∈ num, isSpaceC c = false := by
  cases h with
  | dec d ds v hd h =>
    have := digits_facts h
    exact ⟨d, ds, rfl, this.1 d (by simp), fun c hc => xdigit_nonspace (digitIn_xdigit (this.1 c hc))⟩
  | oct ds v h =>
    have := digits_facts h
    refine ⟨0x30, ds, rfl, by decide, fun c hc => ?_⟩
    rw [List.mem_cons] at hc
    rcases hc with hc | hc
    · subst hc; decide
    · exact xdigit_nonspace (digitIn_xdigit (this.1 c hc))
  | hex x ds v hx hne h =>
    have := digits_facts h
    refine ⟨0x30, x :: ds, rfl, by decide, fun c hc => ?_⟩
    rw [List.mem_cons, List.mem_cons] at hc
    rcases hc with hc | hc | hc
    · subst hc; decide
    · rcases hx with hx | hx <;> subst hc <;> subst hx <;> decide
    · exact xdigit_nonspace (digitIn_xdigit (this.1 c hc))

theorem scanInt_numeral {ws num rest : Bytes} {v : Nat} (hws : ∀ c ∈ ws, isSpaceC c = true)
    (h : Numeral num v) (hv : v < 2 ^ 31) (hr : EndsToken rest) :
    scanInt (ws ++ num ++ rest) = some ((v : Int), skipWs rest) := by
  have hrest : ∀ base, rest = [] ∨ ∃ c r, rest = c :: r ∧ isDigitIn base c = false := by
    intro base
    rcases hr with h | ⟨c, r, h, hc⟩
    · exact Or.inl h
    · exact Or.inr ⟨c, r, h, not_digit_of_space hc⟩
  obtain ⟨d, ds, hnum, hd10, _⟩ := numeral_shape h
  have hd := digit10_facts hd10
  have hskip : skipWs (ws ++ num ++ rest) = num ++ rest := by
    rw [List.append_assoc, skipWs_append hws, hnum, List.cons_append, skipWs_cons hd.1]
  have hpk : peek (num ++ rest) = d := by rw [hnum]; rfl
  unfold scanInt
  dsimp only
  rw [hskip, hpk]
  have hns : ¬ (d = 0x2D ∨ d = 0x2B) := by simp [hd.2.1, hd.2.2.1]
  rw [if_neg hns]
  simp only [hd.2.1, if_false]
  rw [hpk]
  cases h with
  | dec d' ds' v' hd0 hdig =>
    injection hnum with e1 e2
    subst e1; subst e2
    rw [if_neg hd0, if_pos hd10]
    obtain ⟨f1, f2⟩ := digits_facts hdig
    obtain ⟨g1, g2⟩ := takeWhile_token f1 (hrest 10)
    rw [g1, g2, f2]
    simp [intOfLong_small hv]
  | oct ds' v' hdig =>
    injection hnum with e1 e2
    subst e1; subst e2
    obtain ⟨f1, f2⟩ := digits_facts hdig
    obtain ⟨g1, g2⟩ := takeWhile_token f1 (hrest 8)
    have hx : ¬ (peek (0x30 :: ds' ++ rest).tail = 0x78 ∨ peek (0x30 :: ds' ++ rest).tail = 0x58) := by
      rw [List.cons_append, List.tail_cons]
      cases ds' with
      | nil =>
        rcases hr with h | ⟨c, r, h, hc⟩
        · subst h; decide
        · subst h
          rw [List.nil_append]
          show ¬ (c = 0x78 ∨ c = 0x58)
          rintro (e | e) <;> subst e <;> exact absurd hc (by decide)
      | cons c ds' =>
        show ¬ (c = 0x78 ∨ c = 0x58)
        have hc := digitIn_xdigit (f1 c (by simp))
        rintro (e | e) <;> subst e <;> exact absurd hc (by decide)
    rw [if_pos rfl, if_neg hx, List.cons_append, List.tail_cons, g1, g2, f2]
    simp [intOfLong_small hv]
  | hex x ds' v' hx hne hdig =>
    injection hnum with e1 e2
    subst e1; subst e2
    obtain ⟨f1, f2⟩ := digits_facts hdig
    obtain ⟨g1, g2⟩ := takeWhile_token f1 (hrest 16)
    have hx' : peek (0x30 :: x :: ds' ++ rest).tail = 0x78 ∨ peek (0x30 :: x :: ds' ++ rest).tail = 0x58 := hx
    rw [if_pos rfl, if_pos hx', List.cons_append, List.tail_cons, List.cons_append, List.tail_cons, g1, g2, f2]
    simp [intOfLong_small hv]

/-! ## Keywords -/

theorem toLowerC_eq_fold (c : Byte) : toLowerC c = fold c := by
  unfold toLowerC fold isUpperC
  simp

theorem strncaseeq_of_fold (n : Nat) {a b : Bytes} (h : a.map fold = b.map fold) : strncaseeq n a b = true := by
  induction n generalizing a b with
  | zero => rfl
  | succ n ih =>
    unfold strncaseeq
    cases a with
    | nil =>
      cases b with
      | nil => simp [peek]
      | cons c b => simp at h
    | cons c a =>
      cases b with
      | nil => simp at h
      | cons d b =>
        simp only [List.map_cons, List.cons.injEq] at h
        simp only [peek, List.headD_cons, List.tail_cons, toLowerC_eq_fold, h.1, ne_eq, not_true_eq_false, if_false]
        by_cases h0 : c = 0
        · simp [h0]
        · simp only [h0, if_false]; exact ih h.2

theorem strncaseeq_head (n : Nat) {c d : Byte} {a b : Bytes} (h : fold c ≠ fold d) :
    strncaseeq (n + 1) (c :: a) (d :: b) = false := by
  unfold strncaseeq
  simp [peek, toLowerC_eq_fold, h]

theorem fold_ne_zero {c : Byte} (h : c ≠ 0) : fold c ≠ 0 := by
  have : ∀ n : Fin 256, UInt8.ofFin n ≠ 0 → fold (UInt8.ofFin n) ≠ 0 := by decide +kernel
  exact forall_byte (p := fun c => c ≠ 0 → fold c ≠ 0) this c h

theorem strncaseeq_lang (lang locale : Bytes) (h : NulFree lang) :
    strncaseeq lang.length lang locale = decide (LangMatches lang locale) := by
  induction lang generalizing locale with
  | nil =>
    have : LangMatches [] locale := ⟨_, rfl⟩
    simp [strncaseeq, this]
  | cons c lang ih =>
    rw [nulFree_cons] at h
    simp only [List.length_cons]
    unfold strncaseeq
    cases locale with
    | nil =>
      have h1 : fold c ≠ 0 := fold_ne_zero h.1
      have h2 : ¬ LangMatches (c :: lang) [] := by rintro ⟨r, hr⟩; simp at hr
      have h3 : fold 0 = 0 := by decide
      simp [peek, toLowerC_eq_fold, h2, h3, h1]
    | cons d locale =>
      simp only [peek, List.headD_cons, List.tail_cons, toLowerC_eq_fold]
      by_cases hf : fold c = fold d
      · simp only [hf, ne_eq, not_true_eq_false, if_false, h.1]
        rw [ih locale h.2]
        have : LangMatches (c :: lang) (d :: locale) ↔ LangMatches lang locale := by
          unfold LangMatches; simp [hf]
        simp [this]
      · have : ¬ LangMatches (c :: lang) (d :: locale) := by
          rintro ⟨r, hr⟩
          simp only [List.map_cons, List.cons_append, List.cons.injEq] at hr
          exact hf hr.1.symm
        simp [hf, this]

/-! ## The action of each kind of line -/

theorem blanks_space {ws : Bytes} (h : Blanks ws) : ∀ c ∈ ws, isSpaceC c = true :=
  fun c hc => space_of_blank (h c hc)

theorem endsToken_blanks {ws rest : Bytes} (h : Blanks ws) (hr : EndsToken rest) : EndsToken (ws ++ rest) := by
  cases ws with
  | nil => exact hr
  | cons c ws => exact Or.inr ⟨c, ws ++ rest, rfl, space_of_blank (h c (by simp))⟩

theorem endsToken_space {tl : Bytes} (h : ∀ c ∈ tl, isSpaceC c = true) : EndsToken tl := by
  cases tl with
  | nil => exact Or.inl rfl
  | cons c tl => exact Or.inr ⟨c, tl, rfl, h c (by simp)⟩

theorem peek_append_ne {ws : Bytes} {d : Byte} {rest : Bytes} (h : ∀ c ∈ ws, isSpaceC c = true) (hd : d ≠ 0x23) :
    peek (ws ++ d :: rest) ≠ 0x23 := by
  cases ws with
  | nil => exact hd
  | cons c ws =>
    show c ≠ 0x23
    intro e
    subst e
    exact absurd (h 0x23 (by simp)) (by decide)

theorem fold_keyword {k kw : Bytes} (h : k.map fold = kw) (hkw : ∀ c ∈ kw, 0x61 ≤ c.toNat ∧ c.toNat ≤ 0x7A) :
    ∀ c ∈ k, isSpaceC c = false ∧ c ≠ 0x23 ∧ isDigitIn 10 c = false ∧ c ≠ 0x2D ∧ c ≠ 0x2B := by
  intro c hc
  have h1 : fold c ∈ kw := by rw [← h]; exact List.mem_map_of_mem hc
  have h2 := hkw _ h1
  have : ∀ n : Fin 256, 0x61 ≤ (fold (UInt8.ofFin n)).toNat ∧ (fold (UInt8.ofFin n)).toNat ≤ 0x7A →
      isSpaceC (UInt8.ofFin n) = false ∧ UInt8.ofFin n ≠ 0x23 ∧ isDigitIn 10 (UInt8.ofFin n) = false ∧
      UInt8.ofFin n ≠ 0x2D ∧ UInt8.ofFin n ≠ 0x2B := by
    decide +kernel
  exact forall_byte (p := fun c => 0x61 ≤ (fold c).toNat ∧ (fold c).toNat ≤ 0x7A →
    isSpaceC c = false ∧ c ≠ 0x23 ∧ isDigitIn 10 c = false ∧ c ≠ 0x2D ∧ c ≠ 0x2B) this c h2

theorem keyword_cons {k : Bytes} {x : Byte} {kw : Bytes} (h : k.map fold = x :: kw) :
    ∃ c k', k = c :: k' ∧ fold c = x := by
  cases k with
  | nil => simp at h
  | cons c k' =>
    simp only [List.map_cons, List.cons.injEq] at h
    exact ⟨c, k', rfl, h.1⟩

/-- Lines that do nothing at top level and end nothing. -/
theorem note_actions {ctype l tl : Bytes} (h : NoteLine l) (htl : ∀ c ∈ tl, isSpaceC c = true) (b : Bool) :
    peek (l ++ tl) = 0x23 ∨ (if b then insideLine (l ++ tl) else baseLine ctype (l ++ tl)) = .skip := by
  cases h with
  | comment t => exact Or.inl rfl
  | blank ws hws =>
    right
    have hall : ∀ c ∈ l ++ tl, isSpaceC c = true := by
      intro c hc
      rw [List.mem_append] at hc
      rcases hc with hc | hc
      · exact blanks_space hws c hc
      · exact htl c hc
    have h1 := scanToken_blank hall
    have h2 : scanInt (l ++ tl) = none := by
      unfold scanInt
      rw [skipWs_all hall]
      decide
    cases b <;> simp [insideLine, baseLine, h1, h2]

theorem start_line {ctype l tl : Bytes} (h : KeywordLine kwStart l) (htl : ∀ c ∈ tl, isSpaceC c = true) :
    peek (l ++ tl) ≠ 0x23 ∧ baseLine ctype (l ++ tl) = .enter := by
  cases h with
  | mk ws k ws' h1 h2 h3 =>
    have hk := fold_keyword h2 (by decide)
    obtain ⟨c, k', hck, _⟩ := keyword_cons h2
    have hsp : ∀ c ∈ ws' ++ tl, isSpaceC c = true := by
      intro c hc
      rw [List.mem_append] at hc
      exact hc.elim (blanks_space h3 c) (htl c)
    constructor
    · rw [hck]
      simp only [List.append_assoc, List.cons_append]
      exact peek_append_ne (blanks_space h1) (hk c (by simp [hck])).2.1
    · have := scanToken_eq (blanks_space h1) (tok := k) (by simp [hck]) (fun c hc => (hk c hc).1)
        (endsToken_space hsp)
      rw [List.append_assoc (ws ++ k)]
      unfold baseLine
      rw [this, skipWs_all hsp]
      have he : strncaseeq 5 k (lit "start") = true := strncaseeq_of_fold 5 (by rw [h2]; decide)
      simp [he]

theorem start_word_line {ctype l w tl : Bytes} (h : KeywordWordLine kwStart l w) (hg : GoodLine l)
    (htl : ∀ c ∈ tl, isSpaceC c = true) :
    peek (l ++ tl) ≠ 0x23 ∧
      baseLine ctype (l ++ tl) = if LangMatches w ctype then .enter else .skip := by
  cases h with
  | mk ws k ws' text w h1 h2 h3 h4 h5 h6 =>
    have hk := fold_keyword h2 (by decide)
    obtain ⟨c, k', hck, _⟩ := keyword_cons h2
    constructor
    · rw [hck]
      simp only [List.append_assoc, List.cons_append]
      exact peek_append_ne (blanks_space h1) (hk c (by simp [hck])).2.1
    · have hgt : ∀ c ∈ text, c ≠ 0x0A := fun c hc => (hg.2 c (by simp [hc])).2
      obtain ⟨a1, a2, a3⟩ := scanArg_word h5 hgt tl htl k (Or.inl h6)
      have hend : EndsToken (ws' ++ (text ++ tl)) := by
        cases ws' with
        | nil => exact absurd rfl h4
        | cons c ws' => exact Or.inr ⟨c, _, rfl, space_of_blank (h3 c (by simp))⟩
      have := scanToken_eq (blanks_space h1) (tok := k) (by simp [hck]) (fun c hc => (hk c hc).1) hend
      have e : ws ++ k ++ ws' ++ text ++ tl = ws ++ k ++ (ws' ++ (text ++ tl)) := by simp
      rw [e]
      unfold baseLine
      rw [this, skipWs_append (blanks_space h3), a3]
      have he : strncaseeq 5 k (lit "start") = true := strncaseeq_of_fold 5 (by rw [h2]; decide)
      have hnul : NulFree w := by
        intro h0
        have : (0 : Byte) ∈ text := by
          cases h5 with
          | dquote w r hq => simp [h0]
          | squote w r hq => simp [h0]
          | bare c w r _ _ _ _ => exact List.mem_append_left _ h0
        exact (hg.2 0 (by simp [this])).1 rfl
      simp only [he, if_true, a2, if_false, a1]
      rw [strncaseeq_lang w ctype hnul]
      simp

theorem not_start {k : Bytes} {x : Byte} {kw : Bytes} (h : k.map fold = x :: kw) (hx : x ≠ 0x73) :
    strncaseeq 5 k (lit "start") = false := by
  obtain ⟨c, k', hck, hc⟩ := keyword_cons h
  rw [hck]
  exact strncaseeq_head 4 (by rw [hc]; exact hx)

theorem default_line {ctype l tl : Bytes} (h : KeywordLine kwDefault l) (htl : ∀ c ∈ tl, isSpaceC c = true) :
    peek (l ++ tl) ≠ 0x23 ∧ baseLine ctype (l ++ tl) = .dflt none := by
  cases h with
  | mk ws k ws' h1 h2 h3 =>
    have hk := fold_keyword h2 (by decide)
    obtain ⟨c, k', hck, _⟩ := keyword_cons h2
    have hsp : ∀ c ∈ ws' ++ tl, isSpaceC c = true := by
      intro c hc
      rw [List.mem_append] at hc
      exact hc.elim (blanks_space h3 c) (htl c)
    constructor
    · rw [hck]
      simp only [List.append_assoc, List.cons_append]
      exact peek_append_ne (blanks_space h1) (hk c (by simp [hck])).2.1
    · have := scanToken_eq (blanks_space h1) (tok := k) (by simp [hck]) (fun c hc => (hk c hc).1)
        (endsToken_space hsp)
      rw [List.append_assoc (ws ++ k)]
      unfold baseLine
      rw [this, skipWs_all hsp]
      have he : strncaseeq 7 k (lit "default") = true := strncaseeq_of_fold 7 (by rw [h2]; decide)
      have hs : strncaseeq 5 k (lit "start") = false := not_start h2 (by decide)
      simp [he, hs]

theorem default_word_line {ctype l w tl : Bytes} (h : KeywordWordLine kwDefault l w) (hg : GoodLine l)
    (htl : ∀ c ∈ tl, isSpaceC c = true) :
    peek (l ++ tl) ≠ 0x23 ∧ baseLine ctype (l ++ tl) = .dflt (some w) := by
  cases h with
  | mk ws k ws' text w h1 h2 h3 h4 h5 h6 =>
    have hk := fold_keyword h2 (by decide)
    obtain ⟨c, k', hck, _⟩ := keyword_cons h2
    constructor
    · rw [hck]
      simp only [List.append_assoc, List.cons_append]
      exact peek_append_ne (blanks_space h1) (hk c (by simp [hck])).2.1
    · have hgt : ∀ c ∈ text, c ≠ 0x0A := fun c hc => (hg.2 c (by simp [hc])).2
      obtain ⟨a1, a2, a3⟩ := scanArg_word h5 hgt tl htl k (Or.inl h6)
      have hend : EndsToken (ws' ++ (text ++ tl)) := by
        cases ws' with
        | nil => exact absurd rfl h4
        | cons c ws' => exact Or.inr ⟨c, _, rfl, space_of_blank (h3 c (by simp))⟩
      have := scanToken_eq (blanks_space h1) (tok := k) (by simp [hck]) (fun c hc => (hk c hc).1) hend
      have e : ws ++ k ++ ws' ++ text ++ tl = ws ++ k ++ (ws' ++ (text ++ tl)) := by simp
      rw [e]
      unfold baseLine
      rw [this, skipWs_append (blanks_space h3), a3]
      have he : strncaseeq 7 k (lit "default") = true := strncaseeq_of_fold 7 (by rw [h2]; decide)
      have hs : strncaseeq 5 k (lit "start") = false := not_start h2 (by decide)
      simp only [he, hs, if_true, a2, if_false, a1]
      simp

theorem end_line {ctype l tl : Bytes} (h : KeywordLine kwEnd l) (htl : ∀ c ∈ tl, isSpaceC c = true) :
    peek (l ++ tl) ≠ 0x23 ∧ insideLine (l ++ tl) = .leave ∧ baseLine ctype (l ++ tl) = .skip := by
  cases h with
  | mk ws k ws' h1 h2 h3 =>
    have hk := fold_keyword h2 (by decide)
    obtain ⟨c, k', hck, hfc⟩ := keyword_cons h2
    have hsp : ∀ c ∈ ws' ++ tl, isSpaceC c = true := by
      intro c hc
      rw [List.mem_append] at hc
      exact hc.elim (blanks_space h3 c) (htl c)
    have htok := scanToken_eq (blanks_space h1) (tok := k) (by simp [hck]) (fun c hc => (hk c hc).1)
        (endsToken_space hsp)
    have hkc := hk c (by simp [hck])
    refine ⟨?_, ?_, ?_⟩
    · rw [hck]
      simp only [List.append_assoc, List.cons_append]
      exact peek_append_ne (blanks_space h1) hkc.2.1
    · have hint : scanInt (ws ++ k ++ (ws' ++ tl)) = none := by
        unfold scanInt
        dsimp only
        have : skipWs (ws ++ k ++ (ws' ++ tl)) = k ++ (ws' ++ tl) := by
          rw [List.append_assoc, skipWs_append (blanks_space h1), hck, List.cons_append, skipWs_cons hkc.1]
        rw [this]
        have hpk : peek (k ++ (ws' ++ tl)) = c := by rw [hck]; rfl
        rw [hpk]
        have hns : ¬ (c = 0x2D ∨ c = 0x2B) := by simp [hkc.2.2.2.1, hkc.2.2.2.2]
        rw [if_neg hns, hpk]
        have h30 : c ≠ 0x30 := by
          intro e; subst e; exact absurd hkc.2.2.1 (by decide)
        rw [if_neg h30, hkc.2.2.1]
        simp
      rw [List.append_assoc (ws ++ k)]
      unfold insideLine
      rw [hint, htok]
      have he : strncaseeq 5 k (lit "end") = true := strncaseeq_of_fold 5 (by rw [h2]; decide)
      simp [he]
    · rw [List.append_assoc (ws ++ k)]
      unfold baseLine
      rw [htok]
      have hs : strncaseeq 5 k (lit "start") = false := not_start h2 (by decide)
      have hd : strncaseeq 7 k (lit "default") = false := by
        rw [hck]; exact strncaseeq_head 6 (by rw [hfc]; decide)
      simp [hs, hd]

theorem row_line {ctype l tl : Bytes} {k : Nat} {d : Bytes} (h : EntryLine l (some (k, d))) (hg : GoodLine l)
    (htl : ∀ c ∈ tl, isSpaceC c = true) :
    peek (l ++ tl) ≠ 0x23 ∧ insideLine (l ++ tl) = .row k d ∧ baseLine ctype (l ++ tl) = .skip ∧ k ≠ 0 := by
  cases h with
  | row ws num ws' text code data h1 h2 h3 h4 h5 h6 h7 =>
    obtain ⟨c, ds, hnum, hc10, hnsp⟩ := numeral_shape h2
    have hc := digit10_facts hc10
    have hgt : ∀ c ∈ text, c ≠ 0x0A := fun c hc => (hg.2 c (by simp [hc])).2
    obtain ⟨a1, a2, a3⟩ := scanArg_word h5 hgt tl htl [] (Or.inr rfl)
    have hend : EndsToken (ws' ++ (text ++ tl)) := by
      cases ws' with
      | nil => exact absurd rfl h4
      | cons c ws' => exact Or.inr ⟨c, _, rfl, space_of_blank (h3 c (by simp))⟩
    have e : ws ++ num ++ ws' ++ text ++ tl = ws ++ num ++ (ws' ++ (text ++ tl)) := by simp
    refine ⟨?_, ?_, ?_, by omega⟩
    · rw [hnum]
      simp only [List.append_assoc, List.cons_append]
      exact peek_append_ne (blanks_space h1) hc.2.2.2.1
    · rw [e]
      unfold insideLine
      rw [scanInt_numeral (blanks_space h1) h2 h7 hend, skipWs_append (blanks_space h3), a3]
      have hneg : ¬ ((k : Int) < 0) := by omega
      simp only [hneg, if_false, a2, a1, Int.toNat_natCast]
    · have htok := scanToken_eq (blanks_space h1) (tok := num) (by simp [hnum]) hnsp hend
      rw [e]
      unfold baseLine
      rw [htok]
      have hs : strncaseeq 5 num (lit "start") = false := by
        rw [hnum]; exact strncaseeq_head 4 (by rw [← toLowerC_eq_fold]; exact hc.2.2.2.2.1)
      have hd : strncaseeq 7 num (lit "default") = false := by
        rw [hnum]; exact strncaseeq_head 6 (by rw [← toLowerC_eq_fold]; exact hc.2.2.2.2.2)
      simp [hs, hd]

/-! ## Whole files -/

/-- `ls'` are the lines `ls` as delivered by `fgets`: each followed by white space (the newline). -/
inductive Delivered : List Bytes → List Bytes → Prop
  | nil : Delivered [] []
  | cons (l tl : Bytes) (ls ls' : List Bytes) : GoodLine l → (∀ c ∈ tl, isSpaceC c = true) →
      Delivered ls ls' → Delivered (l :: ls) ((l ++ tl) :: ls')

theorem Delivered.append {a b a' b' : List Bytes} (h1 : Delivered a a') (h2 : Delivered b b') :
    Delivered (a ++ b) (a' ++ b') := by
  induction h1 with
  | nil => exact h2
  | cons l tl ls ls' hg htl _ ih => exact .cons l tl _ _ hg htl ih

theorem Delivered.split {a b c : List Bytes} (h : Delivered (a ++ b) c) :
    ∃ a' b', c = a' ++ b' ∧ Delivered a a' ∧ Delivered b b' := by
  induction a generalizing c with
  | nil => exact ⟨[], c, rfl, .nil, h⟩
  | cons l a ih =>
    rw [List.cons_append] at h
    cases h with
    | cons _ tl _ ls' hg htl hd =>
      obtain ⟨a', b', e, d1, d2⟩ := ih hd
      exact ⟨(l ++ tl) :: a', b', by rw [e]; rfl, .cons l tl _ _ hg htl d1, d2⟩

theorem lineActions_note {ctype : Bytes} {b : Bool} {l : Bytes} {ls : List Bytes}
    (h : peek l = 0x23 ∨ (if b then insideLine l else baseLine ctype l) = .skip) :
    lineActions ctype b (l :: ls) = lineActions ctype b ls := by
  rw [lineActions]
  by_cases hp : peek l = 0x23
  · rw [if_pos hp]
  · rw [if_neg hp, (h.resolve_left hp)]

theorem entries_inside {ctype : Bytes} {body : List Bytes} {rows : List (Nat × Bytes)}
    (h : Entries body rows) {body' : List Bytes} (hd : Delivered body body') (rest : List Bytes) :
    lineActions ctype true (body' ++ rest) =
      rows.map (fun r => .row r.1 r.2) ++ lineActions ctype true rest ∧ ∀ r ∈ rows, r.1 ≠ 0 := by
  induction h generalizing body' with
  | nil => cases hd; simp
  | note l ls rows he _ ih =>
    cases hd with
    | cons _ tl _ ls' hg htl hd =>
      cases he with
      | note _ hn =>
        rw [List.cons_append, lineActions_note (note_actions hn htl true)]
        exact ih hd
  | row l ls r rows he _ ih =>
    cases hd with
    | cons _ tl _ ls' hg htl hd =>
      obtain ⟨k, d⟩ := r
      obtain ⟨h1, h2, _, h4⟩ := row_line (ctype := ctype) he hg htl
      obtain ⟨ih1, ih2⟩ := ih hd
      constructor
      · rw [List.cons_append, lineActions, if_neg h1, if_pos rfl, h2, ih1]
        rfl
      · intro r hr
        rw [List.mem_cons] at hr
        rcases hr with hr | hr
        · subst hr; exact h4
        · exact ih2 r hr

theorem entries_outside {ctype : Bytes} {body : List Bytes} {rows : List (Nat × Bytes)}
    (h : Entries body rows) {body' : List Bytes} (hd : Delivered body body') (rest : List Bytes) :
    lineActions ctype false (body' ++ rest) = lineActions ctype false rest := by
  induction h generalizing body' with
  | nil => cases hd; simp
  | note l ls rows he _ ih =>
    cases hd with
    | cons _ tl _ ls' hg htl hd =>
      cases he with
      | note _ hn =>
        rw [List.cons_append, lineActions_note (note_actions hn htl false)]
        exact ih hd
  | row l ls r rows he _ ih =>
    cases hd with
    | cons _ tl _ ls' hg htl hd =>
      obtain ⟨k, d⟩ := r
      obtain ⟨_, _, h3, _⟩ := row_line (ctype := ctype) he hg htl
      rw [List.cons_append, lineActions_note (b := false) (Or.inr (by simpa using h3))]
      exact ih hd

theorem actionRows_rows (rows : List (Nat × Bytes)) (as : List LineAction) :
    actionRows (rows.map (fun r => .row r.1 r.2) ++ as) = rows ++ actionRows as := by
  induction rows with
  | nil => rfl
  | cons r rows ih => simp [actionRows, ih]

theorem actionDefault_rows (rows : List (Nat × Bytes)) (as : List LineAction) (d : Option Bytes) :
    actionDefault d (rows.map (fun r => .row r.1 r.2) ++ as) = actionDefault d as := by
  induction rows with
  | nil => rfl
  | cons r rows ih => simp [actionDefault, ih]

theorem file_actions {ctype : Bytes} {ls : List Bytes} {secs : List Section} (h : FileLines ls secs)
    {ls' : List Bytes} (hd : Delivered ls ls') :
    actionRows (lineActions ctype false ls') = effectiveRows ctype secs ∧
    (∀ d, actionDefault d (lineActions ctype false ls') = effectiveDefault secs d) ∧
    (∀ r ∈ effectiveRows ctype secs, r.1 ≠ 0) := by
  induction h generalizing ls' with
  | nil => cases hd; simp [lineActions, actionRows, effectiveRows, actionDefault, effectiveDefault]
  | cons ls sec rest secs ht _ ih =>
    obtain ⟨a, b, e, d1, d2⟩ := hd.split
    subst e
    clear hd
    have ih' := ih d2
    cases ht with
    | note l hn =>
      cases d1 with
      | cons _ tl _ ls' hg htl hd =>
        cases hd
        rw [List.cons_append, lineActions_note (note_actions hn htl false)]
        exact ih'
    | noDefault l hk =>
      cases d1 with
      | cons _ tl _ ls' hg htl hd =>
        cases hd
        obtain ⟨p, q⟩ := default_line (ctype := ctype) hk htl
        rw [List.cons_append, lineActions, if_neg p]
        simp only [Bool.false_eq_true, if_false, q]
        exact ⟨ih'.1, fun d => ih'.2.1 none, ih'.2.2⟩
    | dflt l w hk =>
      cases d1 with
      | cons _ tl _ ls' hg htl hd =>
        cases hd
        obtain ⟨p, q⟩ := default_word_line (ctype := ctype) hk hg htl
        rw [List.cons_append, lineActions, if_neg p]
        simp only [Bool.false_eq_true, if_false, q]
        exact ⟨ih'.1, fun d => ih'.2.1 (some w), ih'.2.2⟩
    | block l body rows e hk hb he =>
      rw [List.cons_append] at d1
      cases d1 with
      | cons _ tl _ ls' hg htl hd =>
        obtain ⟨body', e', e'', d3, d4⟩ := hd.split
        subst e''
        cases d4 with
        | cons _ tl' _ ls'' hg' htl' hd' =>
          cases hd'
          obtain ⟨p, q⟩ := start_line (ctype := ctype) hk htl
          obtain ⟨p2, q2, _⟩ := end_line (ctype := ctype) he htl'
          obtain ⟨r1, r2⟩ := entries_inside (ctype := ctype) hb d3 ((e ++ tl') :: b)
          have hall : lineActions ctype false ((l ++ tl) :: (body' ++ [e ++ tl']) ++ b) =
              rows.map (fun r => .row r.1 r.2) ++ lineActions ctype false b := by
            rw [List.cons_append, lineActions, if_neg p]
            simp only [Bool.false_eq_true, if_false, q]
            rw [List.append_assoc, List.singleton_append, r1]
            congr 1
            rw [lineActions, if_neg p2]
            simp only [if_true, q2]
          rw [hall, actionRows_rows, ih'.1]
          refine ⟨rfl, fun d => ?_, fun r hr => ?_⟩
          · rw [actionDefault_rows]; exact ih'.2.1 d
          · have hr' : r ∈ rows ++ effectiveRows ctype secs := hr
            rw [List.mem_append] at hr'
            exact hr'.elim (r2 r) (ih'.2.2 r)
    | langBlock l lang body rows e hk hb he =>
      rw [List.cons_append] at d1
      cases d1 with
      | cons _ tl _ ls' hg htl hd =>
        obtain ⟨body', e', e'', d3, d4⟩ := hd.split
        subst e''
        cases d4 with
        | cons _ tl' _ ls'' hg' htl' hd' =>
          cases hd'
          obtain ⟨p, q⟩ := start_word_line (ctype := ctype) hk hg htl
          obtain ⟨p2, q2, q3⟩ := end_line (ctype := ctype) he htl'
          obtain ⟨r1, r2⟩ := entries_inside (ctype := ctype) hb d3 ((e ++ tl') :: b)
          have r3 := entries_outside (ctype := ctype) hb d3 ((e ++ tl') :: b)
          have heff : effectiveRows ctype (.langBlock lang rows :: secs) =
              (if LangMatches lang ctype then rows else []) ++ effectiveRows ctype secs := rfl
          by_cases hm : LangMatches lang ctype
          · rw [if_pos hm] at q heff
            have hall : lineActions ctype false ((l ++ tl) :: (body' ++ [e ++ tl']) ++ b) =
                rows.map (fun r => .row r.1 r.2) ++ lineActions ctype false b := by
              rw [List.cons_append, lineActions, if_neg p]
              simp only [Bool.false_eq_true, if_false, q]
              rw [List.append_assoc, List.singleton_append, r1]
              congr 1
              rw [lineActions, if_neg p2]
              simp only [if_true, q2]
            rw [hall, actionRows_rows, ih'.1, heff]
            refine ⟨rfl, fun d => ?_, fun r hr => ?_⟩
            · rw [actionDefault_rows]; exact ih'.2.1 d
            · rw [List.mem_append] at hr
              exact hr.elim (r2 r) (ih'.2.2 r)
          · rw [if_neg hm] at q heff
            have hall : lineActions ctype false ((l ++ tl) :: (body' ++ [e ++ tl']) ++ b) =
                lineActions ctype false b := by
              rw [List.cons_append, lineActions_note (b := false) (Or.inr (by simpa using q)),
                List.append_assoc, List.singleton_append, r3,
                lineActions_note (b := false) (Or.inr (by simpa using q3))]
            rw [hall, ih'.1, heff]
            exact ⟨rfl, ih'.2.1, ih'.2.2⟩

theorem delivered_newline (ls : List Bytes) (hg : ∀ l ∈ ls, GoodLine l) :
    Delivered ls (ls.map (· ++ [0x0A])) := by
  induction ls with
  | nil => exact .nil
  | cons l ls ih =>
    exact .cons l [0x0A] _ _ (hg l (by simp)) (by simp; decide) (ih (fun l hl => hg l (by simp [hl])))

/-- How the parser sees a file with given lines. -/
theorem hasLines_actions {content : Bytes} {ls : List Bytes} (h : HasLines content ls) (ctype : Bytes) :
    ∃ ls', Delivered ls ls' ∧
      lineActions ctype false (fileLines content.length content) = lineActions ctype false ls' := by
  obtain ⟨hg, h | h⟩ := h
  · subst h
    exact ⟨_, delivered_newline ls hg, by rw [fileLines_lines ls hg _ (Nat.le_refl _)]⟩
  · -- last newline missing
    rcases List.eq_nil_or_concat ls with e | ⟨init, l, e⟩
    · subst e; simp at h
    · rw [List.concat_eq_append] at e
      subst e
      have hc : content = (init.map (· ++ [0x0A])).flatten ++ l := by
        rw [List.map_append, List.flatten_append] at h
        simp only [List.map_cons, List.map_nil, List.flatten_cons, List.flatten_nil, List.append_nil] at h
        rw [← List.append_assoc] at h
        exact List.append_cancel_right h
      have hgi : ∀ l ∈ init, GoodLine l := fun l hl => hg l (by simp [hl])
      have hgl : GoodLine l := hg l (by simp)
      have hf := fileLines_lines' init l hgi hgl content.length (by rw [hc]; exact Nat.le_refl _)
      rw [← hc] at hf
      refine ⟨init.map (· ++ [0x0A]) ++ [l ++ []], (delivered_newline init hgi).append
        (.cons l [] [] [] hgl (by simp) .nil), ?_⟩
      rw [hf]
      by_cases hl : l = []
      · subst hl
        rw [if_pos rfl]
        -- an empty last line does nothing
        have : ∀ (xs : List Bytes) (b : Bool), lineActions ctype b (xs ++ [[] ++ []]) = lineActions ctype b xs := by
          intro xs
          induction xs with
          | nil =>
            intro b
            exact lineActions_note (b := b) (note_actions (l := []) (tl := []) (.blank [] (by intro c hc; simp at hc)) (by simp) b)
          | cons x xs ih =>
            intro b
            rw [List.cons_append, lineActions, lineActions]
            simp only [ih]
        rw [this, List.append_nil]
      · rw [if_neg hl, List.append_nil]

end Detox
