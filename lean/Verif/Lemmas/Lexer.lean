import Verif.Spec.Config
import Verif.Lemmas.Buf
import Verif.Lemmas.Builtin

/-!
# Lemmas on the scanner of config files
-/

set_option autoImplicit false

namespace Detox
open Spec

theorem dropWhile_length_le {α : Type} (p : α → Bool) (s : List α) : (s.dropWhile p).length ≤ s.length :=
  (List.dropWhile_sublist p).length_le

theorem lexStep_length (c : Byte) (s : Bytes) : (lexStep c s).2.length ≤ s.length := by
  unfold lexStep
  repeat' split
  all_goals first
    | exact dropWhile_length_le _ _
    | exact Nat.le_refl _
    | skip
  all_goals (rename_i d rest h; have h1 := dropWhile_length_le (fun x : Byte => (x ≠ 0x22 && x ≠ 0x0A)) s; rw [h] at h1; simp at h1 ⊢; omega)

theorem lexAll_fuel : ∀ (n m : Nat) (s : Bytes), s.length ≤ n → s.length ≤ m → lexAll n s = lexAll m s
  | n, m, [], _, _ => by cases n <;> cases m <;> rfl
  | 0, m, c :: s, h, _ => by simp at h
  | n + 1, 0, c :: s, _, h => by simp at h
  | n + 1, m + 1, c :: s, hn, hm => by
    have hl := lexStep_length c s
    simp at hn hm
    simp only [lexAll]
    rw [lexAll_fuel n m _ (by omega) (by omega)]

theorem lex_nil : lex [] = [] := rfl

theorem lex_cons (c : Byte) (s : Bytes) : lex (c :: s) = match (lexStep c s).1 with
    | some i => i :: lex (lexStep c s).2
    | none => lex (lexStep c s).2 := by
  have hl := lexStep_length c s
  unfold lex
  simp only [List.length_cons, lexAll]
  rw [lexAll_fuel s.length (lexStep c s).2.length _ hl (Nat.le_refl _)]
  cases (lexStep c s).1 <;> rfl

/-! ### Blanks and comments -/

theorem lexStep_blank {c : Byte} (s : Bytes) (h : c = 0x20 ∨ c = 0x09) :
    lexStep c s = (none, s.dropWhile fun x => x = 0x20 || x = 0x09) := by
  unfold lexStep
  rw [if_pos (by simpa using h)]

theorem lex_drop_blanks (s : Bytes) : lex (s.dropWhile fun x => x = 0x20 || x = 0x09) = lex s := by
  induction s with
  | nil => rfl
  | cons c s ih =>
    by_cases h : c = 0x20 ∨ c = 0x09
    · rw [lex_cons c s, lexStep_blank s h, List.dropWhile_cons_of_pos (by simpa using h)]
    · rw [List.dropWhile_cons_of_neg (by simpa using h)]

theorem lex_blank {c : Byte} (s : Bytes) (h : c = 0x20 ∨ c = 0x09) : lex (c :: s) = lex s := by
  rw [lex_cons, lexStep_blank s h]
  exact lex_drop_blanks s

theorem lex_newline (s : Bytes) : lex (0x0A :: s) = lex s := by
  rw [lex_cons, show lexStep 0x0A s = (none, s) by simp [lexStep]]

theorem lex_comment (text s : Bytes) (h : (0x0A : Byte) ∉ text) : lex (0x23 :: (text ++ 0x0A :: s)) = lex s := by
  have hd : (text ++ 0x0A :: s).dropWhile (fun x => x ≠ 0x0A) = 0x0A :: s := by
    induction text with
    | nil => simp
    | cons c t ih =>
      simp at h
      rw [List.cons_append, List.dropWhile_cons_of_pos (by simp [Ne.symm h.1])]
      exact ih h.2
  rw [lex_cons, show lexStep 0x23 (text ++ 0x0A :: s) = (none, 0x0A :: s) by
    unfold lexStep; rw [if_neg (by decide), if_pos rfl, hd]]
  exact lex_newline s

theorem lex_last_comment (text : Bytes) (h : (0x0A : Byte) ∉ text) : lex (0x23 :: text) = [] := by
  have hd : text.dropWhile (fun x => x ≠ 0x0A) = [] := by
    induction text with
    | nil => rfl
    | cons c t ih =>
      simp at h
      rw [List.dropWhile_cons_of_pos (by simp [Ne.symm h.1])]
      exact ih h.2
  rw [lex_cons, show lexStep 0x23 text = (none, []) by unfold lexStep; rw [if_neg (by decide), if_pos rfl, hd]]
  rfl

theorem lex_gap {g : Bytes} (hg : Gap g) (s : Bytes) : lex (g ++ s) = lex s := by
  induction hg with
  | nil => rfl
  | blank c g hc _ ih =>
    rw [List.cons_append]
    rcases hc with h | h | h
    · rw [lex_blank _ (.inl h), ih]
    · rw [lex_blank _ (.inr h), ih]
    · rw [h, lex_newline, ih]
  | comment text g ht _ ih =>
    rw [List.append_assoc, List.cons_append, List.cons_append, lex_comment _ _ ht, ih]

/-! ### Tokens -/

theorem takeWhile_append_stop {p : Byte → Bool} {w rest : Bytes} (hw : ∀ c ∈ w, p c = true)
    (hr : ∀ c, rest.head? = some c → p c = false) : (w ++ rest).takeWhile p = w ∧ (w ++ rest).dropWhile p = rest := by
  induction w with
  | nil =>
    cases rest with
    | nil => exact ⟨rfl, rfl⟩
    | cons c r =>
      have := hr c rfl
      simp [this]
  | cons c w ih =>
    obtain ⟨h1, h2⟩ := ih (fun x hx => hw x (List.mem_cons_of_mem _ hx))
    have := hw c (by simp)
    simp only [List.cons_append]
    rw [List.takeWhile_cons_of_pos this, List.dropWhile_cons_of_pos this, h1, h2]
    exact ⟨rfl, rfl⟩

theorem letter_facts : ∀ c : Byte, isLetter c = true → c ≠ 0x20 ∧ c ≠ 0x09 ∧ c ≠ 0x23 ∧ c ≠ 0x0A ∧ c ≠ 0x7B ∧ c ≠ 0x7D ∧
    c ≠ 0x3B ∧ c ≠ 0x22 := forall_byte (by decide +kernel)

theorem digit_facts : ∀ c : Byte, isDigitByte c = true → c ≠ 0x20 ∧ c ≠ 0x09 ∧ c ≠ 0x23 ∧ c ≠ 0x0A ∧ c ≠ 0x7B ∧ c ≠ 0x7D ∧
    c ≠ 0x3B ∧ c ≠ 0x22 ∧ isLetter c = false := forall_byte (by decide +kernel)

theorem lexStep_word {c : Byte} {w rest : Bytes} (hc : isLetter c = true) (hw : ∀ x ∈ w, isWordByte x = true)
    (hr : ∀ x, rest.head? = some x → isWordByte x = false) :
    lexStep c (w ++ rest) = (some (.tok (wordTok (c :: w)) false), rest) := by
  obtain ⟨h1, h2, h3, h4, h5, h6, h7, h8⟩ := letter_facts c hc
  obtain ⟨t1, t2⟩ := takeWhile_append_stop hw hr
  unfold lexStep
  simp [h1, h2, h3, h4, h5, h6, h7, h8, hc, t1, t2]

theorem lexStep_number {c : Byte} {d rest : Bytes} (hc : isDigitByte c = true) (hd : ∀ x ∈ d, isDigitByte x = true)
    (hr : ∀ x, rest.head? = some x → isDigitByte x = false) :
    lexStep c (d ++ rest) = (some (numberItem (c :: d)), rest) := by
  obtain ⟨h1, h2, h3, h4, h5, h6, h7, h8, h9⟩ := digit_facts c hc
  obtain ⟨t1, t2⟩ := takeWhile_append_stop hd hr
  unfold lexStep
  simp [h1, h2, h3, h4, h5, h6, h7, h8, h9, hc, t1, t2]

theorem lexStep_quoted {body rest : Bytes} {last : Byte} (hb : (0x22 : Byte) ∉ body) (hn : (0x0A : Byte) ∉ body)
    (hl : last = 0x22 ∨ last = 0x0A) : lexStep 0x22 (body ++ last :: rest) = (some (quotedItem body last), rest) := by
  obtain ⟨t1, t2⟩ := takeWhile_append_stop (p := fun x : Byte => (x ≠ 0x22 && x ≠ 0x0A)) (w := body) (rest := last :: rest)
    (fun x hx => by
      have h1 : x ≠ 0x22 := fun e => hb (e ▸ hx)
      have h2 : x ≠ 0x0A := fun e => hn (e ▸ hx)
      simp [h1, h2])
    (fun x hx => by
      simp at hx
      rcases hl with rfl | rfl <;> simp [← hx])
  unfold lexStep
  rw [if_neg (by decide), if_neg (by decide), if_neg (by decide), if_neg (by decide), if_neg (by decide), if_neg (by decide),
    if_pos rfl, t2]
  simp only [t1]

theorem map_toLowerC (w : Bytes) : w.map toLowerC = w.map fold := by
  congr 1
  funext c
  unfold toLowerC fold isUpperC
  simp

theorem fold_letter : ∀ c : Byte, isLetter (fold c) = true → isLetter c = true := forall_byte (by decide +kernel)

theorem fold_word : ∀ c : Byte, isWordByte (fold c) = true → isWordByte c = true := forall_byte (by decide +kernel)

theorem keyword_facts : ∀ p ∈ keywords, ∃ c w, p.1 = c :: w ∧ isLetter c = true ∧ (∀ x ∈ w, isWordByte x = true) ∧
    keywords.lookup p.1 = some p.2 := by
  intro p hp
  have h : keywords.all (fun p => match p.1 with
    | [] => false
    | c :: w => isLetter c && w.all isWordByte && decide (keywords.lookup (c :: w) = some p.2)) = true := by decide +kernel
  have := List.all_eq_true.1 h p hp
  cases hw : p.1 with
  | nil => rw [hw] at this; cases this
  | cons c w =>
    rw [hw] at this
    simp only [Bool.and_eq_true, List.all_eq_true, decide_eq_true_eq] at this
    exact ⟨c, w, rfl, this.1.1, this.1.2, this.2⟩

theorem keyword_words {w : Bytes} {k : Kw} (h : (w.map fold, k) ∈ keywords) :
    ∃ c v, w = c :: v ∧ isLetter c = true ∧ (∀ x ∈ v, isWordByte x = true) ∧ wordTok w = .kw k := by
  obtain ⟨c, v, e, hc, hv, hl⟩ := keyword_facts _ h
  dsimp only at e hl
  cases w with
  | nil => cases e
  | cons a w =>
    rw [List.map_cons] at e
    injection e with e1 e2
    refine ⟨a, w, rfl, fold_letter a (e1 ▸ hc), fun x hx => fold_word x (hv _ (e2 ▸ List.mem_map_of_mem hx)), ?_⟩
    unfold wordTok
    rw [map_toLowerC, hl]

theorem lookup_none_of {w : Bytes} : ∀ (l : List (Bytes × Kw)), (∀ k, (w, k) ∉ l) → l.lookup w = none
  | [], _ => rfl
  | (x, k) :: l, h => by
    have h1 : (w == x) = false := by
      rw [beq_eq_false_iff_ne]
      intro e
      exact h k (by rw [e]; simp)
    simp only [List.lookup, h1]
    exact lookup_none_of l (fun k' hk => h k' (List.mem_cons_of_mem _ hk))

/-- A token in front of a text where it ends. -/
theorem lex_token {t : Tok} {w rest : Bytes} (hw : Spelling t w) (he : Ends t rest) :
    lex (w ++ rest) = .tok t false :: lex rest := by
  cases hw with
  | kw k w hk =>
    obtain ⟨c, v, e, hc, hv, ht⟩ := keyword_words hk
    rw [e] at ht
    rw [e, List.cons_append, lex_cons, lexStep_word hc hv he, ht]
  | opn => rw [show lit "{" ++ rest = 0x7B :: rest from rfl, lex_cons, show lexStep 0x7B rest = (some (.tok .opn false), rest) from rfl]
  | cls => rw [show lit "}" ++ rest = 0x7D :: rest from rfl, lex_cons, show lexStep 0x7D rest = (some (.tok .cls false), rest) from rfl]
  | eol => rw [show lit ";" ++ rest = 0x3B :: rest from rfl, lex_cons, show lexStep 0x3B rest = (some (.tok .eol false), rest) from rfl]
  | nvalue _ hne hd hle =>
    cases w with
    | nil => exact absurd rfl hne
    | cons c d =>
      rw [List.cons_append, lex_cons, lexStep_number (hd c (by simp)) (fun x hx => hd x (List.mem_cons_of_mem _ hx)) he]
      have : numberItem (c :: d) = .tok (.nvalue (decimal (c :: d))) false := by
        unfold numberItem intMax
        rw [if_pos hle]
      rw [this]
  | ident c s hc hs hk =>
    rw [List.cons_append, lex_cons, lexStep_word hc hs he]
    have : wordTok (c :: s) = .ident (c :: s) := by unfold wordTok; rw [map_toLowerC, lookup_none_of _ hk]
    rw [this]
  | qstring s h1 h2 h3 =>
    have : lit "\"" ++ s ++ lit "\"" ++ rest = 0x22 :: (s ++ 0x22 :: rest) := by
      rw [show lit "\"" = [0x22] from rfl]; simp
    rw [this, lex_cons, lexStep_quoted h1 h2 (.inl rfl)]
    have : quotedItem s 0x22 = .tok (.qstring s) false := by
      unfold quotedItem
      rw [if_neg (by simpa using h3), if_pos rfl]
    rw [this]

/-- Any layout of a list of tokens is read as these tokens. -/
theorem lex_spells {ts : List Tok} {s : Bytes} (h : Spells ts s) : lex s = ts.map (.tok · false) := by
  induction h with
  | done g hg => have := lex_gap hg []; rw [List.append_nil] at this; rw [this]; rfl
  | comment g text hg ht => rw [lex_gap hg, lex_last_comment _ ht]; rfl
  | tok g t w ts rest hg hw he _ ih => rw [List.append_assoc, lex_gap hg, lex_token hw he, ih]; rfl

end Detox
