import Verif.Spec.Config

/-!
# Checking by computation that a text consists of given tokens
-/

set_option autoImplicit false

namespace Detox
open Spec

/-- Text between tokens; the flag: inside a comment. -/
def gapOk : Bool → Bytes → Bool
  | inside, [] => !inside
  | true, c :: g => if c = 0x0A then gapOk false g else gapOk true g
  | false, c :: g => if c = 0x23 then gapOk true g else (c = 0x20 || c = 0x09 || c = 0x0A) && gapOk false g

theorem gapOk_sound (g : Bytes) : (gapOk false g = true → Gap g) ∧
    (gapOk true g = true → ∃ text g', g = text ++ 0x0A :: g' ∧ (0x0A : Byte) ∉ text ∧ Gap g') := by
  induction g with
  | nil => exact ⟨fun _ => .nil, fun h => by cases h⟩
  | cons c g ih =>
    constructor
    · intro h
      rw [gapOk] at h
      by_cases hc : c = 0x23
      · rw [if_pos hc] at h
        obtain ⟨text, g', rfl, h1, h2⟩ := ih.2 h
        rw [hc]
        exact .comment text g' h1 h2
      · rw [if_neg hc] at h
        simp only [Bool.and_eq_true, Bool.or_eq_true, decide_eq_true_eq] at h
        exact .blank c g (by rcases h.1 with (h | h) | h <;> simp [h]) (ih.1 h.2)
    · intro h
      rw [gapOk] at h
      by_cases hc : c = 0x0A
      · rw [if_pos hc] at h
        exact ⟨[], g, by rw [hc]; rfl, by simp, ih.1 h⟩
      · rw [if_neg hc] at h
        obtain ⟨text, g', rfl, h1, h2⟩ := ih.2 h
        exact ⟨c :: text, g', rfl, by simp [h1, Ne.symm hc], h2⟩

/-- One way to write a token. -/
def spellingOk : Tok → Bytes → Bool
  | .kw k, w => decide ((w.map fold, k) ∈ keywords)
  | .opn, w => decide (w = lit "{")
  | .cls, w => decide (w = lit "}")
  | .eol, w => decide (w = lit ";")
  | .nvalue n, w => decide (w ≠ []) && w.all isDigitByte && decide (decimal w = n) && decide (n ≤ 2147483647)
  | .ident s, w => decide (w = s) && (match s with
    | [] => false
    | c :: r => isLetter c && r.all isWordByte && keywords.all (fun x => decide (x.1 ≠ s.map fold)))
  | .qstring s, w => decide (w = lit "\"" ++ s ++ lit "\"") && !s.elem 0x22 && !s.elem 0x0A && !s.elem 0x00

theorem spellingOk_sound {t : Tok} {w : Bytes} (h : spellingOk t w = true) : Spelling t w := by
  cases t with
  | kw k => exact .kw k w (of_decide_eq_true h)
  | opn => cases of_decide_eq_true h; exact .opn
  | cls => cases of_decide_eq_true h; exact .cls
  | eol => cases of_decide_eq_true h; exact .eol
  | nvalue n =>
    simp only [spellingOk, Bool.and_eq_true, decide_eq_true_eq, List.all_eq_true] at h
    obtain ⟨⟨⟨h1, h2⟩, rfl⟩, h3⟩ := h
    exact .nvalue w h1 h2 h3
  | ident s =>
    cases s with
    | nil => simp [spellingOk] at h
    | cons c r =>
      simp only [spellingOk, Bool.and_eq_true, decide_eq_true_eq, List.all_eq_true] at h
      obtain ⟨rfl, ⟨h1, h2⟩, h3⟩ := h
      exact .ident c r h1 h2 fun k hk => h3 _ hk rfl
  | qstring s =>
    simp only [spellingOk, Bool.and_eq_true, decide_eq_true_eq, Bool.not_eq_true', List.elem_eq_mem, decide_eq_false_iff_not] at h
    obtain ⟨⟨⟨rfl, h1⟩, h2⟩, h3⟩ := h
    exact .qstring s h1 h2 h3

/-- The token ends where the text after it begins. -/
def endsOk : Tok → Bytes → Bool
  | .kw _, c :: _ => !isWordByte c
  | .ident _, c :: _ => !isWordByte c
  | .nvalue _, c :: _ => !isDigitByte c
  | _, _ => true

theorem endsOk_sound {t : Tok} {rest : Bytes} (h : endsOk t rest = true) : Ends t rest := by
  cases t with
  | kw k => intro c hc; cases rest <;> simp_all [endsOk]
  | ident k => intro c hc; cases rest <;> simp_all [endsOk]
  | nvalue k => intro c hc; cases rest <;> simp_all [endsOk]
  | opn => trivial
  | cls => trivial
  | eol => trivial
  | qstring s => trivial

/-- Gaps and tokens put together. -/
def piecesText : List (Bytes × Tok × Bytes) → Bytes → Bytes
  | [], tail => tail
  | (g, _, w) :: ps, tail => g ++ w ++ piecesText ps tail

def piecesOk : List (Bytes × Tok × Bytes) → Bytes → Bool
  | [], tail => gapOk false tail
  | (g, t, w) :: ps, tail => gapOk false g && spellingOk t w && endsOk t (piecesText ps tail) && piecesOk ps tail

theorem spells_pieces {ps : List (Bytes × Tok × Bytes)} {tail : Bytes} (h : piecesOk ps tail = true) :
    Spells (ps.map fun p => p.2.1) (piecesText ps tail) := by
  induction ps with
  | nil => exact .done _ ((gapOk_sound _).1 h)
  | cons p ps ih =>
    obtain ⟨g, t, w⟩ := p
    simp only [piecesOk, Bool.and_eq_true] at h
    exact .tok g t w _ _ ((gapOk_sound _).1 h.1.1.1) (spellingOk_sound h.1.1.2) (endsOk_sound h.1.2) (ih h.2)

end Detox
