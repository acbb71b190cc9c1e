import Verif.Lemmas.ConfigSafety
import Verif.Spec.ConfigErrors

/-!
# Where syntax errors are reported
-/

set_option autoImplicit false

namespace Detox
open Spec

/-! ### Viable prefixes -/

theorem cfStep_completes (file : Bytes) (st : CState) {ws : List Bytes} (hi : st.ignore.Holds ws 0) :
    ∃ more st', cfToks file more st = .ok st' ∧ st'.phase = .top := by
  obtain ⟨ph, name, fs, qs, ig⟩ := st
  simp only at hi
  cases ph with
  | top => exact ⟨[], _, rfl, rfl⟩
  | seqKw => exact ⟨[.ident [], .opn, .kw .lower, .eol, .cls, .eol], _, rfl, rfl⟩
  | seqName s => exact ⟨[.opn, .kw .lower, .eol, .cls, .eol], _, rfl, rfl⟩
  | seqOpen => exact ⟨[.kw .lower, .eol, .cls, .eol], _, rfl, rfl⟩
  | seqList => exact ⟨[.cls, .eol], _, rfl, rfl⟩
  | seqClose => exact ⟨[.eol], _, rfl, rfl⟩
  | plain c => exact ⟨[.eol, .cls, .eol], _, rfl, rfl⟩
  | tab m => exact ⟨[.eol, .cls, .eol], _, rfl, rfl⟩
  | tabOpen m => exact ⟨[.cls, .eol, .cls, .eol], _, rfl, rfl⟩
  | tabOpt m b => exact ⟨[.ident [], .eol, .cls, .eol, .cls, .eol], _, rfl, rfl⟩
  | tabStr m b s => exact ⟨[.eol, .cls, .eol, .cls, .eol], _, rfl, rfl⟩
  | tabEol m b s => exact ⟨[.cls, .eol, .cls, .eol], _, rfl, rfl⟩
  | wipe => exact ⟨[.eol, .cls, .eol], _, rfl, rfl⟩
  | wipeOpen => exact ⟨[.cls, .eol, .cls, .eol], _, rfl, rfl⟩
  | wipeOpt => exact ⟨[.eol, .cls, .eol, .cls, .eol], _, rfl, rfl⟩
  | wipeEol => exact ⟨[.cls, .eol, .cls, .eol], _, rfl, rfl⟩
  | maxl => exact ⟨[.eol, .cls, .eol], _, rfl, rfl⟩
  | maxlOpen => exact ⟨[.cls, .eol, .cls, .eol], _, rfl, rfl⟩
  | maxlOpt => exact ⟨[.nvalue 0, .eol, .cls, .eol, .cls, .eol], _, rfl, rfl⟩
  | maxlVal n => exact ⟨[.eol, .cls, .eol, .cls, .eol], _, rfl, rfl⟩
  | maxlEol n => exact ⟨[.cls, .eol, .cls, .eol], _, rfl, rfl⟩
  | methodEnd => exact ⟨[.eol, .cls, .eol], _, rfl, rfl⟩
  | ignClose => exact ⟨[.eol], _, rfl, rfl⟩
  | ignList => exact ⟨[.cls, .eol], _, rfl, rfl⟩
  | ignStr s =>
    obtain ⟨l, h, _⟩ := filelistPut_holds hi s
    refine ⟨[.eol, .cls, .eol], ⟨.top, name, fs, qs, l⟩, ?_, rfl⟩
    simp only [cfToks, cfStep, if_true, h]
    rfl
  | ignFile =>
    obtain ⟨l, h, _⟩ := filelistPut_holds hi []
    refine ⟨[.ident [], .eol, .cls, .eol], ⟨.top, name, fs, qs, l⟩, ?_, rfl⟩
    simp only [cfToks, cfStep, Tok.string, Res.bind_ok, if_true, h]
    rfl
  | ignOpen =>
    obtain ⟨l, h, _⟩ := filelistPut_holds hi []
    refine ⟨[.kw .filename, .ident [], .eol, .cls, .eol], ⟨.top, name, fs, qs, l⟩, ?_, rfl⟩
    simp only [cfToks, cfStep, Tok.string, Res.bind_ok, if_true, h]
    rfl
  | ignKw =>
    obtain ⟨l, h, _⟩ := filelistPut_holds hi []
    refine ⟨[.opn, .kw .filename, .ident [], .eol, .cls, .eol], ⟨.top, name, fs, qs, l⟩, ?_, rfl⟩
    simp only [cfToks, cfStep, Tok.string, Res.bind_ok, if_true, h]
    rfl

theorem cfToks_holds (file : Bytes) : ∀ (ts : List Tok) (st st' : CState) (ws : List Bytes), st.ignore.Holds ws 0 →
    cfToks file ts st = .ok st' → ∃ ws', st'.ignore.Holds ws' 0
  | [], st, st', ws, h, e => by cases e; exact ⟨ws, h⟩
  | t :: ts, st, st', ws, h, e => by
    simp only [cfToks] at e
    rcases cfStep_cases file st t h with ⟨s1, ws', h1, h2⟩ | h1
    · rw [h1, Res.bind_ok] at e
      exact cfToks_holds file ts s1 st' ws' h2 e
    · rw [h1] at e
      cases e

/-- The parser gets over a list of tokens just if they can be continued to a config file. -/
theorem viable_iff (file : Bytes) (ts : List Tok) (st : CState) {ws : List Bytes} (hp : st.phase = .top) (hf : st.filters = [])
    (hi : st.ignore.Holds ws 0) : Viable ts ↔ ∃ st', cfToks file ts st = .ok st' := by
  constructor
  · rintro ⟨more, rs, hg⟩
    obtain ⟨name, h⟩ := run_config file hg st hp hf
    obtain ⟨l, hl, _⟩ := putMany_holds hi (ignored rs)
    rw [hl, Res.bind_ok, cfToks_append] at h
    cases hs : cfToks file ts st with
    | ok st' => exact ⟨st', rfl⟩
    | exit n => rw [hs] at h; cases h
    | ub u => rw [hs] at h; cases h
    | stuck => rw [hs] at h; cases h
  · rintro ⟨st', h⟩
    obtain ⟨ws', hw⟩ := cfToks_holds file ts st st' ws hi h
    obtain ⟨more, st'', h1, h2⟩ := cfStep_completes file st' hw
    have h3 : cfToks file (ts ++ more) st = .ok st'' := by rw [cfToks_append, h, Res.bind_ok, h1]
    obtain ⟨rs, hg, _⟩ := accepted_config hp hf h3 h2
    exact ⟨more, rs, hg⟩

theorem sentence_iff (file : Bytes) (ts : List Tok) (st : CState) {ws : List Bytes} (hp : st.phase = .top) (hf : st.filters = [])
    (hi : st.ignore.Holds ws 0) : (∃ rs, ConfigG ts rs) ↔ ∃ st', cfToks file ts st = .ok st' ∧ st'.phase = .top := by
  constructor
  · rintro ⟨rs, hg⟩
    obtain ⟨name, h⟩ := run_config file hg st hp hf
    obtain ⟨l, hl, _⟩ := putMany_holds hi (ignored rs)
    rw [hl, Res.bind_ok] at h
    exact ⟨_, h, rfl⟩
  · rintro ⟨st', h, h2⟩
    obtain ⟨rs, hg, _⟩ := accepted_config hp hf h h2
    exact ⟨rs, hg⟩

/-! ### Locating tokens -/

/-- The tokens of a text, each with its text and line, and the line at the end. -/
def locate (line : Nat) (s : Bytes) : List Located × Nat := locateAll s.length line s

theorem locateAll_fuel : ∀ (n m line : Nat) (s : Bytes), s.length ≤ n → s.length ≤ m → locateAll n line s = locateAll m line s
  | n, m, line, [], _, _ => by cases n <;> cases m <;> rfl
  | 0, m, line, c :: s, h, _ => by simp at h
  | n + 1, 0, line, c :: s, _, h => by simp at h
  | n + 1, m + 1, line, c :: s, hn, hm => by
    have hl := lexStep_length c s
    simp at hn hm
    simp only [locateAll]
    rw [locateAll_fuel n m _ _ (by omega) (by omega)]

theorem locate_none {c : Byte} {s rest : Bytes} (line : Nat) (h : lexStep c s = (none, rest)) :
    locate line (c :: s) = locate (if c = 0x0A then line + 1 else line) rest := by
  have hl := lexStep_length c s
  unfold locate
  simp only [List.length_cons, locateAll, h]
  rw [h] at hl
  rw [locateAll_fuel s.length rest.length _ _ hl (Nat.le_refl _)]

theorem locate_some {c : Byte} {v rest : Bytes} {i : LexItem} (line : Nat) (h : lexStep c (v ++ rest) = (some i, rest)) :
    locate line (c :: (v ++ rest)) =
      ({ item := i, text := c :: v, line := if c = 0x0A then line + 1 else line } ::
          (locate (if c = 0x0A then line + 1 else line) rest).1,
        (locate (if c = 0x0A then line + 1 else line) rest).2) := by
  have hl := lexStep_length c (v ++ rest)
  unfold locate
  simp only [List.length_cons, locateAll, h]
  rw [h] at hl
  rw [locateAll_fuel (v ++ rest).length rest.length _ _ hl (Nat.le_refl _)]
  have ht : (c :: (v ++ rest)).take ((v ++ rest).length + 1 - rest.length) = c :: v := by
    rw [show (v ++ rest).length + 1 - rest.length = (c :: v).length by simp; omega, ← List.cons_append]
    exact List.take_left
  rw [ht]

theorem locate_drop_blanks (line : Nat) (s : Bytes) : locate line (s.dropWhile fun x => x = 0x20 || x = 0x09) = locate line s := by
  induction s with
  | nil => rfl
  | cons c s ih =>
    by_cases h : c = 0x20 ∨ c = 0x09
    · rw [locate_none line (lexStep_blank s h), List.dropWhile_cons_of_pos (by simpa using h)]
      rw [if_neg (by rcases h with rfl | rfl <;> decide)]
    · rw [List.dropWhile_cons_of_neg (by simpa using h)]

theorem locate_blank {c : Byte} (line : Nat) (s : Bytes) (h : c = 0x20 ∨ c = 0x09) : locate line (c :: s) = locate line s := by
  rw [locate_none line (lexStep_blank s h), if_neg (by rcases h with rfl | rfl <;> decide)]
  exact locate_drop_blanks line s

theorem locate_newline (line : Nat) (s : Bytes) : locate line (0x0A :: s) = locate (line + 1) s := by
  rw [locate_none line (show lexStep 0x0A s = (none, s) by simp [lexStep]), if_pos rfl]

theorem lexStep_comment {text rest : Bytes} (h : (0x0A : Byte) ∉ text) (hr : ∀ c, rest.head? = some c → c = 0x0A) :
    lexStep 0x23 (text ++ rest) = (none, rest) := by
  obtain ⟨_, t2⟩ := takeWhile_append_stop (p := fun x : Byte => x ≠ 0x0A) (w := text) (rest := rest)
    (fun c hc => by
      have : c ≠ 0x0A := fun e => h (e ▸ hc)
      simpa using this) (fun c hc => by simp [hr c hc])
  unfold lexStep
  rw [if_neg (by decide), if_pos rfl, t2]

theorem locate_gap {g : Bytes} (hg : Gap g) (line : Nat) (s : Bytes) : locate line (g ++ s) = locate (line + newlines g) s := by
  induction hg generalizing line with
  | nil => rfl
  | blank c g hc _ ih =>
    rw [List.cons_append]
    rcases hc with h | h | h
    · rw [locate_blank line _ (.inl h), ih]; subst h; rfl
    · rw [locate_blank line _ (.inr h), ih]; subst h; rfl
    · subst h
      rw [locate_newline, ih]
      simp only [newlines, List.count_cons_self]
      congr 1
      omega
  | comment text g ht _ ih =>
    have he : 0x23 :: text ++ 0x0A :: g ++ s = 0x23 :: (text ++ 0x0A :: (g ++ s)) := by simp
    rw [he, locate_none line (lexStep_comment ht (by simp)), if_neg (by decide), locate_newline, ih]
    have : newlines (0x23 :: text ++ 0x0A :: g) = newlines g + 1 := by
      unfold newlines
      rw [List.cons_append, List.count_cons_of_ne (by decide), List.count_append, List.count_eq_zero.2 ht, List.count_cons_self]
      omega
    rw [this]
    congr 1
    omega

theorem lexStep_token {t : Tok} {w rest : Bytes} (hw : Spelling t w) (he : Ends t rest) :
    ∃ c v, w = c :: v ∧ (0x0A : Byte) ∉ w ∧ lexStep c (v ++ rest) = (some (.tok t false), rest) := by
  have word : ∀ {c : Byte} {v : Bytes}, isLetter c = true → (∀ x ∈ v, isWordByte x = true) → (0x0A : Byte) ∉ c :: v := by
    intro c v hc hv hm
    rcases List.mem_cons.1 hm with h | h
    · rw [← h] at hc; revert hc; decide
    · exact absurd (hv _ h) (by decide)
  cases hw with
  | kw k w hk =>
    obtain ⟨c, v, e, hc, hv, ht⟩ := keyword_words hk
    subst e
    exact ⟨c, v, rfl, word hc hv, by rw [lexStep_word hc hv he, ht]⟩
  | opn => exact ⟨0x7B, [], rfl, by decide, rfl⟩
  | cls => exact ⟨0x7D, [], rfl, by decide, rfl⟩
  | eol => exact ⟨0x3B, [], rfl, by decide, rfl⟩
  | nvalue _ hne hd hle =>
    cases w with
    | nil => exact absurd rfl hne
    | cons c d =>
      refine ⟨c, d, rfl, fun hm => absurd (hd _ hm) (by decide), ?_⟩
      rw [lexStep_number (hd c (by simp)) (fun x hx => hd x (List.mem_cons_of_mem _ hx)) he]
      have : numberItem (c :: d) = .tok (.nvalue (decimal (c :: d))) false := by
        unfold numberItem intMax
        rw [if_pos hle]
      rw [this]
  | ident c s hc hs hk =>
    refine ⟨c, s, rfl, word hc hs, ?_⟩
    rw [lexStep_word hc hs he]
    have : wordTok (c :: s) = .ident (c :: s) := by unfold wordTok; rw [map_toLowerC, lookup_none_of _ hk]
    rw [this]
  | qstring s h1 h2 h3 =>
    refine ⟨0x22, s ++ [0x22], rfl, ?_, ?_⟩
    · rw [show lit "\"" = [0x22] from rfl]
      simp [h2]
    · rw [List.append_assoc, List.singleton_append, lexStep_quoted h1 h2 (.inl rfl)]
      have : quotedItem s 0x22 = .tok (.qstring s) false := by
        unfold quotedItem
        rw [if_neg (by simpa using h3), if_pos rfl]
      rw [this]

theorem locate_token {t : Tok} {w rest : Bytes} (hw : Spelling t w) (he : Ends t rest) (line : Nat) :
    locate line (w ++ rest) = (⟨.tok t false, w, line⟩ :: (locate line rest).1, (locate line rest).2) := by
  obtain ⟨c, v, rfl, hn, h⟩ := lexStep_token hw he
  have hc : c ≠ 0x0A := fun e => hn (by simp [e])
  rw [List.cons_append, locate_some line h, if_neg hc]

/-- The tokens in front of `rest`, and the line where `rest` begins. -/
theorem locate_begins {ts : List Tok} {pre rest : Bytes} (h : Begins ts pre rest) (line : Nat) : ∃ xs : List Located,
    locate line (pre ++ rest) = (xs ++ (locate (line + newlines pre) rest).1, (locate (line + newlines pre) rest).2) ∧
      xs.map (·.item) = ts.map (.tok · false) := by
  induction h generalizing line with
  | gap g rest hg => exact ⟨[], by rw [locate_gap hg]; rfl, rfl⟩
  | tok g t w ts pre rest hg hw he _ ih =>
    obtain ⟨xs, h1, h2⟩ := ih (line + newlines g)
    obtain ⟨_, _, _, hn, _⟩ := lexStep_token hw he
    have hl : line + newlines (g ++ w ++ pre) = line + newlines g + newlines pre := by
      unfold newlines
      rw [List.count_append, List.count_append, List.count_eq_zero.2 hn]
      omega
    refine ⟨⟨.tok t false, w, line + newlines g⟩ :: xs, ?_, by simp [h2]⟩
    rw [List.append_assoc, List.append_assoc, locate_gap hg, locate_token hw he, h1, hl]
    rfl

theorem locate_spells {ts : List Tok} {text : Bytes} (h : Spells ts text) (line : Nat) :
    (locate line text).1.map (·.item) = ts.map (.tok · false) ∧ (locate line text).2 = line + newlines text := by
  induction h generalizing line with
  | done g hg =>
    have := locate_gap hg line []
    rw [List.append_nil] at this
    rw [this]
    exact ⟨rfl, rfl⟩
  | comment g text hg ht =>
    have h1 := lexStep_comment (rest := []) ht (by simp)
    rw [List.append_nil] at h1
    rw [locate_gap hg, locate_none _ h1, if_neg (by decide)]
    refine ⟨rfl, ?_⟩
    have : newlines (g ++ 0x23 :: text) = newlines g := by
      unfold newlines
      rw [List.count_append, List.count_cons_of_ne (by decide), List.count_eq_zero.2 ht]
      omega
    rw [this]
    rfl
  | tok g t w ts rest hg hw he _ ih =>
    obtain ⟨_, _, _, hn, _⟩ := lexStep_token hw he
    have hl : line + newlines (g ++ w ++ rest) = line + newlines g + newlines rest := by
      unfold newlines
      rw [List.count_append, List.count_append, List.count_eq_zero.2 hn]
      omega
    rw [List.append_assoc, locate_gap hg, locate_token hw he, ← List.append_assoc, hl]
    exact ⟨by simp [(ih _).1], (ih _).2⟩

/-! ### Any text -/

theorem takeWhile_prefix_same {p : Byte → Bool} {x y r : Bytes} (hx : ∀ c ∈ x, p c = true) (hr : ∀ c, r.head? = some c → p c = false)
    (hy : y <+: r) : (x ++ y).takeWhile p = x ∧ (x ++ y).dropWhile p = y := by
  refine takeWhile_append_stop hx fun c hc => hr c ?_
  obtain ⟨z, rfl⟩ := hy
  cases y with
  | nil => cases hc
  | cons a y => exact hc

theorem dropWhile_head {p : Byte → Bool} : ∀ (s : Bytes) (c : Byte), (s.dropWhile p).head? = some c → p c = false
  | [], c, h => by cases h
  | a :: s, c, h => by
    rw [List.dropWhile_cons] at h
    split at h
    · exact dropWhile_head s c h
    · next hp =>
      cases h
      simpa using hp

theorem newlines_none {w : Bytes} (h : (0x0A : Byte) ∉ w) : newlines w = 0 := List.count_eq_zero.2 h

theorem newlines_append (a b : Bytes) : newlines (a ++ b) = newlines a + newlines b := List.count_append ..

theorem newlines_cons (c : Byte) (s : Bytes) : newlines (c :: s) = (if c = 0x0A then 1 else 0) + newlines s := by
  unfold newlines
  rw [List.count_cons]
  by_cases h : c = 0x0A <;> simp [h] <;> omega

theorem dropWhile_nil {p : Byte → Bool} : ∀ {s : Bytes}, s.dropWhile p = [] ↔ ∀ x ∈ s, p x = true
  | [] => by simp
  | a :: s => by
    rw [List.dropWhile_cons]
    split
    · next h => rw [dropWhile_nil]; simp [h]
    · next h => simp [h]

theorem lookup_mem {w : Bytes} {k : Kw} : ∀ {l : List (Bytes × Kw)}, l.lookup w = some k → (w, k) ∈ l
  | [], h => by cases h
  | (x, k') :: l, h => by
    simp only [List.lookup] at h
    split at h
    · next e =>
      rw [beq_iff_eq] at e
      cases h
      simp [e]
    · exact List.mem_cons_of_mem _ (lookup_mem h)

theorem lookup_not_mem {w : Bytes} {k : Kw} : ∀ {l : List (Bytes × Kw)}, l.lookup w = none → (w, k) ∉ l
  | [], _ => by simp
  | (x, k') :: l, h => by
    simp only [List.lookup] at h
    split at h
    · cases h
    · next e =>
      intro hm
      rcases List.mem_cons.1 hm with hm | hm
      · cases hm
        simp at e
      · exact lookup_not_mem h hm

theorem wordTok_written {c : Byte} {v : Bytes} (hc : isLetter c = true) (hv : ∀ x ∈ v, isWordByte x = true) :
    Written (wordTok (c :: v)) false (c :: v) := by
  refine .closed _ _ ?_
  unfold wordTok
  rw [map_toLowerC]
  cases h : keywords.lookup ((c :: v).map fold) with
  | some k => exact .kw k _ (lookup_mem h)
  | none => exact .ident c v hc hv fun k => lookup_not_mem h

/-- One match: how much it takes, that a text that ends later gives the same match, which newlines it takes, and how the token is
written. -/
theorem lexStep_split (c : Byte) (s : Bytes) : ∃ x, s = x ++ (lexStep c s).2 ∧
    (∀ y, y <+: (lexStep c s).2 → lexStep c (x ++ y) = ((lexStep c s).1, y)) ∧
    ((∃ u, (lexStep c s).1 = some (.ub u)) ∨ newlines x = unclosed (lexStep c s).1.toList) ∧
    (∀ t un, (lexStep c s).1 = some (.tok t un) → Written t un (c :: x)) := by
  have long : ∀ (p : Byte → Bool), p 0x0A = false → ∃ x, x = s.takeWhile p ∧ s = x ++ s.dropWhile p ∧ newlines x = 0 ∧
      ∀ y, y <+: s.dropWhile p → (x ++ y).takeWhile p = x ∧ (x ++ y).dropWhile p = y := by
    intro p hp
    refine ⟨s.takeWhile p, rfl, List.takeWhile_append_dropWhile.symm, newlines_none fun hm => ?_, fun y hy => ?_⟩
    · have := takeWhile_all _ hm
      rw [hp] at this
      cases this
    · exact takeWhile_prefix_same takeWhile_all (dropWhile_head s) hy
  have one : ∀ i : Option LexItem, unclosed i.toList = 0 → (∀ t un, i = some (.tok t un) → Written t un [c]) →
      (∀ t, lexStep c t = (i, t)) → ∃ x, s = x ++ (lexStep c s).2 ∧
      (∀ y, y <+: (lexStep c s).2 → lexStep c (x ++ y) = ((lexStep c s).1, y)) ∧
      ((∃ u, (lexStep c s).1 = some (.ub u)) ∨ newlines x = unclosed (lexStep c s).1.toList) ∧
      (∀ t un, (lexStep c s).1 = some (.tok t un) → Written t un (c :: x)) := by
    intro i hi hw h
    refine ⟨[], by rw [h]; rfl, fun y _ => by rw [List.nil_append, h, h], .inr ?_, by rw [h]; exact hw⟩
    rw [h, hi]
    rfl
  have letters : ∀ t un, (none : Option LexItem) = some (.tok t un) → ∀ w, Written t un w := fun t un h => by cases h
  by_cases h1 : (c = 0x20 || c = 0x09) = true
  · have hs : ∀ t, lexStep c t = (none, t.dropWhile fun x => x = 0x20 || x = 0x09) := fun t => by unfold lexStep; rw [if_pos h1]
    obtain ⟨x, _, h3, h4, h5⟩ := long (fun x => x = 0x20 || x = 0x09) (by decide)
    rw [hs]
    exact ⟨x, h3, fun y hy => by rw [hs, (h5 y hy).2], .inr h4, fun t un h => letters t un h _⟩
  by_cases h2 : c = 0x23
  · have hs : ∀ t, lexStep c t = (none, t.dropWhile fun x => x ≠ 0x0A) := fun t => by
      unfold lexStep; rw [if_neg h1, if_pos h2]
    obtain ⟨x, _, h3, h4, h5⟩ := long (fun x => x ≠ 0x0A) (by decide)
    rw [hs]
    exact ⟨x, h3, fun y hy => by rw [hs, (h5 y hy).2], .inr h4, fun t un h => letters t un h _⟩
  by_cases h3 : c = 0x0A
  · exact one none rfl (fun t un h => letters t un h _) fun t => by unfold lexStep; rw [if_neg h1, if_neg h2, if_pos h3]
  by_cases h4 : c = 0x7B
  · exact one (some (.tok .opn false)) rfl (fun t un h => by cases h; subst h4; exact .closed _ _ .opn) fun t => by unfold lexStep; rw [if_neg h1, if_neg h2, if_neg h3, if_pos h4]
  by_cases h5 : c = 0x7D
  · exact one (some (.tok .cls false)) rfl (fun t un h => by cases h; subst h5; exact .closed _ _ .cls) fun t => by unfold lexStep; rw [if_neg h1, if_neg h2, if_neg h3, if_neg h4, if_pos h5]
  by_cases h6 : c = 0x3B
  · exact one (some (.tok .eol false)) rfl (fun t un h => by cases h; subst h6; exact .closed _ _ .eol) fun t => by unfold lexStep; rw [if_neg h1, if_neg h2, if_neg h3, if_neg h4, if_neg h5, if_pos h6]
  by_cases h7 : c = 0x22
  · have hs : ∀ t, lexStep c t = match t.dropWhile (fun x => x ≠ 0x22 && x ≠ 0x0A) with
        | [] => (none, t)
        | d :: rest => (some (quotedItem (t.takeWhile fun x => x ≠ 0x22 && x ≠ 0x0A) d), rest) := fun t => by
      unfold lexStep
      rw [if_neg h1, if_neg h2, if_neg h3, if_neg h4, if_neg h5, if_neg h6, if_pos h7]
      cases t.dropWhile (fun x => x ≠ 0x22 && x ≠ 0x0A) <;> rfl
    have hd : s = s.takeWhile (fun x => x ≠ 0x22 && x ≠ 0x0A) ++ s.dropWhile (fun x => x ≠ 0x22 && x ≠ 0x0A) :=
      List.takeWhile_append_dropWhile.symm
    cases hq : s.dropWhile (fun x => x ≠ 0x22 && x ≠ 0x0A) with
    | nil =>
      have e : lexStep c s = (none, s) := by rw [hs, hq]
      rw [e]
      refine ⟨[], rfl, fun y hy => ?_, .inr rfl, fun t un h => letters t un h _⟩
      have : y.dropWhile (fun x => x ≠ 0x22 && x ≠ 0x0A) = [] := by
        exact dropWhile_nil.2 fun x hx => dropWhile_nil.1 hq x (hy.subset hx)
      rw [List.nil_append, hs, this]
    | cons d rest =>
      have e : lexStep c s = (some (quotedItem (s.takeWhile fun x => x ≠ 0x22 && x ≠ 0x0A) d), rest) := by rw [hs, hq]
      have hdv : d = 0x22 ∨ d = 0x0A := by
        have := dropWhile_head (p := fun x => x ≠ 0x22 && x ≠ 0x0A) s d (by rw [hq]; rfl)
        simpa [Decidable.or_iff_not_imp_left] using this
      rw [hq] at hd
      rw [e]
      generalize hb : s.takeWhile (fun x => x ≠ 0x22 && x ≠ 0x0A) = body at hd ⊢
      have hall : ∀ x ∈ body, x ≠ 0x22 ∧ x ≠ 0x0A := fun x hx => by
        have := takeWhile_all x (hb ▸ hx)
        simpa using this
      refine ⟨body ++ [d], by rw [hd]; simp, fun y _ => ?_, ?_, ?_⟩
      · rw [h7, List.append_assoc, List.singleton_append]
        exact lexStep_quoted (fun h => (hall _ h).1 rfl) (fun h => (hall _ h).2 rfl) hdv
      · unfold quotedItem
        split
        · exact .inl ⟨_, rfl⟩
        · refine .inr ?_
          rw [newlines_append, newlines_none fun h => (hall _ h).2 rfl]
          split
          · next e => subst e; rfl
          · next ne =>
            rcases hdv with rfl | rfl
            · exact absurd rfl ne
            · rfl
      · intro t un h
        injection h with h
        unfold quotedItem at h
        split at h
        · cases h
        · next hz =>
          have hz : (0x00 : Byte) ∉ body := by simpa using hz
          have q1 : (0x22 : Byte) ∉ body := fun h => (hall _ h).1 rfl
          have q2 : (0x0A : Byte) ∉ body := fun h => (hall _ h).2 rfl
          subst h7
          split at h
          · next e =>
            subst e
            cases h
            exact .closed _ _ (.qstring body q1 q2 hz)
          · next ne =>
            cases h
            rcases hdv with rfl | rfl
            · exact absurd rfl ne
            · exact .unclosed body q1 q2 hz
  by_cases h8 : isLetter c = true
  · have hs : ∀ t, lexStep c t = (some (.tok (wordTok (c :: t.takeWhile isWordByte)) false), t.dropWhile isWordByte) := fun t => by
      unfold lexStep; rw [if_neg h1, if_neg h2, if_neg h3, if_neg h4, if_neg h5, if_neg h6, if_neg h7, if_pos h8]
    obtain ⟨x, hx, h3, h4, h5⟩ := long isWordByte (by decide)
    rw [hs]
    refine ⟨x, h3, fun y hy => by rw [hs, (h5 y hy).1, (h5 y hy).2, hx], .inr h4, fun t un h => ?_⟩
    cases h
    rw [hx]
    exact wordTok_written h8 takeWhile_all
  by_cases h9 : isDigitByte c = true
  · have hs : ∀ t, lexStep c t = (some (numberItem (c :: t.takeWhile isDigitByte)), t.dropWhile isDigitByte) := fun t => by
      unfold lexStep; rw [if_neg h1, if_neg h2, if_neg h3, if_neg h4, if_neg h5, if_neg h6, if_neg h7, if_neg h8, if_pos h9]
    obtain ⟨x, hx, h3, h4, h5⟩ := long isDigitByte (by decide)
    rw [hs]
    refine ⟨x, h3, fun y hy => by rw [hs, (h5 y hy).1, (h5 y hy).2, hx], ?_, fun t un h => ?_⟩
    · unfold numberItem
      split
      · exact .inr h4
      · exact .inl ⟨_, rfl⟩
    · injection h with h
      unfold numberItem at h
      split at h
      · next hle =>
        cases h
        rw [hx]
        refine .closed _ _ (.nvalue _ (by simp) (fun a ha => ?_) hle)
        rcases List.mem_cons.1 ha with rfl | ha
        · exact h9
        · exact takeWhile_all a ha
      · cases h
  · exact one none rfl (fun t un h => letters t un h _) fun t => by
      unfold lexStep; rw [if_neg h1, if_neg h2, if_neg h3, if_neg h4, if_neg h5, if_neg h6, if_neg h7, if_neg h8, if_neg h9]

theorem lex_none {c : Byte} {s rest : Bytes} (h : lexStep c s = (none, rest)) : lex (c :: s) = lex rest := by rw [lex_cons, h]

theorem lex_some {c : Byte} {s rest : Bytes} {i : LexItem} (h : lexStep c s = (some i, rest)) : lex (c :: s) = i :: lex rest := by
  rw [lex_cons, h]

theorem unclosed_append (a b : List LexItem) : unclosed (a ++ b) = unclosed a + unclosed b := by
  induction a with
  | nil => simp [unclosed]
  | cons i a ih =>
    cases i with
    | tok t un => cases un <;> simp only [List.cons_append, unclosed, ih] <;> omega
    | ub u => simpa [unclosed] using ih

theorem tokensOf_append (a b : List LexItem) : tokensOf (a ++ b) = tokensOf a ++ tokensOf b := by
  induction a with
  | nil => rfl
  | cons i a ih => cases i <;> simp [tokensOf, ih]

/-- The located tokens are the tokens. -/
theorem locate_items : ∀ (n line : Nat) (s : Bytes), s.length ≤ n → (locateAll n line s).1.map (·.item) = lex s
  | n, line, [], _ => by cases n <;> rfl
  | 0, line, c :: s, h => by simp at h
  | n + 1, line, c :: s, h => by
    have hl := lexStep_length c s
    simp at h
    have ih := locate_items n (if c = 0x0A then line + 1 else line) (lexStep c s).2 (by omega)
    rw [lex_cons]
    simp only [locateAll]
    cases (lexStep c s).1 with
    | none => exact ih
    | some i => simp [ih]

/-- The line at the end. -/
theorem locate_last : ∀ (n line : Nat) (s : Bytes), s.length ≤ n → (∀ u, .ub u ∉ lex s) →
    (locateAll n line s).2 + unclosed (lex s) = line + newlines s
  | n, line, [], _, _ => by cases n <;> rfl
  | 0, line, c :: s, h, _ => by simp at h
  | n + 1, line, c :: s, h, hu => by
    have hl := lexStep_length c s
    simp at h
    obtain ⟨x, h1, h2, h3, h4⟩ := lexStep_split c s
    have hn : newlines (c :: s) = (if c = 0x0A then 1 else 0) + newlines x + newlines (lexStep c s).2 := by
      rw [newlines_cons, Nat.add_assoc, ← newlines_append, ← h1]
    have hu' : ∀ u, .ub u ∉ lex (lexStep c s).2 := fun u hm => hu u (by
      rw [lex_cons]
      cases (lexStep c s).1 with
      | none => exact hm
      | some i => exact List.mem_cons_of_mem _ hm)
    have ih := locate_last n (if c = 0x0A then line + 1 else line) (lexStep c s).2 (by omega) hu'
    rcases h3 with ⟨u, h3⟩ | h3
    · exact absurd (by rw [lex_cons, h3]; simp) (hu u)
    · have hx : unclosed (lex (c :: s)) = newlines x + unclosed (lex (lexStep c s).2) := by
        rw [h3, ← unclosed_append, lex_cons]
        cases (lexStep c s).1 <;> rfl
      have hm : (locateAll (n + 1) line (c :: s)).2 = (locateAll n (if c = 0x0A then line + 1 else line) (lexStep c s).2).2 := by
        simp only [locateAll]
        cases (lexStep c s).1 <;> rfl
      rw [hm, hx, hn]
      split at ih <;> rename_i hc <;> simp only [hc, if_true, if_false] at * <;> omega

/-- Any of the tokens: where it is in the text, and its line. -/
theorem locate_any : ∀ (n line : Nat) (s : Bytes), s.length ≤ n → ∀ (xs : List Located) (l : Located) (ys : List Located),
    (locateAll n line s).1 = xs ++ l :: ys → (∀ u, .ub u ∉ xs.map (·.item)) → (∀ u, l.item ≠ .ub u) → ∃ pre post,
      s = pre ++ l.text ++ post ∧ lex pre = xs.map (·.item) ∧ lex l.text = [l.item] ∧ lex post = ys.map (·.item) ∧
      l.line + unclosed (lex pre) = line + newlines pre ∧ (∀ t un, l.item = .tok t un → Written t un l.text)
  | n, line, [], _, xs, l, ys, h, _, _ => by cases n <;> simp [locateAll] at h
  | 0, line, c :: s, h, _, _, _, _, _, _ => by simp at h
  | n + 1, line, c :: s, h, xs, l, ys, hl, hu, hul => by
    have hlen := lexStep_length c s
    simp at h
    obtain ⟨x, h1, h2, h3, h4⟩ := lexStep_split c s
    have htake : (c :: s).take (s.length + 1 - (lexStep c s).2.length) = c :: x := by
      have : s.length = x.length + (lexStep c s).2.length := by rw [← List.length_append, ← h1]
      rw [show s.length + 1 - (lexStep c s).2.length = (c :: x).length by simp; omega]
      conv => lhs; arg 2; rw [h1]
      rw [← List.cons_append]
      exact List.take_left
    simp only [locateAll, htake] at hl
    generalize hline : (if c = 0x0A then line + 1 else line) = line' at hl
    have hadd : line' = line + if c = 0x0A then 1 else 0 := by rw [← hline]; split <;> rfl
    have step : ∀ xs', (locateAll n line' (lexStep c s).2).1 = xs' ++ l :: ys → (∀ u, .ub u ∉ xs'.map (·.item)) →
        (∀ u, (lexStep c s).1 ≠ some (.ub u)) → ∃ pre post,
        c :: s = pre ++ l.text ++ post ∧ lex pre = (lexStep c s).1.toList ++ xs'.map (·.item) ∧ lex l.text = [l.item] ∧
        lex post = ys.map (·.item) ∧ l.line + unclosed (lex pre) = line + newlines pre ∧
        (∀ t un, l.item = .tok t un → Written t un l.text) := by
      intro xs' hxs hus hnu
      obtain ⟨pre, post, e1, e2, e3, e4, e5, e6⟩ := locate_any n line' (lexStep c s).2 (by omega) xs' l ys hxs hus hul
      have hpre : pre <+: (lexStep c s).2 := by rw [e1, List.append_assoc]; exact List.prefix_append ..
      have hlex : lex (c :: (x ++ pre)) = (lexStep c s).1.toList ++ lex pre := by
        rw [lex_cons, h2 pre hpre]
        cases (lexStep c s).1 <;> rfl
      refine ⟨c :: (x ++ pre), post, ?_, by rw [hlex, e2], e3, e4, ?_, e6⟩
      · rw [List.cons_append, List.cons_append]
        congr 1
        conv => lhs; rw [h1, e1]
        simp
      · rcases h3 with ⟨u, h3⟩ | h3
        · exact absurd h3 (hnu u)
        · rw [hlex, unclosed_append, ← h3, newlines_cons, newlines_append]
          omega
    cases hi : (lexStep c s).1 with
    | none =>
      rw [hi] at hl
      have := step xs hl hu (by simp [hi])
      rwa [hi] at this
    | some i =>
      rw [hi] at hl
      cases xs with
      | nil =>
        simp only [List.nil_append, List.cons.injEq] at hl
        obtain ⟨rfl, rfl⟩ := hl
        refine ⟨[], (lexStep c s).2, by simp only [List.nil_append, List.cons_append]; rw [← h1], rfl, ?_, ?_, ?_,
          fun t un h => h4 t un (by rw [hi, ← h])⟩
        · have := h2 [] (List.nil_prefix)
          rw [List.append_nil, hi] at this
          rw [lex_some this]
          rfl
        · exact (locate_items n line' _ (by omega)).symm
        · simp only [lex_nil, unclosed, newlines, List.count_nil]
          have hc : c ≠ 0x0A := by
            rintro rfl
            simp [lexStep] at hi
          rw [hadd, if_neg hc]
      | cons a xs =>
        simp only [List.cons_append, List.cons.injEq] at hl
        obtain ⟨rfl, hl⟩ := hl
        have hu1 : ∀ u, i ≠ .ub u := fun u e => hu u (by simp [e])
        have := step xs hl (fun u hm => hu u (by simp only [List.map_cons]; exact List.mem_cons_of_mem _ hm))
          (fun u e => hu1 u (by rw [hi] at e; injection e))
        rw [hi] at this
        exact this

end Detox
