import Verif.Model.Warnings
import Verif.Spec.Warnings
import Verif.Lemmas.Units

/-!
# The program with its warnings
-/

set_option autoImplicit false

namespace Detox
open Spec

/-! ### Results -/

theorem Said.bind_snd {α β : Type} (x : Said α) (f : α → Said β) : (x.bind f).2 = x.2 >>= fun a => (f a).2 := by
  obtain ⟨m, r⟩ := x
  cases r <;> rfl

theorem Said.bind_ok {α β : Type} (m : List Bytes) (a : α) (f : α → Said β) : Said.bind (m, .ok a) f = (m ++ (f a).1, (f a).2) := rfl

theorem cleanUtf8LoopLoud_snd (t : Table) : ∀ (n : Nat) (o : OutBuf) (s : Bytes), (cleanUtf8LoopLoud t n o s).2 = cleanUtf8Loop t n o s
  | 0, _, [] => rfl
  | 0, _, _ :: _ => rfl
  | _ + 1, _, [] => rfl
  | n + 1, o, c :: rest => by
    have ih := cleanUtf8LoopLoud_snd t n
    unfold cleanUtf8LoopLoud cleanUtf8Loop
    cases utf8Width c with
    | none => simp only [Said.bind_snd, ih]
    | some w =>
      dsimp only
      generalize eatCont (w - 1) (unpackStart w c) rest = e
      obtain ⟨v, rest'⟩ := e
      cases v with
      | none => simp only [Said.bind_snd, ih]
      | some v => cases h : utf8Replacement t v <;> simp only [h, Said.bind_snd, ih]

theorem cleanUtf8Loud_snd (t : Option Table) (s : Bytes) : (cleanUtf8Loud t s).2 = cleanUtf8 t s := by
  cases t with
  | none => rfl
  | some t => simp only [cleanUtf8Loud, cleanUtf8, Said.bind_snd, cleanUtf8LoopLoud_snd]

theorem cleanMaxLengthLoud_snd (P : Platform) (n : Nat) (s : Bytes) : (cleanMaxLengthLoud P n s).2 = cleanMaxLength P n s := by
  unfold cleanMaxLengthLoud cleanMaxLength
  generalize (if n = 0 then 256 else n) = L
  dsimp only
  by_cases h : s.length ≤ L
  · rw [if_pos h, if_pos h]
  · rw [if_neg h, if_neg h]
    cases strrchrIdx 0x2E s with
    | none => rfl
    | some e =>
      dsimp only
      by_cases h1 : (s.drop e).length = 1
      · rw [if_pos h1, if_pos h1]
      · rw [if_neg h1, if_neg h1, Said.bind_snd]
        congr 1
        funext e
        split <;> rfl

theorem filterRunLoud_snd (P : Platform) (f : Filter) (s : Option Bytes) : (filterRunLoud P f s).2 = filterRun P f s := by
  cases s with
  | none => rfl
  | some s =>
    unfold filterRunLoud filterRun
    simp only [Said.bind_snd]
    cases f.cleaner <;> simp only [cleanUtf8Loud_snd, cleanMaxLengthLoud_snd] <;> rfl

theorem runFiltersLoud_snd (P : Platform) : ∀ (fs : List Filter) (s : Option Bytes), (runFiltersLoud P fs s).2 = runFilters P fs s
  | [], _ => rfl
  | _ :: _, none => rfl
  | f :: fs, some s => by
    simp only [runFiltersLoud, runFilters, Said.bind_snd, filterRunLoud_snd, runFiltersLoud_snd P fs]

theorem sequenceRunFiltersLoud_snd (P : Platform) (q : Option Sequence) (s : Option Bytes) :
    (sequenceRunFiltersLoud P q s).2 = sequenceRunFilters P q s := by
  cases q with
  | none => rfl
  | some q =>
    cases s with
    | none => rfl
    | some s => exact runFiltersLoud_snd P q.filters (some s)

/-! ### Numbers in hexadecimal -/

/-- The last `k` digits. -/
def hexFix (upper : Bool) : Nat → Nat → Bytes
  | 0, _ => []
  | k + 1, n => hexFix upper k (n / 16) ++ [hexChar upper (n % 16)]

theorem hexFix_zero (upper : Bool) : ∀ k, hexFix upper k 0 = List.replicate k 0x30
  | 0 => rfl
  | k + 1 => by
    simp only [hexFix, Nat.zero_div, hexFix_zero upper k, Nat.zero_mod]
    rw [List.replicate_succ']
    rfl

theorem hexFix_length (upper : Bool) : ∀ k n, (hexFix upper k n).length = k
  | 0, _ => rfl
  | k + 1, n => by simp [hexFix, hexFix_length upper k]

theorem printfHex_fix (upper : Bool) : ∀ (k f n : Nat), k ≤ f → n < 16 ^ (k + 1) →
    List.leftpad (k + 1) 0x30 (hexDigits upper (f + 1) n) = hexFix upper (k + 1) n
  | 0, f, n, _, hn => by
    have : n < 16 := by simpa using hn
    simp only [hexDigits, if_pos this, hexFix, Nat.mod_eq_of_lt this]
    rfl
  | k + 1, f, n, hf, hn => by
    unfold hexDigits
    by_cases h : n < 16
    · rw [if_pos h]
      simp only [hexFix, Nat.mod_eq_of_lt h]
      have h1 := hexFix_zero upper (k + 1)
      simp only [hexFix] at h1
      rw [Nat.div_eq_of_lt h, show (0 : Nat) / 16 = 0 from rfl] 
      rw [show (0 : Nat) / 16 = 0 from rfl] at h1
      rw [h1]
      simp [List.leftpad]
    · rw [if_neg h]
      obtain ⟨f, rfl⟩ : ∃ g, f = g + 1 := ⟨f - 1, by omega⟩
      have ih := printfHex_fix upper k f (n / 16) (by omega) (by rw [Nat.pow_succ] at hn; exact Nat.div_lt_of_lt_mul (by omega))
      conv => rhs; unfold hexFix
      rw [← ih]
      simp [List.leftpad]

theorem hexChar_capital : ∀ d, d < 16 → hexChar true d = (lit "0123456789ABCDEF").getD d 0 := by decide +kernel

theorem printfHex_hex8 {v : Nat} (h : v < 16 ^ 8) : printfHex true 8 v = hex8 v := by
  unfold printfHex
  rw [printfHex_fix true 7 7 v (Nat.le_refl _) h]
  simp only [hexFix, hex8, List.nil_append, Nat.div_div_eq_div_mul, List.range, List.range.loop, List.map_cons, List.map_nil, List.cons_append,
    hexChar_capital _ (Nat.mod_lt _ (by decide : 16 > 0))]
  simp

/-! ### What `clean_utf_8` says -/

theorem contVal_lt : ∀ (conts : Bytes) (v b : Nat), (∀ x ∈ conts, isCont x = true) → v < b → contVal v conts < b * 64 ^ conts.length
  | [], v, b, _, h => by simpa [contVal] using h
  | c :: conts, v, b, hc, h => by
    rw [contVal_cons, List.length_cons, Nat.pow_succ]
    have h1 := hc c (by simp)
    simp only [isCont, Bool.and_eq_true, decide_eq_true_eq] at h1
    have := contVal_lt conts (v * 64 + (c.toNat - 0x80)) (b * 64) (fun x hx => hc x (by simp [hx])) (by omega)
    rw [show b * (64 ^ conts.length * 64) = b * 64 * 64 ^ conts.length by rw [Nat.mul_comm (64 ^ _) 64, Nat.mul_assoc]]
    exact this

theorem leadOf_value : ∀ (c : Byte) (w base : Nat), leadOf c = some (w, base) → c.toNat - base < 2 ^ (if w = 1 then 7 else 7 - w) ∧ w ≤ 6 ∧ 1 ≤ w := by
  have : ∀ c : Byte, ∀ p, p ∈ leadOf c → c.toNat - p.2 < 2 ^ (if p.1 = 1 then 7 else 7 - p.1) ∧ p.1 ≤ 6 ∧ 1 ≤ p.1 := forall_byte (by decide +kernel)
  exact fun c w base h => this c (w, base) h

/-- No value has more than 31 bits. -/
theorem Spec.IsUnit.value_lt {u : Bytes} {v : Nat} (h : IsUnit u v) : v < 2 ^ 31 := by
  obtain ⟨c, conts, w, base, rfl, hl, hw, hc, rfl⟩ := h
  obtain ⟨h1, h2, h3⟩ := leadOf_value c w base hl
  have h4 : contVal (c.toNat - base) conts < _ := contVal_lt conts _ _ hc h1
  rw [show conts.length = w - 1 by omega] at h4
  refine Nat.lt_of_lt_of_le h4 ?_
  have : w = 1 ∨ w = 2 ∨ w = 3 ∨ w = 4 ∨ w = 5 ∨ w = 6 := by omega
  rcases this with rfl | rfl | rfl | rfl | rfl | rfl <;> decide

/-- The characters in the table. -/
def KnownTo (t : Table) (v : Nat) : Prop := tableGet t v ≠ none

theorem remark_unit (t : Table) {u : Bytes} {v : Nat} (h : IsUnit u v) : Remark (KnownTo t) (.unit v) (utf8Warnings t v) := by
  unfold utf8Warnings
  by_cases hk : tableGet t v = none
  · by_cases h0 : v = 0
    · rw [if_pos ⟨hk, h0⟩]; exact .null v (fun h => h hk) h0
    · rw [if_neg (fun h => h0 h.2)]
      by_cases hm : v > unicodeMax
      · rw [if_pos ⟨hk, hm⟩, printfHex_hex8 (Nat.lt_trans h.value_lt (by decide))]
        exact .beyond v (fun h => h hk) hm
      · rw [if_neg (fun h => hm h.2)]
        exact .fine v (.inr ⟨h0, by unfold unicodeMax at hm; omega⟩)
  · rw [if_neg (fun h => hk h.1), if_neg (fun h => hk h.1)]
    exact .fine v (.inl hk)

theorem remark_unique {known : Nat → Prop} {p : Piece} {m m' : List Bytes} (h : Remark known p m) (h' : Remark known p m') : m = m' := by
  have no : ∀ v : Nat, known v ∨ (v ≠ 0 ∧ v ≤ 0x10FFFF) → ¬ known v → (v = 0 ∨ 0x10FFFF < v) → False := by
    intro v a b c
    rcases a with a | a
    · exact b a
    · omega
  cases h with
  | fine v a =>
    cases h' with
    | fine => rfl
    | null _ b c => exact (no v a b (.inl c)).elim
    | beyond _ b c => exact (no v a b (.inr c)).elim
  | null v a b =>
    cases h' with
    | fine _ c => exact (no v c a (.inl b)).elim
    | null => rfl
    | beyond _ c d => omega
  | beyond v a b =>
    cases h' with
    | fine _ c => exact (no v c a (.inr b)).elim
    | null => omega
    | beyond => rfl
  | stray => cases h'; rfl
  | cutEnd => cases h'; rfl
  | cut => cases h'; rfl

theorem remarks_unique {known : Nat → Prop} {ps : List Piece} {m m' : List Bytes} (h : Remarks known ps m) (h' : Remarks known ps m') : m = m' := by
  induction h generalizing m' with
  | nil => cases h'; rfl
  | cons p ps m ms a _ ih =>
    cases h' with
    | cons _ _ m2 ms2 b c => rw [remark_unique a b, ih c]

/-- The pieces, computed. -/
def pieceLoop : Nat → Bytes → List Piece
  | _, [] => []
  | 0, _ :: _ => []
  | n + 1, c :: rest =>
    match leadOf c with
    | none => .stray :: pieceLoop n rest
    | some (w, base) =>
      match eatCont (w - 1) (c.toNat - base) rest with
      | (some v, rest') => .unit v :: pieceLoop n rest'
      | (none, []) => [.cut true]
      | (none, d :: rest') => .cut false :: pieceLoop n (d :: rest')

theorem eatCont_short : ∀ (conts : Bytes) (k v : Nat) (rest : Bytes), (∀ x ∈ conts, isCont x = true) → conts.length < k →
    (∀ x, rest.head? = some x → isCont x = false) → eatCont k v (conts ++ rest) = (none, rest)
  | [], k + 1, v, [], _, _, _ => rfl
  | [], k + 1, v, d :: rest, _, _, h => by
    have := h d rfl
    simp only [List.nil_append, eatCont, isUtf8Cont_eq, this]
    rfl
  | c :: conts, k + 1, v, rest, hc, hk, h => by
    simp only [List.cons_append, eatCont, isUtf8Cont_eq, hc c (by simp), if_true]
    exact eatCont_short conts k _ rest (fun x hx => hc x (by simp [hx])) (by simp at hk; omega) h

theorem pieces_loop {s : Bytes} {ps : List Piece} (h : Pieces s ps) : ∀ n, s.length ≤ n → pieceLoop n s = ps := by
  induction h with
  | nil => intro n _; cases n <;> rfl
  | unit u v rest ps hu _ ih =>
    intro n hn
    obtain ⟨c, conts, w, base, rfl, hl, hw, hc, rfl⟩ := hu
    obtain ⟨n, rfl⟩ : ∃ m, n = m + 1 := ⟨n - 1, by simp at hn; omega⟩
    rw [List.cons_append]
    simp only [pieceLoop, hl]
    rw [show w - 1 = conts.length by omega, eatCont_conts _ _ _ hc]
    dsimp only
    rw [ih n (by simp at hn; omega)]
    rfl
  | stray c rest ps hl _ ih =>
    intro n hn
    obtain ⟨n, rfl⟩ : ∃ m, n = m + 1 := ⟨n - 1, by simp at hn; omega⟩
    simp only [pieceLoop, hl]
    rw [ih n (by simp at hn; omega)]
  | cutEnd c conts w base hl hc hw =>
    intro n hn
    obtain ⟨n, rfl⟩ : ∃ m, n = m + 1 := ⟨n - 1, by simp at hn; omega⟩
    have := eatCont_short conts (w - 1) (c.toNat - base) [] hc (by omega) (by simp)
    rw [List.append_nil] at this
    simp only [pieceLoop, hl, this]
  | cut c conts w base d rest ps hl hc hw hd _ ih =>
    intro n hn
    obtain ⟨n, rfl⟩ : ∃ m, n = m + 1 := ⟨n - 1, by simp at hn; omega⟩
    have := eatCont_short conts (w - 1) (c.toNat - base) (d :: rest) hc (by omega) (by simpa using hd)
    rw [List.cons_append]
    simp only [pieceLoop, hl, this]
    rw [ih n (by simp at hn ⊢; omega)]

/-- A string is cut into pieces in one way only. -/
theorem pieces_unique {s : Bytes} {ps ps' : List Piece} (h : Pieces s ps) (h' : Pieces s ps') : ps = ps' :=
  (pieces_loop h _ (Nat.le_refl _)).symm.trans (pieces_loop h' _ (Nat.le_refl _))

/-- The messages of the loop are those about the pieces, or the first of them if the buffer overflows. -/
theorem utf8_messages (t : Table) : ∀ (n : Nat) (o : OutBuf) (s : Bytes), s.length ≤ n →
    ∃ ps ms, Pieces s ps ∧ Remarks (KnownTo t) ps ms ∧ (cleanUtf8LoopLoud t n o s).1 <+: ms ∧
      (∀ o', (cleanUtf8LoopLoud t n o s).2 = .ok o' → (cleanUtf8LoopLoud t n o s).1 = ms)
  | 0, o, [], _ => ⟨[], [], .nil, .nil, List.prefix_refl _, fun _ _ => rfl⟩
  | 0, o, _ :: _, h => absurd h (by simp)
  | _ + 1, o, [], _ => ⟨[], [], .nil, .nil, List.prefix_refl _, fun _ _ => rfl⟩
  | n + 1, o, c :: s, h => by
    have ih := utf8_messages t n
    have step : ∀ (m : List Bytes) (r : Res OutBuf) (s' : Bytes) (p : Piece), s'.length ≤ n → Remark (KnownTo t) p m →
        (∀ ps, Pieces s' ps → Pieces (c :: s) (p :: ps)) → 
        ∃ ps ms, Pieces (c :: s) ps ∧ Remarks (KnownTo t) ps ms ∧ (Said.bind (m, r) fun o => cleanUtf8LoopLoud t n o s').1 <+: ms ∧
          (∀ o', (Said.bind (m, r) fun o => cleanUtf8LoopLoud t n o s').2 = .ok o' →
            (Said.bind (m, r) fun o => cleanUtf8LoopLoud t n o s').1 = ms) := by
      intro m r s' p hl hm hp
      cases r with
      | ok o1 =>
        obtain ⟨ps, ms, h1, h2, h3, h4⟩ := ih o1 s' hl
        refine ⟨p :: ps, m ++ ms, hp ps h1, .cons p ps m ms hm h2, (List.prefix_append_right_inj m).2 h3, fun o' ho => ?_⟩
        exact congrArg (m ++ ·) (h4 o' ho)
      | exit k =>
        obtain ⟨ps, ms, h1, h2, h3, h4⟩ := ih o s' hl
        exact ⟨p :: ps, m ++ ms, hp ps h1, .cons p ps m ms hm h2, List.prefix_append m ms, fun o' ho => by cases ho⟩
      | ub u =>
        obtain ⟨ps, ms, h1, h2, h3, h4⟩ := ih o s' hl
        exact ⟨p :: ps, m ++ ms, hp ps h1, .cons p ps m ms hm h2, List.prefix_append m ms, fun o' ho => by cases ho⟩
      | stuck =>
        obtain ⟨ps, ms, h1, h2, h3, h4⟩ := ih o s' hl
        exact ⟨p :: ps, m ++ ms, hp ps h1, .cons p ps m ms hm h2, List.prefix_append m ms, fun o' ho => by cases ho⟩
    unfold cleanUtf8LoopLoud
    rw [utf8Width_eq]
    simp only [List.length_cons, Nat.add_le_add_iff_right] at h
    cases hl : leadOf c with
    | none => exact step _ _ s .stray h .stray fun ps hp => .stray c s ps hl hp
    | some q =>
      obtain ⟨w, base⟩ := q
      have hw := (leadOf_width c w base hl).1
      simp only [Option.map_some]
      rw [unpackStart_eq c w base hl]
      rcases eatCont_spec (w - 1) (c.toNat - base) s with ⟨conts, rest, h1, h2, h3, h4⟩ | ⟨conts, rest, h1, h2, h3, h5, h4⟩
      · rw [h4]
        have hu : IsUnit (c :: conts) (contVal (c.toNat - base) conts) := ⟨c, conts, w, base, rfl, hl, by omega, h3, rfl⟩
        have hp : ∀ ps, Pieces rest ps → Pieces (c :: s) (.unit (contVal (c.toNat - base) conts) :: ps) := by
          intro ps hp
          rw [h1]
          exact .unit (c :: conts) _ rest ps hu hp
        have hlen : rest.length ≤ n := by rw [h1] at h; simp at h; omega
        dsimp only
        cases utf8Replacement t (contVal (c.toNat - base) conts) with
        | none => exact step _ _ rest _ hlen (remark_unit t hu) hp
        | some r => exact step _ _ rest _ hlen (remark_unit t hu) hp
      · rw [h4]
        dsimp only
        have hlen : rest.length ≤ n := by rw [h1] at h; simp at h; omega
        cases rest with
        | nil =>
          refine step _ _ [] (.cut true) (Nat.zero_le _) .cutEnd fun ps hp => ?_
          cases pieces_unique hp .nil
          rw [h1, List.append_nil]
          exact .cutEnd c conts w base hl h3 (by omega)
        | cons d rest =>
          refine step _ _ (d :: rest) (.cut false) hlen .cut fun ps hp => ?_
          rw [h1]
          exact .cut c conts w base d rest ps hl h3 (by omega) (h5 d rfl) hp

/-! ### What `clean_max_length` says -/

theorem max_length_messages (P : Platform) (n : Nat) (s out : Bytes) (h : (cleanMaxLengthLoud P n s).2 = .ok out) :
    ((cleanMaxLengthLoud P n s).1 = [] ∧ out.length ≤ (if n = 0 then 256 else n)) ∨
    ((cleanMaxLengthLoud P n s).1 = [maxLengthWarning (if n = 0 then 256 else n) s] ∧ out = s ∧ (if n = 0 then 256 else n) < s.length) := by
  revert h
  unfold cleanMaxLengthLoud
  generalize (if n = 0 then 256 else n) = L
  dsimp only
  by_cases h : s.length ≤ L
  · rw [if_pos h]
    intro e; cases e
    exact .inl ⟨rfl, h⟩
  · rw [if_neg h]
    cases strrchrIdx 0x2E s with
    | none => intro e; cases e; exact .inl ⟨rfl, by simp; omega⟩
    | some e =>
      dsimp only
      by_cases h1 : (s.drop e).length = 1
      · rw [if_pos h1]; intro e; cases e; exact .inl ⟨rfl, by simp; omega⟩
      · rw [if_neg h1]
        cases lookBack P s e e with
        | ok x =>
          rw [Said.bind_ok]
          by_cases h2 : L ≤ (s.drop x).length
          · rw [if_pos h2]; intro e; cases e; exact .inr ⟨rfl, rfl, by omega⟩
          · rw [if_neg h2]; intro e; cases e
            refine .inl ⟨rfl, ?_⟩
            rw [List.length_append, List.length_take, List.length_take]
            omega
        | exit k => intro e; cases e
        | ub u => intro e; cases e
        | stuck => intro e; cases e

/-! ### Programs -/

/-- `q` is `p` with warnings in between. -/
inductive Louder {α : Type} : Prog α → Prog α → Prop
  | ret (a : α) : Louder (.ret a) (.ret a)
  | exit (n : Nat) : Louder (.exit n) (.exit n)
  | ub (u : UB) : Louder (.ub u) (.ub u)
  | stuck : Louder .stuck .stuck
  | lstat (p : Bytes) (k k' : Option Stat → Prog α) : (∀ r, Louder (k r) (k' r)) → Louder (.lstat p k) (.lstat p k')
  | rename (o n : Bytes) (k k' : Bool → Prog α) : (∀ r, Louder (k r) (k' r)) → Louder (.rename o n k) (.rename o n k')
  | opendir (p : Bytes) (k k' : OpenRes → Prog α) : (∀ r, Louder (k r) (k' r)) → Louder (.opendir p k) (.opendir p k')
  | readdir (h : Nat) (k k' : Option Bytes → Prog α) : (∀ r, Louder (k r) (k' r)) → Louder (.readdir h k) (.readdir h k')
  | closedir (h : Nat) (k k' : Prog α) : Louder k k' → Louder (.closedir h k) (.closedir h k')
  | slurp (p : Option Bytes) (k k' : Option Bytes → Prog α) : (∀ r, Louder (k r) (k' r)) → Louder (.slurp p k) (.slurp p k')
  | out (s : Bytes) (k k' : Prog α) : Louder k k' → Louder (.out s k) (.out s k')
  | err (s : Bytes) (k k' : Prog α) : Louder k k' → Louder (.err s k) (.err s k')
  | more (s : Bytes) (k k' : Prog α) : Warning s → Louder k k' → Louder k (.err s k')

theorem Louder.refl {α : Type} (p : Prog α) : Louder p p := by
  induction p with
  | ret => exact .ret _
  | exit => exact .exit _
  | ub => exact .ub _
  | stuck => exact .stuck
  | lstat _ _ ih => exact .lstat _ _ _ ih
  | rename _ _ _ ih => exact .rename _ _ _ _ ih
  | opendir _ _ ih => exact .opendir _ _ _ ih
  | readdir _ _ ih => exact .readdir _ _ _ ih
  | closedir _ _ ih => exact .closedir _ _ _ ih
  | slurp _ _ ih => exact .slurp _ _ _ ih
  | out _ _ ih => exact .out _ _ _ ih
  | err _ _ ih => exact .err _ _ _ ih

theorem Louder.bind {α β : Type} {p q : Prog α} (h : Louder p q) {f g : α → Prog β} (hf : ∀ a, Louder (f a) (g a)) :
    Louder (p.bind f) (q.bind g) := by
  induction h with
  | ret a => exact hf a
  | exit => exact .exit _
  | ub => exact .ub _
  | stuck => exact .stuck
  | lstat _ _ _ _ ih => exact .lstat _ _ _ ih
  | rename _ _ _ _ _ ih => exact .rename _ _ _ _ ih
  | opendir _ _ _ _ ih => exact .opendir _ _ _ ih
  | readdir _ _ _ _ ih => exact .readdir _ _ _ ih
  | closedir _ _ _ _ ih => exact .closedir _ _ _ ih
  | slurp _ _ _ _ ih => exact .slurp _ _ _ ih
  | out _ _ _ _ ih => exact .out _ _ _ ih
  | err _ _ _ _ ih => exact .err _ _ _ ih
  | more _ _ _ w _ ih => exact .more _ _ _ w ih

theorem Louder.says {α : Type} {p q : Prog α} (h : Louder p q) : ∀ {ms : List Bytes}, (∀ m ∈ ms, Warning m) → Louder p (says ms q)
  | [], _ => h
  | m :: _, hw => .more m _ _ (hw m (by simp)) (Louder.says h fun m hm => hw m (by simp [hm]))

/-- Every run of the loud program is one of the other, without the warnings. -/
theorem Louder.trace {α : Type} {p q : Prog α} (h : Louder p q) {tr : List Event} {o : Outcome α} (ht : Trace q tr o) :
    ∃ tr', Trace p tr' o ∧ Sprinkled tr' tr := by
  induction h generalizing tr with
  | ret a => exact ⟨tr, ht, by cases ht <;> exact .nil⟩
  | exit => exact ⟨tr, ht, by cases ht <;> exact .nil⟩
  | ub => exact ⟨tr, ht, by cases ht <;> exact .nil⟩
  | stuck => exact ⟨tr, ht, by cases ht <;> exact .nil⟩
  | lstat p k k' _ ih =>
    cases ht with
    | stop => exact ⟨[], .stop _, .nil⟩
    | lstat _ _ r t _ ht => obtain ⟨t', a, b⟩ := ih r ht; exact ⟨_, .lstat p k r t' o a, .same _ _ _ b⟩
  | rename p n k k' _ ih =>
    cases ht with
    | stop => exact ⟨[], .stop _, .nil⟩
    | rename _ _ _ r t _ ht => obtain ⟨t', a, b⟩ := ih r ht; exact ⟨_, .rename p n k r t' o a, .same _ _ _ b⟩
  | opendir p k k' _ ih =>
    cases ht with
    | stop => exact ⟨[], .stop _, .nil⟩
    | opendir _ _ r t _ ht => obtain ⟨t', a, b⟩ := ih r ht; exact ⟨_, .opendir p k r t' o a, .same _ _ _ b⟩
  | readdir p k k' _ ih =>
    cases ht with
    | stop => exact ⟨[], .stop _, .nil⟩
    | readdir _ _ r t _ ht => obtain ⟨t', a, b⟩ := ih r ht; exact ⟨_, .readdir p k r t' o a, .same _ _ _ b⟩
  | closedir p k k' _ ih =>
    cases ht with
    | stop => exact ⟨[], .stop _, .nil⟩
    | closedir _ _ t _ ht => obtain ⟨t', a, b⟩ := ih ht; exact ⟨_, .closedir p k t' o a, .same _ _ _ b⟩
  | slurp p k k' _ ih =>
    cases ht with
    | stop => exact ⟨[], .stop _, .nil⟩
    | slurp _ _ r t _ ht => obtain ⟨t', a, b⟩ := ih r ht; exact ⟨_, .slurp p k r t' o a, .same _ _ _ b⟩
  | out p k k' _ ih =>
    cases ht with
    | stop => exact ⟨[], .stop _, .nil⟩
    | out _ _ t _ ht => obtain ⟨t', a, b⟩ := ih ht; exact ⟨_, .out p k t' o a, .same _ _ _ b⟩
  | err p k k' _ ih =>
    cases ht with
    | stop => exact ⟨[], .stop _, .nil⟩
    | err _ _ t _ ht => obtain ⟨t', a, b⟩ := ih ht; exact ⟨_, .err p k t' o a, .same _ _ _ b⟩
  | more s k k' w _ ih =>
    cases ht with
    | stop => exact ⟨[], .stop _, .nil⟩
    | err _ _ t _ ht => obtain ⟨t', a, b⟩ := ih ht; exact ⟨_, a, .more _ _ _ w b⟩

/-- Every run of the other is one of the loud program, with warnings. -/
theorem Louder.trace_back {α : Type} {p q : Prog α} (h : Louder p q) {tr : List Event} {o : Outcome α} (ht : Trace p tr o) :
    ∃ tr', Trace q tr' o ∧ Sprinkled tr tr' := by
  induction h generalizing tr with
  | ret a => exact ⟨tr, ht, by cases ht <;> exact .nil⟩
  | exit => exact ⟨tr, ht, by cases ht <;> exact .nil⟩
  | ub => exact ⟨tr, ht, by cases ht <;> exact .nil⟩
  | stuck => exact ⟨tr, ht, by cases ht <;> exact .nil⟩
  | lstat p k k' _ ih =>
    cases ht with
    | stop => exact ⟨[], .stop _, .nil⟩
    | lstat _ _ r t _ ht => obtain ⟨t', a, b⟩ := ih r ht; exact ⟨_, .lstat p k' r t' o a, .same _ _ _ b⟩
  | rename p n k k' _ ih =>
    cases ht with
    | stop => exact ⟨[], .stop _, .nil⟩
    | rename _ _ _ r t _ ht => obtain ⟨t', a, b⟩ := ih r ht; exact ⟨_, .rename p n k' r t' o a, .same _ _ _ b⟩
  | opendir p k k' _ ih =>
    cases ht with
    | stop => exact ⟨[], .stop _, .nil⟩
    | opendir _ _ r t _ ht => obtain ⟨t', a, b⟩ := ih r ht; exact ⟨_, .opendir p k' r t' o a, .same _ _ _ b⟩
  | readdir p k k' _ ih =>
    cases ht with
    | stop => exact ⟨[], .stop _, .nil⟩
    | readdir _ _ r t _ ht => obtain ⟨t', a, b⟩ := ih r ht; exact ⟨_, .readdir p k' r t' o a, .same _ _ _ b⟩
  | closedir p k k' _ ih =>
    cases ht with
    | stop => exact ⟨[], .stop _, .nil⟩
    | closedir _ _ t _ ht => obtain ⟨t', a, b⟩ := ih ht; exact ⟨_, .closedir p k' t' o a, .same _ _ _ b⟩
  | slurp p k k' _ ih =>
    cases ht with
    | stop => exact ⟨[], .stop _, .nil⟩
    | slurp _ _ r t _ ht => obtain ⟨t', a, b⟩ := ih r ht; exact ⟨_, .slurp p k' r t' o a, .same _ _ _ b⟩
  | out p k k' _ ih =>
    cases ht with
    | stop => exact ⟨[], .stop _, .nil⟩
    | out _ _ t _ ht => obtain ⟨t', a, b⟩ := ih ht; exact ⟨_, .out p k' t' o a, .same _ _ _ b⟩
  | err p k k' _ ih =>
    cases ht with
    | stop => exact ⟨[], .stop _, .nil⟩
    | err _ _ t _ ht => obtain ⟨t', a, b⟩ := ih ht; exact ⟨_, .err p k' t' o a, .same _ _ _ b⟩
  | more s k k' w _ ih =>
    obtain ⟨t', a, b⟩ := ih ht
    exact ⟨_, .err s k' t' o a, .more _ _ _ w b⟩

/-! ### Every message is one of those -/

theorem warning_detox (s : Bytes) : Warning (lit "detox: warning: " ++ s) := .inl (List.prefix_append _ _)

theorem warning_internal : ∀ m ∈ [lit "internal error\n"], Warning m := by
  intro m hm
  rw [List.mem_singleton] at hm
  exact .inr (.inr (.inr (.inr hm)))

theorem remark_warning {known : Nat → Prop} {p : Piece} {ms : List Bytes} (h : Remark known p ms) : ∀ m ∈ ms, Warning m := by
  cases h <;> intro m hm <;> simp only [List.mem_singleton, List.not_mem_nil] at hm <;> subst hm
  · exact warning_detox (lit "UTF-8 encoded NULL encountered\n")
  · rw [show lit "detox: warning: unicode character 0x" = lit "detox: warning: " ++ lit "unicode character 0x" from rfl, List.append_assoc,
      List.append_assoc]
    exact warning_detox _
  · exact warning_detox (lit "invalid encoding\n")
  · exact warning_detox (lit "UTF-8 sequence ended unexpectedly (null)\n")
  · exact warning_detox (lit "UTF-8 sequence ended unexpectedly (missing con't)\n")

theorem remarks_warning {known : Nat → Prop} {ps : List Piece} {ms : List Bytes} (h : Remarks known ps ms) : ∀ m ∈ ms, Warning m := by
  induction h with
  | nil => simp
  | cons p ps m ms a _ ih =>
    intro x hx
    rcases List.mem_append.1 hx with hx | hx
    · exact remark_warning a x hx
    · exact ih x hx

theorem said_bind_warning {α β : Type} {x : Said α} {f : α → Said β} (hx : ∀ m ∈ x.1, Warning m) (hf : ∀ a, ∀ m ∈ (f a).1, Warning m) :
    ∀ m ∈ (x.bind f).1, Warning m := by
  obtain ⟨ms, r⟩ := x
  cases r with
  | ok a =>
    intro m hm
    rcases List.mem_append.1 hm with hm | hm
    · exact hx m hm
    · exact hf a m hm
  | exit => exact hx
  | ub => exact hx
  | stuck => exact hx

theorem filter_warning (P : Platform) (f : Filter) (s : Option Bytes) : ∀ m ∈ (filterRunLoud P f s).1, Warning m := by
  cases s with
  | none => intro m hm; cases hm
  | some s =>
    unfold filterRunLoud
    refine said_bind_warning ?_ fun _ m hm => by cases hm
    have none_ : ∀ m : Bytes, m ∈ (if f.table = none then [lit "internal error\n"] else []) → Warning m := by
      intro m hm
      split at hm
      · exact warning_internal m hm
      · cases hm
    cases f.cleaner with
    | iso8859_1 => exact none_
    | safe => exact none_
    | lower => intro m hm; cases hm
    | uncgi => intro m hm; cases hm
    | wipeup => intro m hm; cases hm
    | utf8 =>
      dsimp only
      unfold cleanUtf8Loud
      cases f.table with
      | none => exact warning_internal
      | some t =>
        refine said_bind_warning ?_ fun _ m hm => by cases hm
        obtain ⟨ps, ms, _, h2, h3, _⟩ := utf8_messages t s.length (OutBuf.alloc (s.length * t.maxDataLength + 1)) s (Nat.le_refl _)
        exact fun m hm => remarks_warning h2 m (h3.subset hm)
    | maxLength =>
      dsimp only
      unfold cleanMaxLengthLoud
      dsimp only
      generalize (if f.maxLength = 0 then 256 else f.maxLength) = L
      by_cases h : s.length ≤ L
      · rw [if_pos h]; intro m hm; cases hm
      · rw [if_neg h]
        cases strrchrIdx 0x2E s with
        | none => intro m hm; cases hm
        | some e =>
          dsimp only
          by_cases h1 : (s.drop e).length = 1
          · rw [if_pos h1]; intro m hm; cases hm
          · rw [if_neg h1]
            refine said_bind_warning (fun m hm => by cases hm) fun e => ?_
            split
            · intro m hm
              rw [List.mem_singleton] at hm
              subst hm
              unfold maxLengthWarning
              simp only [List.append_assoc]
              exact .inr (.inl (List.prefix_append _ _))
            · intro m hm; cases hm

theorem runFilters_warning (P : Platform) : ∀ (fs : List Filter) (s : Option Bytes), ∀ m ∈ (runFiltersLoud P fs s).1, Warning m
  | [], _ => fun m hm => by cases hm
  | _ :: _, none => fun m hm => by cases hm
  | f :: fs, some s => said_bind_warning (filter_warning P f (some s)) fun r => runFilters_warning P fs r

theorem sequence_warning (P : Platform) (q : Option Sequence) (s : Option Bytes) : ∀ m ∈ (sequenceRunFiltersLoud P q s).1, Warning m := by
  cases q with
  | none => exact warning_internal
  | some q =>
    cases s with
    | none => intro m hm; cases hm
    | some s => exact runFilters_warning P q.filters (some s)

theorem louder_sequence (P : Platform) (q : Option Sequence) (s : Option Bytes) :
    Louder (Prog.ofRes (sequenceRunFilters P q s)) (Prog.ofSaid (sequenceRunFiltersLoud P q s)) := by
  unfold Prog.ofSaid
  rw [sequenceRunFiltersLoud_snd]
  exact (Louder.refl _).says (sequence_warning P q s)

/-! ### The program -/

theorem louder_parseFile (P : Platform) (o : Options) (f : Bytes) : Louder (parseFile P o f) (parseFileLoud P o f) :=
  (louder_sequence _ _ _).bind fun _ => .refl _

theorem louder_dirLoop (P : Platform) (o : Options) {r r' : Option Filelist → Bytes → Prog (Option Filelist)} (hr : ∀ i p, Louder (r i p) (r' i p))
    (h : Nat) (f : Bytes) : ∀ (n : Nat) (st : Stat) (ign : Option Filelist), Louder (dirLoop P o r h f n st ign) (dirLoopLoud P o r' h f n st ign)
  | 0, _, _ => .stuck
  | n + 1, st, ign => by
    have ih := louder_dirLoop P o hr h f n
    unfold dirLoop dirLoopLoud
    refine .readdir _ _ _ fun e => ?_
    cases e with
    | none => exact .refl _
    | some name =>
      refine (Louder.refl _).bind fun p => ?_
      dsimp only
      split
      · exact ih _ _
      · refine .lstat _ _ _ fun x => ?_
        split
        · refine (louder_parseFile P o _).bind fun w => ?_
          split
          · exact (hr _ _).bind fun _ => ih _ _
          · exact ih _ _
        · split
          · exact (louder_parseFile P o _).bind fun _ => ih _ _
          · exact ih _ _

theorem louder_parseDir (P : Platform) (o : Options) : ∀ (n : Nat) (ign : Option Filelist) (f : Bytes),
    Louder (parseDir P o n ign f) (parseDirLoud P o n ign f)
  | 0, _, _ => .stuck
  | n + 1, ign, f => by
    unfold parseDir parseDirLoud
    refine .lstat _ _ _ fun r => ?_
    cases r with
    | none => exact .refl _
    | some st =>
      dsimp only
      split
      · exact .refl _
      · refine .opendir _ _ _ fun d => ?_
        cases d with
        | ok h => exact louder_dirLoop P o (louder_parseDir P o n) h f n st ign
        | fail => exact .refl _
        | emfile => exact .refl _

theorem louder_processArg (P : Platform) (o : Options) (fuel : Nat) (ign : Option Filelist) (f : Bytes) :
    Louder (processArg P o fuel ign f) (processArgLoud P o fuel ign f) := by
  have body : Louder
      (.lstat f fun r =>
        match r with
        | none => .err (f ++ lit ": ") (.ret ign)
        | some st =>
          if st.kind = .dir then (parseFile P o f).bind fun work => parseDir P o fuel ign work
          else if st.kind = .reg then (parseFile P o f).bind fun _ => .ret ign
          else if o.special then (parseFile P o f).bind fun _ => .ret ign
          else .ret ign)
      (.lstat f fun r =>
        match r with
        | none => .err (f ++ lit ": ") (.ret ign)
        | some st =>
          if st.kind = .dir then (parseFileLoud P o f).bind fun work => parseDirLoud P o fuel ign work
          else if st.kind = .reg then (parseFileLoud P o f).bind fun _ => .ret ign
          else if o.special then (parseFileLoud P o f).bind fun _ => .ret ign
          else .ret ign) := by
    refine .lstat _ _ _ fun r => ?_
    cases r with
    | none => exact .refl _
    | some st =>
      dsimp only
      split
      · exact (louder_parseFile P o f).bind fun _ => louder_parseDir P o fuel _ _
      · split
        · exact (louder_parseFile P o f).bind fun _ => .refl _
        · split
          · exact (louder_parseFile P o f).bind fun _ => .refl _
          · exact .refl _
  unfold processArg processArgLoud
  dsimp only
  split
  · exact .out _ _ _ body
  · exact body

theorem louder_fileLoop (P : Platform) (o : Options) (fuel : Nat) : ∀ (n : Nat) (l : Filelist) (ign : Option Filelist),
    Louder (fileLoop P o fuel n l ign) (fileLoopLoud P o fuel n l ign)
  | 0, _, _ => .stuck
  | n + 1, l, ign => by
    unfold fileLoop fileLoopLoud
    refine (Louder.refl _).bind fun p => ?_
    cases p.2 with
    | none => exact .refl _
    | some f => exact (louder_processArg P o fuel ign f).bind fun i => louder_fileLoop P o fuel n _ i

theorem louder_inlineLoop (P : Platform) (o : Options) : ∀ (n : Nat) (s : Bytes), Louder (inlineLoop P o n s) (inlineLoopLoud P o n s)
  | 0, [] => .ret _
  | _ + 1, [] => .ret _
  | 0, _ :: _ => .stuck
  | n + 1, c :: s => by
    unfold inlineLoop inlineLoopLoud
    refine (Louder.refl _).bind fun r => ?_
    have next : Louder (printChunk P o r.1 r.2.1 (inlineLoop P o n r.2.2.2)) (printChunkLoud P o r.1 r.2.1 (inlineLoopLoud P o n r.2.2.2)) := by
      refine (louder_sequence _ _ _).bind fun h => .out _ _ _ ?_
      split
      · exact .out _ _ _ (louder_inlineLoop P o n _)
      · exact louder_inlineLoop P o n _
    dsimp only
    split
    · exact .err _ _ _ next
    · exact next

theorem louder_parseInline (P : Platform) (o : Options) (f : Option Bytes) : Louder (parseInline P o f) (parseInlineLoud P o f) := by
  refine .slurp _ _ _ fun r => ?_
  cases r with
  | none => exact .refl _
  | some s => exact louder_inlineLoop P o _ s

theorem louder_inlineArg (P : Platform) (o : Options) (f : Bytes) : Louder (inlineArg P o f) (inlineArgLoud P o f) := by
  refine .lstat _ _ _ fun r => ?_
  cases r with
  | none => exact .refl _
  | some s =>
    dsimp only
    split
    · exact .refl _
    · exact louder_parseInline P o _

theorem louder_inlineFileLoop (P : Platform) (o : Options) : ∀ (n : Nat) (l : Filelist), Louder (inlineFileLoop P o n l) (inlineFileLoopLoud P o n l)
  | 0, _ => .stuck
  | n + 1, l => by
    unfold inlineFileLoop inlineFileLoopLoud
    refine (Louder.refl _).bind fun p => ?_
    cases p.2 with
    | none => exact .refl _
    | some f => exact (louder_inlineArg P o f).bind fun _ => louder_inlineFileLoop P o n _

theorem louder_work (P : Platform) (o : Options) (fuel : Nat) : Louder (detoxWork P o fuel) (detoxWorkLoud P o fuel) := by
  unfold detoxWork detoxWorkLoud
  split
  · unfold inlineMain inlineMainLoud
    cases o.files with
    | none => exact louder_parseInline P o none
    | some l =>
      dsimp only
      split
      · exact louder_inlineFileLoop P o _ l
      · exact louder_parseInline P o none
  · cases o.files with
    | none => exact .refl _
    | some l => exact (louder_fileLoop P o fuel _ l _).bind fun _ => .refl _

theorem tableLines_warning (ctype : Bytes) : ∀ (ls : List Bytes) (st : Bool × Table), ∀ m ∈ tableLinesMessages ctype st ls, Warning m
  | [], _ => fun m hm => by cases hm
  | l :: ls, st => by
    intro m hm
    unfold tableLinesMessages at hm
    split at hm
    · split at hm
      · rw [List.mem_singleton] at hm
        subst hm
        unfold rowMessage
        simp only [List.append_assoc]
        exact .inr (.inr (.inl (List.prefix_append _ _)))
      · cases hm
    · exact tableLines_warning ctype ls _ m hm

theorem louder_readTable (there : Bytes → Bool) (ctype path : Bytes) : Louder (readTable ctype path) (readTableLoud there ctype path) := by
  refine .slurp _ _ _ fun r => ?_
  cases r with
  | none =>
    refine (Louder.refl _).says fun m hm => ?_
    split at hm
    · rw [List.mem_singleton] at hm
      exact .inr (.inr (.inr (.inl hm)))
    · cases hm
  | some c => exact (Louder.refl _).says (tableLines_warning ctype _ _)

theorem louder_tryTable (there : Bytes → Bool) (ctype path : Bytes) : Louder (tryTable ctype path) (tryTableLoud there ctype path) := by
  unfold tryTable tryTableLoud
  split
  · exact louder_readTable there ctype path
  · exact .refl _

theorem louder_findTable (there : Bytes → Bool) (ctype : Bytes) (d : Option Bytes) (f : Bytes) :
    Louder (findTable ctype d f) (findTableLoud there ctype d f) := by
  refine Louder.bind ?_ fun t1 => ?_
  · cases d with
    | none => exact .refl _
    | some d => exact louder_tryTable there ctype _
  · cases t1 with
    | some t => exact .refl _
    | none =>
      refine (louder_tryTable there ctype _).bind fun t2 => ?_
      cases t2 with
      | some t => exact .refl _
      | none => exact louder_tryTable there ctype _

theorem louder_loadTable (there : Bytes → Bool) (ctype : Bytes) (d : Option Bytes) (f : Filter) :
    Louder (loadTable ctype d f) (loadTableLoud there ctype d f) := by
  unfold loadTable loadTableLoud
  cases defaultTableFilename f.cleaner with
  | none => exact .refl _
  | some c =>
    cases f.builtin with
    | some b => exact .refl _
    | none =>
      cases f.filename with
      | some fn => exact (louder_readTable there ctype fn).bind fun _ => .refl _
      | none => exact (louder_findTable there ctype d c).bind fun _ => .refl _

theorem louder_loadTables (there : Bytes → Bool) (ctype : Bytes) (d : Option Bytes) : ∀ fs : List Filter,
    Louder (loadTables ctype d fs) (loadTablesLoud there ctype d fs)
  | [] => .ret _
  | f :: fs => (louder_loadTable there ctype d f).bind fun _ => (louder_loadTables there ctype d fs).bind fun _ => .refl _

/-- The whole program. -/
theorem louder_main (there : Bytes → Bool) (P : Platform) (I : Invocation) (fuel : Nat) :
    Louder (detoxMain P I fuel) (detoxMainLoud there P I fuel) := by
  refine (Louder.refl _).bind fun o => ?_
  refine (Louder.refl _).bind fun c => ?_
  split
  · exact .refl _
  · cases sequenceChooseDefault c.sequences o.sequenceName with
    | none => exact .refl _
    | some q => exact ((louder_loadTables there I.ctype I.datadir q.filters).bind fun _ => .refl _).bind fun q' => louder_work P _ fuel

/-! ### For the properties -/

theorem trace_ofRes_ret {α : Type} {x : Res α} {tr : List Event} {a : α} (h : Trace (Prog.ofRes x) tr (.ret a)) : tr = [] ∧ x = .ok a := by
  cases x with
  | ok b => cases h; exact ⟨rfl, rfl⟩
  | exit => cases h
  | ub => cases h
  | stuck => cases h

theorem filterRun_not_none (P : Platform) (f : Filter) (s : Bytes) : filterRun P f (some s) ≠ .ok none := by
  intro hg
  unfold filterRun at hg
  cases hc : f.cleaner <;> simp only [hc] at hg
  · cases hy : cleanIso f.table s <;> rw [hy] at hg <;> cases hg
  · cases hy : cleanLower P s <;> rw [hy] at hg <;> cases hg
  · cases hy : cleanMaxLength P f.maxLength s <;> rw [hy] at hg <;> cases hg
  · cases hy : cleanSafe P f.table s <;> rw [hy] at hg <;> cases hg
  · cases hy : cleanUncgi P s <;> rw [hy] at hg <;> cases hg
  · cases hy : cleanUtf8 f.table s <;> rw [hy] at hg <;> cases hg
  · cases hy : cleanWipeup f.removeTrailing s <;> rw [hy] at hg <;> cases hg

theorem runFilters_not_none (P : Platform) : ∀ (fs : List Filter) (s : Bytes), runFilters P fs (some s) ≠ .ok none
  | [], _ => fun h => by cases h
  | f :: fs, s => fun h => by
    simp only [runFilters] at h
    have hn := filterRun_not_none P f s
    generalize filterRun P f (some s) = x at h hn
    cases x with
    | ok y =>
      cases y with
      | none => exact hn rfl
      | some y => exact runFilters_not_none P fs y h
    | exit => cases h
    | ub => cases h
    | stuck => cases h

theorem sequence_not_none (P : Platform) (q : Option Sequence) (s : Bytes) : sequenceRunFilters P q (some s) ≠ .ok none := by
  cases q with
  | none => intro h; cases h
  | some q => exact runFilters_not_none P q.filters s

/-- Only a row can make the reader give up. -/
theorem parseTableLine_none {ctype l : Bytes} {st : Bool × Table} (h : parseTableLine ctype st l = none) : ∃ k d, insideLine l = .row k d := by
  unfold parseTableLine at h
  by_cases hp : peek l = 0x23
  · rw [if_pos hp] at h; cases h
  rw [if_neg hp] at h
  have hb : ∀ k d, baseLine ctype l ≠ .row k d := by
    intro k d
    unfold baseLine
    repeat' split
    all_goals first | (intro h; cases h) | skip
    all_goals (simp only; repeat' split)
    all_goals (intro h; cases h)
  cases h1 : st.1 with
  | true =>
    rw [h1, if_pos rfl] at h
    cases h2 : insideLine l with
    | row k d => exact ⟨k, d, rfl⟩
    | _ => rw [h2] at h; cases h
  | false =>
    rw [h1, if_neg (by simp)] at h
    cases h2 : baseLine ctype l with
    | row k d => exact absurd h2 (hb k d)
    | _ => rw [h2] at h; cases h

end Detox
