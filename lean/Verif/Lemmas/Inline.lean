import Verif.Model.Inline
import Verif.Lemmas.Buf
import Verif.Lemmas.MaxLength
import Verif.Lemmas.Utf8

/-!
# Lemmas on inline mode
-/

set_option autoImplicit false

namespace Detox
open Spec

theorem takeLine_spec : ∀ (n : Nat) (s : Bytes), s = (takeLine n s).1 ++ (takeLine n s).2 ∧ (takeLine n s).1.length ≤ n ∧
    ((∃ l, (takeLine n s).1 = l ++ [0x0A] ∧ (0x0A : Byte) ∉ l) ∨
     ((0x0A : Byte) ∉ (takeLine n s).1 ∧ ((takeLine n s).1.length = n ∨ (takeLine n s).2 = [])))
  | 0, s => by simp [takeLine]
  | n + 1, [] => by simp [takeLine]
  | n + 1, c :: s => by
    obtain ⟨h1, h2, h3⟩ := takeLine_spec n s
    by_cases hc : c = 0x0A
    · subst hc
      simp [takeLine]
    · simp only [takeLine, hc, if_false, List.cons_append, List.length_cons]
      refine ⟨by rw [← h1], by omega, ?_⟩
      rcases h3 with ⟨l, hl, hn⟩ | ⟨hn, hl⟩
      · refine .inl ⟨c :: l, by simp [hl], ?_⟩
        simp only [List.mem_cons, not_or]
        exact ⟨fun h => hc h.symm, hn⟩
      · refine .inr ⟨?_, ?_⟩
        · simp only [List.mem_cons, not_or]
          exact ⟨fun h => hc h.symm, hn⟩
        · rcases hl with hl | hl
          · exact .inl (by omega)
          · exact .inr hl

theorem takeLine_pos {n : Nat} {s : Bytes} (hn : 0 < n) (hs : s ≠ []) : (takeLine n s).1 ≠ [] := by
  cases n with
  | zero => omega
  | succ n =>
    cases s with
    | nil => exact absurd rfl hs
    | cons c s =>
      unfold takeLine
      split <;> simp

/-! ### Newlines -/

theorem strrchrIdx_none_iff (c : Byte) : ∀ (s : Bytes), strrchrIdx c s = none ↔ c ∉ s
  | [] => by simp [strrchrIdx]
  | x :: xs => by
    have ih := strrchrIdx_none_iff c xs
    unfold strrchrIdx
    cases h : strrchrIdx c xs with
    | some i =>
      have : c ∈ xs := Decidable.byContradiction fun hn => by rw [ih.2 hn] at h; cases h
      simp [this]
    | none =>
      have hx := ih.1 h
      by_cases he : x = c
      · simp [he]
      · have : c ≠ x := fun h => he h.symm
        simp [he, hx, this]

theorem strrchrIdx_last (c : Byte) : ∀ (l : Bytes), c ∉ l → strrchrIdx c (l ++ [c]) = some l.length
  | [], _ => by simp [strrchrIdx]
  | x :: l, h => by
    have ih := strrchrIdx_last c l (fun hm => h (List.mem_cons_of_mem _ hm))
    simp [strrchrIdx, ih]

theorem cutNewline_none {s : Bytes} (h : (0x0A : Byte) ∉ s) : cutNewline s = (s, false) := by
  unfold cutNewline
  rw [(strrchrIdx_none_iff _ _).2 h]

theorem cutNewline_last {l : Bytes} (h : (0x0A : Byte) ∉ l) : cutNewline (l ++ [0x0A]) = (l, true) := by
  unfold cutNewline
  rw [strrchrIdx_last _ _ h]
  simp

/-! ### Completing a character -/

theorem fetchConts_spec (P : Platform) : ∀ (n : Nat) (s : Bytes), s = (fetchConts P n s).1 ++ (fetchConts P n s).2.1 ∧
    (fetchConts P n s).1.length ≤ n ∧ ∀ c ∈ (fetchConts P n s).1, isUtf8Cont c = true ∨ c = 0xFF
  | 0, s => by simp [fetchConts]
  | n + 1, [] => by simp [fetchConts]
  | n + 1, c :: s => by
    obtain ⟨h1, h2, h3⟩ := fetchConts_spec P n s
    unfold fetchConts
    by_cases hc : isUtf8Cont c = true
    · simp only [hc, if_true, List.cons_append, List.length_cons, List.mem_cons]
      refine ⟨by rw [← h1], by omega, ?_⟩
      rintro x (rfl | hx)
      · exact .inl hc
      · exact h3 x hx
    · simp only [hc]
      by_cases hf : (P.charSigned && decide (c = 0xFF)) = true
      · rw [if_pos hf]
        simp at hf
        simp [hf.2]
      · rw [if_neg hf]
        simp

theorem fetchConts_conts (P : Platform) (t : Bytes) : ∀ (q : Bytes), (∀ c ∈ q, isUtf8Cont c = true) →
    fetchConts P q.length (q ++ t) = (q, t, false)
  | [], _ => by simp [fetchConts]
  | c :: q, h => by
    have ih := fetchConts_conts P t q (fun x hx => h x (List.mem_cons_of_mem _ hx))
    simp [fetchConts, h c (List.mem_cons_self ..), ih]

theorem skipConts_conts : ∀ (n : Nat) (q : Bytes), (∀ c ∈ q, isUtf8Cont c = true) →
    skipConts n q = (n - q.length, q.drop n)
  | 0, q, _ => by simp [skipConts]
  | n + 1, [], _ => by simp [skipConts]
  | n + 1, c :: q, h => by
    have ih := skipConts_conts n q (fun x hx => h x (List.mem_cons_of_mem _ hx))
    simp [skipConts, h c (List.mem_cons_self ..), ih]

/-- The loop stops at the last byte that is not a continuation byte. -/
theorem seekBack_lead {pre conts : Bytes} {lead : Byte} (hl : isUtf8Cont lead = false) (hc : ∀ c ∈ conts, isUtf8Cont c = true)
    (h5 : conts.length ≤ 5) : seekBack (pre ++ lead :: conts) 7 1 = .ok (conts.length + 1) := by
  have key : ∀ j, j ≤ conts.length → seekBack (pre ++ lead :: conts) (7 - (conts.length - j)) (conts.length - j + 1) = .ok (conts.length + 1) := by
    intro j
    induction j with
    | zero =>
      intro _
      have : ∃ m, 7 - (conts.length - 0) = m + 1 := ⟨6 - conts.length, by omega⟩
      obtain ⟨m, hm⟩ := this
      rw [hm]
      unfold seekBack
      rw [if_neg (by simp)]
      have : (pre ++ lead :: conts).getD ((pre ++ lead :: conts).length - (conts.length - 0 + 1)) 0 = lead := by
        have : (pre ++ lead :: conts).length - (conts.length - 0 + 1) = pre.length := by simp
        rw [this]
        simp [List.getD_eq_getElem?_getD]
      rw [this, hl]
      simp
    | succ j ih =>
      intro hj
      have hm : 7 - (conts.length - (j + 1)) = (7 - (conts.length - j)) + 1 := by omega
      rw [hm]
      unfold seekBack
      rw [if_neg (by simp; omega)]
      have hget : isUtf8Cont ((pre ++ lead :: conts).getD ((pre ++ lead :: conts).length - (conts.length - (j + 1) + 1)) 0) = true := by
        have : (pre ++ lead :: conts).length - (conts.length - (j + 1) + 1) = pre.length + 1 + j := by simp; omega
        rw [this, List.getD_eq_getElem?_getD, List.getElem?_append_right (by omega)]
        have : pre.length + 1 + j - pre.length = j + 1 := by omega
        rw [this, List.getElem?_cons_succ, List.getElem?_eq_getElem (by omega)]
        exact hc _ (List.getElem_mem _)
      rw [hget]
      have : decide (conts.length - (j + 1) + 1 < 6) = true := by simp; omega
      simp only [this, Bool.and_self, if_true]
      have : conts.length - (j + 1) + 1 + 1 = conts.length - j + 1 := by omega
      rw [this]
      exact ih (by omega)
  have := key conts.length (Nat.le_refl _)
  simpa using this

/-- Five or fewer bytes, all of them continuation bytes: the loop leaves the buffer. -/
theorem seekBack_oob {base : Bytes} (hc : ∀ c ∈ base, isUtf8Cont c = true) (h5 : base.length ≤ 5) :
    seekBack base 7 1 = .ub .oobRead := by
  have key : ∀ j, j ≤ base.length → seekBack base (7 - (base.length - j)) (base.length - j + 1) = .ub .oobRead := by
    intro j
    induction j with
    | zero =>
      intro _
      obtain ⟨m, hm⟩ : ∃ m, 7 - (base.length - 0) = m + 1 := ⟨6 - base.length, by omega⟩
      rw [hm]
      unfold seekBack
      rw [if_pos (by omega)]
    | succ j ih =>
      intro hj
      have hm : 7 - (base.length - (j + 1)) = (7 - (base.length - j)) + 1 := by omega
      rw [hm]
      unfold seekBack
      rw [if_neg (by omega)]
      have hget : isUtf8Cont (base.getD (base.length - (base.length - (j + 1) + 1)) 0) = true := by
        rw [List.getD_eq_getElem?_getD, List.getElem?_eq_getElem (by omega)]
        exact hc _ (List.getElem_mem _)
      rw [hget]
      have : decide (base.length - (j + 1) + 1 < 6) = true := by simp; omega
      simp only [this, Bool.and_self, if_true]
      have : base.length - (j + 1) + 1 + 1 = base.length - j + 1 := by omega
      rw [this]
      exact ih (by omega)
  have := key base.length (Nat.le_refl _)
  simpa using this

/-- Six continuation bytes at the end: the loop gives up there. -/
theorem seekBack_six {pre conts : Bytes} (hc : ∀ c ∈ conts, isUtf8Cont c = true) (h6 : conts.length = 6) :
    seekBack (pre ++ conts) 7 1 = .ok 6 := by
  match conts, h6 with
  | [a, b, c, d, e, f], _ =>
    have h : ∀ k, k < 6 → isUtf8Cont ((pre ++ [a, b, c, d, e, f]).getD (pre.length + 6 - (6 - k)) 0) = true := by
      intro k hk
      rw [List.getD_eq_getElem?_getD, List.getElem?_append_right (by omega), List.getElem?_eq_getElem (by simp; omega)]
      exact hc _ (List.getElem_mem _)
    have h0 := h 0 (by omega); have h1 := h 1 (by omega); have h2 := h 2 (by omega)
    have h3 := h 3 (by omega); have h4 := h 4 (by omega); have h5 := h 5 (by omega)
    simp only [Nat.sub_zero, Nat.reduceSub] at h0 h1 h2 h3 h4 h5
    have hlen : (pre ++ [a, b, c, d, e, f]).length = pre.length + 6 := by simp
    unfold seekBack; rw [hlen, if_neg (by omega), h5]; simp only [Nat.reduceLT, decide_true, Bool.and_self, if_true, Nat.reduceAdd]
    unfold seekBack; rw [hlen, if_neg (by omega), h4]; simp only [Nat.reduceLT, decide_true, Bool.and_self, if_true, Nat.reduceAdd]
    unfold seekBack; rw [hlen, if_neg (by omega), h3]; simp only [Nat.reduceLT, decide_true, Bool.and_self, if_true, Nat.reduceAdd]
    unfold seekBack; rw [hlen, if_neg (by omega), h2]; simp only [Nat.reduceLT, decide_true, Bool.and_self, if_true, Nat.reduceAdd]
    unfold seekBack; rw [hlen, if_neg (by omega), h1]; simp only [Nat.reduceLT, decide_true, Bool.and_self, if_true, Nat.reduceAdd]
    unfold seekBack; rw [hlen, if_neg (by omega), h0]; simp

/-- A string is empty-handed (few continuation bytes only), or ends in six continuation bytes, or in a byte that is not a
continuation byte followed by at most five that are. -/
theorem tail_cases (base : Bytes) :
    ((∀ c ∈ base, isUtf8Cont c = true) ∧ base.length ≤ 5) ∨
    (∃ pre conts, base = pre ++ conts ∧ conts.length = 6 ∧ ∀ c ∈ conts, isUtf8Cont c = true) ∨
    (∃ pre lead conts, base = pre ++ lead :: conts ∧ isUtf8Cont lead = false ∧ (∀ c ∈ conts, isUtf8Cont c = true) ∧
      conts.length ≤ 5) := by
  -- walk from the end
  have key : ∀ (r conts : Bytes), (∀ c ∈ conts, isUtf8Cont c = true) → conts.length ≤ 5 →
      ((∀ c ∈ r.reverse ++ conts, isUtf8Cont c = true) ∧ (r.reverse ++ conts).length ≤ 5) ∨
      (∃ pre cs, r.reverse ++ conts = pre ++ cs ∧ cs.length = 6 ∧ ∀ c ∈ cs, isUtf8Cont c = true) ∨
      (∃ pre lead cs, r.reverse ++ conts = pre ++ lead :: cs ∧ isUtf8Cont lead = false ∧ (∀ c ∈ cs, isUtf8Cont c = true) ∧
        cs.length ≤ 5) := by
    intro r
    induction r with
    | nil => intro conts hc h5; exact .inl (by simpa using ⟨hc, h5⟩)
    | cons x r ih =>
      intro conts hc h5
      have hassoc : (x :: r).reverse ++ conts = r.reverse ++ (x :: conts) := by simp
      rw [hassoc]
      cases hx : isUtf8Cont x with
      | false => exact .inr (.inr ⟨r.reverse, x, conts, rfl, hx, hc, h5⟩)
      | true =>
        have hc' : ∀ c ∈ x :: conts, isUtf8Cont c = true := by
          intro c hm
          rcases List.mem_cons.1 hm with rfl | hm
          · exact hx
          · exact hc c hm
        by_cases h6 : (x :: conts).length ≤ 5
        · exact ih (x :: conts) hc' h6
        · exact .inr (.inl ⟨r.reverse, x :: conts, rfl, by simp at h6 ⊢; omega, hc'⟩)
  have := key base.reverse [] (by simp) (by simp)
  simpa using this

/-- How many bytes a character still lacks after its lead byte and `k` continuation bytes. -/
def lacking (lead : Byte) (k : Nat) : Nat := if isUtf8Start lead then (utf8Width lead).getD 0 - 1 - k else 0

theorem lacking_le (lead : Byte) (k : Nat) : lacking lead k ≤ 5 := by
  have h : ∀ c : Byte, (utf8Width c).getD 0 ≤ 6 := forall_byte (by decide +kernel)
  unfold lacking
  have := h lead
  split <;> omega

theorem completeChunk_lead (P : Platform) {pre conts : Bytes} {lead : Byte} (rest : Bytes) (hl : isUtf8Cont lead = false)
    (hc : ∀ c ∈ conts, isUtf8Cont c = true) (h5 : conts.length ≤ 5) (hsz : (pre ++ lead :: conts).length ≤ 1007) :
    completeChunk P (pre ++ lead :: conts) rest =
      .ok (pre ++ lead :: conts ++ (fetchConts P (lacking lead conts.length) rest).1,
        (fetchConts P (lacking lead conts.length) rest).2) := by
  unfold completeChunk
  rw [seekBack_lead hl hc h5]
  have hidx : (pre ++ lead :: conts).length - (conts.length + 1) = pre.length := by simp
  have hget : (pre ++ lead :: conts).getD pre.length 0 = lead := by simp [List.getD_eq_getElem?_getD]
  have hdrop : (pre ++ lead :: conts).drop (pre.length + 1) = conts := by
    rw [List.drop_append]; simp
  simp only [Res.bind_ok, hidx, hget, hdrop]
  have hz : fetchConts P 0 rest = ([], rest, false) := by simp [fetchConts]
  cases hs : isUtf8Start lead with
  | false => simp [lacking, hs, hz]
  | true =>
    rw [skipConts_conts _ _ hc]
    simp only [if_true]
    have hlk : lacking lead conts.length = (utf8Width lead).getD 0 - 1 - conts.length := by simp [lacking, hs]
    rw [hlk]
    by_cases h0 : 0 < (utf8Width lead).getD 0 - 1 - conts.length
    · have hd : conts.drop ((utf8Width lead).getD 0 - 1) = [] := by simp; omega
      rw [if_pos ⟨h0, hd⟩]
      have hf := (fetchConts_spec P ((utf8Width lead).getD 0 - 1 - conts.length) rest).2.1
      have hle := lacking_le lead conts.length
      rw [hlk] at hle
      rw [if_pos (by unfold inlineBufSize; omega)]
      rfl
    · have : (utf8Width lead).getD 0 - 1 - conts.length = 0 := by omega
      rw [if_neg (by omega), this, hz]
      simp

theorem completeChunk_six (P : Platform) {pre conts : Bytes} (rest : Bytes) (hc : ∀ c ∈ conts, isUtf8Cont c = true)
    (h6 : conts.length = 6) : completeChunk P (pre ++ conts) rest = .ok (pre ++ conts, rest, false) := by
  unfold completeChunk
  rw [seekBack_six hc h6]
  have hcs : ∀ c : Byte, isUtf8Cont c = true → isUtf8Start c = false := forall_byte (by decide +kernel)
  have hget : isUtf8Start ((pre ++ conts).getD ((pre ++ conts).length - 6) 0) = false := by
    apply hcs
    rw [List.getD_eq_getElem?_getD, List.getElem?_append_right (by simp; omega), List.getElem?_eq_getElem (by simp; omega)]
    exact hc _ (List.getElem_mem _)
  simp only [Res.bind_ok, hget]
  simp

theorem completeChunk_oob (P : Platform) {base : Bytes} (rest : Bytes) (hc : ∀ c ∈ base, isUtf8Cont c = true)
    (h5 : base.length ≤ 5) : completeChunk P base rest = .ub .oobRead := by
  unfold completeChunk
  rw [seekBack_oob hc h5]
  rfl


/-! ### One round -/

/-- The string in the buffer after `fgets`. -/
def lineBuf (s : Bytes) : Bytes := cstr (takeLine 1007 s).1

/-- The string in the buffer makes the loop of lines 302-307 leave the buffer. -/
def BadBuf (base : Bytes) : Prop := (0x0A : Byte) ∉ base ∧ base.length ≤ 5 ∧ ∀ c ∈ base, isUtf8Cont c = true

theorem lineBuf_length (s : Bytes) : (lineBuf s).length ≤ 1007 := by
  have := (takeLine_spec 1007 s).2.1
  have h : (lineBuf s).length ≤ (takeLine 1007 s).1.length := by
    unfold lineBuf cstr
    exact (List.takeWhile_sublist _).length_le
  omega

/-- What a round does, for any input. -/
theorem nextChunk_cases (P : Platform) (s : Bytes) :
    (BadBuf (lineBuf s) ∧ nextChunk P s = .ub .oobRead) ∨
    (¬ BadBuf (lineBuf s) ∧ ((0x0A : Byte) ∈ lineBuf s ∧ nextChunk P s =
        .ok ((cutNewline (lineBuf s)).1, (cutNewline (lineBuf s)).2, false, (takeLine 1007 s).2) ∨
      (0x0A : Byte) ∉ lineBuf s ∧ ∃ n, n ≤ 5 ∧
        (n = 0 ∨ ∃ pre lead conts, lineBuf s = pre ++ lead :: conts ∧ isUtf8Cont lead = false ∧
          (∀ c ∈ conts, isUtf8Cont c = true) ∧ conts.length ≤ 5 ∧ n = lacking lead conts.length) ∧
        (∀ pre lead conts, lineBuf s = pre ++ lead :: conts → isUtf8Cont lead = false →
          (∀ c ∈ conts, isUtf8Cont c = true) → conts.length ≤ 5 → n = lacking lead conts.length) ∧
        nextChunk P s = .ok (lineBuf s ++ (fetchConts P n (takeLine 1007 s).2).1, false,
          (fetchConts P n (takeLine 1007 s).2).2.2, (fetchConts P n (takeLine 1007 s).2).2.1))) := by
  have hlen := lineBuf_length s
  by_cases hnl : (0x0A : Byte) ∈ lineBuf s
  · refine .inr ⟨fun h => h.1 hnl, .inl ⟨hnl, ?_⟩⟩
    unfold nextChunk
    show (if strrchrIdx 0x0A (lineBuf s) = none then _ else _) = _
    rw [if_neg (fun h => (strrchrIdx_none_iff _ _).1 h hnl)]
    rfl
  · have hnc : nextChunk P s = (completeChunk P (lineBuf s) (takeLine 1007 s).2 >>= fun r =>
        pure ((cutNewline r.1).1, (cutNewline r.1).2, r.2.2, r.2.1)) := by
      unfold nextChunk
      show (if strrchrIdx 0x0A (lineBuf s) = none then _ else _) = _
      rw [if_pos ((strrchrIdx_none_iff _ _).2 hnl)]
      rfl
    have hcut : ∀ n, cutNewline (lineBuf s ++ (fetchConts P n (takeLine 1007 s).2).1) =
        (lineBuf s ++ (fetchConts P n (takeLine 1007 s).2).1, false) := by
      intro n
      apply cutNewline_none
      intro hm
      rcases List.mem_append.1 hm with hm | hm
      · exact hnl hm
      · rcases (fetchConts_spec P n (takeLine 1007 s).2).2.2 _ hm with h | h
        · revert h; decide
        · revert h; decide
    rcases tail_cases (lineBuf s) with ⟨hc, h5⟩ | ⟨pre, conts, hb, h6, hc⟩ | ⟨pre, lead, conts, hb, hl, hc, h5⟩
    · refine .inl ⟨⟨hnl, h5, hc⟩, ?_⟩
      rw [hnc, completeChunk_oob P _ hc h5]
      rfl
    · refine .inr ⟨fun h => ?_, .inr ⟨hnl, 0, by omega, .inl rfl, ?_, ?_⟩⟩
      · have h1 := h.2.1
        rw [hb, List.length_append] at h1
        omega
      · intro pre' lead' conts' hb' hl' hc' h5'
        exfalso
        -- the sixth byte from the end is both
        have : conts' ++ [] = conts' := List.append_nil _
        rw [hb] at hb'
        rcases List.append_eq_append_iff.1 hb' with ⟨x, hx1, hx2⟩ | ⟨x, hx1, hx2⟩
        · have : lead' ∈ conts := by rw [hx2]; simp
          rw [hc _ this] at hl'; cases hl'
        · cases x with
          | nil =>
            simp at hx2
            have : lead' ∈ conts := by rw [← hx2]; simp
            rw [hc _ this] at hl'; cases hl'
          | cons y x =>
            have hlen' := congrArg List.length hx2
            simp at hlen'
            omega
      · have hz := hcut 0
        simp only [fetchConts, List.append_nil] at hz
        rw [hnc]
        simp only [fetchConts, List.append_nil]
        have := completeChunk_six P (pre := pre) (takeLine 1007 s).2 hc h6
        rw [← hb] at this
        rw [this]
        simp only [Res.bind_ok, hz]
        rfl
    · refine .inr ⟨fun h => ?_, .inr ⟨hnl, lacking lead conts.length, lacking_le _ _,
        .inr ⟨pre, lead, conts, hb, hl, hc, h5, rfl⟩, ?_, ?_⟩⟩
      · have := h.2.2 lead (by rw [hb]; simp)
        rw [hl] at this; cases this
      · intro pre' lead' conts' hb' hl' hc' h5'
        have huniq : ∀ (a b : Bytes) (x y : Byte) (u v : Bytes), a ++ x :: u = b ++ y :: v → isUtf8Cont x = false →
            isUtf8Cont y = false → (∀ c ∈ u, isUtf8Cont c = true) → (∀ c ∈ v, isUtf8Cont c = true) → x = y ∧ u = v := by
          intro a
          induction a with
          | nil =>
            intro b x y u v h hx hy hu hv
            cases b with
            | nil => simp at h; exact h
            | cons z b =>
              simp at h
              have : y ∈ u := by rw [h.2]; simp
              rw [hu _ this] at hy; cases hy
          | cons w a ih =>
            intro b x y u v h hx hy hu hv
            cases b with
            | nil =>
              simp at h
              have : x ∈ v := by rw [← h.2]; simp
              rw [hv _ this] at hx; cases hx
            | cons z b =>
              simp at h
              exact ih b x y u v h.2 hx hy hu hv
        obtain ⟨e1, e2⟩ := huniq _ _ _ _ _ _ (hb.symm.trans hb') hl hl' hc hc'
        rw [e1, e2]
      · rw [hnc, hb]
        rw [completeChunk_lead P _ hl hc h5 (by rw [← hb]; exact hlen)]
        have := hcut (lacking lead conts.length)
        rw [hb] at this
        simp only [Res.bind_ok, this]
        simp

end Detox
