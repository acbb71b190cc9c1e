import Verif.Lemmas.FlexBuffer
import Verif.Lemmas.ConfigErrors

/-!
# Calls of `yylex`, one after another
-/

set_option autoImplicit false

namespace Detox

/-- Between two calls of `yylex`: `pending` is what the scanner has still to see, in the block and in the file. The byte at `yy_c_buf_p`
was replaced by a NUL, and is kept in `yy_hold_char`. -/
def FlexReady (f : Flex) (src : Source) (pending : Bytes) : Prop :=
  ∃ pre mid, BufHolds { f with buf := f.buf.set f.cBufP (some f.hold) } src pre mid ∧ f.cBufP = pre.length ∧ pending = mid ++ src.rest

theorem keyword_no_nul : keywords.all (fun k => !k.1.contains 0) = true := by decide +kernel

theorem Spec.Spelling.no_nul {t : Tok} {w : Bytes} (h : Spec.Spelling t w) : (0 : Byte) ∉ w := by
  cases h with
  | kw k w h =>
    intro hw
    have h1 := List.all_eq_true.1 keyword_no_nul _ h
    have h2 : (0 : Byte) ∈ w.map fold := List.mem_map.2 ⟨0, hw, by decide⟩
    simp only [Bool.not_eq_eq_eq_not, Bool.not_true] at h1
    rw [List.contains_iff_mem.2 h2] at h1
    cases h1
  | opn => decide
  | cls => decide
  | eol => decide
  | nvalue d _ h _ => exact fun hw => absurd (h _ hw) (by decide)
  | ident c s h1 h2 _ =>
    intro hw
    rcases List.mem_cons.1 hw with e | e
    · rw [← e] at h1; exact absurd h1 (by decide)
    · exact absurd (h2 _ e) (by decide)
  | qstring s _ _ h =>
    intro hw
    simp only [List.mem_append] at hw
    rcases hw with (hw | hw) | hw
    · exact absurd hw (by decide)
    · exact h hw
    · exact absurd hw (by decide)

theorem Spec.Written.no_nul {t : Tok} {un : Bool} {w : Bytes} (h : Spec.Written t un w) : (0 : Byte) ∉ w := by
  cases h with
  | closed t w h => exact h.no_nul
  | unclosed s _ _ h =>
    intro hw
    simp only [List.mem_append] at hw
    rcases hw with (hw | hw) | hw
    · exact absurd hw (by decide)
    · exact h hw
    · exact absurd hw (by decide)

/-- What one match does. -/
theorem match_step (c : Byte) (s : Bytes) : ∃ rule n, yyMatch 1 0 none (c :: s) = some (rule, n) ∧ (rule = 3 ↔ c = 0x0A) ∧
    flexAction ((c :: s).take n) rule = some (lexStep c s).1 ∧ (c :: s).drop n = (lexStep c s).2 ∧ rule ≠ 0 ∧ rule ≠ 24 := by
  obtain ⟨rule, n, h1, h2⟩ := run_newline c s
  rw [← yyMatch_run _ start_stands rfl] at h1
  have h3 := flexStep_eq c s
  unfold flexStep at h3
  rw [h1] at h3
  simp only [Option.bind_some] at h3
  cases h4 : flexAction ((c :: s).take n) rule with
  | none => rw [h4] at h3; cases h3
  | some i =>
    rw [h4] at h3
    simp only [Option.bind_some, Option.some.injEq] at h3
    refine ⟨rule, n, h1, h2, ?_, ?_, ?_, ?_⟩
    · rw [h4, ← h3]
    · rw [← h3]
    · rintro rfl
      cases h4
    · rintro rfl
      cases h4

/-- What the scanner returns and leaves. -/
def Scanned (pending : Bytes) (line : Nat) (t : Option Located) (f : Flex) (src : Source) : Prop :=
  match t with
  | none => locate line pending = ([], f.lineno) ∧ (src.rest = [] ∧ src.feof = true) ∧ (∀ s, FlexReady f s s.rest) ∧ f.text = 0 ∧ f.buf[0]? = some (some 0)
  | some x => ∃ pending', FlexReady f src pending' ∧ pending'.length < pending.length ∧ f.lineno = x.line ∧
      locate line pending = (x :: (locate x.line pending').1, (locate x.line pending').2) ∧
      (∃ pre post, Filled f.buf (pre ++ x.text ++ 0 :: post) ∧ f.text = pre.length) ∧ ∀ t un, x.item = .tok t un → (0 : Byte) ∉ x.text

/-- `yy_find_action` and the action. -/
theorem find_ends (w : YyWorld) (c : Byte) (t : Bytes) (line b : Nat)
    (ih : ∀ f src, FlexReady f src (lexStep c t).2 → f.lineno = (if c = 0x0A then line + 1 else line) →
      YyEnds w b .top f src (Scanned (lexStep c t).2 (if c = 0x0A then line + 1 else line)))
    (f : Flex) (src : Source) (pre mid : Bytes) (s n : Nat) (hB : BufHolds f src pre mid) (hin : mid ++ src.rest = c :: t)
    (hs : usedState s = true) (hF : Found (yyMatch 1 0 none (c :: t)) s n (f.lastState, f.lastCpos) pre.length mid.length)
    (hline : f.lineno = line) : YyEnds w (b + 1) (.find s (pre.length + n) pre.length) f src (Scanned (c :: t) line) := by
  obtain ⟨rule, len, h1, h2, h3, h4, h5, h6⟩ := match_step c t
  have hlex := lexStep_length c t
  have hpos : 0 < len := by
    rcases Nat.eq_zero_or_pos len with h | h
    · rw [h, List.drop_zero] at h4
      rw [← h4] at hlex
      simp only [List.length_cons] at hlex
      omega
    · exact h
  -- the rule and the position that are found
  have hfind : len ≤ mid.length ∧
      (yyGet yyAccept[s]?).bind (fun a => if a = 0 then
        (yyGet f.lastCpos).bind fun cp => (yyGet yyAccept[f.lastState]?).bind fun a => .ok (a, cp)
       else .ok (a, pre.length + n)) = .ok (rule, pre.length + len) := by
    rw [h1] at hF
    rcases hF with hF | ⟨a1, a2, a3⟩ | ⟨a1, ls, k, a2, a3, a4, a5, a6⟩
    · cases hF
    · cases a3
      refine ⟨a2, ?_⟩
      rw [(used_spec hs).1, yyGet, Yy.bind_ok, if_neg a1]
    · cases a6
      simp only [Prod.mk.injEq] at a2
      refine ⟨a5, ?_⟩
      rw [(used_spec hs).1, yyGet, Yy.bind_ok, if_pos a1, a2.2, yyGet, Yy.bind_ok, a2.1, (used_spec a3).1, yyGet, Yy.bind_ok]
  obtain ⟨hlen, hfind⟩ := hfind
  have htake : (c :: t).take len = mid.take len := by
    rw [← hin, List.take_append_of_le_length hlen]
  have hlt : pre.length + len < (pre ++ mid ++ [0, 0]).length := by simp; omega
  have hl := hB.cells.length_le
  generalize hx : (pre ++ mid ++ [0, 0])[pre.length + len] = x
  have hcell : f.buf[pre.length + len]? = some (some x) := by rw [hB.cells.get _ hlt, hx]
  have hsame : f.buf.set (pre.length + len) (some x) = f.buf := by rw [← hx]; exact hB.cells.set_get _ hlt
  -- the block with the NUL
  have hfill : ∃ post, Filled (f.buf.set (pre.length + len) (some 0)) (pre ++ mid.take len ++ 0 :: post) := by
    refine ⟨(pre ++ mid ++ [0, 0]).drop (pre.length + len + 1), ?_⟩
    have e : pre ++ mid ++ [0, 0] = (pre ++ mid.take len) ++ x :: (pre ++ mid ++ [0, 0]).drop (pre.length + len + 1) := by
      have e1 : (pre ++ mid ++ [0, 0]).take (pre.length + len) = pre ++ mid.take len := by
        rw [List.append_assoc, List.take_length_add_append, List.take_append_of_le_length hlen]
      rw [← e1, ← hx, List.getElem_cons_drop, List.take_append_drop]
    have h := hB.cells
    rw [e] at h
    have h' := h.set 0
    rw [show (pre ++ mid.take len).length = pre.length + len by simp; omega] at h'
    exact h'
  obtain ⟨post, hfill⟩ := hfill
  have hbetween : ∀ g : Flex, g.buf = f.buf.set (pre.length + len) (some 0) →
      (g.between pre.length (pre.length + len)).bind yyBytes = .ok (mid.take len) := by
    intro g hg
    have hb : g.between pre.length (pre.length + len) = .ok ((mid.take len).map some) := by
      rw [Flex.between, if_pos (by rw [hg]; simp; omega), Nat.add_sub_cancel_left, hg]
      congr 1
      have := hfill.between
      rwa [show (mid.take len).length = len by simp; omega] at this
    rw [hb, Yy.bind_ok, yyBytes_map]
  -- ready for the rest
  have hready : ∀ l, FlexReady { f with buf := f.buf.set (pre.length + len) (some 0), text := pre.length, hold := x, cBufP := pre.length + len, lineno := l } src (lexStep c t).2 := by
    intro l
    refine ⟨pre ++ mid.take len, mid.drop len, ⟨?_, ?_, hB.pos, ?_, ?_, hB.eof⟩, by simp; omega, ?_⟩
    · simp only [List.set_set, hsame]
      rw [show pre ++ mid.take len ++ mid.drop len = pre ++ mid by rw [List.append_assoc, List.take_append_drop]]
      exact hB.cells
    · simp only [List.set_set, hsame]
      exact hB.size
    · rw [show pre ++ mid.take len ++ mid.drop len = pre ++ mid by rw [List.append_assoc, List.take_append_drop]]
      exact hB.chars
    · intro h
      have := (hB.fresh h).2.2
      rw [this] at hlen
      simp at hlen
      omega
    · rw [← h4, ← hin, List.drop_append_of_le_length hlen]
  -- the jump
  have hjump : yyJump w f src (.find s (pre.length + n) pre.length) =
      let f' : Flex := { f with buf := f.buf.set (pre.length + len) (some 0), text := pre.length, hold := x, cBufP := pre.length + len, lineno := if c = 0x0A then line + 1 else line }
      match (lexStep c t).1 with
      | none => .ok (.goto .top f' src)
      | some i => .ok (.done (some { item := i, text := mid.take len, line := f'.lineno }) f' src) := by
    have e0 : yyJump w f src (.find s (pre.length + n) pre.length) =
        ((yyGet yyAccept[s]?).bind (fun a => if a = 0 then
            (yyGet f.lastCpos).bind fun cp => (yyGet yyAccept[f.lastState]?).bind fun a => .ok (a, cp)
           else .ok (a, pre.length + n))).bind fun m =>
          (f.cell m.2).bind fun h =>
          (({ f with text := pre.length, hold := h, cBufP := m.2 } : Flex).setCell m.2 0).bind fun f =>
            if m.1 = 0 then
              (f.setCell m.2 f.hold).bind fun f => (yyGet f.lastCpos).bind fun cp => .ok (.goto (.find f.lastState cp pre.length) f src)
            else if m.1 = 24 then yyEndOfBuffer w m.2 f src
            else
              ((f.between pre.length m.2).bind yyBytes).bind fun text =>
                match flexAction text m.1 with
                | none => .fatal (lit "fatal flex scanner internal error--no action found")
                | some i =>
                  let f := if m.1 = 3 then { f with lineno := f.lineno + 1 } else f
                  match i with
                  | none => .ok (.goto .top f src)
                  | some i => .ok (.done (some { item := i, text := text, line := f.lineno }) f src) := by
      simp only [yyJump, (used_spec hs).1, yyGet, Yy.bind_ok, Yy.bind_assoc]
      rfl
    rw [e0, hfind, Yy.bind_ok]
    simp only [Flex.cell, hcell, Option.join_some, yyGet, Yy.bind_ok, Flex.setCell]
    rw [if_pos (by omega), Yy.bind_ok, if_neg h5, if_neg h6, hbetween _ rfl, Yy.bind_ok]
    rw [← htake, h3]
    by_cases h : rule = 3
    · simp only [h, if_true, h2.1 h, hline]
    · have hc : ¬ c = 0x0A := fun e => h (h2.2 e)
      simp only [h, if_false, hc, ← hline]
  cases hi : (lexStep c t).1 with
  | none =>
    rw [hi] at hjump
    refine YyEnds.goto hjump ?_
    have := ih _ src (hready (if c = 0x0A then line + 1 else line)) rfl
    refine this.mono ?_
    intro a f' src' hq
    have hloc : locate line (c :: t) = locate (if c = 0x0A then line + 1 else line) (lexStep c t).2 :=
      locate_none line (by rw [← hi])
    cases a with
    | none =>
      unfold Scanned at hq ⊢
      rw [hloc]
      exact hq
    | some y =>
      obtain ⟨p', q1, q2, q3, q4, q5⟩ := hq
      refine ⟨p', q1, ?_, q3, ?_, q5⟩
      · simp only [List.length_cons]; omega
      · rw [hloc]; exact q4
  | some i =>
    rw [hi] at hjump
    refine YyEnds.le (b := 1) ?_ (by omega)
    refine YyEnds.done hjump ?_
    have hv : ∃ v, t = v ++ (lexStep c t).2 ∧ mid.take len = c :: v := by
      obtain ⟨k, hk⟩ : ∃ k, len = k + 1 := ⟨len - 1, by omega⟩
      refine ⟨t.take k, ?_, ?_⟩
      · rw [← h4, hk, List.drop_succ_cons, List.take_append_drop]
      · rw [← htake, hk, List.take_succ_cons]
    obtain ⟨v, hv1, hv2⟩ := hv
    refine ⟨(lexStep c t).2, hready _, ?_, rfl, ?_, ⟨pre, post, ?_, rfl⟩, ?_⟩
    · simp only [List.length_cons]; omega
    · have := locate_some (c := c) (v := v) (rest := (lexStep c t).2) (i := i) line (by rw [← hv1, ← hi])
      rw [← hv1] at this
      simp only [hv2]
      exact this
    · exact hfill
    · intro a un ha
      simp only at ha
      obtain ⟨x, x1, _, _, x4⟩ := lexStep_split c t
      have hx : x = v := List.append_cancel_right (x1.symm.trans hv1)
      have := x4 a un (by rw [hi, ha])
      rw [hx] at this
      simp only [hv2]
      exact this.no_nul

/-- The rounds of one call. -/
theorem fuel_step (m : Nat) : (4 * m + 2) * m + (4 * (m + 1) + 2) ≤ (4 * (m + 1) + 2) * (m + 1) := by
  have h1 : (4 * (m + 1) + 2) * (m + 1) = (4 * (m + 1) + 2) * m + (4 * (m + 1) + 2) := Nat.mul_succ _ _
  have h2 : (4 * m + 2) * m ≤ (4 * (m + 1) + 2) * m := Nat.mul_le_mul_right _ (by omega)
  omega

/-- **One call of `yylex`.** -/
theorem yylex_ends (w : YyWorld) (m : Nat) : ∀ (pending : Bytes) (f : Flex) (src : Source), pending.length < m → pending.length ≤ yyTextMax →
    FlexReady f src pending → YyEnds w ((4 * m + 2) * m) .top f src (Scanned pending f.lineno) := by
  induction m with
  | zero => intro pending f src h; omega
  | succ m ih =>
    rintro pending f src hm hmax ⟨pre, mid, hB, hc, hp⟩
    have hl := hB.cells.length_le
    have hlt : f.cBufP < f.buf.length := by simp at hl; omega
    have hplen : pending.length = mid.length + src.rest.length := by rw [hp, List.length_append]
    have hfuel := fuel_step m
    refine YyEnds.le (b := 2 * (2 * src.rest.length + mid.length + 1) + ((4 * m + 2) * m + 1) + 1) ?_ (by omega)
    refine YyEnds.goto (l' := .scan 1 (pre.length + 0) pre.length) (f' := { f with buf := f.buf.set f.cBufP (some f.hold) }) (src' := src) (by
      simp only [yyJump, Flex.setCell]
      rw [if_pos hlt, Yy.bind_ok]
      simp only [hc, Nat.add_zero]) ?_
    refine match_ends w pending hmax f.lineno _ (by omega) _ ?_ ?_ (2 * src.rest.length + mid.length + 1) _ src pre [] mid 1 none (by omega) hB
      (by rw [hp]; rfl) Along.nil (fun x hx => by cases hx) rfl
    · intro hne
      cases hpe : pending with
      | nil => exact absurd hpe hne
      | cons c t =>
        have hlex := lexStep_length c t
        rw [hpe] at hm hmax
        simp only [List.length_cons] at hm hmax
        intro f' src' pre' mid' s n g1 g2 g3 g4 g5
        exact find_ends w c t f.lineno _ (fun f'' src'' r1 r2 => by
          have := ih (lexStep c t).2 f'' src'' (by omega) (by omega) r1
          rw [r2] at this
          exact this) f' src' pre' mid' s n g1 g2 g3 g4 g5
    · intro he f' src' g1 g2 g3 g4 g5 g6 g7
      refine ⟨?_, g6, ?_, g4, ?_⟩
      · rw [he, g7]; rfl
      · intro s
        have hz := (g2 s).cells.set_get 0 (by simp)
        have : f'.buf.set f'.cBufP (some f'.hold) = f'.buf := by
          rw [g3, g5]
          exact hz
        refine ⟨[], [], ?_, g3, rfl⟩
        exact (g2 s).congr this rfl rfl rfl rfl
      · exact (g2 src').cells.get 0 (by simp)

end Detox
