import Verif.Lemmas.FlexStates

/-!
# The generated tables make the scanner of the rules
-/

set_option autoImplicit false

namespace Detox

/-- A number of a state that is used, and what it stands for. -/
def StandsFor (s : Nat) (l : LexState) : Prop := s ≠ 0 ∧ s ≠ 2 ∧ s ≠ 3 ∧ stateList[s]? = some l

/-- Rule and end of a state are as in the tables. -/
def stateOk (s : Nat) (l : LexState) : Bool :=
  decide (yyAccept[s]? = some l.rule) &&
    match yyBase[s]? with
    | some b => decide (b = 234) == l.final
    | none => false

/-- The transitions of a state are as in the tables, class by class. -/
def rowOk (s : Nat) (l : LexState) : List (List Byte) → Nat → Bool
  | [], _ => true
  | cs :: rest, e =>
    (match yyNextState 4 s e with
      | some s' =>
        s' != 0 && s' != 2 && s' != 3 &&
        match stateList[s']? with
        | some l' => cs.all fun c => decide (l.step c = l')
        | none => false
      | none => false) && rowOk s l rest (e + 1)

def allOk (members : List (List Byte)) : Bool :=
  (List.range 111).all fun s =>
    s == 0 || s == 2 || s == 3 ||
      match stateList[s]? with
      | some l => stateOk s l && (l.final || rowOk s l members.tail 1)
      | none => false

/-- The characters of each class. -/
def memberList : List (List Byte) := [
  [],
  [0, 1, 2, 3, 4, 5, 6, 7, 8, 11, 12, 13, 14, 15, 16, 17, 18, 19, 20, 21, 22, 23, 24, 25, 26, 27, 28, 29, 30, 31, 33, 36, 37, 38, 39, 40, 41, 42, 43, 44, 45, 46, 47, 58, 60, 61, 62, 63, 64, 91, 92, 93, 94, 96, 124, 126, 127, 128, 129, 130, 131, 132, 133, 134, 135, 136, 137, 138, 139, 140, 141, 142, 143, 144, 145, 146, 147, 148, 149, 150, 151, 152, 153, 154, 155, 156, 157, 158, 159, 160, 161, 162, 163, 164, 165, 166, 167, 168, 169, 170, 171, 172, 173, 174, 175, 176, 177, 178, 179, 180, 181, 182, 183, 184, 185, 186, 187, 188, 189, 190, 191, 192, 193, 194, 195, 196, 197, 198, 199, 200, 201, 202, 203, 204, 205, 206, 207, 208, 209, 210, 211, 212, 213, 214, 215, 216, 217, 218, 219, 220, 221, 222, 223, 224, 225, 226, 227, 228, 229, 230, 231, 232, 233, 234, 235, 236, 237, 238, 239, 240, 241, 242, 243, 244, 245, 246, 247, 248, 249, 250, 251, 252, 253, 254, 255],
  [9, 32],
  [10],
  [34],
  [35],
  [48, 50, 51, 52, 54, 55],
  [49],
  [53],
  [56],
  [57],
  [59],
  [65],
  [66],
  [67],
  [68, 74, 75, 89, 90, 100, 106, 107, 121, 122],
  [69],
  [70],
  [71],
  [72],
  [73],
  [76],
  [77],
  [78],
  [79],
  [80],
  [81],
  [82],
  [83],
  [84],
  [85],
  [86],
  [87],
  [88],
  [95],
  [97],
  [98],
  [99],
  [101],
  [102],
  [103],
  [104],
  [105],
  [108],
  [109],
  [110],
  [111],
  [112],
  [113],
  [114],
  [115],
  [116],
  [117],
  [118],
  [119],
  [120],
  [123],
  [125]]

theorem members_of_class : ∀ c : Byte, ∃ e cs, yyClass c = some (e + 1) ∧ memberList.tail[e]? = some cs ∧ c ∈ cs := by
  have h : ∀ c : Byte, (match yyClass c with
      | some (e + 1) => match memberList.tail[e]? with
        | some cs => cs.contains c
        | none => false
      | _ => false) = true := forall_byte (by decide +kernel)
  intro c
  have := h c
  split at this
  · rename_i e he
    split at this
    · rename_i cs hcs
      exact ⟨e, cs, he, hcs, by simpa using this⟩
    · cases this
  · cases this

theorem allOk_true : allOk memberList = true := by decide +kernel

theorem rowOk_spec {s : Nat} {l : LexState} {c : Byte} {cs : List Byte} (hc : c ∈ cs) : ∀ (members : List (List Byte)) (e d : Nat),
    rowOk s l members d = true → members[e]? = some cs → ∃ s', yyNextState 4 s (e + d) = some s' ∧ StandsFor s' (l.step c)
  | [], e, d, _, h2 => by simp at h2
  | m :: rest, e, d, h1, h2 => by
    unfold rowOk at h1
    rw [Bool.and_eq_true] at h1
    cases e with
    | succ e =>
      obtain ⟨s', h3, h4⟩ := rowOk_spec hc rest e (d + 1) h1.2 (by simpa using h2)
      exact ⟨s', by rw [← h3]; congr 1; omega, h4⟩
    | zero =>
      have h3 := h1.1
      have hm : m = cs := by simpa using h2
      subst hm
      rw [Nat.zero_add]
      cases hn : yyNextState 4 s d with
      | none => rw [hn] at h3; cases h3
      | some s' =>
        rw [hn] at h3
        simp only [Bool.and_eq_true, bne_iff_ne, ne_eq] at h3
        obtain ⟨⟨⟨a1, a2⟩, a3⟩, h3⟩ := h3
        refine ⟨s', rfl, a1, a2, a3, ?_⟩
        cases hl : stateList[s']? with
        | none => rw [hl] at h3; cases h3
        | some l' =>
          rw [hl] at h3
          rw [of_decide_eq_true (List.all_eq_true.1 h3 c hc)]

/-- What the tables say about a state. -/
theorem state_spec {s : Nat} {l : LexState} (h : StandsFor s l) :
    yyAccept[s]? = some l.rule ∧ (∃ b, yyBase[s]? = some b ∧ (b = 234 ↔ l.final = true)) ∧
    (l.final = false → ∀ c, ∃ e s', yyClass c = some e ∧ yyNextState 4 s e = some s' ∧ StandsFor s' (l.step c)) := by
  obtain ⟨h0, h2, h3, hs⟩ := h
  have hlt : s < 111 := by
    have : stateList.length = 111 := by decide +kernel
    rw [← this]
    exact (List.getElem?_eq_some_iff.1 hs).1
  have := List.all_eq_true.1 allOk_true s (List.mem_range.2 hlt)
  simp only [hs, Bool.or_eq_true, beq_iff_eq, h0, h2, h3, false_or, Bool.and_eq_true] at this
  obtain ⟨h4, h5⟩ := this
  unfold stateOk at h4
  rw [Bool.and_eq_true, decide_eq_true_eq] at h4
  refine ⟨h4.1, ?_, ?_⟩
  · have h6 := h4.2
    cases hb : yyBase[s]? with
    | none => rw [hb] at h6; cases h6
    | some b =>
      rw [hb] at h6
      refine ⟨b, rfl, ?_⟩
      have h6 : decide (b = 234) = l.final := by simpa using h6
      rw [← h6]; simp
  · intro hf c
    obtain ⟨e, cs, h6, h7, h8⟩ := members_of_class c
    rcases h5 with h5 | h5
    · rw [hf] at h5; cases h5
    · obtain ⟨s', h9, h10⟩ := rowOk_spec h8 _ e 1 h5 h7
      exact ⟨e + 1, s', h6, h9, h10⟩

/-- The loop over the tables computes the longest match. -/
theorem yyMatch_run (s : Bytes) : ∀ {n : Nat} {l : LexState}, StandsFor n l → l.final = false → ∀ (k : Nat) (last : Option (Nat × Nat)),
    yyMatch n k last s = l.run k last s := by
  induction s with
  | nil =>
    intro n l h _ k last
    simp only [yyMatch, (state_spec h).1, Option.bind_some, LexState.run]
  | cons c s ih =>
    intro n l h hf k last
    obtain ⟨h1, _, h3⟩ := state_spec h
    obtain ⟨e, s', h4, h5, h6⟩ := h3 hf c
    obtain ⟨h7, ⟨b, h8, h9⟩, _⟩ := state_spec h6
    simp only [yyMatch, h1, h4, h5, h8, h7, Option.bind_some, LexState.run]
    cases hs : (l.step c).final with
    | true =>
      have : b = 234 := h9.2 hs
      simp [this]
    | false =>
      have : b ≠ 234 := fun e => by rw [h9.1 e] at hs; cases hs
      simp only [this, ne_eq, not_false_eq_true, if_true, Bool.false_eq_true, if_false]
      exact ih h6 hs _ _

theorem start_stands : StandsFor 1 .start := ⟨by decide, by decide, by decide, by decide +kernel⟩

/-! ### Matches and actions -/

theorem take_takeWhile (p : Byte → Bool) (s : Bytes) : s.take (s.takeWhile p).length = s.takeWhile p := by
  have := List.takeWhile_append_dropWhile (p := p) (l := s)
  conv => lhs; rw [← this]
  rw [show (List.takeWhile p (List.takeWhile p s ++ List.dropWhile p s)).length = (List.takeWhile p s).length by rw [this]]
  exact List.take_left

theorem drop_takeWhile (p : Byte → Bool) (s : Bytes) : s.drop (s.takeWhile p).length = s.dropWhile p := by
  have := List.takeWhile_append_dropWhile (p := p) (l := s)
  conv => lhs; rw [← this]
  rw [show (List.takeWhile p (List.takeWhile p s ++ List.dropWhile p s)).length = (List.takeWhile p s).length by rw [this]]
  exact List.drop_left

theorem kwRule_action (text : Bytes) (k : Kw) : flexAction text (kwRule k) = some (some (.tok (.kw k) false)) := by cases k <;> rfl

/-- The generated scanner and the rules agree on every match. -/
theorem flexStep_eq (c : Byte) (s : Bytes) : flexStep c s = some (lexStep c s) := by
  unfold flexStep
  rw [yyMatch_run _ start_stands rfl]
  have hr : LexState.start.run 0 none (c :: s) =
      if (LexState.start.step c).final then
        (if (LexState.start.step c).rule ≠ 0 then some ((LexState.start.step c).rule, 1) else none)
      else (LexState.start.step c).run 1 none s := rfl
  rw [hr]
  generalize hL : LexState.start.step c = L
  simp only [LexState.step] at hL
  unfold lexStep
  by_cases h1 : (decide (c = 0x20) || decide (c = 0x09)) = true
  · rw [if_pos h1] at hL
    rw [if_pos h1]
    subst hL
    rw [if_neg (by decide), run_blank, Option.bind_some]
    simp only [flexAction, Option.bind_some, Nat.add_comm 1, List.drop_succ_cons, drop_takeWhile]
  rw [if_neg h1] at hL
  rw [if_neg h1]
  by_cases h2 : c = 0x23
  · rw [if_pos h2] at hL
    rw [if_pos h2]
    subst hL
    rw [if_neg (by decide), run_comment, Option.bind_some]
    simp only [flexAction, Option.bind_some, Nat.add_comm 1, List.drop_succ_cons, drop_takeWhile]
  rw [if_neg h2] at hL
  rw [if_neg h2]
  by_cases h3 : c = 0x0A
  · rw [if_pos h3] at hL; rw [if_pos h3]; subst hL; rfl
  rw [if_neg h3] at hL
  rw [if_neg h3]
  by_cases h4 : c = 0x7B
  · rw [if_pos h4] at hL; rw [if_pos h4]; subst hL; rfl
  rw [if_neg h4] at hL
  rw [if_neg h4]
  by_cases h5 : c = 0x7D
  · rw [if_pos h5] at hL; rw [if_pos h5]; subst hL; rfl
  rw [if_neg h5] at hL
  rw [if_neg h5]
  by_cases h6 : c = 0x3B
  · rw [if_pos h6] at hL; rw [if_pos h6]; subst hL; rfl
  rw [if_neg h6] at hL
  rw [if_neg h6]
  by_cases h7 : c = 0x22
  · rw [if_pos h7] at hL
    rw [if_pos h7]
    subst hL
    subst h7
    rw [if_neg (by decide), run_quote]
    cases hd : s.dropWhile (fun x => decide (x ≠ 0x22) && decide (x ≠ 0x0A)) with
    | nil => rfl
    | cons d rest =>
      have e := List.takeWhile_append_dropWhile (p := fun x : Byte => decide (x ≠ 0x22) && decide (x ≠ 0x0A)) (l := s)
      rw [hd] at e
      generalize hb : s.takeWhile (fun x => decide (x ≠ 0x22) && decide (x ≠ 0x0A)) = body at e
      subst e
      have hl : 1 + body.length + 1 = (0x22 :: (body ++ [d])).length := by simp; omega
      have hsplit : (0x22 : Byte) :: (body ++ d :: rest) = (0x22 :: (body ++ [d])) ++ rest := by simp
      simp only [Option.bind_some]
      rw [hl, hsplit, List.take_left, List.drop_left]
      simp only [flexAction]
      rw [show (0x22 : Byte) :: (body ++ [d]) = (0x22 :: body) ++ [d] from rfl, List.getLast?_concat, Option.bind_some, Option.bind_some]
      rw [List.cons_append, List.tail_cons, List.dropLast_concat]
  rw [if_neg h7] at hL
  rw [if_neg h7]
  by_cases h8 : isLetter c = true
  · rw [if_pos h8] at hL
    rw [if_pos h8]
    subst hL
    rw [if_neg (by simp [LexState.final]), run_word, Option.bind_some]
    simp only [Nat.add_comm 1, List.drop_succ_cons, List.take_succ_cons, drop_takeWhile, take_takeWhile]
    simp only [LexState.rule, lookup_afterWord, lookup_afterLetter]
    unfold wordTok
    cases keywords.lookup ((c :: s.takeWhile isWordByte).map toLowerC) with
    | none => rfl
    | some k => simp only [kwRule_action, Option.bind_some]
  rw [if_neg h8] at hL
  rw [if_neg h8]
  by_cases h9 : isDigitByte c = true
  · rw [if_pos h9] at hL
    rw [if_pos h9]
    subst hL
    rw [if_neg (by decide), run_number, Option.bind_some]
    simp only [flexAction, Option.bind_some, Nat.add_comm 1, List.drop_succ_cons, List.take_succ_cons, drop_takeWhile, take_takeWhile]
  rw [if_neg h9] at hL
  rw [if_neg h9]
  subst hL
  rfl

theorem kwRule_ne_three : ∀ k : Kw, kwRule k ≠ 3 := by intro k; cases k <;> decide

theorem run_start (c : Byte) (s : Bytes) : LexState.start.run 0 none (c :: s) =
    if (LexState.start.step c).final then
      (if (LexState.start.step c).rule ≠ 0 then some ((LexState.start.step c).rule, 1) else none)
    else (LexState.start.step c).run 1 none s := rfl

/-- Which rule of config_file_lex.l a match belongs to, as far as the count of lines goes. -/
theorem run_newline (c : Byte) (s : Bytes) : ∃ rule n, LexState.start.run 0 none (c :: s) = some (rule, n) ∧ (rule = 3 ↔ c = 0x0A) := by
  rw [run_start]
  generalize hL : LexState.start.step c = L
  simp only [LexState.step] at hL
  by_cases h1 : (decide (c = 0x20) || decide (c = 0x09)) = true
  · rw [if_pos h1] at hL
    subst hL
    rw [if_neg (by decide), run_blank]
    refine ⟨_, _, rfl, (fun e => absurd e (by decide)), ?_⟩
    rintro rfl; cases h1
  rw [if_neg h1] at hL
  by_cases h2 : c = 0x23
  · rw [if_pos h2] at hL
    subst hL
    rw [if_neg (by decide), run_comment]
    refine ⟨_, _, rfl, (fun e => absurd e (by decide)), ?_⟩
    rintro rfl; cases h2
  rw [if_neg h2] at hL
  by_cases h3 : c = 0x0A
  · rw [if_pos h3] at hL; subst hL; exact ⟨3, 1, rfl, fun _ => h3, fun _ => rfl⟩
  rw [if_neg h3] at hL
  by_cases h4 : c = 0x7B
  · rw [if_pos h4] at hL; subst hL; exact ⟨_, 1, rfl, fun e => absurd e (by decide), fun e => absurd e h3⟩
  rw [if_neg h4] at hL
  by_cases h5 : c = 0x7D
  · rw [if_pos h5] at hL; subst hL; exact ⟨_, 1, rfl, fun e => absurd e (by decide), fun e => absurd e h3⟩
  rw [if_neg h5] at hL
  by_cases h6 : c = 0x3B
  · rw [if_pos h6] at hL; subst hL; exact ⟨_, 1, rfl, fun e => absurd e (by decide), fun e => absurd e h3⟩
  rw [if_neg h6] at hL
  by_cases h7 : c = 0x22
  · rw [if_pos h7] at hL
    subst hL
    rw [if_neg (by decide), run_quote]
    cases s.dropWhile (fun x => decide (x ≠ 0x22) && decide (x ≠ 0x0A)) with
    | nil => exact ⟨_, _, rfl, fun e => absurd e (by decide), fun e => absurd e h3⟩
    | cons d rest => exact ⟨_, _, rfl, fun e => absurd e (by decide), fun e => absurd e h3⟩
  rw [if_neg h7] at hL
  by_cases h8 : isLetter c = true
  · rw [if_pos h8] at hL
    subst hL
    rw [if_neg (by simp [LexState.final]), run_word]
    refine ⟨_, _, rfl, ?_, fun e => absurd e h3⟩
    simp only [LexState.rule]
    split
    · exact fun e => absurd e (kwRule_ne_three _)
    · exact fun e => absurd e (by decide)
  rw [if_neg h8] at hL
  by_cases h9 : isDigitByte c = true
  · rw [if_pos h9] at hL
    subst hL
    rw [if_neg (by decide), run_number]
    exact ⟨_, _, rfl, fun e => absurd e (by decide), fun e => absurd e h3⟩
  rw [if_neg h9] at hL
  subst hL
  exact ⟨_, 1, rfl, fun e => absurd e (by decide), fun e => absurd e h3⟩

end Detox
