import Verif.Model.Bison

/-!
# The generated parser and the grammar

`Stk p l`: the stacks of the parser when it has seen what the phase `p` says.
-/

set_option autoImplicit false

namespace Detox

/-- In a sequence: before its first method, or after some. -/
inductive InSeq : List (Nat × YVal) → Prop where
  | first (a b c : YVal) : InSeq [(7, a), (1, b), (0, c)]
  | more (d a b c : YVal) : InSeq [(21, d), (7, a), (1, b), (0, c)]

/-- In an ignore block: before its first line, or after some. -/
inductive InIgn : List (Nat × YVal) → Prop where
  | first (a b c : YVal) : InIgn [(9, a), (1, b), (0, c)]
  | more (d a b c : YVal) : InIgn [(29, d), (9, a), (1, b), (0, c)]

/-- The states after a tabled method, its `OPEN`, `BUILTIN` or `FILENAME`, the string, `EOL`, and all of it. -/
def tabState : Tabled → Nat
  | .iso8859_1 => 14 | .utf8 => 19 | .safe => 17

def tabOpenState : Tabled → Nat
  | .iso8859_1 => 32 | .utf8 => 37 | .safe => 35

def tabOptState : Tabled → Bool → Nat
  | .iso8859_1, false => 53 | .iso8859_1, true => 51
  | .utf8, false => 61 | .utf8, true => 59
  | .safe, false => 58 | .safe, true => 56

def tabStrState : Tabled → Bool → Nat
  | .iso8859_1, false => 68 | .iso8859_1, true => 67
  | .utf8, false => 73 | .utf8, true => 72
  | .safe, false => 71 | .safe, true => 70

def tabEolState : Tabled → Bool → Nat
  | .iso8859_1, false => 76 | .iso8859_1, true => 75
  | .utf8, false => 81 | .utf8, true => 80
  | .safe, false => 79 | .safe, true => 78

inductive Stk : Phase → List (Nat × YVal) → Prop where
  | top (a b : YVal) : Stk .top [(1, a), (0, b)]
  | seqKw (a b c : YVal) : Stk .seqKw [(4, a), (1, b), (0, c)]
  | seqName (s : Bytes) (a b c : YVal) : Stk (.seqName s) [(13, .string s), (4, a), (1, b), (0, c)]
  | seqOpen (a b c : YVal) : Stk .seqOpen [(7, a), (1, b), (0, c)]
  | seqList (d a b c : YVal) : Stk .seqList [(21, d), (7, a), (1, b), (0, c)]
  | seqClose (e d a b c : YVal) : Stk .seqClose [(39, e), (21, d), (7, a), (1, b), (0, c)]
  | uncgi (v : YVal) {l : List (Nat × YVal)} (h : InSeq l) : Stk (.plain .uncgi) ((18, v) :: l)
  | lower (v : YVal) {l : List (Nat × YVal)} (h : InSeq l) : Stk (.plain .lower) ((15, v) :: l)
  | tab (m : Tabled) (v : YVal) {l : List (Nat × YVal)} (h : InSeq l) : Stk (.tab m) ((tabState m, v) :: l)
  | tabOpen (m : Tabled) (w v : YVal) {l : List (Nat × YVal)} (h : InSeq l) :
      Stk (.tabOpen m) ((tabOpenState m, w) :: (tabState m, v) :: l)
  | tabOpt (m : Tabled) (b : Bool) (x w v : YVal) {l : List (Nat × YVal)} (h : InSeq l) :
      Stk (.tabOpt m b) ((tabOptState m b, x) :: (tabOpenState m, w) :: (tabState m, v) :: l)
  | tabStr (m : Tabled) (b : Bool) (s : Bytes) (x w v : YVal) {l : List (Nat × YVal)} (h : InSeq l) :
      Stk (.tabStr m b s) ((tabStrState m b, .string s) :: (tabOptState m b, x) :: (tabOpenState m, w) :: (tabState m, v) :: l)
  | tabEol (m : Tabled) (b : Bool) (s : Bytes) (y x w v : YVal) {l : List (Nat × YVal)} (h : InSeq l) :
      Stk (.tabEol m b s)
        ((tabEolState m b, y) :: (tabStrState m b, .string s) :: (tabOptState m b, x) :: (tabOpenState m, w) :: (tabState m, v) :: l)
  | wipe (v : YVal) {l : List (Nat × YVal)} (h : InSeq l) : Stk .wipe ((20, v) :: l)
  | wipeOpen (w v : YVal) {l : List (Nat × YVal)} (h : InSeq l) : Stk .wipeOpen ((38, w) :: (20, v) :: l)
  | wipeOpt (x w v : YVal) {l : List (Nat × YVal)} (h : InSeq l) : Stk .wipeOpt ((63, x) :: (38, w) :: (20, v) :: l)
  | wipeEol (y x w v : YVal) {l : List (Nat × YVal)} (h : InSeq l) :
      Stk .wipeEol ((74, y) :: (63, x) :: (38, w) :: (20, v) :: l)
  | maxl (v : YVal) {l : List (Nat × YVal)} (h : InSeq l) : Stk .maxl ((16, v) :: l)
  | maxlOpen (w v : YVal) {l : List (Nat × YVal)} (h : InSeq l) : Stk .maxlOpen ((34, w) :: (16, v) :: l)
  | maxlOpt (x w v : YVal) {l : List (Nat × YVal)} (h : InSeq l) : Stk .maxlOpt ((55, x) :: (34, w) :: (16, v) :: l)
  | maxlVal (n : Nat) (x w v : YVal) {l : List (Nat × YVal)} (h : InSeq l) :
      Stk (.maxlVal n) ((69, .nvalue n) :: (55, x) :: (34, w) :: (16, v) :: l)
  | maxlEol (n : Nat) (y x w v : YVal) {l : List (Nat × YVal)} (h : InSeq l) :
      Stk (.maxlEol n) ((77, y) :: (69, .nvalue n) :: (55, x) :: (34, w) :: (16, v) :: l)
  | methodEnd (s : Nat) (hs : s = 23 ∨ s = 24 ∨ s = 25 ∨ s = 26 ∨ s = 27) (v : YVal) {l : List (Nat × YVal)} (h : InSeq l) :
      Stk .methodEnd ((s, v) :: l)
  | ignKw (a b c : YVal) : Stk .ignKw [(3, a), (1, b), (0, c)]
  | ignOpen (a b c : YVal) : Stk .ignOpen [(9, a), (1, b), (0, c)]
  | ignList (d a b c : YVal) : Stk .ignList [(29, d), (9, a), (1, b), (0, c)]
  | ignFile (v : YVal) {l : List (Nat × YVal)} (h : InIgn l) : Stk .ignFile ((28, v) :: l)
  | ignStr (s : Bytes) (v : YVal) {l : List (Nat × YVal)} (h : InIgn l) : Stk (.ignStr s) ((47, .string s) :: (28, v) :: l)
  | ignClose (e d a b c : YVal) : Stk .ignClose [(48, e), (29, d), (9, a), (1, b), (0, c)]

/-- The result of reading a token, in both machines. -/
def SameStep (q : Phase) (r : Res CState) (y : Res YNext) : Prop :=
  match r with
  | .ok st => ∃ l v, y = .ok (.token ⟨l, v, { st with phase := q }⟩) ∧ Stk st.phase l
  | .exit n => y = .exit n
  | .ub u => y = .ub u
  | .stuck => y = .stuck

/-- The token `t` in a parser whose stack of states is concrete: the tables are looked up by computation. -/
macro "by_tables" t:ident : tactic => `(tactic| (
  rcases $t:ident with k | _ | _ | _ | n | s | s <;> first
    | exact rfl
    | exact ⟨_, _, rfl, by constructor <;> first | assumption | decide | constructor⟩
    | (cases k <;> first
        | exact rfl
        | exact ⟨_, _, rfl, by constructor <;> first | assumption | decide | constructor⟩)))

theorem step_same (file : Bytes) (q : Phase) (st : CState) (l : List (Nat × YVal)) (v : YVal) (h : Stk st.phase l) (t : Tok) :
    SameStep q (cfStep file st t) (yySteps file 20 (readTok ⟨l, v, { st with phase := q }⟩ (some t)) (some (some t))) := by
  obtain ⟨p, nm, fs, qs, ig⟩ := st
  simp only at h
  cases h with
  | top => by_tables t
  | seqKw => by_tables t
  | seqName => by_tables t
  | seqOpen => by_tables t
  | seqList => by_tables t
  | seqClose => by_tables t
  | uncgi _ h => cases h <;> by_tables t
  | lower _ h => cases h <;> by_tables t
  | tab m _ h => cases h <;> cases m <;> by_tables t
  | tabOpen m _ _ h => cases h <;> cases m <;> by_tables t
  | tabOpt m b _ _ _ h => cases h <;> cases m <;> cases b <;> by_tables t
  | tabStr m b _ _ _ _ h => cases h <;> cases m <;> cases b <;> by_tables t
  | tabEol m b _ _ _ _ _ h => cases h <;> cases m <;> cases b <;> by_tables t
  | wipe _ h => cases h <;> by_tables t
  | wipeOpen _ _ h => cases h <;> by_tables t
  | wipeOpt _ _ _ h => cases h <;> by_tables t
  | wipeEol _ _ _ _ h => cases h <;> by_tables t
  | maxl _ h => cases h <;> by_tables t
  | maxlOpen _ _ h => cases h <;> by_tables t
  | maxlOpt _ _ _ h => cases h <;> by_tables t
  | maxlVal _ _ _ _ h => cases h <;> by_tables t
  | maxlEol _ _ _ _ _ h => cases h <;> by_tables t
  | methodEnd s hs _ h => rcases hs with e | e | e | e | e <;> subst e <;> cases h <;> by_tables t
  | ignKw => by_tables t
  | ignOpen => by_tables t
  | ignList => by_tables t
  | ignFile _ h => cases h <;> by_tables t
  | ignStr s _ h =>
    by_cases ht : t = .eol
    · subst ht
      have e : ∀ l : List (Nat × YVal), InIgn l → ∀ w : YVal, ∃ d₁ d, yySteps file 20
          (readTok ⟨(47, .string s) :: (28, w) :: l, v, { phase := q, name := nm, filters := fs, sequences := qs, ignore := ig }⟩
            (some .eol)) (some (some .eol)) =
          (((filelistPut ig s).bind fun l' =>
              Res.ok ({ phase := q, name := nm, filters := fs, sequences := qs, ignore := l' } : CState)).bind
            fun c => Res.ok (⟨d₁, v, c⟩ : YState)).bind (fun y => yySteps file 18 y none)
          ∧ (∀ c, yySteps file 18 ⟨d₁, v, c⟩ none = .ok (.token ⟨d, v, c⟩)) ∧ Stk .ignList d := by
        intro l h w
        cases h with
        | first a b c => exact ⟨[(30, w), (9, a), (1, b), (0, c)], _, rfl, fun _ => rfl, .ignList w a b c⟩
        | more d a b c => exact ⟨[(50, w), (29, d), (9, a), (1, b), (0, c)], _, rfl, fun _ => rfl, .ignList d a b c⟩
      obtain ⟨d₁, d, hd, hr, hs⟩ := e _ h _
      rw [hd]
      simp only [cfStep, if_pos, bind]
      cases filelistPut ig s with
      | ok l' => exact ⟨d, v, hr _, hs⟩
      | exit n => exact rfl
      | ub u => exact rfl
      | stuck => exact rfl
    · rcases t with k | _ | _ | _ | n | s' | s'
      · cases h <;> cases k <;> exact rfl
      · cases h <;> exact rfl
      · cases h <;> exact rfl
      · exact absurd rfl ht
      · cases h <;> exact rfl
      · cases h <;> exact rfl
      · cases h <;> exact rfl
  | ignClose => by_tables t

theorem end_same (file : Bytes) (q : Phase) (st : CState) (l : List (Nat × YVal)) (v : YVal) (h : Stk st.phase l) :
    yySteps file 20 (readTok ⟨l, v, { st with phase := q }⟩ none) (some none) =
      if st.phase = .top then .ok (.accept { st with phase := q }) else .exit 1 := by
  obtain ⟨p, nm, fs, qs, ig⟩ := st
  simp only at h
  cases h with
  | uncgi _ h => cases h <;> exact rfl
  | lower _ h => cases h <;> exact rfl
  | tab m _ h => cases h <;> cases m <;> exact rfl
  | tabOpen m _ _ h => cases h <;> cases m <;> exact rfl
  | tabOpt m b _ _ _ h => cases h <;> cases m <;> cases b <;> exact rfl
  | tabStr m b _ _ _ _ h => cases h <;> cases m <;> cases b <;> exact rfl
  | tabEol m b _ _ _ _ _ h => cases h <;> cases m <;> cases b <;> exact rfl
  | wipe _ h => cases h <;> exact rfl
  | wipeOpen _ _ h => cases h <;> exact rfl
  | wipeOpt _ _ _ h => cases h <;> exact rfl
  | wipeEol _ _ _ _ h => cases h <;> exact rfl
  | maxl _ h => cases h <;> exact rfl
  | maxlOpen _ _ h => cases h <;> exact rfl
  | maxlOpt _ _ _ h => cases h <;> exact rfl
  | maxlVal _ _ _ _ h => cases h <;> exact rfl
  | maxlEol _ _ _ _ _ h => cases h <;> exact rfl
  | methodEnd s hs _ h => rcases hs with e | e | e | e | e <;> subst e <;> cases h <;> exact rfl
  | ignFile _ h => cases h <;> exact rfl
  | ignStr s _ h => cases h <;> exact rfl
  | _ => exact rfl

/-- What the run of the parser from the grammar gives, with the phase set to `q` as the generated parser has none. -/
def dropPhase (q : Phase) (r : Nat × Res CState) : Nat × Res CState := (r.1, r.2.bind fun c => .ok { c with phase := q })

theorem run_same (file : Bytes) (q : Phase) (items : List LexItem) (st : CState) (l : List (Nat × YVal)) (v : YVal)
    (h : Stk st.phase l) : yyRun file items ⟨l, v, { st with phase := q }⟩ = dropPhase q (cfRun file items st) := by
  induction items generalizing st l v with
  | nil =>
    simp only [yyRun, cfRun, dropPhase, end_same file q st l v h]
    by_cases hp : st.phase = .top
    · simp only [hp, if_true]; rfl
    · simp only [hp, if_false]; rfl
  | cons i rest ih =>
    cases i with
    | ub u => rfl
    | tok t un =>
      have hs := step_same file q st l v h t
      simp only [yyRun, cfRun]
      cases hc : cfStep file st t with
      | ok st' =>
        rw [hc] at hs
        obtain ⟨l', v', hy, hk⟩ := hs
        simp only [hy, ih st' l' v' hk]
        rfl
      | exit n => rw [hc] at hs; rw [show _ = _ from hs]; rfl
      | ub u => rw [hc] at hs; rw [show _ = _ from hs]; rfl
      | stuck => rw [hc] at hs; rw [show _ = _ from hs]; rfl

theorem yyParse_eq (file : Bytes) (items : List LexItem) (vars : CState) (h : vars.phase = .top) :
    yyParse file items vars = dropPhase .top (cfRun file items vars) := by
  have e : yySteps file 20 { stack := [(0, .junk)], lval := .junk, vars := vars } none =
      .ok (.token ⟨[(1, .junk), (0, .junk)], .junk, vars⟩) := rfl
  unfold yyParse
  rw [e]
  obtain ⟨p, nm, fs, qs, ig⟩ := vars
  simp only at h
  subst h
  exact run_same file .top items ⟨.top, nm, fs, qs, ig⟩ _ _ (.top ..)

theorem cfRun_phase (file : Bytes) (items : List LexItem) (st : CState) (c : CState) (h : (cfRun file items st).2 = .ok c) :
    c.phase = .top := by
  induction items generalizing st with
  | nil =>
    simp only [cfRun] at h
    by_cases hp : st.phase = .top
    · rw [if_pos hp] at h; cases h; exact hp
    · rw [if_neg hp] at h; cases h
  | cons i rest ih =>
    cases i with
    | ub u => cases h
    | tok t un =>
      simp only [cfRun] at h
      cases hc : cfStep file st t with
      | ok st' => rw [hc] at h; exact ih st' h
      | exit n => rw [hc] at h; cases h
      | ub u => rw [hc] at h; cases h
      | stuck => rw [hc] at h; cases h

/-- The two parsers agree. -/
theorem yyParse_cfRun (file : Bytes) (items : List LexItem) (vars : CState) (h : vars.phase = .top) :
    yyParse file items vars = cfRun file items vars := by
  rw [yyParse_eq file items vars h]
  have hp := cfRun_phase file items vars
  rcases hr : cfRun file items vars with ⟨n, r⟩
  rw [hr] at hp
  cases r with
  | ok c =>
    have := hp c rfl
    obtain ⟨p, nm, fs, qs, ig⟩ := c
    simp only at this
    subst this
    rfl
  | exit n => rfl
  | ub u => rfl
  | stuck => rfl

end Detox
