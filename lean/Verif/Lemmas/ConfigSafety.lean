import Verif.Lemmas.ConfigMeaning

/-!
# When reading a config file is undefined
-/

set_option autoImplicit false

namespace Detox
open Spec

theorem lexStep_suffix (c : Byte) (s : Bytes) : (lexStep c s).2 <:+ s := by
  unfold lexStep
  repeat' split
  all_goals first
    | exact List.dropWhile_suffix _
    | exact List.suffix_rfl
    | skip
  next h => exact (List.suffix_cons _ _).trans (h ▸ List.dropWhile_suffix _)

/-- A number in the text that no `int` can hold. -/
def BigNumber (s : Bytes) : Prop := ∃ d, d <:+: s ∧ (∀ c ∈ d, isDigitByte c = true) ∧ 2147483647 < decimal d

theorem takeWhile_all {p : Byte → Bool} {s : Bytes} : ∀ c ∈ s.takeWhile p, p c = true := by
  induction s with
  | nil => simp
  | cons x s ih =>
    intro c hc
    rw [List.takeWhile_cons] at hc
    split at hc
    · rcases List.mem_cons.mp hc with rfl | hc
      · assumption
      · exact ih c hc
    · simp at hc

theorem lexStep_ub {c : Byte} {s : Bytes} {u : UB} (h : (lexStep c s).1 = some (.ub u)) :
    (u = .oobRead ∧ (0 : Byte) ∈ s) ∨ (u = .atoiRange ∧ BigNumber (c :: s)) := by
  unfold lexStep at h
  repeat' split at h
  all_goals try (cases h; done)
  · next d rest hd =>
    left
    simp only [Option.some.injEq, quotedItem] at h
    split at h
    · next hz =>
      cases h
      refine ⟨rfl, ?_⟩
      have := List.contains_iff_mem.mp hz
      exact (List.takeWhile_prefix _).subset this
    · split at h <;> cases h
  · next hc =>
    right
    simp only [Option.some.injEq, numberItem] at h
    split at h
    · cases h
    · next hbig =>
      cases h
      refine ⟨rfl, c :: s.takeWhile isDigitByte, ?_, ?_, ?_⟩
      · exact (List.prefix_cons_inj c |>.mpr (List.takeWhile_prefix _)).isInfix
      · intro x hx
        rcases List.mem_cons.mp hx with rfl | hx
        · exact hc
        · exact takeWhile_all x hx
      · unfold intMax at hbig
        omega

theorem lexAll_ub : ∀ (n : Nat) (s : Bytes) (u : UB), .ub u ∈ lexAll n s →
    (u = .oobRead ∧ (0 : Byte) ∈ s) ∨ (u = .atoiRange ∧ BigNumber s)
  | 0, [], u, h => by simp [lexAll] at h
  | 0, _ :: _, u, h => by simp [lexAll] at h
  | n + 1, [], u, h => by simp [lexAll] at h
  | n + 1, c :: s, u, h => by
    have hsuf := lexStep_suffix c s
    have lift : ((u = .oobRead ∧ (0 : Byte) ∈ (lexStep c s).2) ∨ (u = .atoiRange ∧ BigNumber (lexStep c s).2)) →
        (u = .oobRead ∧ (0 : Byte) ∈ c :: s) ∨ (u = .atoiRange ∧ BigNumber (c :: s)) := by
      rintro (⟨h1, h2⟩ | ⟨h1, d, h2, h3, h4⟩)
      · exact .inl ⟨h1, List.mem_cons_of_mem _ (hsuf.subset h2)⟩
      · exact .inr ⟨h1, d, (h2.trans hsuf.isInfix).trans (List.suffix_cons c s).isInfix, h3, h4⟩
    simp only [lexAll] at h
    cases hi : (lexStep c s).1 with
    | none =>
      rw [hi] at h
      exact lift (lexAll_ub n _ u h)
    | some i =>
      rw [hi] at h
      rcases List.mem_cons.mp h with h | h
      · rcases lexStep_ub (by rw [hi, ← h]) with ⟨h1, h2⟩ | h1
        · exact .inl ⟨h1, List.mem_cons_of_mem _ h2⟩
        · exact .inr h1
      · exact lift (lexAll_ub n _ u h)

/-- The ways parsing can end. -/
theorem cfRun_cases (file : Bytes) : ∀ (items : List LexItem) (st : CState) (ws : List Bytes), st.ignore.Holds ws 0 →
    (∃ st', (cfRun file items st).2 = .ok st') ∨ (cfRun file items st).2 = .exit 1 ∨
      ∃ u, .ub u ∈ items ∧ (cfRun file items st).2 = .ub u
  | [], st, ws, _ => by
    simp only [cfRun]
    split
    · exact .inl ⟨_, rfl⟩
    · exact .inr (.inl rfl)
  | .ub u :: rest, st, ws, _ => .inr (.inr ⟨u, by simp, rfl⟩)
  | .tok t un :: rest, st, ws, h => by
    simp only [cfRun]
    rcases cfStep_cases file st t h with ⟨st', ws', h1, h2⟩ | h1
    · rw [h1]
      rcases cfRun_cases file rest st' ws' h2 with h3 | h3 | ⟨u, h3, h4⟩
      · exact .inl h3
      · exact .inr (.inl h3)
      · exact .inr (.inr ⟨u, List.mem_cons_of_mem _ h3, h4⟩)
    · rw [h1]
      exact .inr (.inl rfl)

theorem parseConfigText_cases (file text : Bytes) {previous : Option ConfigFile} {ds : List Sequence} {ws : List Bytes}
    (hl : Loaded previous ds ws) : (∃ c, (parseConfigText file text previous).2 = .ok c) ∨
      (parseConfigText file text previous).2 = .exit 1 ∨
      ((parseConfigText file text previous).2 = .ub .oobRead ∧ (0 : Byte) ∈ text) ∨
      ((parseConfigText file text previous).2 = .ub .atoiRange ∧ BigNumber text) := by
  obtain ⟨_, h2⟩ := start_holds hl
  unfold parseConfigText
  rcases cfRun_cases file (lex text) {
        sequences := (previous.getD configFileInit).sequences,
        ignore := startIgnore (previous.getD configFileInit) } ws h2 with ⟨st', h3⟩ | h3 | ⟨u, h3, h4⟩
  · simp only [h3]
    exact .inl ⟨_, rfl⟩
  · simp only [h3]
    exact .inr (.inl rfl)
  · simp only [h4]
    rcases lexAll_ub _ _ _ h3 with ⟨rfl, h5⟩ | ⟨rfl, h5⟩
    · exact .inr (.inr (.inl ⟨rfl, h5⟩))
    · exact .inr (.inr (.inr ⟨rfl, h5⟩))

/-! ### Any text that is accepted -/

/-- The tokens scanned. -/
def scanned : List LexItem → List Tok
  | [] => []
  | .tok t _ :: rest => t :: scanned rest
  | .ub _ :: rest => scanned rest

theorem cfRun_accepted (file : Bytes) : ∀ (items : List LexItem) (st st' : CState), (cfRun file items st).2 = .ok st' →
    cfToks file (scanned items) st = .ok st' ∧ st'.phase = .top
  | [], st, st', h => by
    simp only [cfRun] at h
    split at h
    · cases h; exact ⟨rfl, by assumption⟩
    · cases h
  | .ub u :: rest, st, st', h => by cases h
  | .tok t un :: rest, st, st', h => by
    simp only [cfRun] at h
    simp only [scanned, cfToks]
    cases hs : cfStep file st t with
    | ok s1 =>
      rw [hs] at h
      exact cfRun_accepted file rest s1 st' h
    | exit n => rw [hs] at h; cases h
    | ub u => rw [hs] at h; cases h
    | stuck => rw [hs] at h; cases h

/-- Whatever is accepted has the meaning of some list of rules. -/
theorem parse_accepted {file text : Bytes} {previous : Option ConfigFile} {ds : List Sequence} {ws : List Bytes} {c : ConfigFile}
    (hl : Loaded previous ds ws) (h : (parseConfigText file text previous).2 = .ok c) :
    ∃ rs, ConfigG (scanned (lex text)) rs ∧ Loaded (some c) (ds ++ definitions file rs) (ws ++ ignored rs) := by
  obtain ⟨h1, h2⟩ := start_holds hl
  unfold parseConfigText at h
  simp only at h
  generalize hst : ({
        sequences := (previous.getD configFileInit).sequences,
        ignore := startIgnore (previous.getD configFileInit) } : CState) = st at h
  cases hr : (cfRun file (lex text) st).2 with
  | ok st' =>
    rw [hr] at h
    cases h
    obtain ⟨h3, h4⟩ := cfRun_accepted file _ _ _ hr
    obtain ⟨rs, h5, h6, h7⟩ := accepted_config (by rw [← hst]) (by rw [← hst]) h3 h4
    refine ⟨rs, h5, ?_, _, rfl, ?_⟩
    · rw [h6, ← hst]
      simp only [h1]
      exact replaceAll_inEffect ds _
    · obtain ⟨l, h8, h9⟩ := putMany_holds h2 (ignored rs)
      rw [← hst] at h7
      simp only at h7
      rw [h8] at h7
      cases h7
      exact h9
  | exit n => rw [hr] at h; cases h
  | ub u => rw [hr] at h; cases h
  | stuck => rw [hr] at h; cases h

end Detox
