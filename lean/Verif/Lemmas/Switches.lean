import Verif.Spec.Switches
import Verif.Props.Options
import Verif.Lemmas.Main

/-!
# Programs that differ in what they print
-/

set_option autoImplicit false

namespace Detox
open Spec

/-- The second program is the first less some prints of texts in `S`, as long as `lstat` answers as `A` says. -/
inductive Varies (S : Bytes → Prop) (A : Option Stat → Prop) {α : Type} : Prog α → Prog α → Prop
  | ret (a : α) : Varies S A (.ret a) (.ret a)
  | exit (n : Nat) : Varies S A (.exit n) (.exit n)
  | ub (u : UB) : Varies S A (.ub u) (.ub u)
  | stuck : Varies S A .stuck .stuck
  | lstat (p : Bytes) (k k' : Option Stat → Prog α) : (∀ r, A r → Varies S A (k r) (k' r)) → Varies S A (.lstat p k) (.lstat p k')
  | rename (o n : Bytes) (k k' : Bool → Prog α) : (∀ r, Varies S A (k r) (k' r)) → Varies S A (.rename o n k) (.rename o n k')
  | opendir (p : Bytes) (k k' : OpenRes → Prog α) : (∀ r, Varies S A (k r) (k' r)) → Varies S A (.opendir p k) (.opendir p k')
  | readdir (h : Nat) (k k' : Option Bytes → Prog α) : (∀ r, Varies S A (k r) (k' r)) → Varies S A (.readdir h k) (.readdir h k')
  | closedir (h : Nat) (k k' : Prog α) : Varies S A k k' → Varies S A (.closedir h k) (.closedir h k')
  | slurp (p : Option Bytes) (k k' : Option Bytes → Prog α) : (∀ r, Varies S A (k r) (k' r)) → Varies S A (.slurp p k) (.slurp p k')
  | out (s : Bytes) (k k' : Prog α) : Varies S A k k' → Varies S A (.out s k) (.out s k')
  | err (s : Bytes) (k k' : Prog α) : Varies S A k k' → Varies S A (.err s k) (.err s k')
  | more (s : Bytes) (k k' : Prog α) : S s → Varies S A k k' → Varies S A (.out s k) k'

theorem Varies.refl {S : Bytes → Prop} {A : Option Stat → Prop} {α : Type} : ∀ p : Prog α, Varies S A p p
  | .ret a => .ret a
  | .exit n => .exit n
  | .ub u => .ub u
  | .stuck => .stuck
  | .lstat p k => .lstat p k k fun r _ => Varies.refl (k r)
  | .rename o n k => .rename o n k k fun r => Varies.refl (k r)
  | .opendir p k => .opendir p k k fun r => Varies.refl (k r)
  | .readdir h k => .readdir h k k fun r => Varies.refl (k r)
  | .closedir h k => .closedir h k k (Varies.refl k)
  | .slurp p k => .slurp p k k fun r => Varies.refl (k r)
  | .out s k => .out s k k (Varies.refl k)
  | .err s k => .err s k k (Varies.refl k)

theorem Varies.bind {S : Bytes → Prop} {A : Option Stat → Prop} {α β : Type} {p q : Prog α} {f g : α → Prog β} (h : Varies S A p q)
    (hf : ∀ a, Varies S A (f a) (g a)) : Varies S A (p.bind f) (q.bind g) := by
  induction h with
  | ret a => exact hf a
  | exit n => exact .exit n
  | ub u => exact .ub u
  | stuck => exact .stuck
  | lstat p k k' _ ih => exact .lstat p _ _ ih
  | rename o n k k' _ ih => exact .rename o n _ _ ih
  | opendir p k k' _ ih => exact .opendir p _ _ ih
  | readdir h k k' _ ih => exact .readdir h _ _ ih
  | closedir h k k' _ ih => exact .closedir h _ _ ih
  | slurp p k k' _ ih => exact .slurp p _ _ ih
  | out s k k' _ ih => exact .out s _ _ ih
  | err s k k' _ ih => exact .err s _ _ ih
  | more s k k' hs _ ih => exact .more s _ _ hs ih

/-- The answers of `lstat` in an execution are as `A` says. -/
def Answers (A : Option Stat → Prop) (tr : List Event) : Prop := ∀ p r, Event.lstat p r ∈ tr → A r

theorem Answers.tail {A : Option Stat → Prop} {e : Event} {tr : List Event} (h : Answers A (e :: tr)) : Answers A tr :=
  fun p r hr => h p r (by simp [hr])

theorem Varies.less {S : Bytes → Prop} {A : Option Stat → Prop} {α : Type} {p q : Prog α} (h : Varies S A p q) :
    ∀ {tr : List Event} {o : Outcome α}, Trace p tr o → Answers A tr → ∃ tr', Less S tr tr' ∧ Trace q tr' o := by
  induction h with
  | ret a => intro tr o ht _; cases ht <;> exact ⟨[], .nil, by constructor⟩
  | exit n => intro tr o ht _; cases ht <;> exact ⟨[], .nil, by constructor⟩
  | ub u => intro tr o ht _; cases ht <;> exact ⟨[], .nil, by constructor⟩
  | stuck => intro tr o ht _; cases ht <;> exact ⟨[], .nil, by constructor⟩
  | lstat p k k' _ ih =>
    intro tr o ht ha
    cases ht with
    | stop => exact ⟨[], .nil, .stop _⟩
    | lstat _ _ r tr _ ht =>
      obtain ⟨tr', h1, h2⟩ := ih r (ha p r (by simp)) ht ha.tail
      exact ⟨_, .keep _ _ _ h1, .lstat _ _ _ _ _ h2⟩
  | rename a b k k' _ ih =>
    intro tr o ht ha
    cases ht with
    | stop => exact ⟨[], .nil, .stop _⟩
    | rename _ _ _ r tr _ ht =>
      obtain ⟨tr', h1, h2⟩ := ih r ht ha.tail
      exact ⟨_, .keep _ _ _ h1, .rename _ _ _ _ _ _ h2⟩
  | opendir p k k' _ ih =>
    intro tr o ht ha
    cases ht with
    | stop => exact ⟨[], .nil, .stop _⟩
    | opendir _ _ r tr _ ht =>
      obtain ⟨tr', h1, h2⟩ := ih r ht ha.tail
      exact ⟨_, .keep _ _ _ h1, .opendir _ _ _ _ _ h2⟩
  | readdir p k k' _ ih =>
    intro tr o ht ha
    cases ht with
    | stop => exact ⟨[], .nil, .stop _⟩
    | readdir _ _ r tr _ ht =>
      obtain ⟨tr', h1, h2⟩ := ih r ht ha.tail
      exact ⟨_, .keep _ _ _ h1, .readdir _ _ _ _ _ h2⟩
  | closedir p k k' _ ih =>
    intro tr o ht ha
    cases ht with
    | stop => exact ⟨[], .nil, .stop _⟩
    | closedir _ _ tr _ ht =>
      obtain ⟨tr', h1, h2⟩ := ih ht ha.tail
      exact ⟨_, .keep _ _ _ h1, .closedir _ _ _ _ h2⟩
  | slurp p k k' _ ih =>
    intro tr o ht ha
    cases ht with
    | stop => exact ⟨[], .nil, .stop _⟩
    | slurp _ _ r tr _ ht =>
      obtain ⟨tr', h1, h2⟩ := ih r ht ha.tail
      exact ⟨_, .keep _ _ _ h1, .slurp _ _ _ _ _ h2⟩
  | out s k k' _ ih =>
    intro tr o ht ha
    cases ht with
    | stop => exact ⟨[], .nil, .stop _⟩
    | out _ _ tr _ ht =>
      obtain ⟨tr', h1, h2⟩ := ih ht ha.tail
      exact ⟨_, .keep _ _ _ h1, .out _ _ _ _ h2⟩
  | err s k k' _ ih =>
    intro tr o ht ha
    cases ht with
    | stop => exact ⟨[], .nil, .stop _⟩
    | err _ _ tr _ ht =>
      obtain ⟨tr', h1, h2⟩ := ih ht ha.tail
      exact ⟨_, .keep _ _ _ h1, .err _ _ _ _ h2⟩
  | more s k k' hs _ ih =>
    intro tr o ht ha
    cases ht with
    | stop => exact ⟨[], .nil, .stop _⟩
    | out _ _ tr _ ht =>
      obtain ⟨tr', h1, h2⟩ := ih ht ha.tail
      exact ⟨_, .drop _ _ _ hs h1, h2⟩

theorem Varies.add {S : Bytes → Prop} {A : Option Stat → Prop} {α : Type} {p q : Prog α} (h : Varies S A p q) :
    ∀ {tr' : List Event} {o : Outcome α}, Trace q tr' o → Answers A tr' → ∃ tr, Less S tr tr' ∧ Trace p tr o := by
  induction h with
  | ret a => intro tr o ht _; cases ht <;> exact ⟨[], .nil, by constructor⟩
  | exit n => intro tr o ht _; cases ht <;> exact ⟨[], .nil, by constructor⟩
  | ub u => intro tr o ht _; cases ht <;> exact ⟨[], .nil, by constructor⟩
  | stuck => intro tr o ht _; cases ht <;> exact ⟨[], .nil, by constructor⟩
  | lstat p k k' _ ih =>
    intro tr o ht ha
    cases ht with
    | stop => exact ⟨[], .nil, .stop _⟩
    | lstat _ _ r tr _ ht =>
      obtain ⟨tr', h1, h2⟩ := ih r (ha p r (by simp)) ht ha.tail
      exact ⟨_, .keep _ _ _ h1, .lstat _ _ _ _ _ h2⟩
  | rename a b k k' _ ih =>
    intro tr o ht ha
    cases ht with
    | stop => exact ⟨[], .nil, .stop _⟩
    | rename _ _ _ r tr _ ht =>
      obtain ⟨tr', h1, h2⟩ := ih r ht ha.tail
      exact ⟨_, .keep _ _ _ h1, .rename _ _ _ _ _ _ h2⟩
  | opendir p k k' _ ih =>
    intro tr o ht ha
    cases ht with
    | stop => exact ⟨[], .nil, .stop _⟩
    | opendir _ _ r tr _ ht =>
      obtain ⟨tr', h1, h2⟩ := ih r ht ha.tail
      exact ⟨_, .keep _ _ _ h1, .opendir _ _ _ _ _ h2⟩
  | readdir p k k' _ ih =>
    intro tr o ht ha
    cases ht with
    | stop => exact ⟨[], .nil, .stop _⟩
    | readdir _ _ r tr _ ht =>
      obtain ⟨tr', h1, h2⟩ := ih r ht ha.tail
      exact ⟨_, .keep _ _ _ h1, .readdir _ _ _ _ _ h2⟩
  | closedir p k k' _ ih =>
    intro tr o ht ha
    cases ht with
    | stop => exact ⟨[], .nil, .stop _⟩
    | closedir _ _ tr _ ht =>
      obtain ⟨tr', h1, h2⟩ := ih ht ha.tail
      exact ⟨_, .keep _ _ _ h1, .closedir _ _ _ _ h2⟩
  | slurp p k k' _ ih =>
    intro tr o ht ha
    cases ht with
    | stop => exact ⟨[], .nil, .stop _⟩
    | slurp _ _ r tr _ ht =>
      obtain ⟨tr', h1, h2⟩ := ih r ht ha.tail
      exact ⟨_, .keep _ _ _ h1, .slurp _ _ _ _ _ h2⟩
  | out s k k' _ ih =>
    intro tr o ht ha
    cases ht with
    | stop => exact ⟨[], .nil, .stop _⟩
    | out _ _ tr _ ht =>
      obtain ⟨tr', h1, h2⟩ := ih ht ha.tail
      exact ⟨_, .keep _ _ _ h1, .out _ _ _ _ h2⟩
  | err s k k' _ ih =>
    intro tr o ht ha
    cases ht with
    | stop => exact ⟨[], .nil, .stop _⟩
    | err _ _ tr _ ht =>
      obtain ⟨tr', h1, h2⟩ := ih ht ha.tail
      exact ⟨_, .keep _ _ _ h1, .err _ _ _ _ h2⟩
  | more s k k' hs _ ih =>
    intro tr o ht ha
    obtain ⟨tr', h1, h2⟩ := ih ht ha
    exact ⟨_, .drop _ _ _ hs h1, .out _ _ _ _ h2⟩

theorem Less.eq {S : Bytes → Prop} (hS : ∀ s, ¬ S s) {tr tr' : List Event} (h : Less S tr tr') : tr = tr' := by
  induction h with
  | nil => rfl
  | keep _ _ _ _ ih => rw [ih]
  | drop s _ _ hs => exact absurd hs (hS s)

/-! ### The work -/

/-- Options that differ in what they let be printed, or in what they say about special files. -/
structure Kin (S : Bytes → Prop) (A : Option Stat → Prop) (o o' : Options) : Prop where
  dry : o.dryRun = o'.dryRun
  recurse : o.recurse = o'.recurse
  sequence : o.sequenceToUse = o'.sequenceToUse
  verbose : (o.verbose = 0 ↔ o'.verbose = 0) ∨
    (o'.verbose = 0 ∧ (∀ f, S (lit "Scanning: " ++ f ++ [0x0A])) ∧ (o.dryRun = false → ∀ a b, S (a ++ lit " -> " ++ b ++ [0x0A])))
  special : o.special = o'.special ∨ ∀ r, A r → Ordinary r

section
variable {S : Bytes → Prop} {A : Option Stat → Prop} {o o' : Options} {P : Platform}

theorem announce_varies (h : Kin S A o o') (a b : Bytes) : Varies S A (announceAndRename o a b) (announceAndRename o' a b) := by
  unfold announceAndRename
  rw [← h.dry]
  cases hd : o.dryRun with
  | true =>
    simp only [Bool.or_true, if_true]
    exact Varies.refl _
  | false =>
    simp only [Bool.or_false, Bool.false_eq_true, if_false, decide_eq_true_eq]
    rcases h.verbose with hv | ⟨hv, _, hS⟩
    · by_cases h0 : o.verbose = 0
      · rw [if_neg (by simp [h0]), if_neg (by simp [hv.1 h0])]
        exact Varies.refl _
      · rw [if_pos (by simp [h0]), if_pos (by simp [mt hv.2 h0])]
        exact Varies.refl _
    · rw [if_neg (c := o'.verbose ≠ 0) (by simp [hv])]
      split
      · exact .more _ _ _ (hS hd a b) (Varies.refl _)
      · exact Varies.refl _

theorem parseFile_varies (h : Kin S A o o') (f : Bytes) : Varies S A (parseFile P o f) (parseFile P o' f) := by
  unfold parseFile
  rw [← h.sequence]
  refine (Varies.refl _).bind fun hold => ?_
  cases hold with
  | none => exact Varies.refl _
  | some w =>
    dsimp only
    split
    · exact Varies.refl _
    · unfold checkAndRename
      refine .lstat _ _ _ fun r _ => ?_
      cases r with
      | none => exact Varies.refl _
      | some so =>
        refine .lstat _ _ _ fun rn _ => ?_
        split
        · exact Varies.refl _
        · exact announce_varies h _ _

/-- With an answer of the right kind it does not matter what is said about special files. -/
theorem Kin.which (h : Kin S A o o') {r : Option Stat} (hr : A r) {st : Stat} (e : r = some st) (hk : st.kind ≠ .dir) :
    (st.kind = .reg ∨ o.special = true) ↔ (st.kind = .reg ∨ o'.special = true) := by
  rcases h.special with hs | hs
  · rw [hs]
  · rcases hs r hr st e with hk' | hk'
    · simp [hk']
    · exact absurd hk' hk

theorem dirLoop_varies (h : Kin S A o o') {recDir recDir' : Option Filelist → Bytes → Prog (Option Filelist)}
    (hrec : ∀ i f, Varies S A (recDir i f) (recDir' i f)) (d : Nat) (filename : Bytes) :
    ∀ (m : Nat) (st : Stat) (ign : Option Filelist), (∃ r, A r ∧ r = some st) →
      Varies S A (dirLoop P o recDir d filename m st ign) (dirLoop P o' recDir' d filename m st ign) := by
  intro m
  induction m with
  | zero => intros; exact .stuck
  | succ m ih =>
    intro st ign hst
    unfold dirLoop
    refine .readdir _ _ _ fun e => ?_
    cases e with
    | none => exact Varies.refl _
    | some name =>
      refine (Varies.refl _).bind fun p => ?_
      dsimp only
      split
      · exact ih _ _ hst
      · refine .lstat _ _ _ fun r hr => ?_
        have hst' : ∃ r', A r' ∧ r' = some (r.getD st) := by
          cases r with
          | none => exact hst
          | some s => exact ⟨_, hr, rfl⟩
        generalize r.getD st = st' at hst' ⊢
        obtain ⟨r', hA, e'⟩ := hst'
        by_cases hk : st'.kind = .dir
        · rw [if_pos hk, if_pos hk]
          refine (parseFile_varies h _).bind fun work => ?_
          rw [← h.recurse]
          split
          · exact (hrec _ _).bind fun _ => ih _ _ ⟨r', hA, e'⟩
          · exact ih _ _ ⟨r', hA, e'⟩
        · rw [if_neg hk, if_neg hk]
          have hw := h.which hA e' hk
          by_cases hx : st'.kind = .reg ∨ o.special = true
          · rw [if_pos (by simpa using hx), if_pos (by simpa using hw.1 hx)]
            exact (parseFile_varies h _).bind fun _ => ih _ _ ⟨r', hA, e'⟩
          · rw [if_neg (by simpa using hx), if_neg (by simpa using mt hw.2 hx)]
            exact ih _ _ ⟨r', hA, e'⟩

theorem parseDir_varies (h : Kin S A o o') : ∀ (n : Nat) (ign : Option Filelist) (f : Bytes), Varies S A (parseDir P o n ign f) (parseDir P o' n ign f)
  | 0, _, _ => .stuck
  | n + 1, ign, f => by
    unfold parseDir
    refine .lstat _ _ _ fun r hr => ?_
    cases r with
    | none => exact Varies.refl _
    | some st =>
      dsimp only
      split
      · exact Varies.refl _
      · refine .opendir _ _ _ fun d => ?_
        cases d with
        | ok d => exact dirLoop_varies h (fun i f => parseDir_varies h n i f) _ _ _ _ _ ⟨_, hr, rfl⟩
        | fail => exact Varies.refl _
        | emfile => exact Varies.refl _

theorem processArg_varies (h : Kin S A o o') (fuel : Nat) (ign : Option Filelist) (f : Bytes) :
    Varies S A (processArg P o fuel ign f) (processArg P o' fuel ign f) := by
  unfold processArg
  dsimp only
  have body : Varies S A
      (.lstat f fun r =>
        match r with
        | none => .err (f ++ lit ": ") (.ret ign)
        | some st =>
          if st.kind = .dir then
            (parseFile P o f).bind fun work => parseDir P o fuel ign work
          else if st.kind = .reg then (parseFile P o f).bind fun _ => .ret ign
          else if o.special then (parseFile P o f).bind fun _ => .ret ign
          else .ret ign)
      (.lstat f fun r =>
        match r with
        | none => .err (f ++ lit ": ") (.ret ign)
        | some st =>
          if st.kind = .dir then
            (parseFile P o' f).bind fun work => parseDir P o' fuel ign work
          else if st.kind = .reg then (parseFile P o' f).bind fun _ => .ret ign
          else if o'.special then (parseFile P o' f).bind fun _ => .ret ign
          else .ret ign) := by
    refine .lstat _ _ _ fun r hr => ?_
    cases r with
    | none => exact Varies.refl _
    | some st =>
      dsimp only
      by_cases hk : st.kind = .dir
      · rw [if_pos hk, if_pos hk]
        exact (parseFile_varies h _).bind fun _ => parseDir_varies h _ _ _
      · rw [if_neg hk, if_neg hk]
        have hw := h.which hr rfl hk
        by_cases hx : st.kind = .reg
        · rw [if_pos hx, if_pos hx]
          exact (parseFile_varies h _).bind fun _ => Varies.refl _
        · rw [if_neg hx, if_neg hx]
          by_cases hs : o.special = true
          · rw [if_pos hs, if_pos ((hw.1 (.inr hs)).resolve_left hx)]
            exact (parseFile_varies h _).bind fun _ => Varies.refl _
          · rw [if_neg hs, if_neg fun hs' => hs ((hw.2 (.inr hs')).resolve_left hx)]
            exact Varies.refl _
  rcases h.verbose with hv | ⟨hv, hS, _⟩
  · by_cases h0 : o.verbose = 0
    · rw [if_neg (c := o.verbose ≠ 0) (by simp [h0]), if_neg (c := o'.verbose ≠ 0) (by simp [hv.1 h0])]
      exact body
    · rw [if_pos (c := o.verbose ≠ 0) h0, if_pos (c := o'.verbose ≠ 0) (mt hv.2 h0)]
      exact .out _ _ _ body
  · rw [if_neg (c := o'.verbose ≠ 0) (by simp [hv])]
    split
    · exact .more _ _ _ (hS f) body
    · exact body

theorem fileLoop_varies (h : Kin S A o o') (fuel : Nat) : ∀ (n : Nat) (l : Filelist) (ign : Option Filelist),
    Varies S A (fileLoop P o fuel n l ign) (fileLoop P o' fuel n l ign)
  | 0, _, _ => .stuck
  | n + 1, l, ign => by
    unfold fileLoop
    refine (Varies.refl _).bind fun p => ?_
    cases p.2 with
    | none => exact Varies.refl _
    | some f => exact (processArg_varies h _ _ _).bind fun _ => fileLoop_varies h fuel n _ _

/-! ### In inline mode -/

theorem inlineLoop_same (hs : o.sequenceToUse = o'.sequenceToUse) : ∀ (n : Nat) (s : Bytes), inlineLoop P o n s = inlineLoop P o' n s
  | _, [] => by unfold inlineLoop; rfl
  | 0, _ :: _ => by unfold inlineLoop; rfl
  | n + 1, c :: s => by
    unfold inlineLoop printChunk
    rw [hs]
    simp only [inlineLoop_same hs n]

theorem parseInline_same (hs : o.sequenceToUse = o'.sequenceToUse) (f : Option Bytes) : parseInline P o f = parseInline P o' f := by
  unfold parseInline
  simp only [inlineLoop_same hs]

theorem inlineFileLoop_same (hs : o.sequenceToUse = o'.sequenceToUse) : ∀ (n : Nat) (l : Filelist), inlineFileLoop P o n l = inlineFileLoop P o' n l
  | 0, _ => by unfold inlineFileLoop; rfl
  | n + 1, l => by
    unfold inlineFileLoop inlineArg
    simp only [inlineFileLoop_same hs n, parseInline_same hs]

theorem inlineMain_same (hs : o.sequenceToUse = o'.sequenceToUse) (files : Option Filelist) : inlineMain P o files = inlineMain P o' files := by
  unfold inlineMain
  simp only [parseInline_same hs, inlineFileLoop_same hs]

end

/-! ### The program -/

section
variable {P : Platform} {I J : Invocation}

/-- The options before the operands. -/
theorem main_reads {ss : List Setting} {ws : List Bytes} (h : Spec.Reads I ss ws) (fuel : Nat) :
    detoxMain P I fuel = (withOperands (settled (startOptions I.program I.sequence) ss) ws).bind fun o => detoxConfigured P I o fuel := by
  unfold detoxMain
  rw [parseOptions_stay h.line h.stays]

end

end Detox
