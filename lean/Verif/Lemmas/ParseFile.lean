import Verif.Lemmas.FileRun

/-!
# `parse_file`, step by step
-/

set_option autoImplicit false

namespace Detox

/-- The name `parse_file` wants to give to a file: `none` when it leaves it alone without asking the system. -/
def wantedName (P : Platform) (o : Options) (f : Bytes) : Res (Option Bytes) := do
  let r ← sequenceRunFilters P o.sequenceToUse (if isProtected (basePart f) then none else some (basePart f))
  match r with
  | none => pure none
  | some w => if basePart f = w then pure none else pure (some (dirPart f ++ w))

theorem parseFile_eq (P : Platform) (o : Options) (f : Bytes) :
    parseFile P o f = (Prog.ofRes (wantedName P o f)).bind fun w =>
      match w with
      | none => .ret f
      | some new => checkAndRename o f new := by
  unfold parseFile wantedName
  cases h : sequenceRunFilters P o.sequenceToUse (if isProtected (basePart f) then none else some (basePart f)) with
  | ok r =>
    cases r with
    | none => simp [h, Prog.ofRes, Prog.bind]
    | some w =>
      simp only [h, Prog.ofRes, Prog.bind, Res.bind_ok]
      split <;> rfl
  | exit n => simp [h, Prog.ofRes, Prog.bind]
  | ub u => simp [h, Prog.ofRes, Prog.bind]
  | stuck => simp [h, Prog.ofRes, Prog.bind]

theorem wantedName_some {P : Platform} {o : Options} {f new : Bytes} (h : wantedName P o f = .ok (some new)) :
    ∃ w, sequenceRunFilters P o.sequenceToUse (some (basePart f)) = .ok (some w) ∧ w ≠ basePart f ∧
      new = dirPart f ++ w ∧ isProtected (basePart f) = false := by
  unfold wantedName at h
  cases hp : isProtected (basePart f) with
  | true =>
    simp only [hp, if_true] at h
    cases hs : o.sequenceToUse with
    | none => rw [hs] at h; simp [sequenceRunFilters] at h
    | some q => rw [hs] at h; simp [sequenceRunFilters] at h
  | false =>
    simp only [hp] at h
    cases hr : sequenceRunFilters P o.sequenceToUse (some (basePart f)) with
    | ok r =>
      simp only [Bool.false_eq_true, if_false, hr, Res.bind_ok] at h
      cases r with
      | none => cases h
      | some w =>
        dsimp only at h
        split at h
        · cases h
        · next hne =>
          cases h
          exact ⟨w, rfl, fun e => hne e.symm, rfl, rfl⟩
    | exit n => simp [hr] at h
    | ub u => simp [hr] at h
    | stuck => simp [hr] at h

theorem parseFile_wp {Ok : List Event → Event → Prop} {Q : Bytes → List Event → Prop} {P : Platform} {o : Options}
    {f : Bytes} {h : List Event} (h0 : wantedName P o f = .ok none → Q f h)
    (h1 : ∀ new, wantedName P o f = .ok (some new) → (checkAndRename o f new).wp Ok Q h) :
    (parseFile P o f).wp Ok Q h := by
  rw [parseFile_eq]
  refine Prog.wp_ofRes _ _ _ ?_
  intro w hw
  cases w with
  | none => exact h0 hw
  | some new => exact h1 new hw

theorem isProtected_iff (n : Bytes) : isProtected n = true ↔ n = [0x2E] ∨ n = [0x2E, 0x2E] := by
  unfold isProtected; simp

theorem isTaken_false_iff (so : Stat) (r : Option Stat) :
    isTaken so r = false ↔ ∀ sn, r = some sn → sn.dev = so.dev ∧ sn.ino = so.ino ∧ so.nlink ≤ 1 := by
  cases r with
  | none => simp [isTaken]
  | some n =>
    simp only [isTaken, Bool.or_eq_false_iff, decide_eq_false_iff_not, Option.some.injEq, forall_eq', ne_eq, Decidable.not_not]
    constructor
    · rintro ⟨⟨a, b⟩, c⟩; exact ⟨a.symm, b.symm, by omega⟩
    · rintro ⟨a, b, c⟩; exact ⟨⟨a.symm, b.symm⟩, by omega⟩

/-- All events of `checkAndRename`. -/
theorem checkAndRename_wp {Ok : List Event → Event → Prop} {Q : Bytes → List Event → Prop} {o : Options}
    {old new : Bytes} {h : List Event}
    (e1 : ∀ r, Ok h (.lstat old r)) (q1 : Q old (.lstat old none :: h))
    (e2 : ∀ so r, Ok (.lstat old (some so) :: h) (.lstat new r))
    (e3 : ∀ so r s, isTaken so r = true → Ok (.lstat new r :: .lstat old (some so) :: h) (.err s))
    (q3 : ∀ so r s, isTaken so r = true → Q old (.err s :: .lstat new r :: .lstat old (some so) :: h))
    (e4 : ∀ so r, isTaken so r = false → (o.verbose ≠ 0 ∨ o.dryRun = true) →
      Ok (.lstat new r :: .lstat old (some so) :: h) (.out (old ++ lit " -> " ++ new ++ [0x0A])))
    (q4 : ∀ so r, isTaken so r = false → o.dryRun = true →
      Q old (.out (old ++ lit " -> " ++ new ++ [0x0A]) :: .lstat new r :: .lstat old (some so) :: h))
    (e5 : ∀ so r outs ok, isTaken so r = false → o.dryRun = false →
      outs = (if o.verbose ≠ 0 then [Event.out (old ++ lit " -> " ++ new ++ [0x0A])] else []) →
      Ok (outs ++ .lstat new r :: .lstat old (some so) :: h) (.rename old new ok))
    (q5 : ∀ so r outs, isTaken so r = false → o.dryRun = false →
      outs = (if o.verbose ≠ 0 then [Event.out (old ++ lit " -> " ++ new ++ [0x0A])] else []) →
      Q new (.rename old new true :: (outs ++ .lstat new r :: .lstat old (some so) :: h)))
    (e6 : ∀ t s, Ok (.rename old new false :: t) (.err s))
    (q6 : ∀ so r outs s, isTaken so r = false → o.dryRun = false →
      outs = (if o.verbose ≠ 0 then [Event.out (old ++ lit " -> " ++ new ++ [0x0A])] else []) →
      Q old (.err s :: .rename old new false :: (outs ++ .lstat new r :: .lstat old (some so) :: h))) :
    (checkAndRename o old new).wp Ok Q h := by
  intro r
  refine ⟨e1 r, ?_⟩
  cases r with
  | none => exact q1
  | some so =>
    intro rn
    refine ⟨e2 so rn, ?_⟩
    dsimp only
    cases ht : isTaken so rn with
    | true => exact ⟨e3 _ _ _ ht, q3 _ _ _ ht⟩
    | false =>
      simp only [Bool.false_eq_true, if_false]
      unfold announceAndRename
      have ren : ∀ outs, o.dryRun = false →
          outs = (if o.verbose ≠ 0 then [Event.out (old ++ lit " -> " ++ new ++ [0x0A])] else []) →
          (doRename old new).wp Ok Q (outs ++ .lstat new rn :: .lstat old (some so) :: h) := by
        intro outs hd ho ok
        refine ⟨e5 so rn outs ok ht hd ho, ?_⟩
        cases ok with
        | true => exact q5 so rn outs ht hd ho
        | false => exact ⟨e6 _ _, q6 _ _ _ _ ht hd ho⟩
      cases hd : o.dryRun with
      | true =>
        simp only [Bool.or_true, if_true]
        exact ⟨e4 so rn ht (Or.inr hd), q4 so rn ht hd⟩
      | false =>
        simp only [Bool.or_false, Bool.false_eq_true, if_false]
        by_cases hv : o.verbose ≠ 0
        · rw [if_pos (by simpa using hv)]
          refine ⟨e4 so rn ht (Or.inl hv), ?_⟩
          exact ren [_] hd (by rw [if_pos hv])
        · rw [if_neg (by simpa using hv)]
          exact ren [] hd (by rw [if_neg hv])

end Detox
