import Verif.Spec.Leaks

/-!
# Counting what is lost changes nothing
-/

set_option autoImplicit false

namespace Detox

theorem Prog.bind_assoc {α β γ : Type} (p : Prog α) (f : α → Prog β) (g : β → Prog γ) : (p.bind f).bind g = p.bind fun a => (f a).bind g := by
  induction p with
  | ret a => rfl
  | exit n => rfl
  | ub u => rfl
  | stuck => rfl
  | lstat p k ih => simp only [Prog.bind, ih]
  | rename o n k ih => simp only [Prog.bind, ih]
  | opendir p k ih => simp only [Prog.bind, ih]
  | readdir p k ih => simp only [Prog.bind, ih]
  | closedir p k ih => simp only [Prog.bind, ih]
  | slurp p k ih => simp only [Prog.bind, ih]
  | out p k ih => simp only [Prog.bind, ih]
  | err p k ih => simp only [Prog.bind, ih]

theorem Prog.bind_ret {α : Type} (p : Prog α) : p.bind Prog.ret = p := by
  induction p with
  | ret a => rfl
  | exit n => rfl
  | ub u => rfl
  | stuck => rfl
  | lstat p k ih => simp only [Prog.bind, ih]
  | rename o n k ih => simp only [Prog.bind, ih]
  | opendir p k ih => simp only [Prog.bind, ih]
  | readdir p k ih => simp only [Prog.bind, ih]
  | closedir p k ih => simp only [Prog.bind, ih]
  | slurp p k ih => simp only [Prog.bind, ih]
  | out p k ih => simp only [Prog.bind, ih]
  | err p k ih => simp only [Prog.bind, ih]

open Spec

theorem dirLoopLost_fst {P : Platform} {o : Options} {recDir : Option Filelist → Bytes → Prog (Option Filelist × Nat)}
    {recDir' : Option Filelist → Bytes → Prog (Option Filelist)} (hr : ∀ ign w, ((recDir ign w).bind fun r => .ret r.1) = recDir' ign w)
    (h : Nat) (filename : Bytes) : ∀ (m : Nat) (st : Stat) (ign : Option Filelist) (k : Nat),
    ((dirLoopLost P o recDir h filename m st ign k).bind fun r => .ret r.1) = dirLoop P o recDir' h filename m st ign
  | 0, _, _, _ => rfl
  | m + 1, st, ign, k => by
    unfold dirLoopLost dirLoop
    simp only [Prog.bind]
    congr 1
    funext e
    cases e with
    | none => rfl
    | some name =>
      simp only
      rw [Prog.bind_assoc]
      congr 1
      funext p
      split
      · exact dirLoopLost_fst hr h filename m _ _ _
      · simp only [Prog.bind]
        congr 1
        funext r
        split
        · rw [Prog.bind_assoc]
          congr 1
          funext w
          split
          · rw [Prog.bind_assoc, ← hr, Prog.bind_assoc]
            congr 1
            funext r'
            exact dirLoopLost_fst hr h filename m _ _ _
          · exact dirLoopLost_fst hr h filename m _ _ _
        · split
          · rw [Prog.bind_assoc]
            congr 1
            funext w
            exact dirLoopLost_fst hr h filename m _ _ _
          · exact dirLoopLost_fst hr h filename m _ _ _

theorem parseDirLost_fst {P : Platform} {o : Options} : ∀ (n : Nat) (ign : Option Filelist) (f : Bytes),
    ((parseDirLost P o n ign f).bind fun r => .ret r.1) = parseDir P o n ign f
  | 0, _, _ => rfl
  | n + 1, ign, f => by
    unfold parseDirLost parseDir
    simp only [Prog.bind]
    congr 1
    funext r
    cases r with
    | none => rfl
    | some st =>
      simp only
      split
      · rfl
      · simp only [Prog.bind]
        congr 1
        funext d
        cases d with
        | ok h => exact dirLoopLost_fst (parseDirLost_fst n) h f n st ign 1
        | fail => rfl
        | emfile => rfl

theorem processArgLost_fst {P : Platform} {o : Options} (fuel : Nat) (ign : Option Filelist) (f : Bytes) :
    ((processArgLost P o fuel ign f).bind fun r => .ret r.1) = processArg P o fuel ign f := by
  have body : ((Prog.lstat f fun r =>
      match r with
      | none => .err (f ++ lit ": ") (.ret (ign, 0))
      | some st =>
        if st.kind = .dir then
          (parseFile P o f).bind fun work => (parseDirLost P o fuel ign work).bind fun r => .ret (r.1, fileLeaks P o f + r.2)
        else if st.kind = .reg then (parseFile P o f).bind fun _ => .ret (ign, fileLeaks P o f + 1)
        else if o.special then (parseFile P o f).bind fun _ => .ret (ign, fileLeaks P o f + 1)
        else .ret (ign, 0)).bind fun r => Prog.ret r.1) =
      (Prog.lstat f fun r =>
      match r with
      | none => .err (f ++ lit ": ") (.ret ign)
      | some st =>
        if st.kind = .dir then
          (parseFile P o f).bind fun work => parseDir P o fuel ign work
        else if st.kind = .reg then (parseFile P o f).bind fun _ => .ret ign
        else if o.special then (parseFile P o f).bind fun _ => .ret ign
        else .ret ign) := by
    simp only [Prog.bind]
    congr 1
    funext r
    cases r with
    | none => rfl
    | some st =>
      simp only
      split
      · rw [Prog.bind_assoc]
        congr 1
        funext w
        rw [Prog.bind_assoc, ← parseDirLost_fst]
        rfl
      · split
        · rw [Prog.bind_assoc]; rfl
        · split
          · rw [Prog.bind_assoc]; rfl
          · rfl
  unfold processArgLost processArg
  simp only
  split
  · exact congrArg (Prog.out _) body
  · exact body

theorem fileLoopLost_fst {P : Platform} {o : Options} (fuel : Nat) : ∀ (n : Nat) (l : Filelist) (ign : Option Filelist) (k : Nat),
    ((fileLoopLost P o fuel n l ign k).bind fun _ => .ret ()) = (fileLoop P o fuel n l ign).bind fun _ => .ret ()
  | 0, _, _, _ => rfl
  | n + 1, l, ign, k => by
    unfold fileLoopLost fileLoop
    rw [Prog.bind_assoc, Prog.bind_assoc]
    congr 1
    funext p
    cases hp : p.2 with
    | none => rfl
    | some f =>
      simp only
      rw [Prog.bind_assoc, Prog.bind_assoc, ← processArgLost_fst, Prog.bind_assoc]
      congr 1
      funext r
      exact fileLoopLost_fst fuel n _ _ _

theorem inlineLoopLost_fst {P : Platform} {o : Options} : ∀ (n : Nat) (s : Bytes) (k : Nat),
    ((inlineLoopLost P o n s k).bind fun _ => .ret ()) = inlineLoop P o n s
  | 0, [], _ => rfl
  | _ + 1, [], _ => rfl
  | 0, _ :: _, _ => rfl
  | n + 1, c :: s, k => by
    unfold inlineLoopLost inlineLoop
    rw [Prog.bind_assoc]
    congr 1
    funext r
    have core : (((Prog.ofRes (sequenceRunFilters P o.sequenceToUse (if isProtected r.1 then none else some r.1))).bind fun hold =>
        .out (match hold with | some w => w | none => r.1)
          (if r.2.1 then .out [0x0A] (inlineLoopLost P o n r.2.2.2 (k + if isProtected r.1 then 1 else 0))
            else (inlineLoopLost P o n r.2.2.2 (k + if isProtected r.1 then 1 else 0)))).bind fun _ => Prog.ret ()) =
        printChunk P o r.1 r.2.1 (inlineLoop P o n r.2.2.2) := by
      unfold printChunk
      rw [Prog.bind_assoc]
      congr 1
      funext hold
      simp only [Prog.bind]
      congr 1
      split
      · simp only [Prog.bind]; congr 1; exact inlineLoopLost_fst n _ _
      · exact inlineLoopLost_fst n _ _
    simp only
    split
    · exact congrArg (Prog.err _) core
    · exact core

theorem parseInlineLost_fst {P : Platform} {o : Options} (f : Option Bytes) :
    ((parseInlineLost P o f).bind fun _ => .ret ()) = parseInline P o f := by
  unfold parseInlineLost parseInline
  simp only [Prog.bind]
  congr 1
  funext r
  cases r with
  | none => rfl
  | some s => exact inlineLoopLost_fst _ _ _

theorem inlineFileLoopLost_fst {P : Platform} {o : Options} : ∀ (n : Nat) (l : Filelist) (k : Nat),
    ((inlineFileLoopLost P o n l k).bind fun _ => .ret ()) = inlineFileLoop P o n l
  | 0, _, _ => rfl
  | n + 1, l, k => by
    unfold inlineFileLoopLost inlineFileLoop
    rw [Prog.bind_assoc]
    congr 1
    funext p
    cases hp : p.2 with
    | none => rfl
    | some f =>
      simp only
      have e : ((inlineArgLost P o f).bind fun _ => .ret ()) = inlineArg P o f := by
        unfold inlineArgLost inlineArg
        simp only [Prog.bind]
        congr 1
        funext r
        cases r with
        | none => rfl
        | some st =>
          simp only
          split
          · rfl
          · exact parseInlineLost_fst _
      rw [Prog.bind_assoc, ← e, Prog.bind_assoc]
      congr 1
      funext r
      exact inlineFileLoopLost_fst n _ _

/-- Counting changes nothing. -/
theorem detoxWorkLost_fst {P : Platform} {o : Options} (fuel : Nat) :
    ((detoxWorkLost P o fuel).bind fun _ => .ret ()) = detoxWork P o fuel := by
  unfold detoxWorkLost detoxWork
  split
  · unfold inlineMain
    cases o.files with
    | none => exact parseInlineLost_fst _
    | some l =>
      simp only
      split
      · exact inlineFileLoopLost_fst _ _ _
      · exact parseInlineLost_fst _
  · cases o.files with
    | none => rfl
    | some l => exact fileLoopLost_fst _ _ _ _ _

end Detox
