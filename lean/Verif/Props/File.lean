import Verif.Spec.Makes
import Verif.Lemmas.ParseFile

/-!
# C29–C32, C36, C37, C56 — what detox does to one file, whatever the system answers

Every theorem quantifies over all traces, and every prefix of a trace is a trace, so each holds at every point
at which the process may be killed.
-/

set_option autoImplicit false

namespace Detox
open Spec

/-- **C29.** With `-n` no trace of a run contains a `rename`. -/
theorem C29_dry_run_renames_nothing (P : Platform) (o : Options) (hdry : o.dryRun = true) (fuel n : Nat) (files : Filelist)
    (ign : Option Filelist) (tr : List Event) (out : Outcome (Option Filelist))
    (ht : Trace (fileLoop P o fuel n files ign) tr out) (old new : Bytes) (ok : Bool) :
    .rename old new ok ∉ tr := by
  have hw := fileLoop_generic (Ok := fun _ e => ∀ a b c, e ≠ .rename a b c) (P := P) (o := o)
    (fun _ _ he => he)
    (by
      intro f r t _
      refine parseFile_wp (fun _ => trivial) ?_
      intro new _
      refine checkAndRename_wp ?_ trivial ?_ ?_ ?_ ?_ ?_ ?_ ?_ ?_ ?_ <;> intros <;> first | trivial | simp_all)
    fuel n files ign []
  intro hmem
  obtain ⟨pre, post, rfl⟩ := List.append_of_mem hmem
  exact (Prog.wp_sound hw ht).1 pre _ post rfl old new ok rfl

/-- What must have happened right before `rename(old, new)`: `old` was examined, the cleaned name differs, both names
were looked up with nothing but output since, and the new name was free or this very file. -/
structure RenameGuard (P : Platform) (o : Options) (pre : List Event) (old new : Bytes) : Prop where
  notDry : o.dryRun = false
  names : ∃ dir name cleaned, SplitsAs old dir name ∧ new = dir ++ cleaned ∧ cleaned ≠ name ∧
    name ≠ lit "." ∧ name ≠ lit ".." ∧
    sequenceRunFilters P o.sequenceToUse (some name) = .ok (some cleaned)
  checks : ∃ pre0 r0 so rn outs, pre = pre0 ++ [.lstat old r0, .lstat old (some so), .lstat new rn] ++ outs ∧
    OnlyOutput outs ∧ (∀ sn, rn = some sn → sn.dev = so.dev ∧ sn.ino = so.ino ∧ so.nlink ≤ 1) ∧
    (∀ st, r0 = some st → o.special = true ∨ st.kind = .reg ∨ st.kind = .dir)

theorem fileLoop_guarded (P : Platform) (o : Options) (fuel n : Nat) (files : Filelist) (ign : Option Filelist)
    (tr : List Event) (out : Outcome (Option Filelist)) (ht : Trace (fileLoop P o fuel n files ign) tr out)
    (pre post : List Event) (old new : Bytes) (ok : Bool) (heq : tr = pre ++ .rename old new ok :: post) :
    RenameGuard P o pre old new := by
  have hw := fileLoop_generic (Ok := fun h e => ∀ old new ok, e = .rename old new ok → RenameGuard P o h.reverse old new)
    (P := P) (o := o)
    (fun _ _ he a b c h => absurd h (he a b c))
    (by
      intro f r0 t hwant
      refine parseFile_wp (fun _ => trivial) ?_
      intro new hnew
      refine checkAndRename_wp ?_ trivial ?_ ?_ ?_ ?_ ?_ ?_ ?_ ?_ ?_
      case refine_6 => intros; trivial
      case refine_5 => intros; contradiction
      case refine_7 =>
        intro so rn outs ok ht hd ho a b c he
        cases he
        obtain ⟨w, hw, hne, hn, hp⟩ := wantedName_some hnew
        have hp' : ¬ (basePart f = lit "." ∨ basePart f = lit "..") := fun h => by
          have := (isProtected_iff (basePart f)).2 h
          rw [hp] at this; cases this
        refine ⟨hd, ⟨dirPart f, basePart f, w, splitsAs_parts f, hn, hne, fun h => hp' (Or.inl h),
          fun h => hp' (Or.inr h), hw⟩, ⟨t.reverse, r0, so, rn, outs, ?_, ?_, (isTaken_false_iff so rn).1 ht, hwant⟩⟩
        · have hrev : outs.reverse = outs := by rw [ho]; split <;> rfl
          simp [hrev]
        · rw [ho]; split
          · intro e he; simp at he; exact ⟨_, he⟩
          · intro e he; cases he
      all_goals intros; first | trivial | contradiction)
    fuel n files ign []
  have := (Prog.wp_sound hw ht).1 pre _ post heq old new ok rfl
  simpa using this

/-- **C31.** Every `rename` of every run is guarded, whatever the system calls answered. -/
theorem C31_renames_are_guarded (P : Platform) (o : Options) (fuel n : Nat) (files : Filelist) (ign : Option Filelist)
    (tr : List Event) (out : Outcome (Option Filelist)) (ht : Trace (fileLoop P o fuel n files ign) tr out)
    (pre post : List Event) (old new : Bytes) (ok : Bool) (heq : tr = pre ++ .rename old new ok :: post) :
    ∃ dir name cleaned pre0 r0 so rn outs,
      SplitsAs old dir name ∧ new = dir ++ cleaned ∧ cleaned ≠ name ∧
      sequenceRunFilters P o.sequenceToUse (some name) = .ok (some cleaned) ∧
      pre = pre0 ++ [.lstat old r0, .lstat old (some so), .lstat new rn] ++ outs ∧ OnlyOutput outs ∧
      (∀ sn, rn = some sn → sn.dev = so.dev ∧ sn.ino = so.ino ∧ so.nlink ≤ 1) := by
  obtain ⟨_, ⟨dir, name, cleaned, a, b, c, _, _, d⟩, ⟨pre0, r0, so, rn, outs, e, f, g, _⟩⟩ :=
    fileLoop_guarded P o fuel n files ign tr out ht pre post old new ok heq
  exact ⟨dir, name, cleaned, pre0, r0, so, rn, outs, a, b, c, d, e, f, g⟩

/-! ### C32 -/

theorem outBuf_finish_nil (n : Nat) : (OutBuf.alloc (n + 1)).finish = .ok [] := by
  simp [OutBuf.alloc, OutBuf.finish, OutBuf.push, cstr]

theorem filterRun_nil {P : Platform} {f : Filter} {r : Option Bytes} (h : filterRun P f (some []) = .ok r) :
    r = some [] := by
  unfold filterRun at h
  cases hc : f.cleaner <;> simp only [hc] at h
  · cases ht : f.table with
    | none => simp [ht, cleanIso] at h
    | some t => simp [ht, cleanIso, cleanIsoLoop, outBuf_finish_nil] at h; exact h.symm
  · simp [cleanLower, cleanLowerLoop, outBuf_finish_nil] at h; exact h.symm
  · simp [cleanMaxLength] at h; exact h.symm
  · cases ht : f.table with
    | none => simp [ht, cleanSafe] at h
    | some t => simp [ht, cleanSafe, cleanSafeLoop, outBuf_finish_nil] at h; exact h.symm
  · simp [cleanUncgi, cleanUncgiLoop, outBuf_finish_nil] at h; exact h.symm
  · cases ht : f.table with
    | none => simp [ht, cleanUtf8] at h
    | some t => simp [ht, cleanUtf8, cleanUtf8Loop, outBuf_finish_nil] at h; exact h.symm
  · simp [cleanWipeup, wipeLead, cleanWipeupLoop, outBuf_finish_nil] at h; exact h.symm

theorem runFilters_nil {P : Platform} : ∀ (fs : List Filter) {r : Option Bytes},
    runFilters P fs (some []) = .ok r → r = some []
  | [], r, h => by cases h; rfl
  | f :: fs, r, h => by
    simp only [runFilters] at h
    cases hf : filterRun P f (some []) with
    | ok x =>
      rw [hf] at h
      have := filterRun_nil hf
      subst this
      exact runFilters_nil fs h
    | exit n => rw [hf] at h; cases h
    | ub u => rw [hf] at h; cases h
    | stuck => rw [hf] at h; cases h

theorem sequence_nil {P : Platform} {q : Option Sequence} {w : Bytes} (h : sequenceRunFilters P q (some []) = .ok (some w)) : w = [] := by
  cases q with
  | none => cases h
  | some q => exact Option.some.inj (runFilters_nil q.filters h)

/-- **C32.** The last component of anything detox tries to rename is not `.`, not `..` and not empty. -/
theorem C32_dot_dotdot_and_empty_are_never_renamed (P : Platform) (o : Options) (fuel n : Nat) (files : Filelist)
    (ign : Option Filelist) (tr : List Event) (out : Outcome (Option Filelist))
    (ht : Trace (fileLoop P o fuel n files ign) tr out) (old new : Bytes) (ok : Bool) (hmem : .rename old new ok ∈ tr)
    (dir name : Bytes) (hs : SplitsAs old dir name) : name ≠ lit "." ∧ name ≠ lit ".." ∧ name ≠ [] := by
  obtain ⟨pre, post, heq⟩ := List.append_of_mem hmem
  obtain ⟨_, ⟨dir', name', cleaned, a, b, c, d1, d2, e⟩, _⟩ :=
    fileLoop_guarded P o fuel n files ign tr out ht pre post old new ok heq
  have hn : name = name' := by rw [(splitsAs_unique hs).2, (splitsAs_unique a).2]
  subst hn
  refine ⟨d1, d2, ?_⟩
  intro h0
  subst h0
  cases hq : o.sequenceToUse with
  | none => rw [hq] at e; cases e
  | some q =>
    rw [hq] at e
    simp only [sequenceRunFilters] at e
    have := runFilters_nil _ e
    cases this
    exact c rfl

/-! ### C56, C37, C30: `parse_file` exactly -/

/-- The complete executions of `parse_file` on `f`, and the path it returns, if `R name w` says that `w` is the new
name of `name`. -/
inductive FileRunBy (R : Bytes → Bytes → Prop) (o : Options) (f : Bytes) : List Event → Bytes → Prop
  /-- `.` and `..`, and names that are clean already, are left alone -/
  | clean (dir name : Bytes) : SplitsAs f dir name →
      (name = lit "." ∨ name = lit ".." ∨ R name name) →
      FileRunBy R o f [] f
  /-- the file is gone -/
  | gone (dir name w : Bytes) : SplitsAs f dir name → name ≠ lit "." → name ≠ lit ".." →
      R name w → w ≠ name →
      FileRunBy R o f [.lstat f none] f
  /-- the new name is taken: refused -/
  | refused (dir name w : Bytes) (so : Stat) (sn : Stat) : SplitsAs f dir name → name ≠ lit "." → name ≠ lit ".." →
      R name w → w ≠ name →
      ¬ (sn.dev = so.dev ∧ sn.ino = so.ino ∧ so.nlink ≤ 1) →
      FileRunBy R o f [.lstat f (some so), .lstat (dir ++ w) (some sn),
        .err (lit "Cannot rename " ++ f ++ lit " to " ++ (dir ++ w) ++ lit ": file already exists\n")] f
  /-- dry run: only announced -/
  | dry (dir name w : Bytes) (so : Stat) (rn : Option Stat) : SplitsAs f dir name → name ≠ lit "." → name ≠ lit ".." →
      R name w → w ≠ name →
      (∀ sn, rn = some sn → sn.dev = so.dev ∧ sn.ino = so.ino ∧ so.nlink ≤ 1) → o.dryRun = true →
      FileRunBy R o f [.lstat f (some so), .lstat (dir ++ w) rn, .out (f ++ lit " -> " ++ (dir ++ w) ++ lit "\n")] f
  /-- renamed, after an announcement if verbose -/
  | renamed (dir name w : Bytes) (so : Stat) (rn : Option Stat) : SplitsAs f dir name → name ≠ lit "." → name ≠ lit ".." →
      R name w → w ≠ name →
      (∀ sn, rn = some sn → sn.dev = so.dev ∧ sn.ino = so.ino ∧ so.nlink ≤ 1) → o.dryRun = false →
      FileRunBy R o f ([.lstat f (some so), .lstat (dir ++ w) rn] ++
        (if o.verbose = 0 then [] else [.out (f ++ lit " -> " ++ (dir ++ w) ++ lit "\n")]) ++
        [.rename f (dir ++ w) true]) (dir ++ w)
  /-- the system refuses the rename -/
  | failed (dir name w : Bytes) (so : Stat) (rn : Option Stat) : SplitsAs f dir name → name ≠ lit "." → name ≠ lit ".." →
      R name w → w ≠ name →
      (∀ sn, rn = some sn → sn.dev = so.dev ∧ sn.ino = so.ino ∧ so.nlink ≤ 1) → o.dryRun = false →
      FileRunBy R o f ([.lstat f (some so), .lstat (dir ++ w) rn] ++
        (if o.verbose = 0 then [] else [.out (f ++ lit " -> " ++ (dir ++ w) ++ lit "\n")]) ++
        [.rename f (dir ++ w) false, .err (lit "Cannot rename " ++ f ++ lit " to " ++ (dir ++ w) ++ lit ": ")]) f

/-- The complete executions of `parse_file` on `f`. -/
abbrev FileRun (P : Platform) (o : Options) : Bytes → List Event → Bytes → Prop := FileRunBy (Makes P o) o

theorem Trace.ret_inv {α : Type} {a : α} {tr : List Event} {b : α} (h : Trace (.ret a) tr (.ret b)) : tr = [] ∧ b = a := by
  cases h; exact ⟨rfl, rfl⟩

theorem trace_ofRes_bind {α β : Type} {x : Res α} {k : α → Prog β} {tr : List Event} {b : β}
    (h : Trace ((Prog.ofRes x).bind k) tr (.ret b)) : ∃ a, x = .ok a ∧ Trace (k a) tr (.ret b) := by
  cases x with
  | ok a => exact ⟨a, rfl, h⟩
  | exit n => cases h
  | ub u => cases h
  | stuck => cases h

theorem wantedName_none {P : Platform} {o : Options} {f : Bytes} (h : wantedName P o f = .ok none) :
    basePart f = lit "." ∨ basePart f = lit ".." ∨
      sequenceRunFilters P o.sequenceToUse (some (basePart f)) = .ok (some (basePart f)) := by
  unfold wantedName at h
  cases hp : isProtected (basePart f) with
  | true =>
    rcases (isProtected_iff _).1 hp with h | h
    · exact Or.inl h
    · exact Or.inr (Or.inl h)
  | false =>
    right; right
    simp only [hp, Bool.false_eq_true, if_false] at h
    cases hr : sequenceRunFilters P o.sequenceToUse (some (basePart f)) with
    | ok r =>
      rw [hr] at h
      cases r with
      | none =>
        exfalso
        cases hq : o.sequenceToUse with
        | none => rw [hq] at hr; cases hr
        | some q =>
          rw [hq] at hr
          simp only [sequenceRunFilters] at hr
          clear hq h hp
          generalize basePart f = b at hr
          have : ∀ (fs : List Filter) (b : Bytes), runFilters P fs (some b) ≠ .ok none := by
            intro fs
            induction fs with
            | nil => intro b h; cases h
            | cons g fs ih =>
              intro b h
              simp only [runFilters] at h
              cases hg : filterRun P g (some b) with
              | ok x =>
                rw [hg] at h
                cases x with
                | none =>
                  unfold filterRun at hg
                  cases hc : g.cleaner <;> simp only [hc] at hg
                  · cases hy : cleanIso g.table b <;> rw [hy] at hg <;> cases hg
                  · cases hy : cleanLower P b <;> rw [hy] at hg <;> cases hg
                  · cases hy : cleanMaxLength P g.maxLength b <;> rw [hy] at hg <;> cases hg
                  · cases hy : cleanSafe P g.table b <;> rw [hy] at hg <;> cases hg
                  · cases hy : cleanUncgi P b <;> rw [hy] at hg <;> cases hg
                  · cases hy : cleanUtf8 g.table b <;> rw [hy] at hg <;> cases hg
                  · cases hy : cleanWipeup g.removeTrailing b <;> rw [hy] at hg <;> cases hg
                | some y => exact ih y h
              | exit n => rw [hg] at h; cases h
              | ub u => rw [hg] at h; cases h
              | stuck => rw [hg] at h; cases h
          exact this _ _ hr
      | some w =>
        simp only [Res.bind_ok] at h
        split at h
        · next e => rw [← e]
        · cases h
    | exit n => rw [hr] at h; cases h
    | ub u => rw [hr] at h; cases h
    | stuck => rw [hr] at h; cases h

/-- **C56.** `parse_file` does exactly this: in particular, a file whose cleaned name differs and is free is renamed
(`renamed`), unless the run is dry or the system refuses. -/
theorem C56_parse_file_exactly (P : Platform) (o : Options) (f : Bytes) (tr : List Event) (a : Bytes)
    (ht : Trace (parseFile P o f) tr (.ret a)) : FileRun P o f tr a := by
  rw [parseFile_eq] at ht
  obtain ⟨x, hx, ht'⟩ := trace_ofRes_bind ht
  clear ht
  have ht := ht'
  clear ht'
  cases x with
  | none =>
    obtain ⟨rfl, rfl⟩ := Trace.ret_inv ht
    exact .clean _ _ (splitsAs_parts _) (wantedName_none hx)
  | some new =>
    obtain ⟨w, hw, hne, hn, hp⟩ := wantedName_some hx
    have hp' : ¬ (basePart f = lit "." ∨ basePart f = lit "..") := fun h => by
      have := (isProtected_iff (basePart f)).2 h
      rw [hp] at this; cases this
    have hp1 : basePart f ≠ lit "." := fun h => hp' (Or.inl h)
    have hp2 : basePart f ≠ lit ".." := fun h => hp' (Or.inr h)
    subst hn
    have hsp := splitsAs_parts f
    unfold checkAndRename at ht
    cases ht with
    | lstat _ _ r tr _ ht =>
      cases r with
      | none =>
        obtain ⟨rfl, rfl⟩ := Trace.ret_inv ht
        exact .gone _ _ w hsp hp1 hp2 hw hne
      | some so =>
        cases ht with
        | lstat _ _ rn tr _ ht =>
          cases htk : isTaken so rn with
          | true =>
            simp only [htk, if_true] at ht
            cases rn with
            | none => cases htk
            | some sn =>
              cases ht with
              | err _ _ tr _ ht =>
                obtain ⟨rfl, rfl⟩ := Trace.ret_inv ht
                refine .refused _ _ w so sn hsp hp1 hp2 hw hne ?_
                intro hc
                have := (isTaken_false_iff so (some sn)).2 (fun s hs => by cases hs; exact hc)
                rw [this] at htk; cases htk
          | false =>
            have hfree := (isTaken_false_iff so rn).1 htk
            simp only [htk, Bool.false_eq_true, if_false, announceAndRename] at ht
            cases hd : o.dryRun with
            | true =>
              simp only [hd, Bool.or_true, if_true] at ht
              cases ht with
              | out _ _ tr _ ht =>
                obtain ⟨rfl, rfl⟩ := Trace.ret_inv ht
                exact .dry _ _ w so rn hsp hp1 hp2 hw hne hfree hd
            | false =>
              have ren : ∀ tr, Trace (doRename f (dirPart f ++ w)) tr (.ret a) →
                  (tr = [.rename f (dirPart f ++ w) true] ∧ a = dirPart f ++ w) ∨
                  (tr = [.rename f (dirPart f ++ w) false,
                    .err (lit "Cannot rename " ++ f ++ lit " to " ++ (dirPart f ++ w) ++ lit ": ")] ∧ a = f) := by
                intro tr h
                unfold doRename at h
                cases h with
                | rename _ _ _ r tr _ h =>
                  cases r with
                  | true => obtain ⟨rfl, rfl⟩ := Trace.ret_inv h; exact Or.inl ⟨rfl, rfl⟩
                  | false =>
                    cases h with
                    | err _ _ tr _ h => obtain ⟨rfl, rfl⟩ := Trace.ret_inv h; exact Or.inr ⟨rfl, rfl⟩
              simp only [hd, Bool.or_false, Bool.false_eq_true, if_false] at ht
              by_cases hv : o.verbose = 0
              · rw [if_neg (by simpa using hv)] at ht
                rcases ren _ ht with ⟨rfl, rfl⟩ | ⟨rfl, rfl⟩
                · have := FileRunBy.renamed (R := Makes P o) (o := o) _ _ w so rn hsp hp1 hp2 hw hne hfree hd
                  rw [if_pos hv] at this; exact this
                · have := FileRunBy.failed (R := Makes P o) (o := o) _ _ w so rn hsp hp1 hp2 hw hne hfree hd
                  rw [if_pos hv] at this; exact this
              · rw [if_pos (by simpa using hv)] at ht
                cases ht with
                | out _ _ tr _ ht =>
                  rcases ren _ ht with ⟨rfl, rfl⟩ | ⟨rfl, rfl⟩
                  · have := FileRunBy.renamed (R := Makes P o) (o := o) _ _ w so rn hsp hp1 hp2 hw hne hfree hd
                    rw [if_neg hv] at this; exact this
                  · have := FileRunBy.failed (R := Makes P o) (o := o) _ _ w so rn hsp hp1 hp2 hw hne hfree hd
                    rw [if_neg hv] at this; exact this

/-- **C37.** The path `parse_file` returns is the new one exactly if its `rename` to it succeeded; otherwise it is the
path it was given, and nothing was renamed. -/
theorem C37_parse_file_returns_where_the_file_is (P : Platform) (o : Options) (f : Bytes) (tr : List Event) (a : Bytes)
    (ht : Trace (parseFile P o f) tr (.ret a)) :
    (∃ pre, tr = pre ++ [.rename f a true] ∧ ∀ x y z, .rename x y z ∉ pre) ∨
    (a = f ∧ ∀ x y, .rename x y true ∉ tr) := by
  have h := C56_parse_file_exactly P o f tr a ht
  cases h with
  | clean => right; simp
  | gone => right; simp
  | refused => right; simp
  | dry => right; simp
  | renamed dir name w so rn =>
    left
    refine ⟨_, rfl, ?_⟩
    intro x y z
    split <;> simp
  | failed =>
    right
    refine ⟨rfl, ?_⟩
    intro x y
    split <;> simp

theorem trace_parseFile_none {P : Platform} {o : Options} {f : Bytes} {tr : List Event} {oc : Outcome Bytes}
    (h : wantedName P o f = .ok none) (ht : Trace (.ret f) tr oc) : Trace (parseFile P o f) tr oc := by
  rw [parseFile_eq, h]; exact ht

theorem trace_parseFile_some {P : Platform} {o : Options} {f new : Bytes} {tr : List Event} {oc : Outcome Bytes}
    (h : wantedName P o f = .ok (some new)) (ht : Trace (checkAndRename o f new) tr oc) : Trace (parseFile P o f) tr oc := by
  rw [parseFile_eq, h]; exact ht

theorem wantedName_of {P : Platform} {o : Options} {f dir name w : Bytes} (hs : SplitsAs f dir name)
    (h1 : name ≠ lit ".") (h2 : name ≠ lit "..")
    (hw : sequenceRunFilters P o.sequenceToUse (some name) = .ok (some w)) (hne : w ≠ name) :
    wantedName P o f = .ok (some (dir ++ w)) := by
  obtain ⟨rfl, rfl⟩ := splitsAs_unique hs
  have hp : isProtected (basePart f) = false := by
    cases hx : isProtected (basePart f) with
    | false => rfl
    | true => rcases (isProtected_iff _).1 hx with h | h
              · exact absurd h h1
              · exact absurd h h2
  simp only [wantedName, hp, Bool.false_eq_true, if_false, hw, Res.bind_ok]
  rw [if_neg (fun h => hne h.symm)]
  rfl

/-- Every execution listed in `FileRun` is possible (so the list is exact); the sequence must exist, as `main` makes sure. -/
theorem C56_parse_file_possible (P : Platform) (o : Options) (hq : o.sequenceToUse ≠ none) (f : Bytes) (tr : List Event)
    (a : Bytes) (h : FileRun P o f tr a) : Trace (parseFile P o f) tr (.ret a) := by
  cases h with
  | clean dir name hs hc =>
    obtain ⟨rfl, rfl⟩ := splitsAs_unique hs
    refine trace_parseFile_none ?_ (.ret f)
    unfold wantedName
    cases hp : isProtected (basePart f) with
    | true =>
      cases hq' : o.sequenceToUse with
      | none => exact absurd hq' hq
      | some q => simp [sequenceRunFilters]
    | false =>
      have hn : ¬ (basePart f = lit "." ∨ basePart f = lit "..") := fun h => by
        have := (isProtected_iff (basePart f)).2 h
        rw [hp] at this; cases this
      have hc' : sequenceRunFilters P o.sequenceToUse (some (basePart f)) = .ok (some (basePart f)) := by
        rcases hc with h | h | h
        · exact absurd (Or.inl h) hn
        · exact absurd (Or.inr h) hn
        · exact h
      simp [hc']
  | gone dir name w hs h1 h2 hw hne =>
    exact trace_parseFile_some (wantedName_of hs h1 h2 hw hne) (.lstat _ _ _ _ _ (.ret _))
  | refused dir name w so sn hs h1 h2 hw hne hx =>
    refine trace_parseFile_some (wantedName_of hs h1 h2 hw hne) (.lstat _ _ _ _ _ (.lstat _ _ _ _ _ ?_))
    have : isTaken so (some sn) = true := by
      cases ht : isTaken so (some sn) with
      | true => rfl
      | false => exact absurd ((isTaken_false_iff _ _).1 ht sn rfl) hx
    rw [if_pos this]
    exact .err _ _ _ _ (.ret _)
  | dry dir name w so rn hs h1 h2 hw hne hx hd =>
    refine trace_parseFile_some (wantedName_of hs h1 h2 hw hne) (.lstat _ _ _ _ _ (.lstat _ _ _ _ _ ?_))
    rw [(isTaken_false_iff so rn).2 hx]
    simp only [Bool.false_eq_true, if_false, announceAndRename, hd, Bool.or_true, if_true]
    exact .out _ _ _ _ (.ret _)
  | renamed dir name w so rn hs h1 h2 hw hne hx hd =>
    refine trace_parseFile_some (wantedName_of hs h1 h2 hw hne) (.lstat _ _ _ _ _ (.lstat _ _ _ _ _ ?_))
    rw [(isTaken_false_iff so rn).2 hx]
    simp only [Bool.false_eq_true, if_false, announceAndRename, hd, Bool.or_false]
    by_cases hv : o.verbose = 0
    · rw [if_neg (by simpa using hv), if_pos hv]
      exact .rename _ _ _ true _ _ (.ret _)
    · rw [if_pos (by simpa using hv), if_neg hv]
      exact .out _ _ _ _ (.rename _ _ _ true _ _ (.ret _))
  | failed dir name w so rn hs h1 h2 hw hne hx hd =>
    refine trace_parseFile_some (wantedName_of hs h1 h2 hw hne) (.lstat _ _ _ _ _ (.lstat _ _ _ _ _ ?_))
    rw [(isTaken_false_iff so rn).2 hx]
    simp only [Bool.false_eq_true, if_false, announceAndRename, hd, Bool.or_false]
    by_cases hv : o.verbose = 0
    · rw [if_neg (by simpa using hv), if_pos hv]
      exact .rename _ _ _ false _ _ (.err _ _ _ _ (.ret _))
    · rw [if_pos (by simpa using hv), if_neg hv]
      exact .out _ _ _ _ (.rename _ _ _ false _ _ (.err _ _ _ _ (.ret _)))

/-- The `lstat` calls of a trace and their answers. -/
def lookups (tr : List Event) : List Event :=
  tr.filter fun e => match e with
    | .lstat _ _ => true
    | _ => false

/-- **C30.** Given the same answers of `lstat`, `parse_file` under `-n` prints `f -> new` exactly if a real run
attempts `rename(f, new)`. -/
theorem C30_dry_run_announces_what_a_real_run_does (P : Platform) (o : Options) (hq : o.sequenceToUse ≠ none)
    (f new : Bytes) (ls : List Event) :
    (∃ tr a, Trace (parseFile P { o with dryRun := true } f) tr (.ret a) ∧ lookups tr = ls ∧
      .out (f ++ lit " -> " ++ new ++ lit "\n") ∈ tr) ↔
    (∃ tr a ok, Trace (parseFile P { o with dryRun := false } f) tr (.ret a) ∧ lookups tr = ls ∧
      .rename f new ok ∈ tr) := by
  constructor
  · rintro ⟨tr, a, ht, hl, hm⟩
    have h := C56_parse_file_exactly _ _ _ _ _ ht
    cases h with
    | clean => simp at hm
    | gone => simp at hm
    | refused => simp at hm
    | dry dir name w so rn hs h1 h2 hw hne hx hd =>
      have hn : new = dir ++ w := by
        have h3 : new ++ lit "\n" = (dir ++ w) ++ lit "\n" := by simpa using hm
        exact List.append_cancel_right h3
      subst hn
      refine ⟨_, _, true, C56_parse_file_possible P { o with dryRun := false } hq f _ _
        (.renamed dir name w so rn hs h1 h2 hw hne hx rfl), ?_, by simp⟩
      rw [← hl]
      by_cases hv : o.verbose = 0 <;> simp [lookups, hv]
    | renamed _ _ _ _ _ _ _ _ _ _ _ hd => cases hd
    | failed _ _ _ _ _ _ _ _ _ _ _ hd => cases hd
  · rintro ⟨tr, a, ok, ht, hl, hm⟩
    have h := C56_parse_file_exactly _ _ _ _ _ ht
    cases h with
    | clean => simp at hm
    | gone => simp at hm
    | refused => simp at hm
    | dry dir name w so rn hs h1 h2 hw hne hx hd => cases hd
    | renamed dir name w so rn hs h1 h2 hw hne hx hd =>
      have hn : new = dir ++ w := by
        by_cases hv : o.verbose = 0 <;> simp [hv] at hm <;> exact hm.1
      subst hn
      refine ⟨_, _, C56_parse_file_possible P { o with dryRun := true } hq f _ _
        (.dry dir name w so rn hs h1 h2 hw hne hx rfl), ?_, by simp⟩
      rw [← hl]
      by_cases hv : o.verbose = 0 <;> simp [lookups, hv]
    | failed dir name w so rn hs h1 h2 hw hne hx hd =>
      have hn : new = dir ++ w := by
        by_cases hv : o.verbose = 0 <;> simp [hv] at hm <;> exact hm.1
      subst hn
      refine ⟨_, _, C56_parse_file_possible P { o with dryRun := true } hq f _ _
        (.dry dir name w so rn hs h1 h2 hw hne hx rfl), ?_, by simp⟩
      rw [← hl]
      by_cases hv : o.verbose = 0 <;> simp [lookups, hv]

/-! ### A case: `d/A` with a lower-casing sequence -/

/-- A Linux-like platform. -/
def exPlatform : Platform := { charSigned := true, ctypeNegDefined := true, ptrBelowDefined := true }

/-- A sequence that only lower-cases. -/
def exOptions : Options := { sequenceToUse := some { name := lit "lower", filters := [filterInit .lower] } }

example : FileRun exPlatform exOptions (lit "d/A")
    [.lstat (lit "d/A") (some ⟨1, 7, 1, .reg⟩), .lstat (lit "d/a") none, .rename (lit "d/A") (lit "d/a") true]
    (lit "d/a") :=
  .renamed (lit "d/") (lit "A") (lit "a") _ none ⟨rfl, by decide, Or.inr ⟨lit "d", rfl⟩⟩ (by decide) (by decide) (by decide)
    (by decide) (by intro _ h; cases h) rfl

end Detox
