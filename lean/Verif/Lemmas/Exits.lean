import Verif.Lemmas.MainRun
import Verif.Props.Progress

/-!
# Where the program calls `exit`
-/

set_option autoImplicit false

namespace Detox
open Spec

/-- The computation does not end the program. -/
def Res.NoExit {α : Type} (x : Res α) : Prop := ∀ n, x ≠ .exit n

theorem Res.NoExit.ok {α : Type} (a : α) : (Res.ok a).NoExit := fun _ h => by cases h
theorem Res.NoExit.ub {α : Type} (u : UB) : (Res.ub u : Res α).NoExit := fun _ h => by cases h
theorem Res.NoExit.stuck {α : Type} : (Res.stuck : Res α).NoExit := fun _ h => by cases h
theorem Res.NoExit.bind {α β : Type} {x : Res α} {f : α → Res β} (hx : x.NoExit) (hf : ∀ a, (f a).NoExit) : (x >>= f).NoExit := by
  cases x with
  | ok a => exact hf a
  | exit n => exact absurd rfl (hx n)
  | ub u => exact .ub u
  | stuck => exact .stuck

theorem push_noExit (o : OutBuf) (c : Byte) : (o.push c).NoExit := by
  unfold OutBuf.push; split
  · exact .ok _
  · exact .ub _

theorem finish_noExit (o : OutBuf) : o.finish.NoExit := by
  unfold OutBuf.finish
  exact .bind (push_noExit _ _) fun _ => .ok _

theorem emit_noExit (n : Nat) (out : Bytes) : (emit n out).NoExit := by
  rw [emit_eq]; split
  · exact .ok _
  · exact .ub _

theorem ctypeCall_noExit {α : Type} (P : Platform) (f : Byte → α) (c : Byte) : (ctypeCall P f c).NoExit := by
  unfold ctypeCall; split
  · exact .ub _
  · exact .ok _

theorem cleanLowerLoop_noExit (P : Platform) : ∀ (s : Bytes) (o : OutBuf), (cleanLowerLoop P o s).NoExit
  | [], o => .ok _
  | c :: s, o => by
    unfold cleanLowerLoop
    refine .bind (ctypeCall_noExit _ _ _) fun up => ?_
    split
    · exact .bind (push_noExit _ _) fun o' => cleanLowerLoop_noExit P s o'
    · exact .bind (push_noExit _ _) fun o' => cleanLowerLoop_noExit P s o'

theorem uncgiEsc_noExit (P : Platform) (c : Byte) (rest : Bytes) : (uncgiEsc P c rest).NoExit := by
  unfold uncgiEsc uncgiTest
  split
  · refine .bind (ctypeCall_noExit _ _ _) fun a => ?_
    split
    · exact ctypeCall_noExit _ _ _
    · exact .ok _
  · exact .ok _

theorem cleanUncgiLoop_noExit (P : Platform) : ∀ (n : Nat) (s : Bytes) (o : OutBuf), (cleanUncgiLoop P n o s).NoExit
  | 0, [], o => by unfold cleanUncgiLoop; exact .ok _
  | n + 1, [], o => by unfold cleanUncgiLoop; exact .ok _
  | 0, c :: s, o => .stuck
  | n + 1, c :: s, o => by
    unfold cleanUncgiLoop
    refine .bind (uncgiEsc_noExit _ _ _) fun esc => ?_
    split
    · exact .bind (push_noExit _ _) fun o' => cleanUncgiLoop_noExit P n _ o'
    · split
      · exact .bind (push_noExit _ _) fun o' => cleanUncgiLoop_noExit P n _ o'
      · exact .bind (push_noExit _ _) fun o' => cleanUncgiLoop_noExit P n _ o'

theorem cleanWipeupLoop_noExit (search : Bytes) : ∀ (s : Bytes) (o : OutBuf) (cur : Option Nat),
    (cleanWipeupLoop search o cur s).NoExit
  | [], o, cur => by
    unfold cleanWipeupLoop
    cases cur with
    | none => exact .ok _
    | some i => exact push_noExit _ _
  | c :: s, o, cur => by
    unfold cleanWipeupLoop
    split
    · exact cleanWipeupLoop_noExit search s _ _
    · cases cur with
      | none => exact .bind (.ok _) fun o' => .bind (push_noExit _ _) fun o'' => cleanWipeupLoop_noExit search s _ _
      | some i => exact .bind (push_noExit _ _) fun o' => .bind (push_noExit _ _) fun o'' => cleanWipeupLoop_noExit search s _ _

theorem lookBack_noExit (P : Platform) (s : Bytes) (ext : Nat) : ∀ i, (lookBack P s ext i).NoExit
  | 0 => by
    unfold lookBack
    split
    · exact .ok _
    · exact .ub _
  | i + 1 => by
    unfold lookBack
    split
    · split
      · exact .ok _
      · split
        · exact .ok _
        · exact lookBack_noExit P s ext i
    · exact .ok _

theorem filterRun_noExit (P : Platform) (f : Filter) (w : Option Bytes)
    (hf : (f.cleaner = .safe ∨ f.cleaner = .iso8859_1 ∨ f.cleaner = .utf8) → f.table ≠ none) : (filterRun P f w).NoExit := by
  unfold filterRun
  cases w with
  | none => exact .ok _
  | some s =>
    cases hc : f.cleaner <;> dsimp only <;> refine .bind ?_ (fun a => .ok _)
    · cases ht : f.table with
      | none => exact absurd ht (hf (by simp [hc]))
      | some t => rw [cleanIso_eq]; exact emit_noExit _ _
    · exact .bind (cleanLowerLoop_noExit P s _) finish_noExit
    · unfold cleanMaxLength
      generalize (if f.maxLength = 0 then 256 else f.maxLength) = ml
      dsimp only
      split
      · exact .ok _
      · split
        · exact .ok _
        · next e0 he =>
          split
          · exact .ok _
          · refine .bind (lookBack_noExit P s e0 e0) ?_
            intro ext
            split
            · exact .ok _
            · exact .ok _
    · cases ht : f.table with
      | none => exact absurd ht (hf (by simp [hc]))
      | some t => rw [cleanSafe_eq]; exact emit_noExit _ _
    · exact .bind (cleanUncgiLoop_noExit P _ s _) finish_noExit
    · cases ht : f.table with
      | none => exact absurd ht (hf (by simp [hc]))
      | some t => rw [cleanUtf8_eq]; exact emit_noExit _ _
    · exact .bind (cleanWipeupLoop_noExit _ _ _ _) finish_noExit

/-- All filters that need a table have one. -/
def HasTables (q : Sequence) : Prop :=
  ∀ f ∈ q.filters, (f.cleaner = .safe ∨ f.cleaner = .iso8859_1 ∨ f.cleaner = .utf8) → f.table ≠ none

theorem sequenceRunFilters_noExit (P : Platform) {q : Sequence} (hq : HasTables q) (w : Option Bytes) :
    (sequenceRunFilters P (some q) w).NoExit := by
  have run : ∀ fs : List Filter, (∀ f ∈ fs, (f.cleaner = .safe ∨ f.cleaner = .iso8859_1 ∨ f.cleaner = .utf8) → f.table ≠ none) →
      ∀ w, (runFilters P fs w).NoExit := by
    intro fs
    induction fs with
    | nil => intro _ w; exact .ok _
    | cons f fs ih =>
      intro hfs w
      cases w with
      | none => exact .ok _
      | some s =>
        unfold runFilters
        exact .bind (filterRun_noExit P f (some s) (hfs f (by simp))) fun r => ih (fun g hg => hfs g (by simp [hg])) r
  unfold sequenceRunFilters
  cases w with
  | none => exact .ok _
  | some s => exact run _ hq _

theorem filelistGet_noExit (l : Filelist) : (filelistGet l).NoExit := by
  unfold filelistGet
  repeat' split
  all_goals first | exact .ok _ | exact .ub _

theorem tables_hasTables {ctype : Bytes} {datadir : Option Bytes} {fs fs' : List Filter} {reads : List (Bytes × Option Bytes)}
    (h1 : TablesFor ctype datadir fs reads fs') :
    ∀ f ∈ fs', (f.cleaner = .safe ∨ f.cleaner = .iso8859_1 ∨ f.cleaner = .utf8) → f.table ≠ none := by
  induction h1 with
  | nil => simp
  | cons f r rs t fs fs' hf _ ih =>
    intro g hg hc
    rcases List.mem_cons.1 hg with rfl | hg
    · cases hf with
      | untabled hu =>
        exfalso
        rcases hc with hc | hc | hc <;> rw [show f.cleaner = _ from hc] at hu
        · exact hu _ .safe
        · exact hu _ .iso8859_1
        · exact hu _ .utf8
      | builtin => simp
      | filename => simp
      | found => simp
      | fallback => simp
    · exact ih g hg hc

theorem reviewed_hasTables {ctype : Bytes} {datadir : Option Bytes} {q q' : Sequence} {tr : List Event}
    (h : Trace (reviewSequence ctype datadir q) tr (.ret q')) : HasTables q' := tables_hasTables (reviewSequence_ret h).1

/-! ### Exits of programs -/

/-- `exit` is only called where `A` holds of the events so far, newest first, and the status. -/
def Prog.exits {α : Type} (A : List Event → Nat → Prop) : Prog α → List Event → Prop
  | .ret _, _ => True
  | .exit n, h => A h n
  | .ub _, _ => True
  | .stuck, _ => True
  | .lstat p k, h => ∀ r, exits A (k r) (.lstat p r :: h)
  | .rename a b k, h => ∀ r, exits A (k r) (.rename a b r :: h)
  | .opendir p k, h => ∀ r, exits A (k r) (.opendir p r :: h)
  | .readdir d k, h => ∀ r, exits A (k r) (.readdir d r :: h)
  | .closedir d k, h => exits A k (.closedir d :: h)
  | .slurp p k, h => ∀ r, exits A (k r) (.slurp p r :: h)
  | .out s k, h => exits A k (.out s :: h)
  | .err s k, h => exits A k (.err s :: h)

theorem Prog.exits_sound {α : Type} {A : List Event → Nat → Prop} {p : Prog α} {tr : List Event} {o : Outcome α}
    (ht : Trace p tr o) : ∀ h n, p.exits A h → o = .exit n → A (tr.reverse ++ h) n := by
  induction ht with
  | stop => intro h n _ ho; cases ho
  | ret => intro h n _ ho; cases ho
  | exit => intro h n hp ho; cases ho; exact hp
  | ub => intro h n _ ho; cases ho
  | stuck => intro h n _ ho; cases ho
  | lstat p k r tr o _ ih => intro h n hp ho; have := ih _ n (hp r) ho; simpa using this
  | rename a b k r tr o _ ih => intro h n hp ho; have := ih _ n (hp r) ho; simpa using this
  | opendir p k r tr o _ ih => intro h n hp ho; have := ih _ n (hp r) ho; simpa using this
  | readdir d k r tr o _ ih => intro h n hp ho; have := ih _ n (hp r) ho; simpa using this
  | closedir d k tr o _ ih => intro h n hp ho; have := ih _ n hp ho; simpa using this
  | slurp p k r tr o _ ih => intro h n hp ho; have := ih _ n (hp r) ho; simpa using this
  | out s k tr o _ ih => intro h n hp ho; have := ih _ n hp ho; simpa using this
  | err s k tr o _ ih => intro h n hp ho; have := ih _ n hp ho; simpa using this

theorem Prog.exits_bind {α β : Type} {A : List Event → Nat → Prop} (p : Prog α) {f : α → Prog β}
    (hf : ∀ a h, (f a).exits A h) : ∀ h, p.exits A h → (p.bind f).exits A h := by
  induction p with
  | ret a => intro h _; exact hf a h
  | exit n => intro h hp; exact hp
  | ub u => intros; trivial
  | stuck => intros; trivial
  | lstat p k ih => intro h hp r; exact ih r _ (hp r)
  | rename a b k ih => intro h hp r; exact ih r _ (hp r)
  | opendir p k ih => intro h hp r; exact ih r _ (hp r)
  | readdir d k ih => intro h hp r; exact ih r _ (hp r)
  | closedir d k ih => intro h hp; exact ih _ hp
  | slurp p k ih => intro h hp r; exact ih r _ (hp r)
  | out s k ih => intro h hp; exact ih _ hp
  | err s k ih => intro h hp; exact ih _ hp

theorem Prog.exits_ofRes {α : Type} {A : List Event → Nat → Prop} {x : Res α} (hx : x.NoExit) (h : List Event) :
    (Prog.ofRes x).exits A h := by
  cases x with
  | ok a => trivial
  | exit n => exact absurd rfl (hx n)
  | ub u => trivial
  | stuck => trivial

/-- The status is 1 and the last thing done was writing a message on stderr. -/
def AfterMessage (h : List Event) (n : Nat) : Prop := n = 1 ∧ ∃ m h', h = .err m :: h'

/-- The program only fails after a message. -/
def Prog.Complains {α : Type} (p : Prog α) : Prop := ∀ h, p.exits AfterMessage h

theorem Prog.Complains.ret {α : Type} (a : α) : (Prog.ret a).Complains := fun _ => trivial
theorem Prog.Complains.fail {α : Type} (m : Bytes) : (Prog.err m (.exit 1) : Prog α).Complains := fun _ => ⟨rfl, _, _, rfl⟩
theorem Prog.Complains.bind {α β : Type} {p : Prog α} {f : α → Prog β} (hp : p.Complains) (hf : ∀ a, (f a).Complains) :
    (p.bind f).Complains := fun h => Prog.exits_bind p (fun a h => hf a h) h (hp h)
theorem Prog.Complains.ofRes {α : Type} {x : Res α} (hx : x.NoExit) : (Prog.ofRes x).Complains := fun h => Prog.exits_ofRes hx h
theorem Prog.Complains.out {α : Type} {s : Bytes} {k : Prog α} (hk : k.Complains) : (Prog.out s k).Complains := fun _ => hk _
theorem Prog.Complains.err {α : Type} {s : Bytes} {k : Prog α} (hk : k.Complains) : (Prog.err s k).Complains := fun _ => hk _
theorem Prog.Complains.slurp {α : Type} {p : Option Bytes} {k : Option Bytes → Prog α} (hk : ∀ r, (k r).Complains) :
    (Prog.slurp p k).Complains := fun _ r => hk r _
theorem Prog.Complains.lstat {α : Type} {p : Bytes} {k : Option Stat → Prog α} (hk : ∀ r, (k r).Complains) :
    (Prog.lstat p k).Complains := fun _ r => hk r _
theorem Prog.Complains.rename {α : Type} {a b : Bytes} {k : Bool → Prog α} (hk : ∀ r, (k r).Complains) :
    (Prog.rename a b k).Complains := fun _ r => hk r _
theorem Prog.Complains.opendir {α : Type} {p : Bytes} {k : OpenRes → Prog α} (hk : ∀ r, (k r).Complains) :
    (Prog.opendir p k).Complains := fun _ r => hk r _
theorem Prog.Complains.readdir {α : Type} {d : Nat} {k : Option Bytes → Prog α} (hk : ∀ r, (k r).Complains) :
    (Prog.readdir d k).Complains := fun _ r => hk r _
theorem Prog.Complains.closedir {α : Type} {d : Nat} {k : Prog α} (hk : k.Complains) : (Prog.closedir d k).Complains := fun _ => hk _
theorem Prog.Complains.stuck {α : Type} : (Prog.stuck : Prog α).Complains := fun _ => trivial
theorem Prog.Complains.ub {α : Type} (u : UB) : (Prog.ub u : Prog α).Complains := fun _ => trivial

theorem Prog.Complains.trace {α : Type} {p : Prog α} (hp : p.Complains) {tr : List Event} {n : Nat} (ht : Trace p tr (.exit n)) :
    n = 1 ∧ ∃ pre m, tr = pre ++ [.err m] := by
  obtain ⟨h1, m, h', h2⟩ := Prog.exits_sound ht [] n (hp []) rfl
  refine ⟨h1, h'.reverse, m, ?_⟩
  rw [List.append_nil] at h2
  have := congrArg List.reverse h2
  simpa using this

theorem outTimes_complains {α : Type} {s : Bytes} {k : Prog α} (hk : k.Complains) : ∀ n, (outTimes s n k).Complains
  | 0 => hk
  | n + 1 => .out (outTimes_complains hk n)

/-! ### The parts of `main` -/

/-- A failure is a syntax error. -/
def Res.ExitOne {α : Type} (x : Res α) : Prop := ∀ n, x = .exit n → n = 1

theorem Res.NoExit.one {α : Type} {x : Res α} (h : x.NoExit) : x.ExitOne := fun n hn => absurd hn (h n)
theorem Res.ExitOne.bind {α β : Type} {x : Res α} {f : α → Res β} (hx : x.ExitOne) (hf : ∀ a, (f a).ExitOne) : (x >>= f).ExitOne := by
  cases x with
  | ok a => exact hf a
  | exit n => intro m hm; cases hm; exact hx n rfl
  | ub u => intro m hm; cases hm
  | stuck => intro m hm; cases hm

theorem filelistPut_noExit (l : Filelist) (w : Bytes) : (filelistPut l w).NoExit := by
  unfold filelistPut
  dsimp only
  split
  · exact .ok _
  · exact .ub _

theorem cfStep_one (file : Bytes) (st : CState) (t : Tok) : (cfStep file st t).ExitOne := by
  have e1 : (Res.exit 1 : Res CState).ExitOne := fun n h => by cases h; rfl
  unfold cfStep
  dsimp only
  repeat' split
  all_goals first
    | exact e1
    | exact (Res.NoExit.ok _).one
    | exact (Res.NoExit.bind (filelistPut_noExit _ _) fun _ => .ok _).one

theorem cfRun_one (file : Bytes) : ∀ (items : List LexItem) (st : CState), (cfRun file items st).2.ExitOne
  | [], st => by
    unfold cfRun
    dsimp only
    split
    · exact (Res.NoExit.ok _).one
    · intro n h; cases h; rfl
  | .ub u :: _, st => (Res.NoExit.ub _).one
  | .tok t un :: rest, st => by
    unfold cfRun
    dsimp only
    cases hs : cfStep file st t with
    | ok st' => exact cfRun_one file rest st'
    | exit n => intro m hm; cases hm; exact cfStep_one file st t n hs
    | ub u => exact (Res.NoExit.ub _).one
    | stuck => exact Res.NoExit.stuck.one

theorem parseConfigText_one (file text : Bytes) (previous : Option ConfigFile) : (parseConfigText file text previous).2.ExitOne :=
  .bind (cfRun_one _ _ _) fun _ => (Res.NoExit.ok _).one

theorem parseConfigFile_complains (file : Bytes) (before : Option ConfigFile × Nat) : (parseConfigFile file before).Complains := by
  refine .slurp fun r => ?_
  cases r with
  | none => exact .ret _
  | some text =>
    refine outTimes_complains ?_ _
    cases h : (parseConfigText file text before.1).2 with
    | ok c => exact .ret _
    | exit n =>
      have := parseConfigText_one file text before.1 n h
      subst this
      exact .fail _
    | ub u => exact .ub u
    | stuck => exact .stuck

theorem tryConfig_complains (path : Bytes) (before : Option ConfigFile × Nat) : (tryConfig path before).Complains := by
  unfold tryConfig
  split
  · exact parseConfigFile_complains _ _
  · exact .ret _

theorem configFileLoad_complains (E : ConfigEnv) (check : Option Bytes) : (configFileLoad E check).Complains := by
  unfold configFileLoad
  cases check with
  | some f =>
    refine .bind (parseConfigFile_complains _ _) fun r => ?_
    obtain ⟨r, line⟩ := r
    cases r with
    | some c => exact .ret _
    | none => exact .fail _
  | none =>
    refine .bind ?_ fun c1 => .bind ?_ fun c2 => .bind ?_ fun c3 => .bind ?_ fun c4 => .bind ?_ fun c5 => ?_
    · cases E.sysconfdir with
      | some d => exact tryConfig_complains _ _
      | none => exact .ret _
    · obtain ⟨c1, line⟩ := c1
      cases c1 with
      | some c => exact .ret _
      | none => exact parseConfigFile_complains _ _
    · obtain ⟨c2, line⟩ := c2
      cases c2 with
      | some c => exact .ret _
      | none => exact parseConfigFile_complains _ _
    · cases E.home with
      | some d => exact tryConfig_complains _ _
      | none => exact .ret _
    · cases E.xdg with
      | some d => exact tryConfig_complains _ _
      | none => exact .ret _
    · obtain ⟨c5, line⟩ := c5
      cases c5 with
      | some c => exact .ret _
      | none => exact .ofRes (.bind (filelistPut_noExit _ _) fun _ => .ok _)

theorem readTable_complains (ctype path : Bytes) : (readTable ctype path).Complains := .slurp fun _ => .ret _

theorem tryTable_complains (ctype path : Bytes) : (tryTable ctype path).Complains := by
  unfold tryTable
  split
  · exact readTable_complains _ _
  · exact .ret _

theorem findTable_complains (ctype : Bytes) (datadir : Option Bytes) (name : Bytes) : (findTable ctype datadir name).Complains := by
  unfold findTable
  refine .bind ?_ fun t1 => ?_
  · cases datadir with
    | some d => exact tryTable_complains _ _
    | none => exact .ret _
  · cases t1 with
    | some t => exact .ret _
    | none =>
      refine .bind (tryTable_complains _ _) fun t2 => ?_
      cases t2 with
      | some t => exact .ret _
      | none => exact tryTable_complains _ _

theorem loadTable_complains (ctype : Bytes) (datadir : Option Bytes) (f : Filter) : (loadTable ctype datadir f).Complains := by
  unfold loadTable
  cases defaultTableFilename f.cleaner with
  | none => exact .ret _
  | some n =>
    cases f.builtin with
    | some b =>
      show Prog.Complains (match filterLoadBuiltinByFilename b with
        | none => .err _ (.exit 1)
        | some t => .ret (some t))
      cases filterLoadBuiltinByFilename b with
      | none => exact .fail _
      | some t => exact .ret _
    | none =>
      cases f.filename with
      | some fn =>
        refine .bind (readTable_complains _ _) fun r => ?_
        cases r with
        | none => exact .fail _
        | some t => exact .ret _
      | none =>
        refine .bind (findTable_complains _ _ _) fun r => ?_
        cases r with
        | some t => exact .ret _
        | none =>
          show Prog.Complains (match filterLoadBuiltin f with
            | none => .err _ (.exit 1)
            | some t => .ret (some t))
          cases filterLoadBuiltin f with
          | none => exact .fail _
          | some t => exact .ret _

theorem reviewSequence_complains (ctype : Bytes) (datadir : Option Bytes) (q : Sequence) :
    (reviewSequence ctype datadir q).Complains := by
  have load : ∀ fs, (loadTables ctype datadir fs).Complains := by
    intro fs
    induction fs with
    | nil => exact .ret _
    | cons f fs ih => exact .bind (loadTable_complains _ _ _) fun _ => .bind ih fun _ => .ret _
  exact .bind (load _) fun _ => .ret _

theorem parseFile_complains {P : Platform} {o : Options} {q : Sequence} (ho : o.sequenceToUse = some q) (hq : HasTables q)
    (f : Bytes) : (parseFile P o f).Complains := by
  unfold parseFile
  refine .bind (.ofRes ?_) fun hold => ?_
  · rw [ho]; exact sequenceRunFilters_noExit P hq _
  · cases hold with
    | none => exact .ret _
    | some w =>
      show Prog.Complains (if _ then _ else _)
      split
      · exact .ret _
      · refine .lstat fun r => ?_
        cases r with
        | none => exact .ret _
        | some so =>
          refine .lstat fun rn => ?_
          show Prog.Complains (if _ then _ else _)
          split
          · exact .err (.ret _)
          · have hren : ∀ a b, (doRename a b).Complains := by
              intro a b
              refine .rename fun ok => ?_
              cases ok with
              | true => exact .ret _
              | false => exact .err (.ret _)
            unfold announceAndRename
            dsimp only
            repeat' split
            all_goals first
              | exact .out (.ret _)
              | exact .out (hren _ _)
              | exact .ret _
              | exact hren _ _

theorem ignoreFile_noExit (name : Bytes) (ign : Option Filelist) : (ignoreFile name ign).NoExit := by
  have loop : ∀ n l, (ignoreLoop name n l).NoExit := by
    intro n
    induction n with
    | zero => intro l; exact .stuck
    | succ n ih =>
      intro l
      unfold ignoreLoop
      refine .bind (filelistGet_noExit l) fun p => ?_
      obtain ⟨l', w⟩ := p
      cases w with
      | none => exact .ok _
      | some w =>
        show Res.NoExit (if _ then _ else _)
        split
        · exact .ok _
        · exact ih _
  unfold ignoreFile
  split
  · exact .ok _
  · cases ign with
    | none => exact .ok _
    | some l => exact .bind (loop _ _) fun _ => .ok _

theorem dirLoop_complains {P : Platform} {o : Options} {q : Sequence} (ho : o.sequenceToUse = some q) (hq : HasTables q)
    {recDir : Option Filelist → Bytes → Prog (Option Filelist)} (hr : ∀ i f, (recDir i f).Complains) (h : Nat) (filename : Bytes) :
    ∀ (n : Nat) (st : Stat) (ign : Option Filelist), (dirLoop P o recDir h filename n st ign).Complains
  | 0, _, _ => .stuck
  | n + 1, st, ign => by
    have ih := dirLoop_complains (P := P) ho hq hr h filename n
    unfold dirLoop
    refine .readdir fun e => ?_
    cases e with
    | none => exact .closedir (.ret _)
    | some name =>
      refine .bind (.ofRes (ignoreFile_noExit _ _)) fun p => ?_
      show Prog.Complains (if _ then _ else _)
      split
      · exact ih _ _
      · refine .lstat fun r => ?_
        dsimp only
        repeat' split
        all_goals first
          | exact ih _ _
          | exact .bind (parseFile_complains ho hq _) fun _ => ih _ _
          | skip
        exact .bind (parseFile_complains ho hq _) fun work => .bind (hr _ _) fun _ => ih _ _

theorem parseDir_complains {P : Platform} {o : Options} {q : Sequence} (ho : o.sequenceToUse = some q) (hq : HasTables q) :
    ∀ (n : Nat) (ign : Option Filelist) (f : Bytes), (parseDir P o n ign f).Complains
  | 0, _, _ => .stuck
  | n + 1, ign, f => by
    unfold parseDir
    refine .lstat fun r => ?_
    cases r with
    | none => exact .ret _
    | some st =>
      show Prog.Complains (if _ then _ else _)
      split
      · exact .ret _
      · refine .opendir fun d => ?_
        cases d with
        | ok h => exact dirLoop_complains ho hq (parseDir_complains ho hq n) _ _ _ _ _
        | fail => exact .err (.ret _)
        | emfile => exact .fail _

theorem fileLoop_complains {P : Platform} {o : Options} {q : Sequence} (ho : o.sequenceToUse = some q) (hq : HasTables q) (fuel : Nat) :
    ∀ (n : Nat) (l : Filelist) (ign : Option Filelist), (fileLoop P o fuel n l ign).Complains
  | 0, _, _ => .stuck
  | n + 1, l, ign => by
    unfold fileLoop
    refine .bind (.ofRes (filelistGet_noExit l)) fun p => ?_
    obtain ⟨l', w⟩ := p
    cases w with
    | none => exact .ret _
    | some file =>
      refine .bind ?_ fun ign' => fileLoop_complains ho hq fuel n _ _
      have body : (Prog.lstat file fun r => match r with
          | none => .err (file ++ lit ": ") (.ret ign)
          | some st =>
            if st.kind = .dir then (parseFile P o file).bind fun work => parseDir P o fuel ign work
            else if st.kind = .reg then (parseFile P o file).bind fun _ => .ret ign
            else if o.special then (parseFile P o file).bind fun _ => .ret ign
            else .ret ign).Complains := by
        refine .lstat fun r => ?_
        cases r with
        | none => exact .err (.ret _)
        | some st =>
          dsimp only
          repeat' split
          all_goals first
            | exact .ret _
            | exact .bind (parseFile_complains ho hq _) fun _ => .ret _
            | exact .bind (parseFile_complains ho hq _) fun _ => parseDir_complains ho hq _ _ _
      unfold processArg
      dsimp only
      split
      · exact .out body
      · exact body

theorem nextChunk_noExit (P : Platform) (s : Bytes) : (nextChunk P s).NoExit := by
  have seek : ∀ base n d, (seekBack base n d).NoExit := by
    intro base n
    induction n with
    | zero => intro d; exact .stuck
    | succ n ih =>
      intro d
      unfold seekBack
      split
      · exact .ub _
      · split
        · exact ih _
        · exact .ok _
  have comp : ∀ base rest, (completeChunk P base rest).NoExit := by
    intro base rest
    unfold completeChunk
    refine .bind (seek _ _ _) fun d => ?_
    dsimp only
    repeat' split
    all_goals first
      | exact .ok _
      | exact .ub _
  unfold nextChunk
  dsimp only
  split
  · exact .bind (comp _ _) fun _ => .ok _
  · exact .ok _

theorem inlineMain_complains {P : Platform} {o : Options} {q : Sequence} (ho : o.sequenceToUse = some q) (hq : HasTables q)
    (files : Option Filelist) : (inlineMain P o files).Complains := by
  have loop : ∀ n s, (inlineLoop P o n s).Complains := by
    intro n
    induction n with
    | zero =>
      intro s
      cases s with
      | nil => exact .ret _
      | cons c s => exact .stuck
    | succ n ih =>
      intro s
      cases s with
      | nil => exact .ret _
      | cons c s =>
        unfold inlineLoop
        refine .bind (.ofRes (nextChunk_noExit _ _)) fun r => ?_
        have hnext : (printChunk P o r.1 r.2.1 (inlineLoop P o n r.2.2.2)).Complains := by
          unfold printChunk
          refine .bind (.ofRes ?_) fun hold => .out ?_
          · rw [ho]; exact sequenceRunFilters_noExit P hq _
          · split
            · exact .out (ih _)
            · exact ih _
        dsimp only
        split
        · exact .err hnext
        · exact hnext
  have inl : ∀ f, (parseInline P o f).Complains := by
    intro f
    refine .slurp fun r => ?_
    cases r with
    | none => exact .err (.ret _)
    | some s => exact loop _ _
  have args : ∀ n l, (inlineFileLoop P o n l).Complains := by
    intro n
    induction n with
    | zero => intro l; exact .stuck
    | succ n ih =>
      intro l
      unfold inlineFileLoop
      refine .bind (.ofRes (filelistGet_noExit l)) fun p => ?_
      obtain ⟨p, f⟩ := p
      cases f with
      | none => exact .ret _
      | some f =>
        refine .bind ?_ fun _ => ih p
        refine .lstat fun r => ?_
        cases r with
        | none => exact .err (.ret _)
        | some st =>
          show Prog.Complains (if st.kind = .dir then _ else _)
          split
          · exact .err (.ret _)
          · exact inl _
  unfold inlineMain
  cases files with
  | none => exact inl _
  | some l =>
    show Prog.Complains (if _ then _ else _)
    split
    · exact args _ _
    · exact inl _

end Detox
