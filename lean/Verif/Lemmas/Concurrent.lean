import Verif.Spec.Concurrent
import Verif.Lemmas.Result

/-!
# Calls of processes that work in different places can be put in another order
-/

set_option autoImplicit false

namespace Detox
open Spec

/-- `FS.FairStep` or `FS.Step`. -/
def StepBy (fair : Prop) (fs : FS) (e : Event) (fs' : FS) : Prop :=
  FS.Step fs e fs' ∧ (fair → ∀ old new, e = .rename old new false → fs.rename old new = none)

/-- `FS.FairSteps` or `FS.Steps`. -/
inductive StepsBy (fair : Prop) : FS → List Event → FS → Prop
  | nil (fs : FS) : StepsBy fair fs [] fs
  | cons (fs fs1 fs2 : FS) (e : Event) (tr : List Event) : StepBy fair fs e fs1 → StepsBy fair fs1 tr fs2 → StepsBy fair fs (e :: tr) fs2

theorem stepsBy_fair {fs fs' : FS} {tr : List Event} : StepsBy True fs tr fs' ↔ FS.FairSteps fs tr fs' := by
  constructor
  · intro h
    induction h with
    | nil fs => exact .nil fs
    | cons _ _ _ _ _ h1 _ ih => exact .cons _ _ _ _ _ ⟨h1.1, h1.2 trivial⟩ ih
  · intro h
    induction h with
    | nil fs => exact .nil fs
    | cons _ _ _ _ _ h1 _ ih => exact .cons _ _ _ _ _ ⟨h1.1, fun _ => h1.2⟩ ih

theorem stepsBy_any {fs fs' : FS} {tr : List Event} : StepsBy False fs tr fs' ↔ FS.Steps fs tr fs' := by
  constructor
  · intro h
    induction h with
    | nil fs => exact .nil fs
    | cons _ _ _ _ _ h1 _ ih => exact .cons _ _ _ _ _ h1.1 ih
  · intro h
    induction h with
    | nil fs => exact .nil fs
    | cons _ _ _ _ _ h1 _ ih => exact .cons _ _ _ _ _ ⟨h1, fun h => h.elim⟩ ih

theorem StepsBy.append {fair : Prop} {t1 t2 : List Event} {a b c : FS} (h1 : StepsBy fair a t1 b) (h2 : StepsBy fair b t2 c) :
    StepsBy fair a (t1 ++ t2) c := by
  induction h1 with
  | nil => exact h2
  | cons _ _ _ _ _ h _ ih => exact .cons _ _ _ _ _ h (ih h2)

theorem StepsBy.append_inv {fair : Prop} {t1 t2 : List Event} {a c : FS} (h : StepsBy fair a (t1 ++ t2) c) :
    ∃ b, StepsBy fair a t1 b ∧ StepsBy fair b t2 c := by
  induction t1 generalizing a with
  | nil => exact ⟨a, .nil a, h⟩
  | cons e t1 ih =>
    cases h with
    | cons _ fs1 _ _ _ h1 h2 =>
      obtain ⟨mid, h3, h4⟩ := ih h2
      exact ⟨mid, .cons _ _ _ _ _ h1 h3, h4⟩

/-! ### Calls that keep to a part of the file system -/

/-- The call is about the part `T`, and if it is a rename, it is the rename of a file. -/
def Local (T : Ino → Bytes → Prop) (fs : FS) : Event → Prop
  | .lstat p _ => ∀ d n, fs.locate p = some (d, n) → T d n
  | .rename old new _ => endsInSlash old = false ∧
      (∀ d n, fs.locate old = some (d, n) → T d n ∧ ∀ e, fs.find d n = some e → fs.kind e.ino = .reg) ∧
      (∀ d n, fs.locate new = some (d, n) → T d n)
  | _ => True

/-- If the call is a rename, the new name is free. -/
def Free (fs : FS) : Event → Prop
  | .rename old new true => ∀ d1 n1 e d2 n2, fs.locate old = some (d1, n1) → fs.find d1 n1 = some e → fs.locate new = some (d2, n2) →
      fs.find d2 n2 = none ∨ fs.find d2 n2 = some e
  | _ => True

/-- The part `T` is as it was. -/
structure LeavesAlone (T : Ino → Bytes → Prop) (a b : FS) : Prop where
  same : ∃ es, b = { a with entries := es }
  uniq : b.Unique
  locate : ∀ p, b.locate p = a.locate p
  names : ∀ j, b.names j = a.names j
  find : ∀ d n, T d n → b.find d n = a.find d n
  lstat : ∀ p, (∀ d n, a.locate p = some (d, n) → T d n) → b.lstat p = a.lstat p

theorem LeavesAlone.refl {T : Ino → Bytes → Prop} {a : FS} (hu : a.Unique) : LeavesAlone T a a :=
  ⟨⟨a.entries, rfl⟩, hu, fun _ => rfl, fun _ => rfl, fun _ _ _ => rfl, fun _ _ => rfl⟩

theorem LeavesAlone.norm {T : Ino → Bytes → Prop} {a b : FS} (h : LeavesAlone T a b) : b.norm = a.norm := by obtain ⟨es, rfl⟩ := h.same; rfl
theorem LeavesAlone.kind {T : Ino → Bytes → Prop} {a b : FS} (h : LeavesAlone T a b) : b.kind = a.kind := by obtain ⟨es, rfl⟩ := h.same; rfl
theorem LeavesAlone.denied {T : Ino → Bytes → Prop} {a b : FS} (h : LeavesAlone T a b) : b.denied = a.denied := by obtain ⟨es, rfl⟩ := h.same; rfl

theorem LeavesAlone.trans {T : Ino → Bytes → Prop} {a b c : FS} (h1 : LeavesAlone T a b) (h2 : LeavesAlone T b c) : LeavesAlone T a c := by
  refine ⟨?_, h2.uniq, fun p => (h2.locate p).trans (h1.locate p), fun j => (h2.names j).trans (h1.names j),
    fun d n h => (h2.find d n h).trans (h1.find d n h), fun p h => (h2.lstat p fun d n e => h d n (by rw [← h1.locate]; exact e)).trans (h1.lstat p h)⟩
  obtain ⟨es, rfl⟩ := h1.same
  obtain ⟨es', rfl⟩ := h2.same
  exact ⟨es', rfl⟩

theorem LeavesAlone.isLocal {T : Ino → Bytes → Prop} {a b : FS} (h : LeavesAlone T a b) {e : Event} (hl : Local T a e) : Local T b e := by
  cases e with
  | lstat p r => intro d n hd; exact hl d n (by rw [← h.locate]; exact hd)
  | rename old new ok =>
    refine ⟨hl.1, fun d n hd => ?_, fun d n hd => hl.2.2 d n (by rw [← h.locate]; exact hd)⟩
    rw [h.locate] at hd
    obtain ⟨h1, h2⟩ := hl.2.1 d n hd
    refine ⟨h1, fun e he => ?_⟩
    rw [h.find d n h1] at he
    rw [h.kind]
    exact h2 e he
  | _ => trivial

theorem LeavesAlone.isFree {T : Ino → Bytes → Prop} {a b : FS} (h : LeavesAlone T a b) {e : Event} (hl : Local T a e) (hf : Free a e) : Free b e := by
  cases e with
  | rename old new ok =>
    cases ok with
    | false => trivial
    | true =>
      intro d1 n1 e d2 n2 k1 k2 k3
      rw [h.locate] at k1 k3
      rw [h.find _ _ (hl.2.1 _ _ k1).1] at k2
      rw [h.find _ _ (hl.2.2 _ _ k3)]
      exact hf _ _ _ _ _ k1 k2 k3
  | _ => trivial

/-- A rename in an untouched part goes as before. -/
theorem rename_leavesAlone {T : Ino → Bytes → Prop} {a b : FS} (h : LeavesAlone T a b) {old new : Bytes} {ok : Bool} (hl : Local T a (.rename old new ok)) :
    (b.rename old new = none ↔ a.rename old new = none) := by
  have hk := h.kind
  unfold FS.rename
  rw [h.locate, h.locate]
  cases h1 : a.locate old with
  | none => simp
  | some x =>
    obtain ⟨d1, n1⟩ := x
    cases h2 : a.locate new with
    | none => simp
    | some y =>
      obtain ⟨d2, n2⟩ := y
      dsimp only
      obtain ⟨t1, t2⟩ := hl.2.1 _ _ h1
      rw [h.find _ _ t1, h.find _ _ (hl.2.2 _ _ h2), hk]
      cases h3 : a.find d1 n1 with
      | none => simp
      | some e1 =>
        dsimp only
        have hr := t2 e1 h3
        have c1 : ¬ (endsInSlash old = true ∧ a.kind e1.ino ≠ .dir) := by simp [hl.1]
        simp only [if_neg c1]
        by_cases h4 : endsInSlash new = true
        · simp only [if_pos (⟨h4, by rw [hr]; simp⟩ : endsInSlash new = true ∧ a.kind e1.ino ≠ .dir)]
        · have c2 : ∀ q : Prop, ¬ (endsInSlash new = true ∧ q) := fun q h => h4 h.1
          simp only [if_neg (c2 _)]
          by_cases h5 : d1.dev ≠ d2.dev
          · simp only [if_pos h5]
          · simp only [if_neg h5]
            cases h6 : a.find d2 n2 with
            | none => simp
            | some e2 =>
              dsimp only
              by_cases h7 : e2 = e1
              · simp only [if_pos h7]; simp
              · simp only [if_neg h7]
                by_cases h8 : e2.ino = e1.ino
                · simp only [if_pos h8]; simp
                · simp only [if_neg h8]; simp

/-- A rename of a file to a free name. -/
structure MovesTo (fs : FS) (old new : Bytes) (d1 : Ino) (n1 : Bytes) (d2 : Ino) (n2 : Bytes) (e : Entry) : Prop where
  old : fs.locate old = some (d1, n1)
  new : fs.locate new = some (d2, n2)
  here : fs.find d1 n1 = some e
  there : fs.find d2 n2 = none ∨ fs.find d2 n2 = some e
  reg : fs.kind e.ino = .reg

theorem rename_moves {T : Ino → Bytes → Prop} {a a' : FS} {old new : Bytes} (hl : Local T a (.rename old new true)) (hf : Free a (.rename old new true))
    (hr : a.rename old new = some a') : ∃ d1 n1 d2 n2 e, MovesTo a old new d1 n1 d2 n2 e ∧ a' = { a with entries := a.entries.map (moveEntry e d2 n2) } := by
  obtain ⟨d1, n1, d2, n2, e, l1, l2, l3, l4⟩ := FS_rename_cases hr
  have hfree := hf _ _ _ _ _ l1 l3 l2
  refine ⟨d1, n1, d2, n2, e, ⟨l1, l2, l3, hfree, (hl.2.1 _ _ l1).2 _ l3⟩, ?_⟩
  rcases l4 with ⟨_, _, q⟩ | ⟨e2, q1, _, q2⟩
  · exact q
  · rcases hfree with h | h
    · rw [h] at q1; cases q1
    · rw [h] at q1
      cases q1
      rcases q2 with ⟨_, q⟩ | ⟨q, _⟩ | ⟨q, _⟩
      · exact q
      · exact absurd rfl q
      · exact absurd rfl q

/-- The places of two processes are different. -/
def Disjoint (fs : FS) (T1 T2 : Ino → Bytes → Prop) : Prop := ∀ d n n', T1 d n → T2 d n' → fs.norm d n ≠ fs.norm d n'

theorem Disjoint.symm {fs : FS} {T1 T2 : Ino → Bytes → Prop} (h : Disjoint fs T1 T2) : Disjoint fs T2 T1 :=
  fun d n n' h1 h2 e => h d n' n h2 h1 e.symm

theorem Disjoint.of_norm {a b : FS} {T1 T2 : Ino → Bytes → Prop} (h : Disjoint a T1 T2) (he : b.norm = a.norm) : Disjoint b T1 T2 := by
  intro d n n' h1 h2
  rw [he]
  exact h d n n' h1 h2

/-- A call in one part does nothing to another. -/
theorem step_leavesAlone {fair : Prop} {T1 T2 : Ino → Bytes → Prop} {fs fs1 : FS} (hd : Disjoint fs T1 T2) (hu : fs.Unique) {a : Event} (hl : Local T1 fs a) (hf : Free fs a)
    (hs : StepBy fair fs a fs1) : LeavesAlone T2 fs fs1 := by
  cases hs.1 with
  | renamed old new _ hr =>
    obtain ⟨d1, n1, d2, n2, e, hm, rfl⟩ := rename_moves hl hf hr
    obtain ⟨m1, m2, m3⟩ := FS_find_some hm.here
    obtain ⟨M, U⟩ := fileMoved_move hu hm.here hm.there (by rw [hm.reg]; simp)
    have t1 := (hl.2.1 _ _ hm.old).1
    have t2 := hl.2.2 _ _ hm.new
    have far : ∀ d n, T2 d n → ¬ ((d = d1 ∧ fs.norm d n = fs.norm d n1) ∨ (d = d2 ∧ fs.norm d n = fs.norm d n2)) := by
      rintro d n ht (⟨rfl, h⟩ | ⟨rfl, h⟩)
      · exact hd _ _ _ t1 ht h.symm
      · exact hd _ _ _ t2 ht h.symm
    refine ⟨⟨_, rfl⟩, U, M.locate, M.names, ?_, fun p hp => M.lstat fun d n hdn => far d n (hp d n hdn)⟩
    intro d n ht
    have hno := far d n ht
    have key : ∀ x, FS.find { fs with entries := fs.entries.map (moveEntry e d2 n2) } d n = some x ↔ fs.find d n = some x := by
      intro x
      rw [find_iff U, find_iff hu]
      constructor
      · rintro ⟨h1, h2, h3⟩
        obtain ⟨y, hy, rfl⟩ := List.mem_map.1 h1
        unfold moveEntry at h2 h3 ⊢
        by_cases hye : y = e
        · rw [if_pos hye] at h2 h3
          exact absurd (.inr ⟨h2.symm, h3.symm⟩) hno
        · rw [if_neg hye] at h2 h3 ⊢
          exact ⟨hy, h2, h3⟩
      · rintro ⟨h1, h2, h3⟩
        refine ⟨List.mem_map.2 ⟨x, h1, ?_⟩, h2, h3⟩
        unfold moveEntry
        rw [if_neg]
        rintro rfl
        exact hno (.inl ⟨h2.symm.trans m2, by rw [← h3]; rw [← m2] at m3; rw [← h2]; exact m3⟩)
    cases h1 : fs.find d n with
    | some x => exact (key x).2 h1
    | none =>
      cases h2 : FS.find { fs with entries := fs.entries.map (moveEntry e d2 n2) } d n with
      | none => rfl
      | some x => rw [(key x).1 h2] at h1; cases h1
  | _ => exact .refl hu

/-- A call that renames nothing. -/
theorem quiet_step {fair : Prop} {T : Ino → Bytes → Prop} {x y y' : FS} (h : LeavesAlone T x y) {b : Event} (hl : Local T x b)
    (hno : ∀ old new, b ≠ .rename old new true) : (StepBy fair x b y' → y' = x ∧ StepBy fair y b y) ∧ (StepBy fair y b y' → y' = y ∧ StepBy fair x b x) := by
  constructor
  · rintro ⟨h1, h2⟩
    cases h1 with
    | lstat p r e => exact ⟨rfl, .lstat p r ((h.lstat p hl).trans e), fun _ _ _ h => nomatch h⟩
    | renamed old new => exact absurd rfl (hno old new)
    | renameFailed old new =>
      refine ⟨rfl, .renameFailed _ _, fun hf old' new' he => ?_⟩
      cases he
      exact (rename_leavesAlone h hl).2 (h2 hf _ _ rfl)
    | opendir p r => exact ⟨rfl, .opendir p r, fun _ _ _ h => nomatch h⟩
    | readdir p r => exact ⟨rfl, .readdir p r, fun _ _ _ h => nomatch h⟩
    | closedir p => exact ⟨rfl, .closedir p, fun _ _ _ h => nomatch h⟩
    | slurp p r => exact ⟨rfl, .slurp p r, fun _ _ _ h => nomatch h⟩
    | out p => exact ⟨rfl, .out p, fun _ _ _ h => nomatch h⟩
    | err p => exact ⟨rfl, .err p, fun _ _ _ h => nomatch h⟩
  · rintro ⟨h1, h2⟩
    cases h1 with
    | lstat p r e => exact ⟨rfl, .lstat p r ((h.lstat p hl).symm.trans e), fun _ _ _ h => nomatch h⟩
    | renamed old new => exact absurd rfl (hno old new)
    | renameFailed old new =>
      refine ⟨rfl, .renameFailed _ _, fun hf old' new' he => ?_⟩
      cases he
      exact (rename_leavesAlone h hl).1 (h2 hf _ _ rfl)
    | opendir p r => exact ⟨rfl, .opendir p r, fun _ _ _ h => nomatch h⟩
    | readdir p r => exact ⟨rfl, .readdir p r, fun _ _ _ h => nomatch h⟩
    | closedir p => exact ⟨rfl, .closedir p, fun _ _ _ h => nomatch h⟩
    | slurp p r => exact ⟨rfl, .slurp p r, fun _ _ _ h => nomatch h⟩
    | out p => exact ⟨rfl, .out p, fun _ _ _ h => nomatch h⟩
    | err p => exact ⟨rfl, .err p, fun _ _ _ h => nomatch h⟩

/-- A rename in a part that is left alone moves the same entry. -/
theorem moving_step {fair : Prop} {T : Ino → Bytes → Prop} {x y x' y' : FS} (h : LeavesAlone T x y) {old new : Bytes} (hl : Local T x (.rename old new true))
    (hf : Free x (.rename old new true)) (h1 : StepBy fair x (.rename old new true) x') (h2 : StepBy fair y (.rename old new true) y') :
    ∃ d1 n1 d2 n2 e, MovesTo x old new d1 n1 d2 n2 e ∧ x' = { x with entries := x.entries.map (moveEntry e d2 n2) } ∧
      y' = { y with entries := y.entries.map (moveEntry e d2 n2) } := by
  cases h1.1 with
  | renamed _ _ _ r1 =>
  cases h2.1 with
  | renamed _ _ _ r2 =>
  obtain ⟨d1, n1, d2, n2, e, m, hx⟩ := rename_moves hl hf r1
  obtain ⟨d1', n1', d2', n2', e', m', hy⟩ := rename_moves (h.isLocal hl) (h.isFree hl hf) r2
  have a1 := m'.old
  have a2 := m'.new
  have a3 := m'.here
  rw [h.locate, m.old] at a1
  rw [h.locate, m.new] at a2
  cases a1
  cases a2
  rw [h.find _ _ (hl.2.1 _ _ m.old).1, m.here] at a3
  cases a3
  exact ⟨d1, n1, d2, n2, e, m, hx, hy⟩

theorem moveEntry_comm {a b : Entry} {d d' : Ino} {n n' : Bytes} (h1 : a ≠ b) (h2 : ({ dir := d, name := n, ino := a.ino } : Entry) ≠ b)
    (h3 : ({ dir := d', name := n', ino := b.ino } : Entry) ≠ a) (y : Entry) :
    moveEntry b d' n' (moveEntry a d n y) = moveEntry a d n (moveEntry b d' n' y) := by
  unfold moveEntry
  by_cases ha : y = a
  · subst ha
    rw [if_pos rfl, if_neg h2, if_neg h1, if_pos rfl]
  · by_cases hb : y = b
    · subst hb
      rw [if_neg ha, if_pos rfl, if_neg h3]
    · rw [if_neg ha, if_neg hb, if_neg ha]

/-- Calls in different parts can be swapped. -/
theorem step_swap {fair : Prop} {T1 T2 : Ino → Bytes → Prop} {fs fs1 fs2 : FS} (hd : Disjoint fs T1 T2) (hu : fs.Unique) {a b : Event}
    (hla : Local T1 fs a) (hfa : Free fs a) (ha : StepBy fair fs a fs1) (hlb : Local T2 fs b) (hb : StepBy fair fs1 b fs2) :
    ∃ x, StepBy fair fs b x ∧ (Free fs b → StepBy fair x a fs2 ∧ Local T1 x a ∧ Free x a) := by
  have ua := step_leavesAlone hd hu hla hfa ha
  by_cases hbr : ∃ old new, b = .rename old new true
  · obtain ⟨old, new, rfl⟩ := hbr
    have hx : ∃ x, fs.rename old new = some x := by
      cases hr : fs.rename old new with
      | some x => exact ⟨x, rfl⟩
      | none =>
        cases hb.1 with
        | renamed _ _ _ h => rw [(rename_leavesAlone ua hlb).2 hr] at h; cases h
    obtain ⟨x, hx⟩ := hx
    have hbx : StepBy fair fs (.rename old new true) x := ⟨.renamed _ _ _ hx, fun _ _ _ h => nomatch h⟩
    refine ⟨x, hbx, fun hfb => ?_⟩
    have ub := step_leavesAlone hd.symm hu hlb hfb hbx
    refine ⟨?_, ub.isLocal hla, ub.isFree hla hfa⟩
    by_cases har : ∃ old new, a = .rename old new true
    · obtain ⟨old', new', rfl⟩ := har
      have hx' : ∃ x', x.rename old' new' = some x' := by
        cases hr : x.rename old' new' with
        | some x => exact ⟨x, rfl⟩
        | none =>
          cases ha.1 with
          | renamed _ _ _ h => rw [(rename_leavesAlone ub hla).1 hr] at h; cases h
      obtain ⟨x', hx'⟩ := hx'
      have hax : StepBy fair x (.rename old' new' true) x' := ⟨.renamed _ _ _ hx', fun _ _ _ h => nomatch h⟩
      obtain ⟨d1, n1, d2, n2, e, m, rfl, rfl⟩ := moving_step ub hla hfa ha hax
      obtain ⟨d1', n1', d2', n2', e', m', rfl, rfl⟩ := moving_step ua hlb hfb hbx hb
      have p1 := (hla.2.1 _ _ m.old).1
      have p2 := hla.2.2 _ _ m.new
      have q1 := (hlb.2.1 _ _ m'.old).1
      have q2 := hlb.2.2 _ _ m'.new
      obtain ⟨_, e1, e2⟩ := FS_find_some m.here
      obtain ⟨_, e1', e2'⟩ := FS_find_some m'.here
      have : ∀ y, moveEntry e' d2' n2' (moveEntry e d2 n2 y) = moveEntry e d2 n2 (moveEntry e' d2' n2' y) := by
        refine moveEntry_comm ?_ ?_ ?_
        · rintro rfl
          subst e1
          subst e1'
          exact hd _ _ _ p1 q1 (e2.symm.trans e2')
        · rintro rfl
          subst e1'
          exact hd _ _ _ p2 q1 e2'
        · rintro rfl
          subst e1
          exact hd _ _ _ p1 q2 e2.symm
      simp only [List.map_map, Function.comp_def] at hax ⊢
      simpa only [this] using hax
    · have har : ∀ old new, a ≠ .rename old new true := fun o n h => har ⟨o, n, h⟩
      obtain ⟨rfl, h2⟩ := (quiet_step ub hla har).1 ha
      cases hb.1 with
      | renamed _ _ _ h =>
        rw [hx] at h
        cases h
        exact h2
  · have hbr : ∀ old new, b ≠ .rename old new true := fun o n h => hbr ⟨o, n, h⟩
    obtain ⟨rfl, h2⟩ := (quiet_step ua hlb hbr).2 hb
    exact ⟨fs, h2, fun _ => ⟨ha, hla, hfa⟩⟩

/-! ### Series of calls -/

/-- Calls that keep to the part `T`, and rename files to free names only, if nobody interferes with that part. -/
def Careful (fair : Prop) (T : Ino → Bytes → Prop) : FS → List Event → Prop
  | _, [] => True
  | fs, e :: t => Local T fs e ∧ ∀ fs1, StepBy fair fs e fs1 → Free fs e ∧ Careful fair T fs1 t

theorem Careful.append {fair : Prop} {T : Ino → Bytes → Prop} : ∀ {t1 t2 : List Event} {fs : FS}, Careful fair T fs t1 →
    (∀ fs1, StepsBy fair fs t1 fs1 → Careful fair T fs1 t2) → Careful fair T fs (t1 ++ t2)
  | [], _, fs, _, h => h fs (.nil fs)
  | _ :: _, _, _, h1, h2 => ⟨h1.1, fun fs1 hs => ⟨(h1.2 fs1 hs).1, (h1.2 fs1 hs).2.append fun _ hs' => h2 _ (.cons _ _ _ _ _ hs hs')⟩⟩

theorem Careful.left {fair : Prop} {T : Ino → Bytes → Prop} : ∀ {t1 t2 : List Event} {fs : FS}, Careful fair T fs (t1 ++ t2) → Careful fair T fs t1
  | [], _, _, _ => trivial
  | _ :: _, _, _, h => ⟨h.1, fun fs1 hs => ⟨(h.2 fs1 hs).1, (h.2 fs1 hs).2.left⟩⟩

theorem Careful.mono {fair : Prop} {T T' : Ino → Bytes → Prop} (h : ∀ d n, T d n → T' d n) : ∀ {t : List Event} {fs : FS}, Careful fair T fs t → Careful fair T' fs t
  | [], _, _ => trivial
  | e :: _, fs, hc => by
    refine ⟨?_, fun fs1 hs => ⟨(hc.2 fs1 hs).1, (hc.2 fs1 hs).2.mono h⟩⟩
    have := hc.1
    cases e with
    | lstat p r => exact fun d n hd => h d n (this d n hd)
    | rename old new ok => exact ⟨this.1, fun d n hd => ⟨h d n (this.2.1 d n hd).1, (this.2.1 d n hd).2⟩, fun d n hd => h d n (this.2.2 d n hd)⟩
    | _ => trivial

/-- Calls in one part do nothing to another. -/
theorem Careful.leavesAlone {fair : Prop} {T1 T2 : Ino → Bytes → Prop} : ∀ {t : List Event} {fs fs' : FS}, Disjoint fs T1 T2 → fs.Unique → Careful fair T1 fs t →
    StepsBy fair fs t fs' → LeavesAlone T2 fs fs'
  | [], _, _, _, hu, _, hs => by cases hs; exact .refl hu
  | _ :: _, _, _, hd, hu, hc, hs => by
    cases hs with
    | cons _ fs1 _ _ _ h1 h2 =>
      have u := step_leavesAlone hd hu hc.1 (hc.2 _ h1).1 h1
      exact u.trans (Careful.leavesAlone (hd.of_norm u.norm) u.uniq (hc.2 _ h1).2 h2)

/-- A call in one part does not disturb the calls in another ... -/
theorem Careful.undisturbed {fair : Prop} {T1 T2 : Ino → Bytes → Prop} : ∀ {t : List Event} {fs fs1 : FS}, Disjoint fs T1 T2 → fs.Unique → ∀ {a : Event},
    Local T1 fs a → Free fs a → StepBy fair fs a fs1 → Careful fair T2 fs t → Careful fair T2 fs1 t
  | [], _, _, _, _, _, _, _, _, _ => trivial
  | b :: t, fs, fs1, hd, hu, a, hla, hfa, ha, hc => by
    have ua := step_leavesAlone hd hu hla hfa ha
    refine ⟨ua.isLocal hc.1, fun fs2 hb => ?_⟩
    obtain ⟨x, hx, hsw⟩ := step_swap hd hu hla hfa ha hc.1 hb
    obtain ⟨hfb, hcx⟩ := hc.2 x hx
    obtain ⟨h1, h2, h3⟩ := hsw hfb
    have ub := step_leavesAlone hd.symm hu hc.1 hfb hx
    exact ⟨ua.isFree hc.1 hfb, Careful.undisturbed (hd.of_norm ub.norm) ub.uniq h2 h3 h1 hcx⟩

/-- ... and might as well be made after them. -/
theorem Careful.pass {fair : Prop} {T1 T2 : Ino → Bytes → Prop} : ∀ {t : List Event} {fs fs1 fs2 : FS}, Disjoint fs T1 T2 → fs.Unique → ∀ {a : Event},
    Local T1 fs a → Free fs a → StepBy fair fs a fs1 → Careful fair T2 fs t → StepsBy fair fs1 t fs2 → ∃ x, StepsBy fair fs t x ∧ StepBy fair x a fs2
  | [], fs, _, _, _, _, _, _, _, ha, _, hs => by cases hs; exact ⟨fs, .nil fs, ha⟩
  | b :: t, fs, fs1, fs2, hd, hu, a, hla, hfa, ha, hc, hs => by
    cases hs with
    | cons _ y _ _ _ hb hs =>
      obtain ⟨x, hx, hsw⟩ := step_swap hd hu hla hfa ha hc.1 hb
      obtain ⟨hfb, hcx⟩ := hc.2 x hx
      obtain ⟨h1, h2, h3⟩ := hsw hfb
      have ub := step_leavesAlone hd.symm hu hc.1 hfb hx
      obtain ⟨z, hz1, hz2⟩ := Careful.pass (hd.of_norm ub.norm) ub.uniq h2 h3 h1 hcx hs
      exact ⟨z, .cons _ _ _ _ _ hx hz1, hz2⟩

end Detox
