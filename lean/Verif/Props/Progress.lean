import Verif.Lemmas.Scan
import Verif.Props.Safety

/-!
# C59 — between two system calls, detox always gets to the end of its loops

In the model, loops carry a bound and running out of it is the outcome `stuck`. Here: a run with the bounds `fuel` and `n` does
not get stuck within its first `min fuel n - 1` system calls. So as the bounds grow, the model describes every execution, and
what is proved for all bounds holds for the unbounded loops of the code.
-/

set_option autoImplicit false

namespace Detox
open Spec

/-- Within `B` events the program does not get stuck, and `Q a rest` holds if it returns `a` with `rest` events left. -/
def Prog.ns {α : Type} (Q : α → Nat → Prop) : Prog α → Nat → Prop
  | .ret a, B => Q a B
  | .exit _, _ => True
  | .ub _, _ => True
  | .stuck, _ => False
  | .lstat _ k, B => ∀ B', B = B' + 1 → ∀ r, ns Q (k r) B'
  | .rename _ _ k, B => ∀ B', B = B' + 1 → ∀ r, ns Q (k r) B'
  | .opendir _ k, B => ∀ B', B = B' + 1 → ∀ r, ns Q (k r) B'
  | .readdir _ k, B => ∀ B', B = B' + 1 → ∀ r, ns Q (k r) B'
  | .closedir _ k, B => ∀ B', B = B' + 1 → ns Q k B'
  | .slurp _ k, B => ∀ B', B = B' + 1 → ∀ r, ns Q (k r) B'
  | .out _ k, B => ∀ B', B = B' + 1 → ns Q k B'
  | .err _ k, B => ∀ B', B = B' + 1 → ns Q k B'

theorem Prog.ns_mono {α : Type} {Q Q' : α → Nat → Prop} (p : Prog α) : ∀ (B : Nat),
    (∀ a B', B' ≤ B → Q a B' → Q' a B') → p.ns Q B → p.ns Q' B := by
  induction p with
  | ret a => intro B hQ h; exact hQ a B (Nat.le_refl _) h
  | exit n => intros; trivial
  | ub u => intros; trivial
  | stuck => intro B hQ h; exact h
  | lstat p k ih => intro B hQ h B' hB r; exact ih r B' (fun a b hb => hQ a b (by omega)) (h B' hB r)
  | rename o n k ih => intro B hQ h B' hB r; exact ih r B' (fun a b hb => hQ a b (by omega)) (h B' hB r)
  | opendir p k ih => intro B hQ h B' hB r; exact ih r B' (fun a b hb => hQ a b (by omega)) (h B' hB r)
  | readdir d k ih => intro B hQ h B' hB r; exact ih r B' (fun a b hb => hQ a b (by omega)) (h B' hB r)
  | closedir d k ih => intro B hQ h B' hB; exact ih B' (fun a b hb => hQ a b (by omega)) (h B' hB)
  | slurp p k ih => intro B hQ h B' hB r; exact ih r B' (fun a b hb => hQ a b (by omega)) (h B' hB r)
  | out s k ih => intro B hQ h B' hB; exact ih B' (fun a b hb => hQ a b (by omega)) (h B' hB)
  | err s k ih => intro B hQ h B' hB; exact ih B' (fun a b hb => hQ a b (by omega)) (h B' hB)

theorem Prog.ns_bind {α β : Type} {Q : β → Nat → Prop} (p : Prog α) (f : α → Prog β) : ∀ (B : Nat),
    p.ns (fun a B' => B' ≤ B → (f a).ns Q B') B → (p.bind f).ns Q B := by
  induction p with
  | ret a => intro B h; exact h (Nat.le_refl _)
  | exit n => intros; trivial
  | ub u => intros; trivial
  | stuck => intro B h; exact h
  | lstat p k ih => intro B h B' hB r; exact ih r B' (Prog.ns_mono _ _ (fun a b hb h hb' => h (by omega)) (h B' hB r))
  | rename o n k ih => intro B h B' hB r; exact ih r B' (Prog.ns_mono _ _ (fun a b hb h hb' => h (by omega)) (h B' hB r))
  | opendir p k ih => intro B h B' hB r; exact ih r B' (Prog.ns_mono _ _ (fun a b hb h hb' => h (by omega)) (h B' hB r))
  | readdir d k ih => intro B h B' hB r; exact ih r B' (Prog.ns_mono _ _ (fun a b hb h hb' => h (by omega)) (h B' hB r))
  | closedir d k ih => intro B h B' hB; exact ih B' (Prog.ns_mono _ _ (fun a b hb h hb' => h (by omega)) (h B' hB))
  | slurp p k ih => intro B h B' hB r; exact ih r B' (Prog.ns_mono _ _ (fun a b hb h hb' => h (by omega)) (h B' hB r))
  | out s k ih => intro B h B' hB; exact ih B' (Prog.ns_mono _ _ (fun a b hb h hb' => h (by omega)) (h B' hB))
  | err s k ih => intro B h B' hB; exact ih B' (Prog.ns_mono _ _ (fun a b hb h hb' => h (by omega)) (h B' hB))

theorem Prog.ns_ofRes {α β : Type} {Q : β → Nat → Prop} (x : Res α) (f : α → Prog β) (B : Nat) (hx : x ≠ .stuck)
    (hp : ∀ a, x = .ok a → (f a).ns Q B) : ((Prog.ofRes x).bind f).ns Q B := by
  cases x with
  | ok a => exact hp a rfl
  | exit n => trivial
  | ub u => trivial
  | stuck => exact absurd rfl hx

theorem Prog.ns_sound {α : Type} {Q : α → Nat → Prop} {p : Prog α} {tr : List Event} {o : Outcome α} (ht : Trace p tr o) :
    ∀ (B : Nat), p.ns Q B → tr.length ≤ B → o ≠ .stuck := by
  induction ht with
  | stop p => intro B _ _ h; cases h
  | ret a => intro B _ _ h; cases h
  | exit n => intro B _ _ h; cases h
  | ub u => intro B _ _ h; cases h
  | stuck => intro B h _; exact h.elim
  | lstat p k r tr o ht ih => intro B h hl; exact ih (B - 1) (h (B - 1) (by simp at hl; omega) r) (by simp at hl; omega)
  | rename a b k r tr o ht ih => intro B h hl; exact ih (B - 1) (h (B - 1) (by simp at hl; omega) r) (by simp at hl; omega)
  | opendir p k r tr o ht ih => intro B h hl; exact ih (B - 1) (h (B - 1) (by simp at hl; omega) r) (by simp at hl; omega)
  | readdir d k r tr o ht ih => intro B h hl; exact ih (B - 1) (h (B - 1) (by simp at hl; omega) r) (by simp at hl; omega)
  | closedir d k tr o ht ih => intro B h hl; exact ih (B - 1) (h (B - 1) (by simp at hl; omega)) (by simp at hl; omega)
  | slurp p k r tr o ht ih => intro B h hl; exact ih (B - 1) (h (B - 1) (by simp at hl; omega) r) (by simp at hl; omega)
  | out s k tr o ht ih => intro B h hl; exact ih (B - 1) (h (B - 1) (by simp at hl; omega)) (by simp at hl; omega)
  | err s k tr o ht ih => intro B h hl; exact ih (B - 1) (h (B - 1) (by simp at hl; omega)) (by simp at hl; omega)

/-! ### Cleaning a name terminates, whatever the name, tables and platform -/

theorem emit_not_stuck (n : Nat) (out : Bytes) : emit n out ≠ .stuck := by
  rw [emit_eq]; split <;> simp

theorem push_cases (o : OutBuf) (c : Byte) : (∃ o', o.push c = .ok o') ∨ o.push c = .ub .oobWrite := by
  unfold OutBuf.push; split
  · exact Or.inl ⟨_, rfl⟩
  · exact Or.inr rfl

theorem finish_not_stuck (o : OutBuf) : o.finish ≠ .stuck := by
  unfold OutBuf.finish
  rcases push_cases o 0 with ⟨o', h⟩ | h <;> rw [h] <;> simp

theorem ctypeCall_cases {α : Type} (P : Platform) (f : Byte → α) (c : Byte) :
    ctypeCall P f c = .ok (f c) ∨ ctypeCall P f c = .ub .ctypeArg := by
  unfold ctypeCall; split
  · exact Or.inr rfl
  · exact Or.inl rfl

theorem cleanLowerLoop_not_stuck (P : Platform) : ∀ (s : Bytes) (o : OutBuf), cleanLowerLoop P o s ≠ .stuck
  | [], o => by simp [cleanLowerLoop]
  | c :: s, o => by
    unfold cleanLowerLoop
    rcases ctypeCall_cases P isUpperC c with h | h <;> rw [h]
    · simp only [Res.bind_ok]
      split
      · rcases push_cases o (toLowerC c) with ⟨o', h⟩ | h <;> rw [h]
        · exact cleanLowerLoop_not_stuck P s o'
        · simp
      · rcases push_cases o c with ⟨o', h⟩ | h <;> rw [h]
        · exact cleanLowerLoop_not_stuck P s o'
        · simp
    · simp

theorem uncgiEsc_not_stuck (P : Platform) (c : Byte) (rest : Bytes) : uncgiEsc P c rest ≠ .stuck := by
  unfold uncgiEsc uncgiTest
  split
  · rcases ctypeCall_cases P isXDigitC (peek rest) with h | h <;> rw [h]
    · simp only [Res.bind_ok]
      split
      · rcases ctypeCall_cases P isXDigitC (peek rest.tail) with h | h <;> rw [h] <;> simp
      · simp
    · simp
  · simp

theorem cleanUncgiLoop_not_stuck (P : Platform) : ∀ (n : Nat) (s : Bytes) (o : OutBuf), s.length ≤ n →
    cleanUncgiLoop P n o s ≠ .stuck
  | 0, [], o, _ => by simp [cleanUncgiLoop]
  | n + 1, [], o, _ => by simp [cleanUncgiLoop]
  | 0, c :: s, o, h => by simp at h
  | n + 1, c :: s, o, h => by
    unfold cleanUncgiLoop
    simp only [List.length_cons] at h
    cases he : uncgiEsc P c s with
    | ok b =>
      simp only [Res.bind_ok]
      split
      · rcases push_cases o (UInt8.ofNat (hexVal (peek s) * 16 + hexVal (peek s.tail))) with ⟨o', h'⟩ | h' <;> rw [h']
        · exact cleanUncgiLoop_not_stuck P n _ o' (by rw [List.length_drop]; omega)
        · simp
      · split
        · rcases push_cases o 0x20 with ⟨o', h'⟩ | h' <;> rw [h']
          · exact cleanUncgiLoop_not_stuck P n _ o' (by omega)
          · simp
        · rcases push_cases o c with ⟨o', h'⟩ | h' <;> rw [h']
          · exact cleanUncgiLoop_not_stuck P n _ o' (by omega)
          · simp
    | exit m => simp
    | ub u => simp
    | stuck => exact absurd he (uncgiEsc_not_stuck P c s)

theorem cleanWipeupLoop_not_stuck (search : Bytes) : ∀ (s : Bytes) (o : OutBuf) (cur : Option Nat),
    cleanWipeupLoop search o cur s ≠ .stuck
  | [], o, cur => by
    unfold cleanWipeupLoop
    cases cur with
    | none => simp
    | some i =>
      dsimp only
      rcases push_cases o (search.getD i 0) with ⟨o', h⟩ | h <;> rw [h] <;> simp
  | c :: s, o, cur => by
    unfold cleanWipeupLoop
    split
    · exact cleanWipeupLoop_not_stuck search s _ _
    · cases cur with
      | none =>
        dsimp only
        rcases push_cases o c with ⟨o', h⟩ | h
        · simp only [h, Res.bind_ok, Res.pure_eq]; exact cleanWipeupLoop_not_stuck search s _ _
        · simp [h]
      | some i =>
        dsimp only
        rcases push_cases o (search.getD i 0) with ⟨o1, h1⟩ | h1
        · rcases push_cases o1 c with ⟨o', h⟩ | h
          · simp only [h1, h, Res.bind_ok]; exact cleanWipeupLoop_not_stuck search s _ _
          · simp only [h1, h, Res.bind_ok, Res.bind_ub]; simp
        · simp only [h1, Res.bind_ub]; simp

theorem lookBack_not_stuck (P : Platform) (s : Bytes) (ext : Nat) : ∀ i, lookBack P s ext i ≠ .stuck
  | 0 => by unfold lookBack; split <;> simp
  | i + 1 => by
    unfold lookBack
    split
    · split
      · simp
      · split
        · simp
        · exact lookBack_not_stuck P s ext i
    · simp

theorem bind_not_stuck {α β : Type} {x : Res α} {f : α → Res β} (hx : x ≠ .stuck) (hf : ∀ a, f a ≠ .stuck) : (x >>= f) ≠ .stuck := by
  cases x with
  | ok a => exact hf a
  | exit n => simp
  | ub u => simp
  | stuck => exact absurd rfl hx

theorem filterRun_not_stuck (P : Platform) (f : Filter) (s : Bytes) : filterRun P f (some s) ≠ .stuck := by
  unfold filterRun
  cases f.cleaner <;> dsimp only <;> refine bind_not_stuck ?_ (fun a => by simp)
  · cases ht : f.table with
    | none => simp [cleanIso]
    | some t => rw [cleanIso_eq]; exact emit_not_stuck _ _
  · exact bind_not_stuck (cleanLowerLoop_not_stuck P s _) finish_not_stuck
  · unfold cleanMaxLength
    generalize (if f.maxLength = 0 then 256 else f.maxLength) = ml
    dsimp only
    split
    · simp
    · split
      · simp
      · next e0 he =>
        split
        · simp
        · refine bind_not_stuck (lookBack_not_stuck P s e0 e0) ?_
          intro ext
          split <;> simp
  · cases ht : f.table with
    | none => simp [cleanSafe]
    | some t => rw [cleanSafe_eq]; exact emit_not_stuck _ _
  · exact bind_not_stuck (cleanUncgiLoop_not_stuck P _ s _ (Nat.le_refl _)) finish_not_stuck
  · cases ht : f.table with
    | none => simp [cleanUtf8]
    | some t => rw [cleanUtf8_eq]; exact emit_not_stuck _ _
  · exact bind_not_stuck (cleanWipeupLoop_not_stuck _ _ _ _) finish_not_stuck

theorem runFilters_not_stuck (P : Platform) : ∀ (fs : List Filter) (w : Option Bytes), runFilters P fs w ≠ .stuck
  | [], w => by simp [runFilters]
  | f :: fs, none => by simp [runFilters]
  | f :: fs, some s => by
    unfold runFilters
    exact bind_not_stuck (filterRun_not_stuck P f s) (fun r => runFilters_not_stuck P fs r)

/-- Cleaning any name with any sequence terminates. -/
theorem C59_cleaning_terminates (P : Platform) (q : Option Sequence) (name : Option Bytes) :
    sequenceRunFilters P q name ≠ .stuck := by
  unfold sequenceRunFilters
  cases q with
  | none => simp
  | some q =>
    cases name with
    | none => simp
    | some s => exact runFilters_not_stuck P _ _

/-! ### The run -/

/-- The ignore list is intact. -/
def IgnV (ign : Option Filelist) : Prop := ∀ l, ign = some l → ∃ ws k, l.Holds ws k

theorem ignoreFile_ns {ign : Option Filelist} (hv : IgnV ign) (name : Bytes) :
    ∃ ign' b, ignoreFile name ign = .ok (ign', b) ∧ IgnV ign' := by
  by_cases hh : Hidden name
  · exact ⟨ign, true, ignoreFile_hidden name ign hh, hv⟩
  · cases ign with
    | none =>
      obtain ⟨ign', h1, h2⟩ := ignoreFile_visible (ws := []) (ign := none) (seen := []) rfl name hh
      refine ⟨ign', _, h1, ?_⟩
      intro l hl; subst hl; exact ⟨[], _, h2⟩
    | some l =>
      obtain ⟨ws, k, hl⟩ := hv l rfl
      obtain ⟨l', h1, h2⟩ := ignoreLoop_holds name (l.count + 1) k l hl (by rw [hl.1]; omega)
      refine ⟨some l', decide (name ∈ ws.drop k), ?_, ?_⟩
      · unfold ignoreFile
        have hne : ¬ name.head? = some 0x2E := by
          intro hx
          cases name with
          | nil => cases hx
          | cons c r => simp at hx; exact hh ⟨r, by rw [hx]⟩
        simp only [hne, if_false, h1, Res.bind_ok]; rfl
      · intro l'' he; cases he; exact ⟨ws, _, h2⟩

theorem checkAndRename_ns (o : Options) (f new : Bytes) (B : Nat) : (checkAndRename o f new).ns (fun _ B' => B' ≤ B) B := by
  unfold checkAndRename announceAndRename doRename
  intro B1 h1 r
  cases r with
  | none => show B1 ≤ B; omega
  | some so =>
    intro B2 h2 rn
    dsimp only
    have ren : ∀ B3, B3 ≤ B → (Prog.rename f new fun ok =>
        if ok then .ret new else Prog.err (lit "Cannot rename " ++ f ++ lit " to " ++ new ++ lit ": ") (.ret f)).ns (fun _ B' => B' ≤ B) B3 := by
      intro B3 h3 B4 h4 ok
      cases ok with
      | true => show B4 ≤ B; omega
      | false => intro B5 h5; show B5 ≤ B; omega
    split
    · intro B3 h3; show B3 ≤ B; omega
    · split
      · intro B3 h3
        split
        · show B3 ≤ B; omega
        · exact ren B3 (by omega)
      · split
        · show B2 ≤ B; omega
        · exact ren B2 (by omega)

theorem parseFile_ns (P : Platform) (o : Options) (f : Bytes) (B : Nat) : (parseFile P o f).ns (fun _ B' => B' ≤ B) B := by
  rw [parseFile_eq]
  refine Prog.ns_ofRes _ _ _ ?_ ?_
  · unfold wantedName
    refine bind_not_stuck (C59_cleaning_terminates P _ _) ?_
    intro r
    cases r with
    | none => simp
    | some w => dsimp only; split <;> simp
  · intro w _
    cases w with
    | none => exact Nat.le_refl _
    | some new => exact checkAndRename_ns o f new B

theorem dirLoop_ns {P : Platform} {o : Options} (recDir : Option Filelist → Bytes → Prog (Option Filelist)) (n : Nat)
    (hrec : ∀ ign f B, IgnV ign → B < n → (recDir ign f).ns (fun ign' B' => IgnV ign' ∧ B' ≤ B) B) (hd : Nat) (f : Bytes) :
    ∀ (m : Nat) (st : Stat) (ign : Option Filelist) (B : Nat), IgnV ign → B < m → B < n →
      (dirLoop P o recDir hd f m st ign).ns (fun ign' B' => IgnV ign' ∧ B' ≤ B) B := by
  intro m
  induction m with
  | zero => intro st ign B _ h; omega
  | succ m ih =>
    intro st ign B hv hm hn
    intro B1 h1 e
    cases e with
    | none => intro B2 h2; exact ⟨hv, by omega⟩
    | some name =>
      obtain ⟨ign', b, hi, hv'⟩ := ignoreFile_ns hv name
      dsimp only
      rw [hi]
      show Prog.ns _ (if b then _ else _) B1
      have next : ∀ (ign'' : Option Filelist) (st' : Stat) (B' : Nat), IgnV ign'' → B' ≤ B1 →
          (dirLoop P o recDir hd f m st' ign'').ns (fun ign' B' => IgnV ign' ∧ B' ≤ B) B' := by
        intro ign'' st' B' h hb
        exact Prog.ns_mono _ _ (fun a c hc h => ⟨h.1, by omega⟩) (ih st' ign'' B' h (by omega) (by omega))
      split
      · exact next _ _ _ hv' (Nat.le_refl _)
      · intro B2 h2 r
        dsimp only
        split
        · refine Prog.ns_bind _ _ _ (Prog.ns_mono _ _ ?_ (parseFile_ns P o _ B2))
          intro work B3 h3 _ _
          split
          · refine Prog.ns_bind _ _ _ (Prog.ns_mono _ _ ?_ (hrec _ _ B3 hv' (by omega)))
            intro ign2 B4 h4 h5 _
            exact next _ _ _ h5.1 (by omega)
          · exact next _ _ _ hv' (by omega)
        · split
          · refine Prog.ns_bind _ _ _ (Prog.ns_mono _ _ ?_ (parseFile_ns P o _ B2))
            intro work B3 h3 _ _
            exact next _ _ _ hv' (by omega)
          · exact next _ _ _ hv' (by omega)

theorem parseDir_ns {P : Platform} {o : Options} : ∀ (n : Nat) (ign : Option Filelist) (f : Bytes) (B : Nat), IgnV ign → B < n →
    (parseDir P o n ign f).ns (fun ign' B' => IgnV ign' ∧ B' ≤ B) B := by
  intro n
  induction n with
  | zero => intro ign f B _ h; omega
  | succ n ih =>
    intro ign f B hv hn
    intro B1 h1 r
    cases r with
    | none => exact ⟨hv, by omega⟩
    | some st =>
      dsimp only
      split
      · exact ⟨hv, by omega⟩
      · intro B2 h2 d
        cases d with
        | ok hd =>
          exact Prog.ns_mono _ _ (fun a c hc h => ⟨h.1, by omega⟩)
            (dirLoop_ns _ n (fun ign f B h hb => ih ign f B h hb) hd f n st ign B2 hv (by omega) (by omega))
        | fail => intro B3 h3; exact ⟨hv, by omega⟩
        | emfile => intro B3 h3; trivial

theorem processArg_ns {P : Platform} {o : Options} (fuel : Nat) (ign : Option Filelist) (f : Bytes) (B : Nat) (hv : IgnV ign)
    (hB : B < fuel) : (processArg P o fuel ign f).ns (fun ign' B' => IgnV ign' ∧ B' < B) B := by
  have body : ∀ B1, B1 ≤ B → (Prog.lstat f fun r =>
      match r with
      | none => .err (f ++ lit ": ") (.ret ign)
      | some st =>
        if st.kind = .dir then
          (parseFile P o f).bind fun work => parseDir P o fuel ign work
        else if st.kind = .reg then (parseFile P o f).bind fun _ => .ret ign
        else if o.special then (parseFile P o f).bind fun _ => .ret ign
        else .ret ign).ns (fun ign' B' => IgnV ign' ∧ B' < B) B1 := by
    intro B1 h1 B2 h2 r
    cases r with
    | none => intro B3 h3; exact ⟨hv, by omega⟩
    | some st =>
      have one : ((parseFile P o f).bind fun _ => Prog.ret ign).ns (fun ign' B' => IgnV ign' ∧ B' < B) B2 := by
        refine Prog.ns_bind _ _ _ (Prog.ns_mono _ _ ?_ (parseFile_ns P o f B2))
        intro work B3 h3 _ _
        exact ⟨hv, by omega⟩
      dsimp only
      split
      · refine Prog.ns_bind _ _ _ (Prog.ns_mono _ _ ?_ (parseFile_ns P o f B2))
        intro work B3 h3 _ _
        exact Prog.ns_mono _ _ (fun a c hc h => ⟨h.1, by omega⟩) (parseDir_ns fuel ign work B3 hv (by omega))
      · split
        · exact one
        · split
          · exact one
          · exact ⟨hv, by omega⟩
  unfold processArg
  dsimp only
  split
  · intro B1 h1
    exact body B1 (by omega)
  · exact body B (Nat.le_refl _)

theorem fileLoop_ns {P : Platform} {o : Options} (fuel : Nat) : ∀ (n : Nat) (l : Filelist) (ign : Option Filelist) (B : Nat),
    (∃ args k, l.Holds args k) → IgnV ign → B < fuel → B < n →
    (fileLoop P o fuel n l ign).ns (fun _ _ => True) B := by
  intro n
  induction n with
  | zero => intro l ign B _ _ _ h; omega
  | succ n ih =>
    intro l ign B hl hv hf hn
    obtain ⟨args, k, hl⟩ := hl
    have hg := filelistGet_holds hl
    unfold fileLoop
    split at hg
    · obtain ⟨l', h1, h2⟩ := hg
      rw [h1]
      show Prog.ns _ ((processArg P o fuel ign _).bind _) B
      refine Prog.ns_bind _ _ _ (Prog.ns_mono _ _ ?_ (processArg_ns fuel ign _ B hv hf))
      intro ign' B' hb h3 _
      exact ih l' ign' B' ⟨args, _, h2⟩ h3.1 (by omega) (by omega)
    · obtain ⟨l', h1, h2⟩ := hg
      rw [h1]
      trivial

/-- **C59.** Whatever the system answers, a run with loop bounds beyond the number of system calls made so far is not stuck:
it waits for an answer, returned, exited, or met undefined behaviour. -/
theorem C59_no_endless_loop_between_system_calls (P : Platform) (o : Options) (fuel n : Nat) (files : Filelist) (args ws : List Bytes)
    (j k : Nat) (hf : files.Holds args j) (ign : Option Filelist) (hi : ∀ l, ign = some l → l.Holds ws k) (tr : List Event)
    (out : Outcome (Option Filelist)) (ht : Trace (fileLoop P o fuel n files ign) tr out) (h1 : tr.length < fuel) (h2 : tr.length < n) :
    out ≠ .stuck :=
  Prog.ns_sound ht tr.length
    (fileLoop_ns fuel n files ign tr.length ⟨args, j, hf⟩ (fun l hl => ⟨ws, k, hi l hl⟩) h1 h2) (Nat.le_refl _)

end Detox
