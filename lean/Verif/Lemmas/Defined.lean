import Verif.Props.Progress
import Verif.Lemmas.MainRun
import Verif.Props.Inline

/-!
# Programs without undefined behaviour
-/

set_option autoImplicit false

namespace Detox
open Spec

/-- As long as all calls are answered as `A` says, there is no undefined behaviour, the program gets stuck only if `S`, and what it
returns satisfies `Q`. -/
def Prog.Defined {α : Type} (S : Prop) (A : Event → Prop) (Q : α → Prop) : Prog α → Prop
  | .ret a => Q a
  | .exit _ => True
  | .ub _ => False
  | .stuck => S
  | .lstat p k => ∀ r, A (.lstat p r) → Defined S A Q (k r)
  | .rename o n k => ∀ r, A (.rename o n r) → Defined S A Q (k r)
  | .opendir p k => ∀ r, A (.opendir p r) → Defined S A Q (k r)
  | .readdir h k => ∀ r, A (.readdir h r) → Defined S A Q (k r)
  | .closedir h k => A (.closedir h) → Defined S A Q k
  | .slurp p k => ∀ r, A (.slurp p r) → Defined S A Q (k r)
  | .out s k => A (.out s) → Defined S A Q k
  | .err s k => A (.err s) → Defined S A Q k

theorem Prog.Defined.mono {α : Type} {S S' : Prop} {A : Event → Prop} {Q Q' : α → Prop} (hS : S → S') (hQ : ∀ a, Q a → Q' a)
    {p : Prog α} (h : p.Defined S A Q) : p.Defined S' A Q' := by
  induction p with
  | ret a => exact hQ a h
  | exit n => trivial
  | ub u => exact h.elim
  | stuck => exact hS h
  | lstat p k ih => exact fun r hr => ih r (h r hr)
  | rename o n k ih => exact fun r hr => ih r (h r hr)
  | opendir p k ih => exact fun r hr => ih r (h r hr)
  | readdir d k ih => exact fun r hr => ih r (h r hr)
  | closedir d k ih => exact fun hr => ih (h hr)
  | slurp p k ih => exact fun r hr => ih r (h r hr)
  | out s k ih => exact fun hr => ih (h hr)
  | err s k ih => exact fun hr => ih (h hr)

theorem Prog.Defined.bind {α β : Type} {S : Prop} {A : Event → Prop} {Q : α → Prop} {R : β → Prop} {p : Prog α} {f : α → Prog β}
    (h : p.Defined S A Q) (hf : ∀ a, Q a → (f a).Defined S A R) : (p.bind f).Defined S A R := by
  induction p with
  | ret a => exact hf a h
  | exit n => trivial
  | ub u => exact h.elim
  | stuck => exact h
  | lstat p k ih => exact fun r hr => ih r (h r hr)
  | rename o n k ih => exact fun r hr => ih r (h r hr)
  | opendir p k ih => exact fun r hr => ih r (h r hr)
  | readdir d k ih => exact fun r hr => ih r (h r hr)
  | closedir d k ih => exact fun hr => ih (h hr)
  | slurp p k ih => exact fun r hr => ih r (h r hr)
  | out s k ih => exact fun hr => ih (h hr)
  | err s k ih => exact fun hr => ih (h hr)

theorem Prog.Defined.sound {α : Type} {S : Prop} {A : Event → Prop} {Q : α → Prop} {p : Prog α} {tr : List Event} {out : Outcome α}
    (ht : Trace p tr out) (h : p.Defined S A Q) (ha : ∀ e ∈ tr, A e) :
    (∀ u, out ≠ .ub u) ∧ (out = .stuck → S) ∧ ∀ a, out = .ret a → Q a := by
  induction ht with
  | stop p => exact ⟨nofun, nofun, nofun⟩
  | ret a => exact ⟨nofun, nofun, fun b hb => by cases hb; exact h⟩
  | exit n => exact ⟨nofun, nofun, nofun⟩
  | ub u => exact h.elim
  | stuck => exact ⟨nofun, fun _ => h, nofun⟩
  | lstat p k r tr o ht ih => exact ih (h r (ha _ (by simp))) fun e he => ha e (by simp [he])
  | rename a b k r tr o ht ih => exact ih (h r (ha _ (by simp))) fun e he => ha e (by simp [he])
  | opendir p k r tr o ht ih => exact ih (h r (ha _ (by simp))) fun e he => ha e (by simp [he])
  | readdir d k r tr o ht ih => exact ih (h r (ha _ (by simp))) fun e he => ha e (by simp [he])
  | closedir d k tr o ht ih => exact ih (h (ha _ (by simp))) fun e he => ha e (by simp [he])
  | slurp p k r tr o ht ih => exact ih (h r (ha _ (by simp))) fun e he => ha e (by simp [he])
  | out s k tr o ht ih => exact ih (h (ha _ (by simp))) fun e he => ha e (by simp [he])
  | err s k tr o ht ih => exact ih (h (ha _ (by simp))) fun e he => ha e (by simp [he])

theorem Prog.Defined.of_traces {α : Type} {S : Prop} {A : Event → Prop} {Q : α → Prop} (p : Prog α)
    (h : ∀ tr out, Trace p tr out → (∀ e ∈ tr, A e) → (∀ u, out ≠ .ub u) ∧ (out = .stuck → S) ∧ ∀ a, out = .ret a → Q a) :
    p.Defined S A Q := by
  induction p with
  | ret a => exact (h [] (.ret a) (.ret a) nofun).2.2 a rfl
  | exit n => trivial
  | ub u => exact (h [] (.ub u) (.ub u) nofun).1 u rfl
  | stuck => exact (h [] .stuck .stuck nofun).2.1 rfl
  | lstat p k ih =>
    exact fun r hr => ih r fun tr out ht ha => h _ _ (.lstat p k r tr out ht) (by simpa [hr] using ha)
  | rename o n k ih => exact fun r hr => ih r fun tr out ht ha => h _ _ (.rename o n k r tr out ht) (by simpa [hr] using ha)
  | opendir p k ih => exact fun r hr => ih r fun tr out ht ha => h _ _ (.opendir p k r tr out ht) (by simpa [hr] using ha)
  | readdir d k ih => exact fun r hr => ih r fun tr out ht ha => h _ _ (.readdir d k r tr out ht) (by simpa [hr] using ha)
  | closedir d k ih => exact fun hr => ih fun tr out ht ha => h _ _ (.closedir d k tr out ht) (by simpa [hr] using ha)
  | slurp p k ih => exact fun r hr => ih r fun tr out ht ha => h _ _ (.slurp p k r tr out ht) (by simpa [hr] using ha)
  | out s k ih => exact fun hr => ih fun tr out ht ha => h _ _ (.out s k tr out ht) (by simpa [hr] using ha)
  | err s k ih => exact fun hr => ih fun tr out ht ha => h _ _ (.err s k tr out ht) (by simpa [hr] using ha)

theorem Prog.Defined.ofRes {α : Type} {S : Prop} {A : Event → Prop} {Q : α → Prop} {x : Res α} {a : α} (hx : x = .ok a) (h : Q a) :
    (Prog.ofRes x).Defined S A Q := by
  subst hx; exact h

/-! ### Files and directories -/

/-- Names in directories are as `N` says. -/
def CNames (N : Bytes → Prop) (A : Event → Prop) : Prop := ∀ d n, A (.readdir d (some n)) → N n

/-- Cleaning turns such names into C strings; they are C strings, and parts of such names are such names. -/
structure Cleans (P : Platform) (o : Options) (N : Bytes → Prop) : Prop where
  nulFree : ∀ s, N s → NulFree s
  part : ∀ s t, N s → t <:+: s → N t
  clean : ∀ s, N s → ∃ out, sequenceRunFilters P o.sequenceToUse (some s) = .ok (some out) ∧ NulFree out

theorem dirPart_base (f : Bytes) : f = dirPart f ++ basePart f := (splitsAs_parts f).1

theorem basePart_infix (f : Bytes) : basePart f <:+: f := ⟨dirPart f, [], by rw [List.append_nil]; exact (dirPart_base f).symm⟩

theorem basePart_entry (f name : Bytes) : basePart ((f ++ [0x2F] ++ name).take (f.length + 1023)) <:+: name := by
  have e : (f ++ [0x2F] ++ name).take (f.length + 1023) = (f ++ [0x2F]) ++ name.take 1022 := by
    rw [List.take_append, List.take_of_length_le (by simp)]
    congr 2
    simp
  have hs := splitsAs_unique (p := (f ++ [0x2F]) ++ name.take 1022) (d := f ++ [0x2F] ++ dirPart (name.take 1022))
    (n := basePart (name.take 1022)) ⟨by rw [List.append_assoc _ (dirPart _), ← dirPart_base], (splitsAs_parts _).2.1, .inr ?_⟩
  · rw [e, ← hs.2]
    exact (basePart_infix _).trans (List.take_prefix _ _).isInfix
  · rcases (splitsAs_parts (name.take 1022)).2.2 with h | ⟨d, h⟩
    · exact ⟨f, by rw [h, List.append_nil]⟩
    · exact ⟨f ++ [0x2F] ++ d, by rw [h, List.append_assoc, List.append_assoc, List.append_assoc]⟩

variable {P : Platform} {o : Options} {A : Event → Prop} {N : Bytes → Prop}

theorem parseFile_defined (hc : Cleans P o N) (hs : o.sequenceToUse ≠ none) {f : Bytes} (hf : NulFree f) (hn : N (basePart f)) :
    (parseFile P o f).Defined False A NulFree := by
  have hd : NulFree (dirPart f) := fun h => hf (by rw [dirPart_base f]; exact List.mem_append_left _ h)
  unfold parseFile
  cases hp : isProtected (basePart f) with
  | true =>
    have : sequenceRunFilters P o.sequenceToUse none = .ok none := by
      cases hq : o.sequenceToUse with
      | none => exact absurd hq hs
      | some q => rfl
    simp only [hp, if_true]
    rw [this]
    exact hf
  | false =>
    obtain ⟨w, hw, hw'⟩ := hc.clean _ hn
    simp only [hp, Bool.false_eq_true, if_false]
    rw [hw]
    show (if basePart f = w then Prog.ret f else checkAndRename o f (dirPart f ++ w)).Defined False A NulFree
    split
    · exact hf
    · have hn : NulFree (dirPart f ++ w) := by
        intro h
        rcases List.mem_append.1 h with h | h
        · exact hd h
        · exact hw' h
      generalize dirPart f ++ w = new at hn
      unfold checkAndRename
      intro r _
      cases r with
      | none => exact hf
      | some so =>
        intro rn _
        dsimp only
        split
        · exact fun _ => hf
        · unfold announceAndRename doRename
          have ren : (Prog.rename f new fun ok => if ok then Prog.ret new else
              .err (lit "Cannot rename " ++ f ++ lit " to " ++ new ++ lit ": ") (.ret f)).Defined False A NulFree := by
            intro ok _
            cases ok with
            | true => exact hn
            | false => exact fun _ => hf
          dsimp only
          split
          · intro _
            split
            · exact hf
            · exact ren
          · split
            · exact hf
            · exact ren

theorem nulFree_entry {f name : Bytes} (hf : NulFree f) (hn : NulFree name) (k : Nat) : NulFree ((f ++ [0x2F] ++ name).take k) := by
  intro h
  have := List.mem_of_mem_take h
  simp only [List.mem_append, List.mem_singleton] at this
  rcases this with (h | h) | h
  · exact hf h
  · exact absurd h (by decide)
  · exact hn h

theorem dirLoop_defined (hA : CNames N A) (hc : Cleans P o N) (hs : o.sequenceToUse ≠ none)
    (recDir : Option Filelist → Bytes → Prog (Option Filelist))
    (hrec : ∀ ign f, IgnV ign → NulFree f → (recDir ign f).Defined True A IgnV) (hd : Nat) (f : Bytes) (hf : NulFree f) :
    ∀ (m : Nat) (st : Stat) (ign : Option Filelist), IgnV ign → (dirLoop P o recDir hd f m st ign).Defined True A IgnV := by
  intro m
  induction m with
  | zero => intro st ign _; trivial
  | succ m ih =>
    intro st ign hv e he
    cases e with
    | none => exact fun _ => hv
    | some name =>
      have hnf := nulFree_entry hf (hc.nulFree _ (hA _ _ he)) (f.length + 1023)
      have hnb := hc.part _ _ (hA _ _ he) (basePart_entry f name)
      obtain ⟨ign', b, hi, hv'⟩ := ignoreFile_ns hv name
      dsimp only
      rw [hi]
      show (if b then _ else _ : Prog _).Defined True A IgnV
      split
      · exact ih _ _ hv'
      · intro r _
        dsimp only
        split
        · refine ((parseFile_defined hc hs hnf hnb).mono False.elim fun _ h => h).bind fun work hw => ?_
          split
          · exact (hrec _ _ hv' hw).bind fun ign2 h2 => ih _ _ h2
          · exact ih _ _ hv'
        · split
          · exact ((parseFile_defined hc hs hnf hnb).mono False.elim fun _ h => h).bind fun _ _ => ih _ _ hv'
          · exact ih _ _ hv'

theorem parseDir_defined (hA : CNames N A) (hc : Cleans P o N) (hs : o.sequenceToUse ≠ none) :
    ∀ (n : Nat) (ign : Option Filelist) (f : Bytes), IgnV ign → NulFree f → (parseDir P o n ign f).Defined True A IgnV := by
  intro n
  induction n with
  | zero => intro ign f _ _; trivial
  | succ n ih =>
    intro ign f hv hf r _
    cases r with
    | none => exact hv
    | some st =>
      dsimp only
      split
      · exact hv
      · intro d _
        cases d with
        | ok hd => exact dirLoop_defined hA hc hs _ ih hd f hf n st ign hv
        | fail => exact fun _ => hv
        | emfile => exact fun _ => trivial

theorem processArg_defined (hA : CNames N A) (hc : Cleans P o N) (hs : o.sequenceToUse ≠ none) (fuel : Nat) (ign : Option Filelist)
    (f : Bytes) (hv : IgnV ign) (hf : N f) : (processArg P o fuel ign f).Defined True A IgnV := by
  have pf : (parseFile P o f).Defined True A NulFree := 
    (parseFile_defined hc hs (hc.nulFree _ hf) (hc.part _ _ hf (basePart_infix f))).mono False.elim fun _ h => h
  have body : (Prog.lstat f fun r =>
      match r with
      | none => .err (f ++ lit ": ") (.ret ign)
      | some st =>
        if st.kind = .dir then
          (parseFile P o f).bind fun work => parseDir P o fuel ign work
        else if st.kind = .reg then (parseFile P o f).bind fun _ => .ret ign
        else if o.special then (parseFile P o f).bind fun _ => .ret ign
        else .ret ign).Defined True A IgnV := by
    intro r _
    cases r with
    | none => exact fun _ => hv
    | some st =>
      dsimp only
      split
      · exact pf.bind fun work hw => parseDir_defined hA hc hs fuel ign work hv hw
      · split
        · exact pf.bind fun _ _ => hv
        · split
          · exact pf.bind fun _ _ => hv
          · exact hv
  unfold processArg
  dsimp only
  split
  · exact fun _ => body
  · exact body

theorem fileLoop_defined (hA : CNames N A) (hc : Cleans P o N) (hs : o.sequenceToUse ≠ none) (fuel : Nat) {args : List Bytes}
    (hargs : ∀ w ∈ args, N w) : ∀ (n : Nat) (l : Filelist) (k : Nat) (ign : Option Filelist), l.Holds args k → IgnV ign →
    (fileLoop P o fuel n l ign).Defined True A fun _ => True := by
  intro n
  induction n with
  | zero => intro l k ign _ _; trivial
  | succ n ih =>
    intro l k ign hl hv
    have hg := filelistGet_holds hl
    unfold fileLoop
    split at hg
    · obtain ⟨l', h1, h2⟩ := hg
      rw [h1]
      exact (processArg_defined hA hc hs fuel ign _ hv (hargs _ (List.getElem_mem _))).bind fun ign' h => ih _ _ _ h2 h
    · obtain ⟨l', h1, h2⟩ := hg
      rw [h1]
      trivial

/-- With as many rounds as there are arguments, only the bound on directories can be too small. -/
theorem fileLoop_rounds (fuel : Nat) : ∀ (n : Nat) (l : Filelist) (ign : Option Filelist) (B k : Nat) (args : List Bytes),
    l.Holds args k → IgnV ign → B < fuel → args.length - k < n → (fileLoop P o fuel n l ign).ns (fun _ _ => True) B := by
  intro n
  induction n with
  | zero => intro l ign B k args _ _ _ h; omega
  | succ n ih =>
    intro l ign B k args hl hv hf hn
    have hg := filelistGet_holds hl
    unfold fileLoop
    split at hg
    · obtain ⟨l', h1, h2⟩ := hg
      rw [h1]
      show Prog.ns _ ((processArg P o fuel ign _).bind _) B
      refine Prog.ns_bind _ _ _ (Prog.ns_mono _ _ ?_ (processArg_ns fuel ign _ B hv hf))
      intro ign' B' hb h3 _
      exact ih l' ign' B' _ args h2 h3.1 (by omega) (by omega)
    · obtain ⟨l', h1, h2⟩ := hg
      rw [h1]
      trivial

/-! ### Config files -/

/-- A config file without NUL bytes and without numbers that are no `int`. -/
def PlainConfig (text : Bytes) : Prop :=
  (0 : Byte) ∉ text ∧ ∀ d, d <:+: text → (∀ c ∈ d, isDigitByte c = true) → decimal d ≤ 2147483647

/-- `c` has come about by reading config files. -/
def Sound (c : Option ConfigFile) : Prop := ∃ ds ws, Loaded c ds ws

/-- This config file is plain, if it can be read. -/
def PlainAt (A : Event → Prop) (p : Bytes) : Prop := ∀ text, A (.slurp (some p) (some text)) → PlainConfig text

theorem outTimes_defined {α : Type} {S : Prop} {Q : α → Prop} (s : Bytes) (k : Prog α) (h : k.Defined S A Q) :
    ∀ n, (outTimes s n k).Defined S A Q := by
  intro n
  induction n with
  | zero => exact h
  | succ n ih => exact fun _ => ih

theorem parseConfigFile_defined {file : Bytes} (hp : PlainAt A file) {before : Option ConfigFile × Nat} (hl : Sound before.1) :
    (parseConfigFile file before).Defined False A fun c => Sound c.1 := by
  intro r hr
  cases r with
  | none => exact hl
  | some text =>
    obtain ⟨ds, ws, hl⟩ := hl
    obtain ⟨h0, hn⟩ := hp text hr
    refine outTimes_defined _ _ ?_ _
    rcases C64_reading_a_config_file_is_defined file text hl h0 hn with ⟨c, h⟩ | h
    · simp only [h]
      obtain ⟨rs, _, h2⟩ := C63_accepted_texts_have_a_meaning hl h
      exact ⟨_, _, h2⟩
    · simp only [h]
      exact fun _ => trivial

theorem tryConfig_defined {path : Bytes} (hp : path.length < maxPathLen → PlainAt A path) {before : Option ConfigFile × Nat} (hl : Sound before.1) :
    (tryConfig path before).Defined False A fun c => Sound c.1 := by
  unfold tryConfig
  split
  · next h => exact parseConfigFile_defined (hp h) hl
  · exact hl

/-- The files that may be read as config files. -/
def configFiles (E : ConfigEnv) : Option Bytes → List Bytes
  | some f => [f]
  | none => systemFiles E ++ userFiles E

theorem inDir_mem {d rest : Bytes} (h : (d ++ rest).length < maxPathLen) : d ++ rest ∈ inDir (some d) rest := by
  unfold inDir short
  have : maxPathLen = 256 := rfl
  rw [this] at h
  simp only [h, if_true]
  exact List.mem_singleton.2 rfl

theorem configFileLoad_defined {E : ConfigEnv} {check : Option Bytes} (hp : ∀ p ∈ configFiles E check, PlainAt A p) :
    (configFileLoad E check).Defined False A fun c => ∃ l ws, c.filesToIgnore = some l ∧ l.Holds ws 0 := by
  have fin : ∀ c, Sound (some c) → ∃ l ws, c.filesToIgnore = some l ∧ l.Holds ws 0 := by
    rintro c ⟨ds, ws, _, l, h1, h2⟩
    exact ⟨l, ws, h1, h2⟩
  unfold configFileLoad
  cases check with
  | some f =>
    have h0 : Sound none := ⟨[], [], rfl, rfl⟩
    refine (parseConfigFile_defined (hp f (by simp [configFiles])) h0).bind fun r hr => ?_
    obtain ⟨r, line⟩ := r
    cases r with
    | some c => exact fin c hr
    | none => exact fun _ => trivial
  | none =>
    have hs : ∀ p ∈ systemFiles E, PlainAt A p := fun p h => hp p (List.mem_append_left _ h)
    have hu : ∀ p ∈ userFiles E, PlainAt A p := fun p h => hp p (List.mem_append_right _ h)
    have h0 : Sound none := ⟨[], [], rfl, rfl⟩
    refine Prog.Defined.bind (Q := fun c => Sound c.1) ?_ fun c1 h1 => ?_
    · cases he : E.sysconfdir with
      | none => exact h0
      | some d =>
        refine tryConfig_defined (fun hl => hs _ ?_) h0
        unfold systemFiles
        rw [he]
        simp [inDir_mem hl]
    refine Prog.Defined.bind (Q := fun c => Sound c.1) ?_ fun c2 h2 => ?_
    · obtain ⟨c1, line⟩ := c1
      cases c1 with
      | some c => exact h1
      | none => exact parseConfigFile_defined (hs _ (by simp [systemFiles])) h0
    refine Prog.Defined.bind (Q := fun c => Sound c.1) ?_ fun c3 h3 => ?_
    · obtain ⟨c2, line⟩ := c2
      cases c2 with
      | some c => exact h2
      | none => exact parseConfigFile_defined (hs _ (by simp [systemFiles])) h0
    refine Prog.Defined.bind (Q := fun c => Sound c.1) ?_ fun c4 h4 => ?_
    · cases he : E.home with
      | none => exact h3
      | some d =>
        refine tryConfig_defined (fun hl => hu _ ?_) h3
        unfold userFiles
        rw [he]
        simp [inDir_mem hl]
    refine Prog.Defined.bind (Q := fun c => Sound c.1) ?_ fun c5 h5 => ?_
    · cases he : E.xdg with
      | none => exact h4
      | some d =>
        refine tryConfig_defined (fun hl => hu _ ?_) h4
        unfold userFiles
        rw [he]
        simp [inDir_mem hl]
    obtain ⟨c5, line⟩ := c5
    cases c5 with
    | some c => exact fin c h5
    | none =>
      obtain ⟨l, hl, hl'⟩ := filelistPut_holds filelistInit_holds (lit "{arch}")
      have : spoofConfigFile = .ok { sequences := spoofSequences, filesToIgnore := some l } := by
        unfold spoofConfigFile
        rw [hl]
        rfl
      exact Prog.Defined.ofRes this ⟨l, _, rfl, hl'⟩

/-! ### Options, tables and listing -/

theorem putFiles_ok : ∀ (ws : List Bytes) (l : Filelist) (done : List Bytes), l.Holds done 0 → ∃ l', putFiles l ws = .ok l'
  | [], l, done, _ => ⟨l, rfl⟩
  | w :: ws, l, done, h => by
    obtain ⟨l1, h1, h2⟩ := filelistPut_holds h w
    obtain ⟨l2, h3⟩ := putFiles_ok ws l1 _ h2
    exact ⟨l2, by unfold putFiles; rw [h1]; exact h3⟩

theorem parseOptions_defined (program : Bytes) (args : List Bytes) (env : Option Bytes) (posix : Bool) :
    (parseOptions program args env posix).Defined False A fun _ => True := by
  have key : ∀ items o, (applyItems program o items).Defined False A fun _ => True := by
    intro items
    induction items with
    | nil => exact fun o => trivial
    | cons i items ih =>
      intro o
      refine Prog.Defined.bind (Q := fun _ => True) ?_ fun o' _ => ih o'
      unfold applyItem
      repeat' split
      all_goals first
        | trivial
        | exact fun _ _ _ => trivial
        | exact fun _ _ => trivial
        | exact fun _ => trivial
  refine (key _ _).bind fun o _ => ?_
  unfold withOperands
  split
  · trivial
  · split
    · split
      · trivial
      · exact fun _ => trivial
    · obtain ⟨l, hl⟩ := putFiles_ok (getoptAll posix args.length args).2 filelistInit [] filelistInit_holds
      rw [hl]
      trivial

theorem reviewSequence_defined (ctype : Bytes) (datadir : Option Bytes) (q : Sequence) :
    (reviewSequence ctype datadir q).Defined False A fun _ => True := by
  have read : ∀ p, (readTable ctype p).Defined False A fun _ => True := fun p _ _ => trivial
  have try1 : ∀ p, (tryTable ctype p).Defined False A fun _ => True := by
    intro p
    unfold tryTable
    split
    · exact read p
    · trivial
  have find : ∀ n, (findTable ctype datadir n).Defined False A fun _ => True := by
    intro n
    unfold findTable
    refine Prog.Defined.bind (Q := fun _ => True) ?_ fun t1 _ => ?_
    · cases datadir with
      | none => trivial
      | some d => exact try1 _
    · cases t1 with
      | some t => trivial
      | none =>
        refine (try1 _).bind fun t2 _ => ?_
        cases t2 with
        | some t => trivial
        | none => exact try1 _
  have load : ∀ f, (loadTable ctype datadir f).Defined False A fun _ => True := by
    intro f
    unfold loadTable
    split
    · trivial
    · split
      · split
        · exact fun _ => trivial
        · trivial
      · split
        · refine (read _).bind fun r _ => ?_
          cases r with
          | none => exact fun _ => trivial
          | some t => trivial
        · refine (find _).bind fun r _ => ?_
          cases r with
          | some t => trivial
          | none =>
            simp only
            split
            · exact fun _ => trivial
            · trivial
  have all : ∀ fs, (loadTables ctype datadir fs).Defined False A fun _ => True := by
    intro fs
    induction fs with
    | nil => trivial
    | cons f fs ih => exact (load f).bind fun _ _ => ih.bind fun _ _ => trivial
  exact (all _).bind fun _ _ => trivial

theorem dumpIgnored_ok : ∀ (n k : Nat) (ws : List Bytes) (l : Filelist), l.Holds ws k → ws.length - k < n → ∃ t, dumpIgnored n l = .ok t
  | 0, k, ws, l, _, h => absurd h (Nat.not_lt_zero _)
  | n + 1, k, ws, l, h, hn => by
    have hg := filelistGet_holds h
    unfold dumpIgnored
    split at hg
    · obtain ⟨l', h1, h2⟩ := hg
      obtain ⟨t, ht⟩ := dumpIgnored_ok n _ ws l' h2 (by omega)
      rw [h1]
      simp only [Res.bind_ok]
      rw [ht]
      exact ⟨_, rfl⟩
    · obtain ⟨l', h1, h2⟩ := hg
      rw [h1]
      exact ⟨[], rfl⟩

theorem dumpConfigFile_ok {c : ConfigFile} (o : Options) {l : Filelist} {ws : List Bytes} (h : c.filesToIgnore = some l) (hl : l.Holds ws 0) :
    ∃ t, dumpConfigFile c o = .ok t := by
  unfold dumpConfigFile
  rw [h]
  simp only
  split
  · obtain ⟨t, ht⟩ := dumpIgnored_ok (l.count + 1) 0 ws l hl (by rw [hl.1]; omega)
    rw [ht]
    exact ⟨_, rfl⟩
  · exact ⟨_, rfl⟩

/-! ### Inline mode -/

/-- This input, if it can be read, is valid UTF-8 without NUL bytes. -/
def TextAt (A : Event → Prop) (p : Option Bytes) : Prop := ∀ s, A (.slurp p (some s)) → NulFree s ∧ ValidUtf8 s

theorem parseInline_defined (hP : P.Benign) {q : Sequence} (hq : o.sequenceToUse = some q) (hr : ∀ f ∈ q.filters, f.Ready)
    {path : Option Bytes} (hp : TextAt A path) : (parseInline P o path).Defined False A fun _ => True := by
  refine .of_traces _ fun tr out h ha => ?_
  have : (out = .running ∨ out = .ret ()) → (∀ u, out ≠ .ub u) ∧ (out = .stuck → False) ∧ ∀ a : Unit, out = .ret a → True := by
    rintro (rfl | rfl) <;> exact ⟨nofun, nofun, fun _ _ => trivial⟩
  refine this ?_
  cases hh : h with
  | stop => exact .inl rfl
  | slurp _ _ r tr _ h' =>
    cases r with
    | none =>
      cases h' with
      | stop => exact .inl rfl
      | err _ _ _ _ h' =>
        cases h' with
        | stop => exact .inl rfl
        | ret => exact .inr rfl
    | some s =>
      obtain ⟨h1, h2⟩ := hp s (ha _ (by simp))
      exact C39_inline_is_safe_on_utf8 P hP o q hq hr path s h1 h2 tr out h

theorem inlineMain_defined (hP : P.Benign) {q : Sequence} (hq : o.sequenceToUse = some q) (hr : ∀ f ∈ q.filters, f.Ready)
    {args : List Bytes} (h0 : TextAt A none) (hp : ∀ w ∈ args, TextAt A (some w)) {l : Filelist} (hl : l.Holds args 0) :
    (inlineMain P o (some l)).Defined False A fun _ => True := by
  have loop : ∀ (n k : Nat) (l : Filelist), l.Holds args k → args.length - k < n → (inlineFileLoop P o n l).Defined False A fun _ => True := by
    intro n
    induction n with
    | zero => intro k l _ h; omega
    | succ n ih =>
      intro k l hl hn
      have hg := filelistGet_holds hl
      unfold inlineFileLoop
      split at hg
      · obtain ⟨l', h1, h2⟩ := hg
        rw [h1]
        show ((inlineArg P o args[k]).bind fun _ => inlineFileLoop P o n l').Defined False A fun _ => True
        refine Prog.Defined.bind (Q := fun _ => True) ?_ fun _ _ => ih _ _ h2 (by omega)
        intro r _
        cases r with
        | none => exact fun _ => trivial
        | some st =>
          dsimp only
          split
          · exact fun _ => trivial
          · exact parseInline_defined hP hq hr (hp _ (List.getElem_mem _))
      · obtain ⟨l', h1, h2⟩ := hg
        rw [h1]
        trivial
  unfold inlineMain
  simp only
  split
  · exact loop _ 0 l hl (by rw [hl.1]; omega)
  · exact parseInline_defined hP hq hr h0

end Detox
