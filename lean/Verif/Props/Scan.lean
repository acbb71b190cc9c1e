import Verif.Lemmas.Scan
import Verif.Lemmas.Sequences
import Verif.Props.File

/-!
# C33–C36, C57, C58 — scanning directories, whatever the system answers
-/

set_option autoImplicit false

namespace Detox
open Spec

/-- The ignore list `ws` as `main` hands it over: just filled, cursor at the start. -/
def FreshIgnore (ign : Option Filelist) (ws : List Bytes) : Prop :=
  match ign with
  | none => ws = []
  | some l => l.Holds ws 0

/-- An execution of detox on the arguments `args` with the ignore list `ws`. -/
structure Run (P : Platform) (o : Options) (args ws : List Bytes) (tr : List Event) (out : Outcome (Option Filelist)) : Prop where
  exists_trace : ∃ fuel n files ign, files.Holds args 0 ∧ FreshIgnore ign ws ∧ Trace (fileLoop P o fuel n files ign) tr out

theorem Run.scan {P : Platform} {o : Options} {args ws : List Bytes} {tr : List Event} {out : Outcome (Option Filelist)}
    (h : Run P o args ws tr out) : (∀ pre e post, tr = pre ++ e :: post → ScanOk ws args o pre.reverse e) ∧
      ∀ a, out = .ret a → openDirs tr.reverse = [] := by
  obtain ⟨fuel, n, files, ign, hf, hi, ht⟩ := h
  have hi' : IgnOk ws ign (visible []) := by
    cases ign with
    | none => exact hi
    | some l => exact hi
  have hw := fileLoop_scan (P := P) (o := o) (ws := ws) fuel n 0 files ign [] hf (by intro a b c h; cases h) hi'
  have hs := Prog.wp_sound hw ht
  refine ⟨fun pre e post heq => by simpa using hs.1 pre e post heq, fun a ha => ?_⟩
  have := (hs.2 a ha).2.1
  simpa [openDirs] using this

/-- **C33.** After a hidden entry has been read from a directory, the very next thing detox does is to read the next
entry of that directory: it does not even look at the hidden one. -/
theorem C33_hidden_entries_are_passed_over (P : Platform) (o : Options) (args ws : List Bytes) (tr : List Event)
    (out : Outcome (Option Filelist)) (ht : Run P o args ws tr out) (pre post : List Event) (hd : Nat) (rest : Bytes)
    (e : Event) (heq : tr = pre ++ .readdir hd (some (lit "." ++ rest)) :: e :: post) : ∃ r, e = .readdir hd r := by
  have := ht.scan.1 (pre ++ [.readdir hd (some (lit "." ++ rest))]) e post (by simp [heq])
  exact this.skip hd (lit "." ++ rest) pre.reverse (by simp) (Or.inl ⟨rest, rfl⟩)

/-- **C34.** An entry in the ignore list is passed over, unless the last visible entry read before it (anywhere in the run)
was in the ignore list too. Missing: that case, in which the claim fails (`C34_second_ignored_entry_is_renamed`). -/
theorem C34_ignored_entries_are_passed_over_partial (P : Platform) (o : Options) (args ws : List Bytes) (tr : List Event)
    (out : Outcome (Option Filelist)) (ht : Run P o args ws tr out) (pre post : List Event) (hd : Nat) (name : Bytes)
    (e : Event) (heq : tr = pre ++ .readdir hd (some name) :: e :: post) (hmem : name ∈ ws)
    (hlast : ∀ last, (visible pre.reverse).head? = some last → last ∉ ws) : ∃ r, e = .readdir hd r := by
  have := ht.scan.1 (pre ++ [.readdir hd (some name)]) e post (by simp [heq])
  refine this.skip hd name pre.reverse (by simp) (Or.inr ?_)
  have h0 : cursorAfter ws (visible pre.reverse) = 0 := by
    cases hv : visible pre.reverse with
    | nil => rfl
    | cons x xs =>
      have := hlast x (by rw [hv]; rfl)
      have hx : x ∉ ws.drop (cursorAfter ws xs) := fun h => this (List.mem_of_mem_drop h)
      simp [cursorAfter, hx]
  rw [h0]; exact hmem

/-- Exactly which entries are passed over: `cursorAfter` (the position of the cursor of the ignore list) describes what
is left of the list. -/
theorem C34_what_is_passed_over (P : Platform) (o : Options) (args ws : List Bytes) (tr : List Event)
    (out : Outcome (Option Filelist)) (ht : Run P o args ws tr out) (pre post : List Event) (hd : Nat) (name : Bytes)
    (e : Event) (heq : tr = pre ++ .readdir hd (some name) :: e :: post) :
    (∃ r, e = .readdir hd r) ↔ (Hidden name ∨ name ∈ ws.drop (cursorAfter ws (visible pre.reverse))) := by
  have h := ht.scan.1 (pre ++ [.readdir hd (some name)]) e post (by simp [heq])
  constructor
  · rintro ⟨r, rfl⟩
    refine Decidable.byContradiction fun hn => ?_
    obtain ⟨d, S, r', _, h2⟩ := h.visit hd name pre.reverse (by simp) hn
    cases h2
  · intro hs
    exact h.skip hd name pre.reverse (by simp) hs

/-- The built-in default sequence, reviewed. -/
def defaultOptions : Options := { sequenceToUse := some { name := lit "default", filters := [safeF, wipeF] } }

/-- What the system answers when `A` and `B` are directories that contain just `{arch}`, a regular file. -/
def archTrace : List Event := [
  .lstat (lit "A") (some ⟨1, 1, 2, .dir⟩), .lstat (lit "A") (some ⟨1, 1, 2, .dir⟩), .opendir (lit "A") (.ok 0),
  .readdir 0 (some (lit "{arch}")), .readdir 0 none, .closedir 0,
  .lstat (lit "B") (some ⟨1, 2, 2, .dir⟩), .lstat (lit "B") (some ⟨1, 2, 2, .dir⟩), .opendir (lit "B") (.ok 0),
  .readdir 0 (some (lit "{arch}")), .lstat (lit "B/{arch}") (some ⟨1, 3, 1, .reg⟩),
  .lstat (lit "B/{arch}") (some ⟨1, 3, 1, .reg⟩), .lstat (lit "B/arch-") none,
  .rename (lit "B/{arch}") (lit "B/arch-") true, .readdir 0 none, .closedir 0]

def putAll (ws : List Bytes) : Filelist :=
  ws.foldl (fun l w => match filelistPut l w with | .ok l' => l' | _ => l) filelistInit

theorem putAll_holds (ws : List Bytes) : (putAll ws).Holds ws 0 := by
  have gen : ∀ (ws done : List Bytes) (l : Filelist) (n : Nat), l.Holds done n → (ws = [] → n = 0) →
      (ws.foldl (fun l w => match filelistPut l w with | .ok l' => l' | _ => l) l).Holds (done ++ ws) 0 := by
    intro ws
    induction ws with
    | nil => intro done l n h h0; rw [h0 rfl] at h; simpa using h
    | cons w ws ih =>
      intro done l n h _
      obtain ⟨l', h1, h2⟩ := filelistPut_holds h w
      simp only [List.foldl_cons, h1]
      have := ih (done ++ [w]) l' 0 h2 (fun _ => rfl)
      simpa using this
  exact gen ws [] filelistInit 0 filelistInit_holds (fun _ => rfl)

/-- **C34 is false of the code**: with the built-in configuration (ignore `{arch}`), `detox A B` renames the `{arch}` in `B`
if `A` contains nothing visible but a `{arch}`: the cursor of the ignore list is not rewound after a match. -/
theorem C34_second_ignored_entry_is_renamed : ∃ tr, Run exPlatform defaultOptions [lit "A", lit "B"] [lit "{arch}"] tr .running ∧
    .readdir 0 (some (lit "{arch}")) ∈ tr ∧ .rename (lit "B/{arch}") (lit "B/arch-") true ∈ tr := by
  refine ⟨archTrace, ⟨10, 10, putAll [lit "A", lit "B"], some (putAll [lit "{arch}"]), putAll_holds _, putAll_holds _, ?_⟩, ?_, ?_⟩
  · exact Prog.accepts_sound _ _ (by decide +kernel)
  · decide
  · decide

/-- **C35.** detox opens a directory only right after `lstat` said that it is one; without `-r`, only directories given
as arguments, under that name or the one they were just renamed to. -/
theorem C35_only_real_directories_are_opened (P : Platform) (o : Options) (args ws : List Bytes) (tr : List Event)
    (out : Outcome (Option Filelist)) (ht : Run P o args ws tr out) (pre post : List Event) (p : Bytes) (r : OpenRes)
    (heq : tr = pre ++ .opendir p r :: post) :
    (∃ pre0 st, pre = pre0 ++ [.lstat p (some st)] ∧ st.kind = .dir) ∧
    (o.recurse = false → p ∈ args ∨ ∃ a ∈ args, .rename a p true ∈ pre) := by
  have h := (ht.scan.1 pre _ post heq).opens p r rfl
  refine ⟨?_, ?_⟩
  · obtain ⟨⟨st, t, h1, h2⟩, _⟩ := h
    refine ⟨t.reverse, st, ?_, h2⟩
    have := congrArg List.reverse h1
    simpa using this
  · intro hr
    rcases h.2 with h | h | ⟨a, ha, h⟩
    · rw [hr] at h; cases h
    · exact Or.inl h
    · exact Or.inr ⟨a, ha, by simpa using h⟩

/-- A case of C35, C57 and C58: a directory holding one file. -/
def dirTrace : List Event := [
  .lstat (lit "d") (some ⟨1, 1, 2, .dir⟩), .lstat (lit "d") (some ⟨1, 1, 2, .dir⟩), .opendir (lit "d") (.ok 0),
  .readdir 0 (some (lit ".hidden")), .readdir 0 (some (lit "A")), .lstat (lit "d/A") (some ⟨1, 3, 1, .reg⟩),
  .lstat (lit "d/A") (some ⟨1, 3, 1, .reg⟩), .lstat (lit "d/a") none, .rename (lit "d/A") (lit "d/a") true,
  .readdir 0 none, .closedir 0]

theorem dirTrace_run : Run exPlatform exOptions [lit "d"] [] dirTrace .running :=
  ⟨10, 10, putAll [lit "d"], none, putAll_holds _, rfl, Prog.accepts_sound _ _ (by decide +kernel)⟩

/-- The same run, to its end. -/
theorem dirTrace_complete : Run exPlatform exOptions [lit "d"] [] dirTrace (.ret none) :=
  ⟨10, 10, putAll [lit "d"], none, putAll_holds _, rfl, Prog.result_sound _ _ _ (by decide +kernel)⟩

/-! ### C36 -/

/-- Nobody else changes anything: two `lstat` calls on the same path, one right after the other, agree. -/
def NoInterference (tr : List Event) : Prop :=
  ∀ pre post p r r', tr = pre ++ .lstat p r :: .lstat p r' :: post → r = r'

theorem Run.trace {P : Platform} {o : Options} {args ws : List Bytes} {tr : List Event} {out : Outcome (Option Filelist)}
    (h : Run P o args ws tr out) : ∃ fuel n files ign, Trace (fileLoop P o fuel n files ign) tr out := by
  obtain ⟨fuel, n, files, ign, _, _, ht⟩ := h
  exact ⟨fuel, n, files, ign, ht⟩

/-- **C36.** Without `--special`, whenever detox renames something, the preceding `lstat` said it is a regular file or
a directory. Missing: this needs that nobody interferes. In general (second part) only the `lstat` before that is known to
have said so, or to have failed; see `C36_special_file_renamed_in_a_race`. -/
theorem C36_special_files_need_the_flag_partial (P : Platform) (o : Options) (hs : o.special = false) (args ws : List Bytes)
    (tr : List Event) (out : Outcome (Option Filelist)) (ht : Run P o args ws tr out) (pre post : List Event)
    (old new : Bytes) (ok : Bool) (heq : tr = pre ++ .rename old new ok :: post) :
    ∃ pre0 r0 so rn outs, pre = pre0 ++ [.lstat old r0, .lstat old (some so), .lstat new rn] ++ outs ∧ OnlyOutput outs ∧
      (∀ st, r0 = some st → st.kind = .reg ∨ st.kind = .dir) ∧
      (NoInterference tr → so.kind = .reg ∨ so.kind = .dir) := by
  obtain ⟨fuel, n, files, ign, ht⟩ := ht.trace
  obtain ⟨_, _, ⟨pre0, r0, so, rn, outs, h1, h2, _, h4⟩⟩ :=
    fileLoop_guarded P o fuel n files ign tr out ht pre post old new ok heq
  have h4' : ∀ st, r0 = some st → st.kind = .reg ∨ st.kind = .dir := by
    intro st hst
    rcases h4 st hst with h | h
    · rw [hs] at h; cases h
    · exact h
  refine ⟨pre0, r0, so, rn, outs, h1, h2, h4', ?_⟩
  intro hn
  have := hn pre0 (.lstat new rn :: (outs ++ .rename old new ok :: post)) old r0 (some so) (by rw [heq, h1]; simp)
  exact h4' so this

/-- Without that assumption C36 is false: if an entry vanishes before detox looks at it and a symbolic link of the same
name appears right after, the link is renamed, because `parse_dir` then uses the `lstat` result of another file. -/
theorem C36_special_file_renamed_in_a_race : ∃ tr so, exOptions.special = false ∧
    Run exPlatform exOptions [lit "d"] [] tr .running ∧ so.kind = .link ∧
    [.lstat (lit "d/A") (some so), .lstat (lit "d/a") none, .rename (lit "d/A") (lit "d/a") true] <:+ tr ∧
    ∀ st, Event.lstat (lit "d/A") (some st) ∈ tr → st = so := by
  refine ⟨[.lstat (lit "d") (some ⟨1, 1, 2, .dir⟩), .lstat (lit "d") (some ⟨1, 1, 2, .dir⟩), .opendir (lit "d") (.ok 0),
    .readdir 0 (some (lit "A")), .lstat (lit "d/A") none, .lstat (lit "d/A") (some ⟨1, 3, 1, .link⟩), .lstat (lit "d/a") none,
    .rename (lit "d/A") (lit "d/a") true], ⟨1, 3, 1, .link⟩, rfl, ?_, rfl, ?_, ?_⟩
  · exact ⟨10, 10, putAll [lit "d"], none, putAll_holds _, rfl, Prog.accepts_sound _ _ (by decide +kernel)⟩
  · exact ⟨[.lstat (lit "d") (some ⟨1, 1, 2, .dir⟩), .lstat (lit "d") (some ⟨1, 1, 2, .dir⟩), .opendir (lit "d") (.ok 0),
      .readdir 0 (some (lit "A")), .lstat (lit "d/A") none], rfl⟩
  · intro st h
    simp [lit] at h
    exact h

/-! ### C58 -/

/-- **C58.** Directories are read and closed in a nested fashion: `readdir` and `closedir` always concern the directory
opened last and not yet closed; a directory is closed only after its last entry was read; and when a run returns, no
directory is left open. -/
theorem C58_directories_are_read_to_the_end_and_closed (P : Platform) (o : Options) (args ws : List Bytes) (tr : List Event)
    (out : Outcome (Option Filelist)) (ht : Run P o args ws tr out) :
    (∀ pre post hd r, tr = pre ++ .readdir hd r :: post → ∃ d S, openDirs pre.reverse = (hd, d) :: S) ∧
    (∀ pre post hd, tr = pre ++ .closedir hd :: post →
      (∃ d S, openDirs pre.reverse = (hd, d) :: S) ∧ ∃ pre0, pre = pre0 ++ [.readdir hd none]) ∧
    (∀ a, out = .ret a → openDirs tr.reverse = []) := by
  refine ⟨?_, ?_, ht.scan.2⟩
  · intro pre post hd r heq
    exact (ht.scan.1 pre _ post heq).handles hd (Or.inl ⟨r, rfl⟩)
  · intro pre post hd heq
    have h := ht.scan.1 pre _ post heq
    refine ⟨h.handles hd (Or.inr rfl), ?_⟩
    obtain ⟨t, h⟩ := h.closes hd rfl
    exact ⟨t.reverse, by have := congrArg List.reverse h; simpa using this⟩

/-! ### C57 -/

/-- After an entry: it is passed over, or looked at and, if it is something to be treated, treated by `parse_file` completely. -/
def Treated (P : Platform) (o : Options) (hd : Nat) (post : List Event) : Prop :=
  (∃ r rest, post = .readdir hd r :: rest) ∨
  (∃ path r mid rest, post = .lstat path r :: (mid ++ rest) ∧
    ∀ st, r = some st → (st.kind = .reg ∨ st.kind = .dir ∨ o.special = true) → ∃ a, FileRun P o path mid a)

def AllTreated (P : Platform) (o : Options) (tr : List Event) : Prop :=
  ∀ pre hd name post, tr = pre ++ .readdir hd (some name) :: post → Treated P o hd post

theorem Treated.append {P : Platform} {o : Options} {hd : Nat} {post : List Event} (h : Treated P o hd post) (more : List Event) :
    Treated P o hd (post ++ more) := by
  rcases h with ⟨r, rest, rfl⟩ | ⟨path, r, mid, rest, rfl, h⟩
  · exact Or.inl ⟨r, rest ++ more, rfl⟩
  · exact Or.inr ⟨path, r, mid, rest ++ more, by simp, h⟩

theorem AllTreated.append {P : Platform} {o : Options} {a b : List Event} (ha : AllTreated P o a) (hb : AllTreated P o b) :
    AllTreated P o (a ++ b) := by
  intro pre hd name post heq
  rcases List.append_eq_append_iff.1 heq with ⟨c, h1, h2⟩ | ⟨c, h1, h2⟩
  · exact hb c hd name post h2
  · cases c with
    | nil =>
      simp only [List.append_nil, List.nil_append] at h1 h2
      exact hb [] hd name post h2.symm
    | cons x c =>
      simp only [List.cons_append, List.cons.injEq] at h2
      obtain ⟨rfl, rfl⟩ := h2
      exact (ha pre hd name c h1).append b

theorem AllTreated.of_none {P : Platform} {o : Options} {tr : List Event} (h : ∀ hd name, .readdir hd (some name) ∉ tr) :
    AllTreated P o tr := by
  intro pre hd name post heq
  exact absurd (by rw [heq]; simp) (h hd name)

theorem fileRun_no_readdir {P : Platform} {o : Options} {f : Bytes} {tr : List Event} {a : Bytes} (h : FileRun P o f tr a) :
    ∀ hd r, .readdir hd r ∉ tr := by
  intro hd r
  cases h <;> first | (split <;> simp) | simp

theorem dirLoop_treated {P : Platform} {o : Options} (recDir : Option Filelist → Bytes → Prog (Option Filelist))
    (hrec : ∀ ign f tr a, Trace (recDir ign f) tr (.ret a) → AllTreated P o tr) (hd : Nat) (f : Bytes) :
    ∀ (m : Nat) (st : Stat) (ign : Option Filelist) (tr : List Event) (a : Option Filelist),
      Trace (dirLoop P o recDir hd f m st ign) tr (.ret a) →
      AllTreated P o tr ∧ ∃ r rest, tr = .readdir hd r :: rest := by
  intro m
  induction m with
  | zero => intro st ign tr a h; cases h
  | succ m ih =>
    intro st ign tr a h
    unfold dirLoop at h
    cases h with
    | readdir _ _ e tr _ h =>
      refine ⟨?_, e, tr, rfl⟩
      cases e with
      | none =>
        cases h with
        | closedir _ _ tr _ h =>
          obtain ⟨rfl, rfl⟩ := Trace.ret_inv h
          exact .of_none (by simp)
      | some name =>
        obtain ⟨p, hp, h⟩ := trace_ofRes_bind h
        have cons : ∀ tl, Treated P o hd tl → AllTreated P o tl → AllTreated P o (.readdir hd (some name) :: tl) := by
          intro tl h1 h2 pre hd' name' post heq
          cases pre with
          | nil =>
            simp only [List.nil_append, List.cons.injEq, Event.readdir.injEq] at heq
            rw [← heq.1.1, ← heq.2]; exact h1
          | cons x pre =>
            simp only [List.cons_append, List.cons.injEq] at heq
            exact h2 pre hd' name' post heq.2
        split at h
        · obtain ⟨h1, r, rest, h2⟩ := ih _ _ _ _ h
          exact cons _ (Or.inl ⟨r, rest, h2⟩) h1
        · cases h with
          | lstat _ _ r tr _ h =>
            generalize (f ++ [0x2F] ++ name).take (f.length + 1023) = nf at h ⊢
            have fin : ∀ t1 b t2, Trace (parseFile P o nf) t1 (.ret b) → AllTreated P o t2 →
                AllTreated P o (.readdir hd (some name) :: .lstat nf r :: (t1 ++ t2)) := by
              intro t1 b t2 h1 h2
              have hfr := C56_parse_file_exactly P o nf t1 b h1
              refine cons _ (Or.inr ⟨nf, r, t1, t2, rfl, fun _ _ _ => ⟨b, hfr⟩⟩) ?_
              have : AllTreated P o ([.lstat nf r] ++ t1) := .append (.of_none (by simp)) (.of_none (fun _ _ => fileRun_no_readdir hfr _ _))
              exact this.append h2
            dsimp only at h
            split at h
            · obtain ⟨b, t1, t2, rfl, h1, h2⟩ := trace_bind_ret h
              split at h2
              · obtain ⟨c, t3, t4, rfl, h3, h4⟩ := trace_bind_ret h2
                exact fin t1 b _ h1 (AllTreated.append (hrec _ _ _ _ h3) (ih _ _ _ _ h4).1)
              · exact fin t1 b _ h1 (ih _ _ _ _ h2).1
            · next hk =>
              split at h
              · obtain ⟨b, t1, t2, rfl, h1, h2⟩ := trace_bind_ret h
                exact fin t1 b _ h1 (ih _ _ _ _ h2).1
              · next hk2 =>
                obtain ⟨i1, i2⟩ := ih _ _ _ _ h
                refine cons _ (Or.inr ⟨nf, r, [], tr, rfl, ?_⟩) ?_
                · intro st' hr hw
                  subst hr
                  simp only [Option.getD_some, Bool.or_eq_true, decide_eq_true_eq] at hk hk2
                  rcases hw with hw | hw | hw
                  · exact absurd (Or.inl hw) hk2
                  · exact absurd hw hk
                  · exact absurd (Or.inr hw) hk2
                · have : AllTreated P o ([.lstat nf r] ++ tr) := .append (.of_none (by simp)) i1
                  exact this

theorem parseDir_treated {P : Platform} {o : Options} : ∀ (n : Nat) (ign : Option Filelist) (f : Bytes) (tr : List Event)
    (a : Option Filelist), Trace (parseDir P o n ign f) tr (.ret a) → AllTreated P o tr := by
  intro n
  induction n with
  | zero => intro ign f tr a h; cases h
  | succ n ih =>
    intro ign f tr a h
    unfold parseDir at h
    cases h with
    | lstat _ _ r tr _ h =>
      cases r with
      | none =>
        obtain ⟨rfl, rfl⟩ := Trace.ret_inv h
        exact .of_none (by simp)
      | some st =>
        dsimp only at h
        split at h
        · obtain ⟨rfl, rfl⟩ := Trace.ret_inv h
          exact .of_none (by simp)
        · cases h with
          | opendir _ _ d tr _ h =>
            have pre : ∀ tr, AllTreated P o tr → AllTreated P o (.lstat f (some st) :: .opendir f d :: tr) := by
              intro tr htr
              have : AllTreated P o ([.lstat f (some st), .opendir f d] ++ tr) := .append (.of_none (by simp)) htr
              exact this
            cases d with
            | ok hd => exact pre _ (dirLoop_treated _ (fun ign f tr a h => ih ign f tr a h) hd f n st ign tr a h).1
            | fail =>
              cases h with
              | err _ _ tr _ h =>
                obtain ⟨rfl, rfl⟩ := Trace.ret_inv h
                exact .of_none (by simp)
            | emfile =>
              cases h with
              | err _ _ tr _ h => cases h

theorem processArg_treated {P : Platform} {o : Options} (fuel : Nat) (ign : Option Filelist) (f : Bytes) (tr : List Event)
    (a : Option Filelist) (h : Trace (processArg P o fuel ign f) tr (.ret a)) : AllTreated P o tr := by
  have body : ∀ tr, Trace (Prog.lstat f fun r =>
      match r with
      | none => .err (f ++ lit ": ") (.ret ign)
      | some st =>
        if st.kind = .dir then
          (parseFile P o f).bind fun work => parseDir P o fuel ign work
        else if st.kind = .reg then (parseFile P o f).bind fun _ => .ret ign
        else if o.special then (parseFile P o f).bind fun _ => .ret ign
        else .ret ign) tr (.ret a) → AllTreated P o tr := by
    intro tr h
    cases h with
    | lstat _ _ r tr _ h =>
      have pre : ∀ tr, AllTreated P o tr → AllTreated P o (.lstat f r :: tr) := by
        intro tr htr
        have : AllTreated P o ([.lstat f r] ++ tr) := .append (.of_none (by simp)) htr
        exact this
      refine pre _ ?_
      cases r with
      | none =>
        cases h with
        | err _ _ tr _ h =>
          obtain ⟨rfl, rfl⟩ := Trace.ret_inv h
          exact .of_none (by simp)
      | some st =>
        have one : ∀ tr, Trace ((parseFile P o f).bind fun _ => Prog.ret ign) tr (.ret a) → AllTreated P o tr := by
          intro tr h
          obtain ⟨b, t1, t2, rfl, h1, h2⟩ := trace_bind_ret h
          obtain ⟨rfl, rfl⟩ := Trace.ret_inv h2
          refine .append (.of_none fun _ _ => fileRun_no_readdir (C56_parse_file_exactly _ _ _ _ _ h1) _ _) (.of_none (by simp))
        dsimp only at h
        split at h
        · obtain ⟨b, t1, t2, rfl, h1, h2⟩ := trace_bind_ret h
          exact .append (.of_none fun _ _ => fileRun_no_readdir (C56_parse_file_exactly _ _ _ _ _ h1) _ _)
            (parseDir_treated _ _ _ _ _ h2)
        · split at h
          · exact one _ h
          · split at h
            · exact one _ h
            · obtain ⟨rfl, rfl⟩ := Trace.ret_inv h
              exact .of_none (by simp)
  unfold processArg at h
  dsimp only at h
  split at h
  · cases h with
    | out _ _ tr _ h =>
      have : AllTreated P o ([.out (lit "Scanning: " ++ f ++ [0x0A])] ++ tr) := .append (.of_none (by simp)) (body _ h)
      exact this
  · exact body _ h

theorem fileLoop_treated {P : Platform} {o : Options} (fuel : Nat) : ∀ (n : Nat) (l : Filelist) (ign : Option Filelist)
    (tr : List Event) (a : Option Filelist), Trace (fileLoop P o fuel n l ign) tr (.ret a) → AllTreated P o tr := by
  intro n
  induction n with
  | zero => intro l ign tr a h; cases h
  | succ n ih =>
    intro l ign tr a h
    unfold fileLoop at h
    obtain ⟨p, hp, h⟩ := trace_ofRes_bind h
    split at h
    · obtain ⟨rfl, rfl⟩ := Trace.ret_inv h
      exact .of_none (by simp)
    · obtain ⟨b, t1, t2, rfl, h1, h2⟩ := trace_bind_ret h
      exact .append (processArg_treated _ _ _ _ _ h1) (ih _ _ _ _ h2)

/-- **C57.** In a run that returns, every entry read from a directory that is not hidden and not ignored is looked up under its
directory's path, and if it is a regular file or a directory (or anything, with `--special`) it is treated by `parse_file`
to the end: see `FileRun` for what this means; in particular it is renamed if the cleaned name is free. -/
theorem C57_every_entry_is_treated (P : Platform) (o : Options) (args ws : List Bytes) (tr : List Event)
    (a : Option Filelist) (ht : Run P o args ws tr (.ret a)) (pre post : List Event) (hd : Nat) (name : Bytes)
    (heq : tr = pre ++ .readdir hd (some name) :: post) (hn : ¬ Hidden name) (hi : name ∉ ws) (hlen : name.length ≤ 1022) :
    ∃ d S r mid rest, openDirs pre.reverse = (hd, d) :: S ∧ post = .lstat (d ++ lit "/" ++ name) r :: (mid ++ rest) ∧
      ∀ st, r = some st → (st.kind = .reg ∨ st.kind = .dir ∨ o.special = true) →
        ∃ p, FileRun P o (d ++ lit "/" ++ name) mid p := by
  have hsk : ¬ Skipped ws pre.reverse name := by
    rintro (h | h)
    · exact hn h
    · exact hi (List.mem_of_mem_drop h)
  have htr : Treated P o hd post := by
    obtain ⟨fuel, n, files, ign, ht⟩ := ht.trace
    exact fileLoop_treated fuel n files ign tr a ht pre hd name post heq
  have vis : ∀ e post', post = e :: post' → ∃ d S r, openDirs pre.reverse = (hd, d) :: S ∧
      e = .lstat ((d ++ [0x2F] ++ name).take (d.length + 1023)) r := by
    intro e post' hp
    have h := ht.scan.1 (pre ++ [.readdir hd (some name)]) e post' (by simp [heq, hp])
    exact h.visit hd name pre.reverse (by simp) hsk
  rcases htr with ⟨r, rest, h⟩ | ⟨path, r, mid, rest, h, hf⟩
  · obtain ⟨d, S, r', _, h2⟩ := vis _ _ h
    cases h2
  · obtain ⟨d, S, r', h1, h2⟩ := vis _ _ h
    have hpath : path = d ++ lit "/" ++ name := by
      simp only [Event.lstat.injEq] at h2
      rw [h2.1, List.take_of_length_le]
      · rfl
      · simp; omega
    subst hpath
    exact ⟨d, S, r, mid, rest, h1, h, hf⟩

end Detox
