import Verif.Props.Scan
import Verif.Lemmas.Main

/-!
# C72 — what a run over files and directories is, exactly
-/

set_option autoImplicit false

namespace Detox
open Spec

/-- The path under which an entry is looked up. An entry's name is at most 255 bytes on every common file system, and then
nothing is cut off. -/
def entryPath (dir name : Bytes) : Bytes := (dir ++ lit "/" ++ name).take (dir.length + 1023)

/-- Whether an entry is passed over: it is hidden, or in what is left of the ignore list after the names seen before. -/
def PassedOver (ws seen : List Bytes) (name : Bytes) : Prop := Hidden name ∨ name ∈ ws.drop (cursorAfter ws seen)

/-- The visible names seen, after one more. -/
def seeing (seen : List Bytes) (name : Bytes) : List Bytes := if Hidden name then seen else name :: seen

/-- What there is to do: a directory, or the rest of its entries (`st` is the last thing known about a file). -/
inductive Task where
  | dir (path : Bytes)
  | entries (h : Nat) (path : Bytes) (st : Stat)

/-- `ScanBy R o ws task seen tr seen'`: doing `task` is the series of calls `tr`, if `R name w` says that `w` is the new name of `name`. -/
inductive ScanBy (R : Bytes → Bytes → Prop) (o : Options) (ws : List Bytes) : Task → List Bytes → List Event → List Bytes → Prop
  /-- the directory is gone -/
  | gone (path : Bytes) (seen : List Bytes) : ScanBy R o ws (.dir path) seen [.lstat path none] seen
  /-- something else is there now -/
  | replaced (path : Bytes) (st : Stat) (seen : List Bytes) : st.kind ≠ .dir →
      ScanBy R o ws (.dir path) seen [.lstat path (some st)] seen
  /-- it cannot be read -/
  | closed (path : Bytes) (st : Stat) (seen : List Bytes) : st.kind = .dir →
      ScanBy R o ws (.dir path) seen [.lstat path (some st), .opendir path .fail, .err (lit "unable to parse: ")] seen
  /-- its entries -/
  | opened (path : Bytes) (st : Stat) (h : Nat) (seen seen' : List Bytes) (tr : List Event) : st.kind = .dir →
      ScanBy R o ws (.entries h path st) seen tr seen' →
      ScanBy R o ws (.dir path) seen (.lstat path (some st) :: .opendir path (.ok h) :: tr) seen'
  /-- no more entries -/
  | finish (h : Nat) (path : Bytes) (st : Stat) (seen : List Bytes) :
      ScanBy R o ws (.entries h path st) seen [.readdir h none, .closedir h] seen
  /-- an entry to be passed over -/
  | pass (h : Nat) (path : Bytes) (st : Stat) (name : Bytes) (seen seen' : List Bytes) (tr : List Event) :
      PassedOver ws seen name → ScanBy R o ws (.entries h path st) (seeing seen name) tr seen' →
      ScanBy R o ws (.entries h path st) seen (.readdir h (some name) :: tr) seen'
  /-- neither file nor directory -/
  | leave (h : Nat) (path : Bytes) (st : Stat) (name : Bytes) (r : Option Stat) (seen seen' : List Bytes) (tr : List Event) :
      ¬ PassedOver ws seen name → (r.getD st).kind ≠ .dir → (r.getD st).kind ≠ .reg → o.special = false →
      ScanBy R o ws (.entries h path (r.getD st)) (seeing seen name) tr seen' →
      ScanBy R o ws (.entries h path st) seen (.readdir h (some name) :: .lstat (entryPath path name) r :: tr) seen'
  /-- a file (or a directory without `-r`) -/
  | file (h : Nat) (path : Bytes) (st : Stat) (name : Bytes) (r : Option Stat) (seen seen' : List Bytes) (mid tr : List Event)
      (p : Bytes) :
      ¬ PassedOver ws seen name → ((r.getD st).kind = .dir ∧ o.recurse = false ∨ (r.getD st).kind = .reg ∨
        (r.getD st).kind ≠ .dir ∧ o.special = true) →
      FileRunBy R o (entryPath path name) mid p →
      ScanBy R o ws (.entries h path (r.getD st)) (seeing seen name) tr seen' →
      ScanBy R o ws (.entries h path st) seen (.readdir h (some name) :: .lstat (entryPath path name) r :: (mid ++ tr)) seen'
  /-- a directory: scanned under the name it has now -/
  | recurse (h : Nat) (path : Bytes) (st : Stat) (name : Bytes) (r : Option Stat) (seen seen1 seen' : List Bytes)
      (mid sub tr : List Event) (p : Bytes) :
      ¬ PassedOver ws seen name → (r.getD st).kind = .dir → o.recurse = true →
      FileRunBy R o (entryPath path name) mid p →
      ScanBy R o ws (.dir p) (seeing seen name) sub seen1 →
      ScanBy R o ws (.entries h path (r.getD st)) seen1 tr seen' →
      ScanBy R o ws (.entries h path st) seen
        (.readdir h (some name) :: .lstat (entryPath path name) r :: (mid ++ (sub ++ tr))) seen'

/-- One argument. -/
inductive ArgScanBy (R : Bytes → Bytes → Prop) (o : Options) (ws : List Bytes) (f : Bytes) : List Bytes → List Event → List Bytes → Prop
  | missing (seen : List Bytes) : ArgScanBy R o ws f seen [.lstat f none, .err (f ++ lit ": ")] seen
  | leave (st : Stat) (seen : List Bytes) : st.kind ≠ .dir → st.kind ≠ .reg → o.special = false →
      ArgScanBy R o ws f seen [.lstat f (some st)] seen
  | file (st : Stat) (seen : List Bytes) (mid : List Event) (p : Bytes) :
      st.kind = .reg ∨ st.kind ≠ .dir ∧ o.special = true → FileRunBy R o f mid p →
      ArgScanBy R o ws f seen (.lstat f (some st) :: mid) seen
  | dir (st : Stat) (seen seen' : List Bytes) (mid sub : List Event) (p : Bytes) : st.kind = .dir → FileRunBy R o f mid p →
      ScanBy R o ws (.dir p) seen sub seen' → ArgScanBy R o ws f seen (.lstat f (some st) :: (mid ++ sub)) seen'

/-- All arguments, one after the other; with `-v` each is announced. -/
inductive ArgsScanBy (R : Bytes → Bytes → Prop) (o : Options) (ws : List Bytes) : List Bytes → List Bytes → List Event → List Bytes → Prop
  | nil (seen : List Bytes) : ArgsScanBy R o ws [] seen [] seen
  | cons (f : Bytes) (fs : List Bytes) (seen seen1 seen' : List Bytes) (t tr : List Event) : ArgScanBy R o ws f seen t seen1 →
      ArgsScanBy R o ws fs seen1 tr seen' →
      ArgsScanBy R o ws (f :: fs) seen ((if o.verbose = 0 then [] else [.out (lit "Scanning: " ++ f ++ lit "\n")]) ++ t ++ tr) seen'

/-- Scans by the sequence in use. -/
abbrev Scan (P : Platform) (o : Options) : List Bytes → Task → List Bytes → List Event → List Bytes → Prop := ScanBy (Makes P o) o
abbrev ArgScan (P : Platform) (o : Options) : List Bytes → Bytes → List Bytes → List Event → List Bytes → Prop := ArgScanBy (Makes P o) o
abbrev ArgsScan (P : Platform) (o : Options) : List Bytes → List Bytes → List Bytes → List Event → List Bytes → Prop := ArgsScanBy (Makes P o) o

/-! ### Every run is one -/

theorem ignoreFile_seeing {ws : List Bytes} {ign : Option Filelist} {seen : List Bytes} (hi : IgnOk ws ign seen) (name : Bytes) :
    ∃ ign' b, ignoreFile name ign = .ok (ign', b) ∧ (b = true ↔ PassedOver ws seen name) ∧ IgnOk ws ign' (seeing seen name) := by
  unfold seeing PassedOver
  by_cases hh : Hidden name
  · exact ⟨ign, true, ignoreFile_hidden name ign hh, by simp [hh], by simpa [hh] using hi⟩
  · obtain ⟨ign', h1, h2⟩ := ignoreFile_visible hi name hh
    exact ⟨ign', _, h1, by simp [hh], by simpa [hh] using h2⟩

theorem dirLoop_scan' {P : Platform} {o : Options} {ws : List Bytes}
    {recDir : Option Filelist → Bytes → Prog (Option Filelist)}
    (hrec : ∀ ign p tr ign' seen, Trace (recDir ign p) tr (.ret ign') → IgnOk ws ign seen →
      ∃ seen', Scan P o ws (.dir p) seen tr seen' ∧ IgnOk ws ign' seen') (h : Nat) (path : Bytes) :
    ∀ (n : Nat) (st : Stat) (ign ign' : Option Filelist) (tr : List Event) (seen : List Bytes),
      Trace (dirLoop P o recDir h path n st ign) tr (.ret ign') → IgnOk ws ign seen →
      ∃ seen', Scan P o ws (.entries h path st) seen tr seen' ∧ IgnOk ws ign' seen'
  | 0, _, _, _, _, _, ht, _ => by cases ht
  | n + 1, st, ign, ign', tr, seen, ht, hi => by
    have ih := dirLoop_scan' hrec h path n
    unfold dirLoop at ht
    cases ht with
    | readdir _ _ e tr _ ht =>
    cases e with
    | none =>
      cases ht with
      | closedir _ _ _ _ ht => cases ht; exact ⟨seen, .finish _ _ _ _, hi⟩
    | some name =>
      obtain ⟨ign1, b, h1, h2, h3⟩ := ignoreFile_seeing hi name
      simp only [h1] at ht
      change Trace (if b = true then _ else _) tr _ at ht
      by_cases hb : b = true
      · rw [if_pos hb] at ht
        obtain ⟨seen', h4, h5⟩ := ih _ _ _ _ _ ht h3
        exact ⟨seen', .pass _ _ _ _ _ _ _ (h2.1 hb) h4, h5⟩
      · rw [if_neg hb] at ht
        have hno : ¬ PassedOver ws seen name := fun hp => hb (h2.2 hp)
        cases ht with
        | lstat _ _ r tr _ ht =>
        dsimp only at ht
        change Trace (if _ then _ else _) tr _ at ht
        by_cases hd : (r.getD st).kind = .dir
        · rw [if_pos hd] at ht
          obtain ⟨p, t1, t2, rfl, h4, h5⟩ := trace_bind_ret ht
          have hf := C56_parse_file_exactly P o _ _ _ h4
          by_cases hr : o.recurse = true
          · rw [if_pos hr] at h5
            obtain ⟨ign2, t3, t4, rfl, h6, h7⟩ := trace_bind_ret h5
            obtain ⟨seen1, h8, h9⟩ := hrec _ _ _ _ _ h6 h3
            obtain ⟨seen', h10, h11⟩ := ih _ _ _ _ _ h7 h9
            exact ⟨seen', .recurse _ _ _ _ _ _ _ _ _ _ _ _ hno hd hr hf h8 h10, h11⟩
          · rw [if_neg hr] at h5
            obtain ⟨seen', h6, h7⟩ := ih _ _ _ _ _ h5 h3
            exact ⟨seen', .file _ _ _ _ _ _ _ _ _ _ hno (.inl ⟨hd, by simpa using hr⟩) hf h6, h7⟩
        · rw [if_neg hd] at ht
          by_cases hw : (decide ((r.getD st).kind = .reg) || o.special) = true
          · rw [if_pos hw] at ht
            obtain ⟨p, t1, t2, rfl, h4, h5⟩ := trace_bind_ret ht
            have hf := C56_parse_file_exactly P o _ _ _ h4
            obtain ⟨seen', h6, h7⟩ := ih _ _ _ _ _ h5 h3
            refine ⟨seen', .file _ _ _ _ _ _ _ _ _ _ hno (.inr ?_) hf h6, h7⟩
            simp only [Bool.or_eq_true, decide_eq_true_eq] at hw
            rcases hw with hw | hw
            · exact .inl hw
            · exact .inr ⟨hd, hw⟩
          · rw [if_neg hw] at ht
            obtain ⟨seen', h6, h7⟩ := ih _ _ _ _ _ ht h3
            simp only [Bool.or_eq_true, decide_eq_true_eq, not_or] at hw
            exact ⟨seen', .leave _ _ _ _ _ _ _ _ hno hd hw.1 (by simpa using hw.2) h6, h7⟩

theorem parseDir_scan' {P : Platform} {o : Options} {ws : List Bytes} :
    ∀ (n : Nat) (ign : Option Filelist) (p : Bytes) (tr : List Event) (ign' : Option Filelist) (seen : List Bytes),
      Trace (parseDir P o n ign p) tr (.ret ign') → IgnOk ws ign seen →
      ∃ seen', Scan P o ws (.dir p) seen tr seen' ∧ IgnOk ws ign' seen'
  | 0, _, _, _, _, _, ht, _ => by cases ht
  | n + 1, ign, p, tr, ign', seen, ht, hi => by
    unfold parseDir at ht
    cases ht with
    | lstat _ _ r tr _ ht =>
    cases r with
    | none => cases ht; exact ⟨seen, .gone _ _, hi⟩
    | some st =>
      change Trace (if _ then _ else _) tr _ at ht
      by_cases hd : st.kind ≠ .dir
      · rw [if_pos hd] at ht
        cases ht
        exact ⟨seen, .replaced _ _ _ hd, hi⟩
      · rw [if_neg hd] at ht
        have hd' := Classical.not_not.1 hd
        cases ht with
        | opendir _ _ r tr _ ht =>
        cases r with
        | ok h =>
          obtain ⟨seen', h1, h2⟩ := dirLoop_scan' (parseDir_scan' n) h p n st ign ign' tr seen ht hi
          exact ⟨seen', .opened _ _ _ _ _ _ hd' h1, h2⟩
        | fail =>
          cases ht with
          | err _ _ _ _ ht => cases ht; exact ⟨seen, .closed _ _ _ hd', hi⟩
        | emfile => cases ht with | err _ _ _ _ ht => cases ht

theorem processArg_scan' {P : Platform} {o : Options} {ws : List Bytes} {fuel : Nat} {ign ign' : Option Filelist} {f : Bytes}
    {tr : List Event} {seen : List Bytes} (ht : Trace (processArg P o fuel ign f) tr (.ret ign')) (hi : IgnOk ws ign seen) :
    ∃ t seen', tr = (if o.verbose = 0 then [] else [.out (lit "Scanning: " ++ f ++ lit "\n")]) ++ t ∧
      ArgScan P o ws f seen t seen' ∧ IgnOk ws ign' seen' := by
  have body : ∀ t, Trace (Prog.lstat f fun r => match r with
          | none => .err (f ++ lit ": ") (.ret ign)
          | some st =>
            if st.kind = .dir then (parseFile P o f).bind fun work => parseDir P o fuel ign work
            else if st.kind = .reg then (parseFile P o f).bind fun _ => .ret ign
            else if o.special then (parseFile P o f).bind fun _ => .ret ign
            else .ret ign) t (.ret ign') → ∃ seen', ArgScan P o ws f seen t seen' ∧ IgnOk ws ign' seen' := by
    intro t ht
    cases ht with
    | lstat _ _ r tr _ ht =>
    cases r with
    | none =>
      cases ht with
      | err _ _ _ _ ht => cases ht; exact ⟨seen, .missing _, hi⟩
    | some st =>
      change Trace (if _ then _ else _) tr _ at ht
      have plain : Trace ((parseFile P o f).bind fun _ => .ret ign) tr (.ret ign') →
          (st.kind = .reg ∨ st.kind ≠ .dir ∧ o.special = true) →
          ∃ seen', ArgScan P o ws f seen (.lstat f (some st) :: tr) seen' ∧ IgnOk ws ign' seen' := by
        intro ht hk
        obtain ⟨p, t1, t2, rfl, h4, h5⟩ := trace_bind_ret ht
        cases h5
        rw [List.append_nil]
        exact ⟨seen, .file _ _ _ _ hk (C56_parse_file_exactly P o _ _ _ h4), hi⟩
      by_cases hd : st.kind = .dir
      · rw [if_pos hd] at ht
        obtain ⟨p, t1, t2, rfl, h4, h5⟩ := trace_bind_ret ht
        obtain ⟨seen', h6, h7⟩ := parseDir_scan' _ _ _ _ _ _ h5 hi
        exact ⟨seen', .dir _ _ _ _ _ _ hd (C56_parse_file_exactly P o _ _ _ h4) h6, h7⟩
      · rw [if_neg hd] at ht
        by_cases hr : st.kind = .reg
        · rw [if_pos hr] at ht
          exact plain ht (.inl hr)
        · rw [if_neg hr] at ht
          by_cases hs : o.special = true
          · rw [if_pos hs] at ht
            exact plain ht (.inr ⟨hd, hs⟩)
          · rw [if_neg hs] at ht
            cases ht
            exact ⟨seen, .leave _ _ hd hr (by simpa using hs), hi⟩
  unfold processArg at ht
  dsimp only at ht
  by_cases hv : o.verbose = 0
  · rw [if_neg (by simp [hv])] at ht
    obtain ⟨seen', h1, h2⟩ := body _ ht
    exact ⟨_, seen', by simp [hv], h1, h2⟩
  · rw [if_pos (by simpa using hv)] at ht
    cases ht with
    | out _ _ tr _ ht =>
      obtain ⟨seen', h1, h2⟩ := body _ ht
      exact ⟨_, seen', by rw [if_neg hv]; rfl, h1, h2⟩

theorem fileLoop_scan' {P : Platform} {o : Options} {ws : List Bytes} {fuel : Nat} {args : List Bytes} :
    ∀ (n k : Nat) (l : Filelist) (ign ign' : Option Filelist) (tr : List Event) (seen : List Bytes),
      l.Holds args k → Trace (fileLoop P o fuel n l ign) tr (.ret ign') → IgnOk ws ign seen →
      ∃ seen', ArgsScan P o ws (args.drop k) seen tr seen'
  | 0, _, _, _, _, _, _, _, ht, _ => by cases ht
  | n + 1, k, l, ign, ign', tr, seen, hl, ht, hi => by
    have hg := filelistGet_holds hl
    unfold fileLoop at ht
    split at hg
    · next hk =>
      obtain ⟨l', h1, h2⟩ := hg
      rw [h1] at ht
      change Trace ((processArg P o fuel ign args[k]).bind fun ign' => fileLoop P o fuel n l' ign') tr _ at ht
      obtain ⟨ign1, t1, t2, rfl, h3, h4⟩ := trace_bind_ret ht
      obtain ⟨t, seen1, rfl, h5, h6⟩ := processArg_scan' h3 hi
      obtain ⟨seen', h7⟩ := fileLoop_scan' n (k + 1) l' ign1 ign' t2 seen1 h2 h4 h6
      rw [List.drop_eq_getElem_cons hk]
      exact ⟨seen', .cons _ _ _ _ _ _ _ h5 h7⟩
    · next hk =>
      obtain ⟨l', h1, h2⟩ := hg
      rw [h1] at ht
      cases ht
      rw [List.drop_eq_nil_of_le (by omega)]
      exact ⟨seen, .nil _⟩

/-- **C72.** Every run that returns is such a scan: all arguments in order; directories entry by entry to the end, each entry
as its kind demands, directories again under the name `parse_file` left them with. -/
theorem C72_runs_are_scans {P : Platform} {o : Options} {args ws : List Bytes} {tr : List Event} {a : Option Filelist}
    (h : Run P o args ws tr (.ret a)) : ∃ seen, ArgsScan P o ws args [] tr seen := by
  obtain ⟨fuel, n, files, ign, h1, h2, h3⟩ := h
  have hi : IgnOk ws ign [] := by
    cases ign with
    | none => exact h2
    | some l => exact h2
  exact fileLoop_scan' n 0 files ign a tr [] h1 h3 hi

/-! ### Every one of them is a run -/

/-- What the calls of a task are calls of, with at least that much fuel. -/
def Task.Does (P : Platform) (o : Options) (ign : Option Filelist) (tr : List Event) (ign' : Option Filelist) (n : Nat) : Task → Prop
  | .dir p => ∀ k, n ≤ k → Trace (parseDir P o k ign p) tr (.ret ign')
  | .entries h p st => ∀ k m, n ≤ k → n ≤ m → Trace (dirLoop P o (parseDir P o k) h p m st ign) tr (.ret ign')

theorem scan_possible {P : Platform} {o : Options} (hq : o.sequenceToUse ≠ none) {ws : List Bytes} {t : Task}
    {seen seen' : List Bytes} {tr : List Event} (h : Scan P o ws t seen tr seen') :
    ∀ ign, IgnOk ws ign seen → ∃ n ign', t.Does P o ign tr ign' n ∧ IgnOk ws ign' seen' := by
  induction h with
  | gone p seen =>
    intro ign hi
    refine ⟨1, ign, fun k hk => ?_, hi⟩
    obtain ⟨k, rfl⟩ : ∃ j, k = j + 1 := ⟨k - 1, by omega⟩
    exact .lstat _ _ _ _ _ (.ret _)
  | replaced p st seen hd =>
    intro ign hi
    refine ⟨1, ign, fun k hk => ?_, hi⟩
    obtain ⟨k, rfl⟩ : ∃ j, k = j + 1 := ⟨k - 1, by omega⟩
    refine .lstat _ _ _ _ _ ?_
    show Trace (if _ then _ else _) _ _
    rw [if_pos hd]
    exact .ret _
  | closed p st seen hd =>
    intro ign hi
    refine ⟨1, ign, fun k hk => ?_, hi⟩
    obtain ⟨k, rfl⟩ : ∃ j, k = j + 1 := ⟨k - 1, by omega⟩
    refine .lstat _ _ _ _ _ ?_
    show Trace (if _ then _ else _) _ _
    rw [if_neg (fun hn => hn hd)]
    exact .opendir _ _ _ _ _ (.err _ _ _ _ (.ret _))
  | opened p st h seen seen' tr hd _ ih =>
    intro ign hi
    obtain ⟨n, ign', h1, h2⟩ := ih ign hi
    refine ⟨n + 1, ign', fun k hk => ?_, h2⟩
    obtain ⟨k, rfl⟩ : ∃ j, k = j + 1 := ⟨k - 1, by omega⟩
    refine .lstat _ _ _ _ _ ?_
    show Trace (if _ then _ else _) _ _
    rw [if_neg (fun hn => hn hd)]
    exact .opendir _ _ _ _ _ (h1 k k (by omega) (by omega))
  | finish h p st seen =>
    intro ign hi
    refine ⟨1, ign, fun k m _ hm => ?_, hi⟩
    obtain ⟨m, rfl⟩ : ∃ j, m = j + 1 := ⟨m - 1, by omega⟩
    exact .readdir _ _ _ _ _ (.closedir _ _ _ _ (.ret _))
  | pass h p st name seen seen' tr hp _ ih =>
    intro ign hi
    obtain ⟨ign1, b, h1, h2, h3⟩ := ignoreFile_seeing hi name
    obtain ⟨n, ign', h4, h5⟩ := ih ign1 h3
    refine ⟨n + 1, ign', fun k m hk hm => ?_, h5⟩
    obtain ⟨m, rfl⟩ : ∃ j, m = j + 1 := ⟨m - 1, by omega⟩
    refine .readdir _ _ _ _ _ ?_
    simp only [h1]
    show Trace (if b = true then _ else _) _ _
    rw [if_pos (h2.2 hp)]
    exact h4 k m (by omega) (by omega)
  | leave h p st name r seen seen' tr hp hd hr hs _ ih =>
    intro ign hi
    obtain ⟨ign1, b, h1, h2, h3⟩ := ignoreFile_seeing hi name
    obtain ⟨n, ign', h4, h5⟩ := ih ign1 h3
    refine ⟨n + 1, ign', fun k m hk hm => ?_, h5⟩
    obtain ⟨m, rfl⟩ : ∃ j, m = j + 1 := ⟨m - 1, by omega⟩
    refine .readdir _ _ _ _ _ ?_
    simp only [h1]
    show Trace (if b = true then _ else _) _ _
    rw [if_neg (fun hb => hp (h2.1 hb))]
    refine .lstat _ _ _ _ _ ?_
    show Trace (if _ then _ else _) _ _
    rw [if_neg hd, if_neg (by simp [hr, hs])]
    exact h4 k m (by omega) (by omega)
  | file h p st name r seen seen' mid tr q hp hk' hf _ ih =>
    intro ign hi
    obtain ⟨ign1, b, h1, h2, h3⟩ := ignoreFile_seeing hi name
    obtain ⟨n, ign', h4, h5⟩ := ih ign1 h3
    refine ⟨n + 1, ign', fun k m hk hm => ?_, h5⟩
    obtain ⟨m, rfl⟩ : ∃ j, m = j + 1 := ⟨m - 1, by omega⟩
    have hf := C56_parse_file_possible P o hq _ _ _ hf
    refine .readdir _ _ _ _ _ ?_
    simp only [h1]
    show Trace (if b = true then _ else _) _ _
    rw [if_neg (fun hb => hp (h2.1 hb))]
    refine .lstat _ _ _ _ _ ?_
    show Trace (if _ then _ else _) _ _
    rcases hk' with ⟨hd, hr⟩ | hr
    · rw [if_pos hd]
      refine trace_append hf ?_
      rw [if_neg (by simp [hr])]
      exact h4 k m (by omega) (by omega)
    · have hd : (r.getD st).kind ≠ .dir := by
        rcases hr with hr | hr
        · rw [hr]; intro hx; cases hx
        · exact hr.1
      rw [if_neg hd, if_pos (by
        rcases hr with hr | hr
        · simp [hr]
        · simp [hr.2])]
      refine trace_append hf ?_
      exact h4 k m (by omega) (by omega)
  | recurse h p st name r seen seen1 seen' mid sub tr q hp hd hr hf _ _ ih1 ih2 =>
    intro ign hi
    obtain ⟨ign1, b, h1, h2, h3⟩ := ignoreFile_seeing hi name
    obtain ⟨n, ign2, h4, h5⟩ := ih1 ign1 h3
    obtain ⟨n', ign', h6, h7⟩ := ih2 ign2 h5
    refine ⟨n + n' + 1, ign', fun k m hk hm => ?_, h7⟩
    obtain ⟨m, rfl⟩ : ∃ j, m = j + 1 := ⟨m - 1, by omega⟩
    have hf := C56_parse_file_possible P o hq _ _ _ hf
    refine .readdir _ _ _ _ _ ?_
    simp only [h1]
    show Trace (if b = true then _ else _) _ _
    rw [if_neg (fun hb => hp (h2.1 hb))]
    refine .lstat _ _ _ _ _ ?_
    show Trace (if _ then _ else _) _ _
    rw [if_pos hd]
    refine trace_append hf ?_
    rw [if_pos hr]
    refine trace_append (h4 k (by omega)) ?_
    exact h6 k m (by omega) (by omega)

theorem argScan_possible {P : Platform} {o : Options} (hq : o.sequenceToUse ≠ none) {ws : List Bytes} {f : Bytes}
    {seen seen' : List Bytes} {tr : List Event} (h : ArgScan P o ws f seen tr seen') (ign : Option Filelist)
    (hi : IgnOk ws ign seen) : ∃ n ign', IgnOk ws ign' seen' ∧ ∀ fuel, n ≤ fuel → Trace (processArg P o fuel ign f)
      ((if o.verbose = 0 then [] else [.out (lit "Scanning: " ++ f ++ lit "\n")]) ++ tr) (.ret ign') := by
  have announce : ∀ {p : Prog (Option Filelist)} {t : List Event} {out : Outcome (Option Filelist)}, Trace p t out →
      Trace (if o.verbose ≠ 0 then .out (lit "Scanning: " ++ f ++ [0x0A]) p else p)
        ((if o.verbose = 0 then [] else [.out (lit "Scanning: " ++ f ++ lit "\n")]) ++ t) out := by
    intro p t out ht
    by_cases hv : o.verbose = 0
    · rw [if_neg (by simp [hv]), if_pos hv]; exact ht
    · rw [if_pos hv, if_neg hv]; exact .out _ _ _ _ ht
  cases h with
  | missing => exact ⟨0, ign, hi, fun fuel _ => announce (.lstat _ _ _ _ _ (.err _ _ _ _ (.ret _)))⟩
  | leave st _ hd hr hs =>
    refine ⟨0, ign, hi, fun fuel _ => announce (.lstat _ _ _ _ _ ?_)⟩
    show Trace (if _ then _ else _) _ _
    rw [if_neg hd, if_neg hr, if_neg (by simp [hs])]
    exact .ret _
  | file st _ mid p hk hf =>
    have hf := C56_parse_file_possible P o hq _ _ _ hf
    refine ⟨0, ign, hi, fun fuel _ => announce (.lstat _ _ _ _ _ ?_)⟩
    have hb : Trace ((parseFile P o f).bind fun _ => .ret ign) mid (.ret ign) := by
      have := trace_append (f := fun _ => .ret ign) hf (.ret ign)
      rwa [List.append_nil] at this
    show Trace (if _ then _ else _) _ _
    rcases hk with hk | ⟨hk, hs⟩
    · rw [if_neg (by rw [hk]; intro hx; cases hx), if_pos hk]; exact hb
    · rw [if_neg hk]
      split
      · exact hb
      · simpa [hs] using hb
  | dir st _ _ mid sub p hd hf hs =>
    have hf := C56_parse_file_possible P o hq _ _ _ hf
    obtain ⟨n, ign', h1, h2⟩ := scan_possible hq hs ign hi
    refine ⟨n, ign', h2, fun fuel hn => announce (.lstat _ _ _ _ _ ?_)⟩
    show Trace (if _ then _ else _) _ _
    rw [if_pos hd]
    exact trace_append hf (h1 fuel hn)

/-- The same for the loop of `main`, from any argument on. -/
theorem fileLoop_possible {P : Platform} {o : Options} (hq : o.sequenceToUse ≠ none) {args ws : List Bytes} :
    ∀ (k : Nat) (s s' : List Bytes) (t : List Event), ArgsScan P o ws (args.drop k) s t s' →
      ∀ (l : Filelist) (ign : Option Filelist), l.Holds args k → IgnOk ws ign s →
      ∃ n a, ∀ fuel, n ≤ fuel → Trace (fileLoop P o fuel (args.length - k + 1) l ign) t (.ret a) := by
  intro k s s' t ht
  generalize hd : args.drop k = rest at ht
  induction ht generalizing k with
  | nil s =>
    intro l ign hl _
    have hk : ¬ k < args.length := by
      intro hk
      rw [List.drop_eq_getElem_cons hk] at hd
      cases hd
    have hg := filelistGet_holds hl
    rw [dif_neg hk] at hg
    obtain ⟨l', h1, _⟩ := hg
    refine ⟨0, ign, fun fuel _ => ?_⟩
    unfold fileLoop
    rw [h1]
    exact .ret _
  | cons f fs s s1 s' t tr ha _ ih =>
    intro l ign hl hi
    have hk : k < args.length := by
      refine Classical.byContradiction fun hk => ?_
      rw [List.drop_eq_nil_of_le (by omega)] at hd
      cases hd
    rw [List.drop_eq_getElem_cons hk] at hd
    simp only [List.cons.injEq] at hd
    have hg := filelistGet_holds hl
    rw [dif_pos hk] at hg
    obtain ⟨l', h1, h2⟩ := hg
    obtain ⟨n, ign', h3, h4⟩ := argScan_possible hq ha ign hi
    obtain ⟨n', a, h5⟩ := ih (k + 1) hd.2 l' ign' h2 h3
    refine ⟨n + n', a, fun fuel hf => ?_⟩
    rw [show args.length - k + 1 = (args.length - (k + 1) + 1) + 1 by omega]
    unfold fileLoop
    rw [h1]
    show Trace ((processArg P o fuel ign args[k]).bind fun ign' => fileLoop P o fuel _ l' ign') _ _
    rw [hd.1]
    exact trace_append (h4 fuel (by omega)) (h5 fuel (by omega))

/-- **C72.** And every such scan is possible: detox does exactly this if the system answers so. -/
theorem C72_scans_are_runs {P : Platform} {o : Options} (hq : o.sequenceToUse ≠ none) {args ws : List Bytes} {tr : List Event}
    {seen : List Bytes} (h : ArgsScan P o ws args [] tr seen) : ∃ a, Run P o args ws tr (.ret a) := by
  obtain ⟨n, a, h1⟩ := fileLoop_possible hq 0 [] seen tr h (putAll args) (some (putAll ws)) (putAll_holds _) (putAll_holds ws)
  exact ⟨a, n, _, putAll args, some (putAll ws), putAll_holds _, putAll_holds ws, h1 n (Nat.le_refl _)⟩

/-- A concrete case: `detox -r d` where `d` holds a directory `A B`, which holds nothing. -/
def recurseOptions : Options := { defaultOptions with recurse := true }

def recurseTrace : List Event := [
  .lstat (lit "d") (some ⟨1, 1, 2, .dir⟩), .lstat (lit "d") (some ⟨1, 1, 2, .dir⟩), .opendir (lit "d") (.ok 0),
  .readdir 0 (some (lit "A B")), .lstat (lit "d/A B") (some ⟨1, 3, 2, .dir⟩), .lstat (lit "d/A B") (some ⟨1, 3, 2, .dir⟩),
  .lstat (lit "d/A_B") none, .rename (lit "d/A B") (lit "d/A_B") true,
  .lstat (lit "d/A_B") (some ⟨1, 3, 2, .dir⟩), .opendir (lit "d/A_B") (.ok 1), .readdir 1 none, .closedir 1,
  .readdir 0 none, .closedir 0]

theorem recurseTrace_run : Run exPlatform recurseOptions [lit "d"] [] recurseTrace (.ret none) :=
  ⟨10, 10, putAll [lit "d"], none, putAll_holds _, rfl, Prog.result_sound _ _ _ (by decide +kernel)⟩

example : ∃ seen, ArgsScan exPlatform recurseOptions [] [lit "d"] [] recurseTrace seen := C72_runs_are_scans recurseTrace_run

end Detox
