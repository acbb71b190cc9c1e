import Verif.Lemmas.ParseFile

/-!
# Directory scans: what may follow what
-/

set_option autoImplicit false

namespace Detox
open Spec

/-- The entry `name`, read after history `t`, is passed over: hidden, or found in the part of the ignore list the
cursor has not passed. -/
def Skipped (ws : List Bytes) (t : List Event) (name : Bytes) : Prop :=
  Hidden name ∨ name ∈ ws.drop (cursorAfter ws (visible t))

/-- What a scan may do after history `h`. -/
structure ScanOk (ws args : List Bytes) (o : Options) (h : List Event) (e : Event) : Prop where
  skip : ∀ hd name t, h = .readdir hd (some name) :: t → Skipped ws t name → ∃ r, e = .readdir hd r
  visit : ∀ hd name t, h = .readdir hd (some name) :: t → ¬ Skipped ws t name →
    ∃ d S r, openDirs t = (hd, d) :: S ∧ e = .lstat ((d ++ [0x2F] ++ name).take (d.length + 1023)) r
  opens : ∀ p r, e = .opendir p r → (∃ st t, h = .lstat p (some st) :: t ∧ st.kind = .dir) ∧
    (o.recurse = true ∨ p ∈ args ∨ ∃ a ∈ args, .rename a p true ∈ h)
  handles : ∀ hd, ((∃ r, e = .readdir hd r) ∨ e = .closedir hd) → ∃ d S, openDirs h = (hd, d) :: S
  closes : ∀ hd, e = .closedir hd → ∃ t, h = .readdir hd none :: t

/-- No entry is waiting to be treated. -/
def Quiet (h : List Event) : Prop := ∀ hd name t, h ≠ .readdir hd (some name) :: t

/-- An event that is not about directories. -/
def Plain (e : Event) : Prop :=
  (∀ p r, e ≠ .opendir p r) ∧ (∀ hd r, e ≠ .readdir hd r) ∧ (∀ hd, e ≠ .closedir hd)

theorem plain_ok {ws args : List Bytes} {o : Options} {h : List Event} {e : Event} (hq : Quiet h) (hp : Plain e) :
    ScanOk ws args o h e where
  skip hd name t heq := absurd heq (hq hd name t)
  visit hd name t heq := absurd heq (hq hd name t)
  opens p r heq := absurd heq (hp.1 p r)
  handles hd heq := by
    rcases heq with ⟨r, heq⟩ | heq
    · exact absurd heq (hp.2.1 hd r)
    · exact absurd heq (hp.2.2 hd)
  closes hd heq := absurd heq (hp.2.2 hd)

theorem plain_quiet {h : List Event} {e : Event} (hp : Plain e) : Quiet (e :: h) := by
  intro hd name t heq
  exact hp.2.1 hd (some name) (List.cons.inj heq).1

theorem plain_openDirs {h : List Event} {e : Event} (hp : Plain e) : openDirs (e :: h) = openDirs h := by
  cases e <;> first | rfl | skip
  · exact absurd rfl (hp.1 _ _)
  · exact absurd rfl (hp.2.2 _)

theorem plain_visible {h : List Event} {e : Event} (hp : Plain e) : visible (e :: h) = visible h := by
  cases e <;> first | rfl | skip
  · exact absurd rfl (hp.2.1 _ _)

theorem plain_lstat (p : Bytes) (r : Option Stat) : Plain (.lstat p r) := by simp [Plain]
theorem plain_rename (a b : Bytes) (r : Bool) : Plain (.rename a b r) := by simp [Plain]
theorem plain_out (s : Bytes) : Plain (.out s) := by simp [Plain]
theorem plain_err (s : Bytes) : Plain (.err s) := by simp [Plain]

/-- `parse_file` does nothing to directories. -/
theorem parseFile_scan {P : Platform} {o : Options} {ws args : List Bytes} {f : Bytes} {h : List Event} (hq : Quiet h) :
    (parseFile P o f).wp (ScanOk ws args o)
      (fun a h' => Quiet h' ∧ openDirs h' = openDirs h ∧ visible h' = visible h ∧ (a = f ∨ .rename f a true ∈ h') ∧
        ∀ e ∈ h, e ∈ h') h := by
  refine parseFile_wp (fun _ => ⟨hq, rfl, rfl, Or.inl rfl, fun _ h => h⟩) ?_
  intro new _
  refine checkAndRename_wp ?_ ?_ ?_ ?_ ?_ ?_ ?_ ?_ ?_ ?_ ?_
  · intro r; exact plain_ok hq (plain_lstat _ _)
  · exact ⟨plain_quiet (plain_lstat _ _), rfl, rfl, Or.inl rfl, fun e he => by simp [he]⟩
  · intro so r; exact plain_ok (plain_quiet (plain_lstat _ _)) (plain_lstat _ _)
  · intro so r s _; exact plain_ok (plain_quiet (plain_lstat _ _)) (plain_err _)
  · intro so r s _; exact ⟨plain_quiet (plain_err _), rfl, rfl, Or.inl rfl, fun e he => by simp [he]⟩
  · intro so r _ _; exact plain_ok (plain_quiet (plain_lstat _ _)) (plain_out _)
  · intro so r _ _; exact ⟨plain_quiet (plain_out _), rfl, rfl, Or.inl rfl, fun e he => by simp [he]⟩
  · intro so r outs ok _ _ ho
    rw [ho]
    split
    · exact plain_ok (plain_quiet (plain_out _)) (plain_rename _ _ _)
    · exact plain_ok (plain_quiet (plain_lstat _ _)) (plain_rename _ _ _)
  · intro so r outs _ _ ho
    rw [ho]
    split
    · exact ⟨plain_quiet (plain_rename _ _ _), rfl, rfl, Or.inr (by simp), fun e he => by simp [he]⟩
    · exact ⟨plain_quiet (plain_rename _ _ _), rfl, rfl, Or.inr (by simp), fun e he => by simp [he]⟩
  · intro t s; exact plain_ok (plain_quiet (plain_rename _ _ _)) (plain_err _)
  · intro so r outs s _ _ ho
    rw [ho]
    split
    · exact ⟨plain_quiet (plain_err _), rfl, rfl, Or.inl rfl, fun e he => by simp [he]⟩
    · exact ⟨plain_quiet (plain_err _), rfl, rfl, Or.inl rfl, fun e he => by simp [he]⟩

/-- Either nothing waits, or an entry of this very directory that is passed over. -/
def AtHead (ws : List Bytes) (hd : Nat) (h : List Event) : Prop :=
  ∀ hd' name t, h = .readdir hd' (some name) :: t → hd' = hd ∧ Skipped ws t name

theorem readdir_ok {ws args : List Bytes} {o : Options} {hd : Nat} {f : Bytes} {S : List (Nat × Bytes)} {h : List Event}
    (ha : AtHead ws hd h) (ho : openDirs h = (hd, f) :: S) (r : Option Bytes) : ScanOk ws args o h (.readdir hd r) where
  skip hd' name t heq _ := ⟨r, by rw [(ha hd' name t heq).1]⟩
  visit hd' name t heq hn := absurd (ha hd' name t heq).2 hn
  opens p r heq := by cases heq
  handles hd' heq := by
    rcases heq with ⟨r', heq⟩ | heq
    · cases heq; exact ⟨f, S, ho⟩
    · cases heq
  closes hd heq := by cases heq

theorem dirLoop_scan {P : Platform} {o : Options} {ws args : List Bytes}
    (recDir : Option Filelist → Bytes → Prog (Option Filelist))
    (hrec : ∀ ign f h, Quiet h → IgnOk ws ign (visible h) → o.recurse = true →
      (recDir ign f).wp (ScanOk ws args o)
        (fun ign' h' => Quiet h' ∧ openDirs h' = openDirs h ∧ IgnOk ws ign' (visible h')) h)
    (hd : Nat) (f : Bytes) (S : List (Nat × Bytes)) :
    ∀ (m : Nat) (st : Stat) (ign : Option Filelist) (h : List Event), AtHead ws hd h → openDirs h = (hd, f) :: S →
      IgnOk ws ign (visible h) →
      (dirLoop P o recDir hd f m st ign).wp (ScanOk ws args o)
        (fun ign' h' => Quiet h' ∧ openDirs h' = S ∧ IgnOk ws ign' (visible h')) h := by
  intro m
  induction m with
  | zero => intros; trivial
  | succ m ih =>
    intro st ign h ha ho hi e
    refine ⟨readdir_ok ha ho e, ?_⟩
    cases e with
    | none =>
      refine ⟨⟨?_, ?_, ?_, ?_, ?_⟩, ?_, ?_, ?_⟩
      · intro hd' name t heq; cases heq
      · intro hd' name t heq; cases heq
      · intro p r heq; cases heq
      · intro hd' heq
        rcases heq with ⟨r, heq⟩ | heq
        · cases heq
        · cases heq; exact ⟨f, S, ho⟩
      · intro hd' heq; cases heq; exact ⟨h, rfl⟩
      · intro hd' name t heq; cases heq
      · show List.eraseP _ (openDirs h) = S
        rw [ho]; simp
      · exact hi
    | some name =>
      refine Prog.wp_ofRes _ _ _ ?_
      intro p hp
      have hop : openDirs (.readdir hd (some name) :: h) = (hd, f) :: S := ho
      by_cases hh : Hidden name
      · rw [ignoreFile_hidden name ign hh] at hp
        cases hp
        simp only [if_true]
        refine ih _ _ _ ?_ hop ?_
        · intro hd' name' t heq; cases heq; exact ⟨rfl, Or.inl hh⟩
        · simpa [visible, hh] using hi
      · obtain ⟨ign', h1, h2⟩ := ignoreFile_visible hi name hh
        rw [h1] at hp
        cases hp
        have hv : visible (.readdir hd (some name) :: h) = name :: visible h := by simp [visible, hh]
        by_cases hs : name ∈ ws.drop (cursorAfter ws (visible h))
        · simp only [hs, decide_true, if_true]
          refine ih _ _ _ ?_ hop (by rw [hv]; exact h2)
          intro hd' name' t heq; cases heq; exact ⟨rfl, Or.inr hs⟩
        · simp only [hs, decide_false, Bool.false_eq_true, if_false]
          intro r
          have hok : ScanOk ws args o (.readdir hd (some name) :: h)
              (.lstat ((f ++ [0x2F] ++ name).take (f.length + 1023)) r) := by
            refine ⟨?_, ?_, ?_, ?_, ?_⟩
            · intro hd' name' t heq hsk; cases heq
              rcases hsk with hsk | hsk
              · exact absurd hsk hh
              · exact absurd hsk hs
            · intro hd' name' t heq hsk; cases heq
              exact ⟨f, S, r, ho, rfl⟩
            · intro p r heq; cases heq
            · intro hd' heq
              rcases heq with ⟨r, heq⟩ | heq <;> cases heq
            · intro hd' heq; cases heq
          refine ⟨hok, ?_⟩
          generalize (f ++ [0x2F] ++ name).take (f.length + 1023) = nf
          have hq : Quiet (.lstat nf r :: .readdir hd (some name) :: h) := plain_quiet (plain_lstat _ _)
          have hpf := parseFile_scan (P := P) (o := o) (ws := ws) (args := args) (f := nf) hq
          have next : ∀ (h' : List Event) (ign'' : Option Filelist) (st' : Stat), Quiet h' →
              openDirs h' = (hd, f) :: S → IgnOk ws ign'' (visible h') →
              (dirLoop P o recDir hd f m st' ign'').wp (ScanOk ws args o)
                (fun ign' h' => Quiet h' ∧ openDirs h' = S ∧ IgnOk ws ign' (visible h')) h' := by
            intro h' ign'' st' q1 q2 q3
            exact ih _ _ _ (fun hd' name' t heq => absurd heq (q1 hd' name' t)) q2 q3
          dsimp only
          split
          · refine Prog.wp_bind _ _ _ (Prog.wp_mono ?_ _ _ hpf)
            rintro work h' ⟨q1, q2, q3, q4, q5⟩
            split
            · next hr =>
              refine Prog.wp_bind _ _ _ (Prog.wp_mono ?_ _ _ (hrec _ _ _ q1 ?_ hr))
              · rintro ign2 h2' ⟨s1, s2, s3⟩
                exact next _ _ _ s1 (by rw [s2, q2]; exact hop) s3
              · rw [q3]; show IgnOk ws ign' (visible (.readdir hd (some name) :: h)); rw [hv]; exact h2
            · refine next _ _ _ q1 (by rw [q2]; exact hop) ?_
              rw [q3]; show IgnOk ws ign' (visible (.readdir hd (some name) :: h)); rw [hv]; exact h2
          · split
            · refine Prog.wp_bind _ _ _ (Prog.wp_mono ?_ _ _ hpf)
              rintro work h' ⟨q1, q2, q3, q4, q5⟩
              refine next _ _ _ q1 (by rw [q2]; exact hop) ?_
              rw [q3]; show IgnOk ws ign' (visible (.readdir hd (some name) :: h)); rw [hv]; exact h2
            · refine next _ _ _ hq hop ?_
              show IgnOk ws ign' (visible (.readdir hd (some name) :: h)); rw [hv]; exact h2

theorem parseDir_scan {P : Platform} {o : Options} {ws args : List Bytes} :
    ∀ (n : Nat) (ign : Option Filelist) (f : Bytes) (h : List Event), Quiet h → IgnOk ws ign (visible h) →
      (o.recurse = true ∨ f ∈ args ∨ ∃ a ∈ args, .rename a f true ∈ h) →
      (parseDir P o n ign f).wp (ScanOk ws args o)
        (fun ign' h' => Quiet h' ∧ openDirs h' = openDirs h ∧ IgnOk ws ign' (visible h')) h := by
  intro n
  induction n with
  | zero => intros; trivial
  | succ n ih =>
    intro ign f h hq hi hf r
    refine ⟨plain_ok hq (plain_lstat _ _), ?_⟩
    cases r with
    | none => exact ⟨plain_quiet (plain_lstat _ _), rfl, hi⟩
    | some st =>
      dsimp only
      split
      · exact ⟨plain_quiet (plain_lstat _ _), rfl, hi⟩
      · next hk =>
        have hk : st.kind = .dir := Decidable.not_not.1 hk
        intro d
        have hq' : Quiet (.lstat f (some st) :: h) := plain_quiet (plain_lstat _ _)
        refine ⟨⟨?_, ?_, ?_, ?_, ?_⟩, ?_⟩
        · intro hd name t heq; exact absurd heq (hq' _ _ _)
        · intro hd name t heq; exact absurd heq (hq' _ _ _)
        · intro p r heq; cases heq
          refine ⟨⟨st, h, rfl, hk⟩, ?_⟩
          rcases hf with hf | hf | ⟨a, ha, hf⟩
          · exact Or.inl hf
          · exact Or.inr (Or.inl hf)
          · exact Or.inr (Or.inr ⟨a, ha, by simp [hf]⟩)
        · intro hd heq
          rcases heq with ⟨r, heq⟩ | heq <;> cases heq
        · intro hd heq; cases heq
        · have hquiet : ∀ r, Quiet (Event.opendir f r :: .lstat f (some st) :: h) := by
            intro r hd name t heq; cases heq
          cases d with
          | ok hd =>
            refine dirLoop_scan (P := P) (o := o) (ws := ws) (args := args) _ ?_ hd f (openDirs h) n st ign _ ?_ rfl hi
            · intro ign' f' h' q1 q2 q3
              exact ih ign' f' h' q1 q2 (Or.inl q3)
            · intro hd' name t heq; exact absurd heq (hquiet _ _ _ _)
          | fail =>
            exact ⟨plain_ok (hquiet _) (plain_err _), plain_quiet (plain_err _), rfl, hi⟩
          | emfile => exact ⟨plain_ok (hquiet _) (plain_err _), trivial⟩

theorem processArg_scan {P : Platform} {o : Options} {ws args : List Bytes} (fuel : Nat) (ign : Option Filelist) (f : Bytes)
    (h : List Event) (hq : Quiet h) (hi : IgnOk ws ign (visible h)) (hf : f ∈ args) :
    (processArg P o fuel ign f).wp (ScanOk ws args o)
      (fun ign' h' => Quiet h' ∧ openDirs h' = openDirs h ∧ IgnOk ws ign' (visible h')) h := by
  have body : ∀ h, Quiet h → IgnOk ws ign (visible h) → (Prog.lstat f fun r =>
      match r with
      | none => .err (f ++ lit ": ") (.ret ign)
      | some st =>
        if st.kind = .dir then
          (parseFile P o f).bind fun work => parseDir P o fuel ign work
        else if st.kind = .reg then (parseFile P o f).bind fun _ => .ret ign
        else if o.special then (parseFile P o f).bind fun _ => .ret ign
        else .ret ign).wp (ScanOk ws args o)
      (fun ign' h' => Quiet h' ∧ openDirs h' = openDirs h ∧ IgnOk ws ign' (visible h')) h := by
    intro h hq hi r
    refine ⟨plain_ok hq (plain_lstat _ _), ?_⟩
    cases r with
    | none =>
      exact ⟨plain_ok (plain_quiet (plain_lstat _ _)) (plain_err _), plain_quiet (plain_err _), rfl, hi⟩
    | some st =>
      have hq' : Quiet (.lstat f (some st) :: h) := plain_quiet (plain_lstat _ _)
      have hpf := parseFile_scan (P := P) (o := o) (ws := ws) (args := args) (f := f) hq'
      have fin : ((parseFile P o f).bind fun _ => Prog.ret ign).wp (ScanOk ws args o)
          (fun ign' h' => Quiet h' ∧ openDirs h' = openDirs h ∧ IgnOk ws ign' (visible h')) (.lstat f (some st) :: h) := by
        refine Prog.wp_bind _ _ _ (Prog.wp_mono ?_ _ _ hpf)
        rintro work h' ⟨q1, q2, q3, q4, q5⟩
        exact ⟨q1, q2, by rw [q3]; exact hi⟩
      dsimp only
      split
      · refine Prog.wp_bind _ _ _ (Prog.wp_mono ?_ _ _ hpf)
        rintro work h' ⟨q1, q2, q3, q4, q5⟩
        refine Prog.wp_mono ?_ _ _ (parseDir_scan fuel ign work h' q1 (by rw [q3]; exact hi) ?_)
        · rintro ign' h'' ⟨s1, s2, s3⟩
          exact ⟨s1, by rw [s2, q2]; rfl, s3⟩
        · rcases q4 with q4 | q4
          · right; left; rw [q4]; exact hf
          · right; right; exact ⟨f, hf, q4⟩
      · split
        · exact fin
        · split
          · exact fin
          · exact ⟨hq', rfl, hi⟩
  unfold processArg
  dsimp only
  split
  · refine ⟨plain_ok hq (plain_out _), ?_⟩
    exact body _ (plain_quiet (plain_out _)) hi
  · exact body _ hq hi

theorem fileLoop_scan {P : Platform} {o : Options} {ws args : List Bytes} (fuel : Nat) :
    ∀ (n k : Nat) (l : Filelist) (ign : Option Filelist) (h : List Event), l.Holds args k → Quiet h →
      IgnOk ws ign (visible h) →
      (fileLoop P o fuel n l ign).wp (ScanOk ws args o)
        (fun ign' h' => Quiet h' ∧ openDirs h' = openDirs h ∧ IgnOk ws ign' (visible h')) h := by
  intro n
  induction n with
  | zero => intros; trivial
  | succ n ih =>
    intro k l ign h hl hq hi
    refine Prog.wp_ofRes _ _ _ ?_
    intro p hp
    have hg := filelistGet_holds hl
    split at hg
    · next hk =>
      obtain ⟨l', h1, h2⟩ := hg
      rw [h1] at hp
      cases hp
      refine Prog.wp_bind _ _ _ (Prog.wp_mono ?_ _ _ (processArg_scan fuel ign _ h hq hi (List.getElem_mem hk)))
      rintro ign' h' ⟨q1, q2, q3⟩
      refine Prog.wp_mono ?_ _ _ (ih (k + 1) l' ign' h' h2 q1 q3)
      rintro ign'' h'' ⟨s1, s2, s3⟩
      exact ⟨s1, by rw [s2, q2], s3⟩
    · next hk =>
      obtain ⟨l', h1, h2⟩ := hg
      rw [h1] at hp
      cases hp
      exact ⟨hq, rfl, hi⟩

end Detox
