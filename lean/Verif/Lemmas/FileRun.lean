import Verif.Lemmas.Trace
import Verif.Lemmas.Filelist
import Verif.Model.File
import Verif.Spec.Run

/-!
# Structure of the executions of a run over files
-/

set_option autoImplicit false

namespace Detox

/-! ### Paths -/

theorem dirPart_append_basePart (p : Bytes) : dirPart p ++ basePart p = p := by
  unfold dirPart basePart
  rw [← List.reverse_append, List.takeWhile_append_dropWhile, List.reverse_reverse]

theorem basePart_no_slash (p : Bytes) : 0x2F ∉ basePart p := by
  unfold basePart
  rw [List.mem_reverse]
  intro h
  have : ∀ (l : Bytes), 0x2F ∈ l.takeWhile (· ≠ 0x2F) → False := by
    intro l
    induction l with
    | nil => simp
    | cons c l ih =>
      rw [List.takeWhile_cons]
      split
      · next hc => intro h; cases h with
        | head => simp at hc
        | tail _ h => exact ih h
      · simp
  exact this _ h

theorem dirPart_ends (p : Bytes) : dirPart p = [] ∨ ∃ d, dirPart p = d ++ [0x2F] := by
  unfold dirPart
  cases h : p.reverse.dropWhile (· ≠ 0x2F) with
  | nil => left; rfl
  | cons c l =>
    right
    refine ⟨l.reverse, ?_⟩
    have := List.head_dropWhile_not (p := (· ≠ (0x2F : Byte))) (l := p.reverse) (by rw [h]; simp)
    simp only [h, List.head_cons] at this
    have hc : c = 0x2F := by simpa using this
    rw [List.reverse_cons, hc]

theorem splitsAs_parts (p : Bytes) : Spec.SplitsAs p (dirPart p) (basePart p) :=
  ⟨(dirPart_append_basePart p).symm, basePart_no_slash p, dirPart_ends p⟩

theorem splitsAs_unique {p d n : Bytes} (h : Spec.SplitsAs p d n) : d = dirPart p ∧ n = basePart p := by
  obtain ⟨h1, h2, h3⟩ := h
  have key : ∀ (a : Bytes) (r : Bytes), (∀ c ∈ a, c ≠ 0x2F) → (r = [] ∨ ∃ q, r = 0x2F :: q) →
      (a ++ r).takeWhile (· ≠ 0x2F) = a ∧ (a ++ r).dropWhile (· ≠ 0x2F) = r := by
    intro a r ha hr
    induction a with
    | nil =>
      rcases hr with rfl | ⟨q, rfl⟩ <;> simp
    | cons c a ih =>
      have hc : c ≠ 0x2F := ha c (by simp)
      obtain ⟨i1, i2⟩ := ih (fun x hx => ha x (by simp [hx]))
      rw [List.cons_append, List.takeWhile_cons, List.dropWhile_cons]
      simp only [hc, ne_eq, not_false_eq_true, decide_true, if_true]
      exact ⟨by rw [i1], i2⟩
  have hk := key n.reverse d.reverse (fun c hc heq => h2 (by rw [List.mem_reverse] at hc; rw [← heq]; exact hc))
    (by
      rcases h3 with rfl | ⟨q, rfl⟩
      · left; rfl
      · right; exact ⟨q.reverse, by simp⟩)
  unfold dirPart basePart
  rw [h1, List.reverse_append, hk.1, hk.2]
  simp

/-! ### `ignore_file` -/

/-- Where the cursor of the ignore list `ws` stands after checking names (most recent first). -/
def cursorAfter (ws : List Bytes) : List Bytes → Nat
  | [] => 0
  | name :: older =>
    if name ∈ ws.drop (cursorAfter ws older) then
      cursorAfter ws older + (ws.drop (cursorAfter ws older)).idxOf name + 1
    else 0

theorem ignoreLoop_holds {ws : List Bytes} (name : Bytes) : ∀ (m n : Nat) (l : Filelist), l.Holds ws n →
    ws.length < n + m → ∃ l', ignoreLoop name m l = .ok (l', decide (name ∈ ws.drop n)) ∧
      l'.Holds ws (if name ∈ ws.drop n then n + (ws.drop n).idxOf name + 1 else 0) := by
  intro m
  induction m with
  | zero => intro n l h hm; have := h.2.2.2.1; omega
  | succ m ih =>
    intro n l h hm
    have hg := filelistGet_holds h
    split at hg
    · next hn =>
      obtain ⟨l1, h1, h2⟩ := hg
      have hd : ws.drop n = ws[n] :: ws.drop (n + 1) := List.drop_eq_getElem_cons hn
      obtain ⟨l2, h3, h4⟩ := ih (n + 1) l1 h2 (by omega)
      clear ih h
      generalize ws.drop n = dn at hd ⊢
      subst hd
      generalize ws[n] = x at h1 ⊢
      generalize ws.drop (n + 1) = tl at h3 h4 ⊢
      by_cases he : name = x
      · subst he
        refine ⟨l1, ?_, ?_⟩
        · simp only [ignoreLoop, h1, Res.bind_ok]
          simp
        · simpa using h2
      · refine ⟨l2, ?_, ?_⟩
        · simp only [ignoreLoop, h1, Res.bind_ok]
          rw [if_neg he, h3]
          simp [he]
        · have hb : (name ∈ x :: tl) ↔ name ∈ tl := by simp [he]
          by_cases hm2 : name ∈ tl
          · rw [if_pos (hb.2 hm2)]
            rw [if_pos hm2] at h4
            have hx : (x :: tl).idxOf name = tl.idxOf name + 1 := by
              have hne : (x == name) = false := by simpa using Ne.symm he
              rw [List.idxOf_cons, hne]; rfl
            have : n + (tl.idxOf name + 1) + 1 = n + 1 + tl.idxOf name + 1 := by omega
            rw [hx, this]; exact h4
          · rw [if_neg (fun x => hm2 (hb.1 x))]
            rw [if_neg hm2] at h4; exact h4
    · next hn =>
      obtain ⟨l1, h1, h2⟩ := hg
      have hd : ws.drop n = [] := List.drop_eq_nil_of_le (by omega)
      refine ⟨l1, ?_, ?_⟩
      · simp only [ignoreLoop, h1, Res.bind_ok, hd]; simp <;> rfl
      · simpa [hd] using h2

/-- The ignore list in memory holds `ws`, and its cursor is where the history says. -/
def IgnOk (ws : List Bytes) (ign : Option Filelist) (seen : List Bytes) : Prop :=
  match ign with
  | none => ws = []
  | some l => l.Holds ws (cursorAfter ws seen)

theorem cursorAfter_nil (seen : List Bytes) : cursorAfter [] seen = 0 := by
  cases seen <;> simp [cursorAfter]

theorem ignoreFile_hidden (name : Bytes) (ign : Option Filelist) (h : Spec.Hidden name) :
    ignoreFile name ign = .ok (ign, true) := by
  obtain ⟨r, rfl⟩ := h
  simp [ignoreFile]

theorem ignoreFile_visible {ws : List Bytes} {ign : Option Filelist} {seen : List Bytes} (hi : IgnOk ws ign seen)
    (name : Bytes) (h : ¬ Spec.Hidden name) :
    ∃ ign', ignoreFile name ign = .ok (ign', decide (name ∈ ws.drop (cursorAfter ws seen))) ∧
      IgnOk ws ign' (name :: seen) := by
  have hh : ¬ name.head? = some 0x2E := by
    intro hx
    cases name with
    | nil => cases hx
    | cons c r => simp at hx; exact h ⟨r, by rw [hx]⟩
  cases ign with
  | none =>
    have : ws = [] := hi
    refine ⟨none, ?_, this⟩
    simp [ignoreFile, hh, this]
  | some l =>
    have hl : l.Holds ws (cursorAfter ws seen) := hi
    obtain ⟨l', h1, h2⟩ := ignoreLoop_holds name (l.count + 1) _ l hl (by rw [hl.1]; omega)
    refine ⟨some l', ?_, ?_⟩
    · simp only [ignoreFile, hh, if_false, h1, Res.bind_ok]; rfl
    · exact h2

/-! ### A generic principle: what holds for `parse_file` holds for the run -/

/-- The result of the `lstat` that made detox look at a path: only regular files and directories, unless
special files are wanted. `none`: the `lstat` in `parse_dir` failed and an older result was used. -/
def Wanted (o : Options) (r : Option Stat) : Prop :=
  ∀ st, r = some st → o.special = true ∨ st.kind = .reg ∨ st.kind = .dir

section generic
variable {Ok : List Event → Event → Prop} {P : Platform} {o : Options}

theorem dirLoop_generic (hother : ∀ h e, (∀ a b c, e ≠ .rename a b c) → Ok h e)
    (hpf : ∀ f r t, Wanted o r → (parseFile P o f).wp Ok (fun _ _ => True) (.lstat f r :: t))
    (recDir : Option Filelist → Bytes → Prog (Option Filelist))
    (hrec : ∀ ign f h, (recDir ign f).wp Ok (fun _ _ => True) h) (hd : Nat) (filename : Bytes) :
    ∀ (m : Nat) (st : Stat) (ign : Option Filelist) (h : List Event),
      (dirLoop P o recDir hd filename m st ign).wp Ok (fun _ _ => True) h := by
  intro m
  induction m with
  | zero => intro st ign h; trivial
  | succ m ih =>
    intro st ign h
    intro e
    refine ⟨hother _ _ (by intros; simp), ?_⟩
    cases e with
    | none => exact ⟨hother _ _ (by intros; simp), trivial⟩
    | some name =>
      refine Prog.wp_ofRes _ _ _ ?_
      intro p hp
      dsimp only
      split
      · exact ih _ _ _
      · intro r
        refine ⟨hother _ _ (by intros; simp), ?_⟩
        dsimp only
        split
        · next hk =>
          refine Prog.wp_bind _ _ _ (Prog.wp_mono ?_ _ _ (hpf _ r _ ?_))
          · intro work h' _
            split
            · refine Prog.wp_bind _ _ _ (Prog.wp_mono ?_ _ _ (hrec _ _ _))
              intro ign' h'' _
              exact ih _ _ _
            · exact ih _ _ _
          · intro st' hr; subst hr; exact Or.inr (Or.inr hk)
        · split
          · next hk =>
            refine Prog.wp_bind _ _ _ (Prog.wp_mono ?_ _ _ (hpf _ r _ ?_))
            · intro work h' _; exact ih _ _ _
            · intro st' hr; subst hr
              simp only [Option.getD_some, Bool.or_eq_true, decide_eq_true_eq] at hk
              rcases hk with hk | hk
              · exact Or.inr (Or.inl hk)
              · exact Or.inl hk
          · exact ih _ _ _

theorem parseDir_generic (hother : ∀ h e, (∀ a b c, e ≠ .rename a b c) → Ok h e)
    (hpf : ∀ f r t, Wanted o r → (parseFile P o f).wp Ok (fun _ _ => True) (.lstat f r :: t)) :
    ∀ (n : Nat) (ign : Option Filelist) (f : Bytes) (h : List Event),
      (parseDir P o n ign f).wp Ok (fun _ _ => True) h := by
  intro n
  induction n with
  | zero => intro ign f h; trivial
  | succ n ih =>
    intro ign f h r
    refine ⟨hother _ _ (by intros; simp), ?_⟩
    cases r with
    | none => trivial
    | some st =>
      dsimp only
      split
      · trivial
      · intro d
        refine ⟨hother _ _ (by intros; simp), ?_⟩
        cases d with
        | ok hd => exact dirLoop_generic hother hpf _ (fun ign f h => ih ign f h) hd f n st ign _
        | fail => exact ⟨hother _ _ (by intros; simp), trivial⟩
        | emfile => exact ⟨hother _ _ (by intros; simp), trivial⟩

theorem processArg_generic (hother : ∀ h e, (∀ a b c, e ≠ .rename a b c) → Ok h e)
    (hpf : ∀ f r t, Wanted o r → (parseFile P o f).wp Ok (fun _ _ => True) (.lstat f r :: t))
    (fuel : Nat) (ign : Option Filelist) (f : Bytes) (h : List Event) :
    (processArg P o fuel ign f).wp Ok (fun _ _ => True) h := by
  have body : ∀ h, (Prog.lstat f fun r =>
      match r with
      | none => .err (f ++ lit ": ") (.ret ign)
      | some st =>
        if st.kind = .dir then
          (parseFile P o f).bind fun work => parseDir P o fuel ign work
        else if st.kind = .reg then (parseFile P o f).bind fun _ => .ret ign
        else if o.special then (parseFile P o f).bind fun _ => .ret ign
        else .ret ign).wp Ok (fun _ _ => True) h := by
    intro h r
    refine ⟨hother _ _ (by intros; simp), ?_⟩
    cases r with
    | none => exact ⟨hother _ _ (by intros; simp), trivial⟩
    | some st =>
      dsimp only
      split
      · next hk =>
        refine Prog.wp_bind _ _ _ (Prog.wp_mono ?_ _ _ (hpf _ _ _ ?_))
        · intro work h' _; exact parseDir_generic hother hpf _ _ _ _
        · intro st' hr; cases hr; exact Or.inr (Or.inr hk)
      · split
        · next hk =>
          refine Prog.wp_bind _ _ _ (Prog.wp_mono ?_ _ _ (hpf _ _ _ ?_))
          · intro work h' _; trivial
          · intro st' hr; cases hr; exact Or.inr (Or.inl hk)
        · split
          · next hk =>
            refine Prog.wp_bind _ _ _ (Prog.wp_mono ?_ _ _ (hpf _ _ _ ?_))
            · intro work h' _; trivial
            · intro st' hr; cases hr; exact Or.inl hk
          · trivial
  unfold processArg
  dsimp only
  split
  · exact ⟨hother _ _ (by intros; simp), body _⟩
  · exact body _

theorem fileLoop_generic (hother : ∀ h e, (∀ a b c, e ≠ .rename a b c) → Ok h e)
    (hpf : ∀ f r t, Wanted o r → (parseFile P o f).wp Ok (fun _ _ => True) (.lstat f r :: t)) (fuel : Nat) :
    ∀ (n : Nat) (l : Filelist) (ign : Option Filelist) (h : List Event),
      (fileLoop P o fuel n l ign).wp Ok (fun _ _ => True) h := by
  intro n
  induction n with
  | zero => intro l ign h; trivial
  | succ n ih =>
    intro l ign h
    refine Prog.wp_ofRes _ _ _ ?_
    intro p hp
    split
    · trivial
    · refine Prog.wp_bind _ _ _ (Prog.wp_mono ?_ _ _ (processArg_generic hother hpf _ _ _ _))
      intro ign' h' _
      exact ih _ _ _

end generic

end Detox
