import Verif.Props.Complete
import Verif.Props.Warnings
import Verif.Spec.Silent

/-!
# Silent runs of the program with warnings are scans in which no filter warns
-/

set_option autoImplicit false

namespace Detox
open Spec

theorem Silent.left {a b : List Event} (h : Silent (a ++ b)) : Silent a := fun s hs => h s (List.mem_append.2 (.inl hs))
theorem Silent.right {a b : List Event} (h : Silent (a ++ b)) : Silent b := fun s hs => h s (List.mem_append.2 (.inr hs))
theorem Silent.tail {e : Event} {b : List Event} (h : Silent (e :: b)) : Silent b := fun s hs => h s (List.mem_cons_of_mem _ hs)

theorem FileRunBy.mono {R R' : Bytes → Bytes → Prop} {o : Options} {f p : Bytes} {tr : List Event} (h : FileRunBy R o f tr p)
    (hR : ∀ dir name w, SplitsAs f dir name → name ≠ lit "." → name ≠ lit ".." → R name w → R' name w) : FileRunBy R' o f tr p := by
  cases h with
  | clean dir name a b =>
    refine .clean dir name a ?_
    by_cases h1 : name = lit "."
    · exact .inl h1
    by_cases h2 : name = lit ".."
    · exact .inr (.inl h2)
    rcases b with b | b | b
    · exact absurd b h1
    · exact absurd b h2
    · exact .inr (.inr (hR _ _ _ a h1 h2 b))
  | gone dir name w a b c d e => exact .gone dir name w a b c (hR _ _ _ a b c d) e
  | refused dir name w so sn a b c d e f => exact .refused dir name w so sn a b c (hR _ _ _ a b c d) e f
  | dry dir name w so rn a b c d e f g => exact .dry dir name w so rn a b c (hR _ _ _ a b c d) e f g
  | renamed dir name w so rn a b c d e f g => exact .renamed dir name w so rn a b c (hR _ _ _ a b c d) e f g
  | failed dir name w so rn a b c d e f g => exact .failed dir name w so rn a b c (hR _ _ _ a b c d) e f g

theorem parseFileLoud_run {P : Platform} {o : Options} {f p : Bytes} {tr : List Event} (h : Trace (parseFileLoud P o f) tr (.ret p))
    (hs : Silent tr) : FileRunBy (MakesSilently P o) o f tr p := by
  obtain ⟨ms, t, rfl, h1, _, h3⟩ := C89_parse_file h
  have : ms = [] := by
    cases ms with
    | nil => rfl
    | cons m ms => exact absurd (by simp) (hs m)
  subst this
  refine (C56_parse_file_exactly P o f t p h1).mono fun dir name w a b c d => ?_
  have hn : name = basePart f := (splitsAs_unique a).2
  subst hn
  have hp : isProtected (basePart f) = false := by
    cases hp : isProtected (basePart f) with
    | false => rfl
    | true =>
      rcases (isProtected_iff _).1 hp with h | h
      · exact absurd h b
      · exact absurd h c
  obtain ⟨w', h4⟩ := h3 hp
  have h5 := sequenceRunFiltersLoud_snd P o.sequenceToUse (some (basePart f))
  rw [h4, show sequenceRunFilters P o.sequenceToUse (some (basePart f)) = .ok (some w) from d] at h5
  cases h5
  exact h4

theorem dirLoopLoud_scan {P : Platform} {o : Options} {ws : List Bytes}
    {recDir : Option Filelist → Bytes → Prog (Option Filelist)}
    (hrec : ∀ ign p tr ign' seen, Trace (recDir ign p) tr (.ret ign') → Silent tr → IgnOk ws ign seen →
      ∃ seen', ScanBy (MakesSilently P o) o ws (.dir p) seen tr seen' ∧ IgnOk ws ign' seen') (h : Nat) (path : Bytes) :
    ∀ (n : Nat) (st : Stat) (ign ign' : Option Filelist) (tr : List Event) (seen : List Bytes),
      Trace (dirLoopLoud P o recDir h path n st ign) tr (.ret ign') → Silent tr → IgnOk ws ign seen →
      ∃ seen', ScanBy (MakesSilently P o) o ws (.entries h path st) seen tr seen' ∧ IgnOk ws ign' seen'
  | 0, _, _, _, _, _, ht, _, _ => by cases ht
  | n + 1, st, ign, ign', tr, seen, ht, hsil, hi => by
    have ih := dirLoopLoud_scan hrec h path n
    unfold dirLoopLoud at ht
    cases ht with
    | readdir _ _ e tr _ ht =>
    cases e with
    | none =>
      cases ht with
      | closedir _ _ _ _ ht => cases ht; exact ⟨seen, .finish _ _ _ _, hi⟩
    | some name =>
      obtain ⟨ign1, b, h1, h2, h3⟩ := ignoreFile_seeing hi name
      simp only [h1] at ht
      change Trace (if b = true then _ else _) tr _ at ht
      by_cases hb : b = true
      · rw [if_pos hb] at ht
        obtain ⟨seen', h4, h5⟩ := ih _ _ _ _ _ ht hsil.tail h3
        exact ⟨seen', .pass _ _ _ _ _ _ _ (h2.1 hb) h4, h5⟩
      · rw [if_neg hb] at ht
        have hno : ¬ PassedOver ws seen name := fun hp => hb (h2.2 hp)
        cases ht with
        | lstat _ _ r tr _ ht =>
        dsimp only at ht
        change Trace (if _ then _ else _) tr _ at ht
        by_cases hd : (r.getD st).kind = .dir
        · rw [if_pos hd] at ht
          obtain ⟨p, t1, t2, rfl, h4, h5⟩ := trace_bind_ret ht
          have hf := parseFileLoud_run h4 hsil.tail.tail.left
          by_cases hr : o.recurse = true
          · rw [if_pos hr] at h5
            obtain ⟨ign2, t3, t4, rfl, h6, h7⟩ := trace_bind_ret h5
            obtain ⟨seen1, h8, h9⟩ := hrec _ _ _ _ _ h6 hsil.tail.tail.right.left h3
            obtain ⟨seen', h10, h11⟩ := ih _ _ _ _ _ h7 hsil.tail.tail.right.right h9
            exact ⟨seen', .recurse _ _ _ _ _ _ _ _ _ _ _ _ hno hd hr hf h8 h10, h11⟩
          · rw [if_neg hr] at h5
            obtain ⟨seen', h6, h7⟩ := ih _ _ _ _ _ h5 hsil.tail.tail.right h3
            exact ⟨seen', .file _ _ _ _ _ _ _ _ _ _ hno (.inl ⟨hd, by simpa using hr⟩) hf h6, h7⟩
        · rw [if_neg hd] at ht
          by_cases hw : (decide ((r.getD st).kind = .reg) || o.special) = true
          · rw [if_pos hw] at ht
            obtain ⟨p, t1, t2, rfl, h4, h5⟩ := trace_bind_ret ht
            have hf := parseFileLoud_run h4 hsil.tail.tail.left
            obtain ⟨seen', h6, h7⟩ := ih _ _ _ _ _ h5 hsil.tail.tail.right h3
            refine ⟨seen', .file _ _ _ _ _ _ _ _ _ _ hno (.inr ?_) hf h6, h7⟩
            simp only [Bool.or_eq_true, decide_eq_true_eq] at hw
            rcases hw with hw | hw
            · exact .inl hw
            · exact .inr ⟨hd, hw⟩
          · rw [if_neg hw] at ht
            obtain ⟨seen', h6, h7⟩ := ih _ _ _ _ _ ht hsil.tail.tail h3
            simp only [Bool.or_eq_true, decide_eq_true_eq, not_or] at hw
            exact ⟨seen', .leave _ _ _ _ _ _ _ _ hno hd hw.1 (by simpa using hw.2) h6, h7⟩

theorem parseDirLoud_scan {P : Platform} {o : Options} {ws : List Bytes} :
    ∀ (n : Nat) (ign : Option Filelist) (p : Bytes) (tr : List Event) (ign' : Option Filelist) (seen : List Bytes),
      Trace (parseDirLoud P o n ign p) tr (.ret ign') → Silent tr → IgnOk ws ign seen →
      ∃ seen', ScanBy (MakesSilently P o) o ws (.dir p) seen tr seen' ∧ IgnOk ws ign' seen'
  | 0, _, _, _, _, _, ht, _, _ => by cases ht
  | n + 1, ign, p, tr, ign', seen, ht, hsil, hi => by
    unfold parseDirLoud at ht
    cases ht with
    | lstat _ _ r tr _ ht =>
    cases r with
    | none => cases ht; exact ⟨seen, .gone _ _, hi⟩
    | some st =>
      change Trace (if _ then _ else _) tr _ at ht
      by_cases hd : st.kind ≠ .dir
      · rw [if_pos hd] at ht
        cases ht
        exact ⟨seen, .replaced _ _ _ hd, hi⟩
      · rw [if_neg hd] at ht
        have hd' := Classical.not_not.1 hd
        cases ht with
        | opendir _ _ r tr _ ht =>
        cases r with
        | ok h =>
          obtain ⟨seen', h1, h2⟩ := dirLoopLoud_scan (parseDirLoud_scan n) h p n st ign ign' tr seen ht hsil.tail.tail hi
          exact ⟨seen', .opened _ _ _ _ _ _ hd' h1, h2⟩
        | fail =>
          cases ht with
          | err _ _ _ _ ht => cases ht; exact ⟨seen, .closed _ _ _ hd', hi⟩
        | emfile => cases ht with | err _ _ _ _ ht => cases ht

theorem processArgLoud_scan {P : Platform} {o : Options} {ws : List Bytes} {fuel : Nat} {ign ign' : Option Filelist} {f : Bytes}
    {tr : List Event} {seen : List Bytes} (ht : Trace (processArgLoud P o fuel ign f) tr (.ret ign')) (hsil : Silent tr) (hi : IgnOk ws ign seen) :
    ∃ t seen', tr = (if o.verbose = 0 then [] else [.out (lit "Scanning: " ++ f ++ lit "\n")]) ++ t ∧
      ArgScanBy (MakesSilently P o) o ws f seen t seen' ∧ IgnOk ws ign' seen' := by
  have body : ∀ t, Trace (Prog.lstat f fun r => match r with
          | none => .err (f ++ lit ": ") (.ret ign)
          | some st =>
            if st.kind = .dir then (parseFileLoud P o f).bind fun work => parseDirLoud P o fuel ign work
            else if st.kind = .reg then (parseFileLoud P o f).bind fun _ => .ret ign
            else if o.special then (parseFileLoud P o f).bind fun _ => .ret ign
            else .ret ign) t (.ret ign') → Silent t → ∃ seen', ArgScanBy (MakesSilently P o) o ws f seen t seen' ∧ IgnOk ws ign' seen' := by
    intro t ht hsil
    cases ht with
    | lstat _ _ r tr _ ht =>
    cases r with
    | none =>
      cases ht with
      | err _ _ _ _ ht => cases ht; exact ⟨seen, .missing _, hi⟩
    | some st =>
      change Trace (if _ then _ else _) tr _ at ht
      have plain : Trace ((parseFileLoud P o f).bind fun _ => .ret ign) tr (.ret ign') →
          Silent tr → (st.kind = .reg ∨ st.kind ≠ .dir ∧ o.special = true) →
          ∃ seen', ArgScanBy (MakesSilently P o) o ws f seen (.lstat f (some st) :: tr) seen' ∧ IgnOk ws ign' seen' := by
        intro ht hsil hk
        obtain ⟨p, t1, t2, rfl, h4, h5⟩ := trace_bind_ret ht
        cases h5
        rw [List.append_nil]
        exact ⟨seen, .file _ _ _ _ hk (parseFileLoud_run h4 hsil.left), hi⟩
      by_cases hd : st.kind = .dir
      · rw [if_pos hd] at ht
        obtain ⟨p, t1, t2, rfl, h4, h5⟩ := trace_bind_ret ht
        obtain ⟨seen', h6, h7⟩ := parseDirLoud_scan _ _ _ _ _ _ h5 hsil.tail.right hi
        exact ⟨seen', .dir _ _ _ _ _ _ hd (parseFileLoud_run h4 hsil.tail.left) h6, h7⟩
      · rw [if_neg hd] at ht
        by_cases hr : st.kind = .reg
        · rw [if_pos hr] at ht
          exact plain ht hsil.tail (.inl hr)
        · rw [if_neg hr] at ht
          by_cases hs : o.special = true
          · rw [if_pos hs] at ht
            exact plain ht hsil.tail (.inr ⟨hd, hs⟩)
          · rw [if_neg hs] at ht
            cases ht
            exact ⟨seen, .leave _ _ hd hr (by simpa using hs), hi⟩
  unfold processArgLoud at ht
  dsimp only at ht
  by_cases hv : o.verbose = 0
  · rw [if_neg (by simp [hv])] at ht
    obtain ⟨seen', h1, h2⟩ := body _ ht hsil
    exact ⟨_, seen', by simp [hv], h1, h2⟩
  · rw [if_pos (by simpa using hv)] at ht
    cases ht with
    | out _ _ tr _ ht =>
      obtain ⟨seen', h1, h2⟩ := body _ ht hsil.tail
      exact ⟨_, seen', by rw [if_neg hv]; rfl, h1, h2⟩

theorem fileLoopLoud_scan {P : Platform} {o : Options} {ws : List Bytes} {fuel : Nat} {args : List Bytes} :
    ∀ (n k : Nat) (l : Filelist) (ign ign' : Option Filelist) (tr : List Event) (seen : List Bytes),
      l.Holds args k → Trace (fileLoopLoud P o fuel n l ign) tr (.ret ign') → Silent tr → IgnOk ws ign seen →
      ∃ seen', ArgsScanBy (MakesSilently P o) o ws (args.drop k) seen tr seen'
  | 0, _, _, _, _, _, _, _, ht, _, _ => by cases ht
  | n + 1, k, l, ign, ign', tr, seen, hl, ht, hsil, hi => by
    have hg := filelistGet_holds hl
    unfold fileLoopLoud at ht
    split at hg
    · next hk =>
      obtain ⟨l', h1, h2⟩ := hg
      rw [h1] at ht
      change Trace ((processArgLoud P o fuel ign args[k]).bind fun ign' => fileLoopLoud P o fuel n l' ign') tr _ at ht
      obtain ⟨ign1, t1, t2, rfl, h3, h4⟩ := trace_bind_ret ht
      obtain ⟨t, seen1, rfl, h5, h6⟩ := processArgLoud_scan h3 hsil.left hi
      obtain ⟨seen', h7⟩ := fileLoopLoud_scan n (k + 1) l' ign1 ign' t2 seen1 h2 h4 hsil.right h6
      rw [List.drop_eq_getElem_cons hk]
      exact ⟨seen', .cons _ _ _ _ _ _ _ h5 h7⟩
    · next hk =>
      obtain ⟨l', h1, h2⟩ := hg
      rw [h1] at ht
      cases ht
      rw [List.drop_eq_nil_of_le (by omega)]
      exact ⟨seen, .nil _⟩

end Detox
