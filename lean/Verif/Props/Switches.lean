import Verif.Lemmas.Switches
import Verif.Props.Exit

/-!
# C115: what the switches change
-/

set_option autoImplicit false

namespace Detox
open Spec

section
variable {P : Platform} {I J : Invocation} {ss ss' : List Setting} {ws ws' : List Bytes} {fuel : Nat}

/-- What the options become, when they are asked for work. -/
theorem settled_files (o : Options) (hl : o.listSequences = false) (hi : o.isInlineMode = true) (ws : List Bytes) :
    ∃ r : Res Filelist, withOperands o ws = (Prog.ofRes r).bind (fun l => .ret { o with files := some l }) ∧
      r = match ws with | [] => .ok filelistInit | ws => putFiles filelistInit ws := by
  unfold withOperands
  rw [if_neg (by simp [hl])]
  cases ws with
  | nil => exact ⟨_, by rw [if_pos hi]; rfl, rfl⟩
  | cons w ws => exact ⟨_, rfl, rfl⟩

theorem ofRes_bind_congr {α β : Type} (r : Res α) {f g : α → Prog β} (h : ∀ a, f a = g a) : (Prog.ofRes r).bind f = (Prog.ofRes r).bind g := by
  rw [show f = g from funext h]

/-- **C115.** In inline mode `-n`, `-r`, `-v` and `--special` change nothing, and it does not matter whether inline mode was asked for by the
name of the program or by `--inline`. -/
theorem C115_inline_mode (hI : Spec.Reads I ss ws) (hJ : Spec.Reads J ss' ws) (hsys : SameSystem I J) (hi : CalledInline I.program ∨ Setting.inline ∈ ss)
    (hi' : CalledInline J.program ∨ Setting.inline ∈ ss') (hl : Setting.list ∉ ss) (hl' : Setting.list ∉ ss')
    (hc : lastConfig ss = lastConfig ss') (hs : lastSequence ss = lastSequence ss') : detoxMain P I fuel = detoxMain P J fuel := by
  rw [main_reads hI, main_reads hJ]
  have a := settled_asked I.program I.sequence ss
  have b := settled_asked J.program J.sequence ss'
  generalize settled (startOptions I.program I.sequence) ss = o at a ⊢
  generalize settled (startOptions J.program J.sequence) ss' = o' at b ⊢
  obtain ⟨a1, _, _, _, _, a6, _, a8, a9⟩ := a
  obtain ⟨b1, _, _, _, _, b6, _, b8, b9⟩ := b
  have hl1 : o.listSequences = false := by
    cases h : o.listSequences
    · rfl
    · exact absurd (a1.1 h) hl
  have hl2 : o'.listSequences = false := by
    cases h : o'.listSequences
    · rfl
    · exact absurd (b1.1 h) hl'
  have hi1 := a6.2 hi
  have hi2 := b6.2 hi'
  obtain ⟨r, e, er⟩ := settled_files o hl1 hi1 ws
  obtain ⟨r', e', er'⟩ := settled_files o' hl2 hi2 ws
  rw [← er] at er'
  subst er'
  rw [e, e']
  cases r' with
  | ok l =>
    show detoxConfigured P I _ fuel = detoxConfigured P J _ fuel
    unfold detoxConfigured
    dsimp only
    rw [a8, b8, a9, b9, hc, hs, hsys.sequence, hsys.config, hsys.ctype, hsys.datadir, hl1, hl2]
    congr 1
    funext c
    simp only [Bool.false_eq_true, if_false]
    congr 1
    funext q
    congr 1
    funext q'
    unfold detoxWork
    dsimp only
    rw [if_pos hi1, if_pos hi2]
    refine inlineMain_same ?_ _
    rfl
  | exit n => rfl
  | ub u => rfl
  | stuck => rfl

/-- **C115.** With `-L` nothing matters but `-v`, `-f` and the sequence asked for. -/
theorem C115_listing (hI : Spec.Reads I ss ws) (hJ : Spec.Reads J ss' ws') (hsys : SameSystem I J) (hl : Setting.list ∈ ss) (hl' : Setting.list ∈ ss')
    (hv : Setting.verbose ∈ ss ↔ Setting.verbose ∈ ss') (hc : lastConfig ss = lastConfig ss') (hs : lastSequence ss = lastSequence ss') :
    detoxMain P I fuel = detoxMain P J fuel := by
  rw [main_reads hI, main_reads hJ]
  have a := settled_asked I.program I.sequence ss
  have b := settled_asked J.program J.sequence ss'
  generalize settled (startOptions I.program I.sequence) ss = o at a ⊢
  generalize settled (startOptions J.program J.sequence) ss' = o' at b ⊢
  obtain ⟨a1, _, _, _, a5, _, _, a8, a9⟩ := a
  obtain ⟨b1, _, _, _, b5, _, _, b8, b9⟩ := b
  have hl1 := a1.2 hl
  have hl2 := b1.2 hl'
  have hv' : (o.verbose = 0 ↔ o'.verbose = 0) := by
    rw [a5, b5, List.count_eq_zero, List.count_eq_zero, hv]
  unfold withOperands
  rw [if_pos hl1, if_pos hl2]
  show detoxConfigured P I o fuel = detoxConfigured P J o' fuel
  unfold detoxConfigured
  rw [a8, b8, hc, hsys.config, hl1, hl2]
  congr 1
  funext c
  rw [if_pos rfl, if_pos rfl]
  congr 2
  unfold dumpConfigFile
  rw [a9, b9, hs, hsys.sequence]
  by_cases h0 : o.verbose = 0
  · rw [if_pos h0, if_pos (hv'.1 h0)]
    simp only [ne_eq, h0, hv'.1 h0]
  · rw [if_neg h0, if_neg (mt hv'.2 h0)]
    simp only [ne_eq, h0, mt hv'.2 h0]

/-- **C115.** `inline-detox` is `detox --inline`, as inline-detox(1) says; the texts shown for `-h`, `-V` and unreadable options aside. -/
theorem C115_inline_detox (hI : Spec.Reads I ss ws) (hp : CalledInline I.program) (program : Bytes) :
    detoxMain P I fuel = detoxMain P { I with program := program, args := lit "--inline" :: I.args } fuel := by
  have hJ : Spec.Reads { I with program := program, args := lit "--inline" :: I.args } (.inline :: ss) ws := by
    refine ⟨?_, fun s hs => ?_⟩
    · have := CommandLine.long (posix := I.posixlyCorrect) (lit "inline") .inline _ _ _ ⟨_, [], .inline, by simp, by decide +kernel⟩ hI.line
      rw [show (0x2D :: 0x2D :: lit "inline" : Bytes) = lit "--inline" by decide +kernel] at this
      exact this
    · rw [List.mem_cons] at hs
      rcases hs with rfl | hs
      · unfold Setting.Leaves; simp
      · exact hI.stays s hs
  have hsys : SameSystem I { I with program := program, args := lit "--inline" :: I.args } := ⟨rfl, rfl, rfl, rfl⟩
  by_cases hl : Setting.list ∈ ss
  · exact C115_listing hI hJ hsys hl (by simp [hl]) (by simp) rfl rfl
  · exact C115_inline_mode hI hJ hsys (.inl hp) (.inr (by simp)) hl (by simp [hl]) rfl rfl

/-- Runs over files whose options are kin. -/
theorem main_varies {S : Bytes → Prop} {A : Option Stat → Prop} (hI : Spec.Reads I ss ws) (hJ : Spec.Reads J ss' ws) (hsys : SameSystem I J)
    (hp : ¬ CalledInline I.program) (hp' : ¬ CalledInline J.program) (hi : Setting.inline ∉ ss) (hl : Setting.list ∉ ss) {D : List Setting}
    (hD : Setting.inline ∉ D ∧ Setting.list ∉ D ∧ Setting.dryRun ∉ D ∧ Setting.recurse ∉ D) (h : AgreeBut D ss ss')
    (hv : (Setting.verbose ∈ ss ↔ Setting.verbose ∈ ss') ∨
      (Setting.verbose ∉ ss' ∧ (∀ f, S (lit "Scanning: " ++ f ++ [0x0A])) ∧ (Setting.dryRun ∉ ss → ∀ a b, S (a ++ lit " -> " ++ b ++ [0x0A]))))
    (hx : (Setting.special ∈ ss ↔ Setting.special ∈ ss') ∨ ∀ r, A r → Ordinary r) : Varies S A (detoxMain P I fuel) (detoxMain P J fuel) := by
  rw [main_reads hI, main_reads hJ]
  have a := settled_asked I.program I.sequence ss
  have b := settled_asked J.program J.sequence ss'
  have hbin : (settled (startOptions I.program I.sequence) ss).isInlineBin = (settled (startOptions J.program J.sequence) ss').isInlineBin := by
    rw [Bool.eq_iff_iff, a.2.2.2.2.2.2.1, b.2.2.2.2.2.2.1]
    exact iff_of_false hp hp'
  generalize settled (startOptions I.program I.sequence) ss = o at a hbin ⊢
  generalize settled (startOptions J.program J.sequence) ss' = o' at b hbin ⊢
  obtain ⟨a1, a2, a3, a4, a5, a6, _, a8, a9⟩ := a
  obtain ⟨b1, b2, b3, b4, b5, b6, _, b8, b9⟩ := b
  have hl1 : o.listSequences = false := by
    cases h : o.listSequences
    · rfl
    · exact absurd (a1.1 h) hl
  have hl2 : o'.listSequences = false := by
    cases h' : o'.listSequences
    · rfl
    · exact absurd ((h.flags .list (by simp) hD.2.1).2 (b1.1 h')) hl
  have hi1 : o.isInlineMode = false := by
    cases h : o.isInlineMode
    · rfl
    · exact absurd (a6.1 h) (not_or.2 ⟨hp, hi⟩)
  have hi2 : o'.isInlineMode = false := by
    cases h' : o'.isInlineMode
    · rfl
    · exact absurd (b6.1 h') (not_or.2 ⟨hp', mt (h.flags .inline (by simp) hD.1).2 hi⟩)
  have kin : ∀ q : Option Sequence, ∀ i i' : Option Filelist, ∀ l l' : Option Filelist,
      Kin S A { o with filesToIgnore := i, sequenceToUse := q, files := l } { o' with filesToIgnore := i', sequenceToUse := q, files := l' } := by
    intro q i i' l l'
    refine ⟨?_, ?_, rfl, ?_, ?_⟩
    · show o.dryRun = o'.dryRun
      rw [Bool.eq_iff_iff, a2, b2, h.flags .dryRun (by simp) hD.2.2.1]
    · show o.recurse = o'.recurse
      rw [Bool.eq_iff_iff, a3, b3, h.flags .recurse (by simp) hD.2.2.2]
    · show (o.verbose = 0 ↔ o'.verbose = 0) ∨ (o'.verbose = 0 ∧ _ ∧ (o.dryRun = false → _))
      rw [a5, b5, List.count_eq_zero, List.count_eq_zero]
      rcases hv with hv | ⟨h1, h2, h3⟩
      · exact .inl (not_congr hv)
      · refine .inr ⟨h1, h2, fun hd => h3 fun hm => ?_⟩
        rw [a2.2 hm] at hd
        cases hd
    · show o.special = o'.special ∨ _
      rcases hx with hx | hx
      · refine .inl ?_
        rw [Bool.eq_iff_iff, a4, b4, hx]
      · exact .inr hx
  unfold withOperands
  rw [if_neg (c := o.listSequences = true) (by simp [hl1]), if_neg (c := o'.listSequences = true) (by simp [hl2])]
  cases ws with
  | nil =>
    simp only [hi1, hi2, Bool.false_eq_true, if_false, usageFor, hbin]
    exact Varies.refl _
  | cons w ws =>
    dsimp only
    generalize putFiles filelistInit (w :: ws) = r
    cases r with
    | ok l =>
      show Varies S A (detoxConfigured P I _ fuel) (detoxConfigured P J _ fuel)
      unfold detoxConfigured
      dsimp only
      rw [a8, b8, a9, b9, h.config, h.sequence, hsys.sequence, hsys.config, hsys.ctype, hsys.datadir, hl1, hl2]
      refine (Varies.refl _).bind fun c => ?_
      simp only [Bool.false_eq_true, if_false]
      split
      · exact Varies.refl _
      · refine (Varies.refl _).bind fun q' => ?_
        unfold detoxWork
        dsimp only
        rw [if_neg (by simp [hi1]), if_neg (by simp [hi2])]
        have k := kin none none none none none
        refine Varies.bind (fileLoop_varies ?_ _ _ _ _) fun _ => Varies.refl _
        exact ⟨k.dry, k.recurse, rfl, k.verbose, k.special⟩
    | exit n => exact Varies.refl _
    | ub u => exact Varies.refl _
    | stuck => exact Varies.refl _

theorem answers_true (tr : List Event) : Answers (fun _ => True) tr := fun _ _ _ => trivial

/-- **C115.** `-v` adds lines to the output and does nothing else: the executions with it are those without it, with lines `Scanning: …` and
`… -> …` put in, at every moment and to the end. -/
theorem C115_verbose (hI : Spec.Reads I ss ws) (hJ : Spec.Reads J ss' ws) (hsys : SameSystem I J) (hp : ¬ CalledInline I.program)
    (hp' : ¬ CalledInline J.program) (hi : Setting.inline ∉ ss) (hl : Setting.list ∉ ss) (h : AgreeBut [.verbose] ss ss') (hv : Setting.verbose ∉ ss') :
    (∀ tr out, Trace (detoxMain P I fuel) tr out → ∃ tr', Less VerboseLine tr tr' ∧ Trace (detoxMain P J fuel) tr' out) ∧
    ∀ tr' out, Trace (detoxMain P J fuel) tr' out → ∃ tr, Less VerboseLine tr tr' ∧ Trace (detoxMain P I fuel) tr out := by
  have key := main_varies (P := P) (fuel := fuel) (S := VerboseLine) (A := fun _ => True) hI hJ hsys hp hp' hi hl (by simp) h
    (.inr ⟨hv, fun f => .inl ⟨f, rfl⟩, fun _ a b => .inr ⟨a, b, rfl⟩⟩) (.inl (h.flags .special (by simp) (by simp)))
  exact ⟨fun tr out ht => key.less ht (answers_true _), fun tr' out ht => key.add ht (answers_true _)⟩

/-- **C115.** With `-n`, the lines it adds are the lines `Scanning: …` only: `-n` implies the rest of `-v`. -/
theorem C115_verbose_dry_run (hI : Spec.Reads I ss ws) (hJ : Spec.Reads J ss' ws) (hsys : SameSystem I J) (hp : ¬ CalledInline I.program)
    (hp' : ¬ CalledInline J.program) (hi : Setting.inline ∉ ss) (hl : Setting.list ∉ ss) (h : AgreeBut [.verbose] ss ss') (hv : Setting.verbose ∉ ss')
    (hn : Setting.dryRun ∈ ss) :
    (∀ tr out, Trace (detoxMain P I fuel) tr out → ∃ tr', Less ScanLine tr tr' ∧ Trace (detoxMain P J fuel) tr' out) ∧
    ∀ tr' out, Trace (detoxMain P J fuel) tr' out → ∃ tr, Less ScanLine tr tr' ∧ Trace (detoxMain P I fuel) tr out := by
  have key := main_varies (P := P) (fuel := fuel) (S := ScanLine) (A := fun _ => True) hI hJ hsys hp hp' hi hl (by simp) h
    (.inr ⟨hv, fun f => ⟨f, rfl⟩, fun hn' => absurd hn hn'⟩) (.inl (h.flags .special (by simp) (by simp)))
  exact ⟨fun tr out ht => key.less ht (answers_true _), fun tr' out ht => key.add ht (answers_true _)⟩

/-- **C115.** How often a switch is given does not matter, nor does the name of the program, unless it is `inline-detox`. -/
theorem C115_once_is_enough (hI : Spec.Reads I ss ws) (hJ : Spec.Reads J ss' ws) (hsys : SameSystem I J) (hp : ¬ CalledInline I.program)
    (hp' : ¬ CalledInline J.program) (hi : Setting.inline ∉ ss) (hl : Setting.list ∉ ss) (h : AgreeBut [] ss ss') (tr : List Event) (out : Outcome Unit) :
    Trace (detoxMain P I fuel) tr out ↔ Trace (detoxMain P J fuel) tr out := by
  have key := main_varies (P := P) (fuel := fuel) (S := fun _ => False) (A := fun _ => True) hI hJ hsys hp hp' hi hl (by simp) h
    (.inl (h.flags .verbose (by simp) (by simp))) (.inl (h.flags .special (by simp) (by simp)))
  constructor
  · intro ht
    obtain ⟨tr', h1, h2⟩ := key.less ht (answers_true _)
    rw [Less.eq (fun _ => id) h1]
    exact h2
  · intro ht
    obtain ⟨tr', h1, h2⟩ := key.add ht (answers_true _)
    rw [← Less.eq (fun _ => id) h1]
    exact h2

/-- **C115.** `--special` changes nothing as long as only regular files and directories are met. -/
theorem C115_special (hI : Spec.Reads I ss ws) (hJ : Spec.Reads J ss' ws) (hsys : SameSystem I J) (hp : ¬ CalledInline I.program)
    (hp' : ¬ CalledInline J.program) (hi : Setting.inline ∉ ss) (hl : Setting.list ∉ ss) (h : AgreeBut [.special] ss ss') {tr : List Event}
    (ho : MeetsOrdinary tr) (out : Outcome Unit) : Trace (detoxMain P I fuel) tr out ↔ Trace (detoxMain P J fuel) tr out := by
  have key := main_varies (P := P) (fuel := fuel) (S := fun _ => False) (A := Ordinary) hI hJ hsys hp hp' hi hl (by simp) h
    (.inl (h.flags .verbose (by simp) (by simp))) (.inr fun _ => id)
  constructor
  · intro ht
    obtain ⟨tr', h1, h2⟩ := key.less ht ho
    rw [Less.eq (fun _ => id) h1]
    exact h2
  · intro ht
    obtain ⟨tr', h1, h2⟩ := key.add ht ho
    rw [← Less.eq (fun _ => id) h1]
    exact h2

end

/-! ## Where the manual says otherwise -/

/-- **C115.** detox(1) says that `-n` implies `-v`, and it is not so: with both, `Scanning: a` is printed, and with `-n` alone it is not. -/
theorem C115_dry_run_is_less_than_verbose :
    Trace (detoxMain .linux { program := lit "detox", args := [lit "-n", lit "-v", lit "a"] } 0)
      (nothingInstalled ++ [.out (lit "Scanning: a\n"), .lstat (lit "a") (some (regStat 2))]) (.ret ()) ∧
    Trace (detoxMain .linux { program := lit "detox", args := [lit "-n", lit "a"] } 0)
      (nothingInstalled ++ [.lstat (lit "a") (some (regStat 2))]) (.ret ()) :=
  ⟨Prog.final_sound _ _ _ (by decide +kernel), Prog.final_sound _ _ _ (by decide +kernel)⟩

/-- **C115.** The example of inline-detox(1), said to list the changes as well: it prints the result and lists nothing. -/
theorem C115_inline_verbose_lists_nothing :
    Trace (detoxMain .linux { program := lit "inline-detox", args := [lit "-s", lit "lower", lit "-v"] } 0)
      (nothingInstalled ++ [.slurp none (some (lit "Foo Bar\n")), .out (lit "foo_bar"), .out (lit "\n")]) (.ret ()) :=
  Prog.final_sound _ _ _ (by decide +kernel)

/-- The hypotheses are met by `detox -r -v a` and `detox -r a`. -/
example : Spec.Reads { program := lit "detox", args := [lit "-r", lit "-v", lit "a"] } [.recurse, .verbose] [lit "a"] ∧
    Spec.Reads { program := lit "detox", args := [lit "-r", lit "a"] } [.recurse] [lit "a"] ∧ AgreeBut [.verbose] [.recurse, .verbose] [.recurse] := by
  refine ⟨⟨?_, by decide +kernel⟩, ⟨?_, by decide +kernel⟩, rfl, rfl, ?_⟩
  · exact .cluster [0x72] [.recurse] _ _ _ (by simp) (.cons _ _ _ _ .recurse .nil)
      (.cluster [0x76] [.verbose] _ _ _ (by simp) (.cons _ _ _ _ .verbose .nil) (.operand _ _ _ _ rfl (.inl (by decide +kernel)) .none))
  · exact .cluster [0x72] [.recurse] _ _ _ (by simp) (.cons _ _ _ _ .recurse .nil) (.operand _ _ _ _ rfl (.inl (by decide +kernel)) .none)
  · intro s _ hs
    simp at hs
    simp [hs]

end Detox
