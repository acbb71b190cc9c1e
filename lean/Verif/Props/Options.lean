import Verif.Lemmas.Options

/-!
# C49: the command line
-/

set_option autoImplicit false

namespace Detox

open Spec

/-- **C49**: every command line can be read, in one way. -/
theorem C49_every_command_line_can_be_read (posix : Bool) (args : List Bytes) : ∃ ss ws, CommandLine posix args ss ws ∧
    ∀ ss' ws', CommandLine posix args ss' ws' → ss' = ss ∧ (Setting.unreadable ∉ ss → ws' = ws) := by
  obtain ⟨ss, ws, h⟩ := commandLine_total posix args.length args (Nat.le_refl _)
  refine ⟨ss, ws, h, fun ss' ws' h' => ?_⟩
  have inj : ∀ {a b : List Setting}, a.map some = b.map some → a = b := by
    intro a b hab
    induction a generalizing b with
    | nil => cases b with
      | nil => rfl
      | cons _ _ => cases hab
    | cons x a ih => cases b with
      | nil => cases hab
      | cons y b =>
        simp only [List.map_cons, List.cons.injEq, Option.some.injEq] at hab
        rw [hab.1, ih hab.2]
  have cut : ∀ {a b : List Setting} {x y : List (Option Setting)}, Setting.unreadable ∉ a → Setting.unreadable ∉ b →
      a.map some ++ some Setting.unreadable :: x = b.map some ++ some Setting.unreadable :: y → a = b := by
    intro a b x y ha hb hab
    induction a generalizing b with
    | nil => cases b with
      | nil => rfl
      | cons z b =>
        simp only [List.map_nil, List.nil_append, List.map_cons, List.cons_append, List.cons.injEq, Option.some.injEq] at hab
        exact absurd (hab.1 ▸ List.mem_cons_self) hb
    | cons z a ih => cases b with
      | nil =>
        simp only [List.map_nil, List.nil_append, List.map_cons, List.cons_append, List.cons.injEq, Option.some.injEq] at hab
        exact absurd (hab.1 ▸ List.mem_cons_self) ha
      | cons z' b =>
        simp only [List.map_cons, List.cons_append, List.cons.injEq, Option.some.injEq] at hab
        rw [hab.1, ih (fun h => ha (List.mem_cons_of_mem _ h)) (fun h => hb (List.mem_cons_of_mem _ h)) hab.2]
  rcases getoptAll_agrees h _ (Nat.le_refl _) with ⟨a1, a2, a3⟩ | ⟨pre, more, a1, a2, a3⟩ <;>
    rcases getoptAll_agrees h' _ (Nat.le_refl _) with ⟨b1, b2, b3⟩ | ⟨pre', more', b1, b2, b3⟩
  · exact ⟨inj (b2.symm.trans a2), fun _ => b3.symm.trans a3⟩
  · exfalso
    have : some Setting.unreadable ∈ ss.map some := by
      rw [← a2, b3]; exact List.mem_append_right _ List.mem_cons_self
    simp only [List.mem_map, Option.some.injEq, exists_eq_right] at this
    exact a1 this
  · exfalso
    have : some Setting.unreadable ∈ ss'.map some := by
      rw [← b2, a3]; exact List.mem_append_right _ List.mem_cons_self
    simp only [List.mem_map, Option.some.injEq, exists_eq_right] at this
    exact b1 this
  · have := cut b1 a1 (b3.symm.trans a3)
    refine ⟨by rw [a2, b2, this], fun hu => ?_⟩
    exact absurd (by rw [a2]; simp) hu

/-- The options the settings ask for. -/
def Asked (program : Bytes) (env : Option Bytes) (ss : List Setting) (o : Options) : Prop :=
  (o.listSequences = true ↔ .list ∈ ss) ∧ (o.dryRun = true ↔ .dryRun ∈ ss) ∧ (o.recurse = true ↔ .recurse ∈ ss) ∧
  (o.special = true ↔ .special ∈ ss) ∧ o.verbose = ss.count .verbose ∧
  (o.isInlineMode = true ↔ CalledInline program ∨ .inline ∈ ss) ∧ (o.isInlineBin = true ↔ CalledInline program) ∧
  o.checkConfigFile = lastConfig ss ∧ o.sequenceName = (lastSequence ss).or env

/-- What the options are before the operands are stored. -/
def startOptions (program : Bytes) (env : Option Bytes) : Options :=
  { sequenceName := env, isInlineBin := decide (posixBasename program = lit "inline-detox")
    isInlineMode := decide (posixBasename program = lit "inline-detox") }

theorem settled_asked (program : Bytes) (env : Option Bytes) (ss : List Setting) :
    Asked program env ss (settled (startOptions program env) ss) := by
  simp [Asked, settled, startOptions, posixBasename_inline]

theorem Asked.files {program : Bytes} {env : Option Bytes} {ss : List Setting} {o : Options} (h : Asked program env ss o)
    (l : Option Filelist) : Asked program env ss { o with files := l } := h

theorem parseOptions_eq (program : Bytes) (args : List Bytes) (env : Option Bytes) (posix : Bool) :
    parseOptions program args env posix = (applyItems program (startOptions program env) (getoptAll posix args.length args).1).bind
      fun o => withOperands o (getoptAll posix args.length args).2 := rfl

theorem parseOptions_stay {posix : Bool} {args : List Bytes} {ss : List Setting} {ws : List Bytes}
    (h : CommandLine posix args ss ws) (hs : ∀ s ∈ ss, ¬ s.Leaves) (program : Bytes) (env : Option Bytes) :
    parseOptions program args env posix = withOperands (settled (startOptions program env) ss) ws := by
  rcases getoptAll_agrees h _ (Nat.le_refl _) with ⟨a1, a2, a3⟩ | ⟨pre, more, a1, a2, a3⟩
  · have := applyItems_stay program ss (getoptAll posix args.length args).1 [] (startOptions program env) a2 hs
    rw [List.append_nil] at this
    rw [parseOptions_eq, this, applyItems, a3]
    rfl
  · exact absurd (Or.inr (Or.inr (Or.inr rfl))) (hs .unreadable (by rw [a2]; simp))

/-- **C49**: a command line whose options can be read and that does not ask for help, usage or version is turned into the options
its settings ask for; `-L` needs no operands, inline mode (`--inline` or the name `inline-detox`) may go without, otherwise the
usage message is shown and the exit status is 1. -/
theorem C49_options_exactly {posix : Bool} {args : List Bytes} {ss : List Setting} {ws : List Bytes}
    (h : CommandLine posix args ss ws) (hs : ∀ s ∈ ss, ¬ s.Leaves) (program : Bytes) (env : Option Bytes) :
    (Setting.list ∈ ss → ∃ o, parseOptions program args env posix = .ret o ∧ Asked program env ss o ∧ o.files = none) ∧
    (Setting.list ∉ ss → ws ≠ [] ∨ CalledInline program ∨ Setting.inline ∈ ss →
      ∃ o l, parseOptions program args env posix = .ret o ∧ Asked program env ss o ∧ o.files = some l ∧ l.Holds ws 0) ∧
    (Setting.list ∉ ss → ws = [] → ¬ CalledInline program → Setting.inline ∉ ss →
      parseOptions program args env posix = .out usageMessage (.exit 1)) := by
  rw [parseOptions_stay h hs]
  unfold withOperands
  have hA := settled_asked program env ss
  generalize hO : settled (startOptions program env) ss = o at *
  refine ⟨fun hl => ?_, fun hl hws => ?_, fun hl hws hp hi => ?_⟩
  · refine ⟨o, ?_, hA, ?_⟩
    · rw [if_pos (hA.1.2 hl)]
    · rw [← hO]; rfl
  · rw [if_neg (fun hc => hl (hA.1.1 hc))]
    cases ws with
    | nil =>
      have hin : o.isInlineMode = true := by
        rw [hA.2.2.2.2.2.1]
        rcases hws with hws | hws
        · exact absurd rfl hws
        · exact hws
      exact ⟨{ o with files := some filelistInit }, filelistInit, by simp only [hin, if_true], hA.files _, rfl, filelistInit_holds⟩
    | cons w ws =>
      obtain ⟨l, h1, h2⟩ := putFiles_holds (w :: ws) [] filelistInit 0 filelistInit_holds (fun _ => rfl)
      exact ⟨{ o with files := some l }, l, by simp only [h1]; rfl, hA.files _, rfl, h2⟩
  · rw [if_neg (fun hc => hl (hA.1.1 hc)), hws]
    have hin : ¬ (o.isInlineMode = true) := by
      rw [hA.2.2.2.2.2.1]
      rintro (h | h)
      · exact hp h
      · exact hi h
    have hb : ¬ (o.isInlineBin = true) := fun h => hp (hA.2.2.2.2.2.2.1.1 h)
    simp only [hin, usageFor, hb, Bool.false_eq_true, if_false]

/-- What is shown for a setting that leaves; `inl` says whether the program was called as `inline-detox`. -/
def Shown (inl : Bool) (program : Bytes) : Setting → List Event
  | .help =>
    if inl then [.out usageMessageInline, .out [0x0A], .out helpMessageInline] else [.out usageMessage, .out [0x0A], .out helpMessage]
  | .version => [.out (packageString ++ [0x0A])]
  | .usage => if inl then [.out usageMessageInline] else [.out usageMessage]
  | _ => [.err (program ++ lit ": "), .out (if inl then usageMessageInline else usageMessage)]

/-- **C49**: the first request for help, version or usage, or the first option that cannot be read, ends the program with exit
status 0 after the message was shown; nothing else happens. -/
theorem C49_leaving_options {posix : Bool} {args : List Bytes} {pre post : List Setting} {s : Setting} {ws : List Bytes}
    (h : CommandLine posix args (pre ++ s :: post) ws) (hpre : ∀ s ∈ pre, ¬ s.Leaves) (hs : s.Leaves) (program : Bytes)
    (env : Option Bytes) (tr : List Event) (out : Outcome Options) (ht : Trace (parseOptions program args env posix) tr out)
    (hout : out ≠ .running) : out = .exit 0 ∧
    ∃ inl, (inl = true ↔ CalledInline program) ∧ tr = Shown inl program s := by
  have hmap : ∃ items i rest, (getoptAll posix args.length args).1 = items ++ i :: rest ∧ items.map setOf = pre.map some ∧
      setOf i = some s := by
    have split : ∀ (items : List OptItem) (a : List Setting) (more : List (Option Setting)),
        items.map setOf = a.map some ++ some s :: more →
        ∃ its i rest, items = its ++ i :: rest ∧ its.map setOf = a.map some ∧ setOf i = some s := by
      intro items a
      induction a generalizing items with
      | nil =>
        intro more h
        cases items with
        | nil => cases h
        | cons i rest =>
          simp only [List.map_cons, List.map_nil, List.nil_append, List.cons.injEq] at h
          exact ⟨[], i, rest, rfl, rfl, h.1⟩
      | cons x a ih =>
        intro more h
        cases items with
        | nil => cases h
        | cons i rest =>
          simp only [List.map_cons, List.cons_append, List.cons.injEq] at h
          obtain ⟨its, j, r, h1, h2, h3⟩ := ih rest more h.2
          exact ⟨i :: its, j, r, by rw [h1]; rfl, by simp [h.1, h2], h3⟩
    rcases getoptAll_agrees h _ (Nat.le_refl _) with ⟨a1, a2, a3⟩ | ⟨pre', more, a1, a2, a3⟩
    · rw [List.map_append, List.map_cons] at a2
      exact split _ _ _ a2
    · -- the unreadable one is `s` or comes after it
      have hcase : (post = [] ∧ pre = pre' ∧ s = .unreadable) ∨ ∃ post', post = post' ++ [.unreadable] ∧ pre' = pre ++ s :: post' := by
        rcases List.eq_nil_or_concat post with hp | ⟨post', x, hp⟩
        · left
          subst hp
          have := List.append_inj' a2 rfl
          exact ⟨rfl, this.1, (List.cons.inj this.2).1⟩
        · right
          subst hp
          rw [List.concat_eq_append, ← List.cons_append, ← List.append_assoc] at a2
          have := List.append_inj' a2 rfl
          exact ⟨post', by rw [List.concat_eq_append, (List.cons.inj this.2).1], this.1.symm⟩
      rcases hcase with ⟨_, rfl, rfl⟩ | ⟨post', _, rfl⟩
      · exact split _ _ _ a3
      · rw [List.map_append, List.map_cons, List.append_assoc, List.cons_append] at a3
        exact split _ _ _ a3
  obtain ⟨items, i, rest, h1, h2, h3⟩ := hmap
  have hA := settled_asked program env pre
  rw [parseOptions_eq, h1, applyItems_stay program pre items (i :: rest) _ h2 hpre, applyItems,
    applyItem_setting _ _ h3] at ht
  generalize settled (startOptions program env) pre = o at ht hA
  have hb := hA.2.2.2.2.2.2.1
  rw [applySetting_leaves program o hs] at ht
  unfold usageFor at ht
  generalize o.isInlineBin = inl at ht hb
  have key : out = .exit 0 ∧ tr = Shown inl program s := by
    unfold Shown
    rcases hs with rfl | rfl | rfl | rfl <;> cases inl <;>
      simp only [if_true, if_false, Bool.false_eq_true] at ht ⊢
    all_goals
      repeat' (first | (exact absurd rfl hout) | (exact ⟨rfl, rfl⟩) | cases ht | (rename_i ht; cases ht))
  exact ⟨key.1, inl, hb, key.2⟩

/-- **C49**: two command lines with the same flags, as many `-v`, the same last `-f` and `-s` and the same operands give the same
options, however they are spelt and ordered. -/
theorem C49_options_mean_the_same_in_any_order {posix posix' : Bool} {args args' : List Bytes} {ss ss' : List Setting}
    {ws : List Bytes} (h : CommandLine posix args ss ws) (h' : CommandLine posix' args' ss' ws) (hs : ∀ s ∈ ss, ¬ s.Leaves)
    (hs' : ∀ s ∈ ss', ¬ s.Leaves) (hsame : SameSettings ss ss') (program : Bytes) (env : Option Bytes) :
    parseOptions program args env posix = parseOptions program args' env posix' := by
  have : settled (startOptions program env) ss = settled (startOptions program env) ss' := by
    obtain ⟨h1, h2, h3, h4⟩ := hsame
    have f : ∀ s, s = .list ∨ s = .dryRun ∨ s = .recurse ∨ s = .inline ∨ s = .special →
        decide (s ∈ ss) = decide (s ∈ ss') := fun s hs => by simp only [h1 s hs]
    simp only [settled, h2, h3, h4, f .list (by simp), f .dryRun (by simp), f .recurse (by simp), f .inline (by simp),
      f .special (by simp)]
  rw [parseOptions_stay h hs, parseOptions_stay h' hs', this]

/-- A concrete case: `detox -rv a -s lower b` and `detox --rec -vslower -- a b`. -/
example (program : Bytes) (env : Option Bytes) :
    parseOptions program [lit "-rv", lit "a", lit "-s", lit "lower", lit "b"] env false =
    parseOptions program [lit "--rec", lit "-vslower", lit "--", lit "a", lit "b"] env false := by
  refine C49_options_mean_the_same_in_any_order (ss := [.recurse, .verbose, .sequence (lit "lower")])
    (ss' := [.recurse, .verbose, .sequence (lit "lower")]) (ws := [lit "a", lit "b"]) ?_ ?_ (by decide) (by decide)
    ⟨fun _ _ => Iff.rfl, rfl, rfl, rfl⟩ program env
  · refine .cluster (lit "rv") [.recurse, .verbose] _ _ [.sequence (lit "lower")] (by decide)
      (.cons _ _ _ _ .recurse (.cons _ _ _ _ .verbose .nil)) ?_
    refine .operand (lit "a") _ _ _ rfl (Or.inl (by decide)) ?_
    refine .separate [] [] 0x73 (lit "lower") _ _ _ [] .nil (.sequence _) ?_
    exact .operand (lit "b") _ _ _ rfl (Or.inl (by decide)) .none
  · refine .long (lit "rec") .recurse _ _ _ ⟨lit "recursive", lit "ursive", .recurse, by decide, by decide⟩ ?_
    exact .attached (lit "v") [.verbose] 0x73 (lit "lower") _ _ _ [] (.cons _ _ _ _ .verbose .nil) (.sequence _) (by decide)
      (.stop [lit "a", lit "b"])

/-- A concrete case: `detox -rx a` shows the usage message and succeeds. -/
example (env : Option Bytes) (tr : List Event) (out : Outcome Options)
    (ht : Trace (parseOptions (lit "detox") [lit "-rx", lit "a"] env false) tr out) (hout : out ≠ .running) : out = .exit 0 :=
  (C49_leaving_options (pre := [.recurse]) (s := .unreadable) (post := [])
    (.badLetter (lit "r") [.recurse] 0x78 [] [lit "a"] (.cons _ _ _ _ .recurse .nil) (fun s h => by cases h)
      (fun a s h => by cases h) (fun h => by cases h)) (by decide) (by decide) _ env tr out ht hout).1

end Detox
