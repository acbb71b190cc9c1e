import Verif.Lemmas.Counters
import Verif.Lemmas.Main
import Verif.Lemmas.Inline
import Verif.Lemmas.Leaks

/-!
# The program with counters and without
-/

set_option autoImplicit false

namespace Detox
open Spec

theorem weigh_append (a b : List Event) : weigh (a ++ b) = weigh a + weigh b := by
  unfold weigh
  rw [List.map_append, List.sum_append]

theorem weigh_one (e : Event) : weigh [e] = weight e := Nat.add_zero _

/-- After the calls `h`: the same calls follow, and the same end, up to `R`; or a counter overflows, if `L` admits it. -/
inductive Tracks {α β : Type} (L : List Event → Prop) (R : List Event → α → β → Prop) : List Event → Prog α → Prog β → Prop
  | ret (h : List Event) (a : α) (b : β) : R h a b → Tracks L R h (.ret a) (.ret b)
  | over (h : List Event) (q : Prog β) : L h → Tracks L R h (.ub .intOverflow) q
  | exit (h : List Event) (n : Nat) : Tracks L R h (.exit n) (.exit n)
  | ub (h : List Event) (u : UB) : Tracks L R h (.ub u) (.ub u)
  | stuck (h : List Event) : Tracks L R h .stuck .stuck
  | lstat (h : List Event) (p : Bytes) (k : Option Stat → Prog α) (k' : Option Stat → Prog β) : (∀ r, Tracks L R (h ++ [.lstat p r]) (k r) (k' r)) →
      Tracks L R h (.lstat p k) (.lstat p k')
  | rename (h : List Event) (o n : Bytes) (k : Bool → Prog α) (k' : Bool → Prog β) : (∀ r, Tracks L R (h ++ [.rename o n r]) (k r) (k' r)) →
      Tracks L R h (.rename o n k) (.rename o n k')
  | opendir (h : List Event) (p : Bytes) (k : OpenRes → Prog α) (k' : OpenRes → Prog β) : (∀ r, Tracks L R (h ++ [.opendir p r]) (k r) (k' r)) →
      Tracks L R h (.opendir p k) (.opendir p k')
  | readdir (h : List Event) (d : Nat) (k : Option Bytes → Prog α) (k' : Option Bytes → Prog β) :
      (∀ r, Tracks L R (h ++ [.readdir d r]) (k r) (k' r)) → Tracks L R h (.readdir d k) (.readdir d k')
  | closedir (h : List Event) (d : Nat) (k : Prog α) (k' : Prog β) : Tracks L R (h ++ [.closedir d]) k k' →
      Tracks L R h (.closedir d k) (.closedir d k')
  | slurp (h : List Event) (p : Option Bytes) (k : Option Bytes → Prog α) (k' : Option Bytes → Prog β) :
      (∀ r, Tracks L R (h ++ [.slurp p r]) (k r) (k' r)) → Tracks L R h (.slurp p k) (.slurp p k')
  | out (h : List Event) (s : Bytes) (k : Prog α) (k' : Prog β) : Tracks L R (h ++ [.out s]) k k' → Tracks L R h (.out s k) (.out s k')
  | err (h : List Event) (s : Bytes) (k : Prog α) (k' : Prog β) : Tracks L R (h ++ [.err s]) k k' → Tracks L R h (.err s k) (.err s k')

theorem Tracks.bind {α β γ δ : Type} {L : List Event → Prop} {R : List Event → α → β → Prop} {S : List Event → γ → δ → Prop} {h : List Event}
    {p : Prog α} {q : Prog β} (hp : Tracks L R h p q) {k : α → Prog γ} {l : β → Prog δ} (hk : ∀ h a b, R h a b → Tracks L S h (k a) (l b)) :
    Tracks L S h (p.bind k) (q.bind l) := by
  induction hp with
  | ret h a b hr => exact hk h a b hr
  | over h q hl => exact .over h _ hl
  | exit h n => exact .exit h n
  | ub h u => exact .ub h u
  | stuck h => exact .stuck h
  | lstat h p k k' _ ih => exact .lstat _ _ _ _ ih
  | rename h o n k k' _ ih => exact .rename _ _ _ _ _ ih
  | opendir h p k k' _ ih => exact .opendir _ _ _ _ ih
  | readdir h d k k' _ ih => exact .readdir _ _ _ _ ih
  | closedir h d k k' _ ih => exact .closedir _ _ _ _ ih
  | slurp h p k k' _ ih => exact .slurp _ _ _ _ ih
  | out h s k k' _ ih => exact .out _ _ _ _ ih
  | err h s k k' _ ih => exact .err _ _ _ _ ih

theorem Tracks.mono {α β : Type} {L L' : List Event → Prop} {R R' : List Event → α → β → Prop} {h : List Event} {p : Prog α} {q : Prog β}
    (hp : Tracks L R h p q) (hl : ∀ h, L h → L' h) (hr : ∀ h a b, R h a b → R' h a b) : Tracks L' R' h p q := by
  induction hp with
  | ret h a b h1 => exact .ret _ _ _ (hr h a b h1)
  | over h q h1 => exact .over h _ (hl h h1)
  | exit h n => exact .exit h n
  | ub h u => exact .ub h u
  | stuck h => exact .stuck h
  | lstat h p k k' _ ih => exact .lstat _ _ _ _ ih
  | rename h o n k k' _ ih => exact .rename _ _ _ _ _ ih
  | opendir h p k k' _ ih => exact .opendir _ _ _ _ ih
  | readdir h d k k' _ ih => exact .readdir _ _ _ _ ih
  | closedir h d k k' _ ih => exact .closedir _ _ _ _ ih
  | slurp h p k k' _ ih => exact .slurp _ _ _ _ ih
  | out h s k k' _ ih => exact .out _ _ _ _ ih
  | err h s k k' _ ih => exact .err _ _ _ _ ih

/-- The same program twice. -/
theorem Tracks.refl {α : Type} {L : List Event → Prop} (p : Prog α) : ∀ h : List Event,
    Tracks L (fun h' a b => a = b ∧ ∃ t, h' = h ++ t ∧ Trace p t (.ret a)) h p p := by
  induction p with
  | ret a => exact fun h => .ret h a a ⟨rfl, [], by simp, .ret a⟩
  | exit n => exact fun h => .exit h n
  | ub u => exact fun h => .ub h u
  | stuck => exact fun h => .stuck h
  | lstat p k ih =>
    refine fun h => .lstat _ _ _ _ fun r => (ih r _).mono (fun _ h => h) ?_
    rintro h' a b ⟨rfl, t, rfl, ht⟩
    exact ⟨rfl, _ :: t, by simp, .lstat _ _ _ _ _ ht⟩
  | rename o n k ih =>
    refine fun h => .rename _ _ _ _ _ fun r => (ih r _).mono (fun _ h => h) ?_
    rintro h' a b ⟨rfl, t, rfl, ht⟩
    exact ⟨rfl, _ :: t, by simp, .rename _ _ _ _ _ _ ht⟩
  | opendir p k ih =>
    refine fun h => .opendir _ _ _ _ fun r => (ih r _).mono (fun _ h => h) ?_
    rintro h' a b ⟨rfl, t, rfl, ht⟩
    exact ⟨rfl, _ :: t, by simp, .opendir _ _ _ _ _ ht⟩
  | readdir d k ih =>
    refine fun h => .readdir _ _ _ _ fun r => (ih r _).mono (fun _ h => h) ?_
    rintro h' a b ⟨rfl, t, rfl, ht⟩
    exact ⟨rfl, _ :: t, by simp, .readdir _ _ _ _ _ ht⟩
  | closedir d k ih =>
    refine fun h => .closedir _ _ _ _ ((ih _).mono (fun _ h => h) ?_)
    rintro h' a b ⟨rfl, t, rfl, ht⟩
    exact ⟨rfl, _ :: t, by simp, .closedir _ _ _ _ ht⟩
  | slurp p k ih =>
    refine fun h => .slurp _ _ _ _ fun r => (ih r _).mono (fun _ h => h) ?_
    rintro h' a b ⟨rfl, t, rfl, ht⟩
    exact ⟨rfl, _ :: t, by simp, .slurp _ _ _ _ _ ht⟩
  | out s k ih =>
    refine fun h => .out _ _ _ _ ((ih _).mono (fun _ h => h) ?_)
    rintro h' a b ⟨rfl, t, rfl, ht⟩
    exact ⟨rfl, _ :: t, by simp, .out _ _ _ _ ht⟩
  | err s k ih =>
    refine fun h => .err _ _ _ _ ((ih _).mono (fun _ h => h) ?_)
    rintro h' a b ⟨rfl, t, rfl, ht⟩
    exact ⟨rfl, _ :: t, by simp, .err _ _ _ _ ht⟩

/-- Every run of the program with counters is one of the other, or ends with an overflow in the middle of one. -/
theorem Tracks.trace {α : Type} {L : List Event → Prop} {h : List Event} {p q : Prog α} (hp : Tracks L (fun _ a b => a = b) h p q)
    {tr : List Event} {out : Outcome α} (ht : Trace p tr out) :
    Trace q tr out ∨ (out = .ub .intOverflow ∧ Trace q tr .running ∧ L (h ++ tr)) := by
  induction hp generalizing tr with
  | ret h a b hr => cases hr; exact .inl ht
  | over h q hl =>
    cases ht with
    | stop => exact .inl (.stop _)
    | ub => exact .inr ⟨rfl, .stop _, by simpa using hl⟩
  | exit h n => exact .inl (by cases ht <;> constructor)
  | ub h u => exact .inl (by cases ht <;> constructor)
  | stuck h => exact .inl (by cases ht <;> constructor)
  | lstat h p k k' _ ih =>
    cases ht with
    | stop => exact .inl (.stop _)
    | lstat _ _ r t _ ht =>
      rcases ih r ht with g | ⟨g1, g2, g3⟩
      · exact .inl (.lstat _ _ _ _ _ g)
      · exact .inr ⟨g1, .lstat _ _ _ _ _ g2, by simpa using g3⟩
  | rename h o n k k' _ ih =>
    cases ht with
    | stop => exact .inl (.stop _)
    | rename _ _ _ r t _ ht =>
      rcases ih r ht with g | ⟨g1, g2, g3⟩
      · exact .inl (.rename _ _ _ _ _ _ g)
      · exact .inr ⟨g1, .rename _ _ _ _ _ _ g2, by simpa using g3⟩
  | opendir h p k k' _ ih =>
    cases ht with
    | stop => exact .inl (.stop _)
    | opendir _ _ r t _ ht =>
      rcases ih r ht with g | ⟨g1, g2, g3⟩
      · exact .inl (.opendir _ _ _ _ _ g)
      · exact .inr ⟨g1, .opendir _ _ _ _ _ g2, by simpa using g3⟩
  | readdir h d k k' _ ih =>
    cases ht with
    | stop => exact .inl (.stop _)
    | readdir _ _ r t _ ht =>
      rcases ih r ht with g | ⟨g1, g2, g3⟩
      · exact .inl (.readdir _ _ _ _ _ g)
      · exact .inr ⟨g1, .readdir _ _ _ _ _ g2, by simpa using g3⟩
  | closedir h d k k' _ ih =>
    cases ht with
    | stop => exact .inl (.stop _)
    | closedir _ _ t _ ht =>
      rcases ih ht with g | ⟨g1, g2, g3⟩
      · exact .inl (.closedir _ _ _ _ g)
      · exact .inr ⟨g1, .closedir _ _ _ _ g2, by simpa using g3⟩
  | slurp h p k k' _ ih =>
    cases ht with
    | stop => exact .inl (.stop _)
    | slurp _ _ r t _ ht =>
      rcases ih r ht with g | ⟨g1, g2, g3⟩
      · exact .inl (.slurp _ _ _ _ _ g)
      · exact .inr ⟨g1, .slurp _ _ _ _ _ g2, by simpa using g3⟩
  | out h s k k' _ ih =>
    cases ht with
    | stop => exact .inl (.stop _)
    | out _ _ t _ ht =>
      rcases ih ht with g | ⟨g1, g2, g3⟩
      · exact .inl (.out _ _ _ _ g)
      · exact .inr ⟨g1, .out _ _ _ _ g2, by simpa using g3⟩
  | err h s k k' _ ih =>
    cases ht with
    | stop => exact .inl (.stop _)
    | err _ _ t _ ht =>
      rcases ih ht with g | ⟨g1, g2, g3⟩
      · exact .inl (.err _ _ _ _ g)
      · exact .inr ⟨g1, .err _ _ _ _ g2, by simpa using g3⟩

/-- Every run of the other is one of the program with counters, unless a counter overflows on the way. -/
theorem Tracks.trace_back {α : Type} {L : List Event → Prop} {h : List Event} {p q : Prog α} (hp : Tracks L (fun _ a b => a = b) h p q)
    {tr : List Event} {out : Outcome α} (ht : Trace q tr out) :
    Trace p tr out ∨ ∃ a b, tr = a ++ b ∧ Trace p a (.ub .intOverflow) ∧ L (h ++ a) := by
  induction hp generalizing tr with
  | ret h a b hr => cases hr; exact .inl ht
  | over h q hl => exact .inr ⟨[], tr, rfl, .ub _, by simpa using hl⟩
  | exit h n => exact .inl (by cases ht <;> constructor)
  | ub h u => exact .inl (by cases ht <;> constructor)
  | stuck h => exact .inl (by cases ht <;> constructor)
  | lstat h p k k' _ ih =>
    cases ht with
    | stop => exact .inl (.stop _)
    | lstat _ _ r t _ ht =>
      rcases ih r ht with g | ⟨a, b, rfl, g2, g3⟩
      · exact .inl (.lstat _ _ _ _ _ g)
      · exact .inr ⟨_ :: a, b, rfl, .lstat _ _ _ _ _ g2, by simpa using g3⟩
  | rename h o n k k' _ ih =>
    cases ht with
    | stop => exact .inl (.stop _)
    | rename _ _ _ r t _ ht =>
      rcases ih r ht with g | ⟨a, b, rfl, g2, g3⟩
      · exact .inl (.rename _ _ _ _ _ _ g)
      · exact .inr ⟨_ :: a, b, rfl, .rename _ _ _ _ _ _ g2, by simpa using g3⟩
  | opendir h p k k' _ ih =>
    cases ht with
    | stop => exact .inl (.stop _)
    | opendir _ _ r t _ ht =>
      rcases ih r ht with g | ⟨a, b, rfl, g2, g3⟩
      · exact .inl (.opendir _ _ _ _ _ g)
      · exact .inr ⟨_ :: a, b, rfl, .opendir _ _ _ _ _ g2, by simpa using g3⟩
  | readdir h d k k' _ ih =>
    cases ht with
    | stop => exact .inl (.stop _)
    | readdir _ _ r t _ ht =>
      rcases ih r ht with g | ⟨a, b, rfl, g2, g3⟩
      · exact .inl (.readdir _ _ _ _ _ g)
      · exact .inr ⟨_ :: a, b, rfl, .readdir _ _ _ _ _ g2, by simpa using g3⟩
  | closedir h d k k' _ ih =>
    cases ht with
    | stop => exact .inl (.stop _)
    | closedir _ _ t _ ht =>
      rcases ih ht with g | ⟨a, b, rfl, g2, g3⟩
      · exact .inl (.closedir _ _ _ _ g)
      · exact .inr ⟨_ :: a, b, rfl, .closedir _ _ _ _ g2, by simpa using g3⟩
  | slurp h p k k' _ ih =>
    cases ht with
    | stop => exact .inl (.stop _)
    | slurp _ _ r t _ ht =>
      rcases ih r ht with g | ⟨a, b, rfl, g2, g3⟩
      · exact .inl (.slurp _ _ _ _ _ g)
      · exact .inr ⟨_ :: a, b, rfl, .slurp _ _ _ _ _ g2, by simpa using g3⟩
  | out h s k k' _ ih =>
    cases ht with
    | stop => exact .inl (.stop _)
    | out _ _ t _ ht =>
      rcases ih ht with g | ⟨a, b, rfl, g2, g3⟩
      · exact .inl (.out _ _ _ _ g)
      · exact .inr ⟨_ :: a, b, rfl, .out _ _ _ _ g2, by simpa using g3⟩
  | err h s k k' _ ih =>
    cases ht with
    | stop => exact .inl (.stop _)
    | err _ _ t _ ht =>
      rcases ih ht with g | ⟨a, b, rfl, g2, g3⟩
      · exact .inl (.err _ _ _ _ g)
      · exact .inr ⟨_ :: a, b, rfl, .err _ _ _ _ g2, by simpa using g3⟩

theorem Tracks.ofRes {σ α : Type} {Ok : σ → Prop} {Over : Prop} {x : Res (σ × α)} {y : Res α} (hc : Alike Ok Over x y) {L : List Event → Prop}
    {h : List Event} (hl : Over → L h) : Tracks L (fun h' a b => a.2 = b ∧ Ok a.1 ∧ h' = h) h (Prog.ofRes x) (Prog.ofRes y) := by
  cases hc with
  | ok s a g => exact .ret _ _ _ ⟨rfl, g, rfl⟩
  | over y g => exact .over _ _ (hl g)
  | exit n => exact .exit _ n
  | ub u => exact .ub _ u
  | stuck => exact .stuck _

/-! ### Files and directories -/

section

variable {P : Platform} {o : Options} {q0 : Sequence} {h0 : List Event}

/-- Where the counters can overflow: after calls that gave enough to look up. -/
def Heavy (q0 : Sequence) (h0 h : List Event) : Prop := ∃ t, h = h0 ++ t ∧ intMax < weigh t * reach q0.filters

/-- The state of the sequence in use, after these calls. -/
def HeldAt (q0 : Sequence) (h0 h : List Event) (q : Option Sequence) : Prop := ∃ t, h = h0 ++ t ∧ CountingSeq q0 (weigh t) q

theorem HeldAt.more {h : List Event} {q : Option Sequence} (hq : HeldAt q0 h0 h q) (t : List Event) : HeldAt q0 h0 (h ++ t) q := by
  obtain ⟨t0, rfl, hc⟩ := hq
  refine ⟨t0 ++ t, by simp, hc.mono ?_⟩
  rw [weigh_append]
  omega

/-- `parse_file` on a path that has just been looked at. -/
theorem parseFile_tracks (hs : o.sequenceToUse = some q0) {h : List Event} {q : Option Sequence} (hq : HeldAt q0 h0 h q) (file : Bytes)
    (r : Option Stat) :
    Tracks (Heavy q0 h0) (fun h' a b => a.2 = b ∧ HeldAt q0 h0 h' a.1) (h ++ [.lstat file r]) (parseFileCounted P o q file) (parseFile P o file) := by
  unfold parseFileCounted parseFile
  rw [hs]
  obtain ⟨t, rfl, hc⟩ := hq
  have hle : weigh t + ((if isProtected (basePart file) = true then none else some (basePart file)).getD []).length
      ≤ weigh (t ++ [.lstat file r]) := by
    rw [weigh_append, weigh_one]
    show _ ≤ _ + (basePart file).length
    split <;> simp
  refine (Tracks.ofRes (sequenceRun_counts P hc _) (L := Heavy q0 h0) (h := h0 ++ t ++ [.lstat file r]) ?_).bind ?_
  · exact fun g => ⟨t ++ [.lstat file r], by simp, Nat.lt_of_lt_of_le g (Nat.mul_le_mul_right _ hle)⟩
  · rintro h' ⟨q', w⟩ w' ⟨rfl, g, rfl⟩
    have held : HeldAt q0 h0 (h0 ++ t ++ [.lstat file r]) q' := ⟨t ++ [.lstat file r], by simp, g.mono hle⟩
    cases w with
    | none => exact .ret _ _ _ ⟨rfl, held⟩
    | some w =>
      simp only
      split
      · exact .ret _ _ _ ⟨rfl, held⟩
      · have := (Tracks.refl (L := Heavy q0 h0) (checkAndRename o file (dirPart file ++ w)) (h0 ++ t ++ [.lstat file r])).bind
          (S := fun h' (a : Option Sequence × Bytes) b => a.2 = b ∧ HeldAt q0 h0 h' a.1) (k := fun new => .ret (q', new)) (l := .ret) (by
            rintro h' a b ⟨rfl, t', rfl, _⟩
            exact .ret _ _ _ ⟨rfl, held.more t'⟩)
        rwa [Prog.bind_ret] at this

/-- What the state is, and that the ignore lists are the same. -/
def HeldWith (q0 : Sequence) (h0 h : List Event) (a : Option Sequence × Option Filelist) (b : Option Filelist) : Prop :=
  a.2 = b ∧ HeldAt q0 h0 h a.1

theorem dirLoop_tracks (hs : o.sequenceToUse = some q0)
    {recC : Option Sequence → Option Filelist → Bytes → Prog (Option Sequence × Option Filelist)}
    {rec' : Option Filelist → Bytes → Prog (Option Filelist)}
    (hrec : ∀ h q ign w, HeldAt q0 h0 h q → Tracks (Heavy q0 h0) (HeldWith q0 h0) h (recC q ign w) (rec' ign w)) (d : Nat) (filename : Bytes) :
    ∀ (m : Nat) (h : List Event) (q : Option Sequence) (st : Stat) (ign : Option Filelist), HeldAt q0 h0 h q →
      Tracks (Heavy q0 h0) (HeldWith q0 h0) h (dirLoopCounted P o recC d filename m q st ign) (dirLoop P o rec' d filename m st ign)
  | 0, _, _, _, _, _ => .stuck _
  | m + 1, h, q, st, ign, hq => by
    unfold dirLoopCounted dirLoop
    refine .readdir _ _ _ _ fun e => ?_
    have hq := hq.more [.readdir d e]
    generalize h ++ [Event.readdir d e] = h at hq
    cases e with
    | none => exact .closedir _ _ _ _ (.ret _ _ _ ⟨rfl, hq.more _⟩)
    | some name =>
      refine (Tracks.refl (L := Heavy q0 h0) (Prog.ofRes (ignoreFile name ign)) h).bind ?_
      rintro h p p' ⟨rfl, t, rfl, _⟩
      have hq := hq.more t
      generalize h ++ t = h at hq
      split
      · exact dirLoop_tracks hs hrec d filename m h q st _ hq
      · refine .lstat _ _ _ _ fun r => ?_
        simp only
        split
        · refine (parseFile_tracks hs hq _ r).bind ?_
          rintro h ⟨q', w⟩ w' ⟨rfl, hq'⟩
          simp only
          split
          · refine (hrec h q' p.1 w hq').bind ?_
            rintro h ⟨q'', ign'⟩ ign'' ⟨rfl, hq''⟩
            exact dirLoop_tracks hs hrec d filename m h q'' _ _ hq''
          · exact dirLoop_tracks hs hrec d filename m h q' _ _ hq'
        · split
          · refine (parseFile_tracks hs hq _ r).bind ?_
            rintro h ⟨q', w⟩ w' ⟨rfl, hq'⟩
            exact dirLoop_tracks hs hrec d filename m h q' _ _ hq'
          · exact dirLoop_tracks hs hrec d filename m _ q _ _ (hq.more _)

theorem parseDir_tracks (hs : o.sequenceToUse = some q0) : ∀ (n : Nat) (h : List Event) (q : Option Sequence) (ign : Option Filelist) (file : Bytes),
    HeldAt q0 h0 h q → Tracks (Heavy q0 h0) (HeldWith q0 h0) h (parseDirCounted P o n q ign file) (parseDir P o n ign file)
  | 0, _, _, _, _, _ => .stuck _
  | n + 1, h, q, ign, file, hq => by
    unfold parseDirCounted parseDir
    refine .lstat _ _ _ _ fun r => ?_
    have hq := hq.more [.lstat file r]
    generalize h ++ [Event.lstat file r] = h at hq
    cases r with
    | none => exact .ret _ _ _ ⟨rfl, hq⟩
    | some st =>
      simp only
      split
      · exact .ret _ _ _ ⟨rfl, hq⟩
      · refine .opendir _ _ _ _ fun d => ?_
        have hq := hq.more [.opendir file d]
        generalize h ++ [Event.opendir file d] = h at hq
        cases d with
        | ok d => exact dirLoop_tracks hs (fun h q ign w hq => parseDir_tracks hs n h q ign w hq) d file n h q st ign hq
        | fail => exact .err _ _ _ _ (.ret _ _ _ ⟨rfl, hq.more _⟩)
        | emfile => exact .err _ _ _ _ (.exit _ 1)

theorem processArg_tracks (hs : o.sequenceToUse = some q0) (fuel : Nat) {h : List Event} {q : Option Sequence} (ign : Option Filelist) (file : Bytes)
    (hq : HeldAt q0 h0 h q) :
    Tracks (Heavy q0 h0) (HeldWith q0 h0) h (processArgCounted P o fuel q ign file) (processArg P o fuel ign file) := by
  have body : ∀ h, HeldAt q0 h0 h q → Tracks (Heavy q0 h0) (HeldWith q0 h0) h
      (.lstat file fun r =>
        match r with
        | none => .err (file ++ lit ": ") (.ret (q, ign))
        | some st =>
          if st.kind = .dir then
            (parseFileCounted P o q file).bind fun work => parseDirCounted P o fuel work.1 ign work.2
          else if st.kind = .reg then (parseFileCounted P o q file).bind fun work => .ret (work.1, ign)
          else if o.special then (parseFileCounted P o q file).bind fun work => .ret (work.1, ign)
          else .ret (q, ign))
      (.lstat file fun r =>
        match r with
        | none => .err (file ++ lit ": ") (.ret ign)
        | some st =>
          if st.kind = .dir then
            (parseFile P o file).bind fun work => parseDir P o fuel ign work
          else if st.kind = .reg then (parseFile P o file).bind fun _ => .ret ign
          else if o.special then (parseFile P o file).bind fun _ => .ret ign
          else .ret ign) := by
    intro h hq
    refine .lstat _ _ _ _ fun r => ?_
    cases r with
    | none => exact .err _ _ _ _ (.ret _ _ _ ⟨rfl, (hq.more _).more _⟩)
    | some st =>
      have one : Tracks (Heavy q0 h0) (HeldWith q0 h0) (h ++ [.lstat file (some st)])
          ((parseFileCounted P o q file).bind fun work => .ret (work.1, ign)) ((parseFile P o file).bind fun _ => .ret ign) := by
        refine (parseFile_tracks hs hq _ _).bind ?_
        rintro h ⟨q', w⟩ w' ⟨rfl, hq'⟩
        exact .ret _ _ _ ⟨rfl, hq'⟩
      simp only
      split
      · refine (parseFile_tracks hs hq _ _).bind ?_
        rintro h ⟨q', w⟩ w' ⟨rfl, hq'⟩
        exact parseDir_tracks hs fuel h q' ign w hq'
      · split
        · exact one
        · split
          · exact one
          · exact .ret _ _ _ ⟨rfl, hq.more _⟩
  unfold processArgCounted processArg
  simp only
  split
  · exact .out _ _ _ _ (body _ (hq.more _))
  · exact body _ hq

theorem fileLoop_tracks (hs : o.sequenceToUse = some q0) (fuel : Nat) : ∀ (n : Nat) (h : List Event) (q : Option Sequence) (l : Filelist)
    (ign : Option Filelist), HeldAt q0 h0 h q →
    Tracks (Heavy q0 h0) (HeldWith q0 h0) h (fileLoopCounted P o fuel n q l ign) (fileLoop P o fuel n l ign)
  | 0, _, _, _, _, _ => .stuck _
  | n + 1, h, q, l, ign, hq => by
    unfold fileLoopCounted fileLoop
    refine (Tracks.refl (L := Heavy q0 h0) (Prog.ofRes (filelistGet l)) h).bind ?_
    rintro h p p' ⟨rfl, t, rfl, _⟩
    have hq := hq.more t
    generalize h ++ t = h at hq
    cases p.2 with
    | none => exact .ret _ _ _ ⟨rfl, hq⟩
    | some file =>
      refine (processArg_tracks hs fuel ign file hq).bind ?_
      rintro h ⟨q', ign'⟩ ign'' ⟨rfl, hq'⟩
      exact fileLoop_tracks hs fuel n h q' p.1 _ hq'

/-! ### Inline mode -/

theorem nextChunk_shrinks {s text rest : Bytes} {nl warn : Bool} (h : nextChunk P s = .ok (text, nl, warn, rest)) :
    text.length + rest.length ≤ s.length := by
  have hs : (takeLine 1007 s).1.length + (takeLine 1007 s).2.length = s.length := by
    rw [← List.length_append, ← (takeLine_spec 1007 s).1]
  have hb : (lineBuf s).length ≤ (takeLine 1007 s).1.length := (List.takeWhile_sublist _).length_le
  rcases nextChunk_cases P s with ⟨_, g⟩ | ⟨_, ⟨_, g⟩ | ⟨_, n, _, _, _, g⟩⟩
  · rw [g] at h; cases h
  · rw [g] at h
    have h := Res.ok.inj h
    injection h with h1 h2
    injection h2 with h2 h3
    injection h3 with h3 h4
    subst h1 h4
    have : (cutNewline (lineBuf s)).1.length ≤ (lineBuf s).length := by
      unfold cutNewline
      split
      · exact Nat.le_refl _
      · rw [List.length_take]; omega
    omega
  · rw [g] at h
    have h := Res.ok.inj h
    injection h with h1 h2
    injection h2 with h2 h3
    injection h3 with h3 h4
    subst h1 h4
    have := congrArg List.length (fetchConts_spec P n (takeLine 1007 s).2).1
    rw [List.length_append] at this
    simp only [List.length_append]
    omega

theorem printChunk_tracks (hs : o.sequenceToUse = some q0) {t : List Event} {b : Nat} {q : Option Sequence} (hq : CountingSeq q0 b q) (text : Bytes)
    (newline : Bool) (hb : b + text.length ≤ weigh t) {k : Option Sequence → Prog (Option Sequence)} {k' : Prog Unit}
    (hk : ∀ t' q', weigh t ≤ weigh t' → CountingSeq q0 (b + text.length) q' →
      Tracks (Heavy q0 h0) (fun h a _ => HeldAt q0 h0 h a) (h0 ++ t') (k q') k') :
    Tracks (Heavy q0 h0) (fun h a _ => HeldAt q0 h0 h a) (h0 ++ t) ((printChunkCounted P q text newline).bind k) (printChunk P o text newline k') := by
  unfold printChunkCounted printChunk
  rw [hs]
  have hle : b + ((if isProtected text = true then none else some text).getD []).length ≤ b + text.length := by
    split <;> simp
  simp only
  generalize (if isProtected text = true then none else some text) = work at hle
  have hrun := sequenceRun_counts P hq work
  generalize sequenceRunFilters P (some q0) work = y at hrun
  generalize sequenceRunFiltersCounted P q work = x at hrun
  cases hrun with
  | ok q' w g =>
    refine .out _ _ _ _ ?_
    have g := g.mono hle
    cases newline with
    | true =>
      refine .out _ _ _ _ ?_
      rw [List.append_assoc, List.append_assoc]
      exact hk _ q' (by rw [weigh_append]; omega) g
    | false =>
      rw [List.append_assoc]
      exact hk _ q' (by rw [weigh_append]; omega) g
  | over y g => exact .over _ _ ⟨t, rfl, Nat.lt_of_lt_of_le g (Nat.mul_le_mul_right _ (by omega))⟩
  | exit n => exact .exit _ n
  | ub u => exact .ub _ u
  | stuck => exact .stuck _

theorem inlineLoop_tracks (hs : o.sequenceToUse = some q0) : ∀ (n : Nat) (t : List Event) (q : Option Sequence) (s : Bytes) (b : Nat),
    CountingSeq q0 b q → b + s.length ≤ weigh t →
    Tracks (Heavy q0 h0) (fun h a _ => HeldAt q0 h0 h a) (h0 ++ t) (inlineLoopCounted P n q s) (inlineLoop P o n s)
  | 0, t, q, [], b, hq, hb => .ret _ _ _ ⟨t, rfl, hq.mono (by omega)⟩
  | n + 1, t, q, [], b, hq, hb => .ret _ _ _ ⟨t, rfl, hq.mono (by omega)⟩
  | 0, _, _, _ :: _, _, _, _ => .stuck _
  | n + 1, t, q, c :: s, b, hq, hb => by
    unfold inlineLoopCounted inlineLoop
    cases hc : nextChunk P (c :: s) with
    | ok r =>
      obtain ⟨text, nl, warn, rest⟩ := r
      have hl := nextChunk_shrinks hc
      simp only [Prog.ofRes, Prog.bind]
      have next : ∀ t', weigh t ≤ weigh t' → Tracks (Heavy q0 h0) (fun h a _ => HeldAt q0 h0 h a) (h0 ++ t')
          ((printChunkCounted P q text nl).bind fun q => inlineLoopCounted P n q rest) (printChunk P o text nl (inlineLoop P o n rest)) := by
        intro t' ht
        refine printChunk_tracks hs hq text nl (by omega) fun t'' q'' ht'' hq'' => ?_
        exact inlineLoop_tracks hs n t'' q'' rest _ hq'' (by omega)
      split
      · refine .err _ _ _ _ ?_
        rw [List.append_assoc]
        exact next _ (by rw [weigh_append]; omega)
      · exact next t (Nat.le_refl _)
    | exit n => exact .exit _ n
    | ub u => exact .ub _ u
    | stuck => exact .stuck _

theorem parseInline_tracks (hs : o.sequenceToUse = some q0) {h : List Event} {q : Option Sequence} (hq : HeldAt q0 h0 h q) (file : Option Bytes) :
    Tracks (Heavy q0 h0) (fun h a _ => HeldAt q0 h0 h a) h (parseInlineCounted P q file) (parseInline P o file) := by
  unfold parseInlineCounted parseInline
  refine .slurp _ _ _ _ fun r => ?_
  cases r with
  | none => exact .err _ _ _ _ (.ret _ _ _ ((hq.more _).more _))
  | some s =>
    obtain ⟨t, rfl, hc⟩ := hq
    rw [List.append_assoc]
    exact inlineLoop_tracks hs s.length _ q s (weigh t) hc (by rw [weigh_append, weigh_one]; exact Nat.le_refl _)

theorem inlineArg_tracks (hs : o.sequenceToUse = some q0) {h : List Event} {q : Option Sequence} (hq : HeldAt q0 h0 h q) (file : Bytes) :
    Tracks (Heavy q0 h0) (fun h a _ => HeldAt q0 h0 h a) h (inlineArgCounted P q file) (inlineArg P o file) := by
  unfold inlineArgCounted inlineArg
  refine .lstat _ _ _ _ fun r => ?_
  cases r with
  | none => exact .err _ _ _ _ (.ret _ _ _ ((hq.more _).more _))
  | some st =>
    simp only
    split
    · exact .err _ _ _ _ (.ret _ _ _ ((hq.more _).more _))
    · exact parseInline_tracks hs (hq.more _) _

theorem inlineFileLoop_tracks (hs : o.sequenceToUse = some q0) : ∀ (n : Nat) (h : List Event) (q : Option Sequence) (l : Filelist), HeldAt q0 h0 h q →
    Tracks (Heavy q0 h0) (fun h a _ => HeldAt q0 h0 h a) h (inlineFileLoopCounted P n q l) (inlineFileLoop P o n l)
  | 0, _, _, _, _ => .stuck _
  | n + 1, h, q, l, hq => by
    unfold inlineFileLoopCounted inlineFileLoop
    refine (Tracks.refl (L := Heavy q0 h0) (Prog.ofRes (filelistGet l)) h).bind ?_
    rintro h p p' ⟨rfl, t, rfl, _⟩
    have hq := hq.more t
    generalize h ++ t = h at hq
    cases p.2 with
    | none => exact .ret _ _ _ hq
    | some file =>
      refine (inlineArg_tracks hs hq file).bind ?_
      intro h q' _ hq'
      exact inlineFileLoop_tracks hs n h q' p.1 hq'

/-! ### The work -/

theorem detoxWork_tracks (hs : o.sequenceToUse = some q0) (h : ∀ f ∈ q0.filters, ∀ t, f.table = some t → t.most = 0) (fuel : Nat) :
    Tracks (Heavy q0 h0) (fun _ a b => a = b) h0 (detoxWorkCounted P o fuel) (detoxWork P o fuel) := by
  have hq : HeldAt q0 h0 h0 o.sequenceToUse := ⟨[], by simp, q0, hs, rfl, rfl, Counting.start h⟩
  unfold detoxWorkCounted detoxWork
  split
  · have := Tracks.bind (S := fun _ (a b : Unit) => a = b) (L := Heavy q0 h0) (R := fun h a _ => HeldAt q0 h0 h a) (h := h0)
      (p := inlineMainCounted P o.sequenceToUse o.files) (q := inlineMain P o o.files) (k := fun _ => .ret ()) (l := .ret) (by
        unfold inlineMainCounted inlineMain
        cases o.files with
        | none => exact parseInline_tracks hs hq none
        | some l =>
          simp only
          split
          · exact inlineFileLoop_tracks hs _ _ _ _ hq
          · exact parseInline_tracks hs hq none) fun h _ _ _ => .ret _ _ _ rfl
    rwa [Prog.bind_ret] at this
  · cases o.files with
    | none => exact .ret _ _ _ rfl
    | some l => exact (fileLoop_tracks hs fuel _ _ _ l _ hq).bind fun h _ _ _ => .ret _ _ _ rfl

end

end Detox
