import Verif.Lemmas.MemoryCount
import Verif.Lemmas.Main
import Verif.Lemmas.Final

/-!
# C81, C82: the work of detox on the heap
-/

set_option autoImplicit false

namespace Detox
open Spec

/-- What is on the heap when main has read its options and its configuration: the sequence at `q`, the names to ignore at `p`, the arguments at
`f`, as `o` has them. Sequences may share filters; the two lists are different blocks. -/
structure WorkLayout (h : Heap) (o : Options) (q p f : Option Addr) : Prop where
  sequence : SequenceAt h q o.sequenceToUse
  ignore : ∃ bs, OptListAt h p bs o.filesToIgnore
  files : ∃ bs, OptListAt h f bs o.files
  apart : ∀ x, x ∈ f.toList → x ∉ p.toList
  old : AllPointersOld h

theorem work_follows {A : Nat → Bool} {P : Platform} {o : Options} {h : Heap} {q p f : Option Addr} (L : WorkLayout h o q p f) (fuel : Nat) :
    Follows A False (fun _ h' k => LeavesBehind h h' (f.toList ++ p.toList) k) (mDetoxWork A P o q p f fuel h) (detoxWorkLost P o fuel) := by
  obtain ⟨bs, hi⟩ := L.ignore
  obtain ⟨bf, hf⟩ := L.files
  refine (detoxWork_follows fuel L.sequence hf hi L.apart).mono ?_
  rintro _ h' k ⟨lv, ⟨l1, h1⟩, l2, h2⟩
  exact lv.behind L.old hf hi h1 h2

theorem Outcome.Matches.endsAlike {α β : Type} {Post : α → Heap → β → Prop} {x : Outcome (Except Fault (α × Heap))} {y : Outcome β}
    (m : x.Matches Post y) : EndsAlike x y := by
  cases x with
  | ret r => cases r with
    | ok r => cases y <;> first | trivial | exact m
    | error e => cases y <;> exact m
  | running => cases y <;> exact m
  | exit n => cases y <;> exact m
  | ub u => cases y <;> exact m
  | stuck => cases y <;> exact m

theorem work_follows_values {A : Nat → Bool} {P : Platform} {o : Options} {h : Heap} {q p f : Option Addr} (L : WorkLayout h o q p f) (fuel : Nat) :
    Follows A False (fun _ h' (_ : Unit) => ∃ k, LeavesBehind h h' (f.toList ++ p.toList) k) (mDetoxWork A P o q p f fuel h) (detoxWork P o fuel) := by
  rw [← detoxWorkLost_fst]
  exact (work_follows L fuel).map fun _ h' k hk => ⟨k, hk⟩

/-- **C81.** Whatever the system answers and whichever allocation fails: no block is used or freed after it was freed, no text is stored in a
block that is too small for it, and NULL is not followed. Undefined behaviour inside a filter (C17) or the line reader (C40) is another outcome, `ub`. -/
theorem C81_no_memory_fault {A : Nat → Bool} {P : Platform} {o : Options} {h : Heap} {q p f : Option Addr} (L : WorkLayout h o q p f) (fuel : Nat)
    {tr : List Event} {oc : Outcome (Except Fault (Unit × Heap))} (ht : Trace (mDetoxWork A P o q p f fuel h) tr oc) :
    ∀ e, oc ≠ .ret (.error e) := by
  rintro e rfl
  rcases (work_follows_values L fuel).trace ht with ⟨o', _, m⟩ | ⟨_, pre, _, ⟨_, h'⟩ | ⟨_, h' | h'⟩ | ⟨h', _⟩⟩
  · cases o' <;> exact m
  · cases h'
  · cases h'
  · cases h'
  · exact h'

/-- **C81.** If no allocation fails, the program with pointers has the executions of the program on values, of which the other properties speak. -/
theorem C81_same_executions {A : Nat → Bool} (hA : ∀ n, A n = true) {P : Platform} {o : Options} {h : Heap} {q p f : Option Addr}
    (L : WorkLayout h o q p f) (fuel : Nat) (tr : List Event) :
    (∀ oc, Trace (mDetoxWork A P o q p f fuel h) tr oc → ∃ oc', Trace (detoxWork P o fuel) tr oc' ∧ EndsAlike oc oc') ∧
    (∀ oc', Trace (detoxWork P o fuel) tr oc' → ∃ oc, Trace (mDetoxWork A P o q p f fuel h) tr oc ∧ EndsAlike oc oc') := by
  refine ⟨fun oc ht => ?_, fun oc' ht => ?_⟩
  · rcases (work_follows_values L fuel).trace ht with ⟨o', h1, m⟩ | ⟨⟨n, hn⟩, _⟩
    · exact ⟨o', h1, m.endsAlike⟩
    · rw [hA n] at hn; cases hn
  · obtain ⟨oc, h1, m⟩ := (work_follows_values L fuel).back hA ht
    exact ⟨oc, h1, m.endsAlike⟩

/-- **C81.** When memory runs out, the program stops where it is, with a message and status 1: up to there it did what it would have done with
more memory. -/
theorem C81_memory_runs_out {A : Nat → Bool} {P : Platform} {o : Options} {h : Heap} {q p f : Option Addr} (L : WorkLayout h o q p f) (fuel : Nat)
    {tr : List Event} {oc : Outcome (Except Fault (Unit × Heap))} (ht : Trace (mDetoxWork A P o q p f fuel h) tr oc) :
    (∃ oc', Trace (detoxWork P o fuel) tr oc' ∧ EndsAlike oc oc') ∨
    ((∃ n, A n = false) ∧ ∃ pre, Trace (detoxWork P o fuel) pre .running ∧ tr = pre ++ [.err outOfMemory] ∧ (oc = .running ∨ oc = .exit 1)) := by
  rcases (work_follows_values L fuel).trace ht with ⟨o', h1, m⟩ | ⟨hF, pre, hp, ⟨rfl, rfl⟩ | h' | ⟨h', _⟩⟩
  · exact .inl ⟨o', h1, m.endsAlike⟩
  · exact .inl ⟨.running, hp, trivial⟩
  · exact .inr ⟨hF, pre, hp, h'⟩
  · cases h'

/-- **C82.** When the work is done, as many strings are left behind as `detoxWorkLost` counts: one for every name that is protected or that the
filters leave as it is, one for every directory that was opened, one for every argument that is no directory; in inline mode one for every stream
and one for every line that is `.` or `..`. No block points to them. Every other block is as it was. -/
theorem C82_strings_left_behind {A : Nat → Bool} {P : Platform} {o : Options} {h : Heap} {q p f : Option Addr} (L : WorkLayout h o q p f)
    (fuel : Nat) {tr : List Event} {h' : Heap} (ht : Trace (mDetoxWork A P o q p f fuel h) tr (.ret (.ok ((), h')))) :
    ∃ k, Trace (detoxWorkLost P o fuel) tr (.ret k) ∧ LeavesBehind h h' (f.toList ++ p.toList) k := by
  rcases (work_follows L fuel).trace ht with ⟨o', h1, m⟩ | ⟨_, pre, _, ⟨_, h'⟩ | ⟨_, h' | h'⟩ | ⟨h', _⟩⟩
  · cases o' with
    | ret k => exact ⟨k, h1, m⟩
    | running => cases m
    | exit n => cases m
    | ub u => cases m
    | stuck => cases m
  · cases h'
  · cases h'
  · cases h'
  · cases h'

/-- **C82.** The number is a number of the run itself: apart from it, `detoxWorkLost` is the program of which the other properties speak. -/
theorem C82_count_is_about_the_same_program (P : Platform) (o : Options) (fuel : Nat) :
    (detoxWorkLost P o fuel).bind (fun _ => .ret ()) = detoxWork P o fuel := detoxWorkLost_fst fuel

/-- **C82.** `parse_file` alone: the result is a new string, and one more string stays behind exactly if the name is protected or unchanged. -/
theorem C82_parse_file {A : Nat → Bool} {P : Platform} {o : Options} {h : Heap} {q : Option Addr} {f : Addr} {s : Bytes}
    (hq : SequenceAt h q o.sequenceToUse) (hf : h.textAt f = some s) {tr : List Event} {oc : Outcome (Except Fault (Addr × Heap))}
    (ht : Trace (mParseFile A P o q f h) tr oc) :
    (∀ e, oc ≠ .ret (.error e)) ∧ ∀ r h', oc = .ret (.ok (r, h')) →
      ∃ path, Trace (parseFile P o s) tr (.ret path) ∧ h.get r = none ∧ h'.textAt r = some path ∧
        (∀ x b, h.get x = some b → h'.get x = some b) ∧ (liveBlocks h').length = (liveBlocks h).length + 1 + fileLeaks P o s := by
  rcases (parseFile_follows (N := False) hq hf).trace ht with ⟨o', h1, m⟩ | ⟨_, pre, _, ⟨_, rfl⟩ | ⟨_, rfl | rfl⟩ | ⟨h', _⟩⟩
  · refine ⟨?_, ?_⟩
    · rintro e rfl; cases o' <;> exact m
    · rintro r h' rfl
      cases o' with
      | running => cases m
      | exit n => cases m
      | ub u => cases m
      | stuck => cases m
      | ret path =>
        obtain ⟨tr', lost, sw, L, hk⟩ := m
        have hold : ∀ x, x ∈ lost ++ [r] → h.length ≤ x := fun x hx => by
          rcases sw.source x hx with h2 | h2
          · cases h2
          · exact h2
        have hkeep : ∀ x b, h.get x = some b → h'.get x = some b := fun x b hb => by
          rw [sw.others x (Heap.get_lt hb) (by simp), hb]
        refine ⟨path, h1, Heap.get_none_of_le (hold r (by simp)), tr', hkeep, ?_⟩
        have := liveBlocks_length (h := h') (l := liveBlocks h ++ (lost ++ [r])) ?_ ?_
        · rw [this, List.length_append, List.length_append, hk]; simp only [List.length_singleton]; omega
        · refine List.nodup_append.2 ⟨liveBlocks_nodup h, List.nodup_append.2 ⟨L.nodup, by simp, fun x hx y hy e => ?_⟩, fun x hx y hy e => ?_⟩
          · exact L.apart x hx (e ▸ hy)
          · obtain ⟨b, hb⟩ := mem_liveBlocks.1 hx
            have := Heap.get_lt hb
            have := hold y hy
            omega
        · intro x
          rw [List.mem_append, mem_liveBlocks]
          constructor
          · rintro (⟨b, hb⟩ | hx)
            · exact ⟨b, hkeep x b hb⟩
            · rcases List.mem_append.1 hx with hx | hx
              · obtain ⟨n, t, e⟩ := L.live x hx; exact ⟨_, e⟩
              · cases (List.mem_singleton.1 hx : x = r)
                obtain ⟨n, e⟩ := Heap.textAt_get tr'; exact ⟨_, e⟩
          · rintro ⟨b, hb⟩
            by_cases hx : x < h.length
            · rw [sw.others x hx (by simp)] at hb; exact .inl ⟨b, hb⟩
            · by_cases hm : x ∈ lost ++ [r]
              · exact .inr hm
              · rw [sw.nothing x (Nat.le_of_not_lt hx) hm] at hb; cases hb
  all_goals first
    | exact h'.elim
    | exact ⟨fun e he => (by cases he), fun r h' he => (by cases he)⟩

/-! ### A case -/

/-- The heap of a run `detox d` with a sequence that has one filter. -/
def smallHeap : Heap :=
  [some (.filter none .lower none none false 0 none), some (.sequence none (some 2) (some 0) none), some (.text 8 (lit "default")),
   some (.filelist (some 4) 16 1 0), some (.slots (some 5 :: List.replicate 15 none)), some (.text 2 (lit "d"))]

def smallOptions : Options :=
  { sequenceToUse := some { name := lit "default", filters := [{ cleaner := .lower }] }
    files := some ⟨some (lit "d") :: List.replicate 15 none, 1, 0⟩ }

theorem smallLayout : WorkLayout smallHeap smallOptions (some 1) none (some 3) := by
  refine ⟨⟨none, 2, some 0, none, rfl, rfl, rfl, 0, none, none, none, none, rfl, rfl, rfl, rfl, trivial, rfl⟩, ⟨[], rfl⟩,
    ⟨[4, 5], 4, [5], [lit "d"], 0, rfl, ⟨⟨15, rfl, rfl⟩, rfl, by simp, Nat.zero_le _⟩, ?_⟩, fun x _ hx => (by cases hx), ?_⟩
  · exact ⟨rfl, rfl, rfl, Nat.zero_le _, by decide⟩
  · intro x b hb
    have hx : x < 6 := Heap.get_lt hb
    have : ∀ x, x < 6 → ∀ b, smallHeap.get x = some b → ∀ y, y ∈ pointersOf b → y < smallHeap.length := by
      intro x hx
      match x, hx with
      | 0, _ => intro b hb; cases hb; decide
      | 1, _ => intro b hb; cases hb; decide
      | 2, _ => intro b hb; cases hb; decide
      | 3, _ => intro b hb; cases hb; decide
      | 4, _ => intro b hb; cases hb; decide
      | 5, _ => intro b hb; cases hb; decide
    exact this x hx b hb

theorem smallFile (P : Platform) (s : Bytes) (hs : s = lit "d" ∨ s = lit "d/a") :
    parseFile P smallOptions s = .ret s ∧ fileLeaks P smallOptions s = 1 := by
  obtain ⟨a, b, c⟩ := P
  rcases hs with rfl | rfl <;> cases a <;> cases b <;> exact ⟨rfl, rfl⟩

/-- The events of a scan of a directory with `n` files named `a`; a real directory has different names, but what is lost is the same. -/
def scanEvents : Nat → List Event
  | 0 => [.readdir 0 none, .closedir 0]
  | n + 1 => .readdir 0 (some (lit "a")) :: .lstat (lit "d/a") (some ⟨0, 7, 1, .reg⟩) :: scanEvents n

theorem scan_lost (P : Platform) (rec : Option Filelist → Bytes → Prog (Option Filelist × Nat)) : ∀ (n m : Nat) (st : Stat) (k : Nat), n < m →
    Trace (dirLoopLost P smallOptions rec 0 (lit "d") m st none k) (scanEvents n) (.ret (none, k + n))
  | 0, m + 1, st, k, _ => by
    unfold dirLoopLost scanEvents
    exact .readdir _ _ _ _ _ (.closedir _ _ _ _ (.ret _))
  | n + 1, m + 1, st, k, h => by
    unfold dirLoopLost scanEvents
    refine .readdir _ _ _ _ _ ?_
    have e : ignoreFile (lit "a") none = .ok (none, false) := rfl
    simp only [e, Prog.ofRes, Prog.bind]
    change Trace (Prog.lstat (lit "d/a") _) _ _
    refine .lstat _ _ _ _ _ ?_
    have hf := smallFile P (lit "d/a") (.inr rfl)
    change Trace ((parseFile P smallOptions (lit "d/a")).bind fun _ => dirLoopLost P smallOptions rec 0 (lit "d") m ⟨0, 7, 1, .reg⟩ none
      (k + fileLeaks P smallOptions (lit "d/a"))) _ _
    rw [hf.1, hf.2, show k + (n + 1) = (k + 1) + n by omega]
    exact scan_lost P rec n m _ _ (Nat.lt_of_succ_lt_succ h)

/-- **C82.** So the memory that is left behind has no bound: a directory with `n` files whose names are fine costs `n + 2` strings. -/
theorem C82_clean_names_cost_memory (P : Platform) (n : Nat) : ∃ h',
    Trace (mDetoxWork (fun _ => true) P smallOptions (some 1) none (some 3) (n + 2) smallHeap)
      (.lstat (lit "d") (some ⟨0, 1, 2, .dir⟩) :: .lstat (lit "d") (some ⟨0, 1, 2, .dir⟩) :: .opendir (lit "d") (.ok 0) :: scanEvents n)
      (.ret (.ok ((), h'))) ∧
    (liveBlocks h').length = (liveBlocks smallHeap).length + (n + 2) := by
  have hd := smallFile P (lit "d") (.inl rfl)
  have ht : Trace (detoxWorkLost P smallOptions (n + 2))
      (.lstat (lit "d") (some ⟨0, 1, 2, .dir⟩) :: .lstat (lit "d") (some ⟨0, 1, 2, .dir⟩) :: .opendir (lit "d") (.ok 0) :: scanEvents n)
      (.ret (n + 2)) := by
    change Trace ((processArgLost P smallOptions (n + 2) none (lit "d")).bind fun r =>
      fileLoopLost P smallOptions (n + 2) 1 ⟨some (lit "d") :: List.replicate 15 none, 1, 1⟩ r.1 (0 + r.2)) _ _
    change Trace (Prog.lstat (lit "d") _) _ _
    refine .lstat _ _ _ _ _ ?_
    change Trace (((parseFile P smallOptions (lit "d")).bind fun work => (parseDirLost P smallOptions (n + 2) none work).bind fun r =>
      .ret (r.1, fileLeaks P smallOptions (lit "d") + r.2)).bind fun r =>
      fileLoopLost P smallOptions (n + 2) 1 ⟨some (lit "d") :: List.replicate 15 none, 1, 1⟩ r.1 (0 + r.2)) _ _
    rw [hd.1, hd.2]
    change Trace (Prog.lstat (lit "d") _) _ _
    refine .lstat _ _ _ _ _ (.opendir _ _ _ _ _ ?_)
    change Trace (((dirLoopLost P smallOptions (parseDirLost P smallOptions (n + 1)) 0 (lit "d") (n + 1) ⟨0, 1, 2, .dir⟩ none 1).bind fun r =>
      .ret (r.1, 1 + r.2)).bind fun r => fileLoopLost P smallOptions (n + 2) 1 ⟨some (lit "d") :: List.replicate 15 none, 1, 1⟩ r.1 (0 + r.2)) _ _
    rw [Prog.bind_assoc]
    have h1 := scan_lost P (parseDirLost P smallOptions (n + 1)) n (n + 1) ⟨0, 1, 2, .dir⟩ 1 (Nat.lt_succ_self n)
    have := trace_append h1 (f := fun r => (Prog.ret (r.1, 1 + r.2)).bind fun r =>
      fileLoopLost P smallOptions (n + 2) 1 ⟨some (lit "d") :: List.replicate 15 none, 1, 1⟩ r.1 (0 + r.2)) (t := []) (out := .ret (n + 2)) ?_
    · rw [List.append_nil] at this; exact this
    · have : (0 + (1 + (1 + n))) = n + 2 := by omega
      change Trace (Prog.ret (0 + (1 + (1 + n)))) [] _
      rw [this]
      exact .ret _
  obtain ⟨oc, h1, m⟩ := (work_follows smallLayout (n + 2)).back (A := fun _ => true) (fun _ => rfl) ht
  cases oc with
  | ret r => cases r with
    | ok r => exact ⟨r.2, h1, m.count⟩
    | error e => cases m
  | running => cases m
  | exit n => cases m
  | ub u => cases m
  | stuck => cases m

/-- A case: a file whose name changes. Only the new path is left behind. -/
example : ∃ h', Trace (mDetoxWork (fun _ => true) ⟨true, true, true⟩ { smallOptions with files := some ⟨some (lit "D") :: List.replicate 15 none, 1, 0⟩ }
      (some 1) none (some 3) 3 (smallHeap.set 5 (some (.text 2 (lit "D")))))
      [.lstat (lit "D") (some ⟨0, 1, 1, .reg⟩), .lstat (lit "D") (some ⟨0, 1, 1, .reg⟩), .lstat (lit "d") none, .rename (lit "D") (lit "d") true]
      (.ret (.ok ((), h'))) ∧ liveBlocks h' = liveBlocks smallHeap ++ [10] ∧ h'.get 10 = some (.text 2 (lit "d")) :=
  ⟨_, Prog.final_sound _ _ _ rfl, rfl, rfl⟩

/-- A case: the copy of the name cannot be allocated. -/
example : Trace (mDetoxWork (fun n => n ≠ 7) ⟨true, true, true⟩ smallOptions (some 1) none (some 3) 3 smallHeap)
    [.lstat (lit "d") (some ⟨0, 1, 2, .dir⟩), .err outOfMemory] (.exit 1) := Prog.final_sound _ _ _ rfl

/-- The faults are there: without the layout, here with a sequence that was freed, the program does use a dead block. -/
example : Trace (mDetoxWork (fun _ => true) ⟨true, true, true⟩ smallOptions (some 1) none (some 3) 3 (smallHeap.set 1 none))
    [.lstat (lit "d") (some ⟨0, 1, 2, .dir⟩)] (.ret (.error .pointer)) := Prog.final_sound _ _ _ rfl

end Detox
