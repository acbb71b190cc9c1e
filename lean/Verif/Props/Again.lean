import Verif.Lemmas.Again
import Verif.Lemmas.Mute
import Verif.Props.Complete
import Verif.Props.Settled

/-!
# C94: running detox again
-/

set_option autoImplicit false

namespace Detox

open Spec

/-- **C94.** After a `detox -r` that had no complaints, with any sequence for which one pass is enough, detox finds nothing to do in any directory it
was in: a second run, with whatever arguments lead there and have fine names themselves, changes nothing and calls `rename` not once. It does not print
anything either, but the lines of `-v` about its arguments; so `-n` prints nothing. Ignored names are an exception (C34), so there must be none. -/
theorem C94_second_run {P : Platform} {o : Options} {args ws : List Bytes} {fs : FS} {depth : Ino → Nat} {slack level : Nat} {tr : List Event}
    {w : World} {a : Option Filelist} (hc : CompleteRun P o args fs depth slack level tr w) (h : Run P o args ws tr (.ret a)) (hr : o.recurse = true)
    (hs : Silent tr) (hid : ∀ m v, NulFree m → Makes P o m v → Makes P o v v)
    (hws : ∀ d p, (d, p) ∈ w.opened → ∀ e ∈ w.fs.entries, e.dir = d → e.name ∉ ws)
    {o2 : Options} (hq : o2.sequenceToUse = o.sequenceToUse) (hsp : o2.special = true → o.special = true)
    {args2 ws2 : List Bytes} {tr2 : List Event} {w2 : World} {a2 : Option Filelist} {level2 : Nat} (h2 : Run P o2 args2 ws2 tr2 (.ret a2))
    (hw2 : World.Steps (World.start w.fs) tr2 w2) (hst : ∀ f ∈ args2, w.fs.Steady depth slack level2 f)
    (hall : ∀ p r, Event.lstat p r ∈ tr2 → w.fs.denied p = false) (hon : Honest w.fs tr2)
    (hf : ∀ f ∈ args2, FineArg (Makes P o2) w.fs (fun d => ∃ p, (d, p) ∈ w.opened) f) :
    w2.fs = w.fs ∧ attempts tr2 = [] ∧ outputs tr2 = scanningLines o2 args2 := by
  obtain ⟨seen, hscan⟩ := C72_runs_are_scans h2
  have hmk : ∀ m v, Makes P o2 m v ↔ Makes P o m v := by
    intro m v
    show sequenceRunFilters P o2.sequenceToUse _ = _ ↔ _
    rw [hq]
  obtain ⟨k, _, _⟩ := hc.keeps h
  refine still_args (R := Makes P o2) (D := fun d => ∃ p, (d, p) ∈ w.opened) (fun a b c h1 h2 => Option.some.inj (Res.ok.inj (h1.symm.trans h2)))
    ?_ k.tree hscan hon hall hst hf (World.start w.fs) w2 rfl hw2
  rintro e he ⟨p, hd⟩
  rcases C86_silent_scan hc h hr hs _ p hd e he rfl with (h1 | h1 | ⟨h1, h3, h4⟩) | ⟨⟨m, _, _, hm, h1⟩, h3⟩
  · exact .inl h1
  · exact absurd h1 (hws _ p hd e he rfl)
  · refine .inr (.inl ⟨h1, h3, ?_⟩)
    cases hx : o2.special with
    | false => rfl
    | true => rw [hsp hx] at h4; cases h4
  · exact .inr (.inr ⟨(hmk _ _).mpr (hid m _ hm h1), h3⟩)

/-- **C94.** The whole program with nothing configured and one of the sequences `default`, `utf_8`, `lower` and `lower-only`: after a `detox -r` without
complaints, a second run on what the first one went through renames nothing, and prints nothing but the lines of `-v` about its arguments. -/
theorem C94_second_run_of_main {P : Platform} (hP : P.Benign) {I : Invocation} {fuel : Nat} {ss : List Setting} {ws : List Bytes}
    (hc : CommandLine I.posixlyCorrect I.args ss ws) {tr : List Event} (h : Trace (detoxMain P I fuel) tr (.ret ()))
    (hu : Unconfigured I ss tr)
    (hn : requested I ss = none ∨ ∃ n ∈ [lit "default", lit "utf_8", lit "lower", lit "lower-only"], requested I ss = some n)
    (hr : Setting.recurse ∈ ss) (hd : Setting.dryRun ∉ ss) (hi : Setting.inline ∉ ss) (hb : ¬ CalledInline I.program) (hs : Silent tr)
    {fs : FS} {depth : Ino → Nat} {slack level : Nat} {w : World} (hnul : ∀ f ∈ ws, NulFree f) (ht : fs.Tree depth slack)
    (hst : ∀ f ∈ ws, fs.Steady depth slack level f) (hw : World.Steps (World.start fs) tr w)
    (ha : ∀ p r, Event.lstat p r ∈ tr → fs.denied p = false)
    (harch : ∀ d p, (d, p) ∈ w.opened → ∀ e ∈ w.fs.entries, e.dir = d → e.name ≠ lit "{arch}")
    {I2 : Invocation} {fuel2 : Nat} {ss2 : List Setting} {ws2 : List Bytes} (hc2 : CommandLine I2.posixlyCorrect I2.args ss2 ws2) {tr2 : List Event}
    (h2 : Trace (detoxMain P I2 fuel2) tr2 (.ret ())) (hu2 : Unconfigured I2 ss2 tr2) (hn2 : requested I2 ss2 = requested I ss)
    (hi2 : Setting.inline ∉ ss2) (hb2 : ¬ CalledInline I2.program) (hsp : Setting.special ∈ ss2 → Setting.special ∈ ss)
    {w2 : World} {level2 : Nat} (hw2 : World.Steps (World.start w.fs) tr2 w2) (hst2 : ∀ f ∈ ws2, w.fs.Steady depth slack level2 f)
    (ha2 : ∀ p r, Event.lstat p r ∈ tr2 → w.fs.denied p = false) (hon : Honest w.fs tr2)
    {E0 : TableEnv} (hf : ∀ f ∈ ws2, FineArg (fun m v => runBuiltin P E0 (requested I ss) m = .ok (some v)) w.fs (fun d => ∃ p, (d, p) ∈ w.opened) f) :
    w2.fs = w.fs ∧ attempts tr2 = [] ∧
      outputs tr2 = if Setting.verbose ∈ ss2 then ws2.map fun f => lit "Scanning: " ++ f ++ lit "\n" else [] := by
  have hne : requested I ss ≠ some (lit "utf_8-only") ∧ requested I ss ≠ some (lit "uncgi-only") := by
    rcases hn with hn | ⟨n, hm, hn⟩
    · rw [hn]; exact ⟨by simp, by simp⟩
    · rw [hn]
      simp only [List.mem_cons, List.not_mem_nil, or_false] at hm
      rcases hm with rfl | rfl | rfl | rfl <;> exact ⟨by decide, by decide⟩
  have hidem : ∀ E m v, NulFree m → runBuiltin P E (requested I ss) m = .ok (some v) → runBuiltin P E (requested I ss) v = .ok (some v) := by
    intro E m v hm hv
    rcases hn with hn | ⟨n, hmem, hn⟩
    · rw [hn] at hv ⊢
      rw [← runBuiltin_asked (.inr rfl)] at hv ⊢
      exact C92_done_after_one_run P hP E _ (by simp) m v hm hv
    · rw [hn] at hv ⊢
      refine C92_done_after_one_run P hP E n ?_ m v hm hv
      simp only [List.mem_cons, List.not_mem_nil, or_false] at hmem ⊢
      rcases hmem with h | h | h | h <;> simp [h]
  rcases main_cases hc h with ⟨_, h⟩ | ⟨reads, t, o, ignored, l, ign, rfl, hrd, hl, hig, hk⟩
  · exact absurd rfl (h ())
  rcases main_cases hc2 h2 with ⟨_, h⟩ | ⟨reads2, t2, o2, ignored2, l2, ign2, rfl, hrd2, hl2, hig2, hk2⟩
  · exact absurd rfl (h ())
  have hmt : ∀ e ∈ t, e ∈ reads ++ t := fun e he => List.mem_append_right _ he
  have hmt2 : ∀ e ∈ t2, e ∈ reads2 ++ t2 := fun e he => List.mem_append_right _ he
  have hw' := world_harmless hrd.quiet hw
  have hw2' := world_harmless hrd2.quiet hw2
  rcases hk with ⟨hin, _⟩ | ⟨_, _, htr⟩
  · rcases hrd.asked.2.2.2.2.2.1.1 hin with h' | h'
    · exact absurd h' hb
    · exact absurd h' hi
  rcases hk2 with ⟨hin, _⟩ | ⟨_, _, htr2⟩
  · rcases hrd2.asked.2.2.2.2.2.1.1 hin with h' | h'
    · exact absurd h' hb2
    · exact absurd h' hi2
  obtain ⟨out', hrun, hout⟩ := main_run hl hig htr
  have : ∃ a, out' = .ret a := by
    rcases hout with h' | h'
    · exact h'
    · exact absurd rfl (outcome_ne_ret h' ())
  obtain ⟨a, rfl⟩ := this
  obtain ⟨out2', hrun2, hout2⟩ := main_run hl2 hig2 htr2
  have : ∃ a, out2' = .ret a := by
    rcases hout2 with h' | h'
    · exact h'
    · exact absurd rfl (outcome_ne_ret h' ())
  obtain ⟨a2, rfl⟩ := this
  obtain ⟨c, q, q', r1, r2, rfl, g1, g2, g3, g4, g5⟩ := hrd.stages
  obtain ⟨c2, p2, p2', r3, r4, rfl, k1, k2, k3, k4, k5⟩ := hrd2.stages
  have hr1 : ∀ e ∈ r1, e ∈ r1 ++ r2 ++ t := fun e he => by simp [he]
  have hr3 : ∀ e ∈ r3, e ∈ r3 ++ r4 ++ t2 := fun e he => by simp [he]
  have hrb := fun E s => unconfigured_run (P := P) hu hr1 g1 g2 g3 E s
  have hrb2 := fun E s => unconfigured_run (P := P) hu2 hr3 k1 k2 k3 E s
  have higs : ignored = [lit "{arch}"] := by
    rw [hu.1] at g1
    have hsp := unconfigured_spoof g1 fun p hp text hm => hu.2 p hp text (hr1 _ hm)
    obtain ⟨l', hl', hl''⟩ := filelistPut_holds filelistInit_holds (lit "{arch}")
    unfold spoofConfigFile at hsp
    rw [hl'] at hsp
    cases hsp
    have h6 : l'.Holds ignored 0 := g5
    have h7 := h6.2.1.symm.trans hl''.2.1
    exact (List.map_inj_right fun _ _ h => Option.some.inj h).1 h7
  subst higs
  have hdry : o.dryRun = false := by
    cases hx : o.dryRun with
    | false => rfl
    | true => exact absurd (hrd.asked.2.1.1 hx) hd
  have hC : CompleteRun P o ws fs depth slack level t w :=
    ⟨hdry, unconfigured_noNewSlash hP hu hr1 g1 g2 g3 g4 hne, hnul, ht, hst, hw', fun p r hm => ha p r (hmt _ hm)⟩
  have hrec := hrd.asked.2.2.1.2 hr
  have hsil : Silent t := fun s hm => hs s (hmt _ hm)
  have hm1 : ∀ m v, Makes P o m v ↔ runBuiltin P E0 (requested I ss) m = .ok (some v) := by
    intro m v
    rw [hrb E0 m, ← g4]
  have hm2 : ∀ m v, Makes P o2 m v ↔ runBuiltin P E0 (requested I ss) m = .ok (some v) := by
    intro m v
    rw [← hn2, hrb2 E0 m, ← k4]
  obtain ⟨seen, hscan⟩ := C72_runs_are_scans hrun2
  obtain ⟨k, _, _⟩ := hC.keeps hrun
  have key := still_args (R := Makes P o2) (D := fun d => ∃ p, (d, p) ∈ w.opened) (o := o2) (level := level2)
    (fun a b c h1 h2 => Option.some.inj (Res.ok.inj (h1.symm.trans h2))) ?_ k.tree hscan (fun k n hm => hon k n (hmt2 _ hm))
    (fun p r hm => ha2 p r (hmt2 _ hm)) hst2 ?_ (World.start w.fs) w2 rfl hw2'
  · refine ⟨key.1, ?_, ?_⟩
    rotate_left
    · rw [(unconfigured_reads hrd2 hu2 fun e he => List.mem_append_left _ he).outputs, key.2.2]
      unfold scanningLines
      rw [hrd2.asked.2.2.2.2.1]
      by_cases hv : Setting.verbose ∈ ss2
      · rw [if_pos hv, if_neg (Nat.pos_iff_ne_zero.1 (List.count_pos_iff.2 hv))]
      · rw [if_neg hv, if_pos (List.count_eq_zero.2 hv)]
    show List.filterMap _ _ = []
    rw [List.filterMap_append, show List.filterMap _ t2 = [] from key.2.1, List.append_nil]
    rw [List.filterMap_eq_nil_iff]
    intro e he
    cases hrd2.quiet e he <;> rfl
  · rintro e he ⟨p, hd⟩
    rcases C86_silent_scan hC hrun hrec hsil _ p hd e he rfl with (h1 | h1 | ⟨h1, h3, h4⟩) | ⟨⟨m, _, _, hm, h1⟩, h3⟩
    · exact .inl h1
    · exact absurd (List.mem_singleton.mp h1) (harch _ p hd e he rfl)
    · refine .inr (.inl ⟨h1, h3, ?_⟩)
      cases hx : o2.special with
      | false => rfl
      | true =>
        rw [hrd.asked.2.2.2.1.2 (hsp (hrd2.asked.2.2.2.1.1 hx))] at h4
        cases h4
    · exact .inr (.inr ⟨(hm2 _ _).mpr (hidem E0 m _ hm ((hm1 _ _).mp h1)), h3⟩)
  · intro f hff
    obtain ⟨f1, f2⟩ := hf f hff
    refine ⟨fun dir name hsp => ?_, f2⟩
    rcases f1 dir name hsp with h | h | h
    · exact .inl h
    · exact .inr (.inl h)
    · exact .inr (.inr ((hm2 _ _).mpr h))

/-! ### A concrete case -/

def againCall : Invocation := { program := lit "detox", args := [lit "-r", lit "my_dir"] }

/-- After `treeTrace`. -/
def againTrace : List Event :=
  nothingInstalled ++ [
  .lstat (lit "my_dir") (some ⟨1, 2, 2, .dir⟩), .lstat (lit "my_dir") (some ⟨1, 2, 2, .dir⟩), .opendir (lit "my_dir") (.ok 0),
  .readdir 0 (some (lit ".")), .readdir 0 (some (lit "a_b")), .lstat (lit "my_dir/a_b") (some ⟨1, 3, 1, .reg⟩),
  .readdir 0 (some (lit "sub_x")), .lstat (lit "my_dir/sub_x") (some ⟨1, 4, 2, .dir⟩),
  .lstat (lit "my_dir/sub_x") (some ⟨1, 4, 2, .dir⟩), .opendir (lit "my_dir/sub_x") (.ok 1),
  .readdir 1 (some (lit "c_d")), .lstat (lit "my_dir/sub_x/c_d") (some ⟨1, 5, 1, .reg⟩), .readdir 1 none, .closedir 1,
  .readdir 0 (some (lit ".hid den")), .readdir 0 none, .closedir 0]

/- What C94 asks of a second run. -/
example : Trace (detoxMain .linux againCall 10) againTrace (.ret ()) := Prog.result_sound _ _ _ (by decide +kernel)

example : CommandLine againCall.posixlyCorrect againCall.args [.recurse] [lit "my_dir"] :=
  .cluster [0x72] [.recurse] _ _ [] (by simp) (.cons _ _ _ _ .recurse .nil) (.operand _ _ _ _ rfl (.inl (by decide +kernel)) .none)

example : ∃ w, World.Steps (World.start treeFS) treeTrace w ∧
    ((World.start w.fs).exec againTrace).isSome = true ∧ w.opened = [(⟨1, 4⟩, lit "my_dir/sub_x"), (⟨1, 2⟩, lit "my_dir")] ∧
    w.fs.lookup (lit "my_dir") = some ⟨1, 2⟩ ∧ (∀ e ∈ w.fs.entries, e.name ≠ lit "{arch}") := by
  obtain ⟨w, h1, h2⟩ := World_exec_out (w := World.start treeFS) (tr := treeTrace)
    (f := fun w => decide (((World.start w.fs).exec againTrace).isSome = true ∧ w.opened = [(⟨1, 4⟩, lit "my_dir/sub_x"), (⟨1, 2⟩, lit "my_dir")] ∧
      w.fs.lookup (lit "my_dir") = some ⟨1, 2⟩ ∧ (∀ e ∈ w.fs.entries, e.name ≠ lit "{arch}"))) (x := true) (by decide +kernel)
  exact ⟨w, h1, of_decide_eq_true h2⟩

example : runBuiltin .linux ⟨fun _ => none, none⟩ none (lit "my_dir") = .ok (some (lit "my_dir")) := by
  rw [runBuiltin_none]
  decide +kernel

end Detox
