import Verif.Lemmas.Taken
import Verif.Props.Quiet

/-!
# C112: where new names collide
-/

set_option autoImplicit false

namespace Detox
open Spec

/-- **C112.** The tree after any run that returns, complaints or not, where names written differently are different and the system does what it can. Each
entry to be renamed has its new name, or it has the name it had and in the tree as it is now it cannot have the new one. All others have the names they
had. -/
theorem C112_tree_after_any_run {P : Platform} {o : Options} {args ws : List Bytes} {fs : FS} {depth : Ino → Nat} {slack level : Nat} {tr : List Event}
    {w : World} {a : Option Filelist} (hc : CompleteRun P o args fs depth slack level tr w) (h : Run P o args ws tr (.ret a))
    (hid : ∀ m v, NulFree m → Makes P o m v → Makes P o v v) (hex : ∀ f ∈ args, fs.lookup f ≠ none) (hcase : fs.CaseMatters)
    (honce : fs.NamedOnce (Makes P o) o args) (hhelp : (World.start fs).HelpsIn tr) : fs.CleanedAsFar (Makes P o) o args ws w.fs := by
  obtain ⟨seen, hscan⟩ := C72_runs_are_scans h
  have hR : OnePass (Makes P o) := ⟨fun a b c h1 h2 => Option.some.inj (Res.ok.inj (h1.symm.trans h2)), hid⟩
  have S : ScanSetting (Makes P o) o tr fs.denied := ⟨hc.wet, hc.slash, fun _ h => sequence_nil h, hc.allowed⟩
  obtain ⟨k, _, _⟩ := args_goal_if (stuck_judge (depth := depth) (slack := slack) hR S (norm := fs.norm) hcase) S hscan (fun _ h => h) (W := World.start fs) rfl hc.tree
    hc.steady hc.nul hc.steps ⟨hhelp, rfl⟩
  obtain ⟨g, hnow, _, hargs⟩ := args_stuck (g := fun e => e) hR S hcase hc.tree honce hscan (fun _ h => h) (W := World.start fs) rfl hc.tree hc.steady
    (fun _ _ _ => rfl) hc.nul hex hc.steps hhelp [] rfl ⟨by rw [List.map_id']; rfl, fun e _ => .inl rfl⟩
  have here : ∀ e ∈ fs.entries, g e ∈ w.fs.entries := fun e he => by rw [hnow.same]; exact List.mem_map_of_mem he
  have entered : ∀ {d}, Entered w d → ∃ p, (d, p) ∈ w.opened := by
    rintro d ⟨p, h1 | h1⟩
    · exact ⟨p, h1⟩
    · rcases k.unread _ h1 with h2 | h2
      · cases h2
      · exact h2.elim
  have settled : ∀ {d p}, (d, p) ∈ w.opened → ∀ e ∈ w.fs.entries, e.dir = d → SettledIf (fun W e => Stuck (Makes P o) W.fs e) (Makes P o) o ws w e := by
    intro d p hd e he hed
    rcases k.fresh (d, p) hd with h1 | h1
    · cases h1
    · exact h1 e he hed
  have opened : ∀ d, fs.Scans o args (fun n => Hidden n ∨ n ∈ ws) d → ∃ p, (d, p) ∈ w.opened := by
    intro d hd
    induction hd with
    | arg f d hf hlk hk => exact entered ((hargs f hf).2 d hlk hk)
    | sub e he _ hrec hk hsk ih =>
      obtain ⟨p, hp⟩ := ih
      obtain ⟨h1, h2⟩ := hnow.place he
      have hkw : w.fs.kind (g e).ino = .dir := by rw [h2, hnow.kind]; exact hk
      have handled : HandledIf (fun W e => Stuck (Makes P o) W.fs e) (Makes P o) o w (g e) → ∃ p, (e.ino, p) ∈ w.opened := by
        intro hh
        have := hh.2 hrec hkw
        rw [h2] at this
        exact entered this
      rcases settled hp (g e) (here e he) h1 with hl | hh
      · rcases k.kept (g e) (here e he) with hh | ⟨hin, _⟩
        · exact handled hh
        · have hge : g e = e := hc.tree.once _ hin _ he (by rw [h2]; exact hk) h2
          rw [hge] at hl hkw
          rcases hl with hl | hl | hl
          · exact absurd (.inl hl) hsk
          · exact absurd (.inr hl) hsk
          · exact absurd hkw hl.1
      · exact handled hh
  refine ⟨fun e => (g e).name, ?_, fun e he => ⟨?_, ?_, ?_⟩⟩
  · rw [hnow.same]
    congr 1
    refine List.map_congr_left fun e he => ?_
    obtain ⟨h1, h2⟩ := hnow.place he
    cases hg : g e with
    | mk a b c =>
      rw [hg] at h1 h2
      simp only at h1 h2
      simp only [hg, h1, h2]
  · rintro ⟨hk, hwhy⟩
    rcases hnow.each e he with hge | hge
    rotate_left
    · exact .inl hge.2.2.2.1
    have hname : (g e).name = e.name := by rw [hge]
    rcases hwhy with ⟨f, hf, hat⟩ | ⟨hsc, hsk⟩
    · exact ((hargs f hf).1 e hat hk).imp id fun h => ⟨hname, h.barred⟩
    · obtain ⟨p, hp⟩ := opened _ hsc
      have := settled hp (g e) (here e he) (hnow.place he).1
      show Makes P o e.name (g e).name ∨ (g e).name = e.name ∧ _
      rw [hge] at this ⊢
      rcases this with (hl | hl | hl) | ⟨⟨m, _, _, hm, hl⟩ | hl, _⟩
      · exact absurd (.inl hl) hsk
      · exact absurd (.inr hl) hsk
      · rw [hnow.kind] at hl
        rcases hk with hk | hk | hk
        · exact absurd hk hl.1
        · exact absurd hk hl.2.1
        · rw [hl.2.2] at hk; cases hk
      · exact .inl (hid m _ hm hl)
      · exact .inr ⟨rfl, hl.barred⟩
  · intro hno
    rcases hnow.each e he with hge | hge
    · show (g e).name = e.name
      rw [hge]
    · exact absurd hge.2.2.2.2 hno
  · rcases hnow.each e he with hge | hge
    · exact .inl (show (g e).name = e.name by rw [hge])
    · exact .inr hge.2.2.2.1

/-- **C112.** So a new name that an entry can be given is in use afterwards, whoever has got it: where several entries of a directory are to get the same name, one
of them has it, or an entry that had it all the time. -/
theorem C112_new_name_is_in_use {R : Bytes → Bytes → Prop} (hR : ∀ a b c, R a b → R a c → b = c) {fs fs' : FS} {o : Options} {args ws : List Bytes}
    (h : fs.CleanedAsFar R o args ws fs') {e : Entry} (he : e ∈ fs.entries) (ht : fs.Treats o args (fun n => Hidden n ∨ n ∈ ws) e) {v : Bytes}
    (hv : R e.name v) (hf : FreshName v) : ∃ y ∈ fs'.entries, y.dir = e.dir ∧ y.name = v := by
  obtain ⟨new, rfl, h⟩ := h
  rcases (h e he).1 ht with h1 | ⟨_, u, h2, _, h3⟩
  · exact ⟨_, List.mem_map_of_mem he, rfl, hR _ _ _ h1 hv⟩
  · rw [hR _ _ _ h2 hv] at h3
    rcases h3 with h3 | h3
    · exact absurd hf h3
    · exact h3

/-- **C112.** Where there is no collision this is the tree of C98: no entry is left with its old name if the new names can be given, differ, and are not those
of entries that keep their names. -/
theorem C112_without_collisions {R : Bytes → Bytes → Prop} {fs fs' : FS} {o : Options} {args ws : List Bytes}
    (h : fs.CleanedAsFar R o args ws fs') (hroom : fs.Room R o args) : fs.Cleaned R o args ws fs' := by
  obtain ⟨new, rfl, h⟩ := h
  refine ⟨new, rfl, fun e he => ⟨fun ht => ?_, (h e he).2.1, (h e he).2.2⟩⟩
  have ht' : fs.Treats o args Hidden e := treats_congr id id (fun _ h => h) (fun _ _ h => .inl h) he ht
  rcases (h e he).1 ht with h1 | ⟨h1, v, h2, h3, h4⟩
  · exact h1
  exfalso
  rcases h4 with h4 | ⟨y, hy, hd, hn⟩
  · exact h4 (hroom.proper e he ht' v h2)
  obtain ⟨e', he', rfl⟩ := List.mem_map.1 hy
  have hn : new e' = v := hn
  have hd : e'.dir = e.dir := hd
  have same : e' = e := by
    by_cases hk : new e' = e'.name
    · exact (hroom.free e he ht' v h2 h3 e' he' hd (by rw [← hk, hn])).1
    · have ht2 : fs.Treats o args Hidden e' := Classical.byContradiction fun hno => hk ((h e' he').2.1 hno)
      have hr2 := (h e' he').2.2.resolve_left hk
      exact hroom.apart e he ht' e' he' ht2 hd v _ h2 hr2 (by rw [hn])
  rw [same, h1] at hn
  exact h3 hn.symm

/-- **C112.** The whole program with nothing configured and one of the sequences `default`, `utf_8`, `lower` and `lower-only`. -/
theorem C112_tree_after_main {P : Platform} (hP : P.Benign) {I : Invocation} {fuel : Nat} {ss : List Setting} {ws : List Bytes}
    (hc : CommandLine I.posixlyCorrect I.args ss ws) {tr : List Event} (h : Trace (detoxMain P I fuel) tr (.ret ()))
    (hu : Unconfigured I ss tr)
    (hn : requested I ss = none ∨ ∃ n ∈ [lit "default", lit "utf_8", lit "lower", lit "lower-only"], requested I ss = some n)
    (hd : Setting.dryRun ∉ ss) (hi : Setting.inline ∉ ss) (hb : ¬ CalledInline I.program)
    {fs : FS} {depth : Ino → Nat} {slack level : Nat} {w : World} (hnul : ∀ f ∈ ws, NulFree f) (ht : fs.Tree depth slack)
    (hst : ∀ f ∈ ws, fs.Steady depth slack level f) (hw : World.Steps (World.start fs) tr w)
    (ha : ∀ p r, Event.lstat p r ∈ tr → fs.denied p = false) (hex : ∀ f ∈ ws, fs.lookup f ≠ none) (E : TableEnv) (hcase : fs.CaseMatters)
    (o : Options) (hr : o.recurse = true ↔ Setting.recurse ∈ ss) (hsp : o.special = true ↔ Setting.special ∈ ss)
    (honce : fs.NamedOnce (fun m v => runBuiltin P E (requested I ss) m = .ok (some v)) o ws) (hhelp : (World.start fs).HelpsIn tr) :
    fs.CleanedAsFar (fun m v => runBuiltin P E (requested I ss) m = .ok (some v)) o ws [lit "{arch}"] w.fs := by
  obtain ⟨reads, t, o', a, rfl, hfr, hC, hrun, hm1, hidem, e1, e2, hst'⟩ := main_one_pass hP hc h hu hn hd hi hb hnul ht hst hw ha E
  have er : o.recurse = true ↔ o'.recurse = true := hr.trans e1.symm
  have es : o.special = true ↔ o'.special = true := hsp.trans e2.symm
  have honce' : fs.NamedOnce (Makes P o') o' ws := by
    rw [hm1]
    exact ⟨honce.twice, fun f hf e he hS => honce.scanned f hf e he (scans_congr er.2 (fun _ h => h) (fun _ _ h => h) hS)⟩
  have key := C112_tree_after_any_run hC hrun (by rw [hm1]; exact hidem) hex hcase honce' (helps_right hhelp hst')
  rw [hm1] at key
  obtain ⟨new, k1, k2⟩ := key
  refine ⟨new, k1, fun e he => ⟨fun ht => (k2 e he).1 ?_, fun ht => (k2 e he).2.1 fun ht' => ht ?_, (k2 e he).2.2⟩⟩
  · exact treats_congr er.1 es.1 (fun _ h => h) (fun _ _ h => h) he ht
  · exact treats_congr er.2 es.2 (fun _ h => h) (fun _ _ h => h) he ht'

/-! ### A concrete case -/

/-- In `my dir` there are `a b`, `a  b`, both to become `a_b`, and `c d`, to become `c_d`, which there is too. -/
def crowdFS : FS where
  entries := [⟨⟨1, 1⟩, lit "my dir", ⟨1, 2⟩⟩, ⟨⟨1, 2⟩, lit "a b", ⟨1, 3⟩⟩, ⟨⟨1, 2⟩, lit "a  b", ⟨1, 4⟩⟩, ⟨⟨1, 2⟩, lit "c d", ⟨1, 5⟩⟩, ⟨⟨1, 2⟩, lit "c_d", ⟨1, 6⟩⟩]
  root := ⟨1, 1⟩
  cwd := ⟨1, 1⟩
  kind := fun i => if i = ⟨1, 1⟩ ∨ i = ⟨1, 2⟩ then .dir else .reg
  target := fun _ => []
  dirLinks := fun _ => 2
  parent := fun _ => ⟨1, 1⟩
  norm := fun _ n => n
  denied := fun _ => false

def crowdTrace : List Event :=
  nothingInstalled ++ [
  .lstat (lit "my dir") (some ⟨1, 2, 2, .dir⟩), .lstat (lit "my dir") (some ⟨1, 2, 2, .dir⟩), .lstat (lit "my_dir") none,
  .rename (lit "my dir") (lit "my_dir") true, .lstat (lit "my_dir") (some ⟨1, 2, 2, .dir⟩), .opendir (lit "my_dir") (.ok 0),
  .readdir 0 (some (lit "a  b")),
  .lstat (lit "my_dir/a  b") (some ⟨1, 4, 1, .reg⟩), .lstat (lit "my_dir/a  b") (some ⟨1, 4, 1, .reg⟩), .lstat (lit "my_dir/a_b") none,
  .rename (lit "my_dir/a  b") (lit "my_dir/a_b") true,
  .readdir 0 (some (lit "a b")),
  .lstat (lit "my_dir/a b") (some ⟨1, 3, 1, .reg⟩), .lstat (lit "my_dir/a b") (some ⟨1, 3, 1, .reg⟩), .lstat (lit "my_dir/a_b") (some ⟨1, 4, 1, .reg⟩),
  .err (lit "Cannot rename my_dir/a b to my_dir/a_b: file already exists\n"),
  .readdir 0 (some (lit "c_d")), .lstat (lit "my_dir/c_d") (some ⟨1, 6, 1, .reg⟩),
  .readdir 0 (some (lit "c d")),
  .lstat (lit "my_dir/c d") (some ⟨1, 5, 1, .reg⟩), .lstat (lit "my_dir/c d") (some ⟨1, 5, 1, .reg⟩), .lstat (lit "my_dir/c_d") (some ⟨1, 6, 1, .reg⟩),
  .err (lit "Cannot rename my_dir/c d to my_dir/c_d: file already exists\n"),
  .readdir 0 none, .closedir 0]

theorem crowdTrace_run : Trace (detoxMain .linux treeCall 10) crowdTrace (.ret ()) := Prog.result_sound _ _ _ (by decide +kernel)

theorem crowdFS_tree : crowdFS.Tree treeDepth 1 where
  unique := by unfold FS.Unique; decide +kernel
  level := by decide +kernel
  once := by decide +kernel
  bound := treeFS_tree.bound

theorem crowdFS_steady : ∀ f ∈ [lit "my dir"], crowdFS.Steady treeDepth 1 0 f := by
  intro f hf
  rw [List.mem_singleton.1 hf]
  exact .name [] (lit "my dir") ⟨1, 1⟩ rfl (.inl rfl) (by decide +kernel) (by decide +kernel) (by decide +kernel) (by decide +kernel)
    ⟨by decide +kernel, by decide +kernel, by decide +kernel, Nat.zero_le _⟩

theorem crowdFS_once : crowdFS.NamedOnce TreeMakes { recurse := true } [lit "my dir"] := by
  have hroot : ∀ d, crowdFS.Scans { recurse := true } [lit "my dir"] Hidden d → d ≠ ⟨1, 1⟩ := by
    intro d hd
    cases hd with
    | arg f d hf hlk hk =>
      rw [List.mem_singleton.1 hf] at hlk
      have h : crowdFS.lookup (lit "my dir") = some ⟨1, 2⟩ := by decide +kernel
      have : d = ⟨1, 2⟩ := Option.some.inj (hlk.symm.trans h)
      rw [this]; decide
    | sub e he _ _ _ _ => exact (by decide +kernel : ∀ e ∈ crowdFS.entries, e.ino ≠ ⟨1, 1⟩) e he
  refine ⟨List.pairwise_singleton _ _, ?_⟩
  rintro f hf e ⟨dir, name, _, _, hloc, _⟩ hs
  rw [List.mem_singleton.1 hf] at hloc
  have h : crowdFS.locate (lit "my dir") = some (⟨1, 1⟩, lit "my dir") := by decide +kernel
  exact absurd (congrArg Prod.fst (Option.some.inj (hloc.symm.trans h))) (hroot _ hs)

theorem crowdTrace_helps : (World.start crowdFS).HelpsIn crowdTrace := by
  intro t1 e t2 w1 h _
  have hm : e ∈ crowdTrace := by rw [h]; simp
  constructor
  · rintro old new rfl
    simp [crowdTrace, nothingInstalled] at hm
  · rintro p r rfl hr
    have hm : p = lit "my_dir" ∧ r = .ok 0 := by simpa [crowdTrace, nothingInstalled] using hm
    exact absurd hm.2 (hr 0)

/- All C112 asks for holds, and the tree is as it says: one of the two has got the name. -/
example : ∃ w, World.Steps (World.start crowdFS) crowdTrace w ∧ ¬ Silent crowdTrace ∧
    w.fs.entries.map Entry.name = [lit "my_dir", lit "a b", lit "a_b", lit "c d", lit "c_d"] ∧
    crowdFS.CleanedAsFar TreeMakes { recurse := true } [lit "my dir"] [lit "{arch}"] w.fs := by
  obtain ⟨w, h1, h2⟩ := World_exec_out (w := World.start crowdFS) (tr := crowdTrace) (f := fun w => w.fs.entries.map Entry.name)
    (x := [lit "my_dir", lit "a b", lit "a_b", lit "c d", lit "c_d"]) (by decide +kernel)
  refine ⟨w, h1, fun h => h (lit "Cannot rename my_dir/a b to my_dir/a_b: file already exists\n") (by simp [crowdTrace]), h2, ?_⟩
  refine C112_tree_after_main (I := treeCall) (ss := [.recurse]) (by decide)
    (.cluster [0x72] [.recurse] _ _ [] (by simp) (.cons _ _ _ _ .recurse .nil) (.operand _ _ _ _ rfl (.inl (by decide +kernel)) .none))
    crowdTrace_run ⟨rfl, ?_⟩ (.inl rfl) (by simp) (by simp) (fun h => by rw [← posixBasename_inline] at h; exact absurd h (by decide +kernel))
    (by decide +kernel) crowdFS_tree crowdFS_steady h1 (fun _ _ _ => rfl)
    (by decide +kernel) _ (fun _ _ _ h => h) _ (by simp) (by simp) crowdFS_once crowdTrace_helps
  intro p _ text hm
  simp [crowdTrace, nothingInstalled] at hm

end Detox
