import Verif.Props.SameMeaning

/-!
# C131: from wherever detox is called

`detox -r d`, `detox -r ./d`, `detox -r /home/d`, and `cd d; detox -r .` do the same to what is in `d`; it does not matter which way leads to a directory.
-/

set_option autoImplicit false

namespace Detox
namespace Spec

/-- The same file system, with another working directory. -/
def FS.seenFrom (fs : FS) (d : Ino) : FS := { fs with cwd := d }

/-- Whatever the arguments `args` ask for in the one working directory, the arguments `args2` ask for in the other: the same directories are to be scanned, and an
entry that is an argument is one there as well, unless its name is clean. -/
structure FS.Asks (fs fs2 : FS) (R : Bytes → Bytes → Prop) (args args2 : List Bytes) : Prop where
  dirs : ∀ f ∈ args, ∀ d, fs.lookup f = some d → fs.kind d = .dir → ∃ g ∈ args2, fs2.lookup g = some d
  entries : ∀ f ∈ args, ∀ e ∈ fs.entries, fs.IsAt f e → R e.name e.name ∨ ∃ g ∈ args2, fs2.IsAt g e

end Spec
open Spec

section
variable {R : Bytes → Bytes → Prop} {o : Options} {args args2 : List Bytes} {skip : Bytes → Prop} {fs fs2 : FS}

theorem Spec.FS.Asks.scans (h : fs.Asks fs2 R args args2) (hk : fs2.kind = fs.kind) (he : fs2.entries = fs.entries) {d : Ino} (hs : fs.Scans o args skip d) :
    fs2.Scans o args2 skip d := by
  induction hs with
  | arg f d hf hl hd =>
    obtain ⟨g, hg, hl2⟩ := h.dirs f hf d hl hd
    exact .arg g d hg hl2 (by rw [hk]; exact hd)
  | sub e hm _ hr hd hn ih => exact .sub e (by rw [he]; exact hm) ih hr (by rw [hk]; exact hd) hn

theorem Spec.FS.Asks.treats (h : fs.Asks fs2 R args args2) (hk : fs2.kind = fs.kind) (he : fs2.entries = fs.entries) {e : Entry} (hm : e ∈ fs.entries)
    (ht : fs.Treats o args skip e) : R e.name e.name ∨ fs2.Treats o args2 skip e := by
  obtain ⟨h1, ⟨f, hf, hat⟩ | ⟨h2, h3⟩⟩ := ht
  · rcases h.entries f hf e hm hat with h | h
    · exact .inl h
    · exact .inr ⟨by rw [hk]; exact h1, .inl h⟩
  · exact .inr ⟨by rw [hk]; exact h1, .inr ⟨h.scans hk he h2, h3⟩⟩

end

section
variable {P : Platform} {I1 I2 : Invocation} {ss1 ss2 : List Setting} {ws1 ws2 : List Bytes} {files1 files2 : Bytes → Option Bytes} {plain1 plain2 : Bool}
variable {q1 q2 : Sequence} {ig1 ig2 : List Bytes} {fs : FS} {depth1 depth2 : Ino → Nat} {slack1 slack2 level1 level2 : Nat} {d : Ino}

/-- **C131.** Two runs over the same tree, from different working directories, with arguments that ask for the same: if both have no complaints, every entry has
the same name afterwards. -/
theorem C131_from_wherever (hP : P.Benign) (hu1 : ConfiguredCase P I1 ss1 ws1 files1 plain1 q1 ig1 fs depth1 slack1 level1)
    (hu2 : ConfiguredCase P I2 ss2 ws2 files2 plain2 q2 ig2 (fs.seenFrom d) depth2 slack2 level2)
    (alike : ∀ e ∈ fs.entries, ∀ v, FiltersSay P I2.ctype I2.datadir files2 q2.filters e.name v → FiltersSay P I1.ctype I1.datadir files1 q1.filters e.name v)
    (hrec : Setting.recurse ∈ ss2 ↔ Setting.recurse ∈ ss1) (hsp : Setting.special ∈ ss2 ↔ Setting.special ∈ ss1)
    (hask1 : fs.Asks (fs.seenFrom d) (FiltersSay P I1.ctype I1.datadir files1 q1.filters) ws1 ws2)
    (hask2 : (fs.seenFrom d).Asks fs (FiltersSay P I1.ctype I1.datadir files1 q1.filters) ws2 ws1)
    (hno : ∀ e ∈ fs.entries, e.name ∉ ig1 ∧ e.name ∉ ig2) {tr1 tr2 : List Event} {w1 w2 : World}
    (h1 : ConfiguredAttempt P I1 files1 plain1 fs tr1 (.ret ()) w1) (hs1 : Silent tr1)
    (h2 : ConfiguredAttempt P I2 files2 plain2 (fs.seenFrom d) tr2 (.ret ()) w2) (hs2 : Silent tr2) : w2.fs = w1.fs.seenFrom d := by
  let o : Options := { recurse := decide (Setting.recurse ∈ ss1), special := decide (Setting.special ∈ ss1) }
  have hr : o.recurse = true ↔ Setting.recurse ∈ ss1 := decide_eq_true_iff
  have hs : o.special = true ↔ Setting.special ∈ ss1 := decide_eq_true_iff
  obtain ⟨fuel1, hrun1⟩ := hu1.run h1
  obtain ⟨fuel2, hrun2⟩ := hu2.run h2
  have lit1 := literal_exact (fs := fs) hu1.exact (FiltersSay P I1.ctype I1.datadir files1 q1.filters)
  have lit2 := literal_exact (fs := fs.seenFrom d) hu2.exact (FiltersSay P I2.ctype I2.datadir files2 q2.filters)
  obtain ⟨new1, e1, c1⟩ := hrun1.cleaned hP hs1 ⟨fun _ _ _ _ _ => lit1 _, fun _ _ _ => lit1 _⟩ o hr hs
  obtain ⟨new2, e2, c2⟩ := hrun2.cleaned hP hs2 ⟨fun _ _ _ _ _ => lit2 _, fun _ _ _ => lit2 _⟩ o (hr.trans hrec.symm) (hs.trans hsp.symm)
  have one := hu1.onePass.one
  have key : ∀ e ∈ fs.entries, new2 e = new1 e := by
    intro e he
    have hidden : ∀ {fs' : FS} {ws ig : List Bytes}, fs'.entries = fs.entries → (∀ e ∈ fs.entries, e.name ∉ ig) → fs'.Treats o ws Hidden e →
        fs'.Treats o ws (fun n => Hidden n ∨ n ∈ ig) e := by
      intro fs' ws ig heq hig ht
      refine treats_congr id id (fun _ h => h) ?_ (heq ▸ he) ht
      rintro x hx (h | h)
      · exact h
      · exact absurd h (hig x (heq ▸ hx))
    have stays : FiltersSay P I1.ctype I1.datadir files1 q1.filters e.name e.name → new1 e = e.name ∧ new2 e = e.name := by
      intro h
      refine ⟨(c1 e he).2.2.elim id fun h' => one _ _ _ h' h, (c2 e he).2.2.elim id fun h' => one _ _ _ (alike e he _ h') h⟩
    by_cases t1 : fs.Treats o ws1 Hidden e
    · rcases hask1.treats (fs2 := fs.seenFrom d) rfl rfl he t1 with h | t2
      · rw [(stays h).1, (stays h).2]
      · exact one _ _ _ (alike e he _ ((c2 e he).1 (hidden rfl (fun e he => (hno e he).2) t2))) ((c1 e he).1 (hidden rfl (fun e he => (hno e he).1) t1))
    · rw [(c1 e he).2.1 t1]
      by_cases t2 : (fs.seenFrom d).Treats o ws2 Hidden e
      · rcases hask2.treats (fs2 := fs) rfl rfl he t2 with h | t
        · exact (stays h).2
        · exact absurd t t1
      · exact (c2 e he).2.1 t2
  rw [e1, e2]
  unfold FS.seenFrom
  simp only
  congr 1
  exact List.map_congr_left fun e he => by rw [key e he]

end

/-! ### A concrete case: `detox -f rc -r -s b d`, and `cd d; detox -f rc -r -s b .` -/

theorem inside_case : ConfiguredCase .linux (partsCall (lit "b") [lit "."]) (partsSettings (lit "b")) [lit "."] partsFiles false
    (partsSequence (lit "b") (lowerOnly ++ wipeupOnly)) [] (partsStart.seenFrom ⟨1, 2⟩) treeDepth 1 0 where
  asked := parts_asked _ (by simp) fun f hf => by rw [List.mem_singleton.1 hf]; exact .inl (by decide +kernel)
  wet := parts_b.wet
  written := parts_written ⟨(inEffect (definitions (lit "rc") partsRules)).take 2, (inEffect (definitions (lit "rc") partsRules)).drop 3, by decide +kernel, rfl, by decide +kernel⟩
    (by simp [lowerOnly, wipeupOnly])
  ignored := parts_ignored _ _
  settles := parts_b.settles
  fits := parts_b.fits
  tree := ⟨by unfold FS.Unique; decide +kernel, by decide +kernel, by decide +kernel, treeFS_tree.bound⟩
  steady := by
    intro f hf
    rw [List.mem_singleton.1 hf]
    exact .self [] (lit ".") ⟨1, 2⟩ rfl (.inl rfl) (.inr (.inl rfl)) (by decide +kernel) ⟨by decide +kernel, by decide +kernel, by decide +kernel, Nat.zero_le _⟩
  allowed := fun _ => rfl
  exact := fun _ _ _ h => h
  here := by decide +kernel
  args := fun f hf => ⟨by rw [List.mem_singleton.1 hf]; decide +kernel, nofun⟩
  names := parts_b.names

def insideTrace : List Event := [
  .slurp (some (lit "rc")) (some partsConfig),
  .lstat (lit ".") (some ⟨1, 2, 2, .dir⟩), .lstat (lit ".") (some ⟨1, 2, 2, .dir⟩), .opendir (lit ".") (.ok 0),
  .readdir 0 (some (lit "A__B")), .lstat (lit "./A__B") (some ⟨1, 3, 1, .reg⟩), .lstat (lit "./A__B") (some ⟨1, 3, 1, .reg⟩), .lstat (lit "./a_b") none,
  .rename (lit "./A__B") (lit "./a_b") true,
  .readdir 0 (some (lit "C__D")), .lstat (lit "./C__D") (some ⟨1, 4, 2, .dir⟩), .lstat (lit "./C__D") (some ⟨1, 4, 2, .dir⟩), .lstat (lit "./c_d") none,
  .rename (lit "./C__D") (lit "./c_d") true, .lstat (lit "./c_d") (some ⟨1, 4, 2, .dir⟩), .opendir (lit "./c_d") (.ok 1),
  .readdir 1 (some (lit "E__F")), .lstat (lit "./c_d/E__F") (some ⟨1, 5, 1, .reg⟩), .lstat (lit "./c_d/E__F") (some ⟨1, 5, 1, .reg⟩),
  .lstat (lit "./c_d/e_f") none, .rename (lit "./c_d/E__F") (lit "./c_d/e_f") true, .readdir 1 none, .closedir 1, .readdir 0 none, .closedir 0]

theorem insideTrace_run : Trace (detoxMain .linux (partsCall (lit "b") [lit "."]) 10) insideTrace (.ret ()) := Prog.result_sound _ _ _ (by decide +kernel)

example : ∃ w1 w2, ConfiguredAttempt .linux (partsCall (lit "b")) partsFiles false partsStart
      (partsTrace (lit "A__B") (lit "a_b") (lit "C__D") (lit "c_d") (lit "E__F") (lit "e_f")) (.ret ()) w1 ∧
    ConfiguredAttempt .linux (partsCall (lit "b") [lit "."]) partsFiles false (partsStart.seenFrom ⟨1, 2⟩) insideTrace (.ret ()) w2 ∧
    w2.fs = w1.fs.seenFrom ⟨1, 2⟩ ∧ w1.fs = partsFS (lit "a_b") (lit "c_d") (lit "e_f") := by
  obtain ⟨w1, h1, e1, s1⟩ := parts_attempt partsTrace_b (fs := partsStart) (fs' := partsFS (lit "a_b") (lit "c_d") (lit "e_f")) rfl
    (by unfold NulFree; decide +kernel)
  obtain ⟨w2, st, _⟩ := World_exec_out (w := World.start (partsStart.seenFrom ⟨1, 2⟩)) (tr := insideTrace) (f := fun w => w.fs)
    (x := (partsFS (lit "a_b") (lit "c_d") (lit "e_f")).seenFrom ⟨1, 2⟩) rfl
  have h2 : ConfiguredAttempt .linux (partsCall (lit "b") [lit "."]) partsFiles false (partsStart.seenFrom ⟨1, 2⟩) insideTrace (.ret ()) w2 := by
    refine ⟨⟨10, insideTrace_run⟩, ?_, st, fun d m hm => ⟨?_, nofun⟩⟩
    · rintro ev he p r rfl
      simp only [insideTrace, List.mem_cons, Event.slurp.injEq, Option.some.injEq, reduceCtorEq, List.not_mem_nil, or_false] at he
      rw [he.1, he.2]
      exact (if_pos rfl).symm
    · have hm : d = 0 ∧ m = lit "A__B" ∨ d = 0 ∧ m = lit "C__D" ∨ d = 1 ∧ m = lit "E__F" := by simpa [insideTrace] using hm
      rcases hm with ⟨_, rfl⟩ | ⟨_, rfl⟩ | ⟨_, rfl⟩ <;> (unfold NulFree; decide +kernel)
  refine ⟨w1, w2, h1, h2, ?_, e1⟩
  refine C131_from_wherever (by decide) parts_b inside_case (fun _ _ _ h => h) Iff.rfl Iff.rfl ⟨?_, ?_⟩ ⟨?_, ?_⟩ (fun _ _ => ⟨by simp, by simp⟩) h1 s1 h2
    (by simp [Silent, insideTrace])
  · intro f hf d hl _
    rw [List.mem_singleton.1 hf] at hl
    rw [show partsStart.lookup (lit "d") = some ⟨1, 2⟩ by decide +kernel] at hl
    cases hl
    exact ⟨lit ".", by simp, by decide +kernel⟩
  · intro f hf e he hat
    obtain ⟨dir, name, _, _, hloc, hfi⟩ := hat
    rw [List.mem_singleton.1 hf] at hloc
    have h : partsStart.locate (lit "d") = some (⟨1, 1⟩, lit "d") := by decide +kernel
    obtain ⟨h3, h4⟩ := Prod.mk.inj (Option.some.inj (hloc.symm.trans h))
    have h2 : partsStart.find ⟨1, 1⟩ (lit "d") = some ⟨⟨1, 1⟩, lit "d", ⟨1, 2⟩⟩ := by decide +kernel
    rw [h3, h4] at hfi
    rw [Option.some.inj (hfi.symm.trans h2)]
    exact .inl ((parts_says (.inr rfl) (.inr rfl) (by simp [lowerOnly]) (lit "d", lit "d") (by decide +kernel) _).2 rfl)
  · intro f hf d hl _
    rw [List.mem_singleton.1 hf] at hl
    rw [show (partsStart.seenFrom ⟨1, 2⟩).lookup (lit ".") = some ⟨1, 2⟩ by decide +kernel] at hl
    cases hl
    exact ⟨lit "d", by simp, by decide +kernel⟩
  · intro f hf e he hat
    obtain ⟨dir, name, _, _, hloc, _⟩ := hat
    rw [List.mem_singleton.1 hf] at hloc
    rw [show (partsStart.seenFrom ⟨1, 2⟩).locate (lit ".") = none by decide +kernel] at hloc
    cases hloc

end Detox
