import Verif.Props.TwoPasses
import Verif.Props.InTurn

/-!
# C128: arguments that are already covered by others, and arguments that are gone

`detox -r d d/*` and the like: arguments that are in a directory that is scanned for another argument.
-/

set_option autoImplicit false

namespace Detox
namespace Spec

/-- The argument `f` asks for nothing that the arguments do not ask for: its entry is one of theirs, and so is what it is in if it is a directory. -/
structure FS.Covered (fs : FS) (o : Options) (args : List Bytes) (skip : Bytes → Prop) (f : Bytes) : Prop where
  entry : ∀ e, fs.IsAt f e → (∃ f' ∈ args, fs.IsAt f' e) ∨ (fs.Scans o args skip e.dir ∧ ¬ skip e.name)
  dir : ∀ d, fs.lookup f = some d → fs.kind d = .dir → fs.Scans o args skip d

end Spec
open Spec

section
variable {o : Options} {args args2 : List Bytes} {skip : Bytes → Prop} {fs : FS}

theorem covered_scans (h : ∀ f ∈ args2, f ∈ args ∨ fs.Covered o args skip f) {d : Ino} (hs : fs.Scans o args2 skip d) : fs.Scans o args skip d := by
  induction hs with
  | arg f d hf hl hk =>
    rcases h f hf with h | h
    · exact .arg f d h hl hk
    · exact h.dir d hl hk
  | sub e he _ hr hk hn ih => exact .sub e he ih hr hk hn

theorem covered_treats (h : ∀ f ∈ args2, f ∈ args ∨ fs.Covered o args skip f) {e : Entry} (ht : fs.Treats o args2 skip e) : fs.Treats o args skip e := by
  obtain ⟨hk, ⟨f, hf, hat⟩ | ⟨h1, h2⟩⟩ := ht
  · rcases h f hf with h | h
    · exact ⟨hk, .inl ⟨f, h, hat⟩⟩
    · exact ⟨hk, h.entry e hat⟩
  · exact ⟨hk, .inr ⟨covered_scans h h1, h2⟩⟩

/-- What is to be done is the same. -/
theorem cleaned_covered {R : Bytes → Bytes → Prop} {ig : List Bytes} {fs' : FS} (hsub : ∀ f ∈ args, f ∈ args2)
    (h : ∀ f ∈ args2, f ∈ args ∨ fs.Covered o args Hidden f) (hc : fs.Cleaned R o args2 ig fs') :
    fs.Cleaned R o args ig fs' := by
  obtain ⟨new, h1, hc⟩ := hc
  refine ⟨new, h1, fun e he => ⟨fun ht => ?_, fun ht => ?_, (hc e he).2.2⟩⟩
  · exact (hc e he).1 (treats_congr id id hsub (fun _ _ h => h) he ht)
  · exact (hc e he).2.1 fun ht' => ht (covered_treats h ht')

end

section
variable {P : Platform} {I I2 : Invocation} {ss ss2 : List Setting} {ws ws2 : List Bytes} {files : Bytes → Option Bytes} {plain : Bool} {q : Sequence}
variable {ig : List Bytes} {fs : FS} {depth : Ino → Nat} {slack level level2 : Nat}

/-- **C128.** With `-r`, an argument in a directory that is scanned anyway is covered, unless its name is hidden. -/
theorem C128_below_is_covered {o : Options} {args : List Bytes} (ht : fs.Tree depth slack) (hall : ∀ p, fs.denied p = false) (hex : ∀ d a b, fs.norm d a = fs.norm d b → a = b)
    (hr : o.recurse = true) {dir name : Bytes} {x : Ino} (hd : dir = [] ∨ ∃ d, dir = d ++ [0x2F]) (hn : PlainName name) (hl : fs.Leads depth slack level dir x)
    (hs : fs.Scans o args Hidden x) (hh : ¬ Hidden name) : fs.Covered o args Hidden (dir ++ name) := by
  have hloc := locate_of_leads ht hd hn hl (hall _)
  have key : ∀ e, fs.find x name = some e → e ∈ fs.entries ∧ e.dir = x ∧ e.name = name := fun e he => by
    obtain ⟨h1, h2, h3⟩ := FS_find_some he
    exact ⟨h1, h2, hex _ _ _ h3⟩
  refine ⟨?_, fun d hd' hk => ?_⟩
  · rintro e ⟨dir', name', _, _, h3, h4⟩
    obtain ⟨p1, p2⟩ := Prod.mk.inj (Option.some.inj (hloc.symm.trans h3))
    rw [← p1, ← p2] at h4
    obtain ⟨_, k2, k3⟩ := key e h4
    rw [k2, k3]
    exact .inr ⟨hs, hh⟩
  · rw [lookup_leads ht hd hn hl (hall _)] at hd'
    obtain ⟨e, he, rfl⟩ := Option.map_eq_some_iff.1 hd'
    obtain ⟨k1, k2, k3⟩ := key e he
    exact .sub e k1 (by rw [k2]; exact hs) hr hk (by rw [k3]; exact hh)

/-- **C128.** Two runs of detox with the same options and the same configuration, one with some arguments, one with more that are covered by these: if both have no
complaints, they leave the file system in the same state. -/
theorem C128_covered_arguments (hP : P.Benign) (hu : ConfiguredCase P I ss ws files plain q ig fs depth slack level)
    (hu2 : ConfiguredCase P I2 ss2 ws2 files plain q ig fs depth slack level2) (hlocale : I2.ctype = I.ctype) (hdata : I2.datadir = I.datadir)
    (hrec2 : Setting.recurse ∈ ss2 ↔ Setting.recurse ∈ ss) (hsp2 : Setting.special ∈ ss2 ↔ Setting.special ∈ ss)
    (o : Options) (hrec : o.recurse = true ↔ Setting.recurse ∈ ss) (hsp : o.special = true ↔ Setting.special ∈ ss)
    (hsub : ∀ f ∈ ws, f ∈ ws2) (hcov : ∀ f ∈ ws2, f ∈ ws ∨ fs.Covered o ws Hidden f) (hno : ∀ e ∈ fs.entries, e.name ∉ ig)
    {tr tr2 : List Event} {w w2 : World} (h : ConfiguredAttempt P I files plain fs tr (.ret ()) w) (hs : Silent tr)
    (h2 : ConfiguredAttempt P I2 files plain fs tr2 (.ret ()) w2) (hs2 : Silent tr2) : w2.fs = w.fs := by
  obtain ⟨fuel, hrun⟩ := hu.run h
  obtain ⟨fuel2, hrun2⟩ := hu2.run h2
  have hlit := literal_exact (fs := fs) hu.exact (FiltersSay P I.ctype I.datadir files q.filters)
  have c1 := hrun.cleaned hP hs ⟨fun _ _ _ _ _ => hlit _, fun _ _ _ => hlit _⟩ o hrec hsp
  have hlit2 := literal_exact (fs := fs) hu.exact (FiltersSay P I2.ctype I2.datadir files q.filters)
  have c2 := hrun2.cleaned hP hs2 ⟨fun _ _ _ _ _ => hlit2 _, fun _ _ _ => hlit2 _⟩ o (hrec.trans hrec2.symm) (hsp.trans hsp2.symm)
  rw [hlocale, hdata] at c2
  exact C98_only_one_result hu.onePass.one hno (cleaned_covered hsub hcov c2) c1

end

/-! ### Arguments that are gone -/

/-- **C128.** An argument that is not there — as `a b` in `detox 'a b' 'a b'` the second time — costs one complaint and nothing else: after the configuration was
read, the run has one `lstat`, which fails, and the message; with `-v` it is announced before. The state of the file system is the same. -/
theorem C128_not_there {P : Platform} {I : Invocation} {ss : List Setting} {f : Bytes} (hr : Renames I ss [f]) {fuel : Nat} {tr : List Event}
    (h : Trace (detoxMain P I fuel) tr (.ret ())) {fs fs' : FS} (hs : FS.Steps fs tr fs') (hf : fs.lookup f = none) :
    ∃ reads c q, Prepared I ss reads c q ∧
      tr = reads ++ ((if Setting.verbose ∈ ss then [.out (lit "Scanning: " ++ f ++ lit "\n")] else []) ++ [.lstat f none, .err (f ++ lit ": ")]) ∧ fs' = fs := by
  obtain ⟨reads, t, c, q, ig, seen, rfl, hp, _, hargs⟩ := main_scans hr h
  refine ⟨reads, c, q, hp, ?_⟩
  have hs := steps_harmless (prepared_harmless hp) hs
  have hsplit : ∀ x : List Event, (if (workOptions ss q).verbose = 0 then [] else x) = if Setting.verbose ∈ ss then x else [] := by
    intro x
    have : ss.count Setting.verbose = 0 ↔ Setting.verbose ∉ ss := List.count_eq_zero
    show (if ss.count Setting.verbose = 0 then [] else x) = _
    by_cases hv : Setting.verbose ∈ ss
    · rw [if_pos hv, if_neg fun h => this.1 h hv]
    · rw [if_neg hv, if_pos (this.2 hv)]
  cases hargs with
  | cons _ _ _ _ _ t1 t2 h1 h2 =>
    cases h2
    rw [hsplit, List.append_nil] at hs ⊢
    have hs' : FS.Steps fs t1 fs' := by
      refine steps_harmless (reads := if Setting.verbose ∈ ss then [.out (lit "Scanning: " ++ f ++ lit "\n")] else []) (fun e he => ?_) hs
      split at he
      · rw [List.mem_singleton.1 he]; constructor
      · cases he
    have gone : ∀ {st : Stat} {t : List Event}, ¬ FS.Steps fs (.lstat f (some st) :: t) fs' := by
      rintro st t (_ | ⟨_, _, _, _, _, h1, _⟩)
      cases h1 with
      | lstat _ _ h =>
        obtain ⟨i, hi, _⟩ := FS_lstat_some h
        rw [hf] at hi
        cases hi
    cases h1 with
    | missing =>
      refine ⟨rfl, ?_⟩
      cases hs' with
      | cons _ _ _ _ _ k1 k2 =>
        cases k1
        cases k2 with
        | cons _ _ _ _ _ k1 k2 =>
          cases k1
          cases k2
          rfl
    | leave => exact absurd hs' gone
    | file => exact absurd hs' gone
    | dir => exact absurd hs' gone

/-! ### Concrete cases: `detox -r A__B .` and `detox -r .`; `detox 'a b'` where there is no `a b` -/

def cwdFS (a c e : Bytes) : FS := { treeFS with
  entries := [⟨⟨1, 1⟩, a, ⟨1, 3⟩⟩, ⟨⟨1, 1⟩, c, ⟨1, 2⟩⟩, ⟨⟨1, 2⟩, e, ⟨1, 5⟩⟩] }

abbrev cwdStart : FS := cwdFS (lit "A__B") (lit "C__D") (lit "E__F")

theorem cwd_leads : cwdStart.Leads treeDepth 1 0 [] ⟨1, 1⟩ := ⟨by decide +kernel, by decide +kernel, by decide +kernel, Nat.zero_le _⟩

theorem cwd_case {ws : List Bytes} (hw : ws ≠ []) (h : ∀ f ∈ ws, f = lit "A__B" ∨ f = lit ".") : ConfiguredCase .linux (partsCall (lit "b") ws) (partsSettings (lit "b")) ws partsFiles false
    (partsSequence (lit "b") (lowerOnly ++ wipeupOnly)) [] cwdStart treeDepth 1 0 where
  asked := parts_asked _ hw fun f hf => by rcases h f hf with rfl | rfl <;> exact .inl (by decide +kernel)
  wet := by simp [partsSettings]
  written := parts_written ⟨(inEffect (definitions (lit "rc") partsRules)).take 2, (inEffect (definitions (lit "rc") partsRules)).drop 3, by decide +kernel, rfl, by decide +kernel⟩
    (by simp [lowerOnly, wipeupOnly])
  ignored := parts_ignored _ _
  settles := (parts_settles (.inr rfl) (.inr rfl)).1
  fits := fun m v hm hv => ⟨(parts_settles (.inr rfl) (.inr rfl)).2 m v hm hv, nofun⟩
  tree := ⟨by unfold FS.Unique; decide +kernel, by decide +kernel, by decide +kernel, treeFS_tree.bound⟩
  steady := by
    intro f hf
    rcases h f hf with rfl | rfl
    · exact .name [] (lit "A__B") ⟨1, 1⟩ rfl (.inl rfl) (by decide +kernel) (by decide +kernel) (by decide +kernel) (by decide +kernel) cwd_leads
    · exact .self [] (lit ".") ⟨1, 1⟩ rfl (.inl rfl) (.inr (.inl rfl)) (by decide +kernel) ⟨by decide +kernel, by decide +kernel, by decide +kernel, Nat.zero_le _⟩
  allowed := fun _ => rfl
  exact := fun _ _ _ h => h
  here := by
    intro f hf
    rcases h f hf with rfl | rfl <;> decide +kernel
  args := fun f hf => by rcases h f hf with rfl | rfl <;> exact ⟨by decide +kernel, nofun⟩
  names := by
    have h0 : ∀ e ∈ cwdStart.entries, EntryName e.name ∧ ∃ x ∈ partsNames (lowerOnly ++ wipeupOnly), x.1 = e.name := by decide +kernel
    have h1 : ∀ x ∈ partsNames (lowerOnly ++ wipeupOnly), EntryName x.2 := by decide +kernel
    rintro e he v (rfl | hv)
    · exact ⟨(h0 e he).1, (h0 e he).1.nul, nofun⟩
    · obtain ⟨x, hx, h2⟩ := (h0 e he).2
      rw [← h2] at hv
      rw [(parts_says (.inr rfl) (.inr rfl) (by simp [lowerOnly]) x hx v).1 hv]
      exact ⟨h1 x hx, (h1 x hx).nul, nofun⟩

/-- The calls from `.` on. -/
def cwdRest (calls : List Event) : List Event :=
  [.lstat (lit ".") (some ⟨1, 1, 2, .dir⟩), .lstat (lit ".") (some ⟨1, 1, 2, .dir⟩), .opendir (lit ".") (.ok 0)] ++ calls ++ [
  .readdir 0 (some (lit "C__D")), .lstat (lit "./C__D") (some ⟨1, 2, 2, .dir⟩), .lstat (lit "./C__D") (some ⟨1, 2, 2, .dir⟩), .lstat (lit "./c_d") none,
  .rename (lit "./C__D") (lit "./c_d") true, .lstat (lit "./c_d") (some ⟨1, 2, 2, .dir⟩), .opendir (lit "./c_d") (.ok 1),
  .readdir 1 (some (lit "E__F")), .lstat (lit "./c_d/E__F") (some ⟨1, 5, 1, .reg⟩), .lstat (lit "./c_d/E__F") (some ⟨1, 5, 1, .reg⟩), .lstat (lit "./c_d/e_f") none,
  .rename (lit "./c_d/E__F") (lit "./c_d/e_f") true, .readdir 1 none, .closedir 1, .readdir 0 none, .closedir 0]

def cwdTrace : List Event := .slurp (some (lit "rc")) (some partsConfig) :: cwdRest [
  .readdir 0 (some (lit "A__B")), .lstat (lit "./A__B") (some ⟨1, 3, 1, .reg⟩), .lstat (lit "./A__B") (some ⟨1, 3, 1, .reg⟩), .lstat (lit "./a_b") none,
  .rename (lit "./A__B") (lit "./a_b") true]

def cwdTraceMore : List Event := .slurp (some (lit "rc")) (some partsConfig) ::
  .lstat (lit "A__B") (some ⟨1, 3, 1, .reg⟩) :: .lstat (lit "A__B") (some ⟨1, 3, 1, .reg⟩) :: .lstat (lit "a_b") none :: .rename (lit "A__B") (lit "a_b") true ::
  cwdRest [.readdir 0 (some (lit "a_b")), .lstat (lit "./a_b") (some ⟨1, 3, 1, .reg⟩)]

theorem cwdTrace_run : Trace (detoxMain .linux (partsCall (lit "b") [lit "."]) 10) cwdTrace (.ret ()) := Prog.result_sound _ _ _ (by decide +kernel)

theorem cwdTraceMore_run : Trace (detoxMain .linux (partsCall (lit "b") [lit "A__B", lit "."]) 10) cwdTraceMore (.ret ()) := Prog.result_sound _ _ _ (by decide +kernel)

theorem cwd_attempt {ws : List Bytes} {tr : List Event} (h : Trace (detoxMain .linux (partsCall (lit "b") ws) 10) tr (.ret ()))
    (hs : ((World.start cwdStart).exec tr).map (fun w => w.fs) = some (cwdFS (lit "a_b") (lit "c_d") (lit "e_f")))
    (hr : ∀ p r, Event.slurp p r ∈ tr → p = some (lit "rc") ∧ r = some partsConfig)
    (hn : ∀ d n, Event.readdir d (some n) ∈ tr → n ∈ [lit "A__B", lit "a_b", lit "C__D", lit "E__F"]) :
    ∃ w, ConfiguredAttempt .linux (partsCall (lit "b") ws) partsFiles false cwdStart tr (.ret ()) w ∧ w.fs = cwdFS (lit "a_b") (lit "c_d") (lit "e_f") := by
  obtain ⟨w, h1, h2⟩ := World_exec_out hs
  refine ⟨w, ⟨⟨10, h⟩, ?_, h1, fun d m hm => ⟨?_, nofun⟩⟩, h2⟩
  · rintro ev he p r rfl
    obtain ⟨hp, hq⟩ := hr _ _ he
    rw [Option.some.inj hp, hq]
    exact (if_pos rfl).symm
  · have : ∀ n ∈ [lit "A__B", lit "a_b", lit "C__D", lit "E__F"], NulFree n := by unfold NulFree; decide +kernel
    exact this m (hn d m hm)

example : ∃ w w2, ConfiguredAttempt .linux (partsCall (lit "b") [lit "."]) partsFiles false cwdStart cwdTrace (.ret ()) w ∧
    ConfiguredAttempt .linux (partsCall (lit "b") [lit "A__B", lit "."]) partsFiles false cwdStart cwdTraceMore (.ret ()) w2 ∧
    w.fs = cwdFS (lit "a_b") (lit "c_d") (lit "e_f") ∧ w2.fs = w.fs := by
  obtain ⟨w, h1, e1⟩ := cwd_attempt cwdTrace_run rfl (by intro p r hm; simpa [cwdTrace, cwdRest] using hm)
    (by intro d n hm; simp [cwdTrace, cwdRest] at hm; rcases hm with ⟨_, rfl⟩ | ⟨_, rfl⟩ | ⟨_, rfl⟩ <;> simp)
  obtain ⟨w2, h2, _⟩ := cwd_attempt cwdTraceMore_run rfl (by intro p r hm; simpa [cwdTraceMore, cwdRest] using hm)
    (by intro d n hm; simp [cwdTraceMore, cwdRest] at hm; rcases hm with ⟨_, rfl⟩ | ⟨_, rfl⟩ | ⟨_, rfl⟩ <;> simp)
  have u1 := cwd_case (ws := [lit "."]) (by simp) (by simp)
  have u2 := cwd_case (ws := [lit "A__B", lit "."]) (by simp) (by simp)
  refine ⟨w, w2, h1, h2, e1, ?_⟩
  refine C128_covered_arguments (by decide) u1 u2 rfl rfl Iff.rfl Iff.rfl { recurse := true } (by simp [partsSettings]) (by simp [partsSettings]) (by simp) ?_ (by simp)
    h1 (by simp [Silent, cwdTrace, cwdRest]) h2 (by simp [Silent, cwdTraceMore, cwdRest])
  intro f hf
  simp only [List.mem_cons, List.not_mem_nil, or_false] at hf
  rcases hf with rfl | rfl
  · exact .inr (C128_below_is_covered (level := 0) u1.tree u1.allowed u1.exact rfl (dir := []) (name := lit "A__B") (.inl rfl) ⟨by decide +kernel, by decide +kernel, by decide +kernel, by decide +kernel⟩ cwd_leads
      (.arg (lit ".") ⟨1, 1⟩ (by simp) (by decide +kernel) (by decide +kernel)) (by decide +kernel))
  · exact .inl (by simp)

example : ∃ tr, Trace (detoxMain .linux (turnCall [lit "a b"]) 10) tr (.ret ()) ∧ FS.Steps (turnFS (lit "c_d") (lit "a_b")) tr (turnFS (lit "c_d") (lit "a_b")) ∧
    (turnFS (lit "c_d") (lit "a_b")).lookup (lit "a b") = none :=
  ⟨nothingInstalled ++ [.lstat (lit "a b") none, .err (lit "a b: ")], Prog.result_sound _ _ _ (by decide +kernel), FS_exec_sound _ rfl, by decide +kernel⟩

end Detox
