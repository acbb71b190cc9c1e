import Verif.Props.Stopped

/-!
# C127: two runs, each with half of the filters

A sequence can be applied in parts: a run of detox with the first filters, and another one with the rest, do to a tree what one run with all of them does —
as long as the first run makes no name that the second does not look at.
-/

set_option autoImplicit false

namespace Detox
open Spec

section
variable {A B : Bytes → Bytes → Prop} {o : Options} {depth : Ino → Nat} {slack level : Nat} {args ig : List Bytes} {fs fs1 fs2 : FS} {g : Entry → Entry}

/-- The work that `A` does, and that `B` does on what `A` has left, are the work of both. -/
theorem Midway.then (hm : Midway A o args fs depth slack level g fs1) (hr : Resumable A args fs depth slack level) (hc : fs.Cleaned A o args ig fs1)
    (hseen : ∀ e ∈ fs.entries, ∀ v, A e.name v → Hidden v → Hidden e.name) (hno : ∀ e ∈ fs.entries, e.name ∉ ig ∧ ∀ v, A e.name v → v ∉ ig)
    (h : fs1.Cleaned B o args ig fs2) : fs.Cleaned (fun m v => ∃ u, A m u ∧ B u v) o args ig fs2 := by
  obtain ⟨new1, hfs1, hc⟩ := hc
  obtain ⟨new2, rfl, h⟩ := h
  have hg : ∀ e ∈ fs.entries, g e = { e with name := new1 e } := by
    have : fs.entries.map g = fs.entries.map fun e => { e with name := new1 e } := by
      have h1 := congrArg FS.entries (hm.now.same.symm.trans hfs1)
      exact h1
    exact List.map_inj_left.1 this
  have mem : ∀ e ∈ fs.entries, g e ∈ fs1.entries := fun e he => by rw [hm.now.same]; exact List.mem_map_of_mem he
  have hname : ∀ e ∈ fs.entries, (g e).name = new1 e := fun e he => by rw [hg e he]
  have hgno : ∀ e ∈ fs.entries, (g e).name ∉ ig := by
    intro e he
    rcases (hc e he).2.2 with h1 | h1
    · rw [hname e he, h1]; exact (hno e he).1
    · rw [hname e he]; exact (hno e he).2 _ h1
  have hview : fs.StaysInView A fun n => Hidden n ∨ n ∈ ig := by
    rintro e he _ v hv (hs | hs)
    · exact .inl (hseen e he v hv hs)
    · exact absurd hs ((hno e he).2 v hv)
  -- entries that are to be treated
  have yes : ∀ e ∈ fs.entries, fs.Treats o args (fun n => Hidden n ∨ n ∈ ig) e → ∃ u, A e.name u ∧ B u (new2 (g e)) := by
    intro e he ht
    have hA := (hc e he).1 ht
    rw [← hname e he] at hA
    refine ⟨_, hA, (h (g e) (mem e he)).1 ?_⟩
    obtain ⟨hk, ht⟩ := ht
    obtain ⟨p1, p2⟩ := hm.now.place he
    refine ⟨by rw [p2, hm.now.kind]; exact hk, ?_⟩
    rcases ht with ⟨f, hf, hat⟩ | ⟨h2, h3⟩
    · rw [hm.fixed hr he (hr.clean f hf e hat)]
      exact .inl ⟨f, hf, ((hm.arg hr hf).2 e).2 hat⟩
    · refine .inr ⟨by rw [p1]; exact hm.scans hr hview h2, ?_⟩
      rintro (hs | hs)
      · exact h3 (.inl (hseen e he _ hA hs))
      · exact hgno e he hs
  -- those that are not
  have no : ∀ e ∈ fs.entries, ¬ fs.Treats o args Hidden e → new2 (g e) = e.name := by
    intro e he ht
    rw [(h (g e) (mem e he)).2.1 fun ht' => ht (hm.treats_back hr he ht'), hname e he]
    exact (hc e he).2.1 ht
  refine ⟨fun e => new2 (g e), ?_, fun e he => ⟨yes e he, no e he, ?_⟩⟩
  · rw [hm.now.same]
    simp only [List.map_map]
    congr 1
    refine List.map_congr_left fun e he => ?_
    obtain ⟨h1, h2⟩ := hm.now.place he
    simp only [Function.comp_apply, h1, h2]
  · by_cases ht : fs.Treats o args Hidden e
    · refine .inr (yes e he (treats_congr id id (fun _ h => h) ?_ he ht))
      rintro e he (hs | hs)
      · exact hs
      · exact absurd hs (hno e he).1
    · exact .inl (no e he ht)

end

/-- All filters, or the first and then the rest. -/
theorem filtersSay_both {P : Platform} {locale : Bytes} {datadir : Option Bytes} {files : Bytes → Option Bytes} {fs gs : List Filter} {m v : Bytes} :
    FiltersSay P locale datadir files (fs ++ gs) m v ↔ ∃ u, FiltersSay P locale datadir files fs m u ∧ FiltersSay P locale datadir files gs u v :=
  ⟨FiltersSay.split, fun ⟨_, h1, h2⟩ => filtersSay_append h1 h2⟩

theorem cleaned_iff {R R' : Bytes → Bytes → Prop} (hR : ∀ m v, R m v ↔ R' m v) {fs fs' : FS} {o : Options} {args ig : List Bytes}
    (h : fs.Cleaned R o args ig fs') : fs.Cleaned R' o args ig fs' := by
  obtain ⟨new, h1, h2⟩ := h
  exact ⟨new, h1, fun e he => ⟨fun ht => (hR _ _).1 ((h2 e he).1 ht), (h2 e he).2.1, (h2 e he).2.2.imp id (hR _ _).1⟩⟩

/-- Three ways to call detox for the same arguments, with the same `-r` and `--special`, in the same locale: the sequence of the third has the filters of the
first, and then those of the second. -/
structure InParts (I1 I2 I3 : Invocation) (ss1 ss2 ss3 : List Setting) (q1 q2 q3 : Sequence) : Prop where
  filters : q3.filters = q1.filters ++ q2.filters
  locale2 : I2.ctype = I1.ctype
  locale3 : I3.ctype = I1.ctype
  datadir2 : I2.datadir = I1.datadir
  datadir3 : I3.datadir = I1.datadir
  recurse2 : Setting.recurse ∈ ss2 ↔ Setting.recurse ∈ ss1
  recurse3 : Setting.recurse ∈ ss3 ↔ Setting.recurse ∈ ss1
  special2 : Setting.special ∈ ss2 ↔ Setting.special ∈ ss1
  special3 : Setting.special ∈ ss3 ↔ Setting.special ∈ ss1

section
variable {P : Platform} {I1 I2 I3 : Invocation} {ss1 ss2 ss3 : List Setting} {ws : List Bytes} {files : Bytes → Option Bytes} {plain : Bool} {q1 q2 q3 : Sequence}
variable {ig : List Bytes} {fs : FS} {depth : Ino → Nat} {slack level : Nat}

/-- After the first run, the second can be made. -/
theorem inParts_case (hp : InParts I1 I2 I3 ss1 ss2 ss3 q1 q2 q3)
    (hu1 : ConfiguredCase P I1 ss1 ws files plain q1 ig fs depth slack level) (hu2 : ConfiguredCase P I2 ss2 ws files plain q2 ig fs depth slack level)
    (hu3 : ConfiguredCase P I3 ss3 ws files plain q3 ig fs depth slack level) (hc : fs.ArgsClean (FiltersSay P I1.ctype I1.datadir files q1.filters) ws)
    {o : Options} {g : Entry → Entry} {fs1 : FS} (hm : Midway (FiltersSay P I1.ctype I1.datadir files q1.filters) o ws fs depth slack level g fs1) :
    ConfiguredCase P I2 ss2 ws files plain q2 ig fs1 depth slack level := by
  have hr1 := hm.resumable (hu1.resumable hc) fun e he v hv => (hu1.names e he v (.inr hv)).1.nul
  refine ⟨hu2.asked, hu2.wet, hu2.written, hu2.ignored, hu2.settles, hu2.fits, hr1.tree, hr1.steady, hr1.allowed, hr1.exact, hr1.here, hu2.args, ?_⟩
  intro e1 he1 v hv
  obtain ⟨e, he, rfl⟩ := hm.now.mem he1
  rcases hm.now.each e he with h | h
  · rw [h] at hv
    exact hu2.names e he v hv
  · rcases hv with rfl | hv
    · exact hu1.names e he _ (.inr h.2.2.2.1)
    · refine hu3.names e he v (.inr ?_)
      rw [hp.filters, hp.locale3, hp.datadir3]
      rw [hp.locale2, hp.datadir2] at hv
      exact filtersSay_append h.2.2.2.1 hv

/-- **C127.** Two runs one after the other, the first with some filters, the second with others, both without complaints: each entry that is to be treated has
the name all the filters make of the one it had at first. The arguments must be left alone by the first filters, and these must not make names that are hidden
or to be ignored. -/
theorem C127_two_passes (hP : P.Benign) (hp : InParts I1 I2 I3 ss1 ss2 ss3 q1 q2 q3)
    (hu1 : ConfiguredCase P I1 ss1 ws files plain q1 ig fs depth slack level) (hu2 : ConfiguredCase P I2 ss2 ws files plain q2 ig fs depth slack level)
    (hu3 : ConfiguredCase P I3 ss3 ws files plain q3 ig fs depth slack level) (hc : fs.ArgsClean (FiltersSay P I1.ctype I1.datadir files q1.filters) ws)
    (hseen : ∀ e ∈ fs.entries, ∀ v, FiltersSay P I1.ctype I1.datadir files q1.filters e.name v → Hidden v → Hidden e.name)
    (hno : ∀ e ∈ fs.entries, e.name ∉ ig ∧ ∀ v, FiltersSay P I1.ctype I1.datadir files q1.filters e.name v → v ∉ ig) (o : Options)
    (hrec : o.recurse = true ↔ Setting.recurse ∈ ss1) (hsp : o.special = true ↔ Setting.special ∈ ss1) {tr1 tr2 : List Event} {w1 w2 : World}
    (h1 : ConfiguredAttempt P I1 files plain fs tr1 (.ret ()) w1) (hs1 : Silent tr1)
    (h2 : ConfiguredAttempt P I2 files plain w1.fs tr2 (.ret ()) w2) (hs2 : Silent tr2) :
    fs.Cleaned (FiltersSay P I3.ctype I3.datadir files q3.filters) o ws ig w2.fs := by
  obtain ⟨g, hm⟩ := configured_midway hP hu1 o hrec hsp h1
  have hu2' := inParts_case hp hu1 hu2 hu3 hc hm
  obtain ⟨fuel1, hrun1⟩ := hu1.run h1
  obtain ⟨fuel2, hrun2⟩ := hu2'.run h2
  have lit1 := literal_exact (fs := fs) hu1.exact (FiltersSay P I1.ctype I1.datadir files q1.filters)
  have lit2 := literal_exact (fs := w1.fs) hu2'.exact (FiltersSay P I2.ctype I2.datadir files q2.filters)
  have c1 := hrun1.cleaned hP hs1 ⟨fun _ _ _ _ _ => lit1 _, fun _ _ _ => lit1 _⟩ o hrec hsp
  have c2 := hrun2.cleaned hP hs2 ⟨fun _ _ _ _ _ => lit2 _, fun _ _ _ => lit2 _⟩ o (hrec.trans hp.recurse2.symm) (hsp.trans hp.special2.symm)
  refine cleaned_iff (fun m v => ?_) (hm.then (hu1.resumable hc) c1 hseen hno c2)
  rw [hp.filters, hp.locale3, hp.datadir3, hp.locale2, hp.datadir2]
  exact filtersSay_both.symm

/-- **C127.** They leave the file system in the state in which one run leaves it that has all the filters. -/
theorem C127_two_passes_or_one (hP : P.Benign) (hp : InParts I1 I2 I3 ss1 ss2 ss3 q1 q2 q3)
    (hu1 : ConfiguredCase P I1 ss1 ws files plain q1 ig fs depth slack level) (hu2 : ConfiguredCase P I2 ss2 ws files plain q2 ig fs depth slack level)
    (hu3 : ConfiguredCase P I3 ss3 ws files plain q3 ig fs depth slack level) (hc : fs.ArgsClean (FiltersSay P I1.ctype I1.datadir files q1.filters) ws)
    (hseen : ∀ e ∈ fs.entries, ∀ v, FiltersSay P I1.ctype I1.datadir files q1.filters e.name v → Hidden v → Hidden e.name)
    (hno : ∀ e ∈ fs.entries, e.name ∉ ig ∧ ∀ v, FiltersSay P I1.ctype I1.datadir files q1.filters e.name v → v ∉ ig)
    {tr1 tr2 tr3 : List Event} {w1 w2 w3 : World} (h1 : ConfiguredAttempt P I1 files plain fs tr1 (.ret ()) w1) (hs1 : Silent tr1)
    (h2 : ConfiguredAttempt P I2 files plain w1.fs tr2 (.ret ()) w2) (hs2 : Silent tr2)
    (h3 : ConfiguredAttempt P I3 files plain fs tr3 (.ret ()) w3) (hs3 : Silent tr3) : w2.fs = w3.fs := by
  let o : Options := { recurse := decide (Setting.recurse ∈ ss1), special := decide (Setting.special ∈ ss1) }
  have hrec : o.recurse = true ↔ Setting.recurse ∈ ss1 := decide_eq_true_iff
  have hsp : o.special = true ↔ Setting.special ∈ ss1 := decide_eq_true_iff
  obtain ⟨fuel3, hrun3⟩ := hu3.run h3
  have lit3 := literal_exact (fs := fs) hu3.exact (FiltersSay P I3.ctype I3.datadir files q3.filters)
  exact C98_only_one_result hu3.onePass.one (fun e he => (hno e he).1)
    (C127_two_passes hP hp hu1 hu2 hu3 hc hseen hno o hrec hsp h1 hs1 h2 hs2)
    (hrun3.cleaned hP hs3 ⟨fun _ _ _ _ _ => lit3 _, fun _ _ _ => lit3 _⟩ o (hrec.trans hp.recurse3.symm) (hsp.trans hp.special3.symm))

end

/-! ### A concrete case: sequences `l` and `w`, and `b`, which is both -/

def partsConfig : Bytes := lit "sequence l { lower; };\nsequence w { wipeup; };\nsequence b { lower; wipeup; };\nsequence x { wipeup; lower; };\n"

def partsPieces : List (Bytes × Tok × Bytes) :=
  [([], .kw .sequence, lit "sequence"), (lit " ", .ident (lit "l"), lit "l"), (lit " ", .opn, lit "{"),
   (lit " ", .kw .lower, lit "lower"), ([], .eol, lit ";"), (lit " ", .cls, lit "}"), ([], .eol, lit ";"),
   (lit "\n", .kw .sequence, lit "sequence"), (lit " ", .ident (lit "w"), lit "w"), (lit " ", .opn, lit "{"),
   (lit " ", .kw .wipeup, lit "wipeup"), ([], .eol, lit ";"), (lit " ", .cls, lit "}"), ([], .eol, lit ";"),
   (lit "\n", .kw .sequence, lit "sequence"), (lit " ", .ident (lit "b"), lit "b"), (lit " ", .opn, lit "{"),
   (lit " ", .kw .lower, lit "lower"), ([], .eol, lit ";"), (lit " ", .kw .wipeup, lit "wipeup"), ([], .eol, lit ";"), (lit " ", .cls, lit "}"), ([], .eol, lit ";"),
   (lit "\n", .kw .sequence, lit "sequence"), (lit " ", .ident (lit "x"), lit "x"), (lit " ", .opn, lit "{"),
   (lit " ", .kw .wipeup, lit "wipeup"), ([], .eol, lit ";"), (lit " ", .kw .lower, lit "lower"), ([], .eol, lit ";"), (lit " ", .cls, lit "}"), ([], .eol, lit ";")]

def lowerOnly : List Filter := [{ cleaner := .lower }]
def wipeupOnly : List Filter := [{ cleaner := .wipeup }]

def partsRules : List Rule :=
  [.sequence (lit "l") lowerOnly, .sequence (lit "w") wipeupOnly, .sequence (lit "b") (lowerOnly ++ wipeupOnly), .sequence (lit "x") (wipeupOnly ++ lowerOnly)]

theorem parts_config : Means partsConfig partsRules := by
  refine ⟨partsPieces.map fun p => p.2.1, ?_, ?_⟩
  · have h := spells_pieces (ps := partsPieces) (tail := lit "\n") (by decide +kernel)
    rw [show partsConfig = piecesText partsPieces (lit "\n") by decide +kernel]
    exact h
  · exact .more _ _ _ _ (.more _ _ _ _ (.more _ _ _ _ (.more [] _ [] _ .nil
      (.sequence (.ident (lit "l")) _ _ _ (.ident _) (.one _ _ .lower)))
      (.sequence (.ident (lit "w")) _ _ _ (.ident _) (.one _ _ .wipeup)))
      (.sequence (.ident (lit "b")) _ _ _ (.ident _) (.more _ _ _ _ (.one _ _ .lower) .wipeup)))
      (.sequence (.ident (lit "x")) _ _ _ (.ident _) (.more _ _ _ _ (.one _ _ .wipeup) .lower))

attribute [irreducible] partsConfig

def partsFiles (p : Bytes) : Option Bytes := if p = lit "rc" then some partsConfig else none

/-- `detox -f rc -r -s n d` -/
def partsCall (n : Bytes) (ws : List Bytes := [lit "d"]) : Invocation := { program := lit "detox", args := [lit "-f", lit "rc", lit "-r", lit "-s", n] ++ ws }

def partsSettings (n : Bytes) : List Setting := [.config (lit "rc"), .recurse, .sequence n]

def partsSequence (n : Bytes) (fs : List Filter) : Sequence := { name := n, filters := fs, sourceFilename := some (lit "rc") }

theorem parts_asked (n : Bytes) {ws : List Bytes} (hw : ws ≠ []) (hop : ∀ f ∈ ws, IsOperand f) : Renames (partsCall n ws) (partsSettings n) ws := by
  have line : CommandLine false ws [] ws := by
    clear hw
    induction ws with
    | nil => exact .none
    | cons f ws ih => exact .operand _ _ _ _ rfl (hop f (by simp)) (ih fun f hf => hop f (by simp [hf]))
  refine ⟨.separate [] [] 0x66 (lit "rc") (.config (lit "rc")) _ _ _ .nil (.config _)
    (.cluster [0x72] [.recurse] _ _ _ (by simp) (.cons _ _ _ _ .recurse .nil)
      (.separate [] [] 0x73 n (.sequence n) _ _ _ .nil (.sequence _) line)), ?_, ?_, not_or.2 ⟨not_inline, ?_⟩, hw⟩
  · intro s hs
    simp only [partsSettings, List.mem_cons, List.not_mem_nil, or_false] at hs
    rcases hs with rfl | rfl | rfl <;> simp [Setting.Leaves]
  · simp [partsSettings]
  · simp [partsSettings]

theorem parts_in_effect (n : Bytes) (ws : List Bytes) : [(lit "rc", partsConfig)] = configsInEffect (partsCall n ws).config (lastConfig (partsSettings n)) partsFiles := by
  show _ = present partsFiles [lit "rc"]
  unfold present
  rw [List.filterMap_cons, show partsFiles (lit "rc") = some partsConfig from if_pos rfl]
  rfl

theorem parts_ignored (n : Bytes) (ws : List Bytes) : IgnoredAre (partsCall n ws).config (lastConfig (partsSettings n)) partsFiles [] :=
  IgnoredAre.written (E := (partsCall n ws).config) (given := lastConfig (partsSettings n)) (files := partsFiles) [(lit "rc", partsConfig, partsRules)] (by simp)
    (parts_in_effect n ws) (one_means _ parts_config)

theorem parts_written {n : Bytes} {ws : List Bytes} {fs : List Filter} (h : FirstNamed n (inEffect (definitions (lit "rc") partsRules)) (partsSequence n fs))
    (hfit : ∀ f ∈ fs, f.cleaner = .lower ∨ f.cleaner = .wipeup) : Written (partsCall n ws) (partsSettings n) partsFiles false (partsSequence n fs) := by
  refine ⟨⟨_, .written [(lit "rc", partsConfig, partsRules)] (by simp) (parts_in_effect n ws) (one_means _ parts_config), ?_⟩, ?_⟩
  · exact h
  · have one : ∀ f ∈ fs, FilterFits (partsCall n ws).ctype (partsCall n ws).datadir partsFiles false f := by
      intro f hf m hu
      rcases hfit f hf with h | h <;> rw [h] at hu <;> cases hu
    show FiltersFit _ _ _ _ fs
    cases fs with
    | nil => trivial
    | cons f fs => exact ⟨one f (by simp), fun g hg => one g (by simp [hg])⟩

abbrev PartsSay (fs : List Filter) : Bytes → Bytes → Prop := FiltersSay .linux (lit "C") none partsFiles fs

theorem lowerOnly_says {s v : Bytes} : PartsSay lowerOnly s v ↔ v = s.map small := by
  constructor
  · exact fun h => filterSays_unique (filtersSay_one.1 h) (.lower rfl)
  · rintro rfl
    exact filtersSay_one.2 (.lower rfl)

theorem parts_settles {gs : List Filter} (hg : gs = [] ∨ gs = wipeupOnly) {fs : List Filter} (hf : fs = [] ∨ fs = lowerOnly) :
    Settles (PartsSay (fs ++ gs)) ∧ ∀ m v, NulFree m → PartsSay (fs ++ gs) m v → NulFree v := by
  have low : ∀ c : Byte, c ≠ 0 → small c ≠ 0 ∧ small (small c) = small c ∧ (c ≠ 0x2F → small c ≠ 0x2F) := forall_byte (by decide +kernel)
  refine C117_settles_by_characters ?_ (hg.imp id fun h => ⟨_, rfl, h⟩) ?_ ?_
  · rcases hf with rfl | rfl <;> simp [lowerOnly]
  · intro c v hc h x hx
    rcases hf with rfl | rfl
    · cases h
      rw [List.mem_singleton.1 hx]
      exact ⟨hc, .nil _⟩
    · rw [lowerOnly_says.1 h] at hx
      simp only [List.map_cons, List.map_nil, List.mem_singleton] at hx
      subst hx
      exact ⟨(low c hc).1, lowerOnly_says.2 (by simp [(low c hc).2.1])⟩
  · intro c v hc hs h hx
    rcases hf with rfl | rfl
    · cases h
      exact hs (List.mem_singleton.1 hx).symm
    · rw [lowerOnly_says.1 h] at hx
      simp only [List.map_cons, List.map_nil, List.mem_singleton] at hx
      exact (low c hc).2.2 hs hx.symm

def partsFS (a c e : Bytes) : FS := { treeFS with
  entries := [⟨⟨1, 1⟩, lit "d", ⟨1, 2⟩⟩, ⟨⟨1, 2⟩, a, ⟨1, 3⟩⟩, ⟨⟨1, 2⟩, c, ⟨1, 4⟩⟩, ⟨⟨1, 4⟩, e, ⟨1, 5⟩⟩] }

abbrev partsStart : FS := partsFS (lit "A__B") (lit "C__D") (lit "E__F")

/-- The names of a run that makes `a2`, `c2` and `e2` of `a`, `c` and `e`. -/
def partsTrace (a a2 c c2 e e2 : Bytes) : List Event := [
  .slurp (some (lit "rc")) (some partsConfig),
  .lstat (lit "d") (some ⟨1, 2, 2, .dir⟩), .lstat (lit "d") (some ⟨1, 2, 2, .dir⟩), .opendir (lit "d") (.ok 0),
  .readdir 0 (some a), .lstat (lit "d/" ++ a) (some ⟨1, 3, 1, .reg⟩), .lstat (lit "d/" ++ a) (some ⟨1, 3, 1, .reg⟩), .lstat (lit "d/" ++ a2) none,
  .rename (lit "d/" ++ a) (lit "d/" ++ a2) true,
  .readdir 0 (some c), .lstat (lit "d/" ++ c) (some ⟨1, 4, 2, .dir⟩), .lstat (lit "d/" ++ c) (some ⟨1, 4, 2, .dir⟩), .lstat (lit "d/" ++ c2) none,
  .rename (lit "d/" ++ c) (lit "d/" ++ c2) true, .lstat (lit "d/" ++ c2) (some ⟨1, 4, 2, .dir⟩), .opendir (lit "d/" ++ c2) (.ok 1),
  .readdir 1 (some e), .lstat (lit "d/" ++ c2 ++ lit "/" ++ e) (some ⟨1, 5, 1, .reg⟩), .lstat (lit "d/" ++ c2 ++ lit "/" ++ e) (some ⟨1, 5, 1, .reg⟩),
  .lstat (lit "d/" ++ c2 ++ lit "/" ++ e2) none, .rename (lit "d/" ++ c2 ++ lit "/" ++ e) (lit "d/" ++ c2 ++ lit "/" ++ e2) true, .readdir 1 none, .closedir 1,
  .readdir 0 none, .closedir 0]

theorem partsTrace_l : Trace (detoxMain .linux (partsCall (lit "l")) 10)
    (partsTrace (lit "A__B") (lit "a__b") (lit "C__D") (lit "c__d") (lit "E__F") (lit "e__f")) (.ret ()) := Prog.result_sound _ _ _ (by decide +kernel)

theorem partsTrace_w : Trace (detoxMain .linux (partsCall (lit "w")) 10)
    (partsTrace (lit "a__b") (lit "a_b") (lit "c__d") (lit "c_d") (lit "e__f") (lit "e_f")) (.ret ()) := Prog.result_sound _ _ _ (by decide +kernel)

theorem partsTrace_b : Trace (detoxMain .linux (partsCall (lit "b")) 10)
    (partsTrace (lit "A__B") (lit "a_b") (lit "C__D") (lit "c_d") (lit "E__F") (lit "e_f")) (.ret ()) := Prog.result_sound _ _ _ (by decide +kernel)

/-- What the sequences make of the names. -/
def partsNames (fs : List Filter) : List (Bytes × Bytes) :=
  if fs = lowerOnly then [(lit "d", lit "d"), (lit "A__B", lit "a__b"), (lit "C__D", lit "c__d"), (lit "E__F", lit "e__f")]
  else if fs = wipeupOnly then [(lit "d", lit "d"), (lit "A__B", lit "A_B"), (lit "C__D", lit "C_D"), (lit "E__F", lit "E_F")]
  else [(lit "d", lit "d"), (lit "A__B", lit "a_b"), (lit "C__D", lit "c_d"), (lit "E__F", lit "e_f")]

theorem parts_says {ls gs : List Filter} (hl : ls = [] ∨ ls = lowerOnly) (hg : gs = [] ∨ gs = wipeupOnly) (hne : ls ++ gs ≠ []) :
    ∀ x ∈ partsNames (ls ++ gs), ∀ v, PartsSay (ls ++ gs) x.1 v ↔ v = x.2 := by
  have wipes : ∀ {s x : Bytes}, cleanWipeup false s = .ok x → NulFree s → PartsSay wipeupOnly s x := by
    intro s x h1 h2
    obtain ⟨out, h3, h5, _⟩ := C04_wipeup_is_the_documented_reduction false _ h2
    rw [← Res.ok.inj (h3.symm.trans h1)]
    exact filtersSay_one.2 (.wipeup _ rfl h5)
  intro x hx v
  suffices h : PartsSay (ls ++ gs) x.1 x.2 from ⟨fun hv => filtersSay_unique hv h, fun hv => hv ▸ h⟩
  rcases hl with rfl | rfl <;> rcases hg with rfl | rfl
  · exact absurd rfl hne
  · have h : ∀ x ∈ partsNames wipeupOnly, cleanWipeup false x.1 = .ok x.2 ∧ NulFree x.1 := by unfold NulFree; decide +kernel
    exact wipes (h x hx).1 (h x hx).2
  · have h : ∀ x ∈ partsNames lowerOnly, x.2 = x.1.map small := by decide +kernel
    exact lowerOnly_says.2 (h x hx)
  · have h : ∀ x ∈ partsNames (lowerOnly ++ wipeupOnly), cleanWipeup false (x.1.map small) = .ok x.2 ∧ NulFree (x.1.map small) := by unfold NulFree; decide +kernel
    exact filtersSay_append (lowerOnly_says.2 rfl) (wipes (h x hx).1 (h x hx).2)

theorem parts_new {ls gs : List Filter} (hl : ls = [] ∨ ls = lowerOnly) (hg : gs = [] ∨ gs = wipeupOnly) (hne : ls ++ gs ≠ []) :
    ∀ e ∈ partsStart.entries, ∀ v, PartsSay (ls ++ gs) e.name v → (e.name, v) ∈ partsNames (ls ++ gs) := by
  have h : ∀ e ∈ partsStart.entries, ∃ x ∈ partsNames (ls ++ gs), x.1 = e.name := by
    rcases hl with rfl | rfl <;> rcases hg with rfl | rfl <;> decide +kernel
  intro e he v hv
  obtain ⟨x, hx, h1⟩ := h e he
  rw [← h1] at hv
  rw [← h1, (parts_says hl hg hne x hx v).1 hv]
  exact hx

theorem parts_case {n : Bytes} {ls gs : List Filter} (hl : ls = [] ∨ ls = lowerOnly) (hg : gs = [] ∨ gs = wipeupOnly) (hne : ls ++ gs ≠ [])
    (hn : FirstNamed n (inEffect (definitions (lit "rc") partsRules)) (partsSequence n (ls ++ gs))) :
    ConfiguredCase .linux (partsCall n) (partsSettings n) [lit "d"] partsFiles false (partsSequence n (ls ++ gs)) [] partsStart treeDepth 1 0 where
  asked := parts_asked n (by simp) (by intro f hf; rw [List.mem_singleton.1 hf]; exact .inl (by decide +kernel))
  wet := by simp [partsSettings]
  written := parts_written hn (by
    intro f hf
    rcases List.mem_append.1 hf with hf | hf
    · rcases hl with rfl | rfl
      · cases hf
      · rw [List.mem_singleton.1 hf]; exact .inl rfl
    · rcases hg with rfl | rfl
      · cases hf
      · rw [List.mem_singleton.1 hf]; exact .inr rfl)
  ignored := parts_ignored n _
  settles := (parts_settles hg hl).1
  fits := fun m v hm hv => ⟨(parts_settles hg hl).2 m v hm hv, nofun⟩
  tree := ⟨by unfold FS.Unique; decide +kernel, by decide +kernel, by decide +kernel, treeFS_tree.bound⟩
  steady := by
    intro f hf
    rw [List.mem_singleton.1 hf]
    exact .name [] (lit "d") ⟨1, 1⟩ rfl (.inl rfl) (by decide +kernel) (by decide +kernel) (by decide +kernel) (by decide +kernel)
      ⟨by decide +kernel, by decide +kernel, by decide +kernel, Nat.zero_le _⟩
  allowed := fun _ => rfl
  exact := fun _ _ _ h => h
  here := by decide +kernel
  args := fun f hf => ⟨by rw [List.mem_singleton.1 hf]; decide +kernel, nofun⟩
  names := by
    have h0 : ∀ e ∈ partsStart.entries, EntryName e.name := by decide +kernel
    have h1 : ∀ x ∈ partsNames (ls ++ gs), EntryName x.2 := by
      rcases hl with rfl | rfl <;> rcases hg with rfl | rfl <;> decide +kernel
    rintro e he v (rfl | hv)
    · exact ⟨h0 e he, (h0 e he).nul, nofun⟩
    · have := h1 _ (parts_new hl hg hne e he v hv)
      exact ⟨this, this.nul, nofun⟩

theorem parts_l : ConfiguredCase .linux (partsCall (lit "l")) (partsSettings (lit "l")) [lit "d"] partsFiles false (partsSequence (lit "l") lowerOnly) [] partsStart treeDepth 1 0 :=
  parts_case (ls := lowerOnly) (gs := []) (.inr rfl) (.inl rfl) (by simp [lowerOnly])
    ⟨[], (inEffect (definitions (lit "rc") partsRules)).drop 1, by decide +kernel, rfl, by simp⟩

theorem parts_w : ConfiguredCase .linux (partsCall (lit "w")) (partsSettings (lit "w")) [lit "d"] partsFiles false (partsSequence (lit "w") wipeupOnly) [] partsStart treeDepth 1 0 :=
  parts_case (ls := []) (gs := wipeupOnly) (.inl rfl) (.inr rfl) (by simp [wipeupOnly])
    ⟨(inEffect (definitions (lit "rc") partsRules)).take 1, (inEffect (definitions (lit "rc") partsRules)).drop 2, by decide +kernel, rfl, by decide +kernel⟩

theorem parts_b : ConfiguredCase .linux (partsCall (lit "b")) (partsSettings (lit "b")) [lit "d"] partsFiles false (partsSequence (lit "b") (lowerOnly ++ wipeupOnly)) []
    partsStart treeDepth 1 0 :=
  parts_case (ls := lowerOnly) (gs := wipeupOnly) (.inr rfl) (.inr rfl) (by simp [lowerOnly])
    ⟨(inEffect (definitions (lit "rc") partsRules)).take 2, (inEffect (definitions (lit "rc") partsRules)).drop 3, by decide +kernel, rfl, by decide +kernel⟩

theorem parts_attempt {n : Bytes} {fs fs' : FS} {a a2 c c2 e e2 : Bytes} (h : Trace (detoxMain .linux (partsCall n) 10) (partsTrace a a2 c c2 e e2) (.ret ()))
    (hs : ((World.start fs).exec (partsTrace a a2 c c2 e e2)).map (fun w => w.fs) = some fs') (h0 : NulFree a ∧ NulFree c ∧ NulFree e) :
    ∃ w, ConfiguredAttempt .linux (partsCall n) partsFiles false fs (partsTrace a a2 c c2 e e2) (.ret ()) w ∧ w.fs = fs' ∧
      Silent (partsTrace a a2 c c2 e e2) := by
  obtain ⟨w, h1, h2⟩ := World_exec_out hs
  refine ⟨w, ⟨⟨10, h⟩, ?_, h1, fun d m hm => ⟨?_, nofun⟩⟩, h2, by simp [Silent, partsTrace]⟩
  · rintro ev he p r rfl
    simp only [partsTrace, List.mem_cons, Event.slurp.injEq, Option.some.injEq, reduceCtorEq, List.not_mem_nil, or_false] at he
    rw [he.1, he.2]
    exact (if_pos rfl).symm
  · have hm : d = 0 ∧ m = a ∨ d = 0 ∧ m = c ∨ d = 1 ∧ m = e := by simpa [partsTrace] using hm
    rcases hm with ⟨_, rfl⟩ | ⟨_, rfl⟩ | ⟨_, rfl⟩
    · exact h0.1
    · exact h0.2.1
    · exact h0.2.2

theorem parts_hidden : (∀ e ∈ partsStart.entries, ∀ v, PartsSay lowerOnly e.name v → Hidden v → Hidden e.name) ∧
    partsStart.ArgsClean (PartsSay lowerOnly) [lit "d"] := by
  have new := parts_new (ls := lowerOnly) (gs := []) (.inr rfl) (.inl rfl) (by simp [lowerOnly])
  have h : ∀ x ∈ partsNames lowerOnly, ¬ Hidden x.2 := by decide +kernel
  refine ⟨fun e he v hv hh => absurd hh (h _ (new e he v hv)), ?_⟩
  rintro f hf e ⟨dir, name, _, _, hloc, hfi⟩
  rw [List.mem_singleton.1 hf] at hloc
  have h : partsStart.locate (lit "d") = some (⟨1, 1⟩, lit "d") := by decide +kernel
  obtain ⟨h3, h4⟩ := Prod.mk.inj (Option.some.inj (hloc.symm.trans h))
  have h2 : partsStart.find ⟨1, 1⟩ (lit "d") = some ⟨⟨1, 1⟩, lit "d", ⟨1, 2⟩⟩ := by decide +kernel
  rw [h3, h4] at hfi
  rw [Option.some.inj (hfi.symm.trans h2)]
  exact lowerOnly_says.2 (by decide +kernel)

/- `detox -f rc -r -s l d`, and then `detox -f rc -r -s w d`; or `detox -f rc -r -s b d`. -/
example : ∃ tr1 tr2 tr3 w1 w2 w3, ConfiguredAttempt .linux (partsCall (lit "l")) partsFiles false partsStart tr1 (.ret ()) w1 ∧
    ConfiguredAttempt .linux (partsCall (lit "w")) partsFiles false w1.fs tr2 (.ret ()) w2 ∧
    ConfiguredAttempt .linux (partsCall (lit "b")) partsFiles false partsStart tr3 (.ret ()) w3 ∧
    w1.fs = partsFS (lit "a__b") (lit "c__d") (lit "e__f") ∧ w2.fs = partsFS (lit "a_b") (lit "c_d") (lit "e_f") ∧ w2.fs = w3.fs := by
  obtain ⟨w1, h1, e1, s1⟩ := parts_attempt partsTrace_l (fs := partsStart) (fs' := partsFS (lit "a__b") (lit "c__d") (lit "e__f")) rfl
    (by unfold NulFree; decide +kernel)
  obtain ⟨w2, h2, e2, s2⟩ := parts_attempt partsTrace_w (fs := partsFS (lit "a__b") (lit "c__d") (lit "e__f")) (fs' := partsFS (lit "a_b") (lit "c_d") (lit "e_f")) rfl
    (by unfold NulFree; decide +kernel)
  obtain ⟨w3, h3, _, s3⟩ := parts_attempt partsTrace_b (fs := partsStart) (fs' := partsFS (lit "a_b") (lit "c_d") (lit "e_f")) rfl
    (by unfold NulFree; decide +kernel)
  rw [← e1] at h2
  refine ⟨_, _, _, w1, w2, w3, h1, h2, h3, e1, e2, ?_⟩
  have hp : InParts (partsCall (lit "l")) (partsCall (lit "w")) (partsCall (lit "b")) (partsSettings (lit "l")) (partsSettings (lit "w")) (partsSettings (lit "b"))
      (partsSequence (lit "l") lowerOnly) (partsSequence (lit "w") wipeupOnly) (partsSequence (lit "b") (lowerOnly ++ wipeupOnly)) :=
    ⟨rfl, rfl, rfl, rfl, rfl, by simp [partsSettings], by simp [partsSettings], by simp [partsSettings], by simp [partsSettings]⟩
  exact C127_two_passes_or_one (by decide) hp parts_l parts_w parts_b parts_hidden.2 parts_hidden.1 (fun _ _ => ⟨by simp, fun _ _ => by simp⟩) h1 s1 h2 s2 h3 s3

/-! ### Names that the second run does not look at -/

def coverFS (n : Bytes) : FS := { treeFS with entries := [⟨⟨1, 1⟩, lit "d", ⟨1, 2⟩⟩, ⟨⟨1, 2⟩, n, ⟨1, 3⟩⟩] }

def coverTrace (calls : List Event) : List Event :=
  [.slurp (some (lit "rc")) (some partsConfig), .lstat (lit "d") (some ⟨1, 2, 2, .dir⟩), .lstat (lit "d") (some ⟨1, 2, 2, .dir⟩), .opendir (lit "d") (.ok 0)] ++ calls ++
  [.readdir 0 none, .closedir 0]

/-- **C127.** It is not so if the first filters make a hidden name: `wipeup` makes `.AB` of `-.AB`, and a run with `lower` leaves that alone; a run with
`wipeup` and `lower` makes it `.ab`. -/
theorem C127_hidden_from_the_second : ∃ tr1 tr2 tr3 w1 w2 w3,
    Trace (detoxMain .linux (partsCall (lit "w")) 10) tr1 (.ret ()) ∧ World.Steps (World.start (coverFS (lit "-.AB"))) tr1 w1 ∧
    Trace (detoxMain .linux (partsCall (lit "l")) 10) tr2 (.ret ()) ∧ World.Steps (World.start w1.fs) tr2 w2 ∧
    Trace (detoxMain .linux (partsCall (lit "x")) 10) tr3 (.ret ()) ∧ World.Steps (World.start (coverFS (lit "-.AB"))) tr3 w3 ∧
    (∀ e ∈ tr1 ++ tr2 ++ tr3, Faithful partsFiles e) ∧ Silent (tr1 ++ tr2 ++ tr3) ∧ w2.fs = coverFS (lit ".AB") ∧ w3.fs = coverFS (lit ".ab") := by
  obtain ⟨w1, s1, e1⟩ := World_exec_out (w := World.start (coverFS (lit "-.AB"))) (f := fun w => w.fs) (x := coverFS (lit ".AB"))
    (tr := coverTrace [.readdir 0 (some (lit "-.AB")), .lstat (lit "d/-.AB") (some ⟨1, 3, 1, .reg⟩), .lstat (lit "d/-.AB") (some ⟨1, 3, 1, .reg⟩),
      .lstat (lit "d/.AB") none, .rename (lit "d/-.AB") (lit "d/.AB") true]) rfl
  obtain ⟨w2, s2, e2⟩ := World_exec_out (w := World.start (coverFS (lit ".AB"))) (f := fun w => w.fs) (x := coverFS (lit ".AB"))
    (tr := coverTrace [.readdir 0 (some (lit ".AB"))]) rfl
  obtain ⟨w3, s3, e3⟩ := World_exec_out (w := World.start (coverFS (lit "-.AB"))) (f := fun w => w.fs) (x := coverFS (lit ".ab"))
    (tr := coverTrace [.readdir 0 (some (lit "-.AB")), .lstat (lit "d/-.AB") (some ⟨1, 3, 1, .reg⟩), .lstat (lit "d/-.AB") (some ⟨1, 3, 1, .reg⟩),
      .lstat (lit "d/.ab") none, .rename (lit "d/-.AB") (lit "d/.ab") true]) rfl
  rw [← e1] at s2
  refine ⟨_, _, _, w1, w2, w3, Prog.result_sound _ _ _ (by decide +kernel), s1, Prog.result_sound _ _ _ (by decide +kernel), s2, Prog.result_sound _ _ _ (by decide +kernel), s3,
    ?_, by simp [Silent, coverTrace], e2, e3⟩
  rintro ev he p r rfl
  simp only [coverTrace, List.mem_append, List.mem_cons, Event.slurp.injEq, Option.some.injEq, reduceCtorEq, List.not_mem_nil, or_false, or_self] at he
  rw [he.1, he.2]
  exact (if_pos rfl).symm

end Detox
