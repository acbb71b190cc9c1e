import Verif.Props.Configured
import Verif.Props.DryTree
import Verif.Props.Taken
import Verif.Props.Again

/-!
# C118: complaints, collisions, dry runs and second runs, whatever is configured
-/

set_option autoImplicit false

namespace Detox
open Spec

/-- A run of the whole program over files, with any configuration for which one pass is enough: what is asked for, what is written in the files, and what the
file system is like. -/
structure ConfiguredRun (P : Platform) (I : Invocation) (fuel : Nat) (ss : List Setting) (ws : List Bytes) (files : Bytes → Option Bytes) (plain : Bool)
    (q : Sequence) (ig : List Bytes) (tr : List Event) (fs : FS) (depth : Ino → Nat) (slack level : Nat) (w : World) : Prop where
  asked : Renames I ss ws
  wet : Setting.dryRun ∉ ss
  written : Written I ss files plain q
  ignored : IgnoredAre I.config (lastConfig ss) files ig
  run : Trace (detoxMain P I fuel) tr (.ret ())
  reads : ∀ e ∈ tr, Faithful files e
  settles : Settles (FiltersSay P I.ctype I.datadir files q.filters)
  fits : ∀ m v, NulFree m → FiltersSay P I.ctype I.datadir files q.filters m v → NameFits plain v
  nul : ∀ f ∈ ws, NulFree f
  names : ∀ e ∈ fs.entries, NameFits plain e.name
  tree : fs.Tree depth slack
  steady : ∀ f ∈ ws, fs.Steady depth slack level f
  steps : World.Steps (World.start fs) tr w
  allowed : ∀ p r, Event.lstat p r ∈ tr → fs.denied p = false
  exist : ∀ f ∈ ws, fs.lookup f ≠ none

theorem steps_slurps {reads t : List Event} {w w' : World} (h : ∀ e ∈ reads, ∃ p r, e = .slurp p r) (hs : World.Steps w (reads ++ t) w') :
    World.Steps w reads w ∧ World.Steps w t w' := by
  induction reads with
  | nil => exact ⟨.nil _, hs⟩
  | cons e reads ih =>
    obtain ⟨p, r, rfl⟩ := h e (by simp)
    cases hs with
    | cons _ w1 _ _ _ h1 h2 =>
      have : w = w1 := by cases h1; rfl
      subst this
      obtain ⟨h3, h4⟩ := ih (fun e he => h e (by simp [he])) h2
      exact ⟨.cons _ _ _ _ _ h1 h3, h4⟩

theorem isAt_mem {fs : FS} {f : Bytes} {e : Entry} (h : fs.IsAt f e) : e ∈ fs.entries := by
  obtain ⟨_, _, _, _, _, h⟩ := h
  exact List.mem_of_find?_eq_some h

section
variable {P : Platform} {I : Invocation} {fuel : Nat} {ss : List Setting} {ws : List Bytes} {files : Bytes → Option Bytes} {plain : Bool} {q : Sequence}
variable {ig : List Bytes} {tr : List Event} {fs : FS} {depth : Ino → Nat} {slack level : Nat} {w : World}

theorem ConfiguredRun.parts (hP : P.Benign) (h : ConfiguredRun P I fuel ss ws files plain q ig tr fs depth slack level w) :
    ∃ reads t o a, tr = reads ++ t ∧ (∀ e ∈ reads, ∃ p r, e = .slurp p r) ∧ World.Steps (World.start fs) reads (World.start fs) ∧
      Begun P I ss files plain q o ∧ CompleteRun P o ws fs depth slack level t w ∧ Run P o ws ig t (.ret a) ∧
      (∀ m v, NulFree m → Makes P o m v → FiltersSay P I.ctype I.datadir files q.filters m v) ∧
      (∀ m v, NulFree m → Makes P o m v → Makes P o v v) := by
  obtain ⟨reads, t, o, a, rfl, hh, hb, hrun⟩ := configured_parts h.asked h.written h.ignored h.run h.reads
  obtain ⟨h1, h2⟩ := steps_slurps hh h.steps
  have says : ∀ m v, NulFree m → Makes P o m v → FiltersSay P I.ctype I.datadir files q.filters m v := fun m v hm => hb.says hP h.written hm
  have hdry : o.dryRun = false := by
    cases hx : o.dryRun with
    | false => rfl
    | true => exact absurd (hb.asked.2.1.1 hx) h.wet
  refine ⟨reads, t, o, a, rfl, hh, h1, hb, ⟨hdry, fun s cl h0 h1 h2 => h.settles.slash s cl h0 h1 (says s cl h0 h2), h.nul, h.tree, h.steady, h2,
    fun p r hm => h.allowed p r (List.mem_append_right _ hm)⟩, hrun, says, ?_⟩
  intro m v hm hmv
  have h1 := says m v hm hmv
  exact (hb.makes hP h.written (h.fits m v hm h1) v).2 (h.settles.again m v hm h1)

theorem ConfiguredRun.cleaned (hP : P.Benign) (h : ConfiguredRun P I fuel ss ws files plain q ig tr fs depth slack level w) (hs : Silent tr)
    (hlit : fs.LiteralRun (FiltersSay P I.ctype I.datadir files q.filters) ws tr)
    (o : Options) (hr : o.recurse = true ↔ Setting.recurse ∈ ss) (hsp : o.special = true ↔ Setting.special ∈ ss) :
    fs.Cleaned (FiltersSay P I.ctype I.datadir files q.filters) o ws ig w.fs :=
  C117_configured_tree hP h.asked h.wet h.written h.ignored h.run h.reads hs h.settles h.fits h.nul (fun e he => (h.names e he).1) h.tree h.steady h.steps
    h.allowed h.exist hlit o hr hsp

/-- **C118.** If the system does what it can, if there is room for the new names, and if no entry to be renamed is named twice, a run has no complaints,
whatever is configured, and the tree is as it should be. -/
theorem C118_no_complaints (hP : P.Benign) (h : ConfiguredRun P I fuel ss ws files plain q ig tr fs depth slack level w)
    (hlit : fs.LiteralRun (FiltersSay P I.ctype I.datadir files q.filters) ws tr)
    (o : Options) (hr : o.recurse = true ↔ Setting.recurse ∈ ss) (hsp : o.special = true ↔ Setting.special ∈ ss)
    (hob : (World.start fs).ObligesIn tr) (hroom : fs.Room (FiltersSay P I.ctype I.datadir files q.filters) o ws)
    (honce : fs.NamedOnce (FiltersSay P I.ctype I.datadir files q.filters) o ws) :
    Silent tr ∧ fs.Cleaned (FiltersSay P I.ctype I.datadir files q.filters) o ws ig w.fs := by
  have hs : Silent tr := by
    obtain ⟨reads, t, o', a, rfl, hh, hst, hb, hC, hrun, says, hidem⟩ := h.parts hP
    have er : o'.recurse = true ↔ o.recurse = true := hb.asked.2.2.1.trans hr.symm
    have es : o'.special = true ↔ o.special = true := hb.asked.2.2.2.1.trans hsp.symm
    have htr : ∀ e ∈ fs.entries, fs.Treats o' ws Hidden e → fs.Treats o ws Hidden e :=
      fun e he h => treats_congr er.1 es.1 (fun _ h => h) (fun _ _ h => h) he h
    have hn := fun e he => (h.names e he).1
    have hroom' : fs.Room (Makes P o') o' ws :=
      ⟨hroom.names, fun e he hT v hv => hroom.proper e he (htr e he hT) v (says _ _ (hn e he) hv),
        fun e he hT v hv => hroom.free e he (htr e he hT) v (says _ _ (hn e he) hv),
        fun e he hT e' he' hT' hd v v' hv hv' => hroom.apart e he (htr e he hT) e' he' (htr e' he' hT') hd v v' (says _ _ (hn e he) hv) (says _ _ (hn e' he') hv')⟩
    have back : ∀ e ∈ fs.entries, FiltersSay P I.ctype I.datadir files q.filters e.name e.name → Makes P o' e.name e.name :=
      fun e he hx => (hb.makes hP h.written (h.names e he) _).2 hx
    have honce' : fs.NamedOnce (Makes P o') o' ws :=
      ⟨honce.twice.imp fun hx e h1 h2 => back e (isAt_mem h1) (hx e h1 h2),
        fun f hf e he hS => back e (isAt_mem he) (honce.scanned f hf e he (scans_congr er.1 (fun _ h => h) (fun _ _ h => h) hS))⟩
    have lit : ∀ n, fs.Literal (FiltersSay P I.ctype I.datadir files q.filters) n → fs.Literal (Makes P o') n :=
      fun n hl e he m hm => hl e he m (hm.imp id (says _ _ (hn e he)))
    obtain ⟨hq, _⟩ := C99_no_complaints hC hrun (obliges_right hob hst) hroom' honce' hidem h.exist
      ⟨fun f hf dir name hsp => lit _ (hlit.args f hf dir name hsp), fun k n hm => lit _ (hlit.entries k n (List.mem_append_right _ hm))⟩
    intro s hm
    rcases List.mem_append.1 hm with hm | hm
    · obtain ⟨p, r, hf⟩ := hh _ hm
      cases hf
    · exact hq s hm
  exact ⟨hs, h.cleaned hP hs hlit o hr hsp⟩

/-- **C118.** Complaints or not: where names written differently are different and the system does what it can, each entry to be renamed has the name the
configuration says, or it has the name it had and in the tree as it is now it cannot have the new one; all others have the names they had. -/
theorem C118_as_far_as_possible (hP : P.Benign) (h : ConfiguredRun P I fuel ss ws files plain q ig tr fs depth slack level w) (hcase : fs.CaseMatters)
    (o : Options) (hr : o.recurse = true ↔ Setting.recurse ∈ ss) (hsp : o.special = true ↔ Setting.special ∈ ss)
    (honce : fs.NamedOnce (FiltersSay P I.ctype I.datadir files q.filters) o ws) (hhelp : (World.start fs).HelpsIn tr) :
    fs.CleanedAsFar (FiltersSay P I.ctype I.datadir files q.filters) o ws ig w.fs := by
  obtain ⟨reads, t, o', a, rfl, hh, hst, hb, hC, hrun, says, hidem⟩ := h.parts hP
  have er : o.recurse = true ↔ o'.recurse = true := hr.trans hb.asked.2.2.1.symm
  have es : o.special = true ↔ o'.special = true := hsp.trans hb.asked.2.2.2.1.symm
  have hn := fun e he => (h.names e he).1
  have back : ∀ e ∈ fs.entries, FiltersSay P I.ctype I.datadir files q.filters e.name e.name → Makes P o' e.name e.name :=
    fun e he hx => (hb.makes hP h.written (h.names e he) _).2 hx
  have honce' : fs.NamedOnce (Makes P o') o' ws :=
    ⟨honce.twice.imp fun hx e h1 h2 => back e (isAt_mem h1) (hx e h1 h2),
      fun f hf e he hS => back e (isAt_mem he) (honce.scanned f hf e he (scans_congr er.2 (fun _ h => h) (fun _ _ h => h) hS))⟩
  obtain ⟨new, k1, k2⟩ := C112_tree_after_any_run hC hrun hidem h.exist hcase honce' (helps_right hhelp hst)
  refine ⟨new, k1, fun e he => ⟨fun ht => ?_, fun ht => (k2 e he).2.1 fun ht' => ht ?_, (k2 e he).2.2.imp id (says _ _ (hn e he))⟩⟩
  · rcases (k2 e he).1 (treats_congr er.1 es.1 (fun _ h => h) (fun _ _ h => h) he ht) with h1 | ⟨h1, v, h2, h3⟩
    · exact .inl (says _ _ (hn e he) h1)
    · exact .inr ⟨h1, v, says _ _ (hn e he) h2, h3⟩
  · exact treats_congr er.2 es.2 (fun _ h => h) (fun _ _ h => h) he ht'

/-- **C118.** A dry run and then a real run, with the same configuration and both without complaints: what the first announces is what the second does. -/
theorem C118_dry_run_foretells (hP : P.Benign) (h : ConfiguredRun P I fuel ss ws files plain q ig tr fs depth slack level w) (hs : Silent tr)
    (hl : fs.LiteralRun (FiltersSay P I.ctype I.datadir files q.filters) ws tr)
    {J : Invocation} {fueld : Nat} {sd : List Setting} {td : List Event} {wd : World} {igd : List Bytes} (hrd : Renames J sd ws) (hdry : Setting.dryRun ∈ sd)
    (hwd : Written J sd files plain q) (hid : IgnoredAre J.config (lastConfig sd) files igd) (htd : Trace (detoxMain P J fueld) td (.ret ()))
    (hfd : ∀ e ∈ td, Faithful files e) (hsd : Silent td) (hplace : J.ctype = I.ctype ∧ J.datadir = I.datadir)
    (hsame : (Setting.recurse ∈ sd ↔ Setting.recurse ∈ ss) ∧ (Setting.special ∈ sd ↔ Setting.special ∈ ss))
    (hsteps : World.Steps (World.start fs) td wd) (had : ∀ p r, Event.lstat p r ∈ td → fs.denied p = false)
    (hld : fs.LiteralRun (FiltersSay P I.ctype I.datadir files q.filters) ws td) (hig : ∀ e ∈ fs.entries, e.name ∉ ig ∧ e.name ∉ igd) :
    wd.fs = fs ∧ Foretold fs ws td w.fs := by
  obtain ⟨reads, t, o, a, rfl, hh, hb, hrun⟩ := configured_parts hrd hwd hid htd hfd
  obtain ⟨h1, h2⟩ := steps_slurps hh hsteps
  have hmt : ∀ e ∈ t, e ∈ reads ++ t := fun e he => List.mem_append_right _ he
  have hn := fun e he => (h.names e he).1
  have says : ∀ m v, NulFree m → Makes P o m v → FiltersSay P I.ctype I.datadir files q.filters m v := by
    intro m v hm hv
    have := hb.says hP hwd hm hv
    rwa [hplace.1, hplace.2] at this
  have lit : ∀ n, fs.Literal (FiltersSay P I.ctype I.datadir files q.filters) n → fs.Literal (Makes P o) n :=
    fun n hl e he m hm => hl e he m (hm.imp id (says _ _ (hn e he)))
  obtain ⟨k1, k2, _, k4⟩ := C101_dry_run_over_a_tree ⟨hb.asked.2.1.2 hdry, h.tree, h.steady, h2, fun p r hx => had p r (hmt _ hx)⟩ hrun
    ⟨fun f hf dir name hsp => lit _ (hld.args f hf dir name hsp), fun k n hm => lit _ (hld.entries k n (hmt _ hm))⟩
  obtain ⟨new, c1, c2⟩ := h.cleaned hP hs hl o (hb.asked.2.2.1.trans hsame.1) (hb.asked.2.2.2.1.trans hsame.2)
  have k4 := k4 fun s hx => hsd s (hmt _ hx)
  have hide : ∀ l : List Bytes, (∀ e ∈ fs.entries, e.name ∉ l) → ∀ e ∈ fs.entries, fs.Treats o ws Hidden e → fs.Treats o ws (fun n => Hidden n ∨ n ∈ l) e :=
    fun l hl e he => treats_congr id id (fun _ h => h) (fun e he h => h.elim id fun h => absurd h (hl e he)) he
  refine ⟨k1, new, c1, fun e he hne => ?_, fun s hx => ?_⟩
  · by_cases ht : fs.Treats o ws Hidden e
    · have hR := (c2 e he).1 (hide ig (fun e he => (hig e he).1) e he ht)
      have hM : Makes P o e.name (new e) := (hb.makes hP hwd (h.names e he) _).2 (by rw [hplace.1, hplace.2]; exact hR)
      obtain ⟨f, dir, a, b, c⟩ := k4 e he (hide igd (fun e he => (hig e he).2) e he ht) _ hM hne
      exact ⟨f, dir, a, b, hmt _ c⟩
    · exact absurd ((c2 e he).2.1 ht) hne
  · rcases List.mem_append.1 hx with hx | hx
    · obtain ⟨p, r, hf⟩ := hh _ hx
      cases hf
    · rcases k2 s hx with ⟨_, h⟩ | ⟨e, he, ht, f, dir, v, a, b, c, d, rfl⟩
      · exact .inl h
      · have hv : new e = v := filtersSay_unique ((c2 e he).1 (hide ig (fun e he => (hig e he).1) e he ht)) (says _ _ (hn e he) c)
        exact .inr ⟨e, he, by rw [hv]; exact d, f, dir, a, b, by rw [hv]⟩

/-- **C118.** After a `detox -r` without complaints, a second run with the same configuration on what the first one went through renames nothing, and prints
nothing but the lines of `-v` about its arguments. -/
theorem C118_second_run (hP : P.Benign) (h : ConfiguredRun P I fuel ss ws files plain q ig tr fs depth slack level w) (hs : Silent tr)
    (hr : Setting.recurse ∈ ss) (hig : ∀ d p, (d, p) ∈ w.opened → ∀ e ∈ w.fs.entries, e.dir = d → e.name ∉ ig)
    {I2 : Invocation} {fuel2 : Nat} {ss2 : List Setting} {ws2 : List Bytes} {tr2 : List Event} {w2 : World} {ig2 : List Bytes} {level2 : Nat}
    (hr2 : Renames I2 ss2 ws2) (hwr2 : Written I2 ss2 files plain q) (hig2 : IgnoredAre I2.config (lastConfig ss2) files ig2)
    (h2 : Trace (detoxMain P I2 fuel2) tr2 (.ret ())) (hf2 : ∀ e ∈ tr2, Faithful files e) (hplace : I2.ctype = I.ctype ∧ I2.datadir = I.datadir)
    (hsp : Setting.special ∈ ss2 → Setting.special ∈ ss) (hsteps : World.Steps (World.start w.fs) tr2 w2) (hst2 : ∀ f ∈ ws2, w.fs.Steady depth slack level2 f)
    (ha2 : ∀ p r, Event.lstat p r ∈ tr2 → w.fs.denied p = false) (hon : Honest w.fs tr2)
    (hfit : ∀ f ∈ ws2, ∀ dir name, SplitsAs f dir name → NameFits plain name)
    (hfine : ∀ f ∈ ws2, FineArg (FiltersSay P I.ctype I.datadir files q.filters) w.fs (fun d => ∃ p, (d, p) ∈ w.opened) f) :
    w2.fs = w.fs ∧ attempts tr2 = [] ∧
      outputs tr2 = if Setting.verbose ∈ ss2 then ws2.map fun f => lit "Scanning: " ++ f ++ lit "\n" else [] := by
  obtain ⟨reads, t, o, a, rfl, hh, hst, hb, hC, hrun, says, hidem⟩ := h.parts hP
  obtain ⟨reads2, t2, o2, a2, rfl, hh2, hb2, hrun2⟩ := configured_parts hr2 hwr2 hig2 h2 hf2
  obtain ⟨_, hw2⟩ := steps_slurps hh2 hsteps
  have hmt : ∀ e ∈ t, e ∈ reads ++ t := fun e he => List.mem_append_right _ he
  have hmt2 : ∀ e ∈ t2, e ∈ reads2 ++ t2 := fun e he => List.mem_append_right _ he
  have mk2 : ∀ m v, NameFits plain m → FiltersSay P I.ctype I.datadir files q.filters m v → Makes P o2 m v := by
    intro m v hm hv
    rw [← hplace.1, ← hplace.2] at hv
    exact (hb2.makes hP hwr2 hm v).2 hv
  obtain ⟨seen, hscan⟩ := C72_runs_are_scans hrun2
  obtain ⟨k, _, _⟩ := hC.keeps hrun
  have key := still_args (R := Makes P o2) (D := fun d => ∃ p, (d, p) ∈ w.opened) (o := o2) (level := level2)
    (fun a b c h1 h2 => Option.some.inj (Res.ok.inj (h1.symm.trans h2))) ?_ k.tree hscan (fun k n hm => hon k n (hmt2 _ hm))
    (fun p r hm => ha2 p r (hmt2 _ hm)) hst2 ?_ (World.start w.fs) w2 rfl hw2
  · refine ⟨key.1, ?_, ?_⟩
    · show List.filterMap _ _ = []
      rw [List.filterMap_append, show List.filterMap _ t2 = [] from key.2.1, List.append_nil]
      rw [List.filterMap_eq_nil_iff]
      intro e he
      obtain ⟨p, r, rfl⟩ := hh2 e he
      rfl
    · have : outputs (reads2 ++ t2) = outputs t2 := by
        show List.filterMap _ _ = List.filterMap _ _
        rw [List.filterMap_append, List.filterMap_eq_nil_iff.2, List.nil_append]
        intro e he
        obtain ⟨p, r, rfl⟩ := hh2 e he
        rfl
      rw [this, key.2.2]
      unfold scanningLines
      rw [hb2.asked.2.2.2.2.1]
      by_cases hv : Setting.verbose ∈ ss2
      · rw [if_pos hv, if_neg (Nat.pos_iff_ne_zero.1 (List.count_pos_iff.2 hv))]
      · rw [if_neg hv, if_pos (List.count_eq_zero.2 hv)]
  · rintro e he ⟨p, hd⟩
    rcases C86_silent_scan hC hrun (hb.asked.2.2.1.2 hr) (fun s hm => hs s (hmt _ hm)) _ p hd e he rfl with (h1 | h1 | ⟨h1, h3, h4⟩) | ⟨⟨m, _, _, hm, h1⟩, h3⟩
    · exact .inl h1
    · exact absurd h1 (hig _ p hd e he rfl)
    · refine .inr (.inl ⟨h1, h3, ?_⟩)
      cases hx : o2.special with
      | false => rfl
      | true =>
        rw [hb.asked.2.2.2.1.2 (hsp (hb2.asked.2.2.2.1.1 hx))] at h4
        cases h4
    · have hv := says m _ hm h1
      exact .inr (.inr ⟨mk2 _ _ (h.fits m _ hm hv) (h.settles.again m _ hm hv), h3⟩)
  · intro f hff
    obtain ⟨f1, f2⟩ := hfine f hff
    refine ⟨fun dir name hsp => ?_, f2⟩
    rcases f1 dir name hsp with h | h | h
    · exact .inl h
    · exact .inr (.inl h)
    · exact .inr (.inr (mk2 _ _ (hfit f hff dir name hsp) h))

end

/-! ### A concrete case: the example of the manual, with a file `a & b` and one `$ 1` -/

abbrev moneyCall : Invocation := manualCall (lit "en_US.UTF-8") [lit "-r", lit "my dir"]

def manualSequence : Sequence := { name := lit "default", filters := manualFilters, sourceFilename := some (lit "/home/MYUSERNAME/.detoxrc") }

theorem manual_written (locale : Bytes) (args : List Bytes) {ss : List Setting} (hs : lastConfig ss = none) (hn : lastSequence ss = none) :
    Written (manualCall locale args) ss manualFiles false manualSequence := by
  refine ⟨⟨_, .written [(lit "/home/MYUSERNAME/.detoxrc", manualConfig, [.sequence (lit "default") manualFilters])] (by simp)
    (by rw [hs]; exact manual_in_effect.symm) (one_means _ manual_config), ?_⟩, manual_fit locale⟩
  unfold requested
  rw [hn]
  exact .inl ⟨[], [], rfl, rfl, by simp⟩

theorem manual_ignored (locale : Bytes) (args : List Bytes) {ss : List Setting} (hs : lastConfig ss = none) :
    IgnoredAre (manualCall locale args).config (lastConfig ss) manualFiles [] :=
  IgnoredAre.written (E := (manualCall locale args).config) (given := lastConfig ss) (files := manualFiles)
    [(lit "/home/MYUSERNAME/.detoxrc", manualConfig, [.sequence (lit "default") manualFilters])] (by simp)
    (by rw [hs]; exact manual_in_effect.symm) (one_means _ manual_config)

theorem not_inline : ¬ CalledInline (lit "detox") := fun h => by rw [← posixBasename_inline] at h; exact absurd h (by decide +kernel)

theorem manual_renames (locale : Bytes) (args : List Bytes) {ss : List Setting} {ws : List Bytes} (h : CommandLine false args ss ws)
    (hs : ∀ s ∈ ss, ¬ s.Leaves) (hl : Setting.list ∉ ss) (hi : Setting.inline ∉ ss) (hw : ws ≠ []) : Renames (manualCall locale args) ss ws :=
  ⟨h, hs, hl, not_or.2 ⟨not_inline, hi⟩, hw⟩

theorem recurse_line (f : Bytes) (hf : IsOperand f) : CommandLine false [lit "-r", f] [.recurse] [f] :=
  .cluster [0x72] [.recurse] _ _ [] (by simp) (.cons _ _ _ _ .recurse .nil) (.operand _ _ _ _ rfl hf .none)

/-- What is read of the configuration. -/
theorem manual_faithful {t : List Event} (h : ∀ p r, Event.slurp p r ∉ t) : ∀ e ∈ manualTrace.take 6 ++ t, Faithful manualFiles e := by
  rintro e he p r rfl
  rcases List.mem_append.1 he with he | he
  · simp only [manualTrace, List.take_succ_cons, List.take_zero, List.mem_cons, Event.slurp.injEq, Option.some.injEq, List.not_mem_nil, or_false] at he
    rcases he with ⟨rfl, rfl⟩ | ⟨rfl, rfl⟩ | ⟨rfl, rfl⟩ | ⟨rfl, rfl⟩ | ⟨rfl, rfl⟩ | ⟨rfl, rfl⟩
    · exact (manualFiles_none (by decide +kernel) (by decide +kernel)).symm
    · exact (manualFiles_none (by decide +kernel) (by decide +kernel)).symm
    · exact manualFiles_config.symm
    · exact manualFiles_table.symm
    · exact (manualFiles_none (by decide +kernel) (by decide +kernel)).symm
    · exact (manualFiles_none (by decide +kernel) (by decide +kernel)).symm
  · exact absurd he (h _ _)

abbrev MoneySays : Bytes → Bytes → Prop := FiltersSay .linux (lit "en_US.UTF-8") none manualFiles manualFilters

def moneyNames : List (Bytes × Bytes) :=
  [(lit "my dir", lit "my_dir"), (lit "a & b", lit "a_and_b"), (lit "sub x", lit "sub_x"), (lit "$ 1", lit "money_1"), (lit ".hid den", lit ".hid_den")]

theorem money_new : ∀ x ∈ moneyNames, ∀ v, MoneySays x.1 v → v = x.2 := by
  have h : ∀ x ∈ moneyNames, cleanWipeup false (x.1.flatMap (manualSays (lit "en_US.UTF-8"))) = .ok x.2 ∧ NulFree (x.1.flatMap (manualSays (lit "en_US.UTF-8"))) := by
    unfold NulFree; decide +kernel
  intro x hx v hv
  obtain ⟨h1, h2⟩ := h x hx
  obtain ⟨out, h3, _, h4⟩ := C04_wipeup_is_the_documented_reduction false _ h2
  rw [h4 v (manual_means .linux _ hv)]
  exact Res.ok.inj (h3.symm.trans h1)

theorem moneyFS_new : ∀ e ∈ moneyFS.entries, ∀ v, MoneySays e.name v → (e.name, v) ∈ moneyNames := by
  have h : ∀ e ∈ moneyFS.entries, ∃ x ∈ moneyNames, x.1 = e.name := by decide +kernel
  intro e he v hv
  obtain ⟨x, hx, h1⟩ := h e he
  rw [← h1] at hv
  rw [← h1, money_new x hx v hv]
  exact hx

theorem moneyFS_steady : ∀ f ∈ [lit "my dir"], moneyFS.Steady treeDepth 1 0 f := by
  intro f hf
  rw [List.mem_singleton.1 hf]
  exact .name [] (lit "my dir") ⟨1, 1⟩ rfl (.inl rfl) (by decide +kernel) (by decide +kernel) (by decide +kernel) (by decide +kernel)
    ⟨by decide +kernel, by decide +kernel, by decide +kernel, Nat.zero_le _⟩

theorem money_configured {w : World} (h : World.Steps (World.start moneyFS) moneyTrace w) :
    ConfiguredRun .linux moneyCall 10 [.recurse] [lit "my dir"] manualFiles false manualSequence [] moneyTrace moneyFS treeDepth 1 0 w where
  asked := manual_renames _ _ (recurse_line _ (.inl (by decide +kernel))) (by intro s hs; rw [List.mem_singleton.1 hs]; simp [Setting.Leaves]) (by simp) (by simp) (by simp)
  wet := by simp
  written := manual_written _ _ rfl rfl
  ignored := manual_ignored _ _ rfl
  run := moneyTrace_run
  reads := manual_faithful (t := moneyTrace.drop 6) (by intro p r hm; simp [moneyTrace, manualTrace] at hm)
  settles := (manual_settles _ _).1
  fits := fun m v hm hv => ⟨(manual_settles _ _).2 m v hm hv, nofun⟩
  nul := by decide +kernel
  names := fun e he => ⟨(by unfold NulFree; decide +kernel : ∀ e ∈ moneyFS.entries, NulFree e.name) e he, nofun⟩
  tree := moneyFS_tree
  steady := moneyFS_steady
  steps := h
  allowed := fun _ _ _ => rfl
  exist := by decide +kernel

theorem moneyFS_literal (tr : List Event) : moneyFS.LiteralRun MoneySays [lit "my dir"] tr :=
  ⟨fun _ _ _ _ _ => literal_exact (fun _ _ _ h => h) _ _, fun _ _ _ => literal_exact (fun _ _ _ h => h) _ _⟩

theorem moneyFS_room : moneyFS.Room MoneySays { recurse := true } [lit "my dir"] := by
  have h0 : ∀ e ∈ moneyFS.entries, EntryName e.name := by decide +kernel
  have h1 : ∀ x ∈ moneyNames, EntryName x.2 ∧ x.2 ≠ [0x2E] ∧ x.2 ≠ [0x2E, 0x2E] := by decide +kernel
  have h2 : ∀ e ∈ moneyFS.entries, ∀ x ∈ moneyNames, x.1 = e.name → ∀ e' ∈ moneyFS.entries, x.2 ≠ e'.name := by decide +kernel
  have h3 : ∀ e ∈ moneyFS.entries, ∀ e' ∈ moneyFS.entries, ∀ x ∈ moneyNames, ∀ x' ∈ moneyNames, x.1 = e.name → x'.1 = e'.name → x.2 = x'.2 → e' = e := by
    decide +kernel
  exact ⟨h0, fun e he _ v hv => h1 _ (moneyFS_new e he v hv), fun e he _ v hv _ e' he' _ hn => absurd hn (h2 e he _ (moneyFS_new e he v hv) rfl e' he'),
    fun e he _ e' he' _ _ v v' hv hv' hn => h3 e he e' he' _ (moneyFS_new e he v hv) _ (moneyFS_new e' he' v' hv') rfl rfl hn⟩

theorem named_once {fs : FS} {R : Bytes → Bytes → Prop} (h1 : fs.lookup (lit "my dir") = some ⟨1, 2⟩) (h2 : ∀ e ∈ fs.entries, e.ino ≠ ⟨1, 1⟩)
    (h3 : fs.locate (lit "my dir") = some (⟨1, 1⟩, lit "my dir")) : fs.NamedOnce R { recurse := true } [lit "my dir"] := by
  have hroot : ∀ d, fs.Scans { recurse := true } [lit "my dir"] Hidden d → d ≠ ⟨1, 1⟩ := by
    intro d hd
    cases hd with
    | arg f d hf hlk hk =>
      rw [List.mem_singleton.1 hf] at hlk
      have : d = ⟨1, 2⟩ := Option.some.inj (hlk.symm.trans h1)
      rw [this]; decide
    | sub e he _ _ _ _ => exact h2 e he
  refine ⟨List.pairwise_singleton _ _, ?_⟩
  rintro f hf e ⟨dir, name, _, _, hloc, _⟩ hs
  rw [List.mem_singleton.1 hf] at hloc
  exact absurd (congrArg Prod.fst (Option.some.inj (hloc.symm.trans h3))) (hroot _ hs)

theorem moneyTrace_obliges : (World.start moneyFS).ObligesIn moneyTrace := by
  intro t1 e t2 w1 h _
  have hm : e ∈ moneyTrace := by rw [h]; simp
  constructor
  · rintro old new rfl
    simp [moneyTrace, manualTrace] at hm
  · rintro p r rfl hr
    have hm : p = lit "my_dir" ∧ r = .ok 0 ∨ p = lit "my_dir/sub_x" ∧ r = .ok 1 := by simpa [moneyTrace, manualTrace] using hm
    rcases hm with h | h
    · exact absurd h.2 (hr 0)
    · exact absurd h.2 (hr 1)

/- Nothing to complain about. -/
example : ∃ w, World.Steps (World.start moneyFS) moneyTrace w ∧ Silent moneyTrace ∧ moneyFS.Cleaned MoneySays { recurse := true } [lit "my dir"] [] w.fs := by
  obtain ⟨w, h1, _⟩ := World_exec_out (w := World.start moneyFS) (tr := moneyTrace) (f := fun w => w.fs.entries.length) (x := 5) (by decide +kernel)
  exact ⟨w, h1, C118_no_complaints (by decide) (money_configured h1) (moneyFS_literal _) { recurse := true } (by simp) (by simp) moneyTrace_obliges moneyFS_room
    (named_once (by decide +kernel) (by decide +kernel) (by decide +kernel))⟩

/-- Names that collide, with the configuration of the manual. -/
def moneyCrowdTrace : List Event := manualTrace.take 6 ++ crowdTrace.drop nothingInstalled.length

theorem moneyCrowdTrace_run : Trace (detoxMain .linux moneyCall 10) moneyCrowdTrace (.ret ()) := Prog.result_sound _ _ _ (by decide +kernel)

example : ∃ w, World.Steps (World.start crowdFS) moneyCrowdTrace w ∧ ¬ Silent moneyCrowdTrace ∧
    w.fs.entries.map Entry.name = [lit "my_dir", lit "a b", lit "a_b", lit "c d", lit "c_d"] ∧
    crowdFS.CleanedAsFar MoneySays { recurse := true } [lit "my dir"] [] w.fs := by
  obtain ⟨w, h1, h2⟩ := World_exec_out (w := World.start crowdFS) (tr := moneyCrowdTrace) (f := fun w => w.fs.entries.map Entry.name)
    (x := [lit "my_dir", lit "a b", lit "a_b", lit "c d", lit "c_d"]) (by decide +kernel)
  refine ⟨w, h1, fun h => h (lit "Cannot rename my_dir/a b to my_dir/a_b: file already exists\n") (by simp [moneyCrowdTrace, crowdTrace, nothingInstalled]), h2, ?_⟩
  have hc : ConfiguredRun .linux moneyCall 10 [.recurse] [lit "my dir"] manualFiles false manualSequence [] moneyCrowdTrace crowdFS treeDepth 1 0 w :=
    { asked := manual_renames _ _ (recurse_line _ (.inl (by decide +kernel))) (by intro s hs; rw [List.mem_singleton.1 hs]; simp [Setting.Leaves]) (by simp) (by simp) (by simp)
      wet := by simp
      written := manual_written _ _ rfl rfl
      ignored := manual_ignored _ _ rfl
      run := moneyCrowdTrace_run
      reads := manual_faithful (by intro p r hm; simp [crowdTrace, nothingInstalled] at hm)
      settles := (manual_settles _ _).1
      fits := fun m v hm hv => ⟨(manual_settles _ _).2 m v hm hv, nofun⟩
      nul := by decide +kernel
      names := fun e he => ⟨(by unfold NulFree; decide +kernel : ∀ e ∈ crowdFS.entries, NulFree e.name) e he, nofun⟩
      tree := crowdFS_tree
      steady := crowdFS_steady
      steps := h1
      allowed := fun _ _ _ => rfl
      exist := by decide +kernel }
  refine C118_as_far_as_possible (by decide) hc (fun _ _ _ h => h) { recurse := true } (by simp) (by simp)
    (named_once (by decide +kernel) (by decide +kernel) (by decide +kernel)) ?_
  intro t1 e t2 w1 h _
  have hm : e ∈ moneyCrowdTrace := by rw [h]; simp
  constructor
  · rintro old new rfl
    simp [moneyCrowdTrace, manualTrace, crowdTrace, nothingInstalled] at hm
  · rintro p r rfl hr
    have hm : p = lit "my_dir" ∧ r = .ok 0 := by simpa [moneyCrowdTrace, manualTrace, crowdTrace, nothingInstalled] using hm
    exact absurd hm.2 (hr 0)

/-- `detox -nr 'my dir'`. -/
def moneyDryTrace : List Event :=
  manualTrace.take 6 ++ [
  .lstat (lit "my dir") (some ⟨1, 2, 2, .dir⟩), .lstat (lit "my dir") (some ⟨1, 2, 2, .dir⟩), .lstat (lit "my_dir") none,
  .out (lit "my dir -> my_dir\n"), .lstat (lit "my dir") (some ⟨1, 2, 2, .dir⟩), .opendir (lit "my dir") (.ok 0),
  .readdir 0 (some (lit ".")), .readdir 0 (some (lit "a & b")),
  .lstat (lit "my dir/a & b") (some ⟨1, 3, 1, .reg⟩), .lstat (lit "my dir/a & b") (some ⟨1, 3, 1, .reg⟩), .lstat (lit "my dir/a_and_b") none,
  .out (lit "my dir/a & b -> my dir/a_and_b\n"),
  .readdir 0 (some (lit "sub x")),
  .lstat (lit "my dir/sub x") (some ⟨1, 4, 2, .dir⟩), .lstat (lit "my dir/sub x") (some ⟨1, 4, 2, .dir⟩), .lstat (lit "my dir/sub_x") none,
  .out (lit "my dir/sub x -> my dir/sub_x\n"),
  .lstat (lit "my dir/sub x") (some ⟨1, 4, 2, .dir⟩), .opendir (lit "my dir/sub x") (.ok 1),
  .readdir 1 (some (lit "$ 1")), .lstat (lit "my dir/sub x/$ 1") (some ⟨1, 5, 1, .reg⟩),
  .lstat (lit "my dir/sub x/$ 1") (some ⟨1, 5, 1, .reg⟩), .lstat (lit "my dir/sub x/money_1") none,
  .out (lit "my dir/sub x/$ 1 -> my dir/sub x/money_1\n"),
  .readdir 1 none, .closedir 1,
  .readdir 0 (some (lit ".hid den")), .readdir 0 none, .closedir 0]

theorem moneyDryTrace_run : Trace (detoxMain .linux (manualCall (lit "en_US.UTF-8") [lit "-nr", lit "my dir"]) 10) moneyDryTrace (.ret ()) :=
  Prog.result_sound _ _ _ (by decide +kernel)

/- `detox -nr 'my dir'`, then `detox -r 'my dir'`. -/
example : ∃ wd w, World.Steps (World.start moneyFS) moneyDryTrace wd ∧ World.Steps (World.start moneyFS) moneyTrace w ∧ wd.fs = moneyFS ∧
    Foretold moneyFS [lit "my dir"] moneyDryTrace w.fs := by
  obtain ⟨wd, hd, _⟩ := World_exec_out (w := World.start moneyFS) (tr := moneyDryTrace) (f := fun w => w.fs.entries.length) (x := 5) (by decide +kernel)
  obtain ⟨w, h1, _⟩ := World_exec_out (w := World.start moneyFS) (tr := moneyTrace) (f := fun w => w.fs.entries.length) (x := 5) (by decide +kernel)
  have := C118_dry_run_foretells (by decide) (money_configured h1) (by intro s hm; simp [moneyTrace, manualTrace] at hm) (moneyFS_literal _)
    (J := manualCall (lit "en_US.UTF-8") [lit "-nr", lit "my dir"]) (sd := [.dryRun, .recurse])
    (manual_renames _ _ (.cluster [0x6E, 0x72] [.dryRun, .recurse] _ _ [] (by simp) (.cons _ _ _ _ .dryRun (.cons _ _ _ _ .recurse .nil))
      (.operand _ _ _ _ rfl (.inl (by decide +kernel)) .none))
      (by intro s hs; simp only [List.mem_cons, List.not_mem_nil, or_false] at hs; rcases hs with rfl | rfl <;> simp [Setting.Leaves]) (by simp) (by simp) (by simp))
    (by simp) (manual_written _ _ rfl rfl) (manual_ignored _ _ rfl) moneyDryTrace_run
    (manual_faithful (by intro p r hm; simp at hm)) (by intro s hm; simp [moneyDryTrace, manualTrace] at hm) ⟨rfl, rfl⟩ ⟨by simp, by simp⟩ hd
    (fun _ _ _ => rfl) (moneyFS_literal _) (by simp)
  exact ⟨wd, w, hd, h1, this.1, this.2⟩

/-- After `moneyTrace`. -/
def moneyAgainTrace : List Event :=
  manualTrace.take 6 ++ [
  .out (lit "Scanning: my_dir\n"), .lstat (lit "my_dir") (some ⟨1, 2, 2, .dir⟩), .lstat (lit "my_dir") (some ⟨1, 2, 2, .dir⟩), .opendir (lit "my_dir") (.ok 0),
  .readdir 0 (some (lit ".")), .readdir 0 (some (lit "a_and_b")), .lstat (lit "my_dir/a_and_b") (some ⟨1, 3, 1, .reg⟩),
  .readdir 0 (some (lit "sub_x")), .lstat (lit "my_dir/sub_x") (some ⟨1, 4, 2, .dir⟩),
  .lstat (lit "my_dir/sub_x") (some ⟨1, 4, 2, .dir⟩), .opendir (lit "my_dir/sub_x") (.ok 1),
  .readdir 1 (some (lit "money_1")), .lstat (lit "my_dir/sub_x/money_1") (some ⟨1, 5, 1, .reg⟩), .readdir 1 none, .closedir 1,
  .readdir 0 (some (lit ".hid den")), .readdir 0 none, .closedir 0]

theorem moneyAgainTrace_run : Trace (detoxMain .linux (manualCall (lit "en_US.UTF-8") [lit "-rv", lit "my_dir"]) 10) moneyAgainTrace (.ret ()) :=
  Prog.result_sound _ _ _ (by decide +kernel)

theorem money_says {s mid out : Bytes} (h1 : s.flatMap (manualSays (lit "en_US.UTF-8")) = mid) (h0 : NulFree mid) (h2 : cleanWipeup false mid = .ok out) : MoneySays s out := by
  obtain ⟨out', h3, h4, _⟩ := C04_wipeup_is_the_documented_reduction false mid h0
  rw [h2] at h3
  cases h3
  exact filtersSay_append (fs := manualFilters.take 2) (gs := [{ cleaner := .wipeup }]) (h1 ▸ manual_first .linux _ s) (filtersSay_one.2 (.wipeup _ rfl h4))

/- `detox -r 'my dir'`, then `detox -rv my_dir`. -/
example : ∃ w w2, World.Steps (World.start moneyFS) moneyTrace w ∧ World.Steps (World.start w.fs) moneyAgainTrace w2 ∧ w2.fs = w.fs ∧
    outputs moneyAgainTrace = [lit "Scanning: my_dir\n"] := by
  obtain ⟨w, h1, h2⟩ := World_exec_out (w := World.start moneyFS) (tr := moneyTrace)
    (f := fun w => (w.opened, w.fs.entries, decide (((World.start w.fs).exec moneyAgainTrace).isSome = true)))
    (x := ([(⟨1, 4⟩, lit "my_dir/sub_x"), (⟨1, 2⟩, lit "my_dir")], [⟨⟨1, 1⟩, lit "my_dir", ⟨1, 2⟩⟩, ⟨⟨1, 2⟩, lit "a_and_b", ⟨1, 3⟩⟩, ⟨⟨1, 2⟩, lit "sub_x", ⟨1, 4⟩⟩,
      ⟨⟨1, 4⟩, lit "money_1", ⟨1, 5⟩⟩, ⟨⟨1, 2⟩, lit ".hid den", ⟨1, 6⟩⟩], true)) (by decide +kernel)
  simp only [Prod.mk.injEq, decide_eq_true_eq] at h2
  obtain ⟨ho, he, hx⟩ := h2
  have hc := money_configured h1
  have hs : Silent moneyTrace := by intro s hm; simp [moneyTrace, manualTrace] at hm
  obtain ⟨new, k1, _⟩ := hc.cleaned (by decide) hs (moneyFS_literal _) { recurse := true } (by simp) (by simp)
  have hfs : w.fs = { moneyFS with entries := w.fs.entries } := by rw [k1]
  rw [he] at hfs
  obtain ⟨w2, h3⟩ := Option.isSome_iff_exists.1 hx
  have h4 := World_exec_sound _ h3
  have := C118_second_run (by decide) hc hs (by simp) (by simp) (I2 := manualCall (lit "en_US.UTF-8") [lit "-rv", lit "my_dir"]) (ss2 := [.recurse, .verbose]) (level2 := 0)
    (manual_renames _ _ (.cluster [0x72, 0x76] [.recurse, .verbose] _ _ [] (by simp) (.cons _ _ _ _ .recurse (.cons _ _ _ _ .verbose .nil))
      (.operand _ _ _ _ rfl (.inl (by decide +kernel)) .none))
      (by intro s hs; simp only [List.mem_cons, List.not_mem_nil, or_false] at hs; rcases hs with rfl | rfl <;> simp [Setting.Leaves]) (by simp) (by simp) (by simp))
    (manual_written _ _ rfl rfl) (manual_ignored _ _ rfl) moneyAgainTrace_run (manual_faithful (by intro p r hm; simp at hm)) ⟨rfl, rfl⟩ (by simp) h4
    (by
      rw [hfs]
      intro f hf
      rw [List.mem_singleton.1 hf]
      exact .name [] (lit "my_dir") ⟨1, 1⟩ rfl (.inl rfl) (by decide +kernel) (by decide +kernel) (by decide +kernel) (by decide +kernel)
        ⟨by decide +kernel, by decide +kernel, by decide +kernel, Nat.zero_le _⟩)
    (by rw [hfs]; exact fun _ _ _ => rfl)
    (by rw [hfs]; exact fun _ _ _ _ _ h => h)
    (by
      intro f hf dir name hsp
      rw [List.mem_singleton.1 hf] at hsp
      rw [(splitsAs_unique hsp).2]
      exact ⟨by decide +kernel, nofun⟩)
    (by
      intro f hf
      rw [List.mem_singleton.1 hf]
      refine ⟨fun dir name hsp => .inr (.inr ?_), fun i hi _ => ⟨lit "my_dir", ?_⟩⟩
      · rw [(splitsAs_unique hsp).2]
        exact money_says (mid := lit "my_dir") (by decide +kernel) (by decide +kernel) (by decide +kernel)
      · rw [hfs] at hi
        have : some i = some ⟨1, 2⟩ := hi.symm.trans (by decide +kernel)
        cases this
        rw [ho]
        simp)
  exact ⟨w, w2, h1, h4, this.1, by rw [this.2.2, if_pos (by simp)]; rfl⟩

end Detox
