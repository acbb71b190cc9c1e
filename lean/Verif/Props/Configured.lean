import Verif.Props.Tree
import Verif.Props.Result
import Verif.Lemmas.Settle
import Verif.Lemmas.Murmurs

/-!
# C117: a tree of directories after detox, whatever is configured
-/

set_option autoImplicit false

namespace Detox
open Spec

theorem freshIgnore_unique {ign : Option Filelist} {a b : List Bytes} (h : FreshIgnore ign a) (h' : FreshIgnore ign b) : a = b := by
  cases ign with
  | none => exact h.trans h'.symm
  | some l =>
    have h : l.Holds a 0 := h
    have h' : l.Holds b 0 := h'
    exact (List.map_inj_right fun _ _ h => Option.some.inj h).1 (h.2.1.symm.trans h'.2.1)

theorem ignored_arrive {E : ConfigEnv} {given : Option Bytes} {files : Bytes → Option Bytes} {ig : List Bytes}
    (hi : IgnoredAre E given files ig) {tr : List Event} {c : ConfigFile} (h : Trace (configFileLoad E given) tr (.ret c))
    (hf : ∀ e ∈ tr, Faithful files e) : FreshIgnore c.filesToIgnore ig := by
  have hr : ReadsFrom files (filesRead tr) := fun x hx => hf _ (filesRead_mem hx) _ _ rfl
  cases hi with
  | written conf hne hconf hm =>
    obtain ⟨_, l, h2, h3⟩ := config_loaded h hr hne hconf hm
    rw [h2]
    exact h3
  | builtin hg hno =>
    subst hg
    obtain ⟨sys, user, ex1, ex2, h5, h6, h7, h8⟩ := C44_without_option_f h
    rw [h5] at hr
    have : configsInEffect E none files = ex1 ++ ex2 := by
      unfold configsInEffect
      simp only
      rw [firstOf_present h6 (fun x hx => hr x (by simp [hx])), allOf_present h7 (fun x hx => hr x (by simp [hx]))]
    rcases h8 with ⟨h8, _⟩ | ⟨_, h8⟩
    · rw [← this] at h8
      exact absurd hno h8
    · unfold spoofConfigFile at h8
      obtain ⟨l', h9, h10⟩ := filelistPut_holds filelistInit_holds (lit "{arch}")
      rw [h9] at h8
      cases h8
      exact h10

/-- The whole of a run with a configuration. -/
theorem configured_parts {P : Platform} {I : Invocation} {fuel : Nat} {ss : List Setting} {ws : List Bytes} (hr : Renames I ss ws)
    {files : Bytes → Option Bytes} {plain : Bool} {q : Sequence} (hw : Written I ss files plain q) {ig : List Bytes}
    (hig : IgnoredAre I.config (lastConfig ss) files ig) {tr : List Event}
    (h : Trace (detoxMain P I fuel) tr (.ret ())) (hf : ∀ e ∈ tr, Faithful files e) :
    ∃ reads t o a, tr = reads ++ t ∧ (∀ e ∈ reads, ∃ p r, e = .slurp p r) ∧ Begun P I ss files plain q o ∧ Run P o ws ig t (.ret a) := by
  rcases main_cases hr.line h with ⟨_, h'⟩ | ⟨reads, t, o, ign', l, ign, rfl, hrd, hl, hi, hk⟩
  · exact absurd rfl (h' ())
  rcases hk with ⟨hin, _⟩ | ⟨_, _, htr⟩
  · exact absurd (hrd.asked.2.2.2.2.2.1.1 hin) hr.noInline
  obtain ⟨out', hrun, hout⟩ := main_run hl hi htr
  have : ∃ a, out' = .ret a := by
    rcases hout with h' | h'
    · exact h'
    · exact absurd rfl (outcome_ne_ret h' ())
  obtain ⟨a, rfl⟩ := this
  obtain ⟨c, q0, q', r1, r2, rfl, g1, g2, g3, g4, g5⟩ := hrd.stages
  have hf1 : ∀ e ∈ r1, Faithful files e := fun e he => hf e (by simp [he])
  obtain ⟨qs, hqs, hq⟩ := hw.sequences
  have hq0 : q0 = q := by
    rcases sequences_arrive hqs g1 hf1 with h3 | ⟨_, h3, hseq, _⟩
    · cases h3
    · cases h3
      rw [← sequenceChooseDefault_iff, hseq] at g2
      have hq : Chosen qs ((lastSequence ss).or I.sequence) q := hq
      rw [← sequenceChooseDefault_iff, g2] at hq
      exact Option.some.inj hq
  subst hq0
  have hign : ign' = ig := freshIgnore_unique g5 (ignored_arrive hig g1 hf1)
  subst hign
  obtain ⟨h5, _⟩ := C67_tables_loaded g3
  refine ⟨r1 ++ r2, t, o, a, rfl, ?_, ⟨hrd.asked, ⟨c, q', r1, r2, g1, hf1, g2, g3, g4⟩, q', _, g4, h5, ?_⟩, hrun⟩
  · intro e he
    rcases List.mem_append.1 he with he | he
    · exact murmurs_trace (configFileLoad_murmurs _ _) g1 (config_texts hqs g1 hf1) e he
    · exact murmurs_trace (S := fun _ _ => True) (reviewSequence_murmurs _ _ _) g3 (fun _ _ _ => trivial) e he
  exact fun x hx => hf _ (by have := filesRead_mem hx; simp [this]) _ _ rfl

theorem slurps_harmless {reads : List Event} (h : ∀ e ∈ reads, ∃ p r, e = .slurp p r) : ∀ e ∈ reads, Harmless e := by
  intro e he
  obtain ⟨p, r, rfl⟩ := h e he
  constructor

/-- **C117.** The whole program, with any configuration for which one pass is enough. If it ends without having complained, the file system is as it was but for
the names: arguments and what is in the directories scanned have the names the filters of the configuration make of their old names; all others have the names
they had. (Names to ignore, and what is below them, may be either: C34.) -/
theorem C117_configured_tree {P : Platform} (hP : P.Benign) {I : Invocation} {fuel : Nat} {ss : List Setting} {ws : List Bytes} (hr : Renames I ss ws)
    (hd : Setting.dryRun ∉ ss) {files : Bytes → Option Bytes} {plain : Bool} {q : Sequence} (hw : Written I ss files plain q) {ig : List Bytes}
    (hig : IgnoredAre I.config (lastConfig ss) files ig) {tr : List Event} (h : Trace (detoxMain P I fuel) tr (.ret ()))
    (hf : ∀ e ∈ tr, Faithful files e) (hs : Silent tr)
    (hset : Settles (FiltersSay P I.ctype I.datadir files q.filters))
    (hpl : ∀ m v, NulFree m → FiltersSay P I.ctype I.datadir files q.filters m v → NameFits plain v)
    {fs : FS} {depth : Ino → Nat} {slack level : Nat} {w : World} (hnul : ∀ f ∈ ws, NulFree f) (hnames : ∀ e ∈ fs.entries, NulFree e.name) (ht : fs.Tree depth slack)
    (hst : ∀ f ∈ ws, fs.Steady depth slack level f) (hsteps : World.Steps (World.start fs) tr w)
    (ha : ∀ p r, Event.lstat p r ∈ tr → fs.denied p = false) (hex : ∀ f ∈ ws, fs.lookup f ≠ none)
    (hlit : fs.LiteralRun (FiltersSay P I.ctype I.datadir files q.filters) ws tr)
    (o : Options) (hrec : o.recurse = true ↔ Setting.recurse ∈ ss) (hsp : o.special = true ↔ Setting.special ∈ ss) :
    fs.Cleaned (FiltersSay P I.ctype I.datadir files q.filters) o ws ig w.fs := by
  obtain ⟨reads, t, o', a, rfl, hh, hb, hrun⟩ := configured_parts hr hw hig h hf
  have says : ∀ m v, NulFree m → Makes P o' m v → FiltersSay P I.ctype I.datadir files q.filters m v := fun m v hm => hb.says hP hw hm
  have hsteps' := world_harmless (slurps_harmless hh) hsteps
  have hdry : o'.dryRun = false := by
    cases hx : o'.dryRun with
    | false => rfl
    | true => exact absurd (hb.asked.2.1.1 hx) hd
  have hmt : ∀ e ∈ t, e ∈ reads ++ t := fun e he => List.mem_append_right _ he
  have lit : ∀ n, fs.Literal (FiltersSay P I.ctype I.datadir files q.filters) n → fs.Literal (Makes P o') n :=
    fun n hl e he m hm => hl e he m (hm.imp id (says _ _ (hnames e he)))
  have hC : CompleteRun P o' ws fs depth slack level t w :=
    ⟨hdry, fun s cl h0 h1 h2 => hset.slash s cl h0 h1 (says s cl h0 h2), hnul, ht, hst, hsteps', fun p r hm => ha p r (hmt _ hm)⟩
  obtain ⟨new, k1, k2⟩ := C98_tree_after_a_run hC hrun (fun s hm => hs s (hmt _ hm)) (by
    intro m v hm hmv
    have h1 := says m v hm hmv
    exact (hb.makes hP hw (hpl m v hm h1) v).2 (hset.again m v hm h1)) hex
    ⟨fun f hf dir name hsp => lit _ (hlit.args f hf dir name hsp), fun k n hm => lit _ (hlit.entries k n (hmt _ hm))⟩
  have er : o.recurse = true ↔ o'.recurse = true := hrec.trans hb.asked.2.2.1.symm
  have es : o.special = true ↔ o'.special = true := hsp.trans hb.asked.2.2.2.1.symm
  refine ⟨new, k1, fun e he => ⟨fun ht => says _ _ (hnames e he) ((k2 e he).1 ?_), fun ht => (k2 e he).2.1 fun ht' => ht ?_, (k2 e he).2.2.imp id (says _ _ (hnames e he))⟩⟩
  · exact treats_congr er.1 es.1 (fun _ h => h) (fun _ _ h => h) he ht
  · exact treats_congr er.2 es.2 (fun _ h => h) (fun _ _ h => h) he ht'

/-! ### When one pass is enough -/

section
variable {P : Platform} {locale : Bytes} {datadir : Option Bytes} {files : Bytes → Option Bytes}

/-- **C117.** A `safe` filter with any table leaves alone what it has made if, and only if, it does so for the names of one character. -/
theorem C117_safe_settles_iff {f : Filter} (hf : f.cleaner = .safe) {m : TableText} (hm : TableSays locale datadir files f m) :
    (∀ s v, NulFree s → FiltersSay P locale datadir files [f] s v → FiltersSay P locale datadir files [f] v v) ↔
      ∀ c : Byte, c ≠ 0 → (m.says (safeCode P c) [c]).flatMap (fun x => m.says (safeCode P x) [x]) = m.says (safeCode P c) [c] := by
  have says : ∀ s v, FiltersSay P locale datadir files [f] s v ↔ v = s.flatMap fun x => m.says (safeCode P x) [x] := by
    intro s v
    rw [filtersSay_one]
    exact ⟨fun h => filterSays_unique h (.safe m hf hm), fun h => h ▸ .safe m hf hm⟩
  simp only [says]
  constructor
  · intro h c hc
    have := h [c] _ (by simpa [NulFree] using Ne.symm hc) rfl
    rw [List.flatMap_singleton] at this
    exact this.symm
  · rintro h s v hs rfl
    rw [List.flatMap_assoc]
    induction s with
    | nil => rfl
    | cons c s ih =>
      have hs := not_or.1 (fun h => hs (List.mem_cons.2 h))
      rw [List.flatMap_cons, List.flatMap_cons, h c (Ne.symm hs.1), ← ih hs.2]

/-- **C117.** The same for `iso8859_1`. -/
theorem C117_iso_settles_iff {f : Filter} (hf : f.cleaner = .iso8859_1) {m : TableText} (hm : TableSays locale datadir files f m) :
    (∀ s v, NulFree s → FiltersSay P locale datadir files [f] s v → FiltersSay P locale datadir files [f] v v) ↔
      ∀ c : Byte, 128 ≤ c.toNat → (m.says (some c.toNat) [c]).flatMap (fun x => if x.toNat < 128 then [x] else m.says (some x.toNat) [x]) = m.says (some c.toNat) [c] := by
  have says : ∀ s v, FiltersSay P locale datadir files [f] s v ↔ v = s.flatMap fun x => if x.toNat < 128 then [x] else m.says (some x.toNat) [x] := by
    intro s v
    rw [filtersSay_one]
    exact ⟨fun h => filterSays_unique h (.iso8859_1 m hf hm), fun h => h ▸ .iso8859_1 m hf hm⟩
  simp only [says]
  constructor
  · intro h c hc
    have := h [c] _ (by rintro h0; rw [List.mem_singleton] at h0; subst h0; simp at hc) rfl
    rw [List.flatMap_singleton, if_neg (by omega)] at this
    exact this.symm
  · rintro h s v hs rfl
    rw [List.flatMap_assoc]
    clear hs
    induction s with
    | nil => rfl
    | cons c s ih =>
      rw [List.flatMap_cons, List.flatMap_cons, ← ih]
      congr 1
      by_cases hc : c.toNat < 128
      · rw [if_pos hc, List.flatMap_singleton, if_pos hc]
      · rw [if_neg hc, h c (by omega)]

/-- **C117.** Filters that work character by character, in any number, and a `wipeup` after them: one pass is enough if the filters before leave alone every
character they ever put into a name. -/
theorem C117_settles_by_characters {fs : List Filter} (hf : ∀ f ∈ fs, f.cleaner = .safe ∨ f.cleaner = .iso8859_1 ∨ f.cleaner = .lower)
    {gs : List Filter} (hg : gs = [] ∨ ∃ g : Filter, g.cleaner = .wipeup ∧ gs = [g])
    (hone : ∀ c v, c ≠ 0 → FiltersSay P locale datadir files fs [c] v → ∀ x ∈ v, x ≠ 0 ∧ FiltersSay P locale datadir files fs [x] [x])
    (hslash : ∀ c v, c ≠ 0 → c ≠ 0x2F → FiltersSay P locale datadir files fs [c] v → (0x2F : Byte) ∉ v) :
    Settles (FiltersSay P locale datadir files (fs ++ gs)) ∧ ∀ m v, NulFree m → FiltersSay P locale datadir files (fs ++ gs) m v → NulFree v := by
  have main : ∀ m v, NulFree m → FiltersSay P locale datadir files (fs ++ gs) m v →
      FiltersSay P locale datadir files (fs ++ gs) v v ∧ NulFree v ∧ ((0x2F : Byte) ∉ m → (0x2F : Byte) ∉ v) := by
    intro m v hm h
    obtain ⟨mid, h1, h2⟩ := FiltersSay.split h
    obtain ⟨G, hG⟩ := bytewise hf h1
    have hmid := filtersSay_unique h1 (hG m)
    have one : ∀ c, FiltersSay P locale datadir files fs [c] (G c) := fun c => by
      have := hG [c]
      rwa [List.flatMap_singleton] at this
    have hc0 : ∀ c ∈ m, c ≠ 0 := fun c hc h => hm (h ▸ hc)
    have good : ∀ x ∈ mid, x ≠ 0 ∧ G x = [x] := by
      intro x hx
      rw [hmid] at hx
      obtain ⟨c, hc, hx⟩ := List.mem_flatMap.1 hx
      obtain ⟨q1, q2⟩ := hone c (G c) (hc0 c hc) (one c) x hx
      exact ⟨q1, filtersSay_unique (one x) q2⟩
    have noslash : (0x2F : Byte) ∉ m → (0x2F : Byte) ∉ mid := by
      intro hm' hx
      rw [hmid] at hx
      obtain ⟨c, hc, hx⟩ := List.mem_flatMap.1 hx
      exact hslash c (G c) (hc0 c hc) (fun h => hm' (h ▸ hc)) (one c) hx
    have hmid0 : NulFree mid := fun h => (good 0 h).1 rfl
    have fixed : ∀ w : Bytes, (∀ x ∈ w, x ∈ mid) → FiltersSay P locale datadir files fs w w := by
      intro w hw
      have := hG w
      rwa [flatMap_self_of fun x hx => (good x (hw x hx)).2] at this
    rcases hg with rfl | ⟨g, hgc, rfl⟩
    · cases h2
      rw [List.append_nil]
      exact ⟨fixed _ fun _ h => h, hmid0, noslash⟩
    · have hv : v = wipe g.removeTrailing mid := filterSays_unique (filtersSay_one.1 h2) (.wipeup _ hgc (wipe_spec hmid0))
      have sub : ∀ x ∈ v, x ∈ mid := fun x hx => wipe_mem hmid0 x (by rw [← hv]; exact hx)
      have hv0 : NulFree v := fun h => hmid0 (sub _ h)
      refine ⟨filtersSay_append (fixed v sub) (filtersSay_one.2 ?_), hv0, fun hm' hx => noslash hm' (sub _ hx)⟩
      have := FilterSays.wipeup (P := P) (locale := locale) (datadir := datadir) (files := files) (f := g) (s := v) _ hgc (wipe_spec hv0)
      rw [show wipe g.removeTrailing v = v by rw [hv, wipe_idem hmid0]] at this
      exact this
  exact ⟨⟨fun m v hm h => (main m v hm h).1, fun m v hm hs h => (main m v hm h).2.2 hs⟩, fun m v hm h => (main m v hm h).2.1⟩

end

/-! ### The example of the manual -/

theorem manual_stable : ∀ m : Bytes, m ∈ [lit "_money_", lit "_dollar_"] → ∀ c : Byte, c ≠ 0 →
    ∀ x ∈ (if c = 0x09 then lit "_tab_" else if c = 0x24 then m else if c = 0x26 then lit "_and_" else (lastOf (writtenRows builtin_safe_rows) c.toNat).getD [c]),
      x ≠ 0 ∧ x ≠ 0x2F ∧
      (if x = 0x09 then lit "_tab_" else if x = 0x24 then m else if x = 0x26 then lit "_and_" else (lastOf (writtenRows builtin_safe_rows) x.toNat).getD [x]) = [x] := by
  intro m hm
  refine forall_byte ?_
  revert m
  decide +kernel

theorem manualSays_stable (locale : Bytes) (c : Byte) (hc : c ≠ 0) : ∀ x ∈ manualSays locale c, x ≠ 0 ∧ x ≠ 0x2F ∧ manualSays locale x = [x] := by
  unfold manualSays
  exact manual_stable _ (by split <;> simp) c hc

theorem manual_settles (P : Platform) (locale : Bytes) : Settles (FiltersSay P locale none manualFiles manualFilters) ∧
    ∀ m v, NulFree m → FiltersSay P locale none manualFiles manualFilters m v → NulFree v := by
  have one : ∀ c v, FiltersSay P locale none manualFiles (manualFilters.take 2) [c] v → v = manualSays locale c := by
    intro c v h
    have := filtersSay_unique h (manual_first P locale [c])
    rwa [List.flatMap_singleton] at this
  refine C117_settles_by_characters (fs := manualFilters.take 2) (gs := [{ cleaner := .wipeup }]) ?_ (.inr ⟨_, rfl, rfl⟩) ?_ ?_
  · intro f hf
    simp only [manualFilters, List.take_succ_cons, List.take_zero, List.mem_cons, List.not_mem_nil, or_false] at hf
    rcases hf with rfl | rfl <;> simp
  · intro c v hc h x hx
    rw [one c v h] at hx
    obtain ⟨h1, _, h2⟩ := manualSays_stable locale c hc x hx
    refine ⟨h1, ?_⟩
    have := manual_first P locale [x]
    rwa [List.flatMap_singleton, h2] at this
  · intro c v hc _ h hx
    rw [one c v h] at hx
    exact (manualSays_stable locale c hc _ hx).2.1 rfl

theorem manual_fit (locale : Bytes) : FiltersFit locale none manualFiles false manualFilters := by
  have h1 : (TableText.mk (lastOf ([(0x09, lit "_tab_"), (0x24, lit "_dollar_"), (0x26, lit "_and_")] ++
      if LangMatches (lit "en") locale then [(0x24, lit "_money_")] else [])) none).Roomy 1 :=
    ⟨⟨0x09, lit "_tab_", by show lastOf _ 0x09 = _; rw [manual_row, if_pos rfl], by decide⟩, nofun⟩
  have h2 : (TableText.mk (lastOf (writtenRows builtin_safe_rows)) none).Roomy 1 :=
    ⟨⟨0x20, lit "_", by decide +kernel, by decide⟩, nofun⟩
  refine ⟨fun _ _ => ⟨_, .filename _ manualTable _ rfl rfl manualFiles_table (manual_table locale), h1⟩, fun g hg => ?_⟩
  simp only [List.mem_cons, List.not_mem_nil, or_false] at hg
  rcases hg with rfl | rfl
  · exact fun _ _ => ⟨_, .fallback _ _ .safe rfl rfl manual_usual .safe, h2⟩
  · exact fun _ hu => by cases hu

/-- **C117.** A tree after `detox` with the two files of the example of the manual in place. -/
theorem C117_manual_tree {P : Platform} (hP : P.Benign) {locale : Bytes} {args : List Bytes} {fuel : Nat} {ss : List Setting} {ws : List Bytes}
    (hr : Renames (manualCall locale args) ss ws) (hs : lastConfig ss = none) (hn : lastSequence ss = none) (hd : Setting.dryRun ∉ ss) {tr : List Event}
    (h : Trace (detoxMain P (manualCall locale args) fuel) tr (.ret ())) (hf : ∀ e ∈ tr, Faithful manualFiles e) (hsl : Silent tr)
    {fs : FS} {depth : Ino → Nat} {slack level : Nat} {w : World} (hnul : ∀ f ∈ ws, NulFree f) (hnames : ∀ e ∈ fs.entries, NulFree e.name) (ht : fs.Tree depth slack)
    (hst : ∀ f ∈ ws, fs.Steady depth slack level f) (hsteps : World.Steps (World.start fs) tr w)
    (ha : ∀ p r, Event.lstat p r ∈ tr → fs.denied p = false) (hex : ∀ f ∈ ws, fs.lookup f ≠ none)
    (hlit : fs.LiteralRun (fun m v => IsWipeup false (m.flatMap (manualSays locale)) v) ws tr)
    (o : Options) (hrec : o.recurse = true ↔ Setting.recurse ∈ ss) (hsp : o.special = true ↔ Setting.special ∈ ss) :
    fs.Cleaned (fun m v => IsWipeup false (m.flatMap (manualSays locale)) v) o ws [] w.fs := by
  have hc : configsInEffect (manualCall locale args).config none manualFiles = [(lit "/home/MYUSERNAME/.detoxrc", manualConfig)] := manual_in_effect
  have hw : Written (manualCall locale args) ss manualFiles false
      { name := lit "default", filters := manualFilters, sourceFilename := some (lit "/home/MYUSERNAME/.detoxrc") } := by
    refine ⟨⟨_, .written [(lit "/home/MYUSERNAME/.detoxrc", manualConfig, [.sequence (lit "default") manualFilters])] (by simp)
      (by rw [hs]; exact hc.symm) (one_means _ manual_config), ?_⟩, manual_fit locale⟩
    unfold requested
    rw [hn]
    exact .inl ⟨[], [], rfl, rfl, by simp⟩
  have hi : IgnoredAre (manualCall locale args).config (lastConfig ss) manualFiles [] := by
    have := IgnoredAre.written (E := (manualCall locale args).config) (given := lastConfig ss) (files := manualFiles)
      [(lit "/home/MYUSERNAME/.detoxrc", manualConfig, [.sequence (lit "default") manualFilters])] (by simp)
      (by rw [hs]; exact hc.symm) (one_means _ manual_config)
    exact this
  have means : ∀ {m v : Bytes}, FiltersSay P locale none manualFiles manualFilters m v → IsWipeup false (m.flatMap (manualSays locale)) v := manual_means P locale
  have lit' : ∀ n, fs.Literal (fun m v => IsWipeup false (m.flatMap (manualSays locale)) v) n → fs.Literal (FiltersSay P locale none manualFiles manualFilters) n :=
    fun n hl e he m hm => hl e he m (hm.imp id means)
  obtain ⟨hset, hset0⟩ := manual_settles P locale
  obtain ⟨new, k1, k2⟩ := C117_configured_tree hP hr hd hw hi h hf hsl hset (fun m v hm hv => ⟨hset0 m v hm hv, nofun⟩) hnul hnames ht hst hsteps ha hex
    ⟨fun f hf dir name hsp => lit' _ (hlit.args f hf dir name hsp), fun k n hm => lit' _ (hlit.entries k n hm)⟩ o hrec hsp
  exact ⟨new, k1, fun e he => ⟨fun ht => means ((k2 e he).1 ht), (k2 e he).2.1, (k2 e he).2.2.imp id means⟩⟩

/-! ### A concrete case: `detox -r 'my dir'`, with a file `a & b` and one `$ 1` -/

def moneyFS : FS := { treeFS with
  entries := [⟨⟨1, 1⟩, lit "my dir", ⟨1, 2⟩⟩, ⟨⟨1, 2⟩, lit "a & b", ⟨1, 3⟩⟩, ⟨⟨1, 2⟩, lit "sub x", ⟨1, 4⟩⟩,
    ⟨⟨1, 4⟩, lit "$ 1", ⟨1, 5⟩⟩, ⟨⟨1, 2⟩, lit ".hid den", ⟨1, 6⟩⟩] }

def moneyTrace : List Event :=
  manualTrace.take 6 ++ [
  .lstat (lit "my dir") (some ⟨1, 2, 2, .dir⟩), .lstat (lit "my dir") (some ⟨1, 2, 2, .dir⟩), .lstat (lit "my_dir") none,
  .rename (lit "my dir") (lit "my_dir") true, .lstat (lit "my_dir") (some ⟨1, 2, 2, .dir⟩), .opendir (lit "my_dir") (.ok 0),
  .readdir 0 (some (lit ".")), .readdir 0 (some (lit "a & b")),
  .lstat (lit "my_dir/a & b") (some ⟨1, 3, 1, .reg⟩), .lstat (lit "my_dir/a & b") (some ⟨1, 3, 1, .reg⟩), .lstat (lit "my_dir/a_and_b") none,
  .rename (lit "my_dir/a & b") (lit "my_dir/a_and_b") true,
  .readdir 0 (some (lit "sub x")),
  .lstat (lit "my_dir/sub x") (some ⟨1, 4, 2, .dir⟩), .lstat (lit "my_dir/sub x") (some ⟨1, 4, 2, .dir⟩), .lstat (lit "my_dir/sub_x") none,
  .rename (lit "my_dir/sub x") (lit "my_dir/sub_x") true,
  .lstat (lit "my_dir/sub_x") (some ⟨1, 4, 2, .dir⟩), .opendir (lit "my_dir/sub_x") (.ok 1),
  .readdir 1 (some (lit "$ 1")), .lstat (lit "my_dir/sub_x/$ 1") (some ⟨1, 5, 1, .reg⟩),
  .lstat (lit "my_dir/sub_x/$ 1") (some ⟨1, 5, 1, .reg⟩), .lstat (lit "my_dir/sub_x/money_1") none,
  .rename (lit "my_dir/sub_x/$ 1") (lit "my_dir/sub_x/money_1") true,
  .readdir 1 none, .closedir 1,
  .readdir 0 (some (lit "a_and_b")), .lstat (lit "my_dir/a_and_b") (some ⟨1, 3, 1, .reg⟩), .readdir 0 (some (lit ".hid den")), .readdir 0 none, .closedir 0]

theorem moneyTrace_run : Trace (detoxMain .linux (manualCall (lit "en_US.UTF-8") [lit "-r", lit "my dir"]) 10) moneyTrace (.ret ()) :=
  Prog.result_sound _ _ _ (by decide +kernel)

theorem moneyFS_tree : moneyFS.Tree treeDepth 1 where
  unique := by unfold FS.Unique; decide +kernel
  level := by decide +kernel
  once := by decide +kernel
  bound := treeFS_tree.bound

example : ∃ w, World.Steps (World.start moneyFS) moneyTrace w ∧
    moneyFS.Cleaned (fun m v => IsWipeup false (m.flatMap (manualSays (lit "en_US.UTF-8"))) v) { recurse := true } [lit "my dir"] [] w.fs ∧
    w.fs.entries.map Entry.name = [lit "my_dir", lit "a_and_b", lit "sub_x", lit "money_1", lit ".hid den"] := by
  obtain ⟨w, h1, h2⟩ := World_exec_out (w := World.start moneyFS) (tr := moneyTrace) (f := fun w => w.fs.entries.map Entry.name)
    (x := [lit "my_dir", lit "a_and_b", lit "sub_x", lit "money_1", lit ".hid den"]) (by decide +kernel)
  refine ⟨w, h1, ?_, h2⟩
  have hlit := literal_exact (fs := moneyFS) (fun _ _ _ h => h) (fun m v => IsWipeup false (m.flatMap (manualSays (lit "en_US.UTF-8"))) v)
  refine C117_manual_tree (level := 0) (P := .linux) (args := [lit "-r", lit "my dir"]) (ss := [.recurse]) (ws := [lit "my dir"]) (by decide)
    ⟨.cluster [0x72] [.recurse] _ _ [] (by simp) (.cons _ _ _ _ .recurse .nil) (.operand _ _ _ _ rfl (.inl (by decide +kernel)) .none),
      by intro s hs; rw [List.mem_singleton.1 hs]; simp [Setting.Leaves], by simp,
      not_or.2 ⟨fun h => by rw [← posixBasename_inline] at h; exact absurd h (by decide +kernel), by simp⟩, by simp⟩ rfl rfl (by simp)
    moneyTrace_run ?_ (by intro s hm; simp [moneyTrace, manualTrace] at hm) (by decide +kernel) (by unfold NulFree; decide +kernel) moneyFS_tree ?_ h1 (fun _ _ _ => rfl)
    (by decide +kernel) ⟨fun _ _ _ _ _ => hlit _, fun _ _ _ => hlit _⟩ _ (by simp) (by simp)
  · rintro e he p r rfl
    simp only [moneyTrace, manualTrace, List.take_succ_cons, List.take_zero, List.cons_append, List.nil_append, List.mem_cons, Event.slurp.injEq, Option.some.injEq,
      reduceCtorEq, List.not_mem_nil, or_false] at he
    rcases he with ⟨rfl, rfl⟩ | ⟨rfl, rfl⟩ | ⟨rfl, rfl⟩ | ⟨rfl, rfl⟩ | ⟨rfl, rfl⟩ | ⟨rfl, rfl⟩
    · exact (manualFiles_none (by decide +kernel) (by decide +kernel)).symm
    · exact (manualFiles_none (by decide +kernel) (by decide +kernel)).symm
    · exact manualFiles_config.symm
    · exact manualFiles_table.symm
    · exact (manualFiles_none (by decide +kernel) (by decide +kernel)).symm
    · exact (manualFiles_none (by decide +kernel) (by decide +kernel)).symm
  · intro f hf
    rw [List.mem_singleton.1 hf]
    exact .name [] (lit "my dir") ⟨1, 1⟩ rfl (.inl rfl) (by decide +kernel) (by decide +kernel) (by decide +kernel) (by decide +kernel)
      ⟨by decide +kernel, by decide +kernel, by decide +kernel, Nat.zero_le _⟩

/-! ### One pass is not always enough -/

/-- A table that exchanges two letters. -/
def swapTable : Bytes := lit "start\n0x61 b\n0x62 a\nend\n"

def swapFiles (p : Bytes) : Option Bytes := if p = lit "rc" then some accentConfig else if p = lit "t" then some swapTable else none

def swapSequence : Sequence :=
  { name := lit "default", filters := [{ cleaner := .safe, filename := some (lit "t") }], sourceFilename := some (lit "rc") }

def swapCall : Invocation := { program := lit "detox", args := [lit "-f", lit "rc", lit "-r", lit "d"] }

def swapFS : FS := { treeFS with entries := [⟨⟨1, 1⟩, lit "d", ⟨1, 2⟩⟩, ⟨⟨1, 2⟩, lit "a", ⟨1, 3⟩⟩] }

/-- `readdir` gives the file again, with its new name. -/
def swapTrace : List Event :=
  [.slurp (some (lit "rc")) (some accentConfig), .slurp (some (lit "t")) (some swapTable), .lstat (lit "d") (some ⟨1, 2, 2, .dir⟩),
   .lstat (lit "d") (some ⟨1, 2, 2, .dir⟩), .opendir (lit "d") (.ok 0),
   .readdir 0 (some (lit "a")), .lstat (lit "d/a") (some ⟨1, 3, 1, .reg⟩), .lstat (lit "d/a") (some ⟨1, 3, 1, .reg⟩), .lstat (lit "d/b") none,
   .rename (lit "d/a") (lit "d/b") true,
   .readdir 0 (some (lit "b")), .lstat (lit "d/b") (some ⟨1, 3, 1, .reg⟩), .lstat (lit "d/b") (some ⟨1, 3, 1, .reg⟩), .lstat (lit "d/a") none,
   .rename (lit "d/b") (lit "d/a") true, .readdir 0 none, .closedir 0]

theorem swap_table (locale : Bytes) : SaysTable locale swapTable ⟨lastOf [(0x61, lit "b"), (0x62, lit "a")], none⟩ := by
  refine ⟨[lit "start", lit "0x61 b", lit "0x62 a", lit "end"], [.block [(0x61, lit "b"), (0x62, lit "a")]],
    ⟨by unfold GoodLine; decide +kernel, .inl (by decide +kernel)⟩,
    .cons [lit "start", lit "0x61 b", lit "0x62 a", lit "end"] _ _ _ (.block _ [lit "0x61 b", lit "0x62 a"] _ _ (.mk [] (lit "start") [] (by decide) (by decide) (by decide))
      (.row _ _ (0x61, lit "b") _ (.row [] (lit "0x61") (lit " ") (lit "b") _ _ (by decide)
        (.hex 0x78 (lit "61") 0x61 (Or.inl rfl) (by decide) (digits_hex2 _ _ 6 1 16 (by decide) (by decide) (by decide) (by decide)))
        (by decide) (by decide) (.bare 0x62 [] [] (by decide) (by decide) (by decide) (Or.inl rfl)) (by decide) (by decide))
      (.row _ _ (0x62, lit "a") _ (.row [] (lit "0x62") (lit " ") (lit "a") _ _ (by decide)
        (.hex 0x78 (lit "62") 0x62 (Or.inl rfl) (by decide) (digits_hex2 _ _ 6 2 16 (by decide) (by decide) (by decide) (by decide)))
        (by decide) (by decide) (.bare 0x61 [] [] (by decide) (by decide) (by decide) (Or.inl rfl)) (by decide) (by decide)) .nil))
      (.mk [] (lit "end") [] (by decide) (by decide) (by decide))) .nil, ?_, rfl⟩
  simp [effectiveRows]
  omega

theorem swap_says (P : Platform) (locale : Bytes) {s v : Bytes} (h : FiltersSay P locale none swapFiles swapSequence.filters s v) :
    v = s.flatMap fun c => (TableText.mk (lastOf [(0x61, lit "b"), (0x62, lit "a")]) none).says (safeCode P c) [c] :=
  filterSays_unique (filtersSay_one.1 h) (.safe _ rfl (.filename _ swapTable _ rfl rfl (by unfold swapFiles; rw [if_neg (by decide +kernel), if_pos rfl]) (swap_table locale)))

/-- **C117.** With a table that exchanges two letters one pass may be two: all of the above holds of a run of `detox -f rc -r d` but for `Settles`, nothing is
complained about, and the file in `d` has, in the end, the name it had. -/
theorem C117_unsettled_tree : Renames swapCall [.config (lit "rc"), .recurse] [lit "d"] ∧
    Written swapCall [.config (lit "rc"), .recurse] swapFiles false swapSequence ∧ IgnoredAre swapCall.config (some (lit "rc")) swapFiles [] ∧
    Trace (detoxMain .linux swapCall 10) swapTrace (.ret ()) ∧ (∀ e ∈ swapTrace, Faithful swapFiles e) ∧ Silent swapTrace ∧ swapFS.Tree treeDepth 1 ∧
    swapFS.Steady treeDepth 1 0 (lit "d") ∧ swapFS.LiteralRun (FiltersSay .linux swapCall.ctype swapCall.datadir swapFiles swapSequence.filters) [lit "d"] swapTrace ∧
    ∃ w, World.Steps (World.start swapFS) swapTrace w ∧ w.fs.entries.map Entry.name = [lit "d", lit "a"] ∧
      ¬ swapFS.Cleaned (FiltersSay .linux swapCall.ctype swapCall.datadir swapFiles swapSequence.filters) { recurse := true } [lit "d"] [] w.fs := by
  have hrc : swapFiles (lit "rc") = some accentConfig := by unfold swapFiles; rw [if_pos rfl]
  have ht : swapFiles (lit "t") = some swapTable := by unfold swapFiles; rw [if_neg (by decide +kernel), if_pos rfl]
  have hc : configsInEffect swapCall.config (some (lit "rc")) swapFiles = [(lit "rc", accentConfig)] := by
    unfold configsInEffect present
    simp only [List.filterMap_cons, List.filterMap_nil, hrc, Option.map_some]
  have hlit := literal_exact (fs := swapFS) (fun _ _ _ h => h) (FiltersSay .linux swapCall.ctype swapCall.datadir swapFiles swapSequence.filters)
  refine ⟨⟨.separate [] [] 0x66 (lit "rc") _ _ _ [.recurse] .nil (.config _) (.cluster [0x72] [.recurse] _ _ [] (by simp) (.cons _ _ _ _ .recurse .nil)
    (.operand _ _ _ _ rfl (.inl (by decide +kernel)) .none)), ?_, by simp, ?_, by simp⟩, ⟨⟨_, .written
      [(lit "rc", accentConfig, [.sequence (lit "default") swapSequence.filters])] (by simp) hc.symm (one_means _ accent_config),
      .inl ⟨[], [], rfl, rfl, by simp⟩⟩, ?_, nofun⟩, ?_, Prog.result_sound _ _ _ (by decide +kernel), ?_, ?_, ?_, ?_,
      ⟨fun _ _ _ _ _ => hlit _, fun _ _ _ => hlit _⟩, ?_⟩
  · intro s hs
    simp only [List.mem_cons, List.not_mem_nil, or_false] at hs
    rcases hs with rfl | rfl <;> simp [Setting.Leaves]
  · rintro (h | h)
    · rw [← posixBasename_inline] at h; exact absurd h (by decide +kernel)
    · simp at h
  · exact fun _ _ => ⟨_, .filename _ swapTable _ rfl rfl ht (swap_table _), ⟨0x61, lit "b", by decide +kernel, by decide⟩, nofun⟩
  · exact IgnoredAre.written (E := swapCall.config) (given := some (lit "rc")) (files := swapFiles)
      [(lit "rc", accentConfig, [.sequence (lit "default") swapSequence.filters])] (by simp) hc.symm (one_means _ accent_config)
  · rintro e he p r rfl
    simp only [swapTrace, List.mem_cons, Event.slurp.injEq, Option.some.injEq, reduceCtorEq, List.not_mem_nil, or_false] at he
    rcases he with ⟨rfl, rfl⟩ | ⟨rfl, rfl⟩
    · exact hrc.symm
    · exact ht.symm
  · intro s hm
    simp [swapTrace] at hm
  · exact ⟨by unfold FS.Unique; decide +kernel, by decide +kernel, by decide +kernel, treeFS_tree.bound⟩
  · exact .name [] (lit "d") ⟨1, 1⟩ rfl (.inl rfl) (by decide +kernel) (by decide +kernel) (by decide +kernel) (by decide +kernel)
      ⟨by decide +kernel, by decide +kernel, by decide +kernel, Nat.zero_le _⟩
  · obtain ⟨w, h1, h2⟩ := World_exec_out (w := World.start swapFS) (tr := swapTrace) (f := fun w => w.fs.entries.map Entry.name)
      (x := [lit "d", lit "a"]) (by decide +kernel)
    refine ⟨w, h1, h2, ?_⟩
    rintro ⟨new, k1, k2⟩
    rw [k1] at h2
    have hn : new ⟨⟨1, 2⟩, lit "a", ⟨1, 3⟩⟩ = lit "a" := by
      have : [new ⟨⟨1, 1⟩, lit "d", ⟨1, 2⟩⟩, new ⟨⟨1, 2⟩, lit "a", ⟨1, 3⟩⟩] = [lit "d", lit "a"] := h2
      simp only [List.cons.injEq, and_true] at this
      exact this.2
    have hsay := (k2 ⟨⟨1, 2⟩, lit "a", ⟨1, 3⟩⟩ (by decide +kernel)).1 ⟨.inr (.inl (by decide +kernel)), .inr
      ⟨.arg (lit "d") ⟨1, 2⟩ (by simp) (by decide +kernel) (by decide +kernel), by
        rintro (⟨_, h⟩ | h)
        · revert h; simp [lit]
        · simp at h⟩⟩
    rw [hn] at hsay
    have := swap_says _ _ hsay
    revert this
    decide +kernel

end Detox
