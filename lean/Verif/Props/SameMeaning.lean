import Verif.Props.SameName

/-!
# C130: configurations that mean the same

What detox does to a tree is decided by what the filters say, not by how that is written: where the config file is, which tables are in files and which are
built in, how the sequence is called, and which filters it consists of do not matter as long as the same becomes of every name.
-/

set_option autoImplicit false

namespace Detox
open Spec

/-- Two ways to call detox for the same arguments, with the same `-r` and `--special`; each with a configuration of its own that can be read. Of every name
the sequences make the same. -/
structure MeansTheSame (P : Platform) (I1 I2 : Invocation) (ss1 ss2 : List Setting) (ws : List Bytes) (files1 files2 : Bytes → Option Bytes) (plain : Bool)
    (q1 q2 : Sequence) (ig2 : List Bytes) : Prop where
  asked : Renames I2 ss2 ws
  wet : Setting.dryRun ∉ ss2
  written : Written I2 ss2 files2 plain q2
  ignored : IgnoredAre I2.config (lastConfig ss2) files2 ig2
  alike : ∀ m v, NulFree m → (FiltersSay P I1.ctype I1.datadir files1 q1.filters m v ↔ FiltersSay P I2.ctype I2.datadir files2 q2.filters m v)
  recurse : Setting.recurse ∈ ss2 ↔ Setting.recurse ∈ ss1
  special : Setting.special ∈ ss2 ↔ Setting.special ∈ ss1

section
variable {P : Platform} {I1 I2 : Invocation} {ss1 ss2 : List Setting} {ws : List Bytes} {files1 files2 : Bytes → Option Bytes} {plain : Bool} {q1 q2 : Sequence}
variable {ig1 ig2 : List Bytes} {fs : FS} {depth : Ino → Nat} {slack level : Nat}

theorem MeansTheSame.case (h : MeansTheSame P I1 I2 ss1 ss2 ws files1 files2 plain q1 q2 ig2)
    (hu : ConfiguredCase P I1 ss1 ws files1 plain q1 ig1 fs depth slack level) : ConfiguredCase P I2 ss2 ws files2 plain q2 ig2 fs depth slack level where
  asked := h.asked
  wet := h.wet
  written := h.written
  ignored := h.ignored
  settles := ⟨fun m v hm hv => by
      have hv := (h.alike m v hm).2 hv
      exact (h.alike v v (hu.fits m v hm hv).1).1 (hu.settles.again m v hm hv),
    fun m v hm hs hv => hu.settles.slash m v hm hs ((h.alike m v hm).2 hv)⟩
  fits := fun m v hm hv => hu.fits m v hm ((h.alike m v hm).2 hv)
  tree := hu.tree
  steady := hu.steady
  allowed := hu.allowed
  exact := hu.exact
  here := hu.here
  args := hu.args
  names := fun e he v hv => hu.names e he v (hv.imp id (h.alike _ v (hu.names e he _ (.inl rfl)).1.nul).2)

/-- **C130.** Two runs over the same tree, each with its own config files, tables and sequence, that have no complaints: if the sequences make the same of every
name, the file system is afterwards in the same state. -/
theorem C130_same_meaning (hP : P.Benign) (hm : MeansTheSame P I1 I2 ss1 ss2 ws files1 files2 plain q1 q2 ig2)
    (hu : ConfiguredCase P I1 ss1 ws files1 plain q1 ig1 fs depth slack level) (hno : ∀ e ∈ fs.entries, e.name ∉ ig1 ∧ e.name ∉ ig2)
    {tr1 tr2 : List Event} {w1 w2 : World} (h1 : ConfiguredAttempt P I1 files1 plain fs tr1 (.ret ()) w1) (hs1 : Silent tr1)
    (h2 : ConfiguredAttempt P I2 files2 plain fs tr2 (.ret ()) w2) (hs2 : Silent tr2) : w1.fs = w2.fs := by
  let o : Options := { recurse := decide (Setting.recurse ∈ ss1), special := decide (Setting.special ∈ ss1) }
  have hrec : o.recurse = true ↔ Setting.recurse ∈ ss1 := decide_eq_true_iff
  have hsp : o.special = true ↔ Setting.special ∈ ss1 := decide_eq_true_iff
  have hu2 := hm.case hu
  obtain ⟨fuel1, hrun1⟩ := hu.run h1
  obtain ⟨fuel2, hrun2⟩ := hu2.run h2
  have lit1 := literal_exact (fs := fs) hu.exact (FiltersSay P I1.ctype I1.datadir files1 q1.filters)
  have lit2 := literal_exact (fs := fs) hu2.exact (FiltersSay P I2.ctype I2.datadir files2 q2.filters)
  have c1 := hrun1.cleaned hP hs1 ⟨fun _ _ _ _ _ => lit1 _, fun _ _ _ => lit1 _⟩ o hrec hsp
  obtain ⟨new, e2, c2⟩ := hrun2.cleaned hP hs2 ⟨fun _ _ _ _ _ => lit2 _, fun _ _ _ => lit2 _⟩ o (hrec.trans hm.recurse.symm) (hsp.trans hm.special.symm)
  refine C98_only_one_result hu.onePass.one (fun e he => (hno e he).1) c1 ⟨new, e2, fun e he => ?_⟩
  have h0 : NulFree e.name := (hu.names e he _ (.inl rfl)).1.nul
  refine ⟨fun ht => (hm.alike _ _ h0).2 ((c2 e he).1 ?_), (c2 e he).2.1, (c2 e he).2.2.imp id (hm.alike _ _ h0).2⟩
  refine treats_congr id id (fun _ h => h) ?_ he ht
  rintro e he (h | h)
  · exact .inl h
  · exact absurd h (hno e he).2

end

/-- **C130.** The same in inline mode: what is printed for a text is the same. -/
theorem C130_same_lines {P : Platform} (hP : P.Benign) {I1 I2 : Invocation} {fuel1 fuel2 : Nat} {ss1 ss2 : List Setting} {files1 files2 : Bytes → Option Bytes}
    {plain1 plain2 : Bool} {q1 q2 : Sequence}
    (hc1 : CommandLine I1.posixlyCorrect I1.args ss1 []) (hi1 : CalledInline I1.program ∨ Setting.inline ∈ ss1) (hw1 : Written I1 ss1 files1 plain1 q1)
    (hc2 : CommandLine I2.posixlyCorrect I2.args ss2 []) (hi2 : CalledInline I2.program ∨ Setting.inline ∈ ss2) (hw2 : Written I2 ss2 files2 plain2 q2)
    (alike : ∀ m v, NulFree m → FiltersSay P I1.ctype I1.datadir files1 q1.filters m v → FiltersSay P I2.ctype I2.datadir files2 q2.filters m v)
    {tr1 tr2 : List Event} (h1 : Trace (detoxMain P I1 fuel1) tr1 (.ret ())) (hf1 : ∀ e ∈ tr1, Faithful files1 e)
    (h2 : Trace (detoxMain P I2 fuel2) tr2 (.ret ())) (hf2 : ∀ e ∈ tr2, Faithful files2 e) {s : Bytes} {ls : List Bytes} (hls : ShortLines ls s)
    (hin1 : Event.slurp none (some s) ∈ tr1) (hin2 : Event.slurp none (some s) ∈ tr2) : outText tr1 = outText tr2 := by
  have l1 := C129_lines_as_written hP hc1 hi1 hw1 h1 hf1 hin1 hls
  have l2 := C129_lines_as_written hP hc2 hi2 hw2 h2 hf2 hin2 hls
  have h0 : ∀ l ∈ ls, NulFree l := fun l hl => (hls.2 l hl).2.2
  clear hls hin1 hin2 h1 h2 hf1 hf2
  generalize outText tr1 = a at l1
  generalize outText tr2 = b at l2
  induction l1 generalizing b with
  | nil => cases l2; rfl
  | dots l ls out hd _ ih =>
    cases l2 with
    | dots _ _ out' _ h => rw [ih (fun x hx => h0 x (by simp [hx])) _ h]
    | line _ v _ out' n1 n2 _ _ => rcases hd with hd | hd <;> contradiction
  | line l v ls out n1 n2 hv _ ih =>
    cases l2 with
    | dots _ _ out' hd _ => rcases hd with hd | hd <;> contradiction
    | line _ v' _ out' _ _ hv' h =>
      rw [ih (fun x hx => h0 x (by simp [hx])) _ h, filtersSay_unique (alike l v (h0 l (by simp)) hv) hv']

/-! ### Which filters say the same -/

section
variable {P : Platform} {l1 l2 : Bytes} {d1 d2 : Option Bytes} {files1 files2 : Bytes → Option Bytes}

/-- **C130.** It does not matter where a table comes from: a filter says what its table says, be it built in, in a file that is named, in a file in one of the
usual places, or, for lack of that, built in. -/
theorem C130_same_table {f g : Filter} {m : TableText} (hc : f.cleaner = g.cleaner) (hf : TableSays l1 d1 files1 f m) (hg : TableSays l2 d2 files2 g m)
    (ht : f.cleaner = .safe ∨ f.cleaner = .iso8859_1 ∨ f.cleaner = .utf8) (s v : Bytes) :
    FilterSays P l1 d1 files1 f s v ↔ FilterSays P l2 d2 files2 g s v := by
  have half : ∀ {l1 l2 : Bytes} {d1 d2 : Option Bytes} {files1 files2 : Bytes → Option Bytes} {f g : Filter}, f.cleaner = g.cleaner →
      TableSays l1 d1 files1 f m → TableSays l2 d2 files2 g m → (f.cleaner = .safe ∨ f.cleaner = .iso8859_1 ∨ f.cleaner = .utf8) →
      FilterSays P l1 d1 files1 f s v → FilterSays P l2 d2 files2 g s v := by
    intro l1 l2 d1 d2 files1 files2 f g hc hf hg ht h
    cases h with
    | lower h => rw [h] at ht; simp at ht
    | wipeup _ h => rw [h] at ht; simp at ht
    | uncgi _ h => rw [h] at ht; simp at ht
    | maxLength _ h => rw [h] at ht; simp at ht
    | iso8859_1 m' h hm => rw [tableSays_unique hm hf]; exact .iso8859_1 _ (hc ▸ h) hg
    | safe m' h hm => rw [tableSays_unique hm hf]; exact .safe _ (hc ▸ h) hg
    | utf8 m' _ h hm hu => rw [tableSays_unique hm hf] at hu; exact .utf8 _ _ (hc ▸ h) hg hu
  exact ⟨half hc hf hg ht, half hc.symm hg hf (hc ▸ ht)⟩

/- `safe { builtin "safe"; };`, and `safe;` where no table is installed. -/
example (s v : Bytes) : FilterSays P l1 d1 files1 { cleaner := .safe, builtin := some (lit "safe") } s v ↔
    FilterSays P (lit "C") none (fun _ => none) { cleaner := .safe } s v :=
  C130_same_table (f := { cleaner := .safe, builtin := some (lit "safe") }) (g := { cleaner := .safe }) rfl (.builtin _ _ rfl .safe) (.fallback _ _ .safe rfl rfl (fun _ _ => rfl) .safe) (.inl rfl) s v

/-- **C130.** Filters without a table depend on neither files nor locale. -/
theorem C130_no_table {f g : Filter} (hc : f.cleaner = g.cleaner) (hr : f.removeTrailing = g.removeTrailing) (hl : f.maxLength = g.maxLength)
    (ht : f.cleaner = .lower ∨ f.cleaner = .wipeup ∨ f.cleaner = .uncgi ∨ f.cleaner = .maxLength) (s v : Bytes) :
    FilterSays P l1 d1 files1 f s v ↔ FilterSays P l2 d2 files2 g s v := by
  have half : ∀ {l1 l2 : Bytes} {d1 d2 : Option Bytes} {files1 files2 : Bytes → Option Bytes} {f g : Filter}, f.cleaner = g.cleaner →
      f.removeTrailing = g.removeTrailing → f.maxLength = g.maxLength →
      (f.cleaner = .lower ∨ f.cleaner = .wipeup ∨ f.cleaner = .uncgi ∨ f.cleaner = .maxLength) →
      FilterSays P l1 d1 files1 f s v → FilterSays P l2 d2 files2 g s v := by
    intro l1 l2 d1 d2 files1 files2 f g hc hr hl ht h
    cases h with
    | lower h => exact .lower (hc ▸ h)
    | wipeup _ h h' => exact .wipeup _ (hc ▸ h) (hr ▸ h')
    | uncgi _ h h' => exact .uncgi _ (hc ▸ h) h'
    | maxLength _ h h' => exact .maxLength _ (hc ▸ h) (hl ▸ h')
    | iso8859_1 m' h hm => rw [h] at ht; simp at ht
    | safe m' h hm => rw [h] at ht; simp at ht
    | utf8 m' _ h hm hu => rw [h] at ht; simp at ht
  exact ⟨half hc hr hl ht, half hc.symm hr.symm hl.symm (hc ▸ ht)⟩

/-- **C130.** Filter by filter. -/
theorem C130_filter_by_filter {ps : List (Filter × Filter)} (h : ∀ p ∈ ps, ∀ s v, FilterSays P l1 d1 files1 p.1 s v ↔ FilterSays P l2 d2 files2 p.2 s v)
    (s v : Bytes) : FiltersSay P l1 d1 files1 (ps.map Prod.fst) s v ↔ FiltersSay P l2 d2 files2 (ps.map Prod.snd) s v := by
  induction ps generalizing s with
  | nil =>
    constructor
    · intro h; cases h; exact .nil _
    · intro h; cases h; exact .nil _
  | cons p ps ih =>
    have ih := ih fun p hp => h p (by simp [hp])
    constructor
    · intro hs
      cases hs with
      | cons _ _ _ mid _ a b => exact .cons _ _ _ mid _ ((h p (by simp) _ _).1 a) ((ih _).1 b)
    · intro hs
      cases hs with
      | cons _ _ _ mid _ a b => exact .cons _ _ _ mid _ ((h p (by simp) _ _).2 a) ((ih _).2 b)

end

section
variable {P : Platform} {locale : Bytes} {datadir : Option Bytes} {files : Bytes → Option Bytes}

/-- **C130.** `wipeup` or `lower` twice in a row is `wipeup` or `lower` once. -/
theorem C130_twice {f : Filter} (hf : f.cleaner = .lower ∨ f.cleaner = .wipeup) {m : Bytes} (hm : NulFree m) (v : Bytes) :
    FiltersSay P locale datadir files [f, f] m v ↔ FiltersSay P locale datadir files [f] m v := by
  have again : ∀ {u}, FilterSays P locale datadir files f m u → FilterSays P locale datadir files f u u := by
    intro u h
    rcases hf with hf | hf
    · have e := filterSays_unique h (.lower hf)
      subst e
      have low : ∀ c : Byte, small (small c) = small c := forall_byte (by decide +kernel)
      have : FilterSays P locale datadir files f (m.map small) ((m.map small).map small) := .lower hf
      rwa [List.map_map, show (small ∘ small) = small from funext low] at this
    · obtain ⟨out, h1, h2, _⟩ := C04_wipeup_is_the_documented_reduction f.removeTrailing m hm
      have e := filterSays_unique h (.wipeup _ hf h2)
      subst e
      obtain ⟨_, _, _, h4, h5⟩ := C05_wipeup_normal_and_idempotent _ _ _ hm h1
      obtain ⟨out', h6, h7, _⟩ := C04_wipeup_is_the_documented_reduction f.removeTrailing u fun h0 => hm (h4 _ h0)
      rw [h5] at h6
      cases h6
      exact .wipeup _ hf h7
  rw [filtersSay_one]
  constructor
  · intro h
    cases h with
    | cons _ _ _ mid _ a b =>
      have b := filtersSay_one.1 b
      rw [filterSays_unique b (again a)]
      exact a
  · intro h
    exact .cons _ _ _ _ _ h (filtersSay_one.2 (again h))

theorem reduces_small {rt : Bool} {s o : Bytes} (h : Reduces rt s o) : Reduces rt (s.map small) (o.map small) := by
  have red : ∀ (rt : Bool) (c : Byte), reducible rt (small c) = reducible rt c := by
    intro rt
    cases rt <;> exact forall_byte (by decide +kernel)
  have fix : ∀ (rt : Bool) (c : Byte), reducible rt c = true → small c = c := by
    intro rt
    cases rt <;> exact forall_byte (by decide +kernel)
  induction h with
  | nil => exact .nil
  | keep c s o hc _ ih => exact .keep _ _ _ (by rw [red]; exact hc) ih
  | run r s o hr hall hh _ ih =>
    have hmap : r.map small = r := (List.map_congr_left fun c hc => fix rt c (hall c hc)).trans (List.map_id r)
    have hch : small (runChar r) = runChar r := by
      unfold runChar
      split
      · decide
      · split <;> decide
    rw [List.map_append, List.map_cons, hmap, hch]
    refine .run _ _ _ hr hall (fun c hc => ?_) ih
    cases s with
    | nil => cases hc
    | cons x s =>
      cases hc
      rw [red]
      exact hh x rfl

/-- **C130.** `lower` and `wipeup` can be exchanged. -/
theorem C130_lower_and_wipeup {f g : Filter} (hf : f.cleaner = .lower) (hg : g.cleaner = .wipeup) {m : Bytes} (hm : NulFree m) (v : Bytes) :
    FiltersSay P locale datadir files [f, g] m v ↔ FiltersSay P locale datadir files [g, f] m v := by
  obtain ⟨out, _, h2, _⟩ := C04_wipeup_is_the_documented_reduction g.removeTrailing m hm
  have lead : ∀ c : Byte, leading (small c) = leading c := forall_byte (by decide +kernel)
  have h3 : IsWipeup g.removeTrailing (m.map small) (out.map small) := by
    unfold IsWipeup at h2 ⊢
    rw [List.dropWhile_map, show (leading ∘ small) = leading from funext lead]
    exact reduces_small h2
  have a : FiltersSay P locale datadir files [f, g] m (out.map small) := .cons _ _ _ _ _ (.lower hf) (filtersSay_one.2 (.wipeup _ hg h3))
  have b : FiltersSay P locale datadir files [g, f] m (out.map small) := .cons _ _ _ _ _ (.wipeup _ hg h2) (filtersSay_one.2 (.lower hf))
  exact ⟨fun h => filtersSay_unique h a ▸ b, fun h => filtersSay_unique h b ▸ a⟩

end

/-! ### A concrete case: `detox -f rc -r -s b d` and `detox -f rc -r -s x d` -/

theorem partsTrace_x : Trace (detoxMain .linux (partsCall (lit "x")) 10)
    (partsTrace (lit "A__B") (lit "a_b") (lit "C__D") (lit "c_d") (lit "E__F") (lit "e_f")) (.ret ()) := Prog.result_sound _ _ _ (by decide +kernel)

theorem parts_means : MeansTheSame .linux (partsCall (lit "b")) (partsCall (lit "x")) (partsSettings (lit "b")) (partsSettings (lit "x")) [lit "d"] partsFiles partsFiles
    false (partsSequence (lit "b") (lowerOnly ++ wipeupOnly)) (partsSequence (lit "x") (wipeupOnly ++ lowerOnly)) [] where
  asked := parts_asked _ (by simp) (by intro f hf; rw [List.mem_singleton.1 hf]; exact .inl (by decide +kernel))
  wet := by simp [partsSettings]
  written := parts_written ⟨(inEffect (definitions (lit "rc") partsRules)).take 3, [], by decide +kernel, rfl, by decide +kernel⟩ (by simp [lowerOnly, wipeupOnly])
  ignored := parts_ignored _ _
  alike := fun _ v hm => C130_lower_and_wipeup rfl rfl hm v
  recurse := by simp [partsSettings]
  special := by simp [partsSettings]

example : ∃ tr1 tr2 w1 w2, ConfiguredAttempt .linux (partsCall (lit "b")) partsFiles false partsStart tr1 (.ret ()) w1 ∧
    ConfiguredAttempt .linux (partsCall (lit "x")) partsFiles false partsStart tr2 (.ret ()) w2 ∧ w1.fs = w2.fs ∧
    w1.fs = partsFS (lit "a_b") (lit "c_d") (lit "e_f") := by
  obtain ⟨w1, h1, e1, s1⟩ := parts_attempt partsTrace_b (fs := partsStart) (fs' := partsFS (lit "a_b") (lit "c_d") (lit "e_f")) rfl
    (by unfold NulFree; decide +kernel)
  obtain ⟨w2, h2, _, s2⟩ := parts_attempt partsTrace_x (fs := partsStart) (fs' := partsFS (lit "a_b") (lit "c_d") (lit "e_f")) rfl
    (by unfold NulFree; decide +kernel)
  exact ⟨_, _, w1, w2, h1, h2, C130_same_meaning (by decide) parts_means parts_b (fun _ _ => ⟨by simp, by simp⟩) h1 s1 h2 s2, e1⟩

end Detox
