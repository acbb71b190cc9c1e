import Verif.Props.TwoPasses
import Verif.Props.InlineMain

/-!
# C129: inline mode prints the names that files get

`ls | inline-detox` and `detox *` have one configuration and one sequence: what the first prints for a name is the name the second gives to the file.
-/

set_option autoImplicit false

namespace Detox
open Spec

/-- What is printed for lines: `.` and `..` as they are, of any other line what `R` makes of it. -/
inductive LinesSay (R : Bytes → Bytes → Prop) : List Bytes → Bytes → Prop
  | nil : LinesSay R [] []
  | dots (l : Bytes) (ls : List Bytes) (out : Bytes) : l = lit "." ∨ l = lit ".." → LinesSay R ls out → LinesSay R (l :: ls) (l ++ [0x0A] ++ out)
  | line (l v : Bytes) (ls : List Bytes) (out : Bytes) : l ≠ lit "." → l ≠ lit ".." → R l v → LinesSay R ls out → LinesSay R (l :: ls) (v ++ [0x0A] ++ out)

/-! ### Only standard input is standard input -/

def NotStdin (e : Event) : Prop := ∀ r, e ≠ .slurp none r

theorem notStdin_slurp {α : Type} {p : Bytes} {k : Option Bytes → Prog α} (hk : ∀ r, (k r).Only NotStdin) : (Prog.slurp (some p) k).Only NotStdin :=
  fun _ r => ⟨fun _ h => (by cases h), hk r _⟩

theorem notStdin_err {α : Type} {s : Bytes} {k : Prog α} (hk : k.Only NotStdin) : (Prog.err s k).Only NotStdin := fun _ => ⟨fun _ h => (by cases h), hk _⟩

theorem notStdin_outTimes {α : Type} {s : Bytes} {k : Prog α} (hk : k.Only NotStdin) : ∀ n, (outTimes s n k).Only NotStdin
  | 0 => hk
  | n + 1 => fun _ => ⟨fun _ h => (by cases h), notStdin_outTimes hk n _⟩

theorem parseConfigFile_notStdin (file : Bytes) (before : Option ConfigFile × Nat) : (parseConfigFile file before).Only NotStdin := by
  refine notStdin_slurp fun r => ?_
  cases r with
  | none => exact .ret _
  | some text =>
    refine notStdin_outTimes ?_ _
    cases (parseConfigText file text before.1).2 with
    | ok c => exact .ret _
    | exit n => exact notStdin_err (.exit n)
    | ub u => exact fun _ => trivial
    | stuck => exact fun _ => trivial

theorem tryConfig_notStdin (path : Bytes) (before : Option ConfigFile × Nat) : (tryConfig path before).Only NotStdin := by
  unfold tryConfig
  split
  · exact parseConfigFile_notStdin _ _
  · exact .ret _

theorem configFileLoad_notStdin (E : ConfigEnv) (check : Option Bytes) : (configFileLoad E check).Only NotStdin := by
  unfold configFileLoad
  cases check with
  | some f =>
    refine .bind (parseConfigFile_notStdin _ _) fun r => ?_
    obtain ⟨r, line⟩ := r
    cases r with
    | some c => exact .ret _
    | none => exact notStdin_err (.exit 1)
  | none =>
    refine .bind ?_ fun c1 => .bind ?_ fun c2 => .bind ?_ fun c3 => .bind ?_ fun c4 => .bind ?_ fun c5 => ?_
    · cases E.sysconfdir with
      | some d => exact tryConfig_notStdin _ _
      | none => exact .ret _
    · obtain ⟨c1, line⟩ := c1
      cases c1 with
      | some c => exact .ret _
      | none => exact parseConfigFile_notStdin _ _
    · obtain ⟨c2, line⟩ := c2
      cases c2 with
      | some c => exact .ret _
      | none => exact parseConfigFile_notStdin _ _
    · cases E.home with
      | some d => exact tryConfig_notStdin _ _
      | none => exact .ret _
    · cases E.xdg with
      | some d => exact tryConfig_notStdin _ _
      | none => exact .ret _
    · obtain ⟨c5, line⟩ := c5
      cases c5 with
      | some c => exact .ret _
      | none => exact .ofRes _

theorem readTable_notStdin (ctype path : Bytes) : (readTable ctype path).Only NotStdin := notStdin_slurp fun _ => .ret _

theorem tryTable_notStdin (ctype path : Bytes) : (tryTable ctype path).Only NotStdin := by
  unfold tryTable
  split
  · exact readTable_notStdin _ _
  · exact .ret _

theorem findTable_notStdin (ctype : Bytes) (datadir : Option Bytes) (name : Bytes) : (findTable ctype datadir name).Only NotStdin := by
  unfold findTable
  refine .bind ?_ fun t1 => ?_
  · cases datadir with
    | some d => exact tryTable_notStdin _ _
    | none => exact .ret _
  · cases t1 with
    | some t => exact .ret _
    | none =>
      refine .bind (tryTable_notStdin _ _) fun t2 => ?_
      cases t2 with
      | some t => exact .ret _
      | none => exact tryTable_notStdin _ _

theorem loadTable_notStdin (ctype : Bytes) (datadir : Option Bytes) (f : Filter) : (loadTable ctype datadir f).Only NotStdin := by
  unfold loadTable
  cases defaultTableFilename f.cleaner with
  | none => exact .ret _
  | some n =>
    cases f.builtin with
    | some b =>
      show Prog.Only NotStdin (match filterLoadBuiltinByFilename b with
        | none => .err _ (.exit 1)
        | some t => .ret (some t))
      cases filterLoadBuiltinByFilename b with
      | none => exact notStdin_err (.exit 1)
      | some t => exact .ret _
    | none =>
      cases f.filename with
      | some fn =>
        refine .bind (readTable_notStdin _ _) fun r => ?_
        cases r with
        | none => exact notStdin_err (.exit 1)
        | some t => exact .ret _
      | none =>
        refine .bind (findTable_notStdin _ _ _) fun r => ?_
        cases r with
        | some t => exact .ret _
        | none =>
          show Prog.Only NotStdin (match filterLoadBuiltin f with
            | none => .err _ (.exit 1)
            | some t => .ret (some t))
          cases filterLoadBuiltin f with
          | none => exact notStdin_err (.exit 1)
          | some t => exact .ret _

theorem loadTables_notStdin (ctype : Bytes) (datadir : Option Bytes) : ∀ fs, (loadTables ctype datadir fs).Only NotStdin
  | [] => .ret _
  | _ :: fs => .bind (loadTable_notStdin _ _ _) fun _ => .bind (loadTables_notStdin ctype datadir fs) fun _ => .ret _

theorem reviewSequence_notStdin (ctype : Bytes) (datadir : Option Bytes) (q : Sequence) : (reviewSequence ctype datadir q).Only NotStdin :=
  .bind (loadTables_notStdin _ _ _) fun _ => .ret _

/-! ### The theorems -/

theorem outText_slurps {reads : List Event} (h : ∀ e ∈ reads, ∃ p r, e = .slurp p r) : outText reads = [] := by
  induction reads with
  | nil => rfl
  | cons e reads ih =>
    obtain ⟨p, r, rfl⟩ := h e (by simp)
    exact ih fun x hx => h x (by simp [hx])

section
variable {P : Platform} {I : Invocation} {fuel : Nat} {ss : List Setting} {ws : List Bytes} {files : Bytes → Option Bytes} {plain : Bool} {q : Sequence}

theorem cleanedChunks_say (hP : P.Benign) {o : Options} (hw : Written I ss files plain q) (hb : Begun P I ss files plain q o) {ls : List Bytes} {out : Bytes}
    (h0 : ∀ l ∈ ls, NulFree l) (h : CleanedChunks P o (ls.map (·, true)) out) : LinesSay (FiltersSay P I.ctype I.datadir files q.filters) ls out := by
  induction ls generalizing out with
  | nil => cases h; exact .nil
  | cons l ls ih =>
    simp only [List.map_cons] at h
    cases h with
    | cons _ c _ _ out' hl hr =>
      have ih := ih (fun x hx => h0 x (by simp [hx])) hr
      have e : Chunk.full (c, true) = c ++ [0x0A] := by simp [Chunk.full]
      rw [e]
      rcases hl with ⟨hd, rfl⟩ | ⟨hd, hm⟩
      · exact .dots _ _ _ hd ih
      · exact .line _ _ _ _ (fun h => hd (.inl h)) (fun h => hd (.inr h)) (hb.says hP hw (h0 l (by simp)) hm) ih

/-- **C129.** Inline mode with a configuration, from the command line on: files are read, and of every text that can be read, if its lines are short and without
NUL, each line is printed as the filters of the sequence asked for say, by the texts of config file and tables. Nothing else is printed. -/
theorem C129_inline_as_written (hP : P.Benign) (hc : CommandLine I.posixlyCorrect I.args ss ws) (hi : CalledInline I.program ∨ Setting.inline ∈ ss)
    (hw : Written I ss files plain q) {tr : List Event} (h : Trace (detoxMain P I fuel) tr (.ret ())) (hf : ∀ e ∈ tr, Faithful files e) :
    ∃ reads t, tr = reads ++ t ∧ (∀ e ∈ reads, ∃ f r, e = .slurp (some f) r) ∧
      InlineInput (fun s out => ∀ ls, ShortLines ls s → LinesSay (FiltersSay P I.ctype I.datadir files q.filters) ls out) ws t := by
  rcases main_cases hc h with ⟨_, h⟩ | ⟨reads, t, o, ignored, l, ign, rfl, hrd, hl, hig, hk⟩
  · exact absurd rfl (h ())
  obtain ⟨c, q0, q', r1, r2, rfl, g1, g2, g3, g4, g5⟩ := hrd.stages
  have hf1 : ∀ e ∈ r1, Faithful files e := fun e he => hf e (by simp [he])
  obtain ⟨qs, hqs, hq⟩ := hw.sequences
  have hq0 : q0 = q := by
    rcases sequences_arrive hqs g1 hf1 with h3 | ⟨_, h3, hseq, _⟩
    · cases h3
    · cases h3
      rw [← sequenceChooseDefault_iff, hseq] at g2
      have hq : Chosen qs ((lastSequence ss).or I.sequence) q := hq
      rw [← sequenceChooseDefault_iff, g2] at hq
      exact Option.some.inj hq
  subst hq0
  obtain ⟨h5, _⟩ := C67_tables_loaded g3
  have hb : Begun P I ss files plain q0 o := ⟨hrd.asked, ⟨c, q', r1, r2, g1, hf1, g2, g3, g4⟩, q', _, g4, h5,
    fun x hx => hf _ (by have := filesRead_mem hx; simp [this]) _ _ rfl⟩
  refine ⟨r1 ++ r2, t, rfl, ?_, ?_⟩
  · have some_path : ∀ e, (∃ p r, e = Event.slurp p r) → NotStdin e → ∃ f r, e = Event.slurp (some f) r := by
      rintro e ⟨p, r, rfl⟩ hn
      cases p with
      | none => exact absurd rfl (hn r)
      | some p => exact ⟨p, r, rfl⟩
    intro e he
    rcases List.mem_append.1 he with he | he
    · exact some_path e (murmurs_trace (configFileLoad_murmurs _ _) g1 (config_texts hqs g1 hf1) e he) ((configFileLoad_notStdin _ _).trace g1 e he)
    · exact some_path e (murmurs_trace (S := fun _ _ => True) (reviewSequence_murmurs _ _ _) g3 (fun _ _ _ => trivial) e he)
        ((reviewSequence_notStdin _ _ _).trace g3 e he)
  · rcases hk with ⟨_, ht⟩ | ⟨hin, _⟩
    · refine InlineInput.mono (fun s out hs ls hls => ?_) (inlineMain_input hl ht)
      obtain ⟨rfl, hls⟩ := hls
      have hnf : NulFree (ls.flatMap (· ++ [0x0A])) := by
        intro hm
        obtain ⟨l, hl, hm⟩ := List.mem_flatMap.1 hm
        rcases List.mem_append.1 hm with hm | hm
        · exact (hls l hl).2.2 hm
        · revert hm; decide
      obtain ⟨cs, h1, _, h2⟩ := hs hnf
      have := chunks_lines ls [] cs (fun l hl => ⟨(hls l hl).1, (hls l hl).2.1⟩) (by simp) (by decide) (by simpa using h1)
      rw [if_pos rfl, List.append_nil] at this
      subst this
      exact cleanedChunks_say hP hw hb (fun l hl => (hls l hl).2.2) h2
    · rw [hrd.asked.2.2.2.2.2.1.2 hi] at hin
      cases hin

/-- **C129.** Standard input: each line is answered by what the filters make of it. -/
theorem C129_lines_as_written (hP : P.Benign) (hc : CommandLine I.posixlyCorrect I.args ss []) (hi : CalledInline I.program ∨ Setting.inline ∈ ss)
    (hw : Written I ss files plain q) {tr : List Event} (h : Trace (detoxMain P I fuel) tr (.ret ())) (hf : ∀ e ∈ tr, Faithful files e) {s : Bytes}
    (hs : Event.slurp none (some s) ∈ tr) {ls : List Bytes} (hls : ShortLines ls s) :
    LinesSay (FiltersSay P I.ctype I.datadir files q.filters) ls (outText tr) := by
  obtain ⟨reads, t, rfl, hr, hin⟩ := C129_inline_as_written hP hc hi hw h hf
  rw [outText_append, outText_slurps fun e he => (hr e he).elim fun f h => ⟨some f, h⟩, List.nil_append]
  have hst : Event.slurp none (some s) ∈ t := by
    rcases List.mem_append.1 hs with h' | h'
    · obtain ⟨f, r, hf⟩ := hr _ h'
      cases hf
    · exact h'
  generalize hws : ([] : List Bytes) = ws at hin
  cases hin with
  | files f fs tr h => cases hws
  | noStdin => simp at hst
  | stdin s' t ht hcc =>
    have : s' = s := by
      rcases List.mem_cons.1 hst with h' | h'
      · cases h'; rfl
      · rcases ht _ h' with ⟨x, hx⟩ | hx <;> cases hx
    subst this
    exact hcc ls hls

end

/-- What is printed for lines, if it is known what is made of each. -/
theorem linesSay_map {R : Bytes → Bytes → Prop} (h1 : ∀ m a b, R m a → R m b → a = b) {α : Type} {old new : α → Bytes} : ∀ {es : List α} {out : Bytes},
    (∀ e ∈ es, old e ≠ lit "." ∧ old e ≠ lit ".." ∧ R (old e) (new e)) → LinesSay R (es.map old) out → out = es.flatMap fun e => new e ++ [0x0A]
  | [], out, _, h => by cases h; rfl
  | e :: es, out, he, h => by
    obtain ⟨g1, g2, g3⟩ := he e (by simp)
    simp only [List.map_cons] at h
    cases h with
    | dots _ _ out hd h => rcases hd with h | h <;> contradiction
    | line _ v _ out _ _ hv h =>
      rw [h1 _ _ _ hv g3, linesSay_map h1 (fun x hx => he x (by simp [hx])) h]
      rfl

/-- Two calls in the same locale that choose the same filters. -/
structure SameFilters (I J : Invocation) (p q : Sequence) : Prop where
  filters : q.filters = p.filters
  locale : J.ctype = I.ctype
  datadir : J.datadir = I.datadir

/-- **C129.** detox renames files, and has no complaints. inline-detox, with the same filters, is given names of entries that were to be treated, one on each
line: it prints the names they have got, in the same order. -/
theorem C129_inline_foretells {P : Platform} (hP : P.Benign) {I J : Invocation} {ss sj : List Setting} {ws : List Bytes} {files : Bytes → Option Bytes}
    {plain plainj : Bool} {p q : Sequence} {ig : List Bytes} {fs : FS} {depth : Ino → Nat} {slack level : Nat}
    (hu : ConfiguredCase P I ss ws files plain p ig fs depth slack level) {tr : List Event} {w : World}
    (h : ConfiguredAttempt P I files plain fs tr (.ret ()) w) (hs : Silent tr) (o : Options)
    (hrec : o.recurse = true ↔ Setting.recurse ∈ ss) (hsp : o.special = true ↔ Setting.special ∈ ss)
    (hsame : SameFilters I J p q) (hc : CommandLine J.posixlyCorrect J.args sj []) (hi : CalledInline J.program ∨ Setting.inline ∈ sj)
    (hw : Written J sj files plainj q) {fuel : Nat} {trj : List Event} (hj : Trace (detoxMain P J fuel) trj (.ret ())) (hf : ∀ e ∈ trj, Faithful files e)
    {es : List Entry} (hes : ∀ e ∈ es, e ∈ fs.entries ∧ fs.Treats o ws (fun n => Hidden n ∨ n ∈ ig) e ∧ e.name ≠ lit "." ∧ e.name ≠ lit ".." ∧ (0x0A : Byte) ∉ e.name)
    (hin : Event.slurp none (some (es.flatMap fun e => e.name ++ [0x0A])) ∈ trj) :
    ∃ new : Entry → Bytes, w.fs = { fs with entries := fs.entries.map fun e => { e with name := new e } } ∧
      outText trj = es.flatMap fun e => new e ++ [0x0A] := by
  obtain ⟨fuel, hrun⟩ := hu.run h
  have lit1 := literal_exact (fs := fs) hu.exact (FiltersSay P I.ctype I.datadir files p.filters)
  obtain ⟨new, h1, h2⟩ := hrun.cleaned hP hs ⟨fun _ _ _ _ _ => lit1 _, fun _ _ _ => lit1 _⟩ o hrec hsp
  refine ⟨new, h1, ?_⟩
  have hls : ShortLines (es.map Entry.name) (es.flatMap fun e => e.name ++ [0x0A]) := by
    refine ⟨by simp [List.flatMap_map], fun l hl => ?_⟩
    obtain ⟨e, he, rfl⟩ := List.mem_map.1 hl
    obtain ⟨g1, _, _, _, g5⟩ := hes e he
    have hn := (hu.names e g1 _ (.inl rfl)).1
    exact ⟨g5, Nat.lt_of_le_of_lt hn.short (by decide), hn.nul⟩
  have hsay := C129_lines_as_written hP hc hi hw hj hf hin hls
  rw [hsame.filters, hsame.locale, hsame.datadir] at hsay
  refine linesSay_map (R := FiltersSay P I.ctype I.datadir files p.filters) (fun _ _ _ ha hb => filtersSay_unique ha hb) (fun e he => ?_) hsay
  obtain ⟨g1, g2, g3, g4, _⟩ := hes e he
  exact ⟨g3, g4, (h2 e g1).1 g2⟩

/-! ### A concrete case: `(cd d; ls) | inline-detox -f rc -s b`, and `detox -f rc -r -s b d` -/

def lsCall (n : Bytes) : Invocation := { program := lit "inline-detox", args := [lit "-f", lit "rc", lit "-s", n] }

def lsSettings (n : Bytes) : List Setting := [.config (lit "rc"), .sequence n]

def lsTrace : List Event := [.slurp (some (lit "rc")) (some partsConfig), .slurp none (some (lit "A__B\nC__D\n")), .out (lit "a_b"), .out [0x0A], .out (lit "c_d"), .out [0x0A]]

theorem lsTrace_run : Trace (detoxMain .linux (lsCall (lit "b")) 0) lsTrace (.ret ()) := Prog.result_sound _ _ _ (by decide +kernel)

theorem ls_line (n : Bytes) : CommandLine (lsCall n).posixlyCorrect (lsCall n).args (lsSettings n) [] :=
  .separate [] [] 0x66 (lit "rc") (.config (lit "rc")) _ _ _ .nil (.config _) (.separate [] [] 0x73 n (.sequence n) _ _ _ .nil (.sequence _) .none)

theorem ls_written : Written (lsCall (lit "b")) (lsSettings (lit "b")) partsFiles false (partsSequence (lit "b") (lowerOnly ++ wipeupOnly)) := by
  have h := parts_b.written
  obtain ⟨⟨qs, h1, h2⟩, h3⟩ := h
  exact ⟨⟨qs, h1, h2⟩, h3⟩

theorem lsTrace_files : ∀ e ∈ lsTrace, Faithful partsFiles e := by
  rintro ev he p r rfl
  simp only [lsTrace, List.mem_cons, Event.slurp.injEq, Option.some.injEq, reduceCtorEq, false_and, List.not_mem_nil, or_false] at he
  rw [he.1, he.2]
  exact (if_pos rfl).symm

theorem ls_inline (n : Bytes) : CalledInline (lsCall n).program := ⟨0, .inl (List.append_nil _).symm⟩

/- The two entries of `d`. -/
example : ∃ w, ConfiguredAttempt .linux (partsCall (lit "b")) partsFiles false partsStart
      (partsTrace (lit "A__B") (lit "a_b") (lit "C__D") (lit "c_d") (lit "E__F") (lit "e_f")) (.ret ()) w ∧
    ∃ new : Entry → Bytes, w.fs = { partsStart with entries := partsStart.entries.map fun e => { e with name := new e } } ∧
      outText lsTrace = [⟨⟨1, 2⟩, lit "A__B", ⟨1, 3⟩⟩, ⟨⟨1, 2⟩, lit "C__D", ⟨1, 4⟩⟩].flatMap fun e => new e ++ [0x0A] := by
  obtain ⟨w, h1, _, h3⟩ := parts_attempt (fs := partsStart) (fs' := partsFS (lit "a_b") (lit "c_d") (lit "e_f")) partsTrace_b rfl
    ⟨by decide +kernel, by decide +kernel, by decide +kernel⟩
  refine ⟨w, h1, C129_inline_foretells (J := lsCall (lit "b")) (by decide) parts_b h1 h3 { recurse := true } (by simp [partsSettings]) (by simp [partsSettings])
    ⟨rfl, rfl, rfl⟩ (ls_line _) (.inl (ls_inline _)) ls_written lsTrace_run lsTrace_files ?_ ?_⟩
  · have scans : partsStart.Scans { recurse := true } [lit "d"] (fun n => Hidden n ∨ n ∈ ([] : List Bytes)) ⟨1, 2⟩ :=
      .arg (lit "d") _ (by simp) (by decide +kernel) (by decide +kernel)
    have h : ∀ e ∈ ([⟨⟨1, 2⟩, lit "A__B", ⟨1, 3⟩⟩, ⟨⟨1, 2⟩, lit "C__D", ⟨1, 4⟩⟩] : List Entry), e ∈ partsStart.entries ∧ e.dir = ⟨1, 2⟩ ∧
        (partsStart.kind e.ino = .dir ∨ partsStart.kind e.ino = .reg) ∧ ¬ Hidden e.name ∧ e.name ≠ lit "." ∧ e.name ≠ lit ".." ∧ (0x0A : Byte) ∉ e.name := by
      decide +kernel
    intro e he
    obtain ⟨g1, g2, g3, g4, g5, g6, g7⟩ := h e he
    refine ⟨g1, ⟨g3.elim .inl fun h => .inr (.inl h), .inr ⟨by rw [g2]; exact scans, ?_⟩⟩, g5, g6, g7⟩
    rintro (h | h)
    · exact g4 h
    · cases h
  · decide +kernel

example : outText lsTrace = lit "a_b\nc_d\n" := by decide +kernel

/-- **C129**, why names must be lines: the sequence `w` leaves a file alone that is called `a`, newline, `-b`; but of these two lines inline-detox prints the second
as `b`. -/
theorem C129_lines_are_not_names : PartsSay wipeupOnly (lit "a\n-b") (lit "a\n-b") ∧
    ∃ t, Trace (detoxMain .linux (lsCall (lit "w")) 0) (.slurp (some (lit "rc")) (some partsConfig) :: .slurp none (some (lit "a\n-b\n")) :: t) (.ret ()) ∧
      outText t = lit "a\nb\n" := by
  refine ⟨?_, [.out (lit "a"), .out [0x0A], .out (lit "b"), .out [0x0A]], Prog.result_sound _ _ _ (by decide +kernel), by decide +kernel⟩
  have h1 : cleanWipeup false (lit "a\n-b") = .ok (lit "a\n-b") := by decide +kernel
  obtain ⟨out, h3, h5, _⟩ := C04_wipeup_is_the_documented_reduction false (lit "a\n-b") (by decide +kernel)
  have h2 : out = lit "a\n-b" := Res.ok.inj (h3.symm.trans h1)
  rw [h2] at h5
  exact filtersSay_one.2 (.wipeup _ rfl h5)

end Detox
