import Verif.Lemmas.ConfigLoad
import Verif.Lemmas.ConfigWrite
import Verif.Lemmas.ConfigSafety
import Verif.Lemmas.Final
import Verif.Model.ShippedConfig

/-!
# Config files: C42–C47, C63, C64
-/

set_option autoImplicit false

namespace Detox
open Spec

/-! ### C63: what is accepted -/

/-- A text that is written in the documented syntax is read without any message and does what its rules say, on top of whatever
was loaded before. -/
theorem C63_sentences_are_accepted {text : Bytes} {rs : List Rule} (h : Means text rs) (file : Bytes) {previous : Option ConfigFile}
    {ds : List Sequence} {ws : List Bytes} (hl : Loaded previous ds ws) :
    ∃ c, parseConfigText file text previous = (0, .ok c) ∧ Loaded (some c) (ds ++ definitions file rs) (ws ++ ignored rs) := by
  obtain ⟨ts, h1, h2⟩ := h
  exact parse_text file h1 h2 hl

/-- A text of tokens that are no sentence is a syntax error. -/
theorem C63_nothing_else_is_accepted {ts : List Tok} {text : Bytes} (h : Spells ts text) (hn : ∀ rs, ¬ ConfigG ts rs) (file : Bytes)
    {previous : Option ConfigFile} {ds : List Sequence} {ws : List Bytes} (hl : Loaded previous ds ws) :
    parseConfigText file text previous = (0, .exit 1) :=
  parse_text_error file h hl hn

/-- Whatever text is accepted, its tokens are a sentence, and the result is what its rules say. -/
theorem C63_accepted_texts_have_a_meaning {file text : Bytes} {previous : Option ConfigFile} {ds : List Sequence} {ws : List Bytes}
    {c : ConfigFile} (hl : Loaded previous ds ws) (h : (parseConfigText file text previous).2 = .ok c) :
    ∃ rs, ConfigG (scanned (lex text)) rs ∧ Loaded (some c) (ds ++ definitions file rs) (ws ++ ignored rs) :=
  parse_accepted hl h

/-- An empty list of methods is not a sentence. -/
example : parseConfigText (lit "f") (lit "sequence a { };") none = (0, .exit 1) := by decide +kernel

/-- Keywords cannot be used as names without quotes. -/
theorem C63_keyword_names_need_quotes :
    parseConfigText (lit "f") (lit "sequence lower { lower; };") none = (0, .exit 1) ∧
    ∃ c, parseConfigText (lit "f") (lit "sequence \"lower\" { lower; };") none = (0, .ok c) :=
  ⟨by decide +kernel, _, (by rfl : parseConfigText (lit "f") (lit "sequence \"lower\" { lower; };") none = _)⟩

/-- Keywords may be written in capitals. -/
example : (parseConfigText (lit "f") (lit "Sequence A { LOWER; };") none).2.bind (fun c => .ok (c.sequences.map (·.name))) =
    .ok [lit "A"] := by decide +kernel

/-! ### C64: undefined behaviour -/

/-- Whatever a config file contains, reading it succeeds or is a syntax error, unless the file contains a NUL byte or a number
that is not an `int`. -/
theorem C64_reading_a_config_file_is_defined (file text : Bytes) {previous : Option ConfigFile} {ds : List Sequence}
    {ws : List Bytes} (hl : Loaded previous ds ws) (h0 : (0 : Byte) ∉ text)
    (hn : ∀ d, d <:+: text → (∀ c ∈ d, isDigitByte c = true) → decimal d ≤ 2147483647) :
    (∃ c, (parseConfigText file text previous).2 = .ok c) ∨ (parseConfigText file text previous).2 = .exit 1 := by
  rcases parseConfigText_cases file text hl with h | h | ⟨_, h⟩ | ⟨_, d, h1, h2, h3⟩
  · exact .inl h
  · exact .inr h
  · exact absurd h h0
  · exact absurd (hn d h1 h2) (by omega)

/-- A NUL in a quoted string makes the scanner read behind the copy of the string. -/
theorem C64_nul_in_a_string_is_undefined :
    (parseConfigText (lit "f") (lit "sequence \"a" ++ [0] ++ lit "b\" { lower; };") none).2 = .ub .oobRead := by decide +kernel

/-- A number that is not an `int` is given to `atoi`. -/
theorem C64_big_number_is_undefined :
    (parseConfigText (lit "f") (lit "sequence a { max_length { length 2147483648; }; };") none).2 = .ub .atoiRange := by
  decide +kernel

/-- The biggest number allowed. -/
example : ∃ c, parseConfigText (lit "f") (lit "sequence a { max_length { length 2147483647; }; };") none = (0, .ok c) :=
  ⟨_, by rfl⟩

/-! ### C43: a series of files -/

theorem Merged.unique {a b b' : Option ConfigFile} {xs : List (Bytes × Bytes)} (h : Merged a xs b) (h' : Merged a xs b') : b = b' := by
  induction h with
  | nothing => cases h'; rfl
  | more c p text c' rest r hp _ ih =>
    cases h' with
    | more _ _ _ c'' _ _ hp' hm' =>
      rw [hp] at hp'
      cases hp'
      exact ih hm'

theorem merged_means {files : List (Bytes × Bytes × List Rule)} (hf : ∀ f ∈ files, Means f.2.1 f.2.2) {a : Option ConfigFile}
    {ds : List Sequence} {ws : List Bytes} (hl : Loaded a ds ws) :
    ∃ c, Merged a (files.map fun f => (f.1, f.2.1)) c ∧ Loaded c (ds ++ files.flatMap fun f => definitions f.1 f.2.2)
      (ws ++ files.flatMap fun f => ignored f.2.2) := by
  induction files generalizing a ds ws with
  | nil => exact ⟨a, .nothing a, by simpa using hl⟩
  | cons f files ih =>
    obtain ⟨c1, h1, h2⟩ := C63_sentences_are_accepted (hf f (by simp)) f.1 hl
    obtain ⟨c, h3, h4⟩ := ih (fun g hg => hf g (by simp [hg])) h2
    exact ⟨c, .more _ _ _ c1 _ _ (by rw [h1]) h3, by simpa using h4⟩

/-- After any series of files: one sequence per name, ordered by first definition, each as last defined; names to ignore in the
order they were given. -/
theorem C43_later_files_replace_by_name {files : List (Bytes × Bytes × List Rule)} (hne : files ≠ [])
    (hf : ∀ f ∈ files, Means f.2.1 f.2.2) : ∃ c l, Merged none (files.map fun f => (f.1, f.2.1)) (some c) ∧
      c.sequences = inEffect (files.flatMap fun f => definitions f.1 f.2.2) ∧
      c.filesToIgnore = some l ∧ l.Holds (files.flatMap fun f => ignored f.2.2) 0 := by
  obtain ⟨c, h1, h2⟩ := merged_means hf (a := none) (ds := []) (ws := []) ⟨rfl, rfl⟩
  cases c with
  | none =>
    have := h1.none_iff
    simp at this
    exact absurd this hne
  | some c =>
    obtain ⟨h3, l, h4, h5⟩ := h2
    exact ⟨c, l, h1, by simpa using h3, h4, by simpa using h5⟩

/-- What is true of every sequence made by the parser. -/
def AsParsed (files : List Bytes) (q : Sequence) : Prop :=
  (∃ f ∈ files, q.sourceFilename = some f) ∧ ∀ f ∈ q.filters, f.table = none

theorem definitions_parsed {file : Bytes} {ts : List Tok} {rs : List Rule} (h : ConfigG ts rs) :
    ∀ q ∈ definitions file rs, AsParsed [file] q := by
  have app : ∀ a b, definitions file (a ++ b) = definitions file a ++ definitions file b := by
    intro a b
    induction a with
    | nil => rfl
    | cons r a ih => cases r <;> simp [definitions, ih]
  have methods : ∀ {ms : List Tok} {fs : List Filter}, MethodsG ms fs → ∀ f ∈ fs, f.table = none := by
    have one : ∀ {m : List Tok} {f : Filter}, MethodG m f → f.table = none := by
      intro m f h
      cases h <;> rfl
    intro ms fs h
    induction h with
    | one m f h =>
      intro g hg
      rw [List.mem_singleton.1 hg]
      exact one h
    | more ms m fs f _ h ih =>
      intro g hg
      rcases List.mem_append.1 hg with hg | hg
      · exact ih g hg
      · rw [List.mem_singleton.1 hg]
        exact one h
  induction h with
  | nil => intro q hq; cases hq
  | more ts r rs rule _ h ih =>
    intro q hq
    rw [app] at hq
    rcases List.mem_append.1 hq with hq | hq
    · exact ih q hq
    · cases h with
      | sequence t name ms fs _ hm =>
        simp only [definitions, List.mem_singleton] at hq
        subst hq
        exact ⟨⟨file, by simp, rfl⟩, methods hm⟩
      | ignore is ws _ => cases hq

theorem AsParsed.mono {xs ys : List Bytes} {q : Sequence} (h : AsParsed xs q) (hs : ∀ x ∈ xs, x ∈ ys) : AsParsed ys q := by
  obtain ⟨⟨f, h1, h2⟩, h3⟩ := h
  exact ⟨⟨f, hs f h1, h2⟩, h3⟩

theorem inEffect_mem {ds : List Sequence} {q : Sequence} (h : q ∈ inEffect ds) : q ∈ ds := by
  unfold inEffect at h
  obtain ⟨n, _, h2⟩ := List.mem_filterMap.1 h
  unfold lastDefinition at h2
  exact List.mem_reverse.1 (List.mem_of_find?_eq_some h2)

theorem merged_loaded {a b : Option ConfigFile} {files : List (Bytes × Bytes)} (h : Merged a files b) :
    ∀ {ds : List Sequence} {ws : List Bytes}, Loaded a ds ws →
      ∃ ds' ws', Loaded b (ds ++ ds') (ws ++ ws') ∧ ∀ q ∈ ds', AsParsed (files.map Prod.fst) q := by
  induction h with
  | nothing => intro ds ws hl; exact ⟨[], [], by simpa using hl, by simp⟩
  | more c p text c' rest r hp _ ih =>
    intro ds ws hl
    obtain ⟨rs, h1, h2⟩ := parse_accepted hl hp
    obtain ⟨ds', ws', h3, h4⟩ := ih h2
    refine ⟨definitions p rs ++ ds', ignored rs ++ ws', by simpa using h3, ?_⟩
    intro q hq
    rcases List.mem_append.1 hq with hq | hq
    · exact (definitions_parsed h1 q hq).mono (by simp)
    · exact (h4 q hq).mono (fun x hx => by simp only [List.map_cons]; exact List.mem_cons_of_mem _ hx)

/-- Whatever files were read, no two sequences have the same name. -/
theorem C43_names_are_unique {files : List (Bytes × Bytes)} {c : ConfigFile} (h : Merged none files (some c)) :
    (c.sequences.map (·.name)).Nodup := by
  obtain ⟨ds, ws, ⟨h1, _⟩, _⟩ := merged_loaded h (ds := []) (ws := []) ⟨rfl, rfl⟩
  rw [h1, inEffect_names]
  exact firsts_nodup _

/-- What `inEffect` says about a single name. -/
theorem C43_last_definition_wins (ds : List Sequence) (q : Sequence) :
    q ∈ inEffect ds ↔ ∃ before after, ds = before ++ q :: after ∧ ∀ d ∈ after, d.name ≠ q.name := by
  unfold inEffect
  rw [List.mem_filterMap]
  constructor
  · rintro ⟨n, _, hn⟩
    unfold lastDefinition at hn
    rw [List.find?_eq_some_iff_append] at hn
    obtain ⟨h1, as, bs, h2, h3⟩ := hn
    refine ⟨bs.reverse, as.reverse, ?_, ?_⟩
    · have := congrArg List.reverse h2
      simpa using this
    · intro d hd
      have h4 := h3 d (by simpa using hd)
      have h1' : q.name = n := by simpa using h1
      rw [h1']
      simpa using h4
  · rintro ⟨before, after, rfl, h⟩
    refine ⟨q.name, firsts_mem.mpr (by simp), ?_⟩
    unfold lastDefinition
    rw [List.find?_eq_some_iff_append]
    refine ⟨by simp, after.reverse, before.reverse, by simp, ?_⟩
    intro d hd
    have := h d (by simpa using hd)
    simpa using this

/-- Two files; the second changes one sequence and adds one. -/
example : ∃ c, Merged none [(lit "1", lit "sequence a { lower; }; sequence b { lower; }; ignore { filename x; };"),
    (lit "2", lit "sequence c { safe; }; sequence a { uncgi; }; ignore { filename y; };")] (some c) ∧
    c.sequences = [⟨lit "a", [{ cleaner := .uncgi }], some (lit "2")⟩, ⟨lit "b", [{ cleaner := .lower }], some (lit "1")⟩,
      ⟨lit "c", [{ cleaner := .safe }], some (lit "2")⟩] :=
  ⟨_, .more _ _ _ _ _ _ (by rfl) (.more _ _ _ _ _ _ (by rfl) (.nothing _)), by rfl⟩

/-! ### C44: which files are read -/

/-- Without `-f`: the first system file that exists, then both user files; what is returned is the result of reading those that
exist, in this order, and the built-in configuration if there are none. -/
theorem C44_without_option_f {E : ConfigEnv} {tr : List Event} {c : ConfigFile} (h : Trace (configFileLoad E none) tr (.ret c)) :
    ∃ sys user ex1 ex2, filesRead tr = sys ++ user ∧ FirstOf (systemFiles E) sys ex1 ∧ AllOf (userFiles E) user ex2 ∧
      ((ex1 ++ ex2 ≠ [] ∧ Merged none (ex1 ++ ex2) (some c)) ∨ (ex1 ++ ex2 = [] ∧ spoofConfigFile = .ok c)) := by
  obtain ⟨sys, user, ex1, ex2, m, h1, h2, h3, h4, h5⟩ := configFileLoad_ret h
  refine ⟨sys, user, ex1, ex2, h1, h2, h3, ?_⟩
  rcases h5 with rfl | ⟨rfl, h5⟩
  · refine .inl ⟨?_, h4⟩
    intro he
    rw [he] at h4
    cases h4
  · exact .inr ⟨h4.none_iff, h5⟩

/-- Together with C43: what is returned if the files that exist are well written. -/
theorem C44_loaded_configuration {E : ConfigEnv} {tr : List Event} {c : ConfigFile} (h : Trace (configFileLoad E none) tr (.ret c))
    (hex : ∃ p text, (p, some text) ∈ filesRead tr) (hm : ∀ p text, (p, some text) ∈ filesRead tr → ∃ rs, Means text rs) :
    ∃ files : List (Bytes × Bytes × List Rule),
      (files.map fun f => (f.1, some f.2.1)) = (filesRead tr).filter (·.2.isSome) ∧ (∀ f ∈ files, Means f.2.1 f.2.2) ∧
      c.sequences = inEffect (files.flatMap fun f => definitions f.1 f.2.2) ∧
      ∃ l, c.filesToIgnore = some l ∧ l.Holds (files.flatMap fun f => ignored f.2.2) 0 := by
  obtain ⟨sys, user, ex1, ex2, h1, h2, h3, h4⟩ := C44_without_option_f h
  have e1 : ex1.map (fun f => (f.1, some f.2)) = sys.filter (·.2.isSome) := by
    clear h1 h4
    generalize systemFiles E = cs at h2
    induction h2 with
    | nothing => rfl
    | found p ps text => rfl
    | missing p ps reads r _ ih => simpa using ih
  have e2 : ex2.map (fun f => (f.1, some f.2)) = user.filter (·.2.isSome) := by
    clear h1 h4
    generalize userFiles E = cs at h3
    induction h3 with
    | nothing => rfl
    | found p ps text reads r _ ih => simpa using ih
    | missing p ps reads r _ ih => simpa using ih
  have e : (ex1 ++ ex2).map (fun f => (f.1, some f.2)) = (filesRead tr).filter (·.2.isSome) := by
    rw [List.map_append, e1, e2, h1, List.filter_append]
  generalize ex1 ++ ex2 = ex at h4 e
  have hmem : ∀ f ∈ ex, (f.1, some f.2) ∈ filesRead tr := by
    intro f hf
    have : (f.1, some f.2) ∈ (filesRead tr).filter (·.2.isSome) := by
      rw [← e]
      exact List.mem_map_of_mem hf
    exact (List.mem_filter.mp this).1
  rcases h4 with ⟨hne, h4⟩ | ⟨rfl, _⟩
  · have : ∃ files : List (Bytes × Bytes × List Rule), (files.map fun f => (f.1, f.2.1)) = ex ∧ ∀ f ∈ files, Means f.2.1 f.2.2 := by
      have hx : ∀ f ∈ ex, ∃ rs, Means f.2 rs := fun f hf => hm f.1 f.2 (hmem f hf)
      clear h4 e hmem hne
      induction ex with
      | nil => exact ⟨[], rfl, by simp⟩
      | cons f ex ih =>
        obtain ⟨rs, hrs⟩ := hx f (by simp)
        obtain ⟨files, h5, h6⟩ := ih (fun g hg => hx g (by simp [hg]))
        refine ⟨(f.1, f.2, rs) :: files, by simp [h5], ?_⟩
        intro g hg
        rcases List.mem_cons.mp hg with rfl | hg
        · exact hrs
        · exact h6 g hg
    obtain ⟨files, h5, h6⟩ := this
    have hne' : files ≠ [] := by
      rintro rfl
      exact hne h5.symm
    obtain ⟨c', l, h7, h8, h9, h10⟩ := C43_later_files_replace_by_name hne' h6
    rw [h5] at h7
    cases h7.unique h4
    refine ⟨files, ?_, h6, h8, l, h9, h10⟩
    rw [← e, ← h5, List.map_map]
    rfl
  · obtain ⟨p, text, hp⟩ := hex
    have hp' : (p, some text) ∈ (filesRead tr).filter (·.2.isSome) := List.mem_filter.mpr ⟨hp, rfl⟩
    rw [← e] at hp'
    simp at hp'

/-- With `-f`: only that file is opened, whatever happens. -/
theorem C44_option_f_reads_only_that_file {E : ConfigEnv} {f : Bytes} {tr : List Event} {o : Outcome ConfigFile}
    (h : Trace (configFileLoad E (some f)) tr o) : (filesRead tr = [] ∧ o = .running) ∨ ∃ r, filesRead tr = [(f, r)] := by
  unfold configFileLoad at h
  rcases trace_bind_any h with ⟨a, t1, t2, rfl, h1, h2⟩ | ⟨o', h1, h2⟩
  · rcases parseConfigFile_any h1 with ⟨_, h⟩ | ⟨r, h3, _⟩
    · cases h
    · refine .inr ⟨r, ?_⟩
      rw [filesRead_append, h3]
      have : filesRead t2 = [] := by
        obtain ⟨a, line⟩ := a
        cases a with
        | some c =>
          cases h2 with
          | stop => rfl
          | ret => rfl
        | none =>
          cases h2 with
          | stop => rfl
          | err _ _ _ _ h2 =>
            cases h2 with
            | stop => rfl
            | exit => rfl
      rw [this, List.append_nil]
  · rcases parseConfigFile_any h2 with ⟨rfl, rfl⟩ | ⟨r, h3, _⟩
    · cases h1
      exact .inl ⟨rfl, rfl⟩
    · exact .inr ⟨r, h3⟩

/-- With `-f`: the result is what that file says. -/
theorem C44_option_f_result {E : ConfigEnv} {f : Bytes} {tr : List Event} {c : ConfigFile}
    (h : Trace (configFileLoad E (some f)) tr (.ret c)) :
    ∃ text, filesRead tr = [(f, some text)] ∧ (parseConfigText f text none).2 = .ok c := by
  unfold configFileLoad at h
  obtain ⟨a, t1, t2, rfl, h1, h2⟩ := trace_bind_ret h
  rcases parseConfigFile_step h1 with ⟨_, rfl⟩ | ⟨text, c', h3, hc, h4⟩
  · cases h2 with
    | err _ _ _ _ h2 => cases h2
  · rw [hc] at h2
    cases h2
    exact ⟨text, by rw [filesRead_append, h3]; rfl, h4⟩

/-- With `-f` and no such file detox gives up with status 1 and a message. -/
theorem C44_option_f_missing_file_is_fatal {E : ConfigEnv} {f : Bytes} {tr : List Event} {o : Outcome ConfigFile}
    (h : Trace (configFileLoad E (some f)) tr o) (hr : filesRead tr = [(f, none)]) :
    o = .running ∨ (o = .exit 1 ∧ tr = [.slurp (some f) none, .err (lit "detox: unable to open: " ++ f ++ lit "\n")]) := by
  unfold configFileLoad parseConfigFile at h
  cases h with
  | stop => exact .inl rfl
  | slurp _ _ r tr _ h =>
    simp only [filesRead, List.cons.injEq, Prod.mk.injEq, true_and] at hr
    obtain ⟨rfl, _⟩ := hr
    cases h with
    | stop => exact .inl rfl
    | err _ _ _ _ h =>
      cases h with
      | stop => exact .inl rfl
      | exit => exact .inr ⟨rfl, rfl⟩

/-- How loading can fail without `-f`: the last file read is malformed. -/
theorem C44_failures {E : ConfigEnv} {tr : List Event} {o : Outcome ConfigFile} (h : Trace (configFileLoad E none) tr o) :
    o = .running ∨ (∃ c, o = .ret c) ∨ ∃ reads p text previous, filesRead tr = reads ++ [(p, some text)] ∧
      FailsAs (parseConfigText p text previous).2 o := by
  revert h
  unfold configFileLoad
  refine Fails.bind ?_ (fun c1 => Fails.bind ?_ (fun c2 => Fails.bind ?_ (fun c3 => Fails.bind ?_ (fun c4 => Fails.bind ?_ (fun c5 => ?_))))) tr o
  · cases E.sysconfdir with
    | none => exact Fails.ret _
    | some d => exact Fails.try _ _
  · obtain ⟨c1, line⟩ := c1
    cases c1 with
    | none => exact Fails.read _ _
    | some c => exact Fails.ret _
  · obtain ⟨c2, line⟩ := c2
    cases c2 with
    | none => exact Fails.read _ _
    | some c => exact Fails.ret _
  · cases E.home with
    | none => exact Fails.ret _
    | some d => exact Fails.try _ _
  · cases E.xdg with
    | none => exact Fails.ret _
    | some d => exact Fails.try _ _
  · obtain ⟨c5, line⟩ := c5
    cases c5 with
    | none => exact Fails.ret _
    | some c => exact Fails.ret _

/-! ### C46, C47 -/

/-- A configuration that is written down and read again is the same. -/
theorem C46_any_layout {qs : List Sequence} {ws : List Bytes} (h : WritableConfig qs ws) {text : Bytes}
    (ht : Spells (configToks qs ws) text) (file : Bytes) : ∃ l, l.Holds ws 0 ∧ parseConfigText file text none =
      (0, .ok { sequences := qs.map fun q => { q with sourceFilename := some file }, filesToIgnore := some l }) := by
  obtain ⟨c, h1, h2, l, h3, h4⟩ := C63_sentences_are_accepted ⟨_, ht, config_writable h⟩ file (previous := none) (ds := []) (ws := [])
    ⟨rfl, rfl⟩
  rw [List.nil_append, definitions_configRules, inEffect_distinct] at h2
  · rw [List.nil_append, ignored_configRules] at h4
    refine ⟨l, h4, ?_⟩
    rw [h1, ← h2, ← h3]
  · rw [List.map_map]
    exact h.distinct

/-- One way to write it. -/
theorem C46_written_configuration_reads_back {qs : List Sequence} {ws : List Bytes} (h : WritableConfig qs ws) (file : Bytes) :
    ∃ l, l.Holds ws 0 ∧ parseConfigText file (writeToks (configToks qs ws)) none =
      (0, .ok { sequences := qs.map fun q => { q with sourceFilename := some file }, filesToIgnore := some l }) :=
  C46_any_layout h (writeToks_spells (writableConfig_toks h)) file

theorem spoof_writable : WritableConfig spoofSequences [lit "{arch}"] where
  names := by unfold Quotable; decide
  filters := by
    have hs : Writable (generateFilter .safe) := .builtin .safe _ _ .safe (by unfold Quotable; decide)
    have hw : Writable (generateWipeupFilter true) := .wipeup true
    have hl : Writable (generateFilter .lower) := .lower
    have hu : Writable (generateFilter .uncgi) := .uncgi
    have hi : Writable (generateBuiltinFilter .iso8859_1 (lit "iso8859_1")) :=
      .builtin .iso8859_1 _ _ .iso8859_1 (by unfold Quotable; decide)
    have hc : Writable (generateBuiltinFilter .iso8859_1 (lit "cp1252")) :=
      .builtin .iso8859_1 _ _ .iso8859_1 (by unfold Quotable; decide)
    have h8 : Writable (generateBuiltinFilter .utf8 (lit "unicode")) := .builtin .utf8 _ _ .utf8 (by unfold Quotable; decide)
    intro q hq
    simp only [spoofSequences, List.mem_cons, List.not_mem_nil, or_false] at hq
    rcases hq with rfl | rfl | rfl | rfl | rfl | rfl | rfl | rfl | rfl | rfl | rfl <;>
      · refine ⟨by simp [generateSequence, safeWipeup], ?_⟩
        simp only [generateSequence, safeWipeup, List.mem_cons, List.not_mem_nil, or_false, forall_eq_or_imp, forall_eq]
        simp only [hs, hw, hl, hu, hi, hc, h8, and_self]
  distinct := by decide
  ignore := by unfold Quotable; decide

/-- The built-in configuration can be written and read back. -/
example (file : Bytes) : ∃ l, l.Holds [lit "{arch}"] 0 ∧
    parseConfigText file (writeToks (configToks spoofSequences [lit "{arch}"])) none =
      (0, .ok { sequences := spoofSequences.map fun q => { q with sourceFilename := some file }, filesToIgnore := some l }) :=
  C46_written_configuration_reads_back spoof_writable file

/-- Layout does not matter. -/
theorem C47_layout_does_not_matter {ts : List Tok} {text1 text2 : Bytes} (h1 : Spells ts text1) (h2 : Spells ts text2)
    (file : Bytes) (previous : Option ConfigFile) : parseConfigText file text1 previous = parseConfigText file text2 previous := by
  unfold parseConfigText
  rw [lex_spells h1, lex_spells h2]

/-- The same tokens, spread out and packed. -/
example : Spells [.kw .ignore, .opn] (lit "# which files\n\tignore {  # this:\n") ∧ Spells [.kw .ignore, .opn] (lit "ignore{") := by
  constructor
  · exact .tok (lit "# which files\n\t") _ (lit "ignore") _ (lit " {  # this:\n")
      (.comment (lit " which files") _ (by decide) (.blank _ _ (by decide) .nil)) (.kw _ _ (by decide)) (by intro c hc; cases hc; decide)
      (.tok (lit " ") _ (lit "{") _ (lit "  # this:\n") (.blank _ _ (by decide) .nil) .opn trivial
        (.done _ (.blank _ _ (by decide) (.blank _ _ (by decide) (.comment (lit " this:") _ (by decide) .nil)))))
  · exact .tok [] _ (lit "ignore") _ (lit "{") .nil (.kw _ _ (by decide)) (by intro c hc; cases hc; decide)
      (.tok [] _ (lit "{") _ [] .nil .opn trivial (.done [] .nil))

/-! ### C45: the shipped file -/

/-- The tokens of etc/detoxrc: those of the built-in configuration, the first name without quotes. -/
def shippedToks : List Tok := (configToks spoofSequences [lit "{arch}"]).set 1 (.ident (lit "default"))

theorem shipped_lex : lex shippedConfig = shippedToks.map (.tok · false) := by decide +kernel

theorem shipped_sentence : ConfigG shippedToks (configRules spoofSequences [lit "{arch}"]) := by
  have e1 : shippedToks = ([] ++ ([.kw .sequence, .ident (lit "default"), .opn] ++ safeWipeup.flatMap methodToks ++ [.cls, .eol])) ++
      configToks spoofSequences.tail [lit "{arch}"] := by decide +kernel
  have e2 : configRules spoofSequences [lit "{arch}"] = ([] ++ [.sequence (lit "default") safeWipeup]) ++
      configRules spoofSequences.tail [lit "{arch}"] := rfl
  rw [e1, e2]
  have hw := spoof_writable
  have hf := hw.filters (generateSequence (lit "default") safeWipeup) (by simp [spoofSequences])
  refine config_append (.more _ _ _ _ .nil (.sequence _ _ _ _ (.ident _) (methods_writable hf.1 hf.2))) (config_writable ?_)
  exact ⟨fun q hq => hw.names q (List.mem_of_mem_tail hq), fun q hq => hw.filters q (List.mem_of_mem_tail hq), by decide, hw.ignore⟩

/-- Reading etc/detoxrc gives the built-in configuration, except for the file it says it is from. -/
theorem C45_builtin_config_is_the_shipped_file (file : Bytes) : ∃ c, spoofConfigFile = .ok c ∧
    parseConfigText file shippedConfig none =
      (0, .ok { c with sequences := c.sequences.map fun q => { q with sourceFilename := some file } }) := by
  refine ⟨_, rfl, ?_⟩
  unfold parseConfigText
  rw [shipped_lex]
  simp only [cfRun_toks]
  obtain ⟨name, h⟩ := run_config file shipped_sentence { sequences := [], ignore := filelistInit } rfl rfl
  have h1 : replaceAll [] (definitions file (configRules spoofSequences [lit "{arch}"])) =
      spoofSequences.map fun q => { q with sourceFilename := some file } := by
    rw [definitions_configRules]
    have : replaceAll (inEffect []) (spoofSequences.map fun q => { q with sourceFilename := some file }) = _ :=
      replaceAll_inEffect [] _
    have h2 : inEffect [] = ([] : List Sequence) := rfl
    rw [h2] at this
    rw [this, List.nil_append, inEffect_distinct]
    rw [List.map_map]
    exact spoof_writable.distinct
  rw [h1, ignored_configRules] at h
  have h3 : startIgnore (Option.getD none configFileInit) = filelistInit := rfl
  have h4 : (Option.getD none configFileInit).sequences = [] := rfl
  rw [h3, h4, h]
  rfl

end Detox
