import Verif.Lemmas.Defined
import Verif.Props.Slash
import Verif.Props.Tables

/-!
# The whole program, from the command line to the files
-/

set_option autoImplicit false

namespace Detox
open Spec

/-! ### C70: with nothing configured -/

/-- No config file is given with `-f`, and none of those looked for can be read. -/
def Unconfigured (I : Invocation) (ss : List Setting) (tr : List Event) : Prop :=
  lastConfig ss = none ∧ ∀ p ∈ systemFiles I.config ++ userFiles I.config, ∀ text, Event.slurp (some p) (some text) ∉ tr

/-- The name of the sequence asked for: by `-s`, or else by `DETOX_SEQUENCE`. -/
def requested (I : Invocation) (ss : List Setting) : Option Bytes := (lastSequence ss).or I.sequence

theorem filesRead_mem {tr : List Event} {p : Bytes} {r : Option Bytes} (h : (p, r) ∈ filesRead tr) : Event.slurp (some p) r ∈ tr := by
  induction tr with
  | nil => cases h
  | cons e tr ih =>
    cases e with
    | slurp q r' =>
      cases q with
      | none => exact List.mem_cons_of_mem _ (ih h)
      | some q =>
        rcases List.mem_cons.1 h with h | h
        · cases h; exact List.mem_cons_self ..
        · exact List.mem_cons_of_mem _ (ih h)
    | _ => exact List.mem_cons_of_mem _ (ih h)

theorem firstOf_mem {ps : List Bytes} {reads : List (Bytes × Option Bytes)} {ex : List (Bytes × Bytes)} (h : FirstOf ps reads ex) :
    ∀ x ∈ ex, x.1 ∈ ps ∧ (x.1, some x.2) ∈ reads := by
  induction h with
  | nothing => intro x hx; cases hx
  | found p ps text => intro x hx; cases List.mem_singleton.1 hx; simp
  | missing p ps reads r _ ih =>
    intro x hx
    obtain ⟨h1, h2⟩ := ih x hx
    exact ⟨List.mem_cons_of_mem _ h1, List.mem_cons_of_mem _ h2⟩

theorem allOf_mem {ps : List Bytes} {reads : List (Bytes × Option Bytes)} {ex : List (Bytes × Bytes)} (h : AllOf ps reads ex) :
    ∀ x ∈ ex, x.1 ∈ ps ∧ (x.1, some x.2) ∈ reads := by
  induction h with
  | nothing => intro x hx; cases hx
  | found p ps text reads r _ ih =>
    intro x hx
    rcases List.mem_cons.1 hx with rfl | hx
    · simp
    · obtain ⟨h1, h2⟩ := ih x hx
      exact ⟨List.mem_cons_of_mem _ h1, List.mem_cons_of_mem _ h2⟩
  | missing p ps reads r _ ih =>
    intro x hx
    obtain ⟨h1, h2⟩ := ih x hx
    exact ⟨List.mem_cons_of_mem _ h1, List.mem_cons_of_mem _ h2⟩

theorem unconfigured_spoof {E : ConfigEnv} {tr : List Event} {c : ConfigFile} (h : Trace (configFileLoad E none) tr (.ret c))
    (hn : ∀ p ∈ systemFiles E ++ userFiles E, ∀ text, Event.slurp (some p) (some text) ∉ tr) : spoofConfigFile = .ok c := by
  obtain ⟨sys, user, ex1, ex2, h1, h2, h3, h4⟩ := C44_without_option_f h
  rcases h4 with ⟨hne, _⟩ | ⟨_, h4⟩
  · refine absurd ?_ hne
    refine List.eq_nil_iff_forall_not_mem.2 fun x hx => ?_
    rcases List.mem_append.1 hx with hx | hx
    · obtain ⟨a, b⟩ := firstOf_mem h2 x hx
      exact hn x.1 (List.mem_append_left _ a) x.2 (filesRead_mem (by rw [h1]; exact List.mem_append_left _ b))
    · obtain ⟨a, b⟩ := allOf_mem h3 x hx
      exact hn x.1 (List.mem_append_right _ a) x.2 (filesRead_mem (by rw [h1]; exact List.mem_append_right _ b))
  · exact h4

/-- A filter of the built-in sequences needs no table, or names one that is compiled in. -/
def Filter.SelfContained (f : Filter) : Prop := defaultTableFilename f.cleaner = none ∨ f.builtin ≠ none

theorem loadTable_selfContained {ctype : Bytes} {datadir : Option Bytes} {f : Filter} (hf : f.SelfContained) {tr : List Event}
    {t : Option Table} (h : Trace (loadTable ctype datadir f) tr (.ret t)) : tr = [] ∧ ∀ E, filterLoadTable E f = .ok t := by
  unfold loadTable at h
  cases hd : defaultTableFilename f.cleaner with
  | none =>
    rw [hd] at h
    cases h
    exact ⟨rfl, fun E => by unfold filterLoadTable; rw [hd]⟩
  | some cf =>
    rw [hd] at h
    simp only at h
    cases hb : f.builtin with
    | none =>
      rcases hf with hf | hf
      · rw [hd] at hf; cases hf
      · exact absurd hb hf
    | some b =>
      rw [hb] at h
      simp only at h
      cases hl : filterLoadBuiltinByFilename b with
      | none => rw [hl] at h; cases h with | err _ _ _ _ h => cases h
      | some t' =>
        rw [hl] at h
        cases h
        exact ⟨rfl, fun E => by unfold filterLoadTable; rw [hd]; simp only [hb, hl]⟩

theorem reviewSequence_selfContained {ctype : Bytes} {datadir : Option Bytes} {q q' : Sequence} (hq : ∀ f ∈ q.filters, f.SelfContained)
    {tr : List Event} (h : Trace (reviewSequence ctype datadir q) tr (.ret q')) : ∀ E, sequenceReview E q = .ok q' := by
  have key : ∀ (fs : List Filter) (tr : List Event) (fs' : List Filter), (∀ f ∈ fs, f.SelfContained) →
      Trace (loadTables ctype datadir fs) tr (.ret fs') → ∀ E, reviewFilters E fs = .ok fs' := by
    intro fs
    induction fs with
    | nil => intro tr fs' _ h E; cases h; rfl
    | cons f fs ih =>
      intro tr fs' hs h E
      unfold loadTables at h
      obtain ⟨t, tr1, tr2, rfl, h1, h2⟩ := trace_bind_ret h
      obtain ⟨fs1, tr3, tr4, rfl, h3, h4⟩ := trace_bind_ret h2
      unfold reviewFilters
      rw [(loadTable_selfContained (hs f (by simp)) h1).2 E, ih _ _ (fun g hg => hs g (by simp [hg])) h3 E]
      cases h4
      cases t <;> rfl
  intro E
  unfold reviewSequence at h
  obtain ⟨fs, tr1, tr2, rfl, h1, h2⟩ := trace_bind_ret h
  unfold sequenceReview
  rw [key _ _ _ hq h1 E]
  cases h2
  rfl

theorem spoof_selfContained : ∀ q ∈ spoofSequences, ∀ f ∈ q.filters, f.SelfContained := by
  have : ∀ q ∈ spoofSequences, ∀ f ∈ q.filters, (decide (defaultTableFilename f.cleaner = none) || f.builtin.isSome) = true := by
    decide +kernel
  intro q hq f hf
  have := this q hq f hf
  simp only [Bool.or_eq_true, decide_eq_true_eq] at this
  rcases this with h | h
  · exact .inl h
  · exact .inr (by intro h'; rw [h'] at h; cases h)

theorem chosen_mem {qs : List Sequence} {n : Option Bytes} {q : Sequence} (h : Chosen qs n q) : q ∈ qs := by
  cases n with
  | some n =>
    obtain ⟨a, b, rfl, _⟩ := h
    simp
  | none =>
    rcases h with ⟨a, b, rfl, _⟩ | ⟨_, h⟩
    · simp
    · cases qs with
      | nil => cases h
      | cons x qs => cases h; simp

theorem spoof_eq {c : ConfigFile} (h : spoofConfigFile = .ok c) : c.sequences = spoofSequences := by
  unfold spoofConfigFile at h
  obtain ⟨l, hl, _⟩ := filelistPut_holds filelistInit_holds (lit "{arch}")
  rw [hl] at h
  cases h
  rfl

/-- With nothing configured, the sequence in use does what `runBuiltin` says. -/
theorem unconfigured_run {P : Platform} {I : Invocation} {ss : List Setting} {tr r1 r2 : List Event} {c : ConfigFile} {q q' : Sequence}
    (hu : Unconfigured I ss tr) (hr1 : ∀ e ∈ r1, e ∈ tr) (h1 : Trace (configFileLoad I.config (lastConfig ss)) r1 (.ret c))
    (h2 : Chosen c.sequences (requested I ss) q) (h3 : Trace (reviewSequence I.ctype I.datadir q) r2 (.ret q')) (E : TableEnv) (s : Bytes) :
    runBuiltin P E (requested I ss) s = sequenceRunFilters P (some q') (some s) := by
  rw [hu.1] at h1
  have hs := unconfigured_spoof h1 fun p hp text hm => hu.2 p hp text (hr1 _ hm)
  have hq : q ∈ spoofSequences := by rw [← spoof_eq hs]; exact chosen_mem h2
  unfold runBuiltin
  rw [hs]
  simp only [Res.bind_ok]
  rw [(C42_sequence_choice _ _ _).2 h2]
  simp only
  rw [reviewSequence_selfContained (spoof_selfContained q hq) h3 E]
  rfl

/-- **C70**: with nothing configured, whatever detox renames, it renames to what the built-in sequence asked for makes of the name,
in the same place. So everything proved of the built-in sequences (C01 to C05, C08 to C20) holds of the names given to files. -/
theorem C70_builtin_renames {P : Platform} {I : Invocation} {fuel : Nat} {ss : List Setting} {ws : List Bytes}
    (hc : CommandLine I.posixlyCorrect I.args ss ws) {tr : List Event} {out : Outcome Unit} (h : Trace (detoxMain P I fuel) tr out)
    (hu : Unconfigured I ss tr) (old new : Bytes) (ok : Bool) (hmem : Event.rename old new ok ∈ tr) :
    ∃ dir name cleaned, SplitsAs old dir name ∧ new = dir ++ cleaned ∧ cleaned ≠ name ∧
      ∀ E, runBuiltin P E (requested I ss) name = .ok (some cleaned) := by
  obtain ⟨pre, post, htr⟩ := List.append_of_mem hmem
  obtain ⟨c, q, q', r1, r2, rest, hp, h1, h2, h3, dir, name, cleaned, _, _, _, _, _, a, b, c', d, _⟩ :=
    C66_renames_are_guarded hc h pre post old new ok htr
  refine ⟨dir, name, cleaned, a, b, c', fun E => ?_⟩
  rw [unconfigured_run hu (fun e he => by rw [htr, hp]; simp [he]) h1 h2 h3 E name, d]

/-- The default sequence, asked for by name or not at all. -/
theorem runBuiltin_asked {P : Platform} {E : TableEnv} {n : Option Bytes} (h : n = none ∨ n = some (lit "default")) (s : Bytes) :
    runBuiltin P E n s = runBuiltin P E none s := by
  rcases h with rfl | rfl
  · rfl
  · rw [runBuiltin_default, runBuiltin_none]

/-- **C70**: plain `detox` with nothing configured: no file is ever given a name with a shell-hostile character in it, and the bytes
of a name that are not ASCII stay as they are. -/
theorem C70_default_renames_are_clean {P : Platform} {I : Invocation} {fuel : Nat} {ss : List Setting} {ws : List Bytes}
    (hc : CommandLine I.posixlyCorrect I.args ss ws) {tr : List Event} {out : Outcome Unit} (h : Trace (detoxMain P I fuel) tr out)
    (hu : Unconfigured I ss tr) (hn : requested I ss = none ∨ requested I ss = some (lit "default"))
    (old new : Bytes) (ok : Bool) (hmem : Event.rename old new ok ∈ tr) (hold : NulFree old) :
    ∃ dir name cleaned, SplitsAs old dir name ∧ SplitsAs new dir cleaned ∧ cleaned ≠ name ∧ (∀ c ∈ cleaned, hostile c = false) ∧
      cleaned.filter (fun c => decide (128 ≤ c.toNat)) = name.filter (fun c => decide (128 ≤ c.toNat)) := by
  obtain ⟨dir, name, cleaned, a, rfl, c', d⟩ := C70_builtin_renames hc h hu old new ok hmem
  have hnn : NulFree name := fun hm => hold (by rw [a.1]; exact List.mem_append_right _ hm)
  have d := d ⟨fun _ => none, none⟩
  rw [runBuiltin_asked hn] at d
  obtain ⟨out', e1, e2⟩ := C01_default_output_has_no_hostile_character P ⟨fun _ => none, none⟩ name hnn
  rw [d] at e1
  cases e1
  refine ⟨dir, name, cleaned, a, ⟨rfl, fun hm => ?_, a.2.2⟩, c', e2, C03_default_preserves_non_ascii P _ name cleaned hnn d⟩
  exact absurd (e2 _ hm) (by decide +kernel)

/-- **C70**: running it again changes nothing: no later run, on whatever files, renames a file whose name was given to it by an
earlier one. -/
theorem C70_second_run_leaves_names_alone {P : Platform} {I I' : Invocation} {fuel fuel' : Nat} {ss ss' : List Setting} {ws ws' : List Bytes}
    (hc : CommandLine I.posixlyCorrect I.args ss ws) (hc' : CommandLine I'.posixlyCorrect I'.args ss' ws')
    {tr tr' : List Event} {out out' : Outcome Unit} (h : Trace (detoxMain P I fuel) tr out) (h' : Trace (detoxMain P I' fuel') tr' out')
    (hu : Unconfigured I ss tr) (hu' : Unconfigured I' ss' tr') (hn : requested I ss = none ∨ requested I ss = some (lit "default"))
    (hn' : requested I' ss' = none ∨ requested I' ss' = some (lit "default"))
    {old new : Bytes} {ok : Bool} (hmem : Event.rename old new ok ∈ tr) (hold : NulFree old)
    {again other : Bytes} {ok' : Bool} (hmem' : Event.rename again other ok' ∈ tr') {dir dir' name : Bytes} (h1 : SplitsAs new dir name) :
    ¬ SplitsAs again dir' name := by
  intro h2
  obtain ⟨d1, n1, c1, a1, rfl, _, e1⟩ := C70_builtin_renames hc h hu old new ok hmem
  obtain ⟨d2, n2, c2, a2, _, ne2, e2⟩ := C70_builtin_renames hc' h' hu' again other ok' hmem'
  have unique : ∀ {p a b a' b' : Bytes}, SplitsAs p a b → SplitsAs p a' b' → b = b' := by
    intro p a b a' b' x y
    have hx := splitsAs_unique x
    have hy := splitsAs_unique y
    rw [hx.2, hy.2]
  have hnn : NulFree n1 := fun hm => hold (by rw [a1.1]; exact List.mem_append_right _ hm)
  have E : TableEnv := ⟨fun _ => none, none⟩
  have e1 := e1 E
  have e2 := e2 E
  rw [runBuiltin_asked hn] at e1
  rw [runBuiltin_asked hn'] at e2
  have hcl := C01_default_output_has_no_hostile_character P E n1 hnn
  obtain ⟨o1, x1, x2⟩ := hcl
  rw [e1] at x1
  cases x1
  have hs : SplitsAs (d1 ++ c1) d1 c1 := ⟨rfl, fun hm => absurd (x2 _ hm) (by decide +kernel), a1.2.2⟩
  cases unique h1 hs
  cases unique h2 a2
  have := C02_default_idempotent P E n1 name hnn e1
  rw [this] at e2
  cases e2
  exact ne2 rfl

/-- With nothing configured, nine of the built-in sequences make no slashes. -/
theorem unconfigured_noNewSlash {P : Platform} (hP : P.Benign) {I : Invocation} {ss : List Setting} {tr r1 r2 : List Event} {c : ConfigFile}
    {q q' : Sequence} {o : Options} (hu : Unconfigured I ss tr) (hr1 : ∀ e ∈ r1, e ∈ tr)
    (h1 : Trace (configFileLoad I.config (lastConfig ss)) r1 (.ret c)) (h2 : Chosen c.sequences (requested I ss) q)
    (h3 : Trace (reviewSequence I.ctype I.datadir q) r2 (.ret q')) (h4 : o.sequenceToUse = some q')
    (hn : requested I ss ≠ some (lit "utf_8-only") ∧ requested I ss ≠ some (lit "uncgi-only")) : NoNewSlash P o := by
  have hrb := fun E s => unconfigured_run (P := P) hu hr1 h1 h2 h3 E s
  intro s cl hsn hsl hrun'
  rw [h4, ← hrb ⟨fun _ => none, none⟩ s] at hrun'
  cases hreq : requested I ss with
  | none =>
    rw [hreq] at hrun'
    rw [← runBuiltin_asked (n := some (lit "default")) (.inr rfl)] at hrun'
    exact C19_no_slash P hP _ (lit "default") (by simp) s cl hsn hsl hrun'
  | some name =>
    rw [hreq] at hrun' hn
    refine C19_no_slash P hP _ name ?_ s cl hsn hsl hrun'
    have hin : name ∈ spoofSequences.map Sequence.name := by
      rw [hu.1] at h1
      have hsp := unconfigured_spoof h1 fun p hp text hm => hu.2 p hp text (hr1 _ hm)
      rw [← spoof_eq hsp]
      rw [hreq] at h2
      obtain ⟨a, b, e, e', _⟩ := h2
      rw [e, ← e']
      simp
    have hall : spoofSequences.map Sequence.name = [lit "default", lit "iso8859_1", lit "iso8859_1-legacy", lit "utf_8", lit "uncgi",
        lit "lower", lit "iso8859_1-only", lit "cp1252-only", lit "utf_8-only", lit "uncgi-only", lit "lower-only"] := rfl
    rw [hall] at hin
    simp only [List.mem_cons, List.not_mem_nil, or_false] at hin
    rcases hin with rfl | rfl | rfl | rfl | rfl | rfl | rfl | rfl | rfl | rfl | rfl
    case inr.inr.inr.inr.inr.inr.inr.inr.inl => exact absurd rfl hn.1
    case inr.inr.inr.inr.inr.inr.inr.inr.inr.inl => exact absurd rfl hn.2
    all_goals simp

/-- **C70**: nothing leaves its directory with nine of the built-in sequences, on a file system that nobody else changes. -/
theorem C70_nothing_leaves_its_directory {P : Platform} (hP : P.Benign) {I : Invocation} {fuel : Nat} {ss : List Setting} {ws : List Bytes}
    (hc : CommandLine I.posixlyCorrect I.args ss ws) {tr : List Event} {out : Outcome Unit} (h : Trace (detoxMain P I fuel) tr out)
    (hu : Unconfigured I ss tr) (hn : requested I ss ≠ some (lit "utf_8-only") ∧ requested I ss ≠ some (lit "uncgi-only"))
    (hold : ∀ old new ok, Event.rename old new ok ∈ tr → NulFree old) (fs fs' : FS) (hs : FS.Steps fs tr fs') :
    fs'.entries.map (fun e => (e.dir, e.ino)) = fs.entries.map (fun e => (e.dir, e.ino)) := by
  rcases main_cases hc h with ⟨h, _⟩ | ⟨reads, t, o, ignored, l, ign, rfl, hr, hl, hi, hk⟩
  · rw [steps_inline (fun e he => .inl (h e he)) hs]
  · have hs' := steps_harmless hr.quiet hs
    clear hs
    rcases hk with ⟨_, ht⟩ | ⟨_, _, ht⟩
    · rw [steps_inline ((inlineMain_only _).trace ht) hs']
    · obtain ⟨out', hrun, _⟩ := main_run hl hi ht
      obtain ⟨c, q, q', r1, r2, rfl, h1, h2, h3, h4, _⟩ := hr.stages
      refine C27_nothing_leaves_its_directory P o
        (unconfigured_noNewSlash hP hu (fun e he => by simp [he]) h1 h2 h3 h4 hn) ws ignored t out' hrun (fun a b c hm => hold a b c (by simp [hm])) fs fs' hs'

/- A concrete case of all of these: `detox 'a b'`. -/
example : Trace (detoxMain .linux (plainCall (lit "a b")) 0) (mainTrace true) (.ret ()) ∧
    CommandLine false (plainCall (lit "a b")).args [] [lit "a b"] ∧ Unconfigured (plainCall (lit "a b")) [] (mainTrace true) ∧
    requested (plainCall (lit "a b")) [] = none ∧ Event.rename (lit "a b") (lit "a_b") true ∈ mainTrace true ∧ NulFree (lit "a b") := by
  refine ⟨Prog.result_sound _ _ _ (by decide +kernel), ?_, ⟨rfl, ?_⟩, rfl, by decide +kernel, by decide +kernel⟩
  · exact .operand _ _ _ _ rfl (.inl (by decide +kernel)) .none
  · have : ∀ e ∈ mainTrace true, ∀ p text, e ≠ .slurp p (some text) := by
      intro e he p text h
      subst h
      simp [mainTrace, nothingInstalled] at he
    exact fun p _ text hm => this _ hm _ _ rfl

/-- **C70**: the other two move files to other directories: `%2F` in the name of a file is all it takes. -/
theorem C70_uncgi_only_moves_a_file_away :
    ∃ tr, Trace (detoxMain .linux { program := lit "detox", args := [lit "-s", lit "uncgi-only", lit "..%2Fx"] } 0) tr (.ret ()) ∧
      Event.rename (lit "..%2Fx") (lit "../x") true ∈ tr :=
  ⟨nothingInstalled ++ [.lstat (lit "..%2Fx") (some (regStat 2)), .lstat (lit "..%2Fx") (some (regStat 2)), .lstat (lit "../x") none,
    .rename (lit "..%2Fx") (lit "../x") true], Prog.result_sound _ _ _ (by decide +kernel), by simp⟩

/-! ### C71: definedness -/

/-- The sequence in use, with its tables. -/
def InUse (I : Invocation) (ss : List Setting) (tr : List Event) (q' : Sequence) : Prop :=
  ∃ c q r1 r2 rest, tr = r1 ++ r2 ++ rest ∧ Trace (configFileLoad I.config (lastConfig ss)) r1 (.ret c) ∧
    Chosen c.sequences (requested I ss) q ∧ Trace (reviewSequence I.ctype I.datadir q) r2 (.ret q')

/-- What is asked of the surroundings of a run. `N` says which file names occur. -/
structure Orderly (P : Platform) (N : Bytes → Prop) (I : Invocation) (ss : List Setting) (ws : List Bytes) (tr : List Event) : Prop where
  /-- arguments are such names -/
  args : ∀ w ∈ ws, N w
  /-- so are the names in directories -/
  entries : ∀ d n, Event.readdir d (some n) ∈ tr → N n
  /-- config files have no NUL bytes and no numbers that are not an `int` -/
  config : ∀ p ∈ configFiles I.config (lastConfig ss), ∀ text, Event.slurp (some p) (some text) ∈ tr → PlainConfig text
  /-- such names are C strings, and so are their parts and what the sequence in use makes of them -/
  nulFree : ∀ s, N s → NulFree s
  part : ∀ s t, N s → t <:+: s → N t
  sequence : ∀ q', InUse I ss tr q' → ∀ s, N s → ∃ out, sequenceRunFilters P (some q') (some s) = .ok (some out) ∧ NulFree out
  /-- what is cleaned inline is UTF-8 without NUL bytes, and the tables of the sequence in use are such that its filters stay in
  bounds -/
  inline : CalledInline I.program ∨ Setting.inline ∈ ss →
    (∀ p s, Event.slurp p (some s) ∈ tr → (p = none ∨ ∃ w ∈ ws, p = some w) → NulFree s ∧ ValidUtf8 s) ∧
    ∀ q', InUse I ss tr q' → ∀ f ∈ q'.filters, f.Ready

/-- **C71**: under these conditions no execution of detox has undefined behaviour, whatever the system calls answer, and none runs
for ever between two system calls (`stuck`, if the bound on directory scans exceeds the number of calls made). -/
theorem C71_orderly_runs_are_defined {P : Platform} (hP : P.Benign) {I : Invocation} {fuel : Nat} {ss : List Setting} {ws : List Bytes}
    (hc : CommandLine I.posixlyCorrect I.args ss ws) {tr : List Event} {out : Outcome Unit} (h : Trace (detoxMain P I fuel) tr out)
    {N : Bytes → Prop} (ho : Orderly P N I ss ws tr) : (∀ u, out ≠ .ub u) ∧ (tr.length < fuel → out ≠ .stuck) := by
  have same : ∀ {α β : Type} {a : Outcome α} {b : Outcome β}, a.SameEnd b → (∀ u, a ≠ .ub u) ∧ (a = .stuck → False) →
      (∀ u, b ≠ .ub u) ∧ (tr.length < fuel → b ≠ .stuck) := by
    intro α β a b hs ⟨h1, h2⟩
    cases hs with
    | running => exact ⟨nofun, nofun⟩
    | exit n => exact ⟨nofun, nofun⟩
    | ub u => exact absurd rfl (h1 u)
    | stuck => exact (h2 rfl).elim
  unfold detoxMain at h
  rcases trace_bind_any h with ⟨o, t1, t2, htr, h1, h2⟩ | ⟨o', h1, h2⟩
  · obtain ⟨_, rfl, ha, hrest⟩ := parseOptions_ret hc h1
    rw [List.nil_append] at htr
    subst htr
    unfold detoxConfigured at h2
    have hconf : (configFileLoad I.config o.checkConfigFile).Defined False (fun e => e ∈ tr)
        fun c => ∃ l ws, c.filesToIgnore = some l ∧ l.Holds ws 0 := by
      rw [ha.2.2.2.2.2.2.2.1]
      exact configFileLoad_defined fun p hp text hm => ho.config p hp text hm
    rcases trace_bind_any h2 with ⟨c, r1, t3, htr, h3, h4⟩ | ⟨o', h3, h4⟩
    · obtain ⟨_, _, hgood⟩ := Prog.Defined.sound h3 hconf fun e he => by rw [htr]; simp [he]
      obtain ⟨il, iws, hil, hih⟩ := hgood c rfl
      split at h4
      · obtain ⟨t, ht⟩ := dumpConfigFile_ok o hil hih
        rw [ht] at h4
        cases h4 with
        | stop => exact ⟨nofun, nofun⟩
        | out _ _ _ _ h5 =>
          cases h5 with
          | stop => exact ⟨nofun, nofun⟩
          | exit => exact ⟨nofun, nofun⟩
      · next hl =>
        have hls : Setting.list ∉ ss := fun hm => hl (ha.1.2 hm)
        rcases hrest with hm | ⟨_, l, hf, hh, hne⟩
        · exact absurd hm hls
        cases hq : sequenceChooseDefault c.sequences o.sequenceName with
        | none =>
          rw [hq] at h4
          cases h4 with
          | stop => exact ⟨nofun, nofun⟩
          | err _ _ _ _ h5 =>
            cases h5 with
            | stop => exact ⟨nofun, nofun⟩
            | exit => exact ⟨nofun, nofun⟩
        | some q =>
          rw [hq] at h4
          simp only at h4
          rw [sequenceChooseDefault_iff] at hq
          rcases trace_bind_any h4 with ⟨q', r2, t4, htr', h5, h6⟩ | ⟨o', h5, h6⟩
          · rw [ha.2.2.2.2.2.2.2.1] at h3
            rw [ha.2.2.2.2.2.2.2.2] at hq
            have huse : InUse I ss tr q' := ⟨c, q, r1, r2, t4, by rw [htr, htr', List.append_assoc], h3, hq, h5⟩
            have hmem : ∀ e ∈ t4, e ∈ tr := fun e he => by rw [htr, htr']; simp [he]
            have hi : ∀ o₂ : Options, { o with filesToIgnore := c.filesToIgnore, sequenceToUse := some q' } = o₂ →
                o₂.files = some l ∧ o₂.sequenceToUse = some q' ∧ o₂.filesToIgnore = c.filesToIgnore ∧
                (o₂.isInlineMode = true → CalledInline I.program ∨ Setting.inline ∈ ss) ∧ Cleans P o₂ N := by
              rintro _ rfl
              exact ⟨hf, rfl, rfl, ha.2.2.2.2.2.1.1, ho.nulFree, ho.part, ho.sequence q' huse⟩
            generalize ({ o with filesToIgnore := c.filesToIgnore, sequenceToUse := some q' } : Options) = o₂ at h6 hi
            obtain ⟨hf₂, hs₂, hg₂, hi₂, hcl⟩ := hi o₂ rfl
            unfold detoxWork at h6
            split at h6
            · next hi =>
              obtain ⟨htext, hready⟩ := ho.inline (hi₂ hi)
              have hready := hready q' huse
              rw [hf₂] at h6
              have hdef : (inlineMain P o₂ (some l)).Defined False (fun e => e ∈ tr) fun _ => True :=
                inlineMain_defined hP hs₂ hready (fun s hm => htext none s hm (.inl rfl))
                  (fun w hw s hm => htext (some w) s hm (.inr ⟨w, hw, rfl⟩)) hh
              obtain ⟨g1, g2, _⟩ := Prog.Defined.sound h6 hdef hmem
              exact ⟨g1, fun _ hs => g2 hs⟩
            · simp only [hf₂, hg₂] at h6
              have hign : IgnV c.filesToIgnore := by
                intro l' hl'
                rw [hil] at hl'
                cases hl'
                exact ⟨iws, 0, hih⟩
              have hdef := fileLoop_defined (P := P) (o := o₂)
                (A := fun e => e ∈ tr) (fun d n hm => ho.entries d n hm) hcl (by rw [hs₂]; nofun) fuel ho.args (l.count + 1) l 0 c.filesToIgnore hh hign
              have hdef : ((fileLoop P o₂ fuel (l.count + 1) l c.filesToIgnore).bind fun _ => Prog.ret ()).Defined True
                  (fun e => e ∈ tr) fun _ => True :=
                hdef.bind fun _ _ => trivial
              obtain ⟨g1, _, _⟩ := Prog.Defined.sound h6 hdef hmem
              refine ⟨g1, fun hfuel => ?_⟩
              have hns := fileLoop_rounds (P := P) (o := o₂) fuel
                (l.count + 1) l c.filesToIgnore t4.length 0 ws hh hign (by rw [htr, htr'] at hfuel; simp at hfuel; omega)
                (by rw [hh.1]; omega)
              exact Prog.ns_sound (Q := fun _ _ => True) h6 t4.length
                (Prog.ns_bind _ _ _ (Prog.ns_mono _ _ (fun _ _ _ _ _ => trivial) hns)) (Nat.le_refl _)
          · obtain ⟨g1, g2, _⟩ := Prog.Defined.sound (A := fun _ => True) h6 (reviewSequence_defined _ _ _) (fun _ _ => trivial)
            exact same h5 ⟨g1, g2⟩
    · obtain ⟨g1, g2, _⟩ := Prog.Defined.sound h4 hconf fun e he => he
      exact same h3 ⟨g1, g2⟩
  · obtain ⟨g1, g2, _⟩ := Prog.Defined.sound (A := fun _ => True) h2 (parseOptions_defined _ _ _ _) (fun _ _ => trivial)
    exact same h1 ⟨g1, g2⟩

/-- The filters of the built-in sequences are ready, but for `utf_8`. -/
theorem builtin_ready {q q' : Sequence} (hq : q ∈ spoofSequences) (hn : q.name ≠ lit "utf_8" ∧ q.name ≠ lit "utf_8-only") {E : TableEnv}
    (h : sequenceReview E q = .ok q') : ∀ f ∈ q'.filters, f.Ready := by
  have rs : safeF.Ready := ⟨_, rfl, builtin_roomy.1⟩
  have ri : isoF.Ready := ⟨_, rfl, builtin_roomy.2.1⟩
  have rc : cpF.Ready := ⟨_, rfl, builtin_roomy.2.2.2⟩
  have rw' : wipeF.Ready := trivial
  have rl : lowerF.Ready := trivial
  have ru : uncgiF.Ready := trivial
  unfold spoofSequences at hq
  simp only [List.mem_cons, List.not_mem_nil, or_false] at hq
  rcases hq with rfl | rfl | rfl | rfl | rfl | rfl | rfl | rfl | rfl | rfl | rfl
  case inr.inr.inr.inl => exact absurd rfl hn.1
  case inr.inr.inr.inr.inr.inr.inr.inr.inl => exact absurd rfl hn.2
  · rw [show sequenceReview E (generateSequence (lit "default") safeWipeup) =
      .ok { generateSequence (lit "default") safeWipeup with filters := [safeF, wipeF] } from rfl] at h
    cases h
    simp [rs, rw']
  · rw [show sequenceReview E (generateSequence (lit "iso8859_1") (generateBuiltinFilter .iso8859_1 (lit "iso8859_1") :: safeWipeup)) =
      .ok { generateSequence (lit "iso8859_1") (generateBuiltinFilter .iso8859_1 (lit "iso8859_1") :: safeWipeup) with
        filters := [isoF, safeF, wipeF] } from rfl] at h
    cases h
    simp [rs, ri, rw']
  · rw [show sequenceReview E (generateSequence (lit "iso8859_1-legacy")
      (generateBuiltinFilter .iso8859_1 (lit "cp1252") :: generateBuiltinFilter .iso8859_1 (lit "iso8859_1") :: safeWipeup)) =
      .ok { generateSequence (lit "iso8859_1-legacy")
        (generateBuiltinFilter .iso8859_1 (lit "cp1252") :: generateBuiltinFilter .iso8859_1 (lit "iso8859_1") :: safeWipeup) with
          filters := [cpF, isoF, safeF, wipeF] } from rfl] at h
    cases h
    simp [rs, ri, rc, rw']
  · rw [show sequenceReview E (generateSequence (lit "uncgi") (generateFilter .uncgi :: safeWipeup)) =
      .ok { generateSequence (lit "uncgi") (generateFilter .uncgi :: safeWipeup) with filters := [uncgiF, safeF, wipeF] } from rfl] at h
    cases h
    simp [rs, ru, rw']
  · rw [show sequenceReview E (generateSequence (lit "lower") [generateFilter .safe, generateFilter .lower, generateWipeupFilter true]) =
      .ok { generateSequence (lit "lower") [generateFilter .safe, generateFilter .lower, generateWipeupFilter true] with
        filters := [safeF, lowerF, wipeF] } from rfl] at h
    cases h
    simp [rs, rl, rw']
  · rw [show sequenceReview E (generateSequence (lit "iso8859_1-only") [generateBuiltinFilter .iso8859_1 (lit "iso8859_1")]) =
      .ok { generateSequence (lit "iso8859_1-only") [generateBuiltinFilter .iso8859_1 (lit "iso8859_1")] with filters := [isoF] } from rfl] at h
    cases h
    simp [ri]
  · rw [show sequenceReview E (generateSequence (lit "cp1252-only") [generateBuiltinFilter .iso8859_1 (lit "cp1252")]) =
      .ok { generateSequence (lit "cp1252-only") [generateBuiltinFilter .iso8859_1 (lit "cp1252")] with filters := [cpF] } from rfl] at h
    cases h
    simp [rc]
  · rw [show sequenceReview E (generateSequence (lit "uncgi-only") [generateFilter .uncgi]) =
      .ok { generateSequence (lit "uncgi-only") [generateFilter .uncgi] with filters := [uncgiF] } from rfl] at h
    cases h
    simp [ru]
  · rw [show sequenceReview E (generateSequence (lit "lower-only") [generateFilter .lower]) =
      .ok { generateSequence (lit "lower-only") [generateFilter .lower] with filters := [lowerF] } from rfl] at h
    cases h
    simp [rl]

theorem hasEncodedNul_part {s t : Bytes} (h : ¬ HasEncodedNul s) (ht : t <:+: s) : ¬ HasEncodedNul t := by
  rintro ⟨a, u, b, rfl, h1, h2⟩
  obtain ⟨x, y, rfl⟩ := ht
  exact h ⟨x ++ a, u, b ++ y, by simp only [List.append_assoc], h1, h2⟩

/-- The two `utf_8` sequences on names without encoded NULs. -/
theorem utf8_cleans {P : Platform} (hP : P.Benign) {q q' : Sequence} (hq : q ∈ spoofSequences)
    (hn : q.name = lit "utf_8" ∨ q.name = lit "utf_8-only") {E : TableEnv} (h : sequenceReview E q = .ok q') (s : Bytes) (hs : NulFree s)
    (he : ¬ HasEncodedNul s) : ∃ out, sequenceRunFilters P (some q') (some s) = .ok (some out) ∧ NulFree out := by
  obtain ⟨r, hr⟩ := (C17_tables_in_bounds_partial P _ builtin_roomy.2.2.1 s hs).2.2 (.inl he)
  have hrn : NulFree r := by
    rw [cleanUtf8_some unicode_table_ascii hr]
    exact (utf8Fn_units unicode_table_ascii s).nulFree fun _ _ h => h.1
  have hq' : ∃ fs, q'.filters = utf8F :: fs ∧ ∀ f ∈ fs, f.Ready := by
    have hall : ∀ q ∈ spoofSequences, (q.name = lit "utf_8" ∨ q.name = lit "utf_8-only") →
        q.filters = generateBuiltinFilter .utf8 (lit "unicode") :: safeWipeup ∨ q.filters = [generateBuiltinFilter .utf8 (lit "unicode")] := by
      decide +kernel
    unfold sequenceReview at h
    rcases hall q hq hn with hf | hf
    · rw [hf, show reviewFilters E (generateBuiltinFilter .utf8 (lit "unicode") :: safeWipeup) = .ok [utf8F, safeF, wipeF] from rfl] at h
      cases h
      refine ⟨[safeF, wipeF], rfl, fun f hf => ?_⟩
      simp only [List.mem_cons, List.not_mem_nil, or_false] at hf
      rcases hf with rfl | rfl
      · exact ⟨_, rfl, builtin_roomy.1⟩
      · trivial
    · rw [hf, show reviewFilters E [generateBuiltinFilter .utf8 (lit "unicode")] = .ok [utf8F] from rfl] at h
      cases h
      exact ⟨[], rfl, nofun⟩
  obtain ⟨fs, hfs, hready⟩ := hq'
  obtain ⟨out, ho, hon⟩ := C18_cleaning_returns_a_name P hP { name := [], filters := fs } hready r hrn
  refine ⟨out, ?_, hon⟩
  show runFilters P q'.filters (some s) = _
  rw [hfs, runFilters_utf8, hr]
  exact ho

/-- The names that are safe with a sequence: any, but for an overlong encoding of NUL under the two sequences with `utf_8`. -/
def SafeName (n : Option Bytes) (s : Bytes) : Prop :=
  NulFree s ∧ (n = some (lit "utf_8") ∨ n = some (lit "utf_8-only") → ¬ HasEncodedNul s)

/-- **C71**: with nothing configured, detox has no undefined behaviour, whatever the options, the files, and the answers of the
system, as long as no name has an overlong encoding of NUL in it, if the sequence is one of the two with `utf_8`. Inline mode is left
out, see C40. -/
theorem C71_unconfigured_runs_are_defined {P : Platform} (hP : P.Benign) {I : Invocation} {fuel : Nat} {ss : List Setting} {ws : List Bytes}
    (hc : CommandLine I.posixlyCorrect I.args ss ws) {tr : List Event} {out : Outcome Unit} (h : Trace (detoxMain P I fuel) tr out)
    (hu : Unconfigured I ss tr) (hi : ¬ (CalledInline I.program ∨ Setting.inline ∈ ss)) (hargs : ∀ w ∈ ws, SafeName (requested I ss) w)
    (hnames : ∀ d n, Event.readdir d (some n) ∈ tr → SafeName (requested I ss) n) :
    (∀ u, out ≠ .ub u) ∧ (tr.length < fuel → out ≠ .stuck) := by
  refine C71_orderly_runs_are_defined hP hc h (N := SafeName (requested I ss))
    ⟨hargs, hnames, ?_, fun s hs => hs.1, ?_, ?_, fun hi' => absurd hi' hi⟩
  · intro p hp text hm
    rw [hu.1] at hp
    exact absurd hm (hu.2 p hp text)
  · rintro s t ⟨h1, h2⟩ ht
    exact ⟨fun h0 => h1 (ht.subset h0), fun hn => hasEncodedNul_part (h2 hn) ht⟩
  · rintro q' ⟨c, q, r1, r2, rest, rfl, h1, h2, h3⟩ s ⟨hs1, hs2⟩
    rw [hu.1] at h1
    have hsp := unconfigured_spoof h1 fun p hp text hm => hu.2 p hp text (by simp [hm])
    rw [spoof_eq hsp] at h2
    have hq := chosen_mem h2
    have hrev := reviewSequence_selfContained (spoof_selfContained q hq) h3 ⟨fun _ => none, none⟩
    have hname : requested I ss = some q.name ∨ (requested I ss = none ∧ q.name = lit "default") := by
      cases hr : requested I ss with
      | some n =>
        rw [hr] at h2
        obtain ⟨_, _, _, e, _⟩ := h2
        exact .inl (by rw [e])
      | none =>
        rw [hr] at h2
        rcases h2 with ⟨_, _, _, e, _⟩ | ⟨hno, _⟩
        · exact .inr ⟨rfl, e⟩
        · exact absurd rfl (hno (generateSequence (lit "default") safeWipeup) (by simp [spoofSequences]))
    by_cases hn : q.name = lit "utf_8" ∨ q.name = lit "utf_8-only"
    · refine utf8_cleans hP hq hn hrev s hs1 (hs2 ?_)
      rcases hname with h | ⟨_, h⟩
      · rw [h]
        rcases hn with hn | hn
        · exact .inl (by rw [hn])
        · exact .inr (by rw [hn])
      · rw [h] at hn
        exact absurd hn (by decide +kernel)
    · exact C18_cleaning_returns_a_name P hP q' (builtin_ready hq (not_or.1 hn) hrev) s hs1

/- A case of C71: `detox 'a b'` again, on the only platform that matters. -/
example : Platform.linux.Benign ∧ ¬ (CalledInline (plainCall (lit "a b")).program ∨ Setting.inline ∈ ([] : List Setting)) ∧
    SafeName (requested (plainCall (lit "a b")) []) (lit "a b") := by
  refine ⟨by decide, ?_, by decide +kernel, fun h => ?_⟩
  · rintro (h | h)
    · rw [← posixBasename_inline] at h
      exact absurd h (by decide +kernel)
    · cases h
  · rcases h with h | h <;> cases h

/-- **C71**: the exception is needed: a file with the name `C0 80` is all it takes to make `detox -s utf_8` write behind a buffer. -/
theorem C71_encoded_nul_is_undefined :
    Trace (detoxMain .linux { program := lit "detox", args := [lit "-s", lit "utf_8", [0xC0, 0x80]] } 0)
      (nothingInstalled ++ [.lstat [0xC0, 0x80] (some (regStat 2))]) (.ub .oobWrite) :=
  Prog.final_sound _ _ _ (by decide +kernel)

end Detox
