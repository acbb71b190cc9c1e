import Verif.Lemmas.ConfigErrors
import Verif.Lemmas.Defined
import Verif.Props.Listing

/-!
# Messages about syntax errors: C78
-/

set_option autoImplicit false

namespace Detox
open Spec

/-! ### The token that is blamed -/

theorem blame_token (file : Bytes) (last : Nat) (l : Located) (ys : List Located) (t : Tok) (un : Bool) (hl : l.item = .tok t un)
    (st' : CState) (hn : ∀ s, cfStep file st' t ≠ .ok s) : ∀ (xs : List Located) (st : CState), (∀ u, .ub u ∉ xs.map (·.item)) →
    cfToks file (tokensOf (xs.map (·.item))) st = .ok st' → cfBlame file last (xs ++ l :: ys) st = (l.text, l.line)
  | [], st, _, h => by
    cases h
    obtain ⟨i, w, n⟩ := l
    simp only at hl
    subst hl
    simp only [List.nil_append, cfBlame]
  | ⟨.ub u, w, n⟩ :: xs, st, hu, _ => absurd (by simp) (hu u)
  | ⟨.tok a b, w, n⟩ :: xs, st, hu, h => by
    simp only [List.map_cons, tokensOf, cfToks] at h
    simp only [List.cons_append, cfBlame]
    cases hs : cfStep file st a with
    | ok s =>
      rw [hs] at h
      exact blame_token file last l ys t un hl st' hn xs s (fun u hm => hu u (by simp only [List.map_cons]; exact List.mem_cons_of_mem _ hm)) h
    | exit n => rw [hs] at h; cases h
    | ub u => rw [hs] at h; cases h
    | stuck => rw [hs] at h; cases h

theorem blame_end (file : Bytes) (last : Nat) (st' : CState) : ∀ (xs : List Located) (st : CState), (∀ u, .ub u ∉ xs.map (·.item)) →
    cfToks file (tokensOf (xs.map (·.item))) st = .ok st' → cfBlame file last xs st = ([], last)
  | [], st, _, _ => rfl
  | ⟨.ub u, w, n⟩ :: xs, st, hu, _ => absurd (by simp) (hu u)
  | ⟨.tok a b, w, n⟩ :: xs, st, hu, h => by
    simp only [List.map_cons, tokensOf, cfToks] at h
    simp only [cfBlame]
    cases hs : cfStep file st a with
    | ok s =>
      rw [hs] at h
      exact blame_end file last st' xs s (fun u hm => hu u (by simp only [List.map_cons]; exact List.mem_cons_of_mem _ hm)) h
    | exit n => rw [hs] at h; cases h
    | ub u => rw [hs] at h; cases h
    | stuck => rw [hs] at h; cases h

/-- How parsing fails. -/
theorem cfRun_exit (file : Bytes) : ∀ (items : List LexItem) (st : CState) (n : Nat), (cfRun file items st).2 = .exit n →
    (∃ xs t un ys st', items = xs ++ .tok t un :: ys ∧ (∀ u, .ub u ∉ xs) ∧ cfToks file (tokensOf xs) st = .ok st' ∧
        (∀ s, cfStep file st' t ≠ .ok s) ∧ (cfRun file items st).1 = unclosed xs + unclosed [.tok t un]) ∨
    ((∀ u, .ub u ∉ items) ∧ ∃ st', cfToks file (tokensOf items) st = .ok st' ∧ st'.phase ≠ .top ∧
        (cfRun file items st).1 = unclosed items)
  | [], st, n, h => by
    simp only [cfRun] at h
    split at h
    · cases h
    · exact .inr ⟨by simp, st, rfl, by assumption, rfl⟩
  | .ub u :: rest, st, n, h => by cases h
  | .tok t un :: rest, st, n, h => by
    simp only [cfRun] at h ⊢
    cases hs : cfStep file st t with
    | ok s =>
      rw [hs] at h
      rcases cfRun_exit file rest s n h with ⟨xs, a, b, ys, st', h1, h2, h3, h4, h5⟩ | ⟨h1, st', h2, h3, h4⟩
      · refine .inl ⟨.tok t un :: xs, a, b, ys, st', by rw [h1]; rfl, ?_, ?_, h4, ?_⟩
        · intro u hm
          rcases List.mem_cons.1 hm with hm | hm
          · cases hm
          · exact h2 u hm
        · simp only [tokensOf, cfToks, hs, Res.bind_ok, h3]
        · simp only [h5]
          cases un <;> simp only [unclosed] <;> simp <;> omega
      · refine .inr ⟨?_, st', ?_, h3, ?_⟩
        · intro u hm
          rcases List.mem_cons.1 hm with hm | hm
          · cases hm
          · exact h1 u hm
        · simp only [tokensOf, cfToks, hs, Res.bind_ok, h2]
        · simp only [h4]
          cases un <;> simp [unclosed]
    | exit m =>
      refine .inl ⟨[], t, un, rest, st, rfl, by simp, rfl, fun s e => (by rw [hs] at e; cases e), ?_⟩
      cases un <;> rfl
    | ub u => rw [hs] at h; cases h
    | stuck => rw [hs] at h; cases h

theorem cfRun_ok_no_ub (file : Bytes) : ∀ (items : List LexItem) (st st' : CState), (cfRun file items st).2 = .ok st' →
    ∀ u, .ub u ∉ items
  | [], _, _, _, u => by simp
  | .ub u :: rest, st, st', h, _ => by cases h
  | .tok t un :: rest, st, st', h, u => by
    simp only [cfRun] at h
    cases hs : cfStep file st t with
    | ok s =>
      rw [hs] at h
      intro hm
      rcases List.mem_cons.1 hm with hm | hm
      · cases hm
      · exact cfRun_ok_no_ub file rest s st' h u hm
    | exit n => rw [hs] at h; cases h
    | ub u => rw [hs] at h; cases h
    | stuck => rw [hs] at h; cases h

theorem yyerrorText_spec (file w : Bytes) (line : Nat) : ErrorText file line w (yyerrorText file w line) := by
  refine ⟨printDecimal (line + 1) line, printDecimal_spec _ _ (by omega), ?_⟩
  unfold yyerrorText
  rw [show lit ": syntax error\n\tline " = lit ": syntax error\n" ++ lit "\tline " from rfl]
  simp only [List.append_assoc]

/-- Whatever a text is, if it is a syntax error, the place that is blamed is the first one that is wrong. -/
theorem blame_spec (file text : Bytes) (line : Nat) {previous : Option ConfigFile} {ds : List Sequence} {ws : List Bytes}
    (hl : Loaded previous ds ws) {n : Nat} (h : (parseConfigText file text previous).2 = .exit n) :
    ∃ pre w at', Fault text pre w ∧ at' + unclosed (lex pre) = line + newlines pre ∧
      (parseConfigText file text previous).1 = unclosed (lex pre) + unclosed (lex w) ∧
      cfBlame file (locateAll text.length line text).2 (locateAll text.length line text).1 (cfStart previous) = (w, at') := by
  obtain ⟨_, hi⟩ := start_holds hl
  have hr : (cfRun file (lex text) (cfStart previous)).2 = .exit n := by
    unfold parseConfigText at h
    change ((cfRun file (lex text) (cfStart previous)).2.bind _) = _ at h
    cases hc : (cfRun file (lex text) (cfStart previous)).2 with
    | ok st => rw [hc] at h; cases h
    | exit m => rw [hc] at h; cases h; rfl
    | ub u => rw [hc] at h; cases h
    | stuck => rw [hc] at h; cases h
  have h1 : (parseConfigText file text previous).1 = (cfRun file (lex text) (cfStart previous)).1 := rfl
  have hitems := locate_items text.length line text (Nat.le_refl _)
  have hv : ∀ ts, Viable ts ↔ ∃ st', cfToks file ts (cfStart previous) = .ok st' :=
    fun ts => viable_iff file ts (cfStart previous) rfl rfl hi
  rcases cfRun_exit file _ _ n hr with ⟨xs, t, un, ys, st', e1, e2, e3, e4, e5⟩ | ⟨e1, st', e2, e3, e4⟩
  · rw [e1] at hitems
    obtain ⟨lx, ll, f1, f2, f3⟩ := List.map_eq_append_iff.1 hitems
    obtain ⟨l, ly, g1, g2, g3⟩ := List.map_eq_cons_iff.1 f3
    subst g1
    obtain ⟨pre, post, k1, k2, k3, k4, k5, k6⟩ := locate_any text.length line text (Nat.le_refl _) lx l ly f1 (by rw [f2]; exact e2)
      (by rw [g2]; simp)
    refine ⟨pre, l.text, l.line, ?_, k5, ?_, ?_⟩
    · refine .token pre l.text post t un k1 ?_ (by rw [k3, g2]) (k6 t un g2) ?_ ?_
      · rw [e1, k2, f2, k4, g3]
      · rw [hv, k2, f2]
        exact ⟨st', e3⟩
      · rw [hv, k2, f2]
        rintro ⟨s, hs⟩
        rw [cfToks_append, e3, Res.bind_ok] at hs
        simp only [cfToks] at hs
        cases hc : cfStep file st' t with
        | ok s => exact e4 s hc
        | exit m => rw [hc] at hs; cases hs
        | ub u => rw [hc] at hs; cases hs
        | stuck => rw [hc] at hs; cases hs
    · rw [h1, e5, k2, f2, k3, g2]
    · rw [f1]
      exact blame_token file _ l ly t un g2 st' e4 lx _ (by rw [f2]; exact e2) (by rw [f2]; exact e3)
  · refine ⟨text, [], (locateAll text.length line text).2, .unfinished ((hv _).2 ⟨st', e2⟩) ?_,
      locate_last text.length line text (Nat.le_refl _) e1, by rw [h1, e4]; rfl, ?_⟩
    · intro rs hg
      obtain ⟨s, h2, h3⟩ := (sentence_iff file _ (cfStart previous) rfl rfl hi).1 ⟨rs, hg⟩
      rw [e2] at h2
      cases h2
      exact e3 h3
    · exact blame_end file _ st' _ _ (by rw [hitems]; exact e1) (by rw [hitems]; exact e2)

/-! ### The messages of a run -/

theorem outTimes_exit {α : Type} {s : Bytes} {k : Prog α} {n : Nat} : ∀ (m : Nat) {tr : List Event},
    Trace (outTimes s m k) tr (.exit n) → ∃ tr', tr = List.replicate m (.out s) ++ tr' ∧ Trace k tr' (.exit n)
  | 0, tr, h => ⟨tr, rfl, h⟩
  | m + 1, tr, h => by
    cases h with
    | out _ _ tr _ h =>
      obtain ⟨tr', rfl, h'⟩ := outTimes_exit (tr := tr) m h
      exact ⟨tr', by rw [List.replicate_succ]; rfl, h'⟩

/-- What the run did last: it read a file that is not a config file, said so for every string without closing quote, and blamed the
first place that is wrong. The lines are counted from `line` on. -/
def Spec.Blames (line : Nat) (tr : List Event) : Prop :=
  ∃ pre file text before w msg at', tr = pre ++ .slurp (some file) (some text) ::
      (List.replicate (unclosed (lex before) + unclosed (lex w)) (.out (lit "Unterminated character string\n")) ++ [.err msg]) ∧
    Fault text before w ∧ ErrorText file at' w msg ∧
    at' + unclosedRead (filesRead pre) + unclosed (lex before) = line + newlinesRead (filesRead pre) + newlines before

theorem parseConfigFile_exit {file : Bytes} {before : Option ConfigFile × Nat} (hs : Sound before.1) {tr : List Event} {n : Nat}
    (h : Trace (parseConfigFile file before) tr (.exit n)) : Blames before.2 tr := by
  obtain ⟨ds, ws, hl⟩ := hs
  unfold parseConfigFile at h
  cases h with
  | slurp _ _ r tr _ h =>
    cases r with
    | none => cases h
    | some text =>
      obtain ⟨tr', rfl, h'⟩ := outTimes_exit _ h
      cases hp : (parseConfigText file text before.1).2 with
      | ok c => rw [hp] at h'; cases h'
      | ub u => rw [hp] at h'; cases h'
      | stuck => rw [hp] at h'; cases h'
      | exit m =>
        rw [hp] at h'
        obtain ⟨pre, w, at', h1, h2, h3, h4⟩ := blame_spec file text before.2 hl hp
        simp only [h4] at h'
        cases h' with
        | err _ _ _ _ h' =>
          cases h'
          refine ⟨[], file, text, pre, w, _, at', ?_, h1, yyerrorText_spec file w at', ?_⟩
          · rw [h3]; rfl
          · simp only [filesRead, unclosedRead, newlinesRead]
            omega

theorem parseConfigFile_lines {file : Bytes} {before c : Option ConfigFile × Nat} (hs : Sound before.1) {tr : List Event}
    (h : Trace (parseConfigFile file before) tr (.ret c)) :
    Sound c.1 ∧ c.2 + unclosedRead (filesRead tr) = before.2 + newlinesRead (filesRead tr) := by
  obtain ⟨ds, ws, hl⟩ := hs
  unfold parseConfigFile at h
  cases h with
  | slurp _ _ r tr _ h =>
    cases r with
    | none => cases h; exact ⟨⟨ds, ws, hl⟩, rfl⟩
    | some text =>
      rcases outTimes_any _ h with ⟨e, _⟩ | ⟨tr', h', e⟩
      · cases e
      · simp only [filesRead, e, unclosedRead, newlinesRead]
        cases hp : (parseConfigText file text before.1).2 with
        | ok x =>
          rw [hp] at h'
          cases h'
          obtain ⟨rs, _, h3⟩ := C63_accepted_texts_have_a_meaning hl hp
          refine ⟨⟨_, _, h3⟩, ?_⟩
          have : ∀ u, .ub u ∉ lex text := by
            unfold parseConfigText at hp
            change ((cfRun file (lex text) (cfStart before.1)).2.bind _) = _ at hp
            cases hc : (cfRun file (lex text) (cfStart before.1)).2 with
            | ok st => exact cfRun_ok_no_ub file _ _ _ hc
            | exit m => rw [hc] at hp; cases hp
            | ub u => rw [hc] at hp; cases hp
            | stuck => rw [hc] at hp; cases hp
          have := locate_last text.length before.2 text (Nat.le_refl _) this
          simp only [filesRead, unclosedRead, newlinesRead]
          omega
        | exit m =>
          rw [hp] at h'
          cases h' with
          | err _ _ _ _ h' => cases h'
        | ub u => rw [hp] at h'; cases h'
        | stuck => rw [hp] at h'; cases h'

theorem newlinesRead_append (a b : List (Bytes × Option Bytes)) : newlinesRead (a ++ b) = newlinesRead a + newlinesRead b := by
  induction a with
  | nil => simp [newlinesRead]
  | cons r a ih => obtain ⟨p, _ | t⟩ := r <;> simp [newlinesRead, ih]; omega

theorem unclosedRead_append (a b : List (Bytes × Option Bytes)) : unclosedRead (a ++ b) = unclosedRead a + unclosedRead b := by
  induction a with
  | nil => simp [unclosedRead]
  | cons r a ih => obtain ⟨p, _ | t⟩ := r <;> simp [unclosedRead, ih]; omega

/-- A part of loading: it counts the lines from `line` on, and blames right if it fails. -/
def Blaming {α : Type} (line : Nat) (p : Prog α) (Q : α → Nat → Prop) : Prop :=
  (∀ tr a, Trace p tr (.ret a) → ∃ l, Q a l ∧ l + unclosedRead (filesRead tr) = line + newlinesRead (filesRead tr)) ∧
  (∀ tr n, Trace p tr (.exit n) → Blames line tr)

theorem Blaming.ret {α : Type} {line : Nat} {a : α} {Q : α → Nat → Prop} (h : Q a line) : Blaming line (.ret a) Q :=
  ⟨fun tr b h' => by cases h'; exact ⟨line, h, rfl⟩, fun tr n h' => by cases h'⟩

theorem Blaming.bind {α β : Type} {line : Nat} {p : Prog α} {f : α → Prog β} {Q : α → Nat → Prop} {R : β → Nat → Prop}
    (hp : Blaming line p Q) (hf : ∀ a l, Q a l → Blaming l (f a) R) : Blaming line (p.bind f) R := by
  constructor
  · intro tr b h
    obtain ⟨a, t1, t2, rfl, h1, h2⟩ := trace_bind_ret h
    obtain ⟨l, hq, e⟩ := hp.1 t1 a h1
    obtain ⟨l', hr, e'⟩ := (hf a l hq).1 t2 b h2
    refine ⟨l', hr, ?_⟩
    rw [filesRead_append, unclosedRead_append, newlinesRead_append]
    omega
  · intro tr n h
    rcases trace_bind_any h with ⟨a, t1, t2, rfl, h1, h2⟩ | ⟨o', hs, h1⟩
    · obtain ⟨l, hq, e⟩ := hp.1 t1 a h1
      obtain ⟨pre, file, text, before, w, msg, at', rfl, k2, k3, k4⟩ := (hf a l hq).2 t2 n h2
      refine ⟨t1 ++ pre, file, text, before, w, msg, at', by rw [List.append_assoc], k2, k3, ?_⟩
      rw [filesRead_append, unclosedRead_append, newlinesRead_append]
      omega
    · cases hs
      exact hp.2 tr n h1

/-- What is known between files: the configuration so far is sound, and so is the line. -/
def Known (c : Option ConfigFile × Nat) (line : Nat) : Prop := Sound c.1 ∧ c.2 = line

theorem Blaming.read (file : Bytes) {before : Option ConfigFile × Nat} {line : Nat} (h : Known before line) :
    Blaming line (parseConfigFile file before) Known := by
  obtain ⟨hs, rfl⟩ := h
  refine ⟨fun tr c h => ?_, fun tr n h => parseConfigFile_exit hs h⟩
  obtain ⟨h1, h2⟩ := parseConfigFile_lines hs h
  exact ⟨c.2, ⟨h1, rfl⟩, h2⟩

theorem Blaming.try (file : Bytes) {before : Option ConfigFile × Nat} {line : Nat} (h : Known before line) :
    Blaming line (tryConfig file before) Known := by
  unfold tryConfig
  split
  · exact .read file h
  · exact .ret h

theorem sound_none : Sound none := ⟨[], [], rfl, rfl⟩

theorem load_blaming (E : ConfigEnv) : Blaming 1 (configFileLoad E none) fun _ _ => True := by
  unfold configFileLoad
  refine .bind (Q := Known) ?_ fun c1 l1 k1 => .bind (Q := Known) ?_ fun c2 l2 k2 => .bind (Q := Known) ?_ fun c3 l3 k3 =>
    .bind (Q := Known) ?_ fun c4 l4 k4 => .bind (Q := Known) ?_ fun c5 l5 k5 => ?_
  · cases E.sysconfdir with
    | none => exact .ret ⟨sound_none, rfl⟩
    | some d => exact .try _ ⟨sound_none, rfl⟩
  · obtain ⟨c1, n⟩ := c1
    cases c1 with
    | some c => exact .ret k1
    | none => exact .read _ k1
  · obtain ⟨c2, n⟩ := c2
    cases c2 with
    | some c => exact .ret k2
    | none => exact .read _ k2
  · cases E.home with
    | none => exact .ret k3
    | some d => exact .try _ k3
  · cases E.xdg with
    | none => exact .ret k4
    | some d => exact .try _ k4
  · obtain ⟨c5, n⟩ := c5
    cases c5 with
    | some c => exact .ret trivial
    | none =>
      obtain ⟨l, hl, _⟩ := filelistPut_holds filelistInit_holds (lit "{arch}")
      have : spoofConfigFile = .ok { sequences := spoofSequences, filesToIgnore := some l } := by
        unfold spoofConfigFile
        rw [hl]
        rfl
      simp only [this]
      exact .ret trivial

/-! ### C78 -/

/-- **C78.** Without `-f`: when loading fails, the last file read is not a config file, and the message gives its name and blames the
first token that no config file can have at this place (or the end of the text, if everything before is the beginning of a config
file). The line is the number of newlines before that place in all files read so far, plus one; newlines that end a string without
closing quote are not counted. -/
theorem C78_message {E : ConfigEnv} {tr : List Event} {n : Nat} (h : Trace (configFileLoad E none) tr (.exit n)) : Blames 1 tr :=
  (load_blaming E).2 tr n h

/-- **C78.** The same with `-f`, unless the file cannot be opened. -/
theorem C78_message_option_f {E : ConfigEnv} {f : Bytes} {tr : List Event} {n : Nat}
    (h : Trace (configFileLoad E (some f)) tr (.exit n)) :
    (filesRead tr = [(f, none)] ∧ tr = [.slurp (some f) none, .err (lit "detox: unable to open: " ++ f ++ lit "\n")]) ∨ Blames 1 tr := by
  unfold configFileLoad at h
  rcases trace_bind_any h with ⟨a, t1, t2, rfl, h1, h2⟩ | ⟨o', hs, h1⟩
  · obtain ⟨a, line⟩ := a
    cases a with
    | some c => cases h2
    | none =>
      left
      cases h2 with
      | err _ _ _ _ h2 =>
        cases h2
        unfold parseConfigFile at h1
        cases h1 with
        | slurp _ _ r tr _ h1 =>
          cases r with
          | none => cases h1; exact ⟨rfl, rfl⟩
          | some text =>
            exfalso
            rcases outTimes_any _ h1 with ⟨e, _⟩ | ⟨tr', h', _⟩
            · cases e
            · cases hp : (parseConfigText f text none).2 with
              | ok c => rw [hp] at h'; cases h'
              | exit m =>
                rw [hp] at h'
                cases h' with
                | err _ _ _ _ h' => cases h'
              | ub u => rw [hp] at h'; cases h'
              | stuck => rw [hp] at h'; cases h'
  · cases hs
    exact .inr (parseConfigFile_exit (before := (none, 1)) sound_none h1)

/-- A text that is a syntax error for which no string lacks its closing quote: reading it takes one message. -/
theorem load_one_message {E : ConfigEnv} {f text w : Bytes} {line : Nat} {tr : List Event} {o : Outcome ConfigFile}
    (hp : parseConfigText f text none = (0, .exit 1))
    (hb : cfBlame f (locateAll text.length 1 text).2 (locateAll text.length 1 text).1 (cfStart none) = (w, line))
    (h : Trace (configFileLoad E (some f)) tr o) (hr : filesRead tr = [(f, some text)]) (hk : o ≠ .running) :
    o = .exit 1 ∧ ∃ msg, tr = [.slurp (some f) (some text), .err msg] ∧ ErrorText f line w msg := by
  unfold configFileLoad parseConfigFile at h
  cases h with
  | stop => exact absurd rfl hk
  | slurp _ _ r tr _ h =>
    simp only [filesRead, List.cons.injEq, Prod.mk.injEq, true_and] at hr
    obtain ⟨rfl, _⟩ := hr
    simp only [hp, hb, outTimes, Prog.bind] at h
    cases h with
    | stop => exact absurd rfl hk
    | err _ _ _ _ h =>
      cases h with
      | stop => exact absurd rfl hk
      | exit => exact ⟨rfl, _, rfl, yyerrorText_spec f w line⟩

/-- **C78.** A file that is written in the documented syntax up to a token that no config file can have there, whatever follows: the
only message is one that gives the line on which this token is, and the token as it is written. -/
theorem C78_first_wrong_token {ts : List Tok} {t : Tok} {pre w post : Bytes} (hb : Begins ts pre (w ++ post)) (hw : Spelling t w)
    (he : Ends t post) (hv : Viable ts) (hn : ¬ Viable (ts ++ [t])) {E : ConfigEnv} {f : Bytes} {tr : List Event}
    {o : Outcome ConfigFile} (h : Trace (configFileLoad E (some f)) tr o) (hr : filesRead tr = [(f, some (pre ++ w ++ post))])
    (hk : o ≠ .running) : o = .exit 1 ∧ ∃ msg, tr = [.slurp (some f) (some (pre ++ w ++ post)), .err msg] ∧
      ErrorText f (newlines pre + 1) w msg := by
  have hi : (cfStart none).ignore.Holds [] 0 := filelistInit_holds
  obtain ⟨xs, h1, h2⟩ := locate_begins hb 1
  rw [locate_token hw he] at h1
  rw [← List.append_assoc] at h1
  have hitems := locate_items _ 1 (pre ++ w ++ post) (Nat.le_refl _)
  change (locate 1 (pre ++ w ++ post)).1.map _ = _ at hitems
  rw [h1] at hitems
  simp only [List.map_append, List.map_cons, h2] at hitems
  obtain ⟨st', hst⟩ := (viable_iff f ts (cfStart none) rfl rfl hi).1 hv
  have hbad : ∀ s, cfStep f st' t ≠ .ok s := fun s hs =>
    hn ((viable_iff f (ts ++ [t]) (cfStart none) rfl rfl hi).2 ⟨s, by
      rw [cfToks_append, hst, Res.bind_ok]
      simp only [cfToks, hs, Res.bind_ok]⟩)
  have hx : cfStep f st' t = .exit 1 := by
    obtain ⟨ws', hws⟩ := cfToks_holds f ts _ _ _ hi hst
    rcases cfStep_cases f st' t hws with ⟨s, _, hs, _⟩ | hs
    · exact absurd hs (hbad s)
    · exact hs
  have htoks : ∀ ts : List Tok, tokensOf (ts.map (.tok · false)) = ts := by
    intro ts
    induction ts with
    | nil => rfl
    | cons a ts ih => simp [tokensOf, ih]
  have hrun : ∀ (ts : List Tok) (st : CState), cfToks f ts st = .ok st' →
      cfRun f (ts.map (.tok · false) ++ .tok t false :: (locate (1 + newlines pre) post).1.map (·.item)) st = (0, .exit 1) := by
    intro ts
    induction ts with
    | nil =>
      intro st hs
      cases hs
      simp only [List.map_nil, List.nil_append, cfRun, hx]
      rfl
    | cons a ts ih =>
      intro st hs
      simp only [cfToks] at hs
      cases hc : cfStep f st a with
      | ok s =>
        rw [hc, Res.bind_ok] at hs
        simp only [List.map_cons, List.cons_append, cfRun, hc, ih s hs]
        rfl
      | exit n => rw [hc] at hs; cases hs
      | ub u => rw [hc] at hs; cases hs
      | stuck => rw [hc] at hs; cases hs
  refine load_one_message ?_ ?_ h hr hk
  · unfold parseConfigText
    rw [← hitems]
    change ((cfRun f _ (cfStart none)).1, (cfRun f _ (cfStart none)).2.bind _) = _
    rw [hrun ts _ hst]
    rfl
  · change cfBlame f (locate 1 (pre ++ w ++ post)).2 (locate 1 (pre ++ w ++ post)).1 (cfStart none) = _
    rw [h1, Nat.add_comm (newlines pre) 1]
    refine blame_token f _ _ _ t false rfl st' hbad xs _ ?_ ?_
    · rw [h2]
      intro u hm
      obtain ⟨a, _, e⟩ := List.mem_map.1 hm
      cases e
    · rw [h2, htoks]
      exact hst

/-- **C78.** A file that is written in the documented syntax and ends too early: the message gives the line of the end of the file, and
no token. -/
theorem C78_unfinished {ts : List Tok} {text : Bytes} (hs : Spells ts text) (hv : Viable ts) (hn : ∀ rs, ¬ ConfigG ts rs)
    {E : ConfigEnv} {f : Bytes} {tr : List Event} {o : Outcome ConfigFile} (h : Trace (configFileLoad E (some f)) tr o)
    (hr : filesRead tr = [(f, some text)]) (hk : o ≠ .running) :
    o = .exit 1 ∧ ∃ msg, tr = [.slurp (some f) (some text), .err msg] ∧ ErrorText f (newlines text + 1) [] msg := by
  obtain ⟨h1, h2⟩ := locate_spells hs 1
  obtain ⟨st', hst⟩ := (viable_iff f ts (cfStart none) rfl rfl filelistInit_holds).1 hv
  refine load_one_message (parse_text_error (previous := none) f hs ⟨rfl, rfl⟩ hn) ?_ h hr hk
  change cfBlame f (locate 1 text).2 (locate 1 text).1 (cfStart none) = _
  rw [h2, Nat.add_comm (newlines text) 1]
  refine blame_end f _ st' _ _ ?_ ?_
  · rw [h1]
    intro u hm
    obtain ⟨a, _, e⟩ := List.mem_map.1 hm
    cases e
  · have htoks : ∀ ts : List Tok, tokensOf (ts.map (.tok · false)) = ts := by
      intro ts
      induction ts with
      | nil => rfl
      | cons a ts ih => simp [tokensOf, ih]
    rw [h1, htoks]
    exact hst

/-- The first file of the project's test for issue 37, up to the wrong token: an instance of `C78_first_wrong_token`. -/
example : Begins [.kw .sequence, .qstring (lit "invalid"), .opn, .kw .safe, .eol, .kw .wipeup, .eol]
    (lit "sequence \"invalid\" {\n\tsafe;\n\twipeup;\n\t") (lit "broken" ++ lit " {\n\t\tpieces;\n\t};\n};\n") ∧
    Spelling (.ident (lit "broken")) (lit "broken") ∧ Ends (.ident (lit "broken")) (lit " {\n\t\tpieces;\n\t};\n};\n") ∧
    Viable [.kw .sequence, .qstring (lit "invalid"), .opn, .kw .safe, .eol, .kw .wipeup, .eol] ∧
    ¬ Viable ([.kw .sequence, .qstring (lit "invalid"), .opn, .kw .safe, .eol, .kw .wipeup, .eol] ++ [.ident (lit "broken")]) ∧
    newlines (lit "sequence \"invalid\" {\n\tsafe;\n\twipeup;\n\t") + 1 = 4 := by
  refine ⟨?_, .ident 0x62 (lit "roken") (by decide) (by decide) (fun k => lookup_not_mem (by decide)), by unfold Ends; decide, ?_, ?_, by decide⟩
  · refine .tok [] _ (lit "sequence") _ (lit " \"invalid\" {\n\tsafe;\n\twipeup;\n\t") _ .nil (.kw .sequence _ (by decide)) (by unfold Ends; decide) ?_
    refine .tok (lit " ") _ (lit "\"invalid\"") _ (lit " {\n\tsafe;\n\twipeup;\n\t") _ (.blank _ _ (by decide) .nil)
      (.qstring (lit "invalid") (by decide) (by decide) (by decide)) trivial ?_
    refine .tok (lit " ") _ (lit "{") _ (lit "\n\tsafe;\n\twipeup;\n\t") _ (.blank _ _ (by decide) .nil) .opn trivial ?_
    refine .tok (lit "\n\t") _ (lit "safe") _ (lit ";\n\twipeup;\n\t") _ (.blank _ _ (by decide) (.blank _ _ (by decide) .nil))
      (.kw .safe _ (by decide)) (by unfold Ends; decide) ?_
    refine .tok [] _ (lit ";") _ (lit "\n\twipeup;\n\t") _ .nil .eol trivial ?_
    refine .tok (lit "\n\t") _ (lit "wipeup") _ (lit ";\n\t") _ (.blank _ _ (by decide) (.blank _ _ (by decide) .nil))
      (.kw .wipeup _ (by decide)) (by unfold Ends; decide) ?_
    refine .tok [] _ (lit ";") _ (lit "\n\t") _ .nil .eol trivial ?_
    exact .gap _ _ (.blank _ _ (by decide) (.blank _ _ (by decide) .nil))
  · exact (viable_iff [] _ (cfStart none) rfl rfl filelistInit_holds).2 ⟨_, rfl⟩
  · rw [viable_iff [] _ (cfStart none) rfl rfl filelistInit_holds]
    rintro ⟨st, h⟩
    cases h

/-- **C78.** Where the line is wrong: the count goes on from file to file. The second of these files has one line, and the error in it is
reported for line 4. -/
theorem C78_lines_of_earlier_files_are_counted : ∃ tr : List Event,
    Trace (configFileLoad { sysconfdir := none, home := some (lit "/home"), xdg := none } none) tr (.exit 1) ∧
    tr = [.slurp (some (lit "/etc/detoxrc")) (some (lit "sequence a {\n\tlower;\n};\n")),
      .slurp (some (lit "/home/.detoxrc")) (some (lit "oops")),
      .err (lit "detox: error parsing config file /home/.detoxrc: syntax error\n\tline 4: oops\n")] := by
  refine ⟨_, ?_, rfl⟩
  exact .slurp _ _ _ _ _ (.slurp _ _ _ _ _ (.err _ _ _ _ (.exit _)))

/-- **C78.** A line that ends in a string without closing quote is not counted: the `oops` on line 2 is reported for line 1. -/
theorem C78_unclosed_lines_are_not_counted : ∃ tr : List Event,
    Trace (configFileLoad { sysconfdir := none, home := none, xdg := none } (some (lit "f"))) tr (.exit 1) ∧
    tr = [.slurp (some (lit "f")) (some (lit "sequence \"a\n oops")), .out (lit "Unterminated character string\n"),
      .err (lit "detox: error parsing config file f: syntax error\n\tline 1: oops\n")] := by
  refine ⟨_, ?_, rfl⟩
  exact .slurp _ _ _ _ _ (.out _ _ _ _ (.err _ _ _ _ (.exit _)))

end Detox
