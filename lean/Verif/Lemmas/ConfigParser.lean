import Verif.Lemmas.Lexer

/-!
# The parser of config files accepts the grammar
-/

set_option autoImplicit false

namespace Detox
open Spec

/-- The steps of the parser over a list of tokens. -/
def cfToks (file : Bytes) : List Tok → CState → Res CState
  | [], st => .ok st
  | t :: ts, st => cfStep file st t >>= cfToks file ts

theorem cfToks_append (file : Bytes) (ts us : List Tok) (st : CState) :
    cfToks file (ts ++ us) st = cfToks file ts st >>= cfToks file us := by
  induction ts generalizing st with
  | nil => rfl
  | cons t ts ih =>
    simp only [List.cons_append, cfToks]
    cases cfStep file st t with
    | ok st' => simp only [Res.bind_ok]; exact ih st'
    | exit n => rfl
    | ub u => rfl
    | stuck => rfl

theorem cfRun_toks (file : Bytes) (ts : List Tok) (st : CState) :
    cfRun file (ts.map (.tok · false)) st =
      (0, cfToks file ts st >>= fun st' => if st'.phase = .top then .ok st' else .exit 1) := by
  induction ts generalizing st with
  | nil => rfl
  | cons t ts ih =>
    simp only [List.map_cons, cfRun, cfToks]
    cases h : cfStep file st t with
    | ok st' => simp [ih]
    | exit n => rfl
    | ub u => rfl
    | stuck => rfl

/-- Adding several names to a list. -/
def putMany (l : Filelist) : List Bytes → Res Filelist
  | [] => .ok l
  | w :: ws => filelistPut l w >>= fun l' => putMany l' ws

theorem putMany_append (l : Filelist) (ws vs : List Bytes) : putMany l (ws ++ vs) = putMany l ws >>= fun l' => putMany l' vs := by
  induction ws generalizing l with
  | nil => rfl
  | cons w ws ih =>
    simp only [List.cons_append, putMany]
    cases filelistPut l w with
    | ok l' => simp only [Res.bind_ok]; exact ih l'
    | exit n => rfl
    | ub u => rfl
    | stuck => rfl

/-- The effect of a series of definitions. -/
def replaceAll (qs ds : List Sequence) : List Sequence := ds.foldl (fun qs q => replaceSequence q qs) qs

theorem definitions_append (file : Bytes) (rs rs' : List Rule) :
    definitions file (rs ++ rs') = definitions file rs ++ definitions file rs' := by
  induction rs with
  | nil => rfl
  | cons r rs ih => cases r <;> simp [definitions, ih]

theorem ignored_append (rs rs' : List Rule) : ignored (rs ++ rs') = ignored rs ++ ignored rs' := by
  induction rs with
  | nil => rfl
  | cons r rs ih => cases r <;> simp [ignored, ih]

/-! ### Sentences are accepted -/

theorem stringG_string {t : Tok} {s : Bytes} (h : StringG t s) : t.string = some s := by cases h <;> rfl

theorem string_stringG {t : Tok} {s : Bytes} (h : t.string = some s) : StringG t s := by
  cases t <;> simp only [Tok.string] at h <;> cases h <;> constructor

theorem run_method (file : Bytes) {m : List Tok} {f : Filter} (hm : MethodG m f) (st : CState)
    (hp : st.phase = .seqOpen ∨ st.phase = .seqList) :
    cfToks file m st = .ok { st with filters := st.filters ++ [f], phase := .seqList } := by
  obtain ⟨ph, name, fs, qs, ig⟩ := st
  simp only at hp
  cases hm with
  | uncgi => rcases hp with rfl | rfl <;> rfl
  | lower => rcases hp with rfl | rfl <;> rfl
  | wipeup => rcases hp with rfl | rfl <;> rfl
  | wipeupBlock => rcases hp with rfl | rfl <;> rfl
  | wipeupTrailing => rcases hp with rfl | rfl <;> rfl
  | tabled k c hk => cases hk <;> rcases hp with rfl | rfl <;> rfl
  | tabledBlock k c hk => cases hk <;> rcases hp with rfl | rfl <;> rfl
  | tabledFile k c t s hk hs => cases hk <;> cases hs <;> rcases hp with rfl | rfl <;> rfl
  | tabledBuiltin k c t s hk hs => cases hk <;> cases hs <;> rcases hp with rfl | rfl <;> rfl
  | maxLength => rcases hp with rfl | rfl <;> rfl
  | maxLengthBlock => rcases hp with rfl | rfl <;> rfl
  | maxLengthValue n => rcases hp with rfl | rfl <;> rfl

theorem run_methods (file : Bytes) {ms : List Tok} {fs : List Filter} (hm : MethodsG ms fs) (st : CState)
    (hp : st.phase = .seqOpen) : cfToks file ms st = .ok { st with filters := st.filters ++ fs, phase := .seqList } := by
  induction hm with
  | one m f h => exact run_method file h st (.inl hp)
  | more ms m fs f _ h ih =>
    rw [cfToks_append, ih, Res.bind_ok, run_method file h _ (.inr rfl)]
    simp

theorem run_ignores (file : Bytes) {is : List Tok} {ws : List Bytes} (hi : IgnoresG is ws) (st : CState)
    (hp : st.phase = .ignOpen) : cfToks file is st = putMany st.ignore ws >>= fun l => .ok { st with phase := .ignList, ignore := l } := by
  induction hi with
  | one t s h =>
    obtain ⟨ph, name, fs, qs, ig⟩ := st
    simp only at hp
    subst hp
    cases h <;> simp only [cfToks, putMany] <;>
      · simp only [cfStep, Tok.string, if_true, Res.bind_ok]
        cases filelistPut ig s <;> rfl
  | more is ws t s _ h ih =>
    rw [cfToks_append, ih, putMany_append]
    cases putMany st.ignore ws with
    | ok l =>
      simp only [Res.bind_ok]
      cases h <;> simp only [cfToks, putMany] <;>
        · simp only [cfStep, Tok.string, if_true, Res.bind_ok]
          cases filelistPut l s <;> rfl
    | exit n => rfl
    | ub u => rfl
    | stuck => rfl

theorem run_rule (file : Bytes) {ts : List Tok} {r : Rule} (hr : RuleG ts r) (st : CState) (hp : st.phase = .top)
    (hf : st.filters = []) : ∃ name, cfToks file ts st = putMany st.ignore (ignored [r]) >>= fun l => .ok
      { phase := .top, name := name, filters := [], sequences := replaceAll st.sequences (definitions file [r]), ignore := l } := by
  obtain ⟨ph, name, fs, qs, ig⟩ := st
  simp only at hp hf
  subst hp; subst hf
  cases hr with
  | sequence t name' ms fs' ht hms =>
    refine ⟨name', ?_⟩
    rw [cfToks_append, cfToks_append]
    have h1 : cfToks file [.kw .sequence, t, .opn] ⟨.top, name, [], qs, ig⟩ = .ok ⟨.seqOpen, name', [], qs, ig⟩ := by
      cases ht <;> rfl
    rw [h1, Res.bind_ok, run_methods file hms _ rfl]
    rfl
  | ignore is ws hi =>
    refine ⟨name, ?_⟩
    rw [cfToks_append, cfToks_append]
    have h1 : cfToks file [.kw .ignore, .opn] ⟨.top, name, [], qs, ig⟩ = .ok ⟨.ignOpen, name, [], qs, ig⟩ := rfl
    rw [h1, Res.bind_ok, run_ignores file hi _ rfl]
    simp only [ignored, List.append_nil]
    cases putMany ig ws <;> rfl

/-- A sentence of the grammar is accepted, with the effect of its rules. -/
theorem run_config (file : Bytes) {ts : List Tok} {rs : List Rule} (hc : ConfigG ts rs) (st : CState) (hp : st.phase = .top)
    (hf : st.filters = []) : ∃ name, cfToks file ts st = putMany st.ignore (ignored rs) >>= fun l => .ok
      { phase := .top, name := name, filters := [], sequences := replaceAll st.sequences (definitions file rs), ignore := l } := by
  induction hc with
  | nil =>
    obtain ⟨ph, name, fs, qs, ig⟩ := st
    simp only at hp hf
    subst hp; subst hf
    exact ⟨name, rfl⟩
  | more ts r rs rule _ hr ih =>
    obtain ⟨n1, h1⟩ := ih
    rw [cfToks_append, h1, ignored_append, putMany_append]
    cases hpm : putMany st.ignore (ignored rs) with
    | ok l =>
      simp only [Res.bind_ok]
      obtain ⟨n2, h2⟩ := run_rule file hr ⟨.top, n1, [], replaceAll st.sequences (definitions file rs), l⟩ rfl rfl
      refine ⟨n2, ?_⟩
      rw [h2, definitions_append]
      simp only [replaceAll, List.foldl_append]
    | exit n => exact ⟨n1, rfl⟩
    | ub u => exact ⟨n1, rfl⟩
    | stuck => exact ⟨n1, rfl⟩

/-! ### Nothing else is accepted -/

/-- The beginning of a sequence up to the end of a method. -/
def SeqPre (name : Bytes) (fs : List Filter) (p : List Tok) : Prop :=
  ∃ t ms, p = [.kw .sequence, t, .opn] ++ ms ∧ StringG t name ∧ ((ms = [] ∧ fs = []) ∨ MethodsG ms fs)

/-- The beginning of an ignore rule up to the end of an entry. -/
def IgnPre (ws : List Bytes) (p : List Tok) : Prop :=
  ∃ is, p = [.kw .ignore, .opn] ++ is ∧ ((is = [] ∧ ws = []) ∨ IgnoresG is ws)

/-- The tokens of the current rule that lead to a state; `ws` are the names ignored so far in that rule. -/
def Part (st : CState) (part : List Tok) (ws : List Bytes) : Prop :=
  match st.phase with
  | .top => part = [] ∧ st.filters = [] ∧ ws = []
  | .seqKw => part = [.kw .sequence] ∧ st.filters = [] ∧ ws = []
  | .seqName s => ∃ t, part = [.kw .sequence, t] ∧ StringG t s ∧ st.filters = [] ∧ ws = []
  | .seqOpen => SeqPre st.name st.filters part ∧ ws = []
  | .seqList => (∃ t ms, part = [.kw .sequence, t, .opn] ++ ms ∧ StringG t st.name ∧ MethodsG ms st.filters) ∧ ws = []
  | .seqClose => (∃ t ms, part = [.kw .sequence, t, .opn] ++ ms ++ [.cls] ∧ StringG t st.name ∧ MethodsG ms st.filters) ∧ ws = []
  | .plain c => (∃ p k, part = p ++ [.kw k] ∧ SeqPre st.name st.filters p ∧ ((k = .uncgi ∧ c = .uncgi) ∨ (k = .lower ∧ c = .lower))) ∧ ws = []
  | .tab m => (∃ p k, part = p ++ [.kw k] ∧ SeqPre st.name st.filters p ∧ TabledG k m.cleaner) ∧ ws = []
  | .tabOpen m => (∃ p k, part = p ++ [.kw k, .opn] ∧ SeqPre st.name st.filters p ∧ TabledG k m.cleaner) ∧ ws = []
  | .tabOpt m b => (∃ p k, part = p ++ [.kw k, .opn, .kw (if b then .builtin else .filename)] ∧ SeqPre st.name st.filters p ∧
      TabledG k m.cleaner) ∧ ws = []
  | .tabStr m b s => (∃ p k t, part = p ++ [.kw k, .opn, .kw (if b then .builtin else .filename), t] ∧ SeqPre st.name st.filters p ∧
      TabledG k m.cleaner ∧ StringG t s) ∧ ws = []
  | .tabEol m b s => (∃ p k t, part = p ++ [.kw k, .opn, .kw (if b then .builtin else .filename), t, .eol] ∧
      SeqPre st.name st.filters p ∧ TabledG k m.cleaner ∧ StringG t s) ∧ ws = []
  | .wipe => (∃ p, part = p ++ [.kw .wipeup] ∧ SeqPre st.name st.filters p) ∧ ws = []
  | .wipeOpen => (∃ p, part = p ++ [.kw .wipeup, .opn] ∧ SeqPre st.name st.filters p) ∧ ws = []
  | .wipeOpt => (∃ p, part = p ++ [.kw .wipeup, .opn, .kw .removeTrailing] ∧ SeqPre st.name st.filters p) ∧ ws = []
  | .wipeEol => (∃ p, part = p ++ [.kw .wipeup, .opn, .kw .removeTrailing, .eol] ∧ SeqPre st.name st.filters p) ∧ ws = []
  | .maxl => (∃ p, part = p ++ [.kw .maxLength] ∧ SeqPre st.name st.filters p) ∧ ws = []
  | .maxlOpen => (∃ p, part = p ++ [.kw .maxLength, .opn] ∧ SeqPre st.name st.filters p) ∧ ws = []
  | .maxlOpt => (∃ p, part = p ++ [.kw .maxLength, .opn, .kw .length] ∧ SeqPre st.name st.filters p) ∧ ws = []
  | .maxlVal n => (∃ p, part = p ++ [.kw .maxLength, .opn, .kw .length, .nvalue n] ∧ SeqPre st.name st.filters p) ∧ ws = []
  | .maxlEol n => (∃ p, part = p ++ [.kw .maxLength, .opn, .kw .length, .nvalue n, .eol] ∧ SeqPre st.name st.filters p) ∧ ws = []
  | .methodEnd => (∃ p m f fs, part = p ++ m ∧ SeqPre st.name fs p ∧ MethodG (m ++ [.eol]) f ∧ st.filters = fs ++ [f]) ∧ ws = []
  | .ignKw => part = [.kw .ignore] ∧ st.filters = [] ∧ ws = []
  | .ignOpen => IgnPre ws part ∧ st.filters = []
  | .ignList => (∃ is, part = [.kw .ignore, .opn] ++ is ∧ IgnoresG is ws) ∧ st.filters = []
  | .ignFile => (∃ p, part = p ++ [.kw .filename] ∧ IgnPre ws p) ∧ st.filters = []
  | .ignStr s => (∃ p t, part = p ++ [.kw .filename, t] ∧ IgnPre ws p ∧ StringG t s) ∧ st.filters = []
  | .ignClose => (∃ is, part = [.kw .ignore, .opn] ++ is ++ [.cls] ∧ IgnoresG is ws) ∧ st.filters = []

theorem SeqPre.method {name : Bytes} {fs : List Filter} {p m : List Tok} {f : Filter} (h : SeqPre name fs p) (hm : MethodG m f) :
    ∃ t ms, p ++ m = [.kw .sequence, t, .opn] ++ ms ∧ StringG t name ∧ MethodsG ms (fs ++ [f]) := by
  obtain ⟨t, ms, rfl, ht, ⟨rfl, rfl⟩ | hms⟩ := h
  · exact ⟨t, m, by simp, ht, .one m f hm⟩
  · exact ⟨t, ms ++ m, by simp, ht, .more ms m fs f hms hm⟩

theorem IgnPre.entry {ws : List Bytes} {p : List Tok} {t : Tok} {s : Bytes} (h : IgnPre ws p) (ht : StringG t s) :
    ∃ is, p ++ [.kw .filename, t, .eol] = [.kw .ignore, .opn] ++ is ∧ IgnoresG is (ws ++ [s]) := by
  obtain ⟨is, rfl, ⟨rfl, rfl⟩ | hi⟩ := h
  · exact ⟨_, by simp, .one t s ht⟩
  · exact ⟨_, by simp, .more is ws t s hi ht⟩

/-- What has been consumed on the way from `st0` to `st`. -/
def Consumed (file : Bytes) (st0 st : CState) (ts : List Tok) : Prop :=
  ∃ done part rules ws, ts = done ++ part ∧ ConfigG done rules ∧ Part st part ws ∧
    st.sequences = replaceAll st0.sequences (definitions file rules) ∧ putMany st0.ignore (ignored rules ++ ws) = .ok st.ignore

theorem consumed_same {file : Bytes} {st0 st st' : CState} {ts : List Tok} {t : Tok} (h : Consumed file st0 st ts)
    (hs : st'.sequences = st.sequences) (hi : st'.ignore = st.ignore)
    (hp : ∀ part ws, Part st part ws → Part st' (part ++ [t]) ws) : Consumed file st0 st' (ts ++ [t]) := by
  obtain ⟨done, part, rules, ws, h1, h2, h3, h4, h5⟩ := h
  exact ⟨done, part ++ [t], rules, ws, by rw [h1, List.append_assoc], h2, hp _ _ h3, by rw [hs, h4], by rw [hi, h5]⟩

theorem seqPre_list {name : Bytes} {fs : List Filter} {part : List Tok}
    (h : ∃ t ms, part = [.kw .sequence, t, .opn] ++ ms ∧ StringG t name ∧ MethodsG ms fs) : SeqPre name fs part := by
  obtain ⟨t, ms, h1, h2, h3⟩ := h
  exact ⟨t, ms, h1, h2, .inr h3⟩

theorem consumed_step {file : Bytes} {st0 st st' : CState} {ts : List Tok} {t : Tok} (h : Consumed file st0 st ts)
    (hs : cfStep file st t = .ok st') : Consumed file st0 st' (ts ++ [t]) := by
  obtain ⟨ph, name, fs, qs, ig⟩ := st
  cases ph <;> dsimp only [cfStep] at hs
  case top =>
    split at hs
    · cases hs
      subst_vars
      refine consumed_same h rfl rfl ?_
      rintro part ws ⟨rfl, h1, h2⟩
      exact ⟨rfl, h1, h2⟩
    · split at hs
      · cases hs
        subst_vars
        refine consumed_same h rfl rfl ?_
        rintro part ws ⟨rfl, h1, h2⟩
        exact ⟨rfl, h1, h2⟩
      · cases hs
  case seqKw =>
    split at hs
    · rename_i s hst
      cases hs
      refine consumed_same h rfl rfl ?_
      rintro part ws ⟨rfl, h1, h2⟩
      exact ⟨t, rfl, string_stringG hst, h1, h2⟩
    · cases hs
  case seqName s =>
    split at hs
    · cases hs
      subst_vars
      refine consumed_same h rfl rfl ?_
      rintro part ws ⟨t', rfl, h0, h1, h2⟩
      exact ⟨⟨t', [], rfl, h0, .inl ⟨rfl, h1⟩⟩, h2⟩
    · cases hs
  case seqOpen =>
    split at hs <;> cases hs <;> refine consumed_same h rfl rfl ?_ <;> rintro part ws ⟨h1, h2⟩
    · exact ⟨⟨part, _, rfl, h1, .inl ⟨rfl, rfl⟩⟩, h2⟩
    · exact ⟨⟨part, _, rfl, h1, .inr ⟨rfl, rfl⟩⟩, h2⟩
    · exact ⟨⟨part, rfl, h1⟩, h2⟩
    · exact ⟨⟨part, _, rfl, h1, .iso8859_1⟩, h2⟩
    · exact ⟨⟨part, _, rfl, h1, .utf8⟩, h2⟩
    · exact ⟨⟨part, _, rfl, h1, .safe⟩, h2⟩
    · exact ⟨⟨part, rfl, h1⟩, h2⟩
  case seqList =>
    split at hs <;> cases hs <;> refine consumed_same h rfl rfl ?_ <;> rintro part ws ⟨h1, h2⟩
    · exact ⟨⟨part, _, rfl, seqPre_list h1, .inl ⟨rfl, rfl⟩⟩, h2⟩
    · exact ⟨⟨part, _, rfl, seqPre_list h1, .inr ⟨rfl, rfl⟩⟩, h2⟩
    · exact ⟨⟨part, rfl, seqPre_list h1⟩, h2⟩
    · exact ⟨⟨part, _, rfl, seqPre_list h1, .iso8859_1⟩, h2⟩
    · exact ⟨⟨part, _, rfl, seqPre_list h1, .utf8⟩, h2⟩
    · exact ⟨⟨part, _, rfl, seqPre_list h1, .safe⟩, h2⟩
    · exact ⟨⟨part, rfl, seqPre_list h1⟩, h2⟩
    · obtain ⟨t', ms, rfl, h3, h4⟩ := h1
      exact ⟨⟨t', ms, rfl, h3, h4⟩, h2⟩
  case seqClose =>
    split at hs
    · cases hs
      subst_vars
      obtain ⟨done, part, rules, ws, rfl, h2, ⟨⟨t', ms, rfl, h6, h7⟩, rfl⟩, h4, h5⟩ := h
      refine ⟨done ++ ([.kw .sequence, t', .opn] ++ ms ++ [.cls, .eol]), [], rules ++ [.sequence name fs], [], by simp,
        .more _ _ _ _ h2 (.sequence t' name ms fs h6 h7), ⟨rfl, rfl, rfl⟩, ?_, ?_⟩
      · rw [definitions_append]
        simp only [replaceAll, List.foldl_append] at h4 ⊢
        rw [← h4]
        rfl
      · rw [ignored_append]
        simpa [ignored, cfAppendSequenceList] using h5
    · cases hs
  case plain c =>
    split at hs
    · cases hs
      subst_vars
      refine consumed_same h rfl rfl ?_
      rintro part ws ⟨⟨p, k, rfl, h1, h2⟩, h3⟩
      refine ⟨?_, h3⟩
      rw [List.append_assoc]
      rcases h2 with ⟨rfl, rfl⟩ | ⟨rfl, rfl⟩
      · exact h1.method .uncgi
      · exact h1.method .lower
    · cases hs
  case tab m =>
    split at hs
    · cases hs
      subst_vars
      refine consumed_same h rfl rfl ?_
      rintro part ws ⟨⟨p, k, rfl, h1, h2⟩, h3⟩
      refine ⟨?_, h3⟩
      rw [List.append_assoc]
      exact h1.method (.tabled k _ h2)
    · split at hs
      · cases hs
        subst_vars
        refine consumed_same h rfl rfl ?_
        rintro part ws ⟨⟨p, k, rfl, h1, h2⟩, h3⟩
        exact ⟨⟨p, k, by simp, h1, h2⟩, h3⟩
      · cases hs
  case tabOpen m =>
    split at hs
    · cases hs
      subst_vars
      refine consumed_same h rfl rfl ?_
      rintro part ws ⟨⟨p, k, rfl, h1, h2⟩, h3⟩
      exact ⟨⟨p, _, _, _, List.append_assoc .., h1, .tabledBlock k _ h2, rfl⟩, h3⟩
    · split at hs
      · cases hs
        subst_vars
        refine consumed_same h rfl rfl ?_
        rintro part ws ⟨⟨p, k, rfl, h1, h2⟩, h3⟩
        exact ⟨⟨p, k, by simp, h1, h2⟩, h3⟩
      · split at hs
        · cases hs
          subst_vars
          refine consumed_same h rfl rfl ?_
          rintro part ws ⟨⟨p, k, rfl, h1, h2⟩, h3⟩
          exact ⟨⟨p, k, by simp, h1, h2⟩, h3⟩
        · cases hs
  case tabOpt m b =>
    split at hs
    · rename_i s hst
      cases hs
      refine consumed_same h rfl rfl ?_
      rintro part ws ⟨⟨p, k, rfl, h1, h2⟩, h3⟩
      exact ⟨⟨p, k, t, by simp, h1, h2, string_stringG hst⟩, h3⟩
    · cases hs
  case tabStr m b s =>
    split at hs
    · cases hs
      subst_vars
      refine consumed_same h rfl rfl ?_
      rintro part ws ⟨⟨p, k, t', rfl, h1, h2, h4⟩, h3⟩
      exact ⟨⟨p, k, t', by simp, h1, h2, h4⟩, h3⟩
    · cases hs
  case tabEol m b s =>
    split at hs
    · cases hs
      subst_vars
      refine consumed_same h rfl rfl ?_
      rintro part ws ⟨⟨p, k, t', rfl, h1, h2, h4⟩, h3⟩
      cases b
      · exact ⟨⟨p, _, _, _, List.append_assoc .., h1, .tabledFile k _ t' s h2 h4, rfl⟩, h3⟩
      · exact ⟨⟨p, _, _, _, List.append_assoc .., h1, .tabledBuiltin k _ t' s h2 h4, rfl⟩, h3⟩
    · cases hs
  case wipe =>
    split at hs
    · cases hs
      subst_vars
      refine consumed_same h rfl rfl ?_
      rintro part ws ⟨⟨p, rfl, h1⟩, h3⟩
      refine ⟨?_, h3⟩
      rw [List.append_assoc]
      exact h1.method .wipeup
    · split at hs
      · cases hs
        subst_vars
        refine consumed_same h rfl rfl ?_
        rintro part ws ⟨⟨p, rfl, h1⟩, h3⟩
        exact ⟨⟨p, by simp, h1⟩, h3⟩
      · cases hs
  case wipeOpen =>
    split at hs
    · cases hs
      subst_vars
      refine consumed_same h rfl rfl ?_
      rintro part ws ⟨⟨p, rfl, h1⟩, h3⟩
      exact ⟨⟨p, _, _, _, List.append_assoc .., h1, .wipeupBlock, rfl⟩, h3⟩
    · split at hs
      · cases hs
        subst_vars
        refine consumed_same h rfl rfl ?_
        rintro part ws ⟨⟨p, rfl, h1⟩, h3⟩
        exact ⟨⟨p, by simp, h1⟩, h3⟩
      · cases hs
  case wipeOpt =>
    split at hs
    · cases hs
      subst_vars
      refine consumed_same h rfl rfl ?_
      rintro part ws ⟨⟨p, rfl, h1⟩, h3⟩
      exact ⟨⟨p, by simp, h1⟩, h3⟩
    · cases hs
  case wipeEol =>
    split at hs
    · cases hs
      subst_vars
      refine consumed_same h rfl rfl ?_
      rintro part ws ⟨⟨p, rfl, h1⟩, h3⟩
      exact ⟨⟨p, _, _, _, List.append_assoc .., h1, .wipeupTrailing, rfl⟩, h3⟩
    · cases hs
  case maxl =>
    split at hs
    · cases hs
      subst_vars
      refine consumed_same h rfl rfl ?_
      rintro part ws ⟨⟨p, rfl, h1⟩, h3⟩
      refine ⟨?_, h3⟩
      rw [List.append_assoc]
      exact h1.method .maxLength
    · split at hs
      · cases hs
        subst_vars
        refine consumed_same h rfl rfl ?_
        rintro part ws ⟨⟨p, rfl, h1⟩, h3⟩
        exact ⟨⟨p, by simp, h1⟩, h3⟩
      · cases hs
  case maxlOpen =>
    split at hs
    · cases hs
      subst_vars
      refine consumed_same h rfl rfl ?_
      rintro part ws ⟨⟨p, rfl, h1⟩, h3⟩
      exact ⟨⟨p, _, _, _, List.append_assoc .., h1, .maxLengthBlock, rfl⟩, h3⟩
    · split at hs
      · cases hs
        subst_vars
        refine consumed_same h rfl rfl ?_
        rintro part ws ⟨⟨p, rfl, h1⟩, h3⟩
        exact ⟨⟨p, by simp, h1⟩, h3⟩
      · cases hs
  case maxlOpt =>
    split at hs
    · cases hs
      refine consumed_same h rfl rfl ?_
      rintro part ws ⟨⟨p, rfl, h1⟩, h3⟩
      exact ⟨⟨p, by simp, h1⟩, h3⟩
    · cases hs
  case maxlVal n =>
    split at hs
    · cases hs
      subst_vars
      refine consumed_same h rfl rfl ?_
      rintro part ws ⟨⟨p, rfl, h1⟩, h3⟩
      exact ⟨⟨p, by simp, h1⟩, h3⟩
    · cases hs
  case maxlEol n =>
    split at hs
    · cases hs
      subst_vars
      refine consumed_same h rfl rfl ?_
      rintro part ws ⟨⟨p, rfl, h1⟩, h3⟩
      exact ⟨⟨p, _, _, _, List.append_assoc .., h1, .maxLengthValue n, rfl⟩, h3⟩
    · cases hs
  case methodEnd =>
    split at hs
    · cases hs
      subst_vars
      refine consumed_same h rfl rfl ?_
      rintro part ws ⟨⟨p, m, f, fs', rfl, h1, h2, h4⟩, h3⟩
      refine ⟨?_, h3⟩
      rw [List.append_assoc]
      dsimp only at h4 ⊢
      rw [h4]
      exact h1.method h2
    · cases hs
  case ignKw =>
    split at hs
    · cases hs
      subst_vars
      refine consumed_same h rfl rfl ?_
      rintro part ws ⟨rfl, h1, h2⟩
      exact ⟨⟨[], rfl, .inl ⟨rfl, h2⟩⟩, h1⟩
    · cases hs
  case ignOpen =>
    split at hs
    · cases hs
      subst_vars
      refine consumed_same h rfl rfl ?_
      rintro part ws ⟨h1, h2⟩
      exact ⟨⟨part, rfl, h1⟩, h2⟩
    · cases hs
  case ignList =>
    split at hs
    · cases hs
      subst_vars
      refine consumed_same h rfl rfl ?_
      rintro part ws ⟨⟨is, rfl, h1⟩, h2⟩
      exact ⟨⟨_, rfl, is, rfl, .inr h1⟩, h2⟩
    · split at hs
      · cases hs
        subst_vars
        refine consumed_same h rfl rfl ?_
        rintro part ws ⟨⟨is, rfl, h1⟩, h2⟩
        exact ⟨⟨is, rfl, h1⟩, h2⟩
      · cases hs
  case ignFile =>
    split at hs
    · rename_i s hst
      cases hs
      refine consumed_same h rfl rfl ?_
      rintro part ws ⟨⟨p, rfl, h1⟩, h2⟩
      exact ⟨⟨p, t, by simp, h1, string_stringG hst⟩, h2⟩
    · cases hs
  case ignStr s =>
    split at hs
    · subst_vars
      cases hput : filelistPut ig s with
      | ok l =>
        rw [hput] at hs
        cases hs
        obtain ⟨done, part, rules, ws, rfl, h2, ⟨⟨p, t', rfl, h6, h7⟩, h8⟩, h4, h5⟩ := h
        obtain ⟨is, hi1, hi2⟩ := h6.entry h7
        refine ⟨done, p ++ [.kw .filename, t', .eol], rules, ws ++ [s], by simp, h2, ⟨⟨is, hi1, hi2⟩, h8⟩, h4, ?_⟩
        rw [← List.append_assoc, putMany_append, h5]
        simp only [Res.bind_ok, putMany, hput]
      | exit n => rw [hput] at hs; cases hs
      | ub u => rw [hput] at hs; cases hs
      | stuck => rw [hput] at hs; cases hs
    · cases hs
  case ignClose =>
    split at hs
    · cases hs
      subst_vars
      obtain ⟨done, part, rules, ws, rfl, h2, ⟨⟨is, rfl, h6⟩, h7⟩, h4, h5⟩ := h
      refine ⟨done ++ ([.kw .ignore, .opn] ++ is ++ [.cls, .eol]), [], rules ++ [.ignore ws], [], by simp,
        .more _ _ _ _ h2 (.ignore is ws h6), ⟨rfl, h7, rfl⟩, ?_, ?_⟩
      · rw [definitions_append]
        simpa [replaceAll, definitions] using h4
      · rw [ignored_append]
        simpa [ignored] using h5
    · cases hs

theorem consumed_all {file : Bytes} {st0 : CState} : ∀ (us ts : List Tok) (st st' : CState), Consumed file st0 st ts →
    cfToks file us st = .ok st' → Consumed file st0 st' (ts ++ us)
  | [], ts, st, st', h, hr => by cases hr; rwa [List.append_nil]
  | u :: us, ts, st, st', h, hr => by
    simp only [cfToks] at hr
    cases hs : cfStep file st u with
    | ok s1 =>
      rw [hs, Res.bind_ok] at hr
      have := consumed_all us (ts ++ [u]) s1 st' (consumed_step h hs) hr
      rwa [List.append_assoc] at this
    | exit n => rw [hs] at hr; cases hr
    | ub u => rw [hs] at hr; cases hr
    | stuck => rw [hs] at hr; cases hr

/-- What the parser accepts is a sentence, and has the effect of its rules. -/
theorem accepted_config {file : Bytes} {st st' : CState} {ts : List Tok} (hp : st.phase = .top) (hf : st.filters = [])
    (h : cfToks file ts st = .ok st') (hp' : st'.phase = .top) : ∃ rs, ConfigG ts rs ∧
      st'.sequences = replaceAll st.sequences (definitions file rs) ∧ putMany st.ignore (ignored rs) = .ok st'.ignore := by
  have h0 : Consumed file st st [] :=
    ⟨[], [], [], [], rfl, .nil, by unfold Part; rw [hp]; exact ⟨rfl, hf, rfl⟩, rfl, rfl⟩
  obtain ⟨done, part, rules, ws, h1, h2, h3, h4, h5⟩ := consumed_all ts [] st st' h0 h
  unfold Part at h3
  rw [hp'] at h3
  obtain ⟨rfl, _, rfl⟩ := h3
  rw [List.append_nil, List.nil_append] at h1
  rw [List.append_nil] at h5
  exact ⟨rules, h1 ▸ h2, h4, h5⟩

end Detox
