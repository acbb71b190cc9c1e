import Verif.Lemmas.FlexTokens
import Verif.Lemmas.Bison
import Verif.Model.ConfigScan

/-!
# The parser that calls the scanner, and the parser of a list of tokens
-/

set_option autoImplicit false

namespace Detox

theorem cellString_spec (s : Bytes) (cs : Cells) (h : (0 : Byte) ∉ s) : cellString (s.map some ++ some 0 :: cs) = .ok s := by
  induction s with
  | nil => rfl
  | cons c s ih =>
    have h1 : ¬ c = 0 := fun e => h (by rw [e]; exact List.mem_cons_self)
    simp only [List.map_cons, List.cons_append, cellString]
    rw [if_neg h1, ih (fun hm => h (List.mem_cons_of_mem _ hm)), Yy.bind_ok]

theorem yyFuel_mono {a b : Nat} (h : a ≤ b) : yyFuel a ≤ yyFuel b := by
  unfold yyFuel
  exact Nat.mul_le_mul (by omega) (by omega)

/-- One call of `yylex`, in the words of `yylex`. -/
theorem yylex_spec (w : YyWorld) (pending : Bytes) (f : Flex) (src : Source) (hmax : pending.length ≤ yyTextMax) (hr : FlexReady f src pending)
    (fuel : Nat) (hf : yyFuel pending.length ≤ fuel) :
    (∃ msg, yylex w fuel f src = .fatal msg ∧ w.Fails msg) ∨
    ∃ t f' src', yylex w fuel f src = .ok (t, f', src') ∧ Scanned pending f.lineno t f' src' := by
  obtain ⟨r, h1, h2⟩ := yylex_ends w (pending.length + 1) pending f src (by omega) hmax hr
  have h3 : yylex w fuel f src = r := h2 fuel hf
  rcases h1 with ⟨msg, h1, h4⟩ | ⟨t, f', src', h1, h4⟩
  · exact .inl ⟨msg, by rw [h3, h1], h4⟩
  · exact .inr ⟨t, f', src', by rw [h3, h1], h4⟩

/-- What is left when the parser is done: after the end of the file the scanner is ready for another one; at a syntax error `yytext`
and the line are those of the token that is blamed. -/
structure Parsed (file pending : Bytes) (line : Nat) (st : CState) (C : Nat × Res CState) (f : Flex) (src : Source) : Prop where
  fine : ∀ c, C.2 = .ok c → f.lineno = (locate line pending).2 ∧ src.feof = true ∧ ∀ s, FlexReady f s s.rest
  wrong : ∀ n, C.2 = .exit n → cellString (f.buf.drop f.text) = .ok (cfBlame file (locate line pending).2 (locate line pending).1 st).1 ∧
    f.lineno = (cfBlame file (locate line pending).2 (locate line pending).1 st).2

theorem pull_same (w : YyWorld) (file : Bytes) (q : Phase) (fuel k : Nat) : ∀ (pending : Bytes) (st : CState) (l : List (Nat × YVal)) (v : YVal)
    (f : Flex) (src : Source), pending.length < k → pending.length ≤ yyTextMax → yyFuel pending.length ≤ fuel → Stk st.phase l →
    FlexReady f src pending →
    (∃ m msg, yyPull w file fuel k ⟨l, v, { st with phase := q }⟩ f src = (m, .fatal msg) ∧ w.Fails msg) ∨
    ∃ f' src', yyPull w file fuel k ⟨l, v, { st with phase := q }⟩ f src =
        ((cfRun file ((locate f.lineno pending).1.map (·.item)) st).1,
          .ok ((dropPhase q (cfRun file ((locate f.lineno pending).1.map (·.item)) st)).2, f', src')) ∧
      Parsed file pending f.lineno st (cfRun file ((locate f.lineno pending).1.map (·.item)) st) f' src' := by
  induction k with
  | zero => intro pending st l v f src h; omega
  | succ k ih =>
    intro pending st l v f src hk hmax hfuel hstk hready
    rcases yylex_spec w pending f src hmax hready fuel hfuel with ⟨msg, h1, h2⟩ | ⟨t, f1, src1, h1, h2⟩
    · left
      refine ⟨0, msg, ?_, h2⟩
      simp only [yyPull, h1]
    · cases t with
      | none =>
        right
        obtain ⟨s1, s2, s3, s4, s5⟩ := h2
        refine ⟨f1, src1, ?_, ?_⟩
        · simp only [yyPull, h1, s1, List.map_nil, cfRun, dropPhase, end_same file q st l v hstk]
          by_cases hp : st.phase = .top
          · simp only [hp, if_true]; rfl
          · simp only [hp, if_false]; rfl
        · rw [s1]
          refine ⟨fun c _ => ⟨by rw [s1], s2.2, s3⟩, fun n _ => ?_⟩
          rw [s1, s4]
          refine ⟨?_, rfl⟩
          rw [List.drop_zero]
          cases hb : f1.buf with
          | nil => rw [hb] at s5; cases s5
          | cons a cs =>
            rw [hb] at s5
            cases s5
            rfl
      | some x =>
        obtain ⟨p', s1, s2, s3, s4, ⟨pre, post, s5, s6⟩, s7⟩ := h2
        obtain ⟨item, text, line⟩ := x
        simp only at s1 s2 s3 s4 s5 s7
        have hstr : (∀ t un, item = .tok t un → cellString (f1.buf.drop f1.text) = .ok text) := by
          intro t un ht
          have h5 : Filled f1.buf (pre ++ (text ++ 0 :: post)) := by simpa using s5
          have h6 := h5.drop.split
          rw [s6, h6, List.map_append, List.append_assoc]
          exact cellString_spec text _ (s7 t un ht)
        cases item with
        | ub u =>
          right
          refine ⟨f1, src1, ?_, ?_⟩
          · simp only [yyPull, h1, s4, List.map_cons, cfRun]
            rfl
          · rw [s4]
            refine ⟨fun c hc => ?_, fun n hn => ?_⟩
            · simp only [List.map_cons, cfRun] at hc
              cases hc
            · simp only [List.map_cons, cfRun] at hn
              cases hn
        | tok t un =>
          have hs := step_same file q st l v hstk t
          have hstr := hstr t un rfl
          cases hc : cfStep file st t with
          | ok st' =>
            rw [hc] at hs
            obtain ⟨l', v', hy, hstk'⟩ := hs
            have := ih p' st' l' v' f1 src1 (by omega) (by omega) (Nat.le_trans (yyFuel_mono (by omega)) hfuel) hstk' s1
            rcases this with ⟨m, msg, g1, g2⟩ | ⟨f2, src2, g1, g2⟩
            · left
              refine ⟨m + (if un then 1 else 0), msg, ?_, g2⟩
              simp only [yyPull, h1, hy, g1]
            · right
              refine ⟨f2, src2, ?_, ?_⟩
              · simp only [yyPull, h1, s4, hy, g1, List.map_cons, cfRun, hc, s3]
                rfl
              · rw [s3] at g2
                rw [s4]
                refine ⟨fun c h => ?_, fun n h => ?_⟩
                · simp only [List.map_cons, cfRun, hc] at h
                  rw [s4]
                  exact g2.fine c h
                · simp only [List.map_cons, cfRun, hc] at h
                  rw [s4]
                  simp only [cfBlame, hc]
                  exact g2.wrong n h
          | exit n =>
            right
            rw [hc] at hs
            have hs' : yySteps file 20 (readTok ⟨l, v, { st with phase := q }⟩ (some t)) (some (some t)) = .exit n := hs
            refine ⟨f1, src1, ?_, ?_⟩
            · simp only [yyPull, h1, s4, hs', List.map_cons, cfRun, hc]
              rfl
            · rw [s4]
              refine ⟨fun c h => ?_, fun n h => ?_⟩
              · simp only [List.map_cons, cfRun, hc] at h
                cases h
              · rw [s4]
                simp only [cfBlame, hc]
                exact ⟨hstr, s3⟩
          | ub u =>
            right
            rw [hc] at hs
            have hs' : yySteps file 20 (readTok ⟨l, v, { st with phase := q }⟩ (some t)) (some (some t)) = .ub u := hs
            refine ⟨f1, src1, ?_, ?_⟩
            · simp only [yyPull, h1, s4, hs', List.map_cons, cfRun, hc]
              rfl
            · rw [s4]
              refine ⟨fun c h => ?_, fun n h => ?_⟩
              · simp only [List.map_cons, cfRun, hc] at h
                cases h
              · simp only [List.map_cons, cfRun, hc] at h
                cases h
          | stuck =>
            right
            rw [hc] at hs
            have hs' : yySteps file 20 (readTok ⟨l, v, { st with phase := q }⟩ (some t)) (some (some t)) = .stuck := hs
            refine ⟨f1, src1, ?_, ?_⟩
            · simp only [yyPull, h1, s4, hs', List.map_cons, cfRun, hc]
              rfl
            · rw [s4]
              refine ⟨fun c h => ?_, fun n h => ?_⟩
              · simp only [List.map_cons, cfRun, hc] at h
                cases h
              · simp only [List.map_cons, cfRun, hc] at h
                cases h

/-! ### A file -/

/-- The state of the scanner between two files. -/
def ScanReady (z : ScanState) (line : Nat) : Prop :=
  match z.flex with
  | none => line = 1
  | some f => f.lineno = line ∧ ∀ s, FlexReady f s s.rest

theorem init_ready (w : YyWorld) (line allocs : Nat) :
    (∃ msg, yyInit w line allocs = .fatal msg ∧ w.Fails msg) ∨
    ∃ f, yyInit w line allocs = .ok (f, allocs + 3) ∧ f.lineno = line ∧ ∀ s, FlexReady f s s.rest := by
  unfold yyInit
  have hsize : 1 ≤ yyBufSize := by decide
  generalize yyBufSize = size at hsize
  by_cases h1 : w.memory allocs = true
  · by_cases h2 : w.memory (allocs + 1) = true
    · by_cases h3 : w.memory (allocs + 2) = true
      · right
        rw [if_neg (by simp [h1]), if_neg (by simp [h2]), if_neg (by simp [h3])]
        refine ⟨{ buf := some 0 :: some 0 :: List.replicate size none, bufSize := size, bufChars := 0, status := .fresh, nChars := 0, cBufP := 0, text := 0, hold := 0, lastState := 0, lastCpos := none, lineno := line }, ?_, rfl, fun s => ⟨[], [], ⟨?_, ?_, ?_, rfl, fun _ => ⟨rfl, rfl, rfl⟩, fun h => by cases h⟩, rfl, rfl⟩⟩
        · simp [Flex.setCell, Yy.bind_ok, List.replicate_succ, yyLoadBufferState, Flex.cell, yyGet]
        · intro j hj
          simp only [List.nil_append, List.length_cons, List.length_nil] at hj
          rcases j with _ | _ | j
          · rfl
          · rfl
          · omega
        · simp
        · exact hsize
      · left
        rw [if_neg (by simp [h1]), if_neg (by simp [h2]), if_pos h3]
        exact ⟨_, rfl, .inr ⟨.inr (.inr rfl), _, by simpa using h3⟩⟩
    · left
      rw [if_neg (by simp [h1]), if_pos h2]
      exact ⟨_, rfl, .inr ⟨.inr (.inr rfl), _, by simpa using h2⟩⟩
  · left
    rw [if_pos h1]
    exact ⟨_, rfl, .inr ⟨.inr (.inl rfl), _, by simpa using h1⟩⟩

/-- **A file**, whatever the reads give at a time. -/
theorem parseScan_spec (w : YyWorld) (file text : Bytes) (previous : Option ConfigFile) (z : ScanState) (line : Nat) (hz : ScanReady z line)
    (hmax : text.length ≤ yyTextMax) :
    (∃ m msg, parseConfigScan w file text previous z = (m, .fatal msg) ∧ w.Fails msg) ∨
    ∃ z', parseConfigScan w file text previous z =
        ((parseConfigText file text previous).1, .ok ((parseConfigText file text previous).2, z')) ∧
      (∀ c, (parseConfigText file text previous).2 = .ok c → ScanReady z' (locateAll text.length line text).2) ∧
      ∀ n, (parseConfigText file text previous).2 = .exit n →
        let b := cfBlame file (locateAll text.length line text).2 (locateAll text.length line text).1 (cfStart previous)
        scanError file z' = .ok (yyerrorText file b.1 b.2) := by
  have hstart : (∃ msg, z.start w = .fatal msg ∧ w.Fails msg) ∨
      ∃ f allocs, z.start w = .ok (f, allocs) ∧ f.lineno = line ∧ ∀ s, FlexReady f s s.rest := by
    unfold ScanState.start
    unfold ScanReady at hz
    cases hf : z.flex with
    | some f =>
      rw [hf] at hz
      exact .inr ⟨f, z.allocs, rfl, hz⟩
    | none =>
      rw [hf] at hz
      subst hz
      rcases init_ready w 1 z.allocs with h | ⟨f, h1, h2⟩
      · exact .inl h
      · exact .inr ⟨f, _, h1, h2⟩
  rcases hstart with ⟨msg, h1, h2⟩ | ⟨f, allocs, h1, h2, h3⟩
  · left
    refine ⟨0, msg, ?_, h2⟩
    simp only [parseConfigScan, h1]
  · have e : ∀ vars : CState, yySteps file 20 { stack := [(0, .junk)], lval := .junk, vars := vars } none =
      .ok (.token ⟨[(1, .junk), (0, .junk)], .junk, vars⟩) := fun _ => rfl
    have hphase : (cfStart previous).phase = .top := rfl
    have hitems : (locate f.lineno text).1.map (·.item) = lex text := locate_items _ _ _ (Nat.le_refl _)
    have hdrop : dropPhase .top (cfRun file (lex text) (cfStart previous)) = cfRun file (lex text) (cfStart previous) :=
      (yyParse_eq file (lex text) (cfStart previous) hphase).symm.trans (yyParse_cfRun file (lex text) (cfStart previous) hphase)
    have hpull := pull_same w file .top (yyFuel text.length) (text.length + 1) text (cfStart previous) [(1, .junk), (0, .junk)] .junk f
      { left := text, reads := z.reads, allocs := allocs } (by omega) hmax (Nat.le_refl _) (.top ..) (h3 _)
    rw [hitems, hdrop] at hpull
    have hvars : ({ cfStart previous with phase := .top } : CState) = cfStart previous := rfl
    rw [hvars] at hpull
    rcases hpull with ⟨m, msg, g1, g2⟩ | ⟨f', src', g1, g2⟩
    · left
      refine ⟨m, msg, ?_, g2⟩
      simp only [parseConfigScan, h1, parseLoop, yyParseScan, e, g1]
      rfl
    · right
      have hloop : parseLoop w file (yyFuel text.length) (text.length + 1) (text.length + 1) (cfStart previous) f
          { left := text, reads := z.reads, allocs := allocs } =
          ((cfRun file (lex text) (cfStart previous)).1, .ok ((cfRun file (lex text) (cfStart previous)).2, f', src')) := by
        simp only [parseLoop, yyParseScan, e, g1]
        cases hr : (cfRun file (lex text) (cfStart previous)).2 with
        | ok c =>
          have := (g2.fine c hr).2.1
          simp only [this, if_true]
        | exit n => rfl
        | ub u => rfl
        | stuck => rfl
      have hpt : parseConfigText file text previous = ((cfRun file (lex text) (cfStart previous)).1,
          (cfRun file (lex text) (cfStart previous)).2.bind fun st => .ok { sequences := st.sequences, filesToIgnore := some st.ignore }) := rfl
      refine ⟨{ flex := some f', reads := src'.reads, allocs := src'.allocs }, ?_, ?_, ?_⟩
      · simp only [parseConfigScan, h1, hloop, hpt, Yy.bind_ok]
      · intro c hc
        rw [hpt] at hc
        cases hr : (cfRun file (lex text) (cfStart previous)).2 with
        | ok c' =>
          have := g2.fine c' hr
          rw [h2] at this
          exact ⟨this.1, this.2.2⟩
        | exit n => rw [hr] at hc; cases hc
        | ub u => rw [hr] at hc; cases hc
        | stuck => rw [hr] at hc; cases hc
      · intro n hn
        rw [hpt] at hn
        cases hr : (cfRun file (lex text) (cfStart previous)).2 with
        | ok c' => rw [hr] at hn; cases hn
        | exit m =>
          have := g2.wrong m hr
          rw [h2] at this
          simp only [scanError]
          rw [this.1, Yy.bind_ok, this.2]
          rfl
        | ub u => rw [hr] at hn; cases hn
        | stuck => rw [hr] at hn; cases hn

/-! ### Whole programs -/

/-- Two programs that make the same calls as long as all files are short enough, and end alike, up to `R`; or the first one ends because the
scanner complains. -/
inductive SameRun {α β : Type} (w : YyWorld) (R : α → β → Prop) : Prog α → Prog β → Prop
  | ret (a : α) (b : β) : R a b → SameRun w R (.ret a) (.ret b)
  | exit (n : Nat) : SameRun w R (.exit n) (.exit n)
  | ub (u : UB) : SameRun w R (.ub u) (.ub u)
  | stuck : SameRun w R .stuck .stuck
  | lstat (p : Bytes) (k : Option Stat → Prog α) (k' : Option Stat → Prog β) : (∀ r, SameRun w R (k r) (k' r)) →
      SameRun w R (.lstat p k) (.lstat p k')
  | rename (o n : Bytes) (k : Bool → Prog α) (k' : Bool → Prog β) : (∀ r, SameRun w R (k r) (k' r)) →
      SameRun w R (.rename o n k) (.rename o n k')
  | opendir (p : Bytes) (k : OpenRes → Prog α) (k' : OpenRes → Prog β) : (∀ r, SameRun w R (k r) (k' r)) →
      SameRun w R (.opendir p k) (.opendir p k')
  | readdir (h : Nat) (k : Option Bytes → Prog α) (k' : Option Bytes → Prog β) : (∀ r, SameRun w R (k r) (k' r)) →
      SameRun w R (.readdir h k) (.readdir h k')
  | closedir (h : Nat) (k : Prog α) (k' : Prog β) : SameRun w R k k' → SameRun w R (.closedir h k) (.closedir h k')
  | slurp (p : Option Bytes) (k : Option Bytes → Prog α) (k' : Option Bytes → Prog β) :
      (∀ r, (∀ file text, p = some file → r = some text → text.length ≤ yyTextMax) → SameRun w R (k r) (k' r)) → SameRun w R (.slurp p k) (.slurp p k')
  | out (s : Bytes) (k : Prog α) (k' : Prog β) : SameRun w R k k' → SameRun w R (.out s k) (.out s k')
  | err (s : Bytes) (k : Prog α) (k' : Prog β) : SameRun w R k k' → SameRun w R (.err s k) (.err s k')
  | failed (m : Nat) (s msg : Bytes) (q : Prog β) : w.Fails msg → SameRun w R (outTimes s m (.err (msg ++ lit "\n") (.exit 2))) q

theorem outTimes_then {α β : Type} (s : Bytes) (m : Nat) (p : Prog α) (k : α → Prog β) :
    (outTimes s m p).bind k = outTimes s m (p.bind k) := by
  induction m with
  | zero => rfl
  | succ m ih => simp only [outTimes, Prog.bind, ih]

theorem SameRun.outTimes {α β : Type} {w : YyWorld} {R : α → β → Prop} {p : Prog α} {q : Prog β} (s : Bytes) (m : Nat) (h : SameRun w R p q) :
    SameRun w R (outTimes s m p) (Detox.outTimes s m q) := by
  induction m with
  | zero => exact h
  | succ m ih => exact .out _ _ _ ih

theorem SameRun.bind {α β γ δ : Type} {w : YyWorld} {R : α → β → Prop} {S : γ → δ → Prop} {p : Prog α} {q : Prog β} (h : SameRun w R p q)
    {k : α → Prog γ} {l : β → Prog δ} (hk : ∀ a b, R a b → SameRun w S (k a) (l b)) : SameRun w S (p.bind k) (q.bind l) := by
  induction h with
  | ret a b h => exact hk a b h
  | exit n => exact .exit n
  | ub u => exact .ub u
  | stuck => exact .stuck
  | lstat p k k' _ ih => exact .lstat _ _ _ ih
  | rename o n k k' _ ih => exact .rename _ _ _ _ ih
  | opendir p k k' _ ih => exact .opendir _ _ _ ih
  | readdir h k k' _ ih => exact .readdir _ _ _ ih
  | closedir h k k' _ ih => exact .closedir _ _ _ ih
  | slurp p k k' _ ih => exact .slurp _ _ _ ih
  | out s k k' _ ih => exact .out _ _ _ ih
  | err s k k' _ ih => exact .err _ _ _ ih
  | failed m s msg q h =>
    rw [outTimes_then]
    exact .failed m s msg _ h

theorem SameRun.refl {α : Type} (w : YyWorld) {R : α → α → Prop} (hR : ∀ a, R a a) (p : Prog α) : SameRun w R p p := by
  induction p with
  | ret a => exact .ret a a (hR a)
  | exit n => exact .exit n
  | ub u => exact .ub u
  | stuck => exact .stuck
  | lstat p k ih => exact .lstat _ _ _ ih
  | rename o n k ih => exact .rename _ _ _ _ ih
  | opendir p k ih => exact .opendir _ _ _ ih
  | readdir h k ih => exact .readdir _ _ _ ih
  | closedir h k ih => exact .closedir _ _ _ ih
  | slurp p k ih => exact .slurp _ _ _ (fun r _ => ih r)
  | out s k ih => exact .out _ _ _ ih
  | err s k ih => exact .err _ _ _ ih

/-- Results and state of the scanner, in both models. -/
def SameLoad (a : Option ConfigFile × ScanState) (b : Option ConfigFile × Nat) : Prop := a.1 = b.1 ∧ ScanReady a.2 b.2

theorem parseFile_same (w : YyWorld) (file : Bytes) (a : Option ConfigFile × ScanState) (b : Option ConfigFile × Nat) (h : SameLoad a b) :
    SameRun w SameLoad (parseConfigFileScan w file a) (parseConfigFile file b) := by
  obtain ⟨c, z⟩ := a
  obtain ⟨c', line⟩ := b
  obtain ⟨h1, h2⟩ := h
  simp only at h1 h2
  subst h1
  refine .slurp _ _ _ (fun r hr => ?_)
  cases r with
  | none => exact .ret _ _ ⟨rfl, h2⟩
  | some text =>
    simp only
    rcases parseScan_spec w file text c z line h2 (hr file text rfl rfl) with ⟨m, msg, g1, g2⟩ | ⟨z', g1, g2, g3⟩
    · simp only [g1]
      exact .failed m _ msg _ g2
    · simp only [g1]
      refine SameRun.outTimes _ _ ?_
      cases hp : (parseConfigText file text c).2 with
      | ok cf => exact .ret _ _ ⟨rfl, g2 cf hp⟩
      | exit n =>
        have := g3 n hp
        simp only [this]
        exact .err _ _ _ (.exit n)
      | ub u => exact .ub u
      | stuck => exact .stuck

theorem tryConfig_same (w : YyWorld) (path : Bytes) (a : Option ConfigFile × ScanState) (b : Option ConfigFile × Nat) (h : SameLoad a b) :
    SameRun w SameLoad (tryConfigScan w path a) (tryConfig path b) := by
  unfold tryConfigScan tryConfig
  split
  · exact parseFile_same w path a b h
  · exact .ret _ _ h

theorem load_same (w : YyWorld) (E : ConfigEnv) (check : Option Bytes) :
    SameRun w (fun a b => a = b) (configFileLoadScan w E check) (configFileLoad E check) := by
  have h0 : SameLoad (none, {}) (none, 1) := ⟨rfl, rfl⟩
  cases check with
  | some f =>
    refine SameRun.bind (parseFile_same w f _ _ h0) ?_
    rintro ⟨c, z⟩ ⟨c', line⟩ ⟨h1, h2⟩
    simp only at h1
    subst h1
    cases c with
    | some c => exact .ret _ _ rfl
    | none => exact .err _ _ _ (.exit 1)
  | none =>
    refine SameRun.bind (R := SameLoad) ?_ ?_
    · cases E.sysconfdir with
      | some d => exact tryConfig_same w _ _ _ h0
      | none => exact .ret _ _ h0
    rintro ⟨c1, z1⟩ ⟨c1', l1⟩ ⟨h1, h2⟩
    simp only at h1 h2
    subst h1
    refine SameRun.bind (R := SameLoad) ?_ ?_
    · cases c1 with
      | some c => exact .ret _ _ ⟨rfl, h2⟩
      | none => exact parseFile_same w _ _ _ ⟨rfl, h2⟩
    rintro ⟨c1, z1⟩ ⟨c1', l1⟩ ⟨h1, h2⟩
    simp only at h1 h2
    subst h1
    refine SameRun.bind (R := SameLoad) ?_ ?_
    · cases c1 with
      | some c => exact .ret _ _ ⟨rfl, h2⟩
      | none => exact parseFile_same w _ _ _ ⟨rfl, h2⟩
    intro a b h
    refine SameRun.bind (R := SameLoad) ?_ ?_
    · cases E.home with
      | some d => exact tryConfig_same w _ _ _ h
      | none => exact .ret _ _ h
    intro a b h
    refine SameRun.bind (R := SameLoad) ?_ ?_
    · cases E.xdg with
      | some d => exact tryConfig_same w _ _ _ h
      | none => exact .ret _ _ h
    rintro ⟨c1, z1⟩ ⟨c1', l1⟩ ⟨h1, h2⟩
    simp only at h1
    subst h1
    cases c1 with
    | some c => exact .ret _ _ rfl
    | none => exact SameRun.refl w (fun _ => rfl) _

theorem main_same (w : YyWorld) (P : Platform) (I : Invocation) (fuel : Nat) :
    SameRun w (fun a b => a = b) (detoxMainScan w P I fuel) (detoxMain P I fuel) := by
  refine SameRun.bind (R := fun a b => a = b) (SameRun.refl w (fun _ => rfl) _) ?_
  intro o _ e
  subst e
  refine SameRun.bind (load_same w I.config o.checkConfigFile) ?_
  intro c _ e
  subst e
  exact SameRun.refl w (fun _ => rfl) _

/-! ### Traces -/

theorem FilesShort.tail {e : Event} {tr : List Event} (h : FilesShort (e :: tr)) : FilesShort tr :=
  fun file text hm => h file text (List.mem_cons_of_mem _ hm)

theorem FilesShort.head {p : Option Bytes} {r : Option Bytes} {tr : List Event} (h : FilesShort (.slurp p r :: tr)) :
    ∀ file text, p = some file → r = some text → text.length ≤ yyTextMax :=
  fun file text hf ht => h file text (by rw [hf, ht]; exact List.mem_cons_self)

/-- The run of a program that complains. -/
theorem failed_trace {α : Type} (s msg : Bytes) (n : Nat) {tr : List Event} {o : Outcome α}
    (h : Trace (outTimes s n (.err msg (.exit 2))) tr o) : o = .running ∨ (o = .exit 2 ∧ tr.getLast? = some (.err msg)) := by
  induction n generalizing tr with
  | zero =>
    cases h with
    | stop => exact .inl rfl
    | err _ _ tr _ h =>
      cases h with
      | stop => exact .inl rfl
      | exit => exact .inr ⟨rfl, rfl⟩
  | succ n ih =>
    cases h with
    | stop => exact .inl rfl
    | out _ _ tr _ h =>
      rcases ih h with h | ⟨h1, h2⟩
      · exact .inl h
      · refine .inr ⟨h1, ?_⟩
        cases tr with
        | nil => cases h2
        | cons a l => rw [List.getLast?_cons_cons]; exact h2

theorem SameRun.trace {α : Type} {w : YyWorld} {p q : Prog α} (h : SameRun w (fun a b => a = b) p q) :
    ∀ {tr : List Event} {o : Outcome α}, Trace p tr o → FilesShort tr → Trace q tr o ∨
      ∃ msg, w.Fails msg ∧ (o = .running ∨ (o = .exit 2 ∧ tr.getLast? = some (.err (msg ++ lit "\n")))) := by
  have last : ∀ {e : Event} {tr : List Event} {x : Event}, tr.getLast? = some x → (e :: tr).getLast? = some x := by
    intro e tr x h
    cases tr with
    | nil => cases h
    | cons a l => rw [List.getLast?_cons_cons]; exact h
  have lift : ∀ {e : Event} {tr : List Event} {o : Outcome α} {q q' : Prog α},
      (Trace q tr o → Trace q' (e :: tr) o) →
      (Trace q tr o ∨ ∃ msg, w.Fails msg ∧ (o = .running ∨ (o = .exit 2 ∧ tr.getLast? = some (.err (msg ++ lit "\n"))))) →
      (Trace q' (e :: tr) o ∨ ∃ msg, w.Fails msg ∧ (o = .running ∨ (o = .exit 2 ∧ (e :: tr).getLast? = some (.err (msg ++ lit "\n"))))) := by
    intro e tr o q q' h1 h2
    rcases h2 with h2 | ⟨msg, h2, h3 | ⟨h3, h4⟩⟩
    · exact .inl (h1 h2)
    · exact .inr ⟨msg, h2, .inl h3⟩
    · exact .inr ⟨msg, h2, .inr ⟨h3, last h4⟩⟩
  induction h with
  | ret a b h =>
    subst h
    intro tr o ht _
    exact .inl ht
  | exit n => intro tr o ht _; exact .inl ht
  | ub u => intro tr o ht _; exact .inl ht
  | stuck => intro tr o ht _; exact .inl ht
  | lstat p k k' _ ih =>
    intro tr o h hs
    cases h with
    | stop => exact .inl (.stop _)
    | lstat _ _ r tr _ h => exact lift (.lstat _ _ _ _ _) (ih r h hs.tail)
  | rename o n k k' _ ih =>
    intro tr o h hs
    cases h with
    | stop => exact .inl (.stop _)
    | rename _ _ _ r tr _ h => exact lift (.rename _ _ _ _ _ _) (ih r h hs.tail)
  | opendir p k k' _ ih =>
    intro tr o h hs
    cases h with
    | stop => exact .inl (.stop _)
    | opendir _ _ r tr _ h => exact lift (.opendir _ _ _ _ _) (ih r h hs.tail)
  | readdir d k k' _ ih =>
    intro tr o h hs
    cases h with
    | stop => exact .inl (.stop _)
    | readdir _ _ r tr _ h => exact lift (.readdir _ _ _ _ _) (ih r h hs.tail)
  | closedir d k k' _ ih =>
    intro tr o h hs
    cases h with
    | stop => exact .inl (.stop _)
    | closedir _ _ tr _ h => exact lift (.closedir _ _ _ _) (ih h hs.tail)
  | slurp p k k' _ ih =>
    intro tr o h hs
    cases h with
    | stop => exact .inl (.stop _)
    | slurp _ _ r tr _ h => exact lift (.slurp _ _ _ _ _) (ih r hs.head h hs.tail)
  | out s k k' _ ih =>
    intro tr o h hs
    cases h with
    | stop => exact .inl (.stop _)
    | out _ _ tr _ h => exact lift (.out _ _ _ _) (ih h hs.tail)
  | err s k k' _ ih =>
    intro tr o h hs
    cases h with
    | stop => exact .inl (.stop _)
    | err _ _ tr _ h => exact lift (.err _ _ _ _) (ih h hs.tail)
  | failed m s msg q h =>
    intro tr o ht _
    exact .inr ⟨msg, h, failed_trace s (msg ++ lit "\n") m ht⟩

theorem SameRun.trace_back {α : Type} {w : YyWorld} (hw : w.Good) {p q : Prog α} (h : SameRun w (fun a b => a = b) p q) :
    ∀ {tr : List Event} {o : Outcome α}, Trace q tr o → FilesShort tr → Trace p tr o := by
  induction h with
  | ret a b h =>
    subst h
    intro tr o ht _
    exact ht
  | exit n => intro tr o ht _; exact ht
  | ub u => intro tr o ht _; exact ht
  | stuck => intro tr o ht _; exact ht
  | lstat p k k' _ ih =>
    intro tr o h hs
    cases h with
    | stop => exact .stop _
    | lstat _ _ r tr _ h => exact .lstat _ _ _ _ _ (ih r h hs.tail)
  | rename o n k k' _ ih =>
    intro tr o h hs
    cases h with
    | stop => exact .stop _
    | rename _ _ _ r tr _ h => exact .rename _ _ _ _ _ _ (ih r h hs.tail)
  | opendir p k k' _ ih =>
    intro tr o h hs
    cases h with
    | stop => exact .stop _
    | opendir _ _ r tr _ h => exact .opendir _ _ _ _ _ (ih r h hs.tail)
  | readdir d k k' _ ih =>
    intro tr o h hs
    cases h with
    | stop => exact .stop _
    | readdir _ _ r tr _ h => exact .readdir _ _ _ _ _ (ih r h hs.tail)
  | closedir d k k' _ ih =>
    intro tr o h hs
    cases h with
    | stop => exact .stop _
    | closedir _ _ tr _ h => exact .closedir _ _ _ _ (ih h hs.tail)
  | slurp p k k' _ ih =>
    intro tr o h hs
    cases h with
    | stop => exact .stop _
    | slurp _ _ r tr _ h => exact .slurp _ _ _ _ _ (ih r hs.head h hs.tail)
  | out s k k' _ ih =>
    intro tr o h hs
    cases h with
    | stop => exact .stop _
    | out _ _ tr _ h => exact .out _ _ _ _ (ih h hs.tail)
  | err s k k' _ ih =>
    intro tr o h hs
    cases h with
    | stop => exact .stop _
    | err _ _ tr _ h => exact .err _ _ _ _ (ih h hs.tail)
  | failed m s msg q h => exact absurd h (hw.not_fails msg)

/-- The first call of `yylex`, when the read fails. -/
theorem first_read (w : YyWorld) (hm : ∀ n, w.memory n = true) (text : Bytes) (hr : w.read 0 = .fail false) (fuel allocs : Nat) (hf : 3 ≤ fuel) :
    ∃ f, yyInit w 1 allocs = .ok (f, allocs + 3) ∧ yylex w fuel f { left := text, allocs := allocs + 3 } = .fatal (lit "input in flex scanner failed") := by
  have hsize : 1 < yyBufSize := by decide
  have hbig : yyBufSize ≤ intMax := by decide
  unfold yyInit
  rw [if_neg (by simp [hm]), if_neg (by simp [hm]), if_neg (by simp [hm])]
  generalize yyBufSize = size at hsize
  refine ⟨{ buf := some 0 :: some 0 :: List.replicate size none, bufSize := size, bufChars := 0, status := .fresh, nChars := 0, cBufP := 0, text := 0, hold := 0, lastState := 0, lastCpos := none, lineno := 1 }, ?_, ?_⟩
  · simp [Flex.setCell, Yy.bind_ok, List.replicate_succ, yyLoadBufferState, Flex.cell, yyGet]
  · obtain ⟨n, rfl⟩ : ∃ n, fuel = n + 3 := ⟨fuel - 3, by omega⟩
    have hB : BufHolds { buf := some 0 :: some 0 :: List.replicate size none, bufSize := size, bufChars := 0, status := .fresh, nChars := 0, cBufP := 0, text := 0, hold := 0, lastState := 3, lastCpos := some 1, lineno := 1 } { left := text, allocs := allocs + 3 } [] [] := by
      refine ⟨?_, by simp, by simp only; omega, rfl, fun _ => ⟨rfl, rfl, rfl⟩, fun h => by cases h⟩
      intro j hj
      simp only [List.nil_append, List.length_cons, List.length_nil] at hj
      rcases j with _ | _ | j
      · rfl
      · rfl
      · omega
    obtain ⟨x, hx⟩ := eob_jump w _ _ [] [] [] hB rfl rfl
    have h1 : ∀ f src, yyGo w (n + 3) .top f src = (yyJump w f src .top).bind fun r => match r with
        | .goto l f src => yyGo w (n + 2) l f src
        | .done t f src => .ok (t, f, src) := fun _ _ => rfl
    have h2 : ∀ l f src, yyGo w (n + 2) l f src = (yyJump w f src l).bind fun r => match r with
        | .goto l f src => yyGo w (n + 1) l f src
        | .done t f src => .ok (t, f, src) := fun _ _ _ => rfl
    have h3 : ∀ l f src, yyGo w (n + 1) l f src = (yyJump w f src l).bind fun r => match r with
        | .goto l f src => yyGo w n l f src
        | .done t f src => .ok (t, f, src) := fun _ _ _ => rfl
    unfold yylex
    rw [h1]
    simp only [yyJump, Flex.setCell]
    rw [if_pos (by simp), Yy.bind_ok, Yy.bind_ok]
    simp only [List.set_cons_zero]
    rw [h2]
    simp only [yyJump, List.drop_zero]
    rw [yyScan_nul used_1, Yy.bind_ok, Yy.bind_ok]
    simp only
    rw [h3]
    have hx' : yyJump w { buf := some 0 :: some 0 :: List.replicate size none, bufSize := size, bufChars := 0, status := .fresh, nChars := 0, cBufP := 0, text := 0, hold := 0, lastState := 3, lastCpos := some 1, lineno := 1 } { left := text, allocs := allocs + 3 } (.find 110 2 0) = .fatal (lit "input in flex scanner failed") := by
      refine hx.trans ?_
      have hi : yyInput w (min (size - 1) yyReadBufSize) { left := text, allocs := allocs + 3 } = .fatal (lit "input in flex scanner failed") :=
        yyInput_failed (Nat.le_min.2 ⟨by omega, by decide⟩) rfl hr
      simp [yyEobAction, yyGetNextBuffer, yyMove, Yy.bind_ok, yyRefill, yyGrow, hsize]
      rw [hi]
      rfl
    exact congrArg (Yy.bind · _) hx'

end Detox
