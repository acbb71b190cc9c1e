import Verif.Lemmas.MemoryConfig

/-!
# The config file parser with pointers
-/

set_option autoImplicit false

namespace Detox

section

variable {A S : Nat → Bool} {N : Prop}

/-- A pointer to a string, and the string. -/
def Str (h : Heap) : Type := { x : Option Addr × Bytes // ∃ a, x.1 = some a ∧ h.textAt a = some x.2 }

/-- The pointer. -/
def Str.ptr {h : Heap} (s : Str h) : Option Addr := s.1.1

/-- The string. -/
def Str.chars {h : Heap} (s : Str h) : Bytes := s.1.2

/-- The same string later. -/
def Str.later {h h' : Heap} (k : KeepsText h h') (s : Str h) : Str h' := ⟨s.1, by obtain ⟨a, h1, h2⟩ := s.2; exact ⟨a, h1, k _ _ h2⟩⟩

theorem Str.optAt {h : Heap} (s : Str h) : h.optAt s.ptr = some (some s.chars) := by
  obtain ⟨⟨p, w⟩, a, h1, h2⟩ := s
  simp only at h1 h2
  subst h1
  simp only [Str.ptr, Str.chars, Heap.optAt, h2]
  rfl

theorem Str.optAt_join {h : Heap} (s : Option (Str h)) : h.optAt (s.map Str.ptr).join = some (s.map Str.chars) := by
  cases s with
  | none => rfl
  | some s => exact s.optAt

/-- Some blocks for `CfInv`. -/
def CfSome (lo : Nat) (hs : Heap) (c : Addr) (h : Heap) (v : CfVars) (st : CState) : Prop :=
  ∃ n qs fas la fa ps ws, CfInv lo hs c h v st n qs fas la fa ps ws

theorem CfSome.phase {lo : Nat} {hs : Heap} {c : Addr} {h : Heap} {v : CfVars} {st : CState} (i : CfSome lo hs c h v st) (p : PhaseOf (Option Addr))
    (q : Phase) : CfSome lo hs c h { v with phase := p } { st with phase := q } := by
  obtain ⟨n, qs, fas, la, fa, ps, ws, i⟩ := i
  exact ⟨n, qs, fas, la, fa, ps, ws, { i with }⟩

/-- What an action does with the name. -/
def NameAfter {h : Heap} (v : CfVars) (st : CState) (v' : CfVars) (st' : CState) : ActOf (Str h) → Prop
  | .name s => v'.name = s.ptr ∧ st'.name = s.chars
  | _ => v'.name = v.name ∧ st'.name = st.name

theorem cfAct_does {lo : Nat} {hs : Heap} {c : Addr} {h : Heap} {v : CfVars} {st : CState} (i : CfSome lo hs c h v st) {file : CString} {f : Bytes}
    (hf : FileIs h file f) (act : ActOf (Str h)) (named : act = .sequence → ∃ nm, v.name = some nm ∧ h.textAt nm = some st.name) :
    ∃ st', cfAct f st (act.map Str.chars) = .ok st' ∧ Does A (mCfAct A file v (act.map Str.ptr)) h fun v' h' =>
      KeepsText h h' ∧ CfSome lo hs c h' v' st' ∧ NameAfter v st v' st' act := by
  obtain ⟨n, qs, fas, la, fa, ps, ws, i⟩ := i
  cases act with
  | none => exact ⟨st, rfl, Does.ret rfl ⟨KeepsText.refl _, ⟨n, qs, fas, la, fa, ps, ws, i⟩, rfl, rfl⟩⟩
  | name s => exact ⟨_, rfl, Does.ret rfl ⟨KeepsText.refl _, ⟨n, qs, fas, la, fa, ps, ws, { i with }⟩, rfl, rfl⟩⟩
  | filter c b fn ml rt =>
    refine ⟨_, rfl, (cfAppendFilter_does i c ml rt (Str.optAt_join b) (Str.optAt_join fn)).mono ?_⟩
    rintro v' h' ⟨h1, h2, fas', i'⟩
    exact ⟨h2, ⟨n, qs, fas', la, fa, ps, ws, i'⟩, h1, rfl⟩
  | sequence =>
    obtain ⟨nm, h1, h2⟩ := named rfl
    refine ⟨_, rfl, (cfAppendSequenceList_does i hf h1 h2).mono ?_⟩
    rintro v' h' ⟨h1, h2, n', qs', i'⟩
    exact ⟨h2, ⟨n', qs', [], la, fa, ps, ws, i'⟩, h1, rfl⟩
  | ignore s =>
    obtain ⟨⟨p, w⟩, a, h1, h2⟩ := s
    simp only at h1 h2
    subst h1
    obtain ⟨l', e, _⟩ := filelistPut_holds i.holds w
    refine ⟨{ st with ignore := l' }, ?_, (cfAppendIgnoreEntry_does i h2).mono ?_⟩
    · simp only [ActOf.map, Str.chars, cfAct]
      rw [e]; rfl
    · rintro v' h' ⟨h1, h2, l'', fa', ps', ws', e', i'⟩
      rw [e] at e'
      cases e'
      exact ⟨h2, ⟨n, qs, fas, la, fa', ps', ws', i'⟩, h1, rfl⟩

theorem mStrdup_eq (hS : ∀ n, S n = true) (s : Bytes) (h : Heap) :
    mStrdup S s h = .ret (.ok (some h.length, h ++ [some (.text (s.length + 1) s)])) := by
  unfold mStrdup
  rw [if_pos (hS _)]

theorem token_does (hS : ∀ n, S n = true) (t : Tok) (un : Bool) (h : Heap) : ∃ (h' : Heap) (z : TokOf (Str h')),
    mToken S t un h = .ret (.ok (z.map Str.ptr, h')) ∧ z.map Str.chars = t.of ∧ Alters [] h h' := by
  cases t with
  | kw k => exact ⟨h, .kw k, rfl, rfl, Alters.refl _ _⟩
  | opn => exact ⟨h, .opn, rfl, rfl, Alters.refl _ _⟩
  | cls => exact ⟨h, .cls, rfl, rfl, Alters.refl _ _⟩
  | eol => exact ⟨h, .eol, rfl, rfl, Alters.refl _ _⟩
  | nvalue n => exact ⟨h, .nvalue n, rfl, rfl, Alters.refl _ _⟩
  | ident s =>
    refine ⟨_, .str ⟨(some h.length, s), h.length, rfl, Heap.textAt_of (Heap.get_new h (.text (s.length + 1) s))⟩, ?_, rfl, Alters.malloc h _⟩
    unfold mToken
    simp only
    rw [Mem.bind_ok (mStrdup_eq hS s h)]
    rfl
  | qstring s =>
    cases un with
    | true =>
      refine ⟨_, .str ⟨(some h.length, s), h.length, rfl, Heap.textAt_of (Heap.get_new h (.text (s.length + 1) s))⟩, ?_, rfl, Alters.malloc h _⟩
      unfold mToken
      simp only [if_true]
      rw [Mem.bind_ok (mStrdup_eq hS s h), Mem.bind_ok (deref_eq h.length _), Mem.bind_ok (Mem.text_eq (Heap.get_new h (.text (s.length + 1) s)))]
      rfl
    | false =>
      have g := Heap.get_new h (.text ((s ++ [(0x22 : Byte)]).length + 1) (s ++ [(0x22 : Byte)]))
      refine ⟨(h ++ [some (Block.text ((s ++ [(0x22 : Byte)]).length + 1) (s ++ [(0x22 : Byte)]))]).set h.length (some (Block.text ((s ++ [(0x22 : Byte)]).length + 1) s)),
        .str ⟨(some h.length, s), h.length, rfl, Heap.textAt_of (Heap.get_set_eq (Heap.get_lt g) _)⟩, ?_, rfl,
        (Alters.malloc h _).trans (Alters.set _ _) fun x hx => ?_⟩
      · unfold mToken
        simp only [Bool.false_eq_true, if_false]
        rw [Mem.bind_ok (mStrdup_eq hS _ h), Mem.bind_ok (deref_eq h.length _), Mem.bind_ok (Mem.text_eq g)]
        have e : (s ++ [(0x22 : Byte)]).dropLast = s := by simp
        rw [Mem.bind_ok (Mem.putText_eq g (by rw [e]; simp; omega)), e]
        rfl
      · right; cases (List.mem_singleton.1 hx); exact Nat.le_refl _

/-- Where the parser is. -/
structure Parsing (lo : Nat) (hs : Heap) (c : Addr) (h : Heap) (v : CfVars) (st : CState) : Prop where
  inv : CfSome lo hs c h v st
  phase : ∃ z : PhaseOf (Str h), v.phase = z.map Str.ptr ∧ st.phase.of = z.map Str.chars ∧
    (z.inSeq = true → ∃ nm, v.name = some nm ∧ h.textAt nm = some st.name)

theorem yyerror_follows {α β : Type} {Post : α → Heap → β → Prop} {h : Heap} {file : CString} {f : Bytes} (hf : FileIs h file f) (w : Bytes) (n : Nat) :
    Follows A N Post (mYyerror file w n h) (.err (yyerrorText f w n) (.exit 1)) := by
  unfold mYyerror
  refine Follows.step hf.chars ?_
  exact Follows.err' (.exit 1)

theorem PhaseOf.inSeq_map {σ τ : Type} (f : σ → τ) (p : PhaseOf σ) : (p.map f).inSeq = p.inSeq := by cases p <;> rfl

theorem cfRun_follows (hS : ∀ n, S n = true) {lo : Nat} {hs : Heap} {c : Addr} {file : CString} {f : Bytes} (last : Nat) :
    ∀ (ls : List Located) {h : Heap} {v : CfVars} {st : CState}, Parsing lo hs c h v st → FileIs h file f →
      Follows A N (fun v' h' st' => CfSome lo hs c h' v' st') (mCfRun A S file last ls v h) (cfProg f last ls st)
  | [], h, v, st, i, hf => by
    obtain ⟨z, e1, e2, _⟩ := i.phase
    have e3 : v.phase.isTop = decide (st.phase = .top) := by
      rw [e1, PhaseOf.isTop_map, ← PhaseOf.isTop_map Str.chars, ← e2, Phase.isTop_of]
    unfold mCfRun cfProg
    rw [e3]
    by_cases ht : st.phase = .top
    · simp only [ht, decide_true, if_true]
      exact .ret _ _ _ i.inv
    · simp only [ht, decide_false, if_false, Bool.false_eq_true]
      exact yyerror_follows hf _ _
  | { item := .ub u, text := _, line := _ } :: _, h, v, st, i, hf => .ub u
  | { item := .tok t un, text := w, line := n } :: rest, h, v, st, i, hf => by
    have ih := fun {h v st} => cfRun_follows hS (lo := lo) (hs := hs) (c := c) (file := file) (f := f) last rest (h := h) (v := v) (st := st)
    obtain ⟨h1, y, ey, et, a1⟩ := token_does hS t un h
    obtain ⟨z, e1, e2, e3⟩ := i.phase
    have k1 := a1.keepsTextNil
    have hf1 := hf.keep k1
    have i1 : CfSome lo hs c h1 v st := by
      obtain ⟨n, qs, fas, la, fa, ps, ws, i⟩ := i.inv
      exact ⟨n, qs, fas, la, fa, ps, ws, i.alloc a1⟩
    have p1 : v.phase = (z.map (Str.later k1)).map Str.ptr := by rw [PhaseOf.map_map, e1]; rfl
    have p2 : st.phase.of = (z.map (Str.later k1)).map Str.chars := by rw [PhaseOf.map_map, e2]; rfl
    have p3 : (z.map (Str.later k1)).inSeq = true → ∃ nm, v.name = some nm ∧ h1.textAt nm = some st.name := fun hq => by
      rw [PhaseOf.inSeq_map] at hq
      obtain ⟨nm, h2, h3⟩ := e3 hq
      exact ⟨nm, h2, k1 _ _ h3⟩
    generalize z.map (Str.later k1) = z1 at *
    have main : Follows A N (fun v' h' st' => CfSome lo hs c h' v' st')
        ((match grammarStep v.phase (y.map Str.ptr) with
          | none => mYyerror file w n
          | some (p, act) => do
            let v' ← mCfAct A file v act
            mCfRun A S file last rest { v' with phase := p }) h1)
        (match cfStep f st t with
          | .ok st' => cfProg f last rest st'
          | .exit c => .err (yyerrorText f w n) (.exit c)
          | .ub u => .ub u
          | .stuck => .stuck) := by
      rw [cfStep_grammar, p1, p2, ← et, grammarStep_map, grammarStep_map]
      cases eg : grammarStep z1 y with
      | none => exact yyerror_follows hf1 _ _
      | some r =>
        obtain ⟨p, act⟩ := r
        obtain ⟨g1, g2⟩ := grammarStep_inSeq eg
        obtain ⟨st', es, hd⟩ := cfAct_does (A := A) i1 hf1 act fun ha => p3 (g2 ha)
        simp only [Option.map_some, es]
        refine Follows.does hd ?_
        rintro v' h' ⟨k2, i2, na⟩
        refine ih ⟨i2.phase _ _, p.map (Str.later k2), ?_, ?_, ?_⟩ (hf1.keep k2)
        · rw [PhaseOf.map_map]; rfl
        · rw [PhaseOf.map_map]
          simp only [PhaseOf.of_phase]
          rfl
        · intro hq
          rw [PhaseOf.inSeq_map] at hq
          rcases g1 with ⟨s, rfl⟩ | g1
          · obtain ⟨n1, n2⟩ := na
            obtain ⟨⟨q, u⟩, a, q1, q2⟩ := s
            simp only [Str.ptr, Str.chars] at n1 n2 q1 q2
            refine ⟨a, ?_, ?_⟩
            · show v'.name = some a
              rw [n1, q1]
            · show h'.textAt a = some st'.name
              rw [n2]; exact k2 _ _ q2
          · obtain ⟨nm, n1, n2⟩ := p3 (g1 hq)
            cases act with
            | name s =>
              obtain ⟨n1, n2⟩ := na
              obtain ⟨⟨q, u⟩, a, q1, q2⟩ := s
              simp only [Str.ptr, Str.chars] at n1 n2 q1 q2
              refine ⟨a, ?_, ?_⟩
              · show v'.name = some a
                rw [n1, q1]
              · show h'.textAt a = some st'.name
                rw [n2]; exact k2 _ _ q2
            | _ =>
              refine ⟨nm, ?_, ?_⟩
              · show v'.name = some nm
                rw [na.1, n1]
              · show h'.textAt nm = some st'.name
                rw [na.2]; exact k2 _ _ n2
    unfold mCfRun cfProg
    refine Follows.step ey ?_
    cases un with
    | true => exact Follows.out' main
    | false => exact main

/-! ### parse_config_file -/

/-- A configuration above `lo`. -/
def ConfigIn (h : Heap) (lo : Nat) (c : Addr) (cfg : ConfigFile) : Prop :=
  lo ≤ c ∧ ∃ qs la fa ps ws l, h.get c = some (.config qs.head? (some la)) ∧ qs.Nodup ∧ Links (SeqIn h lo h.length) qs cfg.sequences none ∧
    cfg.filesToIgnore = some l ∧ ListAt h la fa ps ws 0 ∧ l.Holds ws 0 ∧ ∀ x, x ∈ listBlocks la fa ps → lo ≤ x

/-- A configuration, or none. -/
def OptConfigIn (h : Heap) (lo : Nat) (p : Option Addr) (c : Option ConfigFile) : Prop :=
  match p, c with
  | none, none => True
  | some a, some c => ConfigIn h lo a c
  | _, _ => False

theorem ConfigIn.alloc {h h' : Heap} {lo : Nat} {c : Addr} {cfg : ConfigFile} (i : ConfigIn h lo c cfg) (a : Alters [] h h') : ConfigIn h' lo c cfg := by
  obtain ⟨h1, qs, la, fa, ps, ws, l, h2, h3, h4, h5, h6, h7, h8⟩ := i
  refine ⟨h1, qs, la, fa, ps, ws, l, a.keep h2, h3, ?_, h5, a.list h6 (by simp), h7, h8⟩
  exact h4.mono fun x _ _ _ l => l.keep a.keepsTextNil a.keepsFiltersNil a.grows fun b hb _ => a.keep hb

theorem loadConfig_eq {h : Heap} {a : Addr} {s i : Option Addr} (e : h.get a = some (.config s i)) : Mem.loadConfig a h = .ret (.ok ((s, i), h)) := by
  have : (Mem.load a >>= fun b => match b with
      | .config sequences ignore => Mem.pure (sequences, ignore)
      | _ => Mem.fault .pointer) h = .ret (.ok ((s, i), h)) := by rw [Mem.bind_ok (Mem.load_eq e)]; rfl
  exact this

theorem lastSequence_eq {h : Heap} {lo n : Nat} : ∀ {k : Nat} {q : Addr} {qs : List Addr} {ss : List Sequence}, (q :: qs).length ≤ k →
    Links (SeqIn h lo n) (q :: qs) ss none → ∃ l, (q :: qs).getLast? = some l ∧ mLastSequence k q h = .ret (.ok (l, h))
  | 0, _, _, _, hk, _ => by cases hk
  | _ + 1, _, _, [], _, l => by cases l
  | k + 1, q, qs, s :: ss, hk, ⟨⟨_, nm, src, fas, g, _⟩, l⟩ => by
    rw [Option.or_none] at g
    unfold mLastSequence
    rw [Mem.bind_ok (loadSequence_eq g)]
    cases qs with
    | nil => exact ⟨q, rfl, rfl⟩
    | cons x qs =>
      obtain ⟨y, h1, h2⟩ := lastSequence_eq (k := k) (by simpa using hk) l
      exact ⟨y, by rw [List.getLast?_cons_cons, h1], h2⟩

theorem startSequences_eq {h : Heap} {lo : Nat} {p : Option Addr} {c : Option ConfigFile} (i : OptConfigIn h lo p c) :
    ∃ qs, mStartSequences p h = .ret (.ok ((qs.head?, qs.getLast?), h)) ∧ qs.Nodup ∧ Links (SeqIn h lo h.length) qs (cfStart c).sequences none := by
  cases p with
  | none => cases c with
    | none => exact ⟨[], rfl, by simp, trivial⟩
    | some c => cases i
  | some a => cases c with
    | none => cases i
    | some c =>
      obtain ⟨h1, qs, la, fa, ps, ws, l, h2, h3, h4, h5, h6, h7, h8⟩ := i
      refine ⟨qs, ?_, h3, h4⟩
      unfold mStartSequences
      simp only
      rw [Mem.bind_ok (loadConfig_eq h2)]
      cases qs with
      | nil => rfl
      | cons q qs =>
        have hl : ∀ x, x ∈ q :: qs → x < h.length := fun x hx => by
          obtain ⟨_, _, l⟩ := h4.mem x hx
          obtain ⟨b, hb, _⟩ := l.isSequence
          exact Heap.get_lt hb
        obtain ⟨y, e1, e2⟩ := lastSequence_eq (length_le_of_nodup_lt _ _ h3 hl) h4
        simp only [List.head?_cons]
        rw [Mem.bind_ok (a := h.length) (h' := h) rfl]
        rw [Mem.bind_ok e2, e1]
        rfl

theorem newIgnore_does {h : Heap} {lo : Nat} (hl : lo ≤ h.length) : Does A (mNewIgnore A) h fun ig h' => Alters [] h h' ∧ ∃ la fa,
    ig = some la ∧ ListAt h' la fa [] [] 0 ∧ ∀ x, x ∈ listBlocks la fa [] → lo ≤ x := by
  unfold mNewIgnore
  refine Does.bind (filelistInit_does A h) ?_
  rintro la h1 ⟨fa, l1, s1⟩
  refine Does.ret rfl ⟨s1.alters, la, fa, rfl, l1, fun x hx => ?_⟩
  rcases s1.source x hx with h2 | h2
  · cases h2
  · omega

theorem startIgnore_does {h : Heap} {lo : Nat} (hl : lo ≤ h.length) {p : Option Addr} {c : Option ConfigFile} (i : OptConfigIn h lo p c) :
    Does A (mStartIgnore A p) h fun ig h' => Alters [] h h' ∧ ∃ la fa ps ws, ig = some la ∧ ListAt h' la fa ps ws 0 ∧
      (cfStart c).ignore.Holds ws 0 ∧ ∀ x, x ∈ listBlocks la fa ps → lo ≤ x := by
  cases p with
  | none => cases c with
    | none =>
      refine (newIgnore_does hl).mono ?_
      rintro ig h' ⟨a, la, fa, e, l, hx⟩
      exact ⟨a, la, fa, [], [], e, l, filelistInit_holds, hx⟩
    | some c => cases i
  | some a => cases c with
    | none => cases i
    | some c =>
      obtain ⟨h1, qs, la, fa, ps, ws, l, h2, h3, h4, h5, h6, h7, h8⟩ := i
      have e : (cfStart (some c)).ignore = if l.count > 0 then l else filelistInit := by
        simp only [cfStart, Option.getD_some, startIgnore, h5]
      unfold mStartIgnore
      simp only
      refine Does.step (loadConfig_eq h2) ?_
      refine Does.step (filelistCount_eq h6) ?_
      have hc : l.count = ws.length := h7.1
      rw [e, hc]
      by_cases hk : ws.length > 0
      · rw [if_pos hk, if_pos hk]
        exact Does.ret rfl ⟨Alters.refl _ _, la, fa, ps, ws, rfl, h6, h7, h8⟩
      · rw [if_neg hk, if_neg hk]
        refine (newIgnore_does hl).mono ?_
        rintro ig h' ⟨a, la, fa, e, l, hx⟩
        exact ⟨a, la, fa, [], [], e, l, filelistInit_holds, hx⟩

/-- The results after a file. -/
def ConfigAfter (hs : Heap) (lo : Nat) (r : Option Addr × Nat) (h' : Heap) (r' : Option ConfigFile × Nat) : Prop :=
  OptConfigIn h' lo r.1 r'.1 ∧ r.2 = r'.2 ∧ Below lo hs h'

theorem CfSome.config {lo : Nat} {hs h : Heap} {c : Addr} {v : CfVars} {st : CState} (i : CfSome lo hs c h v st) (hc : lo ≤ c) :
    ∃ h1 h2, Mem.update c (Block.setSequences v.sequenceRet) h = .ret (.ok ((), h1)) ∧ Mem.update c (Block.setIgnore v.ignore) h1 = .ret (.ok ((), h2)) ∧
      ConfigIn h2 lo c { sequences := st.sequences, filesToIgnore := some st.ignore } ∧ Below lo hs h2 := by
  obtain ⟨n, qs, fas, la, fa, ps, ws, i⟩ := i
  obtain ⟨s, ig, g⟩ := i.conf
  have g1 : Heap.get (h.set c (some (.config v.sequenceRet ig))) c = _ := Heap.get_set_eq (Heap.get_lt g) _
  refine ⟨_, _, Mem.update_eq g rfl, Mem.update_eq g1 rfl, ?_⟩
  have a : Alters [c] h ((h.set c (some (.config v.sequenceRet ig))).set c (some (.config v.sequenceRet v.ignore))) :=
    (Alters.set _ _).trans (Alters.set _ _) fun x hx => .inl hx
  have g2 : Heap.get ((h.set c (some (.config v.sequenceRet ig))).set c (some (.config v.sequenceRet v.ignore))) c = _ := Heap.get_set_eq (Heap.get_lt g1) _
  generalize (h.set c (some (Block.config v.sequenceRet ig))).set c (some (Block.config v.sequenceRet v.ignore)) = h2 at *
  have ne : ∀ x b, h.get x = some b → (∀ s i, b ≠ .config s i) → x ∉ [c] := fun x b e hb hx => by
    cases (List.mem_singleton.1 hx); rw [g] at e; cases e; exact hb _ _ rfl
  have kt : KeepsText h h2 := a.keepsText fun x hx b e => by
    cases (List.mem_singleton.1 hx); rw [g] at e; cases e; rfl
  have kf : ∀ m, KeepsFilters m h h2 := fun m => a.keepsFilters fun x hx b e hf => by
    cases (List.mem_singleton.1 hx); rw [g] at e; cases e; cases hf
  refine ⟨⟨hc, qs, la, fa, ps, ws, st.ignore, ?_, i.seqNodup, ?_, rfl, ?_, i.holds, i.listIn⟩, ?_⟩
  · rw [g2, i.seqRet, i.ignore]
  · exact i.seqs.mono fun x _ _ _ l => l.keep kt (kf n) (Nat.le_trans i.cut a.grows) fun b hb hs =>
      a.get hb (ne _ _ hb fun s i e => by rw [e] at hs; cases hs)
  · refine a.list i.list fun x hx => ?_
    obtain ⟨⟨k, t1, t2⟩, t3, _, _⟩ := i.list
    simp only [listBlocks, List.mem_cons] at hx
    rcases hx with rfl | rfl | hx
    · exact ne _ _ t1 (by simp)
    · exact ne _ _ t2 (by simp)
    · obtain ⟨_, _, t4⟩ := t3.mem hx; exact ne _ _ t4 (by simp)
  · exact i.below.trans (a.below i.lowNow fun x hx => by cases (List.mem_singleton.1 hx); exact hc)

theorem results_does {h : Heap} {lo : Nat} (hl : lo ≤ h.length) {p : Option Addr} {c : Option ConfigFile} (i : OptConfigIn h lo p c) :
    Does A (mResults A p) h fun r h' => Alters [] h h' ∧ lo ≤ r ∧ ∃ s i, h'.get r = some (.config s i) := by
  cases p with
  | none => exact Does.malloc ⟨Alters.malloc h _, hl, none, none, Heap.get_new h _⟩
  | some a => cases c with
    | none => cases i
    | some c =>
      obtain ⟨h1, qs, la, fa, ps, ws, l, h2, _⟩ := i
      exact Does.ret rfl ⟨Alters.refl _ _, h1, _, _, h2⟩

theorem OptConfigIn.alloc {h h' : Heap} {lo : Nat} {p : Option Addr} {c : Option ConfigFile} (i : OptConfigIn h lo p c) (a : Alters [] h h') :
    OptConfigIn h' lo p c := by
  cases p with
  | none => cases c with
    | none => trivial
    | some c => cases i
  | some x => cases c with
    | none => cases i
    | some c => exact ConfigIn.alloc i a

theorem parseConfigFile_follows (hS : ∀ n, S n = true) {h : Heap} {lo : Nat} (hl : lo ≤ h.length) {file : CString} {f : Bytes} (hf : FileIs h file f)
    {p : Option Addr} {c : Option ConfigFile} (line : Nat) (i : OptConfigIn h lo p c) :
    Follows A N (ConfigAfter h lo) (mParseConfigFile A S file (p, line) h) (parseConfigFile f (c, line)) := by
  rw [parseConfigFile_prog]
  unfold mParseConfigFile
  refine Follows.step hf.chars ?_
  refine Follows.slurp' fun r => ?_
  cases r with
  | none => exact .ret _ _ _ ⟨i, rfl, Below.refl _ _⟩
  | some text =>
    simp only
    refine Follows.does (results_does hl i) ?_
    rintro r h1 ⟨a1, lr, s0, i0, g1⟩
    have i1 := i.alloc a1
    obtain ⟨qs, e2, q1, q2⟩ := startSequences_eq i1
    refine Follows.step e2 ?_
    have l1 : lo ≤ h1.length := Nat.le_trans hl a1.grows
    refine Follows.does (startIgnore_does l1 i1) ?_
    rintro ig h2 ⟨a2, la, fa, ps, ws, rfl, t1, t2, t3⟩
    have k2 := (a1.trans a2 (by simp)).keepsTextNil
    have start : CfSome lo h r h2 { sequenceRet := qs.head?, sequenceCurrent := qs.getLast?, ignore := some la } (cfStart c) :=
      ⟨h1.length, qs, [], la, fa, ps, ws, {
        low := hl
        below := (a1.trans a2 (by simp)).below hl (by simp)
        cut := a2.grows
        conf := ⟨s0, i0, a2.keep g1⟩
        seqs := q2.mono fun x _ _ _ l => l.keep a2.keepsTextNil a2.keepsFiltersNil (Nat.le_refl _) fun b hb _ => a2.keep hb
        seqNodup := q1
        seqRet := rfl
        seqCur := rfl
        filters := trivial
        filNodup := by simp
        filAbove := by simp
        filRet := rfl
        filCur := rfl
        ignore := rfl
        list := t1
        holds := t2
        listIn := t3 }⟩
    refine Follows.bind (cfRun_follows hS _ _ ⟨start, .top, rfl, rfl, fun h => by cases h⟩ (hf.keep k2)) ?_
    intro v h3 st i3
    obtain ⟨h4, h5, e4, e5, c5, b5⟩ := i3.config lr
    refine Follows.step e4 ?_
    refine Follows.step e5 ?_
    exact .ret _ _ _ ⟨c5, rfl, b5⟩

end

end Detox
