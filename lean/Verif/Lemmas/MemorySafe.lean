import Verif.Lemmas.MemoryWhole
import Verif.Lemmas.Trace

/-!
# The program when the scanner gets no memory
-/

set_option autoImplicit false

namespace Detox

section

variable {A S : Nat → Bool} {α β : Type}

/-- The program follows no pointer that it should not follow, but for NULL; and where it returns, `Post` holds. -/
def OnlyNull (Post : α → Heap → Prop) (p : Prog (Except Fault (α × Heap))) : Prop :=
  ∀ tr r, Trace p tr (.ret r) →
    match r with
    | .ok (a, h) => Post a h
    | .error e => e = .null

theorem OnlyNull.ret {Post : α → Heap → Prop} {a : α} {h : Heap} (hp : Post a h) : OnlyNull Post (.ret (.ok (a, h))) := by
  intro tr r ht
  cases ht
  exact hp

theorem OnlyNull.mono {P Q : α → Heap → Prop} {p : Prog (Except Fault (α × Heap))} (hp : OnlyNull P p) (h : ∀ a h, P a h → Q a h) : OnlyNull Q p := by
  intro tr r ht
  have := hp tr r ht
  cases r with
  | ok r => exact h _ _ this
  | error e => exact this

theorem OnlyNull.bind {P : α → Heap → Prop} {Q : β → Heap → Prop} {m : Mem α} {f : α → Mem β} {h : Heap} (hm : OnlyNull P (m h))
    (hf : ∀ a h', P a h' → OnlyNull Q (f a h')) : OnlyNull Q ((m >>= f) h) := by
  intro tr r ht
  obtain ⟨x, t1, t2, _, h1, h2⟩ := trace_bind_ret (p := m h) (f := fun r => match r with
    | .ok (a, h') => f a h'
    | .error e => .ret (.error e)) ht
  have := hm _ _ h1
  cases x with
  | ok x => exact hf _ _ this _ _ h2
  | error e => cases h2; exact this

theorem OnlyNull.step {Q : β → Heap → Prop} {m : Mem α} {f : α → Mem β} {h h' : Heap} {a : α} (e : m h = .ret (.ok (a, h')))
    (hf : OnlyNull Q (f a h')) : OnlyNull Q ((m >>= f) h) := by
  rw [Mem.bind_ok e]
  exact hf

theorem Follows.onlyNull {Post : α → Heap → β → Prop} {p : Prog (Except Fault (α × Heap))} {q : Prog β} (hf : Follows A False Post p q) :
    OnlyNull (fun a h => ∃ b, Post a h b) p := by
  intro tr r ht
  rcases hf.trace ht with ⟨o', _, m⟩ | ⟨_, pre, _, ⟨_, h'⟩ | ⟨_, h' | h'⟩ | ⟨h', _⟩⟩
  · cases r with
    | ok r => cases o' with
      | ret b => exact ⟨b, m⟩
      | running => cases m
      | exit n => cases m
      | ub u => cases m
      | stuck => cases m
    | error e => cases o' <;> cases m
  · cases h'
  · cases h'
  · cases h'
  · cases h'

theorem Does.onlyNull {P : α → Heap → Prop} {m : Mem α} {h : Heap} (hd : Does A m h P) : OnlyNull P (m h) :=
  (Follows.ofDoes (N := False) (b := ()) (Q := fun a h _ => P a h) hd fun _ _ hp => hp).onlyNull.mono fun _ _ ⟨_, h⟩ => h

/-! ### The parser -/

/-- A string, or NULL. -/
def OStr (h : Heap) : Type := { p : Option Addr // ∃ d, h.optAt p = some d }

/-- The pointer. -/
def OStr.ptr {h : Heap} (s : OStr h) : Option Addr := s.1

/-- The same string later. -/
def OStr.later {h h' : Heap} (k : KeepsText h h') (s : OStr h) : OStr h' := ⟨s.1, by obtain ⟨d, h1⟩ := s.2; exact ⟨d, k.opt h1⟩⟩

theorem OStr.join {h : Heap} (s : Option (OStr h)) : ∃ d, h.optAt (s.map OStr.ptr).join = some d := by
  cases s with
  | none => exact ⟨none, rfl⟩
  | some s => exact s.2

theorem optAt_new (h : Heap) (n : Nat) (s : Bytes) : Heap.optAt (h ++ [some (.text n s)]) (some h.length) = some (some s) := by
  simp only [Heap.optAt, Heap.textAt_of (Heap.get_new h (.text n s))]; rfl

theorem token_safe (t : Tok) (un : Bool) (h : Heap) :
    OnlyNull (fun y h' => Alters [] h h' ∧ ∃ z : TokOf (OStr h'), y = z.map OStr.ptr) (mToken S t un h) := by
  cases t with
  | kw k => exact .ret ⟨Alters.refl _ _, .kw k, rfl⟩
  | opn => exact .ret ⟨Alters.refl _ _, .opn, rfl⟩
  | cls => exact .ret ⟨Alters.refl _ _, .cls, rfl⟩
  | eol => exact .ret ⟨Alters.refl _ _, .eol, rfl⟩
  | nvalue n => exact .ret ⟨Alters.refl _ _, .nvalue n, rfl⟩
  | ident s =>
    unfold mToken
    simp only
    by_cases hS : S h.length = true
    · refine OnlyNull.step (a := some h.length) (h' := h ++ [some (.text (s.length + 1) s)]) (by unfold mStrdup; rw [if_pos hS]) ?_
      exact .ret ⟨Alters.malloc h _, .str ⟨some h.length, some s, optAt_new h _ s⟩, rfl⟩
    · refine OnlyNull.step (a := none) (h' := h) (by unfold mStrdup; rw [if_neg hS]) ?_
      exact .ret ⟨Alters.refl _ _, .str ⟨none, none, rfl⟩, rfl⟩
  | qstring s =>
    unfold mToken
    simp only
    by_cases hS : S h.length = true
    · generalize hs : (if un = true then s else s ++ [(0x22 : Byte)]) = s'
      refine OnlyNull.step (a := some h.length) (h' := h ++ [some (.text (s'.length + 1) s')]) (by unfold mStrdup; rw [if_pos hS]) ?_
      have g := Heap.get_new h (.text (s'.length + 1) s')
      refine OnlyNull.step (deref_eq h.length _) ?_
      refine OnlyNull.step (Mem.text_eq g) ?_
      cases un with
      | true => exact .ret ⟨Alters.malloc h _, .str ⟨some h.length, some s', optAt_new h _ s'⟩, rfl⟩
      | false =>
        simp only [Bool.false_eq_true, if_false]
        have hl : s'.dropLast.length < s'.length + 1 := by simp; omega
        refine OnlyNull.step (Mem.putText_eq g hl) ?_
        refine .ret ⟨(Alters.malloc h _).trans (Alters.set _ _) fun x hx => ?_, .str ⟨some h.length, some s'.dropLast, ?_⟩, rfl⟩
        · right; cases (List.mem_singleton.1 hx); exact Nat.le_refl _
        · simp only [Heap.optAt, Heap.textAt_of (Heap.get_set_eq (Heap.get_lt g) _)]; rfl
    · refine OnlyNull.step (a := none) (h' := h) (by unfold mStrdup; rw [if_neg hS]) ?_
      intro tr r ht
      cases ht
      rfl

/-- Where the parser is. -/
structure ParsingAny (lo : Nat) (hs : Heap) (c : Addr) (h : Heap) (v : CfVars) : Prop where
  inv : ∃ st, CfSome lo hs c h v st
  phase : ∃ z : PhaseOf (OStr h), v.phase = z.map OStr.ptr
  name : ∃ d, h.optAt v.name = some d

theorem cfAct_safe {lo : Nat} {hs : Heap} {c : Addr} {h : Heap} {v : CfVars} (i : ∃ st, CfSome lo hs c h v st) (hn : ∃ d, h.optAt v.name = some d)
    {file : CString} {f : Bytes} (hf : FileIs h file f) (act : ActOf (OStr h)) : OnlyNull (fun v' h' => KeepsText h h' ∧ (∃ st, CfSome lo hs c h' v' st) ∧
      ∃ d, h'.optAt v'.name = some d) (mCfAct A file v (act.map OStr.ptr) h) := by
  obtain ⟨st, n, qs, fas, la, fa, ps, ws, i⟩ := i
  cases act with
  | none => exact .ret ⟨KeepsText.refl _, ⟨st, n, qs, fas, la, fa, ps, ws, i⟩, hn⟩
  | name s => exact .ret ⟨KeepsText.refl _, ⟨st, n, qs, fas, la, fa, ps, ws, { i with }⟩, s.2⟩
  | filter c b fn ml rt =>
    obtain ⟨d1, o1⟩ := OStr.join b
    obtain ⟨d2, o2⟩ := OStr.join fn
    refine (cfAppendFilter_does i c ml rt o1 o2).onlyNull.mono ?_
    rintro v' h' ⟨h1, h2, fas', i'⟩
    obtain ⟨d, hn⟩ := hn
    exact ⟨h2, ⟨_, n, qs, fas', la, fa, ps, ws, i'⟩, d, by rw [h1]; exact h2.opt hn⟩
  | sequence =>
    obtain ⟨d, hn⟩ := hn
    cases hv : v.name with
    | some nm =>
      rw [hv] at hn
      obtain ⟨m, s, g, rfl⟩ := Heap.optAt_some hn (a := nm) (by simp)
      have i' : CfInv lo hs c h v { st with name := s } n qs fas la fa ps ws := { i with }
      refine (cfAppendSequenceList_does i' hf hv (Heap.textAt_of g)).onlyNull.mono ?_
      rintro v' h' ⟨h1, h2, n', qs', i'⟩
      exact ⟨h2, ⟨_, n', qs', [], la, fa, ps, ws, i'⟩, some s, by rw [h1, hv]; exact h2.opt hn⟩
    | none =>
      change OnlyNull _ (mCfAppendSequenceList A file v h)
      have d : Does A (mCfAppendSequenceList A file v) h fun v' h' => KeepsText h h' ∧ (∃ st, CfSome lo hs c h' v' st) ∧ ∃ d, h'.optAt v'.name = some d := by
        unfold mCfAppendSequenceList
        rw [hv]
        refine Does.bind (strdup_alters h (lit "default")) ?_
        rintro nm h1 ⟨rfl, rfl⟩
        have a1 := Alters.malloc h (.text ((lit "default").length + 1) (lit "default"))
        have o1 := optAt_new h ((lit "default").length + 1) (lit "default")
        have t1 := Heap.textAt_of (Heap.get_new h (.text ((lit "default").length + 1) (lit "default")))
        generalize h ++ [some (Block.text ((lit "default").length + 1) (lit "default"))] = h1 at *
        have i0 := i.alloc a1
        have i1 : CfInv lo hs c h1 { v with name := some h.length } { st with name := lit "default" } n qs fas la fa ps ws := { i0 with }
        have d := cfAppendSequenceList_does (A := A) i1 (hf.keep a1.keepsTextNil) rfl t1
        refine d.mono ?_
        rintro v' h' ⟨h1, h2, n', qs', i'⟩
        exact ⟨a1.keepsTextNil.trans h2, ⟨_, n', qs', [], la, fa, ps, ws, i'⟩, _, by rw [h1]; exact h2.opt o1⟩
      exact d.onlyNull
  | ignore s =>
    obtain ⟨p, d, hp⟩ := s
    cases p with
    | none =>
      intro tr r ht
      cases ht
      rfl
    | some a =>
      obtain ⟨m, w, g, rfl⟩ := Heap.optAt_some hp (a := a) (by simp)
      refine (cfAppendIgnoreEntry_does i (Heap.textAt_of g)).onlyNull.mono ?_
      rintro v' h' ⟨h1, h2, l'', fa', ps', ws', e', i'⟩
      obtain ⟨d, hn⟩ := hn
      exact ⟨h2, ⟨_, n, qs, fas, la, fa', ps', ws', i'⟩, d, by rw [h1]; exact h2.opt hn⟩

theorem yyerror_safe {Post : α → Heap → Prop} {h : Heap} {file : CString} {f : Bytes} (hf : FileIs h file f) (w : Bytes) (n : Nat) :
    OnlyNull Post (mYyerror file w n h) :=
  (yyerror_follows (A := fun _ => true) (N := False) (β := Unit) (Post := fun _ _ _ => False) hf w n).onlyNull.mono fun _ _ ⟨_, h⟩ => h.elim

theorem cfRun_safe {lo : Nat} {hs : Heap} {c : Addr} {file : CString} {f : Bytes} (last : Nat) : ∀ (ls : List Located) {h : Heap} {v : CfVars},
    ParsingAny lo hs c h v → FileIs h file f → OnlyNull (fun v' h' => ∃ st, CfSome lo hs c h' v' st) (mCfRun A S file last ls v h)
  | [], h, v, i, hf => by
    unfold mCfRun
    by_cases ht : v.phase.isTop = true
    · rw [if_pos ht]; exact .ret i.inv
    · rw [if_neg ht]; exact yyerror_safe hf _ _
  | { item := .ub u, text := _, line := _ } :: _, h, v, i, hf => by
    intro tr r ht
    cases ht
  | { item := .tok t un, text := w, line := n } :: rest, h, v, i, hf => by
    have ih := fun {h v} => cfRun_safe (lo := lo) (hs := hs) (c := c) (file := file) (f := f) last rest (h := h) (v := v)
    unfold mCfRun
    refine OnlyNull.bind (token_safe t un h) ?_
    rintro _ h1 ⟨a1, y, rfl⟩
    obtain ⟨z, e1⟩ := i.phase
    have k1 := a1.keepsTextNil
    have hf1 := hf.keep k1
    have i1 : ∃ st, CfSome lo hs c h1 v st := by
      obtain ⟨st, n, qs, fas, la, fa, ps, ws, i⟩ := i.inv
      exact ⟨st, n, qs, fas, la, fa, ps, ws, i.alloc a1⟩
    have n1 : ∃ d, h1.optAt v.name = some d := by obtain ⟨d, hd⟩ := i.name; exact ⟨d, k1.opt hd⟩
    have p1 : v.phase = (z.map (OStr.later k1)).map OStr.ptr := by rw [PhaseOf.map_map, e1]; rfl
    generalize z.map (OStr.later k1) = z1 at *
    have main : OnlyNull (fun v' h' => ∃ st, CfSome lo hs c h' v' st)
        ((match grammarStep v.phase (y.map OStr.ptr) with
          | none => mYyerror file w n
          | some (p, act) => do
            let v' ← mCfAct A file v act
            mCfRun A S file last rest { v' with phase := p }) h1) := by
      rw [p1, grammarStep_map]
      cases eg : grammarStep z1 y with
      | none => exact yyerror_safe hf1 _ _
      | some r =>
        obtain ⟨p, act⟩ := r
        simp only [Option.map_some]
        refine OnlyNull.bind (cfAct_safe i1 n1 hf1 act) ?_
        rintro v' h' ⟨k2, ⟨st, i2⟩, n2⟩
        refine ih ⟨⟨{ st with phase := st.phase }, i2.phase _ _⟩, ⟨p.map (OStr.later k2), ?_⟩, n2⟩ (hf1.keep k2)
        rw [PhaseOf.map_map]; rfl
    cases un with
    | true =>
      intro tr r ht
      cases ht with
      | out _ _ _ _ ht => exact main _ _ ht
    | false => exact main

theorem parseConfigFile_safe {h : Heap} {lo : Nat} (hl : lo ≤ h.length) {file : CString} {f : Bytes} (hf : FileIs h file f)
    {p : Option Addr} {c : Option ConfigFile} (line : Nat) (i : OptConfigIn h lo p c) :
    OnlyNull (fun r h' => ∃ r', ConfigAfter h lo r h' r') (mParseConfigFile A S file (p, line) h) := by
  unfold mParseConfigFile
  refine OnlyNull.step hf.chars ?_
  intro tr rr ht
  cases ht with
  | slurp _ _ r _ _ ht =>
    revert ht
    suffices hh : OnlyNull (fun r h' => ∃ r', ConfigAfter h lo r h' r') ((match r with
        | none => pure (p, line)
        | some text => do
          let ret ← mResults A p
          let q ← mStartSequences p
          let ign ← mStartIgnore A p
          let ls := locateAll text.length line text
          let v ← mCfRun A S file ls.2 ls.1 { sequenceRet := q.1, sequenceCurrent := q.2, ignore := ign }
          Mem.update ret (Block.setSequences v.sequenceRet)
          Mem.update ret (Block.setIgnore v.ignore)
          pure (some ret, ls.2) : Mem (Option Addr × Nat)) h) from fun ht => hh _ _ ht
    cases r with
    | none => exact .ret ⟨(c, line), i, rfl, Below.refl _ _⟩
    | some text =>
      simp only
      refine OnlyNull.bind (results_does (A := A) hl i).onlyNull ?_
      rintro r h1 ⟨a1, lr, s0, i0, g1⟩
      have i1 := i.alloc a1
      obtain ⟨qs, e2, q1, q2⟩ := startSequences_eq i1
      refine OnlyNull.step e2 ?_
      have l1 : lo ≤ h1.length := Nat.le_trans hl a1.grows
      refine OnlyNull.bind (startIgnore_does (A := A) l1 i1).onlyNull ?_
      rintro ig h2 ⟨a2, la, fa, ps, ws, rfl, t1, t2, t3⟩
      have k2 := (a1.trans a2 (by simp)).keepsTextNil
      have start : CfSome lo h r h2 { sequenceRet := qs.head?, sequenceCurrent := qs.getLast?, ignore := some la } (cfStart c) :=
        ⟨h1.length, qs, [], la, fa, ps, ws, {
          low := hl
          below := (a1.trans a2 (by simp)).below hl (by simp)
          cut := a2.grows
          conf := ⟨s0, i0, a2.keep g1⟩
          seqs := q2.mono fun x _ _ _ l => l.keep a2.keepsTextNil a2.keepsFiltersNil (Nat.le_refl _) fun b hb _ => a2.keep hb
          seqNodup := q1
          seqRet := rfl
          seqCur := rfl
          filters := trivial
          filNodup := by simp
          filAbove := by simp
          filRet := rfl
          filCur := rfl
          ignore := rfl
          list := t1
          holds := t2
          listIn := t3 }⟩
      refine OnlyNull.bind (cfRun_safe _ _ ⟨⟨_, start⟩, ⟨.top, rfl⟩, none, rfl⟩ (hf.keep k2)) ?_
      rintro v h3 ⟨st, i3⟩
      obtain ⟨h4, h5, e4, e5, c5, b5⟩ := i3.config lr
      refine OnlyNull.step e4 ?_
      refine OnlyNull.step e5 ?_
      exact .ret ⟨(some _, _), c5, rfl, b5⟩

/-! ### Loading -/

theorem tryConfig_safe {h0 h : Heap} {r : Option Addr × Nat} {r' : Option ConfigFile × Nat} (i : Loading h0 r h r')
    (path : Bytes) : OnlyNull (fun x hx => ∃ y, Loading h0 x hx y) (mTryConfig A S h0.length path r h) := by
  obtain ⟨c, e, ⟨s, g⟩, l, b⟩ := i
  unfold mTryConfig
  refine OnlyNull.step (Mem.putText_eq g (t := path.take (maxPathLen - 1)) ?_) ?_
  · have : (path.take (maxPathLen - 1)).length ≤ maxPathLen - 1 := by simp; omega
    have : 0 < maxPathLen := by decide
    omega
  · have g' : Heap.get (h.set h0.length (some (.text maxPathLen (path.take (maxPathLen - 1))))) h0.length = _ := Heap.get_set_eq (Heap.get_lt g) _
    have c' : OptConfigIn (h.set h0.length (some (.text maxPathLen (path.take (maxPathLen - 1))))) (h0.length + 1) r.1 r'.1 :=
      c.above (fun x hx => Heap.get_set_ne (by omega) _) (by simp)
    have l' : h0.length + 1 ≤ (h.set h0.length (some (.text maxPathLen (path.take (maxPathLen - 1))))).length := by simpa using l
    have b' : Below h0.length h0 (h.set h0.length (some (.text maxPathLen (path.take (maxPathLen - 1))))) :=
      b.trans ((Alters.set _ _).below (by omega) fun x hx => by cases (List.mem_singleton.1 hx); exact Nat.le_refl _)
    generalize h.set h0.length (some (Block.text maxPathLen (path.take (maxPathLen - 1)))) = h1 at *
    obtain ⟨p, n⟩ := r
    obtain ⟨p', n'⟩ := r'
    cases e
    by_cases hp : path.length < maxPathLen
    · rw [if_pos hp]
      have et : path.take (maxPathLen - 1) = path := List.take_of_length_le (by omega)
      rw [et] at g'
      exact (parseConfigFile_safe (file := .heap h0.length) l' (Heap.textAt_of g') n c').mono fun _ _ ⟨y, hc⟩ => ⟨y, Loading.after ⟨⟨_, g'⟩, l', b'⟩ rfl hc⟩
    · rw [if_neg hp]
      exact .ret ⟨(p', n), c', rfl, ⟨_, g'⟩, l', b'⟩

theorem optConfig_safe {h0 h : Heap} {r : Option Addr × Nat} {r' : Option ConfigFile × Nat} (i : Loading h0 r h r')
    (dir : Option Bytes) (name : Bytes) : OnlyNull (fun x hx => ∃ y, Loading h0 x hx y) (mOptConfig A S h0.length dir name r h) := by
  cases dir with
  | none => exact .ret ⟨_, i⟩
  | some d => exact tryConfig_safe i _

theorem elseConfig_safe {h0 h : Heap} {r : Option Addr × Nat} {r' : Option ConfigFile × Nat} (i : Loading h0 r h r')
    (file : Bytes) : OnlyNull (fun x hx => ∃ y, Loading h0 x hx y) (mElseConfig A S file r h) := by
  have i0 := i
  obtain ⟨c, e, rest⟩ := i
  obtain ⟨p, n⟩ := r
  obtain ⟨p', n'⟩ := r'
  cases e
  unfold mElseConfig
  cases p with
  | none => cases p' with
    | none => exact (parseConfigFile_safe (file := .fixed file) rest.2.1 rfl n c).mono fun _ _ ⟨y, hc⟩ => ⟨y, Loading.after rest rfl hc⟩
    | some c' => cases c
  | some a => exact .ret ⟨_, i0⟩

theorem configFileLoad_safe (E : ConfigEnv) {h : Heap} {p : Option Addr} {f : Option Bytes} (hp : h.optAt p = some f) :
    OnlyNull (fun c h' => ∃ cfg, LoadedIn h c h' cfg) (mConfigFileLoad A S E p h) := by
  cases p with
  | some a =>
    obtain ⟨n, s, g, rfl⟩ := Heap.optAt_some hp (a := a) (by simp)
    unfold mConfigFileLoad
    simp only
    refine OnlyNull.step (Mem.text_eq g) ?_
    refine OnlyNull.bind (strdup_alters (A := A) h s).onlyNull ?_
    rintro copy h1 ⟨rfl, rfl⟩
    have a1 := Alters.malloc h (.text (s.length + 1) s)
    have g1 := Heap.get_new h (.text (s.length + 1) s)
    have l1 : h.length + 1 ≤ (h ++ [some (Block.text (s.length + 1) s)]).length := by simp
    generalize h ++ [some (Block.text (s.length + 1) s)] = h1 at *
    refine OnlyNull.bind (parseConfigFile_safe (file := .heap h.length) (p := none) (c := none) l1 (Heap.textAt_of g1) 1 trivial) ?_
    rintro ⟨r, k⟩ h2 ⟨⟨r', k'⟩, c1, c2, c3⟩
    simp only at c1 c2 ⊢
    cases r with
    | none =>
      refine OnlyNull.step (Mem.text_eq (a := h.length) (h := h2) (n := s.length + 1) (s := s) ?_) ?_
      · rw [c3.2 _ (Nat.lt_succ_self _), g1]
      · intro tr r ht
        cases ht with
        | err _ _ _ _ ht => cases ht
    | some c => cases r' with
      | none => cases c1
      | some c' =>
        exact .ret ⟨c', h.length + 1, Nat.le_succ _, c1, (a1.below (Nat.le_refl _) (by simp)).trans ⟨c3.1, fun x hx => c3.2 x (Nat.lt_succ_of_lt hx)⟩⟩
  | none =>
    unfold mConfigFileLoad
    simp only
    refine OnlyNull.bind (P := fun a h' => a = h.length ∧ h' = h ++ [some (Block.text maxPathLen [])]) (Does.malloc (A := A) ⟨rfl, rfl⟩).onlyNull ?_
    rintro _ _ ⟨rfl, rfl⟩
    have i0 : Loading h (none, 1) (h ++ [some (Block.text maxPathLen [])]) (none, 1) :=
      ⟨trivial, rfl, ⟨[], Heap.get_new h _⟩, by simp, (Alters.malloc h _).below (Nat.le_refl _) (by simp)⟩
    generalize h ++ [some (Block.text maxPathLen [])] = h1 at *
    refine OnlyNull.bind (optConfig_safe i0 _ _) fun c1 h2 ⟨c1', i1⟩ => ?_
    refine OnlyNull.bind (elseConfig_safe i1 _) fun c2 h3 ⟨c2', i2⟩ => ?_
    refine OnlyNull.bind (elseConfig_safe i2 _) fun c3 h4 ⟨c3', i3⟩ => ?_
    refine OnlyNull.bind (optConfig_safe i3 _ _) fun c4 h5 ⟨c4', i4⟩ => ?_
    refine OnlyNull.bind (optConfig_safe i4 _ _) fun c5 h6 ⟨c5', i5⟩ => ?_
    obtain ⟨j1, j2, ⟨s, g⟩, j4, j5⟩ := i5
    have spoof : OnlyNull (fun c h' => ∃ cfg, ConfigIn h' (h.length + 1) c cfg ∧ Below (h.length + 1) h6 h') (mElseSpoof A c5.1 h6) := by
      obtain ⟨p, k⟩ := c5
      obtain ⟨p', k'⟩ := c5'
      cases p with
      | none => exact (spoofConfigFile_follows (A := A) j4).onlyNull
      | some c => cases p' with
        | none => cases j1
        | some c' => exact .ret ⟨c', j1, Below.refl _ _⟩
    refine OnlyNull.bind spoof ?_
    rintro c h7 ⟨cfg, k1, k2⟩
    have g7 : h7.get h.length = some (.text maxPathLen s) := by rw [k2.2 _ (Nat.lt_succ_self _), g]
    refine OnlyNull.step (Mem.free_eq g7) ?_
    have k3 : OptConfigIn (h7.set h.length none) (h.length + 1) (some c) (some cfg) :=
      OptConfigIn.above (h := h7) (fun x hx => Heap.get_set_ne (by omega) _) (by simp) k1
    refine .ret ⟨cfg, h.length + 1, Nat.le_succ _, k3, (j5.trans ⟨k2.1, fun x hx => k2.2 x (Nat.lt_succ_of_lt hx)⟩).trans ?_⟩
    have : h.length ≤ h7.length := by have := Heap.get_lt g7; omega
    exact (Alters.set _ _).below this fun x hx => by cases (List.mem_singleton.1 hx); exact Nat.le_refl _

/-- Whatever the scanner gets, the program follows no pointer but NULL that it should not follow. -/
theorem detoxMain_safe (P : Platform) (I : Invocation) (fuel : Nat) (h : Heap) : OnlyNull (fun _ _ => True) (mDetoxMain A S P I fuel h) := by
  refine OnlyNull.bind (parseOptions_follows (A := A) I.program I.args I.sequence I.posixlyCorrect h).onlyNull ?_
  rintro m h1 ⟨o, l⟩
  rw [mDetoxConfigured_split]
  have l' := l
  obtain ⟨d, s, fl, bf, rfl, h2, _⟩ := l'
  refine OnlyNull.bind (configFileLoad_safe I.config h2) ?_
  rintro c h3 ⟨cfg, lc⟩
  exact (afterLoading_follows (A := A) P I fuel l lc).onlyNull.mono fun _ _ _ => trivial

end

end Detox
