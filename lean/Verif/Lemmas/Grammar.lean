import Verif.Model.MemoryConfig
import Verif.Lemmas.ConfigErrors

/-!
# The grammar for any kind of string
-/

set_option autoImplicit false

namespace Detox

section

variable {σ τ υ : Type}

/-- Other strings. -/
def TokOf.map (f : σ → τ) : TokOf σ → TokOf τ
  | .kw k => .kw k
  | .opn => .opn
  | .cls => .cls
  | .eol => .eol
  | .nvalue n => .nvalue n
  | .str s => .str (f s)

/-- Other strings. -/
def PhaseOf.map (f : σ → τ) : PhaseOf σ → PhaseOf τ
  | .top => .top
  | .seqKw => .seqKw
  | .seqName s => .seqName (f s)
  | .seqOpen => .seqOpen
  | .seqList => .seqList
  | .seqClose => .seqClose
  | .plain c => .plain c
  | .tab m => .tab m
  | .tabOpen m => .tabOpen m
  | .tabOpt m b => .tabOpt m b
  | .tabStr m b s => .tabStr m b (f s)
  | .tabEol m b s => .tabEol m b (f s)
  | .wipe => .wipe
  | .wipeOpen => .wipeOpen
  | .wipeOpt => .wipeOpt
  | .wipeEol => .wipeEol
  | .maxl => .maxl
  | .maxlOpen => .maxlOpen
  | .maxlOpt => .maxlOpt
  | .maxlVal n => .maxlVal n
  | .maxlEol n => .maxlEol n
  | .methodEnd => .methodEnd
  | .ignKw => .ignKw
  | .ignOpen => .ignOpen
  | .ignList => .ignList
  | .ignFile => .ignFile
  | .ignStr s => .ignStr (f s)
  | .ignClose => .ignClose

/-- Other strings. -/
def ActOf.map (f : σ → τ) : ActOf σ → ActOf τ
  | .none => .none
  | .name s => .name (f s)
  | .filter c b fn ml rt => .filter c (b.map f) (fn.map f) ml rt
  | .sequence => .sequence
  | .ignore s => .ignore (f s)

theorem TokOf.map_map (f : σ → τ) (g : τ → υ) (t : TokOf σ) : (t.map f).map g = t.map (g ∘ f) := by cases t <;> rfl

theorem PhaseOf.map_map (f : σ → τ) (g : τ → υ) (p : PhaseOf σ) : (p.map f).map g = p.map (g ∘ f) := by cases p <;> rfl

theorem PhaseOf.isTop_map (f : σ → τ) (p : PhaseOf σ) : (p.map f).isTop = p.isTop := by cases p <;> rfl

/-- The parser treats all strings alike. -/
theorem grammarStep_map (f : σ → τ) (p : PhaseOf σ) (t : TokOf σ) :
    grammarStep (p.map f) (t.map f) = (grammarStep p t).map fun r => (r.1.map f, r.2.map f) := by
  cases p with
  | tabEol m b s => cases t with
    | kw k => cases k <;> cases b <;> rfl
    | _ => cases b <;> rfl
  | _ => cases t with
    | kw k => cases k <;> rfl
    | _ => rfl

/-- Between `sequence_open` and the end of the sequence. -/
def PhaseOf.inSeq : PhaseOf σ → Bool
  | .seqOpen | .seqList | .seqClose | .plain _ | .tab _ | .tabOpen _ | .tabOpt _ _ | .tabStr _ _ _ | .tabEol _ _ _
  | .wipe | .wipeOpen | .wipeOpt | .wipeEol | .maxl | .maxlOpen | .maxlOpt | .maxlVal _ | .maxlEol _ | .methodEnd => true
  | _ => false

/-- The name is set before it is used. -/
theorem grammarStep_inSeq {p p' : PhaseOf σ} {t : TokOf σ} {a : ActOf σ} (e : grammarStep p t = some (p', a)) :
    ((∃ s, a = .name s) ∨ (p'.inSeq = true → p.inSeq = true)) ∧ (a = .sequence → p.inSeq = true) := by
  cases p with
  | tabEol m b s => cases t with
    | kw k => cases k <;> cases b <;> cases e
    | cls => cases b <;> (cases e; exact ⟨.inr fun _ => rfl, fun _ => rfl⟩)
    | _ => cases b <;> cases e
  | _ => cases t with
    | kw k => cases k <;> first
      | (cases e; done)
      | (cases e; exact ⟨.inr fun _ => rfl, fun h => by cases h⟩)
      | (cases e; exact ⟨.inr (fun h => by cases h), fun h => by cases h⟩)
    | _ => first
      | (cases e; done)
      | (cases e; exact ⟨.inl ⟨_, rfl⟩, fun h => by cases h⟩)
      | (cases e; exact ⟨.inr fun _ => rfl, fun _ => rfl⟩)
      | (cases e; exact ⟨.inr (fun h => by cases h), fun h => by cases h⟩)

end

/-! ### On values -/

/-- The phase of `cfStep`. -/
def Phase.of : Phase → PhaseOf Bytes
  | .top => .top
  | .seqKw => .seqKw
  | .seqName s => .seqName s
  | .seqOpen => .seqOpen
  | .seqList => .seqList
  | .seqClose => .seqClose
  | .plain c => .plain c
  | .tab m => .tab m
  | .tabOpen m => .tabOpen m
  | .tabOpt m b => .tabOpt m b
  | .tabStr m b s => .tabStr m b s
  | .tabEol m b s => .tabEol m b s
  | .wipe => .wipe
  | .wipeOpen => .wipeOpen
  | .wipeOpt => .wipeOpt
  | .wipeEol => .wipeEol
  | .maxl => .maxl
  | .maxlOpen => .maxlOpen
  | .maxlOpt => .maxlOpt
  | .maxlVal n => .maxlVal n
  | .maxlEol n => .maxlEol n
  | .methodEnd => .methodEnd
  | .ignKw => .ignKw
  | .ignOpen => .ignOpen
  | .ignList => .ignList
  | .ignFile => .ignFile
  | .ignStr s => .ignStr s
  | .ignClose => .ignClose

/-- The other way round. -/
def PhaseOf.phase : PhaseOf Bytes → Phase
  | .top => .top
  | .seqKw => .seqKw
  | .seqName s => .seqName s
  | .seqOpen => .seqOpen
  | .seqList => .seqList
  | .seqClose => .seqClose
  | .plain c => .plain c
  | .tab m => .tab m
  | .tabOpen m => .tabOpen m
  | .tabOpt m b => .tabOpt m b
  | .tabStr m b s => .tabStr m b s
  | .tabEol m b s => .tabEol m b s
  | .wipe => .wipe
  | .wipeOpen => .wipeOpen
  | .wipeOpt => .wipeOpt
  | .wipeEol => .wipeEol
  | .maxl => .maxl
  | .maxlOpen => .maxlOpen
  | .maxlOpt => .maxlOpt
  | .maxlVal n => .maxlVal n
  | .maxlEol n => .maxlEol n
  | .methodEnd => .methodEnd
  | .ignKw => .ignKw
  | .ignOpen => .ignOpen
  | .ignList => .ignList
  | .ignFile => .ignFile
  | .ignStr s => .ignStr s
  | .ignClose => .ignClose

theorem PhaseOf.of_phase (p : PhaseOf Bytes) : p.phase.of = p := by cases p <;> rfl

theorem Phase.isTop_of (p : Phase) : p.of.isTop = decide (p = .top) := by cases p <;> rfl

/-- The token of `cfStep`. -/
def Tok.of : Tok → TokOf Bytes
  | .kw k => .kw k
  | .opn => .opn
  | .cls => .cls
  | .eol => .eol
  | .nvalue n => .nvalue n
  | .ident s => .str s
  | .qstring s => .str s

/-- The actions on values. -/
def cfAct (file : Bytes) (st : CState) : ActOf Bytes → Res CState
  | .none => .ok st
  | .name s => .ok { st with name := s }
  | .filter c b fn ml rt => .ok (cfAppendFilter st c b fn ml rt)
  | .sequence => .ok (cfAppendSequenceList file st)
  | .ignore s => do
    let l ← filelistPut st.ignore s
    pure { st with ignore := l }

/-- `cfStep` is the grammar with the actions. -/
theorem cfStep_grammar (file : Bytes) (st : CState) (t : Tok) :
    cfStep file st t = match grammarStep st.phase.of t.of with
      | none => .exit 1
      | some (p, a) => cfAct file st a >>= fun st' => .ok { st' with phase := p.phase } := by
  obtain ⟨ph, name, fs, qs, ig⟩ := st
  cases ph with
  | tabEol m b s => cases t with
    | kw k => cases k <;> cases b <;> rfl
    | _ => cases b <;> rfl
  | ignStr s => cases t with
    | kw k => cases k <;> rfl
    | eol =>
      simp only [cfStep, Phase.of, Tok.of, grammarStep, cfAct, if_true]
      cases filelistPut ig s <;> rfl
    | _ => rfl
  | _ => cases t with
    | kw k => cases k <;> rfl
    | _ => rfl

/-- `yyparse` as a program. -/
def cfProg (file : Bytes) (last : Nat) : List Located → CState → Prog CState
  | [], st => if st.phase = .top then .ret st else .err (yyerrorText file [] last) (.exit 1)
  | { item := .ub u, text := _, line := _ } :: _, _ => .ub u
  | { item := .tok t un, text := w, line := n } :: rest, st =>
    let k := match cfStep file st t with
      | .ok st' => cfProg file last rest st'
      | .exit c => .err (yyerrorText file w n) (.exit c)
      | .ub u => .ub u
      | .stuck => .stuck
    if un then .out (lit "Unterminated character string\n") k else k

/-- How `parseConfigFile` puts the pieces together. -/
def cfWhole (file : Bytes) (last : Nat) (ls : List Located) (st : CState) : Prog CState :=
  outTimes (lit "Unterminated character string\n") (cfRun file (ls.map (·.item)) st).1
    (match (cfRun file (ls.map (·.item)) st).2 with
    | .ok c => .ret c
    | .exit n => .err (yyerrorText file (cfBlame file last ls st).1 (cfBlame file last ls st).2) (.exit n)
    | .ub u => .ub u
    | .stuck => .stuck)

theorem cfProg_eq (file : Bytes) (last : Nat) : ∀ (ls : List Located) (st : CState), cfProg file last ls st = cfWhole file last ls st
  | [], st => by
    unfold cfProg cfWhole
    simp only [List.map_nil, cfRun, cfBlame]
    by_cases h : st.phase = .top
    · simp only [if_pos h]; rfl
    · simp only [if_neg h]; rfl
  | { item := .ub u, text := w, line := n } :: rest, st => rfl
  | { item := .tok t un, text := w, line := n } :: rest, st => by
    have ih := cfProg_eq file last rest
    unfold cfProg cfWhole
    simp only [List.map_cons, cfRun, cfBlame]
    cases h : cfStep file st t with
    | ok st' =>
      simp only
      rw [ih, cfWhole]
      cases un <;> rfl
    | exit c => cases un <;> rfl
    | ub u => cases un <;> rfl
    | stuck => cases un <;> rfl

theorem outTimes_bind {α β : Type} (s : Bytes) (k : Prog α) (f : α → Prog β) : ∀ n, (outTimes s n k).bind f = outTimes s n (k.bind f)
  | 0 => rfl
  | n + 1 => by simp only [outTimes, Prog.bind, outTimes_bind s k f n]

/-- `parseConfigFile` with the parser as a program. -/
theorem parseConfigFile_prog (file : Bytes) (before : Option ConfigFile × Nat) :
    parseConfigFile file before = .slurp (some file) fun r =>
      match r with
      | none => .ret before
      | some text =>
        (cfProg file (locateAll text.length before.2 text).2 (locateAll text.length before.2 text).1 (cfStart before.1)).bind fun st =>
          .ret (some { sequences := st.sequences, filesToIgnore := some st.ignore }, (locateAll text.length before.2 text).2) := by
  unfold parseConfigFile
  congr 1
  funext r
  cases r with
  | none => rfl
  | some text =>
    simp only
    rw [cfProg_eq, cfWhole, outTimes_bind, locate_items _ _ _ (Nat.le_refl _)]
    simp only [parseConfigText, cfStart]
    cases (cfRun file (lex text) { sequences := (before.1.getD configFileInit).sequences, ignore := startIgnore (before.1.getD configFileInit) }).2 <;>
      rfl

end Detox
