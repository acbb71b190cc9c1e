import Verif.Model.Main
import Verif.Spec.Main
import Verif.Lemmas.ConfigLoad

/-!
# Executions of `main` before the work begins
-/

set_option autoImplicit false

namespace Detox
open Spec

/-! ### Nothing but reading -/

/-- The program only makes calls in `S`. -/
def Prog.Only (S : Event → Prop) {α : Type} (p : Prog α) : Prop := ∀ h, p.wp (fun _ e => S e) (fun _ _ => True) h

theorem Prog.Only.ret {S : Event → Prop} {α : Type} (a : α) : (Prog.ret a).Only S := fun _ => trivial
theorem Prog.Only.exit {S : Event → Prop} {α : Type} (n : Nat) : (Prog.exit n : Prog α).Only S := fun _ => trivial
theorem Prog.Only.stuck {S : Event → Prop} {α : Type} : (Prog.stuck : Prog α).Only S := fun _ => trivial
theorem Prog.Only.ofRes {S : Event → Prop} {α : Type} (x : Res α) : (Prog.ofRes x).Only S := by cases x <;> exact fun _ => trivial
theorem Prog.Only.bind {S : Event → Prop} {α β : Type} {p : Prog α} {f : α → Prog β} (hp : p.Only S) (hf : ∀ a, (f a).Only S) :
    (p.bind f).Only S :=
  fun h => Prog.wp_bind p f h (Prog.wp_mono (fun a h' _ => hf a h') p h (hp h))

theorem Prog.Only.trace {S : Event → Prop} {α : Type} {p : Prog α} (hp : p.Only S) {tr : List Event} {o : Outcome α}
    (ht : Trace p tr o) : ∀ e ∈ tr, S e := by
  intro e he
  obtain ⟨pre, post, rfl⟩ := List.append_of_mem he
  exact (Prog.wp_sound (hp []) ht).1 pre e post rfl

/-- The program only reads files and writes messages. -/
def Prog.Harmless {α : Type} (p : Prog α) : Prop := p.Only Spec.Harmless

theorem Prog.Harmless.ret {α : Type} (a : α) : (Prog.ret a).Harmless := Only.ret a
theorem Prog.Harmless.exit {α : Type} (n : Nat) : (Prog.exit n : Prog α).Harmless := Only.exit n
theorem Prog.Harmless.out {α : Type} {s : Bytes} {k : Prog α} (hk : k.Harmless) : (Prog.out s k).Harmless := fun _ => ⟨.out s, hk _⟩
theorem Prog.Harmless.err {α : Type} {s : Bytes} {k : Prog α} (hk : k.Harmless) : (Prog.err s k).Harmless := fun _ => ⟨.err s, hk _⟩
theorem Prog.Harmless.slurp {α : Type} {p : Option Bytes} {k : Option Bytes → Prog α} (hk : ∀ r, (k r).Harmless) :
    (Prog.slurp p k).Harmless := fun _ r => ⟨.slurp p r, hk r _⟩
theorem Prog.Harmless.ofRes {α : Type} (x : Res α) : (Prog.ofRes x).Harmless := Only.ofRes x
theorem Prog.Harmless.bind {α β : Type} {p : Prog α} {f : α → Prog β} (hp : p.Harmless) (hf : ∀ a, (f a).Harmless) :
    (p.bind f).Harmless := Only.bind hp hf
theorem Prog.Harmless.trace {α : Type} {p : Prog α} (hp : p.Harmless) {tr : List Event} {o : Outcome α} (ht : Trace p tr o) :
    ∀ e ∈ tr, Spec.Harmless e := Only.trace hp ht

theorem outTimes_harmless {α : Type} {s : Bytes} {k : Prog α} (hk : k.Harmless) : ∀ n, (outTimes s n k).Harmless
  | 0 => hk
  | n + 1 => .out (outTimes_harmless hk n)

theorem parseConfigFile_harmless (file : Bytes) (before : Option ConfigFile × Nat) : (parseConfigFile file before).Harmless := by
  refine .slurp fun r => ?_
  cases r with
  | none => exact .ret _
  | some text =>
    refine outTimes_harmless ?_ _
    cases (parseConfigText file text before.1).2 with
    | ok c => exact .ret _
    | exit n => exact .err (.exit n)
    | ub u => exact fun _ => trivial
    | stuck => exact fun _ => trivial

theorem tryConfig_harmless (path : Bytes) (before : Option ConfigFile × Nat) : (tryConfig path before).Harmless := by
  unfold tryConfig
  split
  · exact parseConfigFile_harmless _ _
  · exact .ret _

theorem configFileLoad_harmless (E : ConfigEnv) (check : Option Bytes) : (configFileLoad E check).Harmless := by
  unfold configFileLoad
  cases check with
  | some f =>
    refine .bind (parseConfigFile_harmless _ _) fun r => ?_
    obtain ⟨r, line⟩ := r
    cases r with
    | some c => exact .ret _
    | none => exact .err (.exit 1)
  | none =>
    refine .bind ?_ fun c1 => .bind ?_ fun c2 => .bind ?_ fun c3 => .bind ?_ fun c4 => .bind ?_ fun c5 => ?_
    · cases E.sysconfdir with
      | some d => exact tryConfig_harmless _ _
      | none => exact .ret _
    · obtain ⟨c1, line⟩ := c1
      cases c1 with
      | some c => exact .ret _
      | none => exact parseConfigFile_harmless _ _
    · obtain ⟨c2, line⟩ := c2
      cases c2 with
      | some c => exact .ret _
      | none => exact parseConfigFile_harmless _ _
    · cases E.home with
      | some d => exact tryConfig_harmless _ _
      | none => exact .ret _
    · cases E.xdg with
      | some d => exact tryConfig_harmless _ _
      | none => exact .ret _
    · obtain ⟨c5, line⟩ := c5
      cases c5 with
      | some c => exact .ret _
      | none => exact .ofRes _

theorem readTable_harmless (ctype path : Bytes) : (readTable ctype path).Harmless := .slurp fun _ => .ret _

theorem tryTable_harmless (ctype path : Bytes) : (tryTable ctype path).Harmless := by
  unfold tryTable
  split
  · exact readTable_harmless _ _
  · exact .ret _

theorem findTable_harmless (ctype : Bytes) (datadir : Option Bytes) (name : Bytes) : (findTable ctype datadir name).Harmless := by
  unfold findTable
  refine .bind ?_ fun t1 => ?_
  · cases datadir with
    | some d => exact tryTable_harmless _ _
    | none => exact .ret _
  · cases t1 with
    | some t => exact .ret _
    | none =>
      refine .bind (tryTable_harmless _ _) fun t2 => ?_
      cases t2 with
      | some t => exact .ret _
      | none => exact tryTable_harmless _ _

theorem loadTable_harmless (ctype : Bytes) (datadir : Option Bytes) (f : Filter) : (loadTable ctype datadir f).Harmless := by
  unfold loadTable
  cases defaultTableFilename f.cleaner with
  | none => exact .ret _
  | some n =>
    cases f.builtin with
    | some b =>
      show Prog.Harmless (match filterLoadBuiltinByFilename b with
        | none => .err _ (.exit 1)
        | some t => .ret (some t))
      cases filterLoadBuiltinByFilename b with
      | none => exact .err (.exit 1)
      | some t => exact .ret _
    | none =>
      cases f.filename with
      | some fn =>
        refine .bind (readTable_harmless _ _) fun r => ?_
        cases r with
        | none => exact .err (.exit 1)
        | some t => exact .ret _
      | none =>
        refine .bind (findTable_harmless _ _ _) fun r => ?_
        cases r with
        | some t => exact .ret _
        | none =>
          show Prog.Harmless (match filterLoadBuiltin f with
            | none => .err _ (.exit 1)
            | some t => .ret (some t))
          cases filterLoadBuiltin f with
          | none => exact .err (.exit 1)
          | some t => exact .ret _

theorem loadTables_harmless (ctype : Bytes) (datadir : Option Bytes) : ∀ fs, (loadTables ctype datadir fs).Harmless
  | [] => .ret _
  | _ :: fs => .bind (loadTable_harmless _ _ _) fun _ => .bind (loadTables_harmless ctype datadir fs) fun _ => .ret _

theorem reviewSequence_harmless (ctype : Bytes) (datadir : Option Bytes) (q : Sequence) : (reviewSequence ctype datadir q).Harmless :=
  .bind (loadTables_harmless _ _ _) fun _ => .ret _

/-! ### Putting executions together -/

/-- What follows an execution of the first part is an execution of the second. -/
theorem trace_continue {α β : Type} {p : Prog α} {r : List Event} {a : α} (h : Trace p r (.ret a)) {f : α → Prog β}
    {t : List Event} {out : Outcome β} (ht : Trace (p.bind f) (r ++ t) out) : Trace (f a) t out := by
  generalize ho : Outcome.ret a = o at h
  induction h with
  | ret => cases ho; exact ht
  | stop => cases ho
  | exit => cases ho
  | ub => cases ho
  | stuck => cases ho
  | lstat _ _ _ _ _ _ ih => cases ht with | lstat _ _ _ _ _ ht => exact ih ht ho
  | rename _ _ _ _ _ _ _ ih => cases ht with | rename _ _ _ _ _ _ ht => exact ih ht ho
  | opendir _ _ _ _ _ _ ih => cases ht with | opendir _ _ _ _ _ ht => exact ih ht ho
  | readdir _ _ _ _ _ _ ih => cases ht with | readdir _ _ _ _ _ ht => exact ih ht ho
  | closedir _ _ _ _ _ ih => cases ht with | closedir _ _ _ _ ht => exact ih ht ho
  | slurp _ _ _ _ _ _ ih => cases ht with | slurp _ _ _ _ _ ht => exact ih ht ho
  | out _ _ _ _ _ ih => cases ht with | out _ _ _ _ ht => exact ih ht ho
  | err _ _ _ _ _ ih => cases ht with | err _ _ _ _ ht => exact ih ht ho

/-- An execution of the first part followed by one of the second. -/
theorem trace_append {α β : Type} {p : Prog α} {r : List Event} {a : α} (h : Trace p r (.ret a)) {f : α → Prog β}
    {t : List Event} {out : Outcome β} (ht : Trace (f a) t out) : Trace (p.bind f) (r ++ t) out := by
  generalize ho : Outcome.ret a = o at h
  induction h with
  | ret => cases ho; exact ht
  | stop => cases ho
  | exit => cases ho
  | ub => cases ho
  | stuck => cases ho
  | lstat _ _ _ _ _ _ ih => exact .lstat _ _ _ _ _ (ih ho)
  | rename _ _ _ _ _ _ _ ih => exact .rename _ _ _ _ _ _ (ih ho)
  | opendir _ _ _ _ _ _ ih => exact .opendir _ _ _ _ _ (ih ho)
  | readdir _ _ _ _ _ _ ih => exact .readdir _ _ _ _ _ (ih ho)
  | closedir _ _ _ _ _ ih => exact .closedir _ _ _ _ (ih ho)
  | slurp _ _ _ _ _ _ ih => exact .slurp _ _ _ _ _ (ih ho)
  | out _ _ _ _ _ ih => exact .out _ _ _ _ (ih ho)
  | err _ _ _ _ _ ih => exact .err _ _ _ _ (ih ho)

/-! ### Choosing the sequence -/

theorem sequenceFind_some {n : Bytes} : ∀ {qs : List Sequence} {q : Sequence}, sequenceFind n qs = some q ↔ FirstNamed n qs q
  | [], q => by
    constructor
    · intro h; cases h
    · rintro ⟨b, a, h, _⟩; simp at h
  | p :: qs, q => by
    unfold sequenceFind
    constructor
    · intro h
      split at h
      · next hp => cases h; exact ⟨[], qs, rfl, hp, by simp⟩
      · next hp =>
        obtain ⟨b, a, rfl, h2, h3⟩ := sequenceFind_some.1 h
        refine ⟨p :: b, a, rfl, h2, ?_⟩
        intro x hx
        rcases List.mem_cons.1 hx with rfl | hx
        · exact hp
        · exact h3 x hx
    · rintro ⟨b, a, h1, h2, h3⟩
      cases b with
      | nil => cases h1; rw [if_pos h2]
      | cons x b =>
        cases h1
        rw [if_neg (h3 p (by simp))]
        exact sequenceFind_some.2 ⟨b, a, rfl, h2, fun y hy => h3 y (by simp [hy])⟩

theorem sequenceFind_none {n : Bytes} : ∀ {qs : List Sequence}, sequenceFind n qs = none ↔ ∀ p ∈ qs, p.name ≠ n
  | [] => by simp [sequenceFind]
  | p :: qs => by
    unfold sequenceFind
    split
    · next hp => simp [hp]
    · next hp => rw [sequenceFind_none]; simp [hp]

/-! ### Tables -/

theorem filterLoadBuiltinByFilename_iff (b : Bytes) (t : Table) : filterLoadBuiltinByFilename b = some t ↔ BuiltinNamed b t := by
  unfold filterLoadBuiltinByFilename
  constructor
  · intro h
    split at h
    · next hb => subst hb; have e := Option.some.inj h; rw [← e]; exact .iso8859_1
    · split at h
      · next hb => subst hb; have e := Option.some.inj h; rw [← e]; exact .unicode
      · split at h
        · next hb => subst hb; have e := Option.some.inj h; rw [← e]; exact .safe
        · split at h
          · next hb => subst hb; have e := Option.some.inj h; rw [← e]; exact .cp1252
          · cases h
  · intro h
    cases h
    · rw [if_pos rfl]
    · rw [if_neg (by decide), if_pos rfl]
    · rw [if_neg (by decide), if_neg (by decide), if_pos rfl]
    · rw [if_neg (by decide), if_neg (by decide), if_neg (by decide), if_pos rfl]

/-- The table files of the cleaners. -/
theorem defaultTableFilename_iff (c : Cleaner) : (∃ n, UsualTable c n ∧ defaultTableFilename c = some (n ++ lit ".tbl")) ∨
    ((∀ n, ¬ UsualTable c n) ∧ defaultTableFilename c = none) := by
  cases c
  case iso8859_1 => exact .inl ⟨_, .iso8859_1, by decide⟩
  case safe => exact .inl ⟨_, .safe, by decide⟩
  case utf8 => exact .inl ⟨_, .utf8, by decide⟩
  all_goals exact .inr ⟨fun n h => (by cases h), rfl⟩

theorem filterLoadBuiltin_usual {f : Filter} {n : Bytes} (h : UsualTable f.cleaner n) :
    ∃ t, filterLoadBuiltin f = some t ∧ BuiltinNamed n t := by
  unfold filterLoadBuiltin
  generalize f.cleaner = c at h
  cases h
  · exact ⟨_, rfl, .iso8859_1⟩
  · exact ⟨_, rfl, .unicode⟩
  · exact ⟨_, rfl, .safe⟩

/-- Looking for a table in one place after the other. -/
inductive Searched (ctype : Bytes) : List Bytes → List (Bytes × Option Bytes) → Option Table → Prop
  | nowhere (ps : List Bytes) (reads : List (Bytes × Option Bytes)) : reads.map Prod.fst = ps → (∀ x ∈ reads, NoTable ctype x.2) →
      Searched ctype ps reads none
  | found (before after : List Bytes) (path text : Bytes) (t : Table) (reads : List (Bytes × Option Bytes)) :
      reads.map Prod.fst = before → (∀ x ∈ reads, NoTable ctype x.2) → parseTableContent ctype text = some t →
      Searched ctype (before ++ path :: after) (reads ++ [(path, some text)]) (some t)

theorem Searched.append {ctype : Bytes} {ps qs : List Bytes} {r1 r2 : List (Bytes × Option Bytes)} {t : Option Table}
    (h1 : Searched ctype ps r1 none) (h2 : Searched ctype qs r2 t) : Searched ctype (ps ++ qs) (r1 ++ r2) t := by
  cases h1 with
  | nowhere _ _ a1 a2 =>
    cases h2 with
    | nowhere _ _ b1 b2 =>
      refine .nowhere _ _ (by rw [List.map_append, a1, b1]) ?_
      intro x hx
      rcases List.mem_append.1 hx with hx | hx
      · exact a2 x hx
      · exact b2 x hx
    | found before after path text t reads b1 b2 b3 =>
      rw [← List.append_assoc, ← List.append_assoc]
      refine .found _ _ _ _ _ _ (by rw [List.map_append, a1, b1]) ?_ b3
      intro x hx
      rcases List.mem_append.1 hx with hx | hx
      · exact a2 x hx
      · exact b2 x hx

theorem Searched.more {ctype : Bytes} {ps : List Bytes} {r : List (Bytes × Option Bytes)} {t : Table}
    (h : Searched ctype ps r (some t)) (qs : List Bytes) : Searched ctype (ps ++ qs) r (some t) := by
  cases h with
  | found before after path text t reads b1 b2 b3 =>
    rw [List.append_assoc, List.cons_append]
    exact .found _ _ _ _ _ _ b1 b2 b3

theorem readTable_ret {ctype path : Bytes} {tr : List Event} {t : Option Table} (h : Trace (readTable ctype path) tr (.ret t)) :
    ∃ r, filesRead tr = [(path, r)] ∧ t = r.bind (parseTableContent ctype) := by
  cases h with
  | slurp _ _ r tr _ h =>
    cases h
    exact ⟨r, rfl, rfl⟩

theorem tryTable_ret {ctype path : Bytes} {tr : List Event} {t : Option Table} (h : Trace (tryTable ctype path) tr (.ret t)) :
    Searched ctype (short path) (filesRead tr) t := by
  unfold tryTable maxPathLen at h
  unfold short
  split at h
  · next hs =>
    rw [if_pos hs]
    obtain ⟨r, h1, h2⟩ := readTable_ret h
    rw [h1, h2]
    cases r with
    | none => exact .nowhere _ _ rfl (by simp [NoTable])
    | some text =>
      cases ht : parseTableContent ctype text with
      | none =>
        rw [show (some text).bind (parseTableContent ctype) = none from ht]
        refine .nowhere _ _ rfl ?_
        intro x hx text' hx'
        simp only [List.mem_singleton] at hx
        subst hx; cases hx'; exact ht
      | some t =>
        have := Searched.found (ctype := ctype) [] [] path text t [] rfl (by simp) ht
        simpa [Option.bind, ht] using this
  · next hs =>
    rw [if_neg hs]
    cases h
    exact .nowhere _ _ rfl (by simp [filesRead])

theorem findTable_ret {ctype : Bytes} {datadir : Option Bytes} {n : Bytes} {tr : List Event} {t : Option Table}
    (h : Trace (findTable ctype datadir (n ++ lit ".tbl")) tr (.ret t)) :
    Searched ctype (tablePaths datadir n) (filesRead tr) t := by
  unfold findTable at h
  obtain ⟨t1, tr1, tr2, rfl, h1, h2⟩ := trace_bind_ret h
  have s1 : Searched ctype (inDir datadir (lit "/detox/" ++ n ++ lit ".tbl")) (filesRead tr1) t1 := by
    cases datadir with
    | none => cases h1; exact .nowhere _ _ rfl (by simp [filesRead])
    | some d =>
      have := tryTable_ret h1
      simpa [inDir] using this
  rw [filesRead_append]
  unfold tablePaths
  cases t1 with
  | some t' =>
    cases h2
    show Searched ctype _ (filesRead tr1 ++ []) _
    rw [List.append_nil, List.append_assoc]
    exact s1.more _
  | none =>
    obtain ⟨t2, tr3, tr4, rfl, h3, h4⟩ := trace_bind_ret h2
    have s2 := tryTable_ret h3
    rw [← List.append_assoc] at s2
    rw [filesRead_append, List.append_assoc]
    refine s1.append ?_
    cases t2 with
    | some t' =>
      cases h4
      show Searched ctype _ (filesRead tr3 ++ []) _
      rw [List.append_nil]
      exact s2.more _
    | none =>
      have s3 := tryTable_ret h4
      rw [← List.append_assoc] at s3
      exact s2.append s3

theorem loadTable_ret {ctype : Bytes} {datadir : Option Bytes} {f : Filter} {tr : List Event} {t : Option Table}
    (h : Trace (loadTable ctype datadir f) tr (.ret t)) : TableFor ctype datadir f (filesRead tr) t := by
  unfold loadTable at h
  rcases defaultTableFilename_iff f.cleaner with ⟨n, hu, hd⟩ | ⟨hu, hd⟩
  · rw [hd] at h
    simp only at h
    cases hb : f.builtin with
    | some b =>
      rw [hb] at h
      simp only at h
      cases hl : filterLoadBuiltinByFilename b with
      | none => rw [hl] at h; cases h with | err _ _ _ _ h => cases h
      | some t' =>
        rw [hl] at h
        cases h
        exact .builtin n b t' hu hb ((filterLoadBuiltinByFilename_iff b t').1 hl)
    | none =>
      rw [hb] at h
      simp only at h
      cases hf : f.filename with
      | some fn =>
        rw [hf] at h
        simp only at h
        obtain ⟨r, tr1, tr2, rfl, h1, h2⟩ := trace_bind_ret h
        obtain ⟨c, h3, rfl⟩ := readTable_ret h1
        cases c with
        | none => cases h2 with | err _ _ _ _ h => cases h
        | some text =>
          cases ht : parseTableContent ctype text with
          | none => simp only [Option.bind, ht] at h2; cases h2 with | err _ _ _ _ h => cases h
          | some t' =>
            simp only [Option.bind, ht] at h2
            cases h2
            rw [filesRead_append, h3]
            exact .filename n fn text t' hu hb hf ht
      | none =>
        rw [hf] at h
        simp only at h
        obtain ⟨r, tr1, tr2, rfl, h1, h2⟩ := trace_bind_ret h
        have hs := findTable_ret h1
        rw [filesRead_append]
        cases r with
        | some t' =>
          cases h2
          show TableFor ctype datadir f (filesRead tr1 ++ []) _
          rw [List.append_nil]
          generalize hps : tablePaths datadir n = ps at hs
          generalize filesRead tr1 = rs at hs
          cases hs with
          | found before after path text t reads b1 b2 b3 => exact .found n path text _ before after reads hu hb hf hps b1 b2 b3
        | none =>
          obtain ⟨t', g1, g2⟩ := filterLoadBuiltin_usual hu
          rw [g1] at h2
          cases h2
          show TableFor ctype datadir f (filesRead tr1 ++ []) _
          rw [List.append_nil]
          generalize hps : tablePaths datadir n = ps at hs
          generalize filesRead tr1 = rs at hs
          cases hs with
          | nowhere _ _ b1 b2 => exact .fallback n t' rs hu hb hf (b1.trans hps.symm) b2 g2
  · rw [hd] at h
    cases h
    exact .untabled hu

theorem loadTables_ret {ctype : Bytes} {datadir : Option Bytes} : ∀ {fs : List Filter} {tr : List Event} {fs' : List Filter},
    Trace (loadTables ctype datadir fs) tr (.ret fs') → TablesFor ctype datadir fs (filesRead tr) fs'
  | [], _, _, h => by cases h; exact .nil
  | f :: fs, tr, fs', h => by
    unfold loadTables at h
    obtain ⟨t, tr1, tr2, rfl, h1, h2⟩ := trace_bind_ret h
    obtain ⟨fs1, tr3, tr4, rfl, h3, h4⟩ := trace_bind_ret h2
    have a := loadTable_ret h1
    have b := loadTables_ret h3
    rw [filesRead_append, filesRead_append]
    cases h4
    have hc := TablesFor.cons f _ _ t fs fs1 a b
    have : (filesRead tr3 ++ filesRead [] : List (Bytes × Option Bytes)) = filesRead tr3 := by simp [filesRead]
    rw [this]
    cases t with
    | none => simpa using hc
    | some t => simpa using hc

theorem reviewSequence_ret {ctype : Bytes} {datadir : Option Bytes} {q q' : Sequence} {tr : List Event}
    (h : Trace (reviewSequence ctype datadir q) tr (.ret q')) :
    TablesFor ctype datadir q.filters (filesRead tr) q'.filters ∧ q'.name = q.name ∧ q'.sourceFilename = q.sourceFilename := by
  unfold reviewSequence at h
  obtain ⟨fs, tr1, tr2, rfl, h1, h2⟩ := trace_bind_ret h
  cases h2
  refine ⟨?_, rfl, rfl⟩
  rw [filesRead_append]
  have := loadTables_ret h1
  simpa [filesRead] using this

end Detox
