import Verif.Lemmas.Ends
import Verif.Props.Result
import Verif.Props.Quiet

/-!
# Lemmas for C100: reading the configuration comes to an end
-/

set_option autoImplicit false

namespace Detox
open Spec

/-- As long as all calls are answered as `A` says, there are at most `n` of them. -/
def Prog.Within {α : Type} (A : Event → Prop) (n : Nat) (p : Prog α) : Prop := ∀ tr out, Trace p tr out → (∀ e ∈ tr, A e) → tr.length ≤ n

section
variable {α β : Type} {A : Event → Prop}

theorem Prog.Within.mono {n m : Nat} {p : Prog α} (h : p.Within A n) (hm : n ≤ m) : p.Within A m :=
  fun tr out ht ha => Nat.le_trans (h tr out ht ha) hm

theorem Prog.Within.ret (a : α) : (Prog.ret a).Within A 0 := fun _ _ h _ => by cases h <;> simp

theorem Prog.Within.exit (n : Nat) : (Prog.exit n : Prog α).Within A 0 := fun _ _ h _ => by cases h <;> simp

theorem Prog.Within.ofRes (r : Res α) : (Prog.ofRes r).Within A 0 := fun _ _ h _ => by rw [trace_ofRes h]; simp

theorem Prog.Within.err {n : Nat} {s : Bytes} {k : Prog α} (h : k.Within A n) : (Prog.err s k).Within A (n + 1) := by
  intro tr out ht ha
  cases ht with
  | stop => simp
  | err _ _ tr _ h1 => exact Nat.succ_le_succ (h _ _ h1 fun e he => ha e (by simp [he]))

theorem Prog.Within.out {n : Nat} {s : Bytes} {k : Prog α} (h : k.Within A n) : (Prog.out s k).Within A (n + 1) := by
  intro tr out ht ha
  cases ht with
  | stop => simp
  | out _ _ tr _ h1 => exact Nat.succ_le_succ (h _ _ h1 fun e he => ha e (by simp [he]))

theorem Prog.Within.slurp {n : Nat} {p : Option Bytes} {k : Option Bytes → Prog α} (h : ∀ r, A (.slurp p r) → (k r).Within A n) :
    (Prog.slurp p k).Within A (n + 1) := by
  intro tr out ht ha
  cases ht with
  | stop => simp
  | slurp _ _ r tr _ h1 => exact Nat.succ_le_succ (h r (ha _ (by simp)) _ _ h1 fun e he => ha e (by simp [he]))

theorem Prog.Within.bind {n m : Nat} {p : Prog α} {f : α → Prog β} (h : p.Within A n) (hf : ∀ a, (f a).Within A m) : (p.bind f).Within A (n + m) := by
  intro tr out ht ha
  rcases trace_bind_any ht with ⟨a, t1, t2, rfl, h1, h2⟩ | ⟨o', _, h1⟩
  · have g1 := h _ _ h1 fun e he => ha e (by simp [he])
    have g2 := hf a _ _ h2 fun e he => ha e (by simp [he])
    rw [List.length_append]
    omega
  · exact Nat.le_trans (h _ _ h1 ha) (Nat.le_add_right _ _)

theorem outTimes_within {n : Nat} {s : Bytes} {k : Prog α} (h : k.Within A n) : ∀ m, (outTimes s m k).Within A (n + m)
  | 0 => h
  | m + 1 => Prog.Within.out (outTimes_within h m)

end

theorem cfRun_count (file : Bytes) : ∀ (items : List LexItem) (st : CState), (cfRun file items st).1 ≤ items.length
  | [], _ => Nat.zero_le _
  | .ub _ :: _, _ => Nat.zero_le _
  | .tok t un :: rest, st => by
    simp only [cfRun, List.length_cons]
    have : (match cfStep file st t with
      | .ok st' => cfRun file rest st'
      | .exit n => (0, .exit n)
      | .ub u => (0, .ub u)
      | .stuck => (0, .stuck)).1 ≤ rest.length := by
      cases cfStep file st t with
      | ok st' => exact cfRun_count file rest st'
      | exit n => exact Nat.zero_le _
      | ub u => exact Nat.zero_le _
      | stuck => exact Nat.zero_le _
    refine Nat.add_le_add this ?_
    split <;> omega

/-- The number of calls for a config file. -/
def configCalls (files : Bytes → Option Bytes) (file : Bytes) : Nat := 2 + ((files file).elim 0 fun text => (lex text).length)

theorem parseConfigFile_within (files : Bytes → Option Bytes) (file : Bytes) (before : Option ConfigFile × Nat) :
    (parseConfigFile file before).Within (Faithful files) (configCalls files file) := by
  unfold parseConfigFile configCalls
  have e : ∀ x : Nat, 2 + x = (1 + x) + 1 := fun x => by omega
  rw [e]
  refine .slurp fun r hr => ?_
  have hr := hr _ _ rfl
  subst hr
  cases files file with
  | none => exact (Prog.Within.ret _).mono (Nat.zero_le _)
  | some text =>
    refine (outTimes_within (n := 1) ?_ _).mono (Nat.add_le_add_left (cfRun_count file _ _) 1)
    dsimp only
    split
    · exact (Prog.Within.ret _).mono (Nat.zero_le _)
    · exact .err (.exit _)
    · exact (Prog.Within.ofRes (.ub _)).mono (Nat.zero_le _)
    · exact (Prog.Within.ofRes .stuck).mono (Nat.zero_le _)

theorem tryConfig_within (files : Bytes → Option Bytes) (file : Bytes) (before : Option ConfigFile × Nat) :
    (tryConfig file before).Within (Faithful files) (configCalls files file) := by
  unfold tryConfig
  split
  · exact parseConfigFile_within _ _ _
  · exact (Prog.Within.ret _).mono (Nat.zero_le _)

theorem configFileLoad_within (files : Bytes → Option Bytes) (E : ConfigEnv) (check : Option Bytes) :
    ∃ n, (configFileLoad E check).Within (Faithful files) n := by
  unfold configFileLoad
  cases check with
  | some f =>
    refine ⟨_, Prog.Within.bind (parseConfigFile_within _ _ _) (m := 1) fun r => ?_⟩
    split
    · exact (Prog.Within.ret _).mono (Nat.zero_le _)
    · exact .err (.exit _)
  | none =>
    dsimp only
    refine ⟨_, Prog.Within.bind (n := E.sysconfdir.elim 0 fun d => configCalls files (d ++ lit "/detoxrc")) ?_ fun c1 =>
      Prog.Within.bind (n := configCalls files (lit "/etc/detoxrc")) ?_ fun c2 =>
      Prog.Within.bind (n := configCalls files (lit "/usr/local/etc/detoxrc")) ?_ fun c3 =>
      Prog.Within.bind (n := E.home.elim 0 fun d => configCalls files (d ++ lit "/.detoxrc")) ?_ fun c4 =>
      Prog.Within.bind (n := E.xdg.elim 0 fun d => configCalls files (d ++ lit "/detox/detoxrc")) (m := 0) ?_ fun c5 => ?_⟩
    · cases E.sysconfdir with
      | none => exact .ret _
      | some d => exact tryConfig_within _ _ _
    · split
      · exact (Prog.Within.ret _).mono (Nat.zero_le _)
      · exact parseConfigFile_within _ _ _
    · split
      · exact (Prog.Within.ret _).mono (Nat.zero_le _)
      · exact parseConfigFile_within _ _ _
    · cases E.home with
      | none => exact .ret _
      | some d => exact tryConfig_within _ _ _
    · cases E.xdg with
      | none => exact .ret _
      | some d => exact tryConfig_within _ _ _
    · split
      · exact .ret _
      · exact .ofRes _

theorem readTable_within {A : Event → Prop} (ctype path : Bytes) : (readTable ctype path).Within A 1 := .slurp fun _ _ => .ret _

theorem tryTable_within {A : Event → Prop} (ctype path : Bytes) : (tryTable ctype path).Within A 1 := by
  unfold tryTable
  split
  · exact readTable_within _ _
  · exact (Prog.Within.ret _).mono (Nat.zero_le _)

theorem findTable_within {A : Event → Prop} (ctype : Bytes) (datadir : Option Bytes) (name : Bytes) : (findTable ctype datadir name).Within A 3 := by
  unfold findTable
  refine Prog.Within.bind (n := 1) (m := 2) ?_ fun t1 => ?_
  · cases datadir with
    | none => exact (Prog.Within.ret _).mono (Nat.zero_le _)
    | some d => exact tryTable_within _ _
  · split
    · exact (Prog.Within.ret _).mono (Nat.zero_le _)
    · refine Prog.Within.bind (n := 1) (m := 1) (tryTable_within _ _) fun t2 => ?_
      split
      · exact (Prog.Within.ret _).mono (Nat.zero_le _)
      · exact tryTable_within _ _

theorem loadTable_within {A : Event → Prop} (ctype : Bytes) (datadir : Option Bytes) (f : Filter) : (loadTable ctype datadir f).Within A 4 := by
  unfold loadTable
  split
  · exact (Prog.Within.ret _).mono (Nat.zero_le _)
  · split
    · split
      · exact (Prog.Within.err (.exit _)).mono (by omega)
      · exact (Prog.Within.ret _).mono (Nat.zero_le _)
    · split
      · refine (Prog.Within.bind (m := 1) (readTable_within _ _) fun r => ?_).mono (m := 4) (by omega)
        split
        · exact .err (.exit _)
        · exact (Prog.Within.ret _).mono (Nat.zero_le _)
      · refine Prog.Within.bind (m := 1) (findTable_within _ _ _) fun r => ?_
        split
        · exact (Prog.Within.ret _).mono (Nat.zero_le _)
        · split
          · exact .err (.exit _)
          · exact (Prog.Within.ret _).mono (Nat.zero_le _)

theorem loadTables_within {A : Event → Prop} (ctype : Bytes) (datadir : Option Bytes) :
    ∀ fs : List Filter, (loadTables ctype datadir fs).Within A (4 * fs.length)
  | [] => .ret _
  | f :: fs => by
    unfold loadTables
    refine (Prog.Within.bind (loadTable_within _ _ _) fun t => Prog.Within.bind (loadTables_within ctype datadir fs) fun fs' => .ret _).mono ?_
    simp only [List.length_cons]
    omega

theorem reviewSequence_within {A : Event → Prop} (ctype : Bytes) (datadir : Option Bytes) (q : Sequence) :
    (reviewSequence ctype datadir q).Within A (4 * q.filters.length) := by
  unfold reviewSequence
  exact Prog.Within.bind (loadTables_within _ _ _) fun _ => .ret _

/-- Reading the configuration comes to an end. -/
theorem readsBy_within (files : Bytes → Option Bytes) (I : Invocation) (ss : List Setting) (q : Sequence) :
    ∃ n, ∀ tr, ReadsBy I ss q tr → (∀ e ∈ tr, Faithful files e) → tr.length ≤ n := by
  obtain ⟨n, hn⟩ := configFileLoad_within files I.config (lastConfig ss)
  refine ⟨n + 4 * q.filters.length, ?_⟩
  rintro tr ⟨r1, r2, o1, o2, rfl, h1, h2⟩ hf
  have g1 := hn _ _ h1 fun e he => hf e (by simp [he])
  have g2 := reviewSequence_within _ _ _ _ _ h2 fun e he => hf e (by simp [he])
  rw [List.length_append]
  omega

end Detox
