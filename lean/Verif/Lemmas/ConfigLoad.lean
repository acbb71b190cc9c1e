import Verif.Lemmas.ConfigMeaning
import Verif.Lemmas.Trace

/-!
# Executions of `config_file_load`
-/

set_option autoImplicit false

namespace Detox
open Spec

/-- The same way to end, other than by returning. -/
inductive Outcome.SameEnd {α β : Type} : Outcome α → Outcome β → Prop
  | running : SameEnd .running .running
  | exit (n : Nat) : SameEnd (.exit n) (.exit n)
  | ub (u : UB) : SameEnd (.ub u) (.ub u)
  | stuck : SameEnd .stuck .stuck

theorem trace_bind_any {α β : Type} {p : Prog α} {f : α → Prog β} {tr : List Event} {o : Outcome β}
    (h : Trace (p.bind f) tr o) :
    (∃ a tr1 tr2, tr = tr1 ++ tr2 ∧ Trace p tr1 (.ret a) ∧ Trace (f a) tr2 o) ∨ (∃ o' : Outcome α, o'.SameEnd o ∧ Trace p tr o') := by
  induction p generalizing tr with
  | ret a => exact .inl ⟨a, [], tr, rfl, .ret a, h⟩
  | exit n => cases h with
    | stop => exact .inr ⟨_, .running, .stop _⟩
    | exit => exact .inr ⟨_, .exit n, .exit n⟩
  | ub u => cases h with
    | stop => exact .inr ⟨_, .running, .stop _⟩
    | ub => exact .inr ⟨_, .ub u, .ub u⟩
  | stuck => cases h with
    | stop => exact .inr ⟨_, .running, .stop _⟩
    | stuck => exact .inr ⟨_, .stuck, .stuck⟩
  | lstat p k ih =>
    cases h with
    | stop => exact .inr ⟨_, .running, .stop _⟩
    | lstat _ _ r tr _ h =>
      rcases ih r h with ⟨a, t1, t2, rfl, h1, h2⟩ | ⟨o', h1, h2⟩
      · exact .inl ⟨a, _ :: t1, t2, rfl, .lstat _ _ _ _ _ h1, h2⟩
      · exact .inr ⟨o', h1, .lstat _ _ _ _ _ h2⟩
  | rename o n k ih =>
    cases h with
    | stop => exact .inr ⟨_, .running, .stop _⟩
    | rename _ _ _ r tr _ h =>
      rcases ih r h with ⟨a, t1, t2, rfl, h1, h2⟩ | ⟨o', h1, h2⟩
      · exact .inl ⟨a, _ :: t1, t2, rfl, .rename _ _ _ _ _ _ h1, h2⟩
      · exact .inr ⟨o', h1, .rename _ _ _ _ _ _ h2⟩
  | opendir p k ih =>
    cases h with
    | stop => exact .inr ⟨_, .running, .stop _⟩
    | opendir _ _ r tr _ h =>
      rcases ih r h with ⟨a, t1, t2, rfl, h1, h2⟩ | ⟨o', h1, h2⟩
      · exact .inl ⟨a, _ :: t1, t2, rfl, .opendir _ _ _ _ _ h1, h2⟩
      · exact .inr ⟨o', h1, .opendir _ _ _ _ _ h2⟩
  | readdir p k ih =>
    cases h with
    | stop => exact .inr ⟨_, .running, .stop _⟩
    | readdir _ _ r tr _ h =>
      rcases ih r h with ⟨a, t1, t2, rfl, h1, h2⟩ | ⟨o', h1, h2⟩
      · exact .inl ⟨a, _ :: t1, t2, rfl, .readdir _ _ _ _ _ h1, h2⟩
      · exact .inr ⟨o', h1, .readdir _ _ _ _ _ h2⟩
  | closedir p k ih =>
    cases h with
    | stop => exact .inr ⟨_, .running, .stop _⟩
    | closedir _ _ tr _ h =>
      rcases ih h with ⟨a, t1, t2, rfl, h1, h2⟩ | ⟨o', h1, h2⟩
      · exact .inl ⟨a, _ :: t1, t2, rfl, .closedir _ _ _ _ h1, h2⟩
      · exact .inr ⟨o', h1, .closedir _ _ _ _ h2⟩
  | slurp p k ih =>
    cases h with
    | stop => exact .inr ⟨_, .running, .stop _⟩
    | slurp _ _ r tr _ h =>
      rcases ih r h with ⟨a, t1, t2, rfl, h1, h2⟩ | ⟨o', h1, h2⟩
      · exact .inl ⟨a, _ :: t1, t2, rfl, .slurp _ _ _ _ _ h1, h2⟩
      · exact .inr ⟨o', h1, .slurp _ _ _ _ _ h2⟩
  | out s k ih =>
    cases h with
    | stop => exact .inr ⟨_, .running, .stop _⟩
    | out _ _ tr _ h =>
      rcases ih h with ⟨a, t1, t2, rfl, h1, h2⟩ | ⟨o', h1, h2⟩
      · exact .inl ⟨a, _ :: t1, t2, rfl, .out _ _ _ _ h1, h2⟩
      · exact .inr ⟨o', h1, .out _ _ _ _ h2⟩
  | err s k ih =>
    cases h with
    | stop => exact .inr ⟨_, .running, .stop _⟩
    | err _ _ tr _ h =>
      rcases ih h with ⟨a, t1, t2, rfl, h1, h2⟩ | ⟨o', h1, h2⟩
      · exact .inl ⟨a, _ :: t1, t2, rfl, .err _ _ _ _ h1, h2⟩
      · exact .inr ⟨o', h1, .err _ _ _ _ h2⟩

theorem filesRead_append (t1 t2 : List Event) : filesRead (t1 ++ t2) = filesRead t1 ++ filesRead t2 := by
  induction t1 with
  | nil => rfl
  | cons e t1 ih =>
    cases e with
    | slurp p r => cases p <;> simp [filesRead, ih]
    | _ => simpa [filesRead] using ih

theorem outTimes_any {α : Type} {s : Bytes} {k : Prog α} {o : Outcome α} : ∀ (n : Nat) {tr : List Event},
    Trace (outTimes s n k) tr o → (o = .running ∧ filesRead tr = []) ∨ ∃ tr', Trace k tr' o ∧ filesRead tr = filesRead tr'
  | 0, tr, h => .inr ⟨tr, h, rfl⟩
  | n + 1, tr, h => by
    cases h with
    | stop => exact .inl ⟨rfl, rfl⟩
    | out _ _ tr _ h => exact outTimes_any (tr := tr) n h

/-- How reading one config file ends. -/
inductive ReadAs (file : Bytes) (before : Option ConfigFile × Nat) :
    Option Bytes → Outcome (Option ConfigFile × Nat) → Prop
  | missing : ReadAs file before none (.ret before)
  | killed (r : Option Bytes) : ReadAs file before r .running
  | ok (text : Bytes) (c : ConfigFile) (line : Nat) : (parseConfigText file text before.1).2 = .ok c → ReadAs file before (some text) (.ret (some c, line))
  | exit (text : Bytes) (n : Nat) : (parseConfigText file text before.1).2 = .exit n → ReadAs file before (some text) (.exit n)
  | ub (text : Bytes) (u : UB) : (parseConfigText file text before.1).2 = .ub u → ReadAs file before (some text) (.ub u)
  | stuck (text : Bytes) : (parseConfigText file text before.1).2 = .stuck → ReadAs file before (some text) .stuck

theorem parseConfigFile_any {file : Bytes} {before : Option ConfigFile × Nat} {tr : List Event} {o : Outcome (Option ConfigFile × Nat)}
    (h : Trace (parseConfigFile file before) tr o) :
    (tr = [] ∧ o = .running) ∨ ∃ r, filesRead tr = [(file, r)] ∧ ReadAs file before r o := by
  unfold parseConfigFile at h
  cases h with
  | stop => exact .inl ⟨rfl, rfl⟩
  | slurp _ _ r tr _ h =>
    refine .inr ⟨r, ?_⟩
    cases r with
    | none =>
      cases h with
      | stop => exact ⟨rfl, .killed _⟩
      | ret => exact ⟨rfl, .missing⟩
    | some text =>
      simp only [filesRead]
      rcases outTimes_any _ h with ⟨h1, h2⟩ | ⟨tr', h1, h2⟩
      · rw [h2, h1]
        exact ⟨rfl, .killed _⟩
      · rw [h2]
        cases hp : (parseConfigText file text before.1).2 with
        | ok c =>
          rw [hp] at h1
          cases h1 with
          | stop => exact ⟨rfl, .killed _⟩
          | ret => exact ⟨rfl, .ok _ _ _ hp⟩
        | exit n =>
          rw [hp] at h1
          cases h1 with
          | stop => exact ⟨rfl, .killed _⟩
          | err _ _ _ _ h1 =>
            cases h1 with
            | stop => exact ⟨rfl, .killed _⟩
            | exit => exact ⟨rfl, .exit _ _ hp⟩
        | ub u =>
          rw [hp] at h1
          cases h1 with
          | stop => exact ⟨rfl, .killed _⟩
          | ub => exact ⟨rfl, .ub _ _ hp⟩
        | stuck =>
          rw [hp] at h1
          cases h1 with
          | stop => exact ⟨rfl, .killed _⟩
          | stuck => exact ⟨rfl, .stuck _ hp⟩

/-- Reading a series of existing config files, each on top of the result of those before. -/
inductive Merged : Option ConfigFile → List (Bytes × Bytes) → Option ConfigFile → Prop
  | nothing (c : Option ConfigFile) : Merged c [] c
  | more (c : Option ConfigFile) (p text : Bytes) (c' : ConfigFile) (rest : List (Bytes × Bytes)) (r : Option ConfigFile) :
      (parseConfigText p text c).2 = .ok c' → Merged (some c') rest r → Merged c ((p, text) :: rest) r

theorem Merged.append {a b c : Option ConfigFile} {xs ys : List (Bytes × Bytes)} (h1 : Merged a xs b) (h2 : Merged b ys c) :
    Merged a (xs ++ ys) c := by
  induction h1 with
  | nothing => exact h2
  | more _ p text c' rest _ hp _ ih => exact .more _ p text c' _ _ hp (ih h2)

/-- One more file tried. -/
theorem parseConfigFile_step {file : Bytes} {before c : Option ConfigFile × Nat} {tr : List Event}
    (h : Trace (parseConfigFile file before) tr (.ret c)) :
    (filesRead tr = [(file, none)] ∧ c = before) ∨
      (∃ text c', filesRead tr = [(file, some text)] ∧ c.1 = some c' ∧ (parseConfigText file text before.1).2 = .ok c') := by
  rcases parseConfigFile_any h with ⟨_, h⟩ | ⟨r, h1, h2⟩
  · cases h
  · cases h2 with
    | missing => exact .inl ⟨h1, rfl⟩
    | ok text c' line hp => exact .inr ⟨text, c', h1, rfl, hp⟩

theorem tryConfig_allOf {path : Bytes} {before c : Option ConfigFile × Nat} {tr : List Event}
    (h : Trace (tryConfig path before) tr (.ret c)) :
    ∃ ex, AllOf (short path) (filesRead tr) ex ∧ Merged before.1 ex c.1 := by
  unfold tryConfig at h
  unfold short
  have hl : maxPathLen = 256 := rfl
  rw [hl] at h
  split at h
  · next hs =>
    rw [if_pos hs]
    rcases parseConfigFile_step h with ⟨h1, rfl⟩ | ⟨text, c', h1, hc, h2⟩
    · exact ⟨[], h1 ▸ .missing _ _ _ _ .nothing, .nothing _⟩
    · rw [hc]
      exact ⟨[(path, text)], h1 ▸ .found _ _ _ _ _ .nothing, .more _ _ _ _ _ _ h2 (.nothing _)⟩
  · next hs =>
    rw [if_neg hs]
    cases h
    exact ⟨[], .nothing, .nothing _⟩

theorem allOf_append {ps qs : List Bytes} {r1 r2 : List (Bytes × Option Bytes)} {e1 e2 : List (Bytes × Bytes)}
    (h1 : AllOf ps r1 e1) (h2 : AllOf qs r2 e2) : AllOf (ps ++ qs) (r1 ++ r2) (e1 ++ e2) := by
  induction h1 with
  | nothing => exact h2
  | found p ps text reads r _ ih => exact .found _ _ _ _ _ ih
  | missing p ps reads r _ ih => exact .missing _ _ _ _ ih

/-- The search for a system-wide file. -/
inductive SystemSearch : List Bytes → List (Bytes × Option Bytes) → Option ConfigFile → Prop
  | nothing : SystemSearch [] [] none
  | found (p : Bytes) (ps : List Bytes) (text : Bytes) (c : ConfigFile) : (parseConfigText p text none).2 = .ok c →
      SystemSearch (p :: ps) [(p, some text)] (some c)
  | missing (p : Bytes) (ps : List Bytes) (reads : List (Bytes × Option Bytes)) (r : Option ConfigFile) :
      SystemSearch ps reads r → SystemSearch (p :: ps) ((p, none) :: reads) r

theorem SystemSearch.firstOf {ps : List Bytes} {reads : List (Bytes × Option Bytes)} {c : Option ConfigFile}
    (h : SystemSearch ps reads c) : ∃ ex, FirstOf ps reads ex ∧ Merged none ex c := by
  induction h with
  | nothing => exact ⟨[], .nothing, .nothing _⟩
  | found p ps text c hp => exact ⟨_, .found _ _ _, .more _ _ _ _ _ _ hp (.nothing _)⟩
  | missing p ps reads r _ ih =>
    obtain ⟨ex, h1, h2⟩ := ih
    exact ⟨ex, .missing _ _ _ _ h1, h2⟩

theorem systemSearch_snoc {ps : List Bytes} {reads : List (Bytes × Option Bytes)} {c c' : Option ConfigFile × Nat} {p : Bytes}
    {tr : List Event} (h : SystemSearch ps reads c.1)
    (ht : Trace (match c.1 with | some x => Prog.ret (some x, c.2) | none => parseConfigFile p (none, c.2)) tr (.ret c')) :
    SystemSearch (ps ++ [p]) (reads ++ filesRead tr) c'.1 := by
  obtain ⟨c, line⟩ := c
  simp only at h ht
  induction h with
  | nothing =>
    rcases parseConfigFile_step ht with ⟨h1, rfl⟩ | ⟨text, c', h1, hc, h2⟩
    · rw [h1]; exact .missing _ _ _ _ .nothing
    · rw [h1, hc]; exact .found _ _ _ _ h2
  | found p ps text c hp =>
    cases ht
    exact .found _ _ _ _ hp
  | missing p ps reads r _ ih => exact .missing _ _ _ _ (ih ht)

theorem tryConfig_system {path : Bytes} {line : Nat} {c : Option ConfigFile × Nat} {tr : List Event}
    (h : Trace (tryConfig path (none, line)) tr (.ret c)) : SystemSearch (short path) (filesRead tr) c.1 := by
  unfold tryConfig at h
  unfold short
  have hl : maxPathLen = 256 := rfl
  rw [hl] at h
  split at h
  · next hs =>
    rw [if_pos hs]
    rcases parseConfigFile_step h with ⟨h1, rfl⟩ | ⟨text, c', h1, hc, h2⟩
    · rw [h1]; exact .missing _ _ _ _ .nothing
    · rw [h1, hc]; exact .found _ _ _ _ h2
  · next hs =>
    rw [if_neg hs]
    cases h
    exact .nothing

theorem optional_allOf {x : Option Bytes} {suffix : Bytes} {before c : Option ConfigFile × Nat} {tr : List Event}
    (h : Trace (match x with | some h => tryConfig (h ++ suffix) before | none => .ret before) tr (.ret c)) :
    ∃ ex, AllOf (inDir x suffix) (filesRead tr) ex ∧ Merged before.1 ex c.1 := by
  cases x with
  | none => cases h; exact ⟨[], .nothing, .nothing _⟩
  | some h' => exact tryConfig_allOf h

theorem configFileLoad_ret {E : ConfigEnv} {tr : List Event} {c : ConfigFile} (h : Trace (configFileLoad E none) tr (.ret c)) :
    ∃ sys user ex1 ex2 m, filesRead tr = sys ++ user ∧ FirstOf (systemFiles E) sys ex1 ∧ AllOf (userFiles E) user ex2 ∧
      Merged none (ex1 ++ ex2) m ∧ (m = some c ∨ m = none ∧ spoofConfigFile = .ok c) := by
  unfold configFileLoad at h
  obtain ⟨c1, t1, u1, rfl, h1, k1⟩ := trace_bind_ret h
  obtain ⟨c2, t2, u2, rfl, h2, k2⟩ := trace_bind_ret k1
  obtain ⟨c3, t3, u3, rfl, h3, k3⟩ := trace_bind_ret k2
  obtain ⟨c4, t4, u4, rfl, h4, k4⟩ := trace_bind_ret k3
  obtain ⟨c5, t5, u5, rfl, h5, k5⟩ := trace_bind_ret k4
  have s1 : SystemSearch (inDir E.sysconfdir (lit "/detoxrc")) (filesRead t1) c1.1 := by
    cases hd : E.sysconfdir with
    | none =>
      rw [hd] at h1
      cases h1
      exact .nothing
    | some d =>
      rw [hd] at h1
      exact tryConfig_system h1
  have s2 := systemSearch_snoc s1 h2
  have s3 := systemSearch_snoc s2 h3
  obtain ⟨ex1, f1, m1⟩ := s3.firstOf
  obtain ⟨e4, a4, m4⟩ := optional_allOf h4
  obtain ⟨e5, a5, m5⟩ := optional_allOf h5
  refine ⟨_, _, ex1, e4 ++ e5, c5.1, ?_, f1, allOf_append a4 a5, m1.append (m4.append m5), ?_⟩
  · simp only [filesRead_append]
    have : filesRead u5 = [] := by
      obtain ⟨c5, line⟩ := c5
      cases c5 with
      | some c5 => cases k5; rfl
      | none =>
        cases hs : spoofConfigFile with
        | ok c => rw [hs] at k5; cases k5; rfl
        | exit n => rw [hs] at k5; cases k5
        | ub u => rw [hs] at k5; cases k5
        | stuck => rw [hs] at k5; cases k5
    rw [this]
    simp
  · obtain ⟨c5, line⟩ := c5
    cases c5 with
    | some c5 => cases k5; exact .inl rfl
    | none =>
      refine .inr ⟨rfl, ?_⟩
      cases hs : spoofConfigFile with
      | ok c => rw [hs] at k5; cases k5; rfl
      | exit n => rw [hs] at k5; cases k5
      | ub u => rw [hs] at k5; cases k5
      | stuck => rw [hs] at k5; cases k5

/-! ### Failures -/

/-- The program fails only because of the file it read last. -/
def Fails {α : Type} (p : Prog α) : Prop :=
  ∀ tr (o : Outcome α), Trace p tr o → o = .running ∨ (∃ c, o = .ret c) ∨
    ∃ reads q text previous, filesRead tr = reads ++ [(q, some text)] ∧ FailsAs (parseConfigText q text previous).2 o

theorem Fails.ret {α : Type} (a : α) : Fails (.ret a) := by
  intro tr o h
  cases h with
  | stop => exact .inl rfl
  | ret => exact .inr (.inl ⟨a, rfl⟩)

theorem Fails.bind {α β : Type} {p : Prog α} {f : α → Prog β} (h1 : Fails p) (h2 : ∀ a, Fails (f a)) : Fails (p.bind f) := by
  intro tr o h
  rcases trace_bind_any h with ⟨a, t1, t2, rfl, ht1, ht2⟩ | ⟨o', hs, ht⟩
  · rcases h2 a t2 o ht2 with h | h | ⟨reads, q, text, previous, h3, h4⟩
    · exact .inl h
    · exact .inr (.inl h)
    · refine .inr (.inr ⟨filesRead t1 ++ reads, q, text, previous, ?_, h4⟩)
      rw [filesRead_append, h3, List.append_assoc]
  · rcases h1 tr o' ht with h | ⟨c, h⟩ | ⟨reads, q, text, previous, h3, h4⟩
    · subst h; cases hs; exact .inl rfl
    · subst h; cases hs
    · refine .inr (.inr ⟨reads, q, text, previous, h3, ?_⟩)
      generalize (parseConfigText q text previous).2 = r at h4 ⊢
      cases h4 <;> cases hs <;> constructor

theorem Fails.read (file : Bytes) (before : Option ConfigFile × Nat) : Fails (parseConfigFile file before) := by
  intro tr o h
  rcases parseConfigFile_any h with ⟨_, h⟩ | ⟨r, h1, h2⟩
  · exact .inl h
  · cases h2 with
    | missing => exact .inr (.inl ⟨_, rfl⟩)
    | killed => exact .inl rfl
    | ok text c line hp => exact .inr (.inl ⟨_, rfl⟩)
    | exit text n hp => exact .inr (.inr ⟨[], file, text, before.1, h1, hp ▸ .exit n⟩)
    | ub text u hp => exact .inr (.inr ⟨[], file, text, before.1, h1, hp ▸ .ub u⟩)
    | stuck text hp => exact .inr (.inr ⟨[], file, text, before.1, h1, hp ▸ .stuck⟩)

theorem Fails.try (file : Bytes) (before : Option ConfigFile × Nat) : Fails (tryConfig file before) := by
  unfold tryConfig
  split
  · exact Fails.read _ _
  · exact Fails.ret _

theorem Merged.none_iff {ex : List (Bytes × Bytes)} (h : Merged none ex none) : ex = [] := by
  have key : ∀ {a b : Option ConfigFile} {xs : List (Bytes × Bytes)}, Merged a xs b → b = none → xs = [] := by
    intro a b xs h
    induction h with
    | nothing => intro _; rfl
    | more c p text c' rest r hp hm ih =>
      intro hr
      have := ih hr
      subst this
      cases hm
      cases hr
  exact key h rfl

end Detox
