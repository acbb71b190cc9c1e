import Verif.Props.Result

/-!
# What is written while configuration and tables are read
-/

set_option autoImplicit false

namespace Detox
open Spec

/-- If what is read is in `S`, nothing is written, unless the program gives up. -/
def Prog.Murmurs (S : Option Bytes → Option Bytes → Prop) {α : Type} : Prog α → Prop
  | .ret _ => True
  | .exit _ => True
  | .ub _ => True
  | .stuck => True
  | .slurp p k => ∀ r, S p r → (k r).Murmurs S
  | .err _ k => ∀ tr a, ¬ Trace k tr (.ret a)
  | _ => False

section
variable {S : Option Bytes → Option Bytes → Prop}

theorem murmurs_bind {α β : Type} {p : Prog α} {f : α → Prog β} (h : p.Murmurs S) (hf : ∀ a, (f a).Murmurs S) : (p.bind f).Murmurs S := by
  induction p with
  | ret a => exact hf a
  | exit n => trivial
  | ub u => trivial
  | stuck => trivial
  | slurp p k ih => exact fun r hr => ih r (h r hr)
  | out s k ih => exact h.elim
  | err s k ih =>
    intro tr a ht
    rcases trace_bind_any ht with ⟨b, t1, _, _, h1, _⟩ | ⟨o', h1, _⟩
    · exact h t1 b h1
    · cases o' <;> cases h1
  | lstat p k ih => exact h.elim
  | rename o n k ih => exact h.elim
  | opendir p k ih => exact h.elim
  | readdir d k ih => exact h.elim
  | closedir d k ih => exact h.elim

theorem murmurs_trace {α : Type} {p : Prog α} (h : p.Murmurs S) {tr : List Event} {a : α} (ht : Trace p tr (.ret a)) :
    (∀ p r, Event.slurp p r ∈ tr → S p r) → ∀ e ∈ tr, ∃ q r, e = .slurp q r := by
  induction p generalizing tr with
  | ret a => cases ht; intro _; simp
  | exit n => cases ht
  | ub u => cases ht
  | stuck => cases ht
  | slurp p k ih =>
    cases ht with
    | slurp _ _ r _ _ ht =>
      intro hS e he
      rcases List.mem_cons.1 he with rfl | he
      · exact ⟨_, _, rfl⟩
      · exact ih r (h r (hS _ _ (by simp))) ht (fun p r hm => hS p r (by simp [hm])) e he
  | out s k ih => exact h.elim
  | err s k ih =>
    cases ht with
    | err _ _ _ _ ht => exact absurd ht (h _ _)
  | lstat p k ih => exact h.elim
  | rename o n k ih => exact h.elim
  | opendir p k ih => exact h.elim
  | readdir d k ih => exact h.elim
  | closedir d k ih => exact h.elim

theorem murmurs_exit {α : Type} (s : Bytes) (n : Nat) : (Prog.err s (.exit n) : Prog α).Murmurs S := fun _ _ h => by cases h

/-- A config file that is well written. -/
def WellWritten (p r : Option Bytes) : Prop := ∀ path text, p = some path → r = some text → ∃ rs, Means text rs

theorem means_no_remark {text : Bytes} {rs : List Rule} (h : Means text rs) (f : Bytes) (c : Option ConfigFile) : (parseConfigText f text c).1 = 0 := by
  obtain ⟨ts, h1, _⟩ := h
  unfold parseConfigText
  rw [lex_spells h1]
  simp only [cfRun_toks]

theorem parseConfigFile_murmurs (f : Bytes) (before : Option ConfigFile × Nat) : (parseConfigFile f before).Murmurs WellWritten := by
  intro r hr
  cases r with
  | none => trivial
  | some text =>
    obtain ⟨rs, hm⟩ := hr f text rfl rfl
    dsimp only
    rw [means_no_remark hm]
    show Prog.Murmurs _ _
    unfold outTimes
    split
    · trivial
    · exact murmurs_exit _ _
    · trivial
    · trivial

theorem tryConfig_murmurs (f : Bytes) (before : Option ConfigFile × Nat) : (tryConfig f before).Murmurs WellWritten := by
  unfold tryConfig
  split
  · exact parseConfigFile_murmurs _ _
  · trivial

theorem ofRes_murmurs {α : Type} (r : Res α) : (Prog.ofRes r).Murmurs S := by cases r <;> trivial

theorem configFileLoad_murmurs (E : ConfigEnv) (given : Option Bytes) : (configFileLoad E given).Murmurs WellWritten := by
  unfold configFileLoad
  split
  · refine murmurs_bind (parseConfigFile_murmurs _ _) fun r => ?_
    split
    · trivial
    · exact murmurs_exit _ _
  · refine murmurs_bind (by split; exact tryConfig_murmurs _ _; trivial) fun c1 => ?_
    refine murmurs_bind (by split; trivial; exact parseConfigFile_murmurs _ _) fun c2 => ?_
    refine murmurs_bind (by split; trivial; exact parseConfigFile_murmurs _ _) fun c3 => ?_
    refine murmurs_bind (by split; exact tryConfig_murmurs _ _; trivial) fun c4 => ?_
    refine murmurs_bind (by split; exact tryConfig_murmurs _ _; trivial) fun c5 => ?_
    split
    · trivial
    · exact ofRes_murmurs _

theorem tryTable_murmurs (ctype path : Bytes) : (tryTable ctype path).Murmurs S := by
  unfold tryTable
  split
  · exact fun _ _ => trivial
  · trivial

theorem findTable_murmurs (ctype : Bytes) (datadir : Option Bytes) (n : Bytes) : (findTable ctype datadir n).Murmurs S := by
  unfold findTable
  refine murmurs_bind (by split; exact tryTable_murmurs _ _; trivial) fun t1 => ?_
  split
  · trivial
  · refine murmurs_bind (tryTable_murmurs _ _) fun t2 => ?_
    split
    · trivial
    · exact tryTable_murmurs _ _

theorem loadTable_murmurs (ctype : Bytes) (datadir : Option Bytes) (f : Filter) : (loadTable ctype datadir f).Murmurs S := by
  unfold loadTable
  split
  · trivial
  · split
    · split
      · exact murmurs_exit _ _
      · trivial
    · split
      · refine murmurs_bind (fun _ _ => trivial) fun r => ?_
        split
        · exact murmurs_exit _ _
        · trivial
      · refine murmurs_bind (findTable_murmurs _ _ _) fun r => ?_
        split
        · trivial
        · split
          · exact murmurs_exit _ _
          · trivial

theorem loadTables_murmurs (ctype : Bytes) (datadir : Option Bytes) : ∀ fs, (loadTables ctype datadir fs).Murmurs S
  | [] => trivial
  | _ :: fs => murmurs_bind (loadTable_murmurs _ _ _) fun _ => murmurs_bind (loadTables_murmurs ctype datadir fs) fun _ => trivial

theorem reviewSequence_murmurs (ctype : Bytes) (datadir : Option Bytes) (q : Sequence) : (reviewSequence ctype datadir q).Murmurs S :=
  murmurs_bind (loadTables_murmurs _ _ _) fun _ => trivial

end

theorem mem_filesRead {tr : List Event} {p : Bytes} {r : Option Bytes} (h : Event.slurp (some p) r ∈ tr) : (p, r) ∈ filesRead tr := by
  induction tr with
  | nil => cases h
  | cons e tr ih =>
    rcases List.mem_cons.1 h with rfl | h
    · exact List.mem_cons_self
    · unfold filesRead
      split
      · rename_i heq; cases heq
      · rename_i heq; cases heq; exact List.mem_cons_of_mem _ (ih (by assumption))
      · rename_i heq; cases heq; exact ih (by assumption)

theorem firstOf_text {ps : List Bytes} {reads : List (Bytes × Option Bytes)} {ex : List (Bytes × Bytes)} (h : FirstOf ps reads ex) {p text : Bytes}
    (hm : (p, some text) ∈ reads) : (p, text) ∈ ex := by
  induction h with
  | nothing => cases hm
  | found => simpa using hm
  | missing p ps reads r _ ih => exact ih (by simpa using hm)

theorem allOf_text {ps : List Bytes} {reads : List (Bytes × Option Bytes)} {ex : List (Bytes × Bytes)} (h : AllOf ps reads ex) {p text : Bytes}
    (hm : (p, some text) ∈ reads) : (p, text) ∈ ex := by
  induction h with
  | nothing => cases hm
  | found q ps text' reads r _ ih =>
    rcases List.mem_cons.1 hm with h | h
    · cases h; exact List.mem_cons_self
    · exact List.mem_cons_of_mem _ (ih h)
  | missing p ps reads r _ ih => exact ih (by simpa using hm)

theorem config_texts {E : ConfigEnv} {given : Option Bytes} {files : Bytes → Option Bytes} {qs : List Sequence} (hq : SequencesAre E given files qs)
    {tr : List Event} {c : ConfigFile} (h : Trace (configFileLoad E given) tr (.ret c)) (hf : ∀ e ∈ tr, Faithful files e) :
    ∀ p r, Event.slurp p r ∈ tr → WellWritten p r := by
  have hr : ReadsFrom files (filesRead tr) := fun x hx => hf _ (filesRead_mem hx) _ _ rfl
  have key : ∀ p text, (p, text) ∈ configsInEffect E given files → ∃ rs, Means text rs := by
    intro p text hm
    cases hq with
    | written conf hne hconf hw =>
      rw [← hconf] at hm
      obtain ⟨x, hx, h1⟩ := List.mem_map.1 hm
      cases h1
      exact ⟨_, hw x hx⟩
    | builtin hg hno =>
      subst hg
      rw [hno] at hm
      cases hm
  rintro _ _ hm p text rfl rfl
  refine key p text ?_
  have hmem : (p, some text) ∈ filesRead tr := mem_filesRead hm
  cases given with
  | some f =>
    obtain ⟨text', h5, h6⟩ := C44_option_f_result h
    have hx : some text' = files f := hr (f, some text') (by rw [h5]; simp)
    rw [h5] at hmem
    cases List.mem_singleton.1 hmem
    unfold configsInEffect present
    simp [← hx]
  | none =>
    obtain ⟨sys, user, ex1, ex2, h5, h6, h7, h8⟩ := C44_without_option_f h
    rw [h5] at hr hmem
    have : configsInEffect E none files = ex1 ++ ex2 := by
      unfold configsInEffect
      simp only
      rw [firstOf_present h6 (fun x hx => hr x (by simp [hx])), allOf_present h7 (fun x hx => hr x (by simp [hx]))]
    rw [this]
    rcases List.mem_append.1 hmem with hm | hm
    · exact List.mem_append.2 (.inl (firstOf_text h6 hm))
    · exact List.mem_append.2 (.inr (allOf_text h7 hm))

end Detox
