import Verif.Props.Exit

/-!
# Where tables come from
-/

set_option autoImplicit false

namespace Detox
open Spec

/-- **C67**: loading the tables of a sequence reads exactly the files it should, in order, and gives each filter the table it
should have; everything else about the filters stays as it was. -/
theorem C67_tables_loaded {ctype : Bytes} {datadir : Option Bytes} {q q' : Sequence} {tr : List Event}
    (h : Trace (reviewSequence ctype datadir q) tr (.ret q')) :
    TablesFor ctype datadir q.filters (filesRead tr) q'.filters ∧ q'.name = q.name ∧ q'.sourceFilename = q.sourceFilename :=
  reviewSequence_ret h

/-- The program always returns. -/
def Prog.Returns {α : Type} (p : Prog α) : Prop := ∀ tr out, Trace p tr out → out ≠ .running → ∃ a, out = .ret a

theorem Prog.Returns.ret {α : Type} (a : α) : (Prog.ret a).Returns := by
  intro tr out h hr
  cases h with
  | stop => exact absurd rfl hr
  | ret => exact ⟨a, rfl⟩

theorem Prog.Returns.bind {α β : Type} {p : Prog α} {f : α → Prog β} (hp : p.Returns) (hf : ∀ a, (f a).Returns) :
    (p.bind f).Returns := by
  intro tr out h hr
  rcases trace_bind_any h with ⟨a, t1, t2, rfl, h1, h2⟩ | ⟨o', h1, h2⟩
  · exact hf a _ _ h2 hr
  · obtain ⟨a, rfl⟩ := hp _ _ h2 (by rintro rfl; cases h1; exact hr rfl)
    cases h1

theorem tryTable_returns (ctype path : Bytes) : (tryTable ctype path).Returns := by
  unfold tryTable
  split
  · intro tr out h hr
    cases h with
    | stop => exact absurd rfl hr
    | slurp _ _ r tr _ h => exact Prog.Returns.ret _ _ _ h hr
  · exact .ret _

theorem findTable_returns (ctype : Bytes) (datadir : Option Bytes) (name : Bytes) : (findTable ctype datadir name).Returns := by
  unfold findTable
  refine .bind ?_ fun t1 => ?_
  · cases datadir with
    | none => exact .ret _
    | some d => exact tryTable_returns _ _
  · cases t1 with
    | some t => exact .ret _
    | none =>
      refine .bind (tryTable_returns _ _) fun t2 => ?_
      cases t2 with
      | some t => exact .ret _
      | none => exact tryTable_returns _ _

/-- **C67**: it fails only for a table named in the config file: one that is not compiled in, or a file without a table. -/
theorem C67_only_named_tables_can_be_missing {ctype : Bytes} {datadir : Option Bytes} {f : Filter} {tr : List Event}
    {out : Outcome (Option Table)} (h : Trace (loadTable ctype datadir f) tr out) (hret : ∀ t, out ≠ .ret t)
    (hrun : out ≠ .running) : out = .exit 1 ∧ (∃ n, UsualTable f.cleaner n) ∧ ∃ m,
      (tr = [.err m] ∧ ∃ b, f.builtin = some b ∧ ∀ t, ¬ BuiltinNamed b t) ∨
      (f.builtin = none ∧ ∃ path r, f.filename = some path ∧ tr = [.slurp (some path) r, .err m] ∧ NoTable ctype r) := by
  unfold loadTable at h
  rcases defaultTableFilename_iff f.cleaner with ⟨n, hu, hd⟩ | ⟨hu, hd⟩
  · rw [hd] at h
    simp only at h
    cases hb : f.builtin with
    | some b =>
      rw [hb] at h
      simp only at h
      cases hl : filterLoadBuiltinByFilename b with
      | some t' =>
        rw [hl] at h
        cases h with
        | stop => exact absurd rfl hrun
        | ret => exact absurd rfl (hret _)
      | none =>
        rw [hl] at h
        cases h with
        | stop => exact absurd rfl hrun
        | err _ _ _ _ h =>
          cases h with
          | stop => exact absurd rfl hrun
          | exit =>
            refine ⟨rfl, ⟨n, hu⟩, _, .inl ⟨rfl, b, rfl, fun t ht => ?_⟩⟩
            rw [← filterLoadBuiltinByFilename_iff, hl] at ht
            cases ht
    | none =>
      rw [hb] at h
      simp only at h
      cases hf : f.filename with
      | some fn =>
        rw [hf] at h
        simp only [readTable, Prog.bind] at h
        cases h with
        | stop => exact absurd rfl hrun
        | slurp _ _ r tr _ h =>
          simp only at h
          cases hr : r.bind (parseTableContent ctype) with
          | some t =>
            rw [hr] at h
            cases h with
            | stop => exact absurd rfl hrun
            | ret => exact absurd rfl (hret _)
          | none =>
            rw [hr] at h
            cases h with
            | stop => exact absurd rfl hrun
            | err _ _ _ _ h =>
              cases h with
              | stop => exact absurd rfl hrun
              | exit =>
                refine ⟨rfl, ⟨n, hu⟩, _, .inr ⟨rfl, fn, r, rfl, rfl, fun text ht => ?_⟩⟩
                rw [ht] at hr
                exact hr
      | none =>
        rw [hf] at h
        simp only at h
        exfalso
        obtain ⟨t, ht⟩ := Prog.Returns.bind (findTable_returns ctype datadir _) (fun r => by
          cases r with
          | some t => exact .ret _
          | none =>
            obtain ⟨t, ht, _⟩ := filterLoadBuiltin_usual hu
            simp only [ht]
            exact .ret _) _ _ h hrun
        exact hret t ht
  · rw [hd] at h
    cases h with
    | stop => exact absurd rfl hrun
    | ret => exact absurd rfl (hret _)

theorem tryTable_link {ctype path : Bytes} {datadir : Option Bytes} {files : Bytes → Option Bytes} {tr : List Event}
    {t : Option Table} (h : Trace (tryTable ctype path) tr (.ret t)) (hf : ReadsFrom files (filesRead tr)) :
    TableEnv.tryPath ⟨parseTable ctype files, datadir⟩ path = t := by
  unfold tryTable at h
  unfold TableEnv.tryPath
  split
  · next hs =>
    rw [if_pos hs] at h
    obtain ⟨r, h1, rfl⟩ := readTable_ret h
    have := hf (path, r) (by rw [h1]; simp)
    simp only at this
    rw [this]
    rfl
  · next hs =>
    rw [if_neg hs] at h
    cases h
    rfl

theorem readsFrom_append {files : Bytes → Option Bytes} {t1 t2 : List Event} (h : ReadsFrom files (filesRead (t1 ++ t2))) :
    ReadsFrom files (filesRead t1) ∧ ReadsFrom files (filesRead t2) := by
  rw [filesRead_append] at h
  exact ⟨fun x hx => h x (List.mem_append.2 (.inl hx)), fun x hx => h x (List.mem_append.2 (.inr hx))⟩

theorem findTable_link {ctype name : Bytes} {datadir : Option Bytes} {files : Bytes → Option Bytes} {tr : List Event}
    {t : Option Table} (h : Trace (findTable ctype datadir name) tr (.ret t)) (hf : ReadsFrom files (filesRead tr)) :
    filterFindTable ⟨parseTable ctype files, datadir⟩ name = t := by
  unfold findTable at h
  obtain ⟨t1, tr1, tr2, rfl, h1, h2⟩ := trace_bind_ret h
  obtain ⟨hf1, hf2⟩ := readsFrom_append hf
  have rest : t1 = none → ((TableEnv.tryPath ⟨parseTable ctype files, datadir⟩ (lit "/usr/share/detox/" ++ name)).or
      (TableEnv.tryPath ⟨parseTable ctype files, datadir⟩ (lit "/usr/local/share/detox/" ++ name))) = t := by
    rintro rfl
    obtain ⟨t2, tr3, tr4, rfl, h3, h4⟩ := trace_bind_ret h2
    obtain ⟨hf3, hf4⟩ := readsFrom_append hf2
    rw [tryTable_link h3 hf3]
    cases t2 with
    | some t' => cases h4; rfl
    | none => exact tryTable_link h4 hf4
  have last : filterFindTable ⟨parseTable ctype files, datadir⟩ name =
      (datadir.bind fun d => TableEnv.tryPath ⟨parseTable ctype files, datadir⟩ (d ++ lit "/detox/" ++ name)).or
      ((TableEnv.tryPath ⟨parseTable ctype files, datadir⟩ (lit "/usr/share/detox/" ++ name)).or
      (TableEnv.tryPath ⟨parseTable ctype files, datadir⟩ (lit "/usr/local/share/detox/" ++ name))) := by
    unfold filterFindTable
    generalize TableEnv.tryPath ⟨parseTable ctype files, datadir⟩ (lit "/usr/share/detox/" ++ name) = b
    generalize TableEnv.tryPath ⟨parseTable ctype files, datadir⟩ (lit "/usr/local/share/detox/" ++ name) = c
    cases datadir with
    | none => cases b <;> rfl
    | some d =>
      simp only [Option.bind_some]
      generalize TableEnv.tryPath ⟨parseTable ctype files, some d⟩ (d ++ lit "/detox/" ++ name) = a
      cases a <;> cases b <;> rfl
  have s1 : (datadir.bind fun d => TableEnv.tryPath ⟨parseTable ctype files, datadir⟩ (d ++ lit "/detox/" ++ name)) = t1 := by
    cases datadir with
    | none => cases h1; rfl
    | some d => exact tryTable_link h1 hf1
  rw [last, s1]
  cases t1 with
  | some t' => cases h2; rfl
  | none => exact rest rfl

theorem loadTable_link {ctype : Bytes} {datadir : Option Bytes} {files : Bytes → Option Bytes} {f : Filter} {tr : List Event}
    {t : Option Table} (h : Trace (loadTable ctype datadir f) tr (.ret t)) (hf : ReadsFrom files (filesRead tr)) :
    filterLoadTable ⟨parseTable ctype files, datadir⟩ f = .ok t := by
  unfold loadTable at h
  unfold filterLoadTable
  cases hd : defaultTableFilename f.cleaner with
  | none => rw [hd] at h; cases h; rfl
  | some n =>
    rw [hd] at h
    simp only at h ⊢
    cases hb : f.builtin with
    | some b =>
      rw [hb] at h
      simp only at h ⊢
      cases hl : filterLoadBuiltinByFilename b with
      | some t' => rw [hl] at h; cases h; rfl
      | none => rw [hl] at h; cases h with | err _ _ _ _ h => cases h
    | none =>
      rw [hb] at h
      simp only at h ⊢
      cases hn : f.filename with
      | some fn =>
        rw [hn] at h
        simp only at h ⊢
        obtain ⟨t1, tr1, tr2, rfl, h1, h2⟩ := trace_bind_ret h
        obtain ⟨hf1, hf2⟩ := readsFrom_append hf
        obtain ⟨r, h3, rfl⟩ := readTable_ret h1
        have := hf1 (fn, r) (by rw [h3]; simp)
        simp only at this
        unfold parseTable
        rw [← this]
        cases hr : r.bind (parseTableContent ctype) with
        | none => rw [hr] at h2; cases h2 with | err _ _ _ _ h => cases h
        | some t' => rw [hr] at h2; cases h2; rfl
      | none =>
        rw [hn] at h
        simp only at h ⊢
        obtain ⟨t1, tr1, tr2, rfl, h1, h2⟩ := trace_bind_ret h
        obtain ⟨hf1, hf2⟩ := readsFrom_append hf
        rw [findTable_link h1 hf1]
        cases t1 with
        | some t' => cases h2; rfl
        | none =>
          simp only at h2 ⊢
          cases hl : filterLoadBuiltin f with
          | some t' => rw [hl] at h2; cases h2; rfl
          | none => rw [hl] at h2; cases h2 with | err _ _ _ _ h => cases h

/-- **C67**: on files that do not change meanwhile, loading the tables during a run gives what `sequenceReview`, the function the
properties of cleaning are about, gives for these files. -/
theorem C67_tables_of_fixed_files {ctype : Bytes} {datadir : Option Bytes} {q q' : Sequence} {tr : List Event}
    (h : Trace (reviewSequence ctype datadir q) tr (.ret q')) (files : Bytes → Option Bytes) (hf : ReadsFrom files (filesRead tr)) :
    sequenceReview ⟨parseTable ctype files, datadir⟩ q = .ok q' := by
  have key : ∀ (fs : List Filter) (tr : List Event) (fs' : List Filter), Trace (loadTables ctype datadir fs) tr (.ret fs') →
      ReadsFrom files (filesRead tr) → reviewFilters ⟨parseTable ctype files, datadir⟩ fs = .ok fs' := by
    intro fs
    induction fs with
    | nil => intro tr fs' h _; cases h; rfl
    | cons f fs ih =>
      intro tr fs' h hf
      unfold loadTables at h
      obtain ⟨t, tr1, tr2, rfl, h1, h2⟩ := trace_bind_ret h
      obtain ⟨fs1, tr3, tr4, rfl, h3, h4⟩ := trace_bind_ret h2
      obtain ⟨hf1, hf2⟩ := readsFrom_append hf
      obtain ⟨hf3, hf4⟩ := readsFrom_append hf2
      unfold reviewFilters
      rw [loadTable_link h1 hf1, ih _ _ h3 hf3]
      cases h4
      cases t <;> rfl
  unfold reviewSequence at h
  obtain ⟨fs, tr1, tr2, rfl, h1, h2⟩ := trace_bind_ret h
  unfold sequenceReview
  rw [key _ _ _ h1 (readsFrom_append hf).1]
  cases h2
  rfl

/-- Concrete cases: `filename "my.tbl";`, and a filter of the kind in `sequence "x" { safe; };` with a table in the second place. -/
example : Trace (reviewSequence (lit "C") none { name := lit "x", filters := [{ cleaner := .safe, filename := some (lit "my.tbl") }] })
    [.slurp (some (lit "my.tbl")) none, .err (lit "detox: unable to parse file: \"my.tbl\"\n")] (.exit 1) :=
  Prog.final_sound _ _ _ (by decide +kernel)
example : ∃ q', Trace (reviewSequence (lit "C") none { name := lit "x", filters := [{ cleaner := .safe }] })
    [.slurp (some (lit "/usr/share/detox/safe.tbl")) none,
     .slurp (some (lit "/usr/local/share/detox/safe.tbl")) (some (lit "start\n0x20 _\nend\n"))] (.ret q') :=
  (Option.isSome_iff_exists.1 (by decide +kernel)).imp fun _ h => Prog.result_sound _ _ _ h

end Detox
