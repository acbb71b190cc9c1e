import Verif.Lemmas.ConfigParser
import Verif.Lemmas.Filelist

/-!
# What a series of config files amounts to
-/

set_option autoImplicit false

namespace Detox
open Spec

/-! ### Definitions replace by name -/

theorem firsts_mem {n : Bytes} : ∀ {ns : List Bytes}, n ∈ firsts ns ↔ n ∈ ns
  | [] => by simp [firsts]
  | x :: xs => by
    simp only [firsts, List.mem_cons, List.mem_filter, firsts_mem (ns := xs), decide_eq_true_eq, ne_eq]
    by_cases h : n = x <;> simp [h]

theorem firsts_nodup : ∀ (ns : List Bytes), (firsts ns).Nodup
  | [] => List.nodup_nil
  | x :: xs => by
    simp only [firsts, List.nodup_cons, List.mem_filter, decide_eq_true_eq, ne_eq]
    exact ⟨fun h => h.2 trivial, (firsts_nodup xs).filter _⟩

theorem firsts_snoc (n : Bytes) : ∀ (ns : List Bytes), firsts (ns ++ [n]) = if n ∈ ns then firsts ns else firsts ns ++ [n]
  | [] => rfl
  | x :: xs => by
    simp only [List.cons_append, firsts, firsts_snoc n xs, List.mem_cons]
    by_cases hx : n = x
    · subst hx
      by_cases hm : n ∈ xs
      · simp [hm]
      · simp [hm, List.filter_append]
    · by_cases hm : n ∈ xs
      · simp [hm]
      · simp [hm, hx, List.filter_append]

theorem lastDefinition_snoc (ds : List Sequence) (q : Sequence) (n : Bytes) :
    lastDefinition (ds ++ [q]) n = if q.name = n then some q else lastDefinition ds n := by
  unfold lastDefinition
  rw [List.reverse_append, List.reverse_singleton, List.singleton_append, List.find?_cons]
  by_cases h : q.name = n <;> simp [h]

theorem lastDefinition_some {ds : List Sequence} {n : Bytes} (h : n ∈ ds.map (·.name)) :
    ∃ d, lastDefinition ds n = some d ∧ d.name = n := by
  unfold lastDefinition
  cases hf : ds.reverse.find? (·.name = n) with
  | some d => exact ⟨d, rfl, by simpa using List.find?_some hf⟩
  | none =>
    rw [List.find?_eq_none] at hf
    obtain ⟨d, hd, hn⟩ := List.mem_map.mp h
    exact absurd hn (by simpa using hf d (by simpa using hd))

theorem filterMap_other (ds : List Sequence) (q : Sequence) : ∀ (ns : List Bytes), q.name ∉ ns →
    ns.filterMap (lastDefinition (ds ++ [q])) = ns.filterMap (lastDefinition ds)
  | [], _ => rfl
  | n :: ns, h => by
    simp only [List.mem_cons, not_or] at h
    rw [List.filterMap_cons, List.filterMap_cons, lastDefinition_snoc, if_neg h.1, filterMap_other ds q ns h.2]

theorem replaceSequence_filterMap (ds : List Sequence) (q : Sequence) : ∀ (ns : List Bytes), ns.Nodup →
    (∀ n ∈ ns, n ∈ ds.map (·.name)) → replaceSequence q (ns.filterMap (lastDefinition ds)) =
      if q.name ∈ ns then ns.filterMap (lastDefinition (ds ++ [q])) else ns.filterMap (lastDefinition ds) ++ [q]
  | [], _, _ => rfl
  | n :: ns, hnd, hmem => by
    rw [List.nodup_cons] at hnd
    obtain ⟨d, hd, hdn⟩ := lastDefinition_some (hmem n (by simp))
    rw [List.filterMap_cons, hd]
    simp only [replaceSequence]
    by_cases hq : q.name = n
    · rw [if_pos (hdn.trans hq.symm), if_pos (by simp [hq]), List.filterMap_cons, lastDefinition_snoc, if_pos hq,
        filterMap_other ds q ns (by rw [hq]; exact hnd.1)]
      simp only
      congr 1
      obtain ⟨qn, qf, qs⟩ := q
      obtain ⟨dn, df, dsrc⟩ := d
      simp only at hq hdn ⊢
      rw [hq, hdn]
    · rw [if_neg (by rw [hdn]; exact fun h => hq h.symm),
        replaceSequence_filterMap ds q ns hnd.2 (fun m hm => hmem m (by simp [hm]))]
      by_cases hm : q.name ∈ ns
      · rw [if_pos hm, if_pos (by simp [hm]), List.filterMap_cons, lastDefinition_snoc, if_neg hq, hd]
      · rw [if_neg hm, if_neg (by simp [hm, hq])]
        rfl

theorem inEffect_snoc (ds : List Sequence) (q : Sequence) : inEffect (ds ++ [q]) = replaceSequence q (inEffect ds) := by
  unfold inEffect
  rw [replaceSequence_filterMap ds q _ (firsts_nodup _) (fun n hn => firsts_mem.mp hn), List.map_append, List.map_singleton,
    firsts_snoc]
  by_cases hm : q.name ∈ ds.map (·.name)
  · rw [if_pos hm, if_pos (firsts_mem.mpr hm)]
  · rw [if_neg hm, if_neg (fun h => hm (firsts_mem.mp h)), List.filterMap_append,
      filterMap_other ds q _ (fun h => hm (firsts_mem.mp h))]
    congr 1
    simp [lastDefinition_snoc]

theorem replaceAll_inEffect (ds es : List Sequence) : replaceAll (inEffect ds) es = inEffect (ds ++ es) := by
  induction es generalizing ds with
  | nil => simp [replaceAll]
  | cons e es ih =>
    have : replaceAll (inEffect ds) (e :: es) = replaceAll (replaceSequence e (inEffect ds)) es := rfl
    rw [this, ← inEffect_snoc, ih, List.append_assoc]
    rfl

/-- Names are unique. -/
theorem inEffect_names (ds : List Sequence) : (inEffect ds).map (·.name) = firsts (ds.map (·.name)) := by
  unfold inEffect
  have h : ∀ ns : List Bytes, (∀ n ∈ ns, n ∈ ds.map (·.name)) → (ns.filterMap (lastDefinition ds)).map (·.name) = ns := by
    intro ns
    induction ns with
    | nil => intro _; rfl
    | cons n ns ih =>
      intro h
      obtain ⟨d, hd, hdn⟩ := lastDefinition_some (h n (by simp))
      rw [List.filterMap_cons, hd, List.map_cons, hdn, ih (fun m hm => h m (by simp [hm]))]
  exact h _ (fun n hn => firsts_mem.mp hn)

theorem inEffect_distinct (ds : List Sequence) (h : (ds.map (·.name)).Nodup) : inEffect ds = ds := by
  have key : ∀ (xs ys : List Sequence), ((xs ++ ys).map (·.name)).Nodup → inEffect xs = xs → inEffect (xs ++ ys) = xs ++ ys := by
    intro xs ys
    induction ys generalizing xs with
    | nil => intro _ h; simpa using h
    | cons y ys ih =>
      intro hn hx
      have : xs ++ y :: ys = (xs ++ [y]) ++ ys := by simp
      rw [this] at hn ⊢
      refine ih (xs ++ [y]) hn ?_
      rw [inEffect_snoc, hx]
      have hy : ∀ x ∈ xs, x.name ≠ y.name := by
        rw [List.map_append, List.map_append, List.nodup_append] at hn
        intro x hx
        exact (List.nodup_append.mp hn.1).2.2 _ (List.mem_map_of_mem hx) _ (by simp)
      clear hn hx this ih
      induction xs with
      | nil => rfl
      | cons x xs ih =>
        simp only [replaceSequence, List.cons_append]
        rw [if_neg (hy x (by simp)), ih (fun z hz => hy z (by simp [hz]))]
  have := key [] ds (by simpa using h) rfl
  simpa using this

/-! ### Names to ignore accumulate -/

theorem putMany_holds {l : Filelist} {ws : List Bytes} (h : l.Holds ws 0) (vs : List Bytes) :
    ∃ l', putMany l vs = .ok l' ∧ l'.Holds (ws ++ vs) 0 := by
  induction vs generalizing l ws with
  | nil => exact ⟨l, rfl, by simpa using h⟩
  | cons v vs ih =>
    obtain ⟨l1, h1, h2⟩ := filelistPut_holds h v
    obtain ⟨l2, h3, h4⟩ := ih h2
    exact ⟨l2, by simp only [putMany, h1, Res.bind_ok, h3], by simpa using h4⟩

/-- What has been loaded so far: the definitions and the names to ignore, in the order they were read. -/
def Loaded (c : Option ConfigFile) (ds : List Sequence) (ws : List Bytes) : Prop :=
  match c with
  | none => ds = [] ∧ ws = []
  | some c => c.sequences = inEffect ds ∧ ∃ l, c.filesToIgnore = some l ∧ l.Holds ws 0

/-- The state in which `parse_config_file` starts. -/
theorem start_holds {previous : Option ConfigFile} {ds : List Sequence} {ws : List Bytes} (h : Loaded previous ds ws) :
    (previous.getD configFileInit).sequences = inEffect ds ∧
    (startIgnore (previous.getD configFileInit)).Holds ws 0 := by
  cases previous with
  | none =>
    obtain ⟨rfl, rfl⟩ := h
    exact ⟨rfl, filelistInit_holds⟩
  | some c =>
    obtain ⟨h1, l, h2, h3⟩ := h
    refine ⟨h1, ?_⟩
    simp only [Option.getD_some, startIgnore, h2]
    split
    · exact h3
    · next hc =>
      have : ws = [] := List.length_eq_zero_iff.mp (by rw [← h3.1]; omega)
      subst this
      exact filelistInit_holds

theorem parse_text {ts : List Tok} {rs : List Rule} {text : Bytes} (file : Bytes) {previous : Option ConfigFile}
    {ds : List Sequence} {ws : List Bytes} (ht : Spells ts text) (hg : ConfigG ts rs) (hl : Loaded previous ds ws) :
    ∃ c, parseConfigText file text previous = (0, .ok c) ∧ Loaded (some c) (ds ++ definitions file rs) (ws ++ ignored rs) := by
  obtain ⟨h1, h2⟩ := start_holds hl
  unfold parseConfigText
  rw [lex_spells ht]
  simp only [cfRun_toks]
  generalize startIgnore (previous.getD configFileInit) = l0 at h2 ⊢
  rw [h1]
  obtain ⟨name, hrun⟩ := run_config file hg { sequences := inEffect ds, ignore := l0 } rfl rfl
  obtain ⟨l1, h3, h4⟩ := putMany_holds h2 (ignored rs)
  simp only [h3, Res.bind_ok] at hrun
  rw [hrun]
  refine ⟨{ sequences := replaceAll (inEffect ds) (definitions file rs), filesToIgnore := some l1 }, rfl, ?_, l1, rfl, h4⟩
  exact replaceAll_inEffect ds _

/-- A text whose tokens are no sentence is a syntax error. -/
theorem cfStep_cases (file : Bytes) (st : CState) (t : Tok) {ws : List Bytes} (h : st.ignore.Holds ws 0) :
    (∃ st' ws', cfStep file st t = .ok st' ∧ st'.ignore.Holds ws' 0) ∨ cfStep file st t = .exit 1 := by
  obtain ⟨ph, name, fs, qs, ig⟩ := st
  simp only at h
  have ok : ∀ st' : CState, st'.ignore = ig → ∀ r, r = Res.ok st' →
      (∃ st' ws', r = .ok st' ∧ st'.ignore.Holds ws' 0) ∨ r = .exit 1 :=
    fun st' h1 r hr => .inl ⟨st', ws, hr, h1 ▸ h⟩
  cases ph with
  | ignStr s =>
    simp only [cfStep]
    split
    · obtain ⟨l, h1, h2⟩ := filelistPut_holds h s
      rw [h1]
      exact .inl ⟨_, _, rfl, h2⟩
    · exact .inr rfl
  | seqOpen =>
    dsimp only [cfStep]
    split <;> first | exact ok _ rfl _ rfl | exact .inr rfl
  | seqList =>
    dsimp only [cfStep]
    split <;> first | exact ok _ rfl _ rfl | exact .inr rfl
  | _ =>
    dsimp only [cfStep]
    repeat' split
    all_goals first | exact ok _ rfl _ rfl | exact .inr rfl

theorem cfToks_cases (file : Bytes) : ∀ (ts : List Tok) (st : CState) (ws : List Bytes), st.ignore.Holds ws 0 →
    (∃ st', cfToks file ts st = .ok st') ∨ cfToks file ts st = .exit 1
  | [], st, _, _ => .inl ⟨st, rfl⟩
  | t :: ts, st, ws, h => by
    simp only [cfToks]
    rcases cfStep_cases file st t h with ⟨st', ws', h1, h2⟩ | h1
    · rw [h1, Res.bind_ok]
      exact cfToks_cases file ts st' ws' h2
    · rw [h1]
      exact .inr rfl

theorem parse_text_error {ts : List Tok} {text : Bytes} (file : Bytes) {previous : Option ConfigFile}
    {ds : List Sequence} {ws : List Bytes} (ht : Spells ts text) (hl : Loaded previous ds ws) (hg : ∀ rs, ¬ ConfigG ts rs) :
    parseConfigText file text previous = (0, .exit 1) := by
  obtain ⟨h1, h2⟩ := start_holds hl
  unfold parseConfigText
  rw [lex_spells ht]
  simp only [cfRun_toks]
  generalize startIgnore (previous.getD configFileInit) = l0 at h2 ⊢
  rcases cfToks_cases file ts ({ sequences := (previous.getD configFileInit).sequences, ignore := l0 } : CState) ws h2 with
    ⟨st', h3⟩ | h3
  · rw [h3, Res.bind_ok]
    by_cases hp : st'.phase = .top
    · obtain ⟨rs, hrs, _⟩ := accepted_config rfl rfl h3 hp
      exact absurd hrs (hg rs)
    · rw [if_neg hp]; rfl
  · rw [h3]; rfl

end Detox
