import Verif.Lemmas.CountersFresh
import Verif.Lemmas.CountersSafe
import Verif.Props.InlineMain

/-!
# C103: the counters of the tables
-/

set_option autoImplicit false

namespace Detox
open Spec

/-- **C103.** The counters, which nobody reads, make no difference but one: an execution of the program with counters is one of the program without,
or it is cut short by the overflow of a counter; and then there was a lot to look up. -/
theorem C103_same_executions {P : Platform} {I : Invocation} {fuel : Nat} {ss : List Setting} {ws : List Bytes}
    (hc : CommandLine I.posixlyCorrect I.args ss ws) {tr : List Event} {out : Outcome Unit} (h : Trace (detoxMainCounted P I fuel) tr out) :
    Trace (detoxMain P I fuel) tr out ∨
    (out = .ub .intOverflow ∧ Trace (detoxMain P I fuel) tr .running ∧ ∃ q, InUse I ss tr q ∧ intMax < weigh tr * reach q.filters) := by
  rcases (detoxMain_tracks hc).trace h with h | ⟨h1, h2, q, h3, h4⟩
  · exact .inl h
  · exact .inr ⟨h1, h2, q, h3, h4⟩

/-- **C103.** Conversely, every execution of the program without counters is one of the program with counters, unless a counter overflows on the way. -/
theorem C103_same_executions_back {P : Platform} {I : Invocation} {fuel : Nat} {ss : List Setting} {ws : List Bytes}
    (hc : CommandLine I.posixlyCorrect I.args ss ws) {tr : List Event} {out : Outcome Unit} (h : Trace (detoxMain P I fuel) tr out) :
    Trace (detoxMainCounted P I fuel) tr out ∨
    ∃ a b, tr = a ++ b ∧ Trace (detoxMainCounted P I fuel) a (.ub .intOverflow) ∧ ∃ q, InUse I ss a q ∧ intMax < weigh a * reach q.filters := by
  rcases (detoxMain_tracks hc).trace_back h with h | ⟨a, b, h1, h2, q, h3, h4⟩
  · exact .inl h
  · exact .inr ⟨a, b, h1, h2, q, h3, h4⟩

/-- **C103.** So, as long as there is not too much to look up, the program with counters does what the program without does: all that is proved of the
latter holds of the former. -/
theorem C103_small_runs {P : Platform} {I : Invocation} {fuel : Nat} {ss : List Setting} {ws : List Bytes}
    (hc : CommandLine I.posixlyCorrect I.args ss ws) {tr : List Event} (hs : ∀ q, InUse I ss tr q → weigh tr * reach q.filters ≤ intMax)
    (out : Outcome Unit) : Trace (detoxMainCounted P I fuel) tr out ↔ Trace (detoxMain P I fuel) tr out := by
  constructor
  · intro h
    rcases C103_same_executions hc h with h | ⟨_, _, q, h1, h2⟩
    · exact h
    · have := hs q h1; omega
  · intro h
    rcases C103_same_executions_back hc h with h | ⟨a, b, rfl, _, q, h1, h2⟩
    · exact h
    · obtain ⟨c, q0, r1, r2, rest, rfl, g1, g2, g3⟩ := h1
      have := hs q ⟨c, q0, r1, r2, rest ++ b, by simp, g1, g2, g3⟩
      rw [weigh_append, Nat.add_mul] at this
      omega

/-- The sequences that are compiled in, as they are used. -/
theorem inUse_builtin {I : Invocation} {ss : List Setting} {tr : List Event} {q : Sequence} (hu : Unconfigured I ss tr) (h : InUse I ss tr q) :
    ∃ name, (name, q.filters) ∈ builtinFilters := by
  obtain ⟨c, q0, r1, r2, rest, rfl, h1, h2, h3⟩ := h
  rw [hu.1] at h1
  have hs := unconfigured_spoof h1 fun p hp text hm => hu.2 p hp text (by simp [hm])
  have hq : q0 ∈ spoofSequences := by rw [← spoof_eq hs]; exact chosen_mem h2
  have h4 := reviewSequence_selfContained (spoof_selfContained q0 hq) h3 ⟨fun _ => none, none⟩
  clear h1 h2 h3 hs hu
  unfold spoofSequences at hq
  simp only [List.mem_cons, List.not_mem_nil, or_false] at hq
  refine ⟨q0.name, ?_⟩
  rcases hq with rfl | rfl | rfl | rfl | rfl | rfl | rfl | rfl | rfl | rfl | rfl <;> rw [← Res.ok.inj h4]
  · exact List.mem_of_getElem (i := 0) (h := by decide) rfl
  · exact List.mem_of_getElem (i := 1) (h := by decide) rfl
  · exact List.mem_of_getElem (i := 2) (h := by decide) rfl
  · exact List.mem_of_getElem (i := 3) (h := by decide) rfl
  · exact List.mem_of_getElem (i := 4) (h := by decide) rfl
  · exact List.mem_of_getElem (i := 5) (h := by decide) rfl
  · exact List.mem_of_getElem (i := 6) (h := by decide) rfl
  · exact List.mem_of_getElem (i := 7) (h := by decide) rfl
  · exact List.mem_of_getElem (i := 8) (h := by decide) rfl
  · exact List.mem_of_getElem (i := 9) (h := by decide) rfl
  · exact List.mem_of_getElem (i := 10) (h := by decide) rfl

theorem builtin_reach : ∀ p ∈ builtinFilters, reach p.2 ≤ 6 := by decide +kernel

/-- **C103.** With nothing configured, no counter overflows before the names looked at and the texts read have 2^31 / 6 bytes in all. -/
theorem C103_builtin_runs {P : Platform} {I : Invocation} {fuel : Nat} {ss : List Setting} {ws : List Bytes}
    (hc : CommandLine I.posixlyCorrect I.args ss ws) {tr : List Event} (hu : Unconfigured I ss tr) (hs : weigh tr * 6 ≤ intMax)
    (out : Outcome Unit) : Trace (detoxMainCounted P I fuel) tr out ↔ Trace (detoxMain P I fuel) tr out := by
  refine C103_small_runs hc (fun q hq => ?_) out
  obtain ⟨n, hn⟩ := inUse_builtin hu hq
  exact Nat.le_trans (Nat.mul_le_mul_left _ (builtin_reach _ hn)) hs

/-! ### Where it does overflow -/

/-- The options of a plain `inline-detox`. -/
def pipeOptions : Options :=
  { isInlineBin := true, isInlineMode := true, files := some ⟨List.replicate 16 none, 0, 0⟩ }

theorem pipe_options : Trace (parseOptions pipeCall.program pipeCall.args pipeCall.sequence pipeCall.posixlyCorrect) [] (.ret pipeOptions) :=
  Prog.result_sound _ _ _ (by decide +kernel)

theorem pipe_config : ∃ c, Trace (configFileLoad pipeCall.config none) nothingInstalled (.ret c) ∧ c.sequences = spoofSequences := by
  have h : ∀ x : Option ConfigFile, (x.map (fun c => decide (c.sequences = spoofSequences))) = some true → ∃ c, x = some c ∧ c.sequences = spoofSequences := by
    intro x hx
    cases x with
    | none => cases hx
    | some c => exact ⟨c, rfl, of_decide_eq_true (Option.some.inj hx)⟩
  obtain ⟨c, h1, h2⟩ := h ((configFileLoad pipeCall.config none).result nothingInstalled) (by decide +kernel)
  exact ⟨c, Prog.result_sound _ _ _ h1, h2⟩

theorem tally_zero {t : Table} (h : t.most = 0) : t.tally 0 0 = t := by
  obtain ⟨_, _, _, _, hits, misses, _, seeks, _, _, _⟩ := t
  unfold Table.most at h
  simp only at h
  obtain ⟨rfl, rfl, rfl⟩ : hits = 0 ∧ misses = 0 ∧ seeks = 0 := by omega
  rfl

/-- **C103.** `inline-detox` with nothing installed has undefined behaviour exactly when it reads so much that 2^31 bytes are found in its table, or
2^31 are not: a stream of that length is all it takes. (For lines shorter than 1007 bytes without NUL bytes.) -/
theorem C103_long_streams (P : Platform) (fuel : Nat) {ls : List Bytes} {s : Bytes} (hls : ShortLines ls s) :
    (∃ t, Trace (detoxMainCounted P pipeCall fuel) (nothingInstalled ++ .slurp none (some s) :: t) (.ub .intOverflow)) ↔
      intMax < found ls ∨ intMax < notFound ls := by
  obtain ⟨c, hcfg, hseq⟩ := pipe_config
  obtain ⟨rfl, hl⟩ := hls
  have hq : sequenceChooseDefault c.sequences pipeOptions.sequenceName = some (generateSequence (lit "default") safeWipeup) := by
    rw [hseq]; decide +kernel
  have hz : load_builtin_safe_table.tally 0 0 = load_builtin_safe_table := tally_zero (builtinNamed_most .safe)
  have hr : ∀ t out, Trace (detoxMainCounted P pipeCall fuel) (nothingInstalled ++ t) out ↔
      Trace ((parseInlineCounted P (some (defaultAt (generateSequence (lit "default") safeWipeup) 0 0)) none).bind fun _ => .ret ()) t out := by
    intro t out
    have e : ∀ o' : Options, o' = pipeOptions → (o'.isInlineMode = true ∧ o'.listSequences = false ∧ o'.checkConfigFile = none) := by
      rintro _ rfl; exact ⟨rfl, rfl, rfl⟩
    have work : ∀ ign, detoxWorkCounted P { pipeOptions with
        filesToIgnore := ign, sequenceToUse := some (defaultAt (generateSequence (lit "default") safeWipeup) 0 0) } fuel =
        (parseInlineCounted P (some (defaultAt (generateSequence (lit "default") safeWipeup) 0 0)) none).bind fun _ => .ret () := fun _ => rfl
    have rev : Trace (reviewSequence pipeCall.ctype pipeCall.datadir (generateSequence (lit "default") safeWipeup)) []
        (.ret (defaultAt (generateSequence (lit "default") safeWipeup) 0 0)) := by
      unfold defaultAt tallied
      rw [hz]
      exact .ret _
    have whole : Trace (detoxMainCounted P pipeCall fuel) (nothingInstalled ++ t) out ↔
        Trace (detoxWorkCounted P { pipeOptions with
          filesToIgnore := c.filesToIgnore, sequenceToUse := some (defaultAt (generateSequence (lit "default") safeWipeup) 0 0) } fuel) t out := by
      constructor
      · intro h
        have h := trace_continue pipe_options (t := nothingInstalled ++ t) h
        have h := trace_continue hcfg h
        rw [if_neg (by decide), hq] at h
        exact trace_continue rev (t := t) h
      · intro h
        refine trace_append pipe_options (t := nothingInstalled ++ t) ?_
        refine trace_append hcfg ?_
        rw [if_neg (by decide), hq]
        exact trace_append rev (t := t) h
    rw [whole, work]
  have := inlineLoop_overflows P (generateSequence (lit "default") safeWipeup) ls (ls.flatMap (· ++ [(0x0A : Byte)])).length 0 0 hl
    (by
      rw [List.length_flatMap]
      clear hr hl
      induction ls with
      | nil => simp
      | cons l ls ih => simp only [List.map_cons, List.sum_cons, List.length_append, List.length_cons, List.length_nil] at ih ⊢; omega)
    (Nat.zero_le _) (Nat.zero_le _)
  rw [Nat.zero_add, Nat.zero_add] at this
  rw [← this]
  constructor
  · rintro ⟨t, h⟩
    rw [hr] at h
    cases h with
    | slurp _ _ _ _ _ h =>
      rcases trace_bind_any h with ⟨_, _, _, _, _, h⟩ | ⟨o, h1, h2⟩
      · cases h
      · cases h1
        exact ⟨t, h2⟩
  · rintro ⟨t, h⟩
    refine ⟨t, (hr _ _).2 (.slurp _ _ _ _ _ ?_)⟩
    exact trace_bind_ub h

/-- **C103.** For instance, 2^31 lines with one letter each. -/
theorem C103_two_billion_letters (P : Platform) (fuel : Nat) {n : Nat} :
    (∃ t, Trace (detoxMainCounted P pipeCall fuel) (nothingInstalled ++ .slurp none (some ((List.replicate n (lit "a")).flatMap (· ++ [0x0A]))) :: t)
      (.ub .intOverflow)) ↔ intMax < n := by
  rw [C103_long_streams P fuel ⟨rfl, fun l hl => by rw [List.eq_of_mem_replicate hl]; decide⟩]
  have key : ∀ n, found (List.replicate n (lit "a")) = 0 ∧ notFound (List.replicate n (lit "a")) = n := by
    intro n
    induction n with
    | zero => exact ⟨rfl, rfl⟩
    | succ n ih =>
      rw [List.replicate_succ, found_cons, notFound_cons, ih.1, ih.2]
      have h1 : isProtected (lit "a") = false := by decide +kernel
      have h2 : hitsOf (lit "a") = 0 := by decide +kernel
      have h3 : missesOf (lit "a") = 1 := by decide +kernel
      rw [h1, h2, h3]
      exact ⟨rfl, Nat.add_comm 1 n⟩
  rw [(key n).1, (key n).2]
  omega

/-- A table with other counters. -/
def Table.counted (t : Table) (h m s : Nat) : Table := { t with hits := h, misses := m, seeks := s }

/-- **C103**: what one lookup does to the counters of a table: nothing, if the key is 0. Otherwise it counts a hit if there is a row with that key,
and a miss if there is none; and a seek, unless the row is where the hash says. A counter that would exceed `INT_MAX` is undefined. -/
theorem C103_lookup (t : Table) (ht : Reachable t) (hb : t.hits ≤ intMax ∧ t.misses ≤ intMax ∧ t.seeks ≤ intMax) (k : Nat) (h m s : Nat)
    (hh : h = t.hits + (if (tableGet t k).isSome then 1 else 0))
    (hm : m = t.misses + (if k ≠ 0 ∧ tableGet t k = none then 1 else 0))
    (hs : s = t.seeks + (if k ≠ 0 ∧ ¬ (t.useHash = true ∧ ∃ r, t.rows[k % t.rows.length]? = some r ∧ r.key = k) then 1 else 0)) :
    tableGetCounted t k = if h ≤ intMax ∧ m ≤ intMax ∧ s ≤ intMax then .ok (t.counted h m s, tableGet t k) else .ub .intOverflow := by
  obtain ⟨b1, b2, b3⟩ := hb
  have full := ht.wf.full
  unfold tableGetCounted
  by_cases hk : k = 0
  · subst hk
    have hg : tableGet t 0 = none := by unfold tableGet; exact if_pos rfl
    rw [hg] at hh hm ⊢
    simp at hh hm hs
    subst hh hm hs
    rw [if_pos rfl, if_pos ⟨b1, b2, b3⟩]
    rfl
  rw [if_neg hk]
  have hg : tableGet t k = match (match t.getProbe k with | some o => some o | none => t.getScan k) with
    | none => none
    | some offset => (t.rows[offset]?).bind Row.data := by
    unfold tableGet
    exact if_neg hk
  have found : ∀ (i : Nat) (r : Row), t.rows[i]? = some r → r.key = k → ∃ d, (t.rows[i]?).bind Row.data = some d := by
    intro i r h1 h2
    obtain ⟨d, h3, _⟩ := full i r h1 (by rw [h2]; exact hk)
    exact ⟨d, by rw [h1]; exact h3⟩
  have probe : (t.getProbe k).isSome = true ↔ (t.useHash = true ∧ ∃ r, t.rows[k % t.rows.length]? = some r ∧ r.key = k) := by
    unfold Table.getProbe tableHash Table.length
    by_cases hu : t.useHash = true
    · rw [if_pos hu]
      simp only [hu, true_and]
      cases t.rows[k % t.rows.length]? with
      | none => simp
      | some r => by_cases hr : r.key = k <;> simp [hr]
    · simp [hu]
  simp only [← probe] at hs
  cases hp : t.getProbe k with
  | some i =>
    have hi : ∃ r, t.rows[i]? = some r ∧ r.key = k := by
      unfold Table.getProbe at hp
      split at hp
      · simp only at hp
        split at hp
        · next r hr =>
          split at hp
          · next hrk => cases hp; exact ⟨r, hr, hrk⟩
          · cases hp
        · cases hp
      · cases hp
    obtain ⟨r, h1, h2⟩ := hi
    obtain ⟨d, hd⟩ := found i r h1 h2
    rw [hp] at hg hs
    simp only at hg
    rw [hd] at hg
    rw [hg] at hh hm ⊢
    simp at hh hm hs
    subst hh hm hs
    simp only
    rw [hd]
    unfold countUp
    by_cases hl : t.hits < intMax
    · rw [if_pos hl, if_pos ⟨hl, b2, b3⟩]; rfl
    · rw [if_neg hl, if_neg fun h => hl h.1]; rfl
  | none =>
    rw [hp] at hg hs
    simp only at hg
    cases hc : t.getScan k with
    | none =>
      rw [hc] at hg
      simp only at hg
      rw [hg] at hh hm ⊢
      simp [hk] at hh hm hs
      subst hh hm hs
      simp only
      unfold countUp
      by_cases hl : t.seeks < intMax
      · rw [if_pos hl]
        by_cases hl' : t.misses < intMax
        · simp only [Res.bind_ok, if_pos hl']
          rw [if_pos ⟨b1, hl', hl⟩]
          rfl
        · simp only [Res.bind_ok, if_neg hl']
          rw [if_neg fun h => hl' h.2.1]
          rfl
      · rw [if_neg hl]
        show Res.ub _ = _
        rw [if_neg fun h => hl h.2.2]
    | some i =>
      have hi : ∃ r, t.rows[i]? = some r ∧ r.key = k := by
        unfold Table.getScan at hc
        rw [List.findIdx?_eq_some_iff_getElem] at hc
        obtain ⟨hlt, h1, _⟩ := hc
        exact ⟨_, List.getElem?_eq_getElem hlt, by simpa using h1⟩
      obtain ⟨r, h1, h2⟩ := hi
      obtain ⟨d, hd⟩ := found i r h1 h2
      rw [hc] at hg
      simp only at hg
      rw [hd] at hg
      rw [hg] at hh hm ⊢
      simp [hk] at hh hm hs
      subst hh hm hs
      simp only
      rw [hd]
      unfold countUp
      by_cases hl : t.seeks < intMax
      · rw [if_pos hl]
        by_cases hl' : t.hits < intMax
        · simp only [Res.bind_ok, if_pos hl']
          rw [if_pos ⟨hl', b2, hl⟩]
          rfl
        · simp only [Res.bind_ok, if_neg hl']
          rw [if_neg fun h => hl' h.1]
          rfl
      · rw [if_neg hl]
        show Res.ub _ = _
        rw [if_neg fun h => hl h.2.2]

/-- **C103**: each filter goes on counting where it stopped, whatever its place in the sequence: what is left of the `i`th filter after a name is
what it becomes when it is run on what the filters before it make of the name. -/
theorem C103_every_filter_counts (P : Platform) (fs fs' : List Filter) (s : Bytes) (w : Option Bytes)
    (h : runFiltersCounted P fs (some s) = .ok (fs', w)) :
    fs'.length = fs.length ∧
    ∀ (i : Nat) (f f' : Filter), fs[i]? = some f → fs'[i]? = some f' → ∃ input output, runFilters P (fs.take i) (some s) = .ok input ∧
      filterRunCounted P f input = .ok (f', output) := by
  have plain : ∀ (f f' : Filter) (s : Bytes) (out : Option Bytes), filterRunCounted P f (some s) = .ok (f', out) → filterRun P f (some s) = .ok out := by
    intro f f' s out h
    have := filterRun_counts P (f0 := f) (f := f) rfl (b := f.table.elim 0 Table.most) (fun _ t ht => by rw [ht]; exact Nat.le_refl _) s
    rw [h] at this
    generalize filterRun P f (some s) = y at this
    cases this
    rfl
  have key : ∀ (fs fs' : List Filter) (s w : Option Bytes), runFiltersCounted P fs s = .ok (fs', w) →
      fs'.length = fs.length ∧
      ∀ (i : Nat) (f f' : Filter), fs[i]? = some f → fs'[i]? = some f' → ∃ input output, runFilters P (fs.take i) s = .ok input ∧
        filterRunCounted P f input = .ok (f', output) := by
    intro fs
    induction fs with
    | nil =>
      intro fs' s w h
      unfold runFiltersCounted at h
      cases h
      exact ⟨rfl, fun i f f' hf => by simp at hf⟩
    | cons g fs ih =>
      intro fs' s w h
      cases s with
      | none =>
        unfold runFiltersCounted at h
        cases h
        refine ⟨rfl, fun i f f' hf hf' => ?_⟩
        cases hf.symm.trans hf'
        refine ⟨none, none, ?_, rfl⟩
        cases i <;> rfl
      | some s =>
        unfold runFiltersCounted at h
        obtain ⟨p, h1, h⟩ := res_bind_ok h
        obtain ⟨r, h2, h⟩ := res_bind_ok h
        cases h
        obtain ⟨k1, k2⟩ := ih r.1 p.2 r.2 h2
        refine ⟨by simp [k1], fun i f f' hf hf' => ?_⟩
        cases i with
        | zero =>
          simp at hf hf'
          subst hf hf'
          exact ⟨some s, p.2, rfl, h1⟩
        | succ i =>
          simp at hf hf'
          obtain ⟨input, output, k3, k4⟩ := k2 i f f' hf hf'
          refine ⟨input, output, ?_, k4⟩
          rw [List.take_succ_cons]
          unfold runFilters
          rw [plain g p.1 s p.2 h1]
          exact k3
  exact key fs fs' (some s) w h

/-! ### Concrete cases -/

/- A run with counters; what the theorems ask of it. -/
example : Trace (detoxMainCounted .linux pipeCall 10) pipeTrace (.ret ()) := Prog.result_sound _ _ _ (by decide +kernel)
example : Trace (detoxMainCounted .linux (plainCall (lit "a b")) 0) (mainTrace true) (.ret ()) := Prog.result_sound _ _ _ (by decide +kernel)
example : weigh pipeTrace * 6 ≤ intMax := by decide +kernel
example : tableGetCounted load_builtin_safe_table 0x20 = .ok (load_builtin_safe_table.counted 1 0 0, some [0x5F]) := by decide +kernel
example : tableGetCounted load_builtin_safe_table 0x61 = .ok (load_builtin_safe_table.counted 0 1 1, none) := by decide +kernel
example : Reachable load_builtin_safe_table := .resize _ _ _
example : (runFiltersCounted .linux [safeF, wipeF] (some (lit "a b"))) =
    .ok ([{ safeF with table := some (load_builtin_safe_table.counted 1 2 2) }, wipeF], some (lit "a_b")) := by decide +kernel
example : weigh (mainTrace true) = 9 := by decide +kernel

end Detox
