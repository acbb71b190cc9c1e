import Verif.Spec.Listing
import Verif.Props.Tables

/-!
# `-L`
-/

set_option autoImplicit false

namespace Detox
open Spec

/-! ### Decimal numbers -/

theorem printDecimal_spec : ∀ (k n : Nat), n < k → Decimal (printDecimal k n) n
  | 0, n, h => absurd h (Nat.not_lt_zero _)
  | k + 1, n, h => by
    have digit : ∀ m, m < 10 → 0x30 ≤ (0x30 + UInt8.ofNat m) ∧ (0x30 + UInt8.ofNat m) ≤ 0x39 ∧
        (0x30 + UInt8.ofNat m).toNat - 0x30 = m ∧ (0x30 + UInt8.ofNat m = 0x30 → m = 0) := by decide
    unfold printDecimal
    split
    · next hn =>
      rw [Nat.mod_eq_of_lt hn]
      obtain ⟨a, b, c, d⟩ := digit n hn
      refine ⟨by simp, by simpa using ⟨a, b⟩, by simpa using c, ?_⟩
      simp only [List.nil_append, List.head?_cons, Option.some.injEq]
      intro h
      rw [h]
    · next hn =>
      have hlt : n / 10 < k := by omega
      obtain ⟨h1, h2, h3, h4⟩ := printDecimal_spec k (n / 10) hlt
      obtain ⟨a, b, c, _⟩ := digit (n % 10) (by omega)
      refine ⟨by simp, ?_, ?_, ?_⟩
      · intro x hx
        rcases List.mem_append.1 hx with hx | hx
        · exact h2 x hx
        · simp only [List.mem_singleton] at hx
          subst hx
          exact ⟨a, b⟩
      · rw [List.foldl_append, h3]
        simp only [List.foldl_cons, List.foldl_nil, c]
        omega
      · intro h
        exfalso
        have : (printDecimal k (n / 10)).head? = some 0x30 := by
          cases hp : printDecimal k (n / 10) with
          | nil => exact absurd hp h1
          | cons x xs => rw [hp] at h; simpa using h
        rw [h4 this] at h3
        simp at h3
        omega

theorem dumpFilter_described (f : Filter) : ∃ n os ts, Called f.cleaner n ∧ OptionLines f os ∧ TableLine f ts ∧
    dumpFilter f = indented 1 [lit "cleaner: " ++ n] ++ indented 2 (os ++ ts) := by
  have table : ∃ ts, TableLine f ts ∧ dumpTable f = indented 2 ts := by
    unfold dumpTable
    cases hb : f.builtin with
    | some b =>
      refine ⟨_, .builtin b hb, ?_⟩
      show lit "\t\tbuiltin table: " ++ b ++ lit "\n" = _
      have e : lit "\t\tbuiltin table: " = [0x09, 0x09] ++ lit "builtin table: " := by decide
      have e' : lit "\n" = [0x0A] := by decide
      rw [e, e']
      simp [indented, List.replicate]
    | none =>
      cases hf : f.filename with
      | some p =>
        refine ⟨_, .file p hb hf, ?_⟩
        show lit "\t\ttranslation table: " ++ p ++ lit "\n" = _
        have e : lit "\t\ttranslation table: " = [0x09, 0x09] ++ lit "translation table: " := by decide
        have e' : lit "\n" = [0x0A] := by decide
        rw [e, e']
        simp [indented, List.replicate]
      | none => exact ⟨[], .none hb hf, rfl⟩
  obtain ⟨ts, h1, h2⟩ := table
  unfold dumpFilter
  rw [h2]
  have app : ∀ os, indented 2 (os ++ ts) = indented 2 os ++ indented 2 ts := fun os => by simp [indented]
  have e' : lit "\n" = [0x0A] := by decide
  cases hc : f.cleaner with
  | uncgi => exact ⟨_, [], ts, .uncgi, .none (by simp [hc]) (by simp [hc]), h1, by rfl⟩
  | safe => exact ⟨_, [], ts, .safe, .none (by simp [hc]) (by simp [hc]), h1, by rfl⟩
  | iso8859_1 => exact ⟨_, [], ts, .iso8859_1, .none (by simp [hc]) (by simp [hc]), h1, by rfl⟩
  | utf8 => exact ⟨_, [], ts, .utf8, .none (by simp [hc]) (by simp [hc]), h1, by rfl⟩
  | lower => exact ⟨_, [], ts, .lower, .none (by simp [hc]) (by simp [hc]), h1, by rfl⟩
  | wipeup =>
    cases hr : f.removeTrailing with
    | true => exact ⟨_, _, ts, .wipeup, .wipeupYes hc hr, h1, by rw [app, ← List.append_assoc]; rfl⟩
    | false => exact ⟨_, _, ts, .wipeup, .wipeupNo hc hr, h1, by rw [app, ← List.append_assoc]; rfl⟩
  | maxLength =>
    refine ⟨_, _, ts, .maxLength, .length _ hc (printDecimal_spec _ _ (Nat.lt_succ_self _)), h1, ?_⟩
    rw [app, ← List.append_assoc]
    congr 1
    simp only
    have e : lit "\tcleaner: max length\n" = indented 1 [lit "cleaner: " ++ lit "max length"] := by decide
    have e2 : lit "\t\tlength: " = [0x09, 0x09] ++ lit "length: " := by decide
    rw [e, e2, e']
    simp [indented, List.replicate]

theorem dumpFilters_described : ∀ fs : List Filter, Described fs (fs.flatMap dumpFilter)
  | [] => .nil
  | f :: fs => by
    obtain ⟨n, os, ts, h1, h2, h3, h4⟩ := dumpFilter_described f
    rw [List.flatMap_cons, h4]
    exact .cons f fs n _ os ts h1 h2 h3 (dumpFilters_described fs)

/-! ### The mark -/

/-- The marks the loop prints. -/
def marksFrom (chosen : Option Nat) : Nat → List Sequence → List Bool
  | _, [] => []
  | i, _ :: qs => decide (chosen = some i) :: marksFrom chosen (i + 1) qs

theorem marksFrom_length (chosen : Option Nat) : ∀ (i : Nat) (qs : List Sequence), (marksFrom chosen i qs).length = qs.length
  | _, [] => rfl
  | i, _ :: qs => by simp [marksFrom, marksFrom_length chosen (i + 1) qs]

theorem marksFrom_get (chosen : Option Nat) : ∀ (i : Nat) (qs : List Sequence) (j : Nat) (q : Sequence), qs[j]? = some q →
    (marksFrom chosen i qs)[j]? = some (decide (chosen = some (i + j)))
  | i, p :: qs, 0, q, _ => by simp [marksFrom]
  | i, p :: qs, j + 1, q, h => by
    simp only [List.getElem?_cons_succ] at h
    simp only [marksFrom, List.getElem?_cons_succ, marksFrom_get chosen (i + 1) qs j q h]
    rw [show i + 1 + j = i + (j + 1) by omega]

theorem findIdx_named {qs : List Sequence} (hu : (qs.map (·.name)).Nodup) (n : Bytes) {i : Nat} {q : Sequence}
    (hq : qs[i]? = some q) : qs.findIdx? (fun x => decide (x.name = n)) = some i ↔ FirstNamed n qs q := by
  induction qs generalizing i with
  | nil => cases hq
  | cons p qs ih =>
    simp only [List.map_cons, List.nodup_cons] at hu
    rw [List.findIdx?_cons]
    cases i with
    | zero =>
      simp only [List.getElem?_cons_zero, Option.some.injEq] at hq
      subst hq
      by_cases hp : p.name = n
      · simp only [hp, decide_true, if_true, true_iff]
        exact ⟨[], qs, rfl, hp, by simp⟩
      · simp only [hp, decide_false, Bool.false_eq_true, if_false]
        constructor
        · intro h
          cases hf : List.findIdx? (fun x => decide (x.name = n)) qs with
          | none => rw [hf] at h; cases h
          | some j => rw [hf] at h; cases h
        · rintro ⟨b, a, h1, h2, _⟩
          exact absurd h2 hp
    | succ i =>
      simp only [List.getElem?_cons_succ] at hq
      have hmem : q ∈ qs := List.mem_of_getElem? hq
      by_cases hp : p.name = n
      · simp only [hp, decide_true, if_true, Option.some.injEq]
        constructor
        · intro h; cases h
        · rintro ⟨b, a, h1, h2, h3⟩
          exfalso
          apply hu.1
          rw [hp, ← h2]
          exact List.mem_map.2 ⟨q, hmem, rfl⟩
      · simp only [hp, decide_false, Bool.false_eq_true, if_false]
        have := ih hu.2 hq
        have e : (Option.map (fun j => j + 1) (List.findIdx? (fun x => decide (x.name = n)) qs) = some (i + 1)) ↔
            List.findIdx? (fun x => decide (x.name = n)) qs = some i := by
          cases List.findIdx? (fun x => decide (x.name = n)) qs <;> simp
        rw [e, this]
        constructor
        · rintro ⟨b, a, rfl, h2, h3⟩
          refine ⟨p :: b, a, rfl, h2, ?_⟩
          intro x hx
          rcases List.mem_cons.1 hx with rfl | hx
          · exact hp
          · exact h3 x hx
        · rintro ⟨b, a, h1, h2, h3⟩
          cases b with
          | nil =>
            simp only [List.nil_append, List.cons.injEq] at h1
            rw [h1.1] at hp
            exact absurd h2 hp
          | cons x b =>
            simp only [List.cons_append, List.cons.injEq] at h1
            exact ⟨b, a, h1.2, h2, fun y hy => h3 y (List.mem_cons_of_mem _ hy)⟩

theorem findIdx_none (qs : List Sequence) (n : Bytes) :
    qs.findIdx? (fun x => decide (x.name = n)) = none ↔ ∀ q ∈ qs, q.name ≠ n := by
  rw [List.findIdx?_eq_none_iff]
  simp

theorem chosenPosition_iff {qs : List Sequence} (hu : (qs.map (·.name)).Nodup) (name : Option Bytes) {i : Nat} {q : Sequence}
    (hq : qs[i]? = some q) : chosenPosition qs name = some i ↔ Chosen qs name q := by
  unfold chosenPosition Chosen
  cases name with
  | some n =>
    have := findIdx_named hu n hq
    simp only [Option.getD_some, reduceCtorEq, false_and, if_false]
    rw [← this]
    cases List.findIdx? (fun x => decide (x.name = n)) qs <;> simp
  | none =>
    have h1 := findIdx_named hu (lit "default") hq
    have h2 := findIdx_none qs (lit "default")
    simp only [Option.getD_none, true_and]
    rw [← h1, ← h2]
    cases hf : List.findIdx? (fun x => decide (x.name = lit "default")) qs with
    | some j => simp
    | none =>
      have hne : qs ≠ [] := by rintro rfl; cases hq
      simp only [hne, ne_eq, not_false_eq_true, if_true, reduceCtorEq, false_or, true_and, Option.some.injEq]
      cases qs with
      | nil => cases hq
      | cons p qs =>
        cases i with
        | zero =>
          simp only [List.getElem?_cons_zero] at hq
          simp [hq]
        | succ i =>
          simp only [List.getElem?_cons_succ] at hq
          simp only [List.map_cons, List.nodup_cons] at hu
          simp only [List.head?_cons, Option.some.injEq]
          constructor
          · intro h; cases h
          · rintro rfl
            exact absurd (List.mem_map.2 ⟨_, List.mem_of_getElem? hq, rfl⟩) hu.1

theorem marks_right {qs : List Sequence} (hu : (qs.map (·.name)).Nodup) (name : Option Bytes) :
    Marked qs name (marksFrom (chosenPosition qs name) 0 qs) := by
  refine ⟨marksFrom_length _ _ _, fun i q hq => ?_⟩
  rw [marksFrom_get _ 0 qs i q hq, Nat.zero_add, Option.some.injEq, decide_eq_true_eq]
  exact chosenPosition_iff hu name hq

/-! ### The lists -/

theorem dumpSequences_short (chosen : Option Nat) : ∀ (i : Nat) (qs : List Sequence),
    ShortList qs (marksFrom chosen i qs) (dumpSequences false chosen i qs)
  | _, [] => .nil
  | i, q :: qs => by
    have := ShortList.cons q (decide (chosen = some i)) qs _ _ (dumpSequences_short chosen (i + 1) qs)
    simpa [dumpSequences, dumpSequence, star, marksFrom] using this

theorem dumpSequences_long (chosen : Option Nat) : ∀ (i : Nat) (qs : List Sequence), (∀ q ∈ qs, ∃ f, q.sourceFilename = some f) →
    ∃ t, LongList qs (marksFrom chosen i qs) t ∧
      dumpSequences true chosen i qs = if i > 0 ∧ qs ≠ [] then lit "\n" ++ t else t
  | _, [], _ => ⟨[], .nil, by simp [dumpSequences]⟩
  | i, q :: qs, h => by
    obtain ⟨u, h1, h2⟩ := dumpSequences_long chosen (i + 1) qs fun q hq => h q (List.mem_cons_of_mem _ hq)
    obtain ⟨f, hf⟩ := h q (by simp)
    have hb : Block q (decide (chosen = some i)) (lit "sequence name: " ++ q.name ++ star (decide (chosen = some i)) ++ lit "\n" ++
        (lit "\tsource file: " ++ f ++ lit "\n" ++ q.filters.flatMap dumpFilter)) := by
      refine ⟨f, _, hf, dumpFilters_described q.filters, ?_⟩
      have e : lit "\tsource file: " = [0x09] ++ lit "source file: " := by decide
      have e' : lit "\n" = [0x0A] := by decide
      rw [e, e']
      simp [indented, List.replicate]
    have hd : dumpSequence true i (decide (chosen = some i)) q = (if i > 0 then lit "\n" else []) ++
        (lit "sequence name: " ++ q.name ++ star (decide (chosen = some i)) ++ lit "\n" ++
        (lit "\tsource file: " ++ f ++ lit "\n" ++ q.filters.flatMap dumpFilter)) := by
      unfold dumpSequence star
      rw [hf]
      simp [List.append_assoc]
    generalize hB : (lit "sequence name: " ++ q.name ++ star (decide (chosen = some i)) ++ lit "\n" ++
        (lit "\tsource file: " ++ f ++ lit "\n" ++ q.filters.flatMap dumpFilter)) = B at hb hd
    cases qs with
    | nil =>
      refine ⟨B, .one _ _ _ hb, ?_⟩
      simp only [dumpSequences, hd, List.append_nil]
      split <;> simp_all
    | cons p qs =>
      refine ⟨B ++ lit "\n" ++ u, .more q p _ _ qs _ B u hb h1, ?_⟩
      unfold dumpSequences
      rw [hd, h2]
      simp only [Nat.succ_pos, gt_iff_lt, ne_eq, reduceCtorEq, not_false_eq_true, and_self, if_true, and_true]
      split <;> simp

theorem dumpIgnored_spec : ∀ (ws : List Bytes) (k n : Nat) (l : Filelist), l.Holds ws k → ws.length - k < n →
    dumpIgnored n l = .ok (indented 1 (ws.drop k))
  | ws, k, 0, l, _, h => absurd h (Nat.not_lt_zero _)
  | ws, k, n + 1, l, h, hn => by
    have hg := filelistGet_holds h
    unfold dumpIgnored
    split at hg
    · next hk =>
      obtain ⟨l', h1, h2⟩ := hg
      rw [h1, List.drop_eq_getElem_cons hk]
      show (dumpIgnored n l' >>= fun r => _) = _
      rw [dumpIgnored_spec ws (k + 1) n l' h2 (by omega)]
      have e : lit "\t" = [0x09] := by decide
      have e' : lit "\n" = [0x0A] := by decide
      rw [e, e']
      show Res.ok _ = Res.ok _
      congr 1
    · next hk =>
      obtain ⟨l', h1, h2⟩ := hg
      rw [h1, List.drop_eq_nil_of_le (by omega)]
      rfl

/-- **C68**: `-L` shows the sequences, marks the one that would be used, and shows the names to ignore; with `-v` it shows all
about every sequence. It does nothing else and exits with status 0. -/
theorem C68_listing {P : Platform} {I : Invocation} {fuel : Nat} {ss : List Setting} {ws : List Bytes}
    (hc : CommandLine I.posixlyCorrect I.args ss ws) (hs : ∀ s ∈ ss, ¬ s.Leaves) (hl : Setting.list ∈ ss) {r t : List Event}
    {c : ConfigFile} (hr : Trace (configFileLoad I.config (lastConfig ss)) r (.ret c)) {out : Outcome Unit}
    (h : Trace (detoxMain P I fuel) (r ++ t) out) (hout : out ≠ .running) :
    out = .exit 0 ∧ ∃ text marks ignored, t = [.out text] ∧
      Marked c.sequences ((lastSequence ss).or I.sequence) marks ∧ FreshIgnore c.filesToIgnore ignored ∧
      ((Setting.verbose ∉ ss ∧ ∃ l, ShortList c.sequences marks l ∧ text = lit "available sequences:\n" ++ l ++ ignoredPart ignored) ∨
       (Setting.verbose ∈ ss ∧ ∃ l, LongList c.sequences marks l ∧ text = l ++ ignoredPart ignored)) := by
  obtain ⟨o, ho, ha, _⟩ := (C49_options_exactly hc hs I.program I.sequence).1 hl
  obtain ⟨⟨ds, hds⟩, ⟨ignored, l, hi, hh⟩, hp⟩ := configFileLoad_good hr
  have hu : (c.sequences.map (·.name)).Nodup := by rw [hds, inEffect_names]; exact firsts_nodup _
  unfold detoxMain at h
  rw [ho] at h
  change Trace (detoxConfigured P I o fuel) (r ++ t) out at h
  unfold detoxConfigured at h
  rw [ha.2.2.2.2.2.2.2.1] at h
  have h4 := trace_continue hr h
  rw [if_pos (ha.1.2 hl)] at h4
  have tail : dumpConfigFile c o = .ok ((if o.verbose = 0 then lit "available sequences:\n" else []) ++
      dumpSequences (o.verbose ≠ 0) (chosenPosition c.sequences o.sequenceName) 0 c.sequences ++ ignoredPart ignored) := by
    have hcount : l.count = ignored.length := hh.1
    unfold dumpConfigFile ignoredPart
    rw [hi]
    by_cases hz : ignored = []
    · rw [if_pos hz]
      have : ¬ l.count > 0 := by rw [hcount, hz]; simp
      simp only [this, if_false]
      rfl
    · rw [if_neg hz]
      have : l.count > 0 := by rw [hcount]; exact List.length_pos_iff.2 hz
      simp only [this, if_true]
      rw [dumpIgnored_spec ignored 0 (l.count + 1) l hh (by omega)]
      rfl
  rw [tail, ha.2.2.2.2.2.2.2.2] at h4
  cases h4 with
  | stop => exact absurd rfl hout
  | out _ _ _ _ h5 =>
    cases h5 with
    | stop => exact absurd rfl hout
    | exit =>
      refine ⟨rfl, _, _, ignored, rfl, marks_right hu _, by rw [hi]; exact hh, ?_⟩
      have hsrc : ∀ q ∈ c.sequences, ∃ f, q.sourceFilename = some f := by
        obtain ⟨files, hp⟩ := hp
        intro q hq
        obtain ⟨f, _, hf⟩ := (hp q hq).1
        exact ⟨f, hf⟩
      by_cases hv : Setting.verbose ∈ ss
      · have hne : o.verbose ≠ 0 := by
          rw [ha.2.2.2.2.1]
          exact Nat.ne_of_gt (List.count_pos_iff.2 hv)
        right
        obtain ⟨l', h1, h2⟩ := dumpSequences_long (chosenPosition c.sequences ((lastSequence ss).or I.sequence)) 0 c.sequences hsrc
        refine ⟨hv, l', h1, ?_⟩
        simp only [hne, if_false, ne_eq, not_false_eq_true, decide_true, List.nil_append, h2]
        simp
      · have he : o.verbose = 0 := by
          rw [ha.2.2.2.2.1]
          exact List.count_eq_zero.2 hv
        left
        refine ⟨hv, _, dumpSequences_short (chosenPosition c.sequences ((lastSequence ss).or I.sequence)) 0 c.sequences, ?_⟩
        simp only [he, if_true, ne_eq, not_true_eq_false, decide_false]

/- Concrete cases: `detox -L` and `detox -Lv -f rc`. -/
example : Trace (detoxMain .linux { program := lit "detox", args := [lit "-L"] } 0)
    (nothingInstalled ++ [.out (lit "available sequences:\n\tdefault (*)\n\tiso8859_1\n\tiso8859_1-legacy\n\tutf_8\n\tuncgi\n\tlower\n\tiso8859_1-only\n\tcp1252-only\n\tutf_8-only\n\tuncgi-only\n\tlower-only\n\nfiles to ignore:\n\t{arch}\n")]) (.exit 0) :=
  Prog.final_sound _ _ _ (by decide +kernel)
example : Trace (detoxMain .linux { program := lit "detox", args := [lit "-Lv", lit "-f", lit "rc"] } 0)
    [.slurp (some (lit "rc")) (some (lit "sequence a { wipeup; max_length { length 20; }; }; sequence default { safe { builtin \"safe\"; }; };")),
     .out (lit "sequence name: a\n\tsource file: rc\n\tcleaner: wipeup\n\t\tremove trailing: no\n\tcleaner: max length\n\t\tlength: 20\n\nsequence name: default (*)\n\tsource file: rc\n\tcleaner: safe\n\t\tbuiltin table: safe\n")] (.exit 0) :=
  Prog.final_sound _ _ _ (by decide +kernel)

end Detox
