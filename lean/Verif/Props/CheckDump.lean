import Verif.Lemmas.CheckDump
import Verif.Props.CheckTable

/-!
# C77: the listing and the statistics of check-table
-/

set_option autoImplicit false

namespace Detox
open Spec

/-- The last part of a run, once there is a table. -/
def reportTail (e : CheckEnv) (o : CheckOptions) (t : Table) : Prog Unit :=
  (if o.dump then (Prog.ofRes (tableDump e o.verbose 0 t.rows)).bind fun s => .out s (.ret ()) else .ret ()).bind fun _ =>
    (Prog.ofRes (tableStats e t)).bind fun s => .out s (.exit 0)

theorem reportTail_eq {e : CheckEnv} {o : CheckOptions} {t : Table} {list text : Bytes}
    (h1 : tableDump e o.verbose 0 t.rows = .ok list) (h2 : tableStats e t = .ok text) :
    reportTail e o t = Prog.says ((if o.dump then [(false, list)] else []) ++ [(false, text)]) (.exit 0) := by
  unfold reportTail
  rw [h1, h2]
  cases o.dump <;> rfl

theorem trace_seq {α β : Type} {p : Prog α} {f : α → Prog β} {tr1 tr2 : List Event} {a : α} {o : Outcome β} (h1 : Trace p tr1 (.ret a))
    (h2 : Trace (f a) tr2 o) : Trace (p.bind f) (tr1 ++ tr2) o := by
  generalize ho : Outcome.ret a = oa at h1
  induction h1 with
  | stop => cases ho
  | ret => cases ho; exact h2
  | exit => cases ho
  | ub => cases ho
  | stuck => cases ho
  | lstat _ _ _ _ _ _ ih => exact .lstat _ _ _ _ _ (ih ho)
  | rename _ _ _ _ _ _ _ ih => exact .rename _ _ _ _ _ _ (ih ho)
  | opendir _ _ _ _ _ _ ih => exact .opendir _ _ _ _ _ (ih ho)
  | readdir _ _ _ _ _ _ ih => exact .readdir _ _ _ _ _ (ih ho)
  | closedir _ _ _ _ _ ih => exact .closedir _ _ _ _ (ih ho)
  | slurp _ _ _ _ _ _ ih => exact .slurp _ _ _ _ _ (ih ho)
  | out _ _ _ _ _ ih => exact .out _ _ _ _ (ih ho)
  | err _ _ _ _ _ ih => exact .err _ _ _ _ (ih ho)

/-- What a program does that says some things and exits. -/
theorem trace_says_exit {es : List (Bool × Bytes)} {n : Nat} {tr : List Event} {oc : Outcome Unit} (ho : oc ≠ .running) :
    Trace (Prog.says es (.exit n) : Prog Unit) tr oc ↔ tr = es.map saidEvent ∧ oc = .exit n := by
  constructor
  · intro h
    rcases trace_says h with ⟨h, _⟩ | ⟨tr', h4, h⟩
    · exact absurd h ho
    · cases h with
      | stop => exact absurd rfl ho
      | exit => exact ⟨by rw [h4, List.append_nil], rfl⟩
  · rintro ⟨rfl, rfl⟩
    clear ho
    induction es with
    | nil => exact .exit _
    | cons x es ih =>
      obtain ⟨b, s⟩ := x
      cases b with
      | false => exact .out _ _ _ _ ih
      | true => exact .err _ _ _ _ ih

theorem rows_short {content : Bytes} {ls : List Bytes} {secs : List Section} (hl : HasLines content ls) (hf : FileLines ls secs) :
    longest ((plainRows secs).map Prod.snd) ≤ 1023 := by
  obtain ⟨ls', hd, he⟩ := hasLines_check hl
  have hacts := he.trans (checkActs_file hf hd)
  have hshort := checkLengths_short _ (fileLines_facts content.length content) false
  rw [hacts] at hshort
  have h1 := longestOf_le (n := 1) (m := 1023) (by omega) hshort
  rw [sectionActs_lengths] at h1
  unfold neededRoom at h1
  omega

/-- The last part, for a table with the given rows. -/
theorem tail_report {e : CheckEnv} {o : CheckOptions} {t : Table} {rows : List (Nat × Bytes)} {n : Bytes} (hwf : t.WF)
    (hget : ∀ k, tableGet t k = lastOf rows k) (hsmall : ∀ r ∈ rows, r.1 < 2 ^ 31) (hused : t.used ≤ t.rows.length)
    (hlen : t.rows.length < 2 ^ 31) (hhits : t.hits = rows.length) (hmiss : t.misses = 0) (hseeks : t.seeks ≤ rows.length)
    (hbal : usedRows t.rows + t.overwrites = rows.length) (hlong : t.maxDataLength = longest (rows.map Prod.snd))
    (hshort : longest (rows.map Prod.snd) ≤ 1023) (hcount : rows.length < 2 ^ 31) (hgc : GreatestCode rows t.maxKey)
    (hns : printfString e t.defaultTranslation = .ok n) :
    ∃ (ps : List Place) (list text : Bytes), Listing t.rows.length o.verbose (lastOf rows) ps ∧ ListingText ps list ∧
      (statisticsOf t n).Describe rows ∧ (statisticsOf t n).Text e.percent text ∧
      ∀ tr oc, oc ≠ .running → (Trace (reportTail e o t) tr oc ↔
        tr = (if o.dump then [.out list] else []) ++ [.out text] ∧ oc = .exit 0) := by
  have hdiff : DifferentCodes rows (usedRows t.rows) := hwf.different_codes fun k => by
    rw [← lastOf_exists, hget]
  have hk31 : t.maxKey < 2 ^ 31 := by
    rcases hgc.2 with ⟨_, h⟩ | ⟨r, hr, h⟩
    · rw [h]; omega
    · rw [← h]; exact hsmall r hr
  have hkeys : ∀ r ∈ t.rows, r.key ≠ 0 → r.key < 2 ^ 31 ∧ ∃ d, r.data = some d := by
    intro r hr h0
    obtain ⟨i, hi⟩ := List.getElem?_of_mem hr
    obtain ⟨d, hd, _⟩ := hwf.full i r hi h0
    refine ⟨?_, d, hd⟩
    have hg : tableGet t r.key = some d := (hwf.get_eq_some _ _).2 ⟨h0, i, by rw [hi, ← hd]⟩
    rw [hget] at hg
    obtain ⟨d', hm⟩ := (lastOf_exists _ _).1 ⟨d, hg⟩
    exact hsmall _ hm
  obtain ⟨list, hlist, hltext⟩ := tableDump_text (e := e) (v := o.verbose) (i := 0) (by omega) hkeys
  obtain ⟨text, hstats, hstext⟩ := tableStats_text hns (by omega) (by omega) (by omega) (by omega) (by omega) (by omega) (by omega) hk31
  refine ⟨placesFrom o.verbose 0 t.rows, list, text, ?_, hltext, ⟨hhits, hmiss, hseeks, ⟨_, hdiff, hbal⟩, hlong, hgc⟩, hstext, ?_⟩
  · have := placesFrom_listing hwf o.verbose
    rw [show tableGet t = lastOf rows from funext hget] at this
    exact this
  · intro tr oc ho
    have hsaid : ((if o.dump = true then [(false, list)] else []) ++ [(false, text)]).map saidEvent =
        (if o.dump = true then [Event.out list] else []) ++ [Event.out text] := by
      cases o.dump <;> rfl
    rw [reportTail_eq hlist hstats, trace_says_exit ho, hsaid]

/-- What check-table holds after the first pass. -/
theorem first_pass {content : Bytes} {ls : List Bytes} {secs : List Section} (hl : HasLines content ls) (hf : FileLines ls secs)
    (hroom : (plainRows secs).length ≤ max 500 (content.length / 6)) (useHash : Bool) (f : Bytes) :
    ∃ (texts : List Bytes) (t : Table), Report (notices secs) texts ∧ (∀ k, tableGet t k = lastOf (plainRows secs) k) ∧
      Reviewed (freshTable (tableRowsFor content.length) useHash) (plainRows secs) (effectiveDefault secs none) t ∧
      t.rows.length = max 500 (content.length / 6) ∧ t.used = (plainRows secs).length ∧
      usedRows t.rows + t.overwrites = (plainRows secs).length ∧ t.maxDataLength = longest ((plainRows secs).map Prod.snd) ∧
      GreatestCode (plainRows secs) t.maxKey ∧
      ∀ tr r, Trace (checkTable useHash f) (.slurp (some f) (some content) :: tr) (.ret r) ↔ tr = texts.map Event.out ∧ r = some t := by
  obtain ⟨ls', hd, he⟩ := hasLines_check hl
  have hacts := he.trans (checkActs_file hf hd)
  obtain ⟨texts, t, hrep, hget, hdef, htr⟩ := C76_report hl hf hroom useHash f
  have htrace := (htr (texts.map Event.out) (some t)).2 ⟨rfl, rfl⟩
  rcases checkTable_ret htrace with ⟨t', ht, _, hrev⟩ | ⟨_, _, _, hc, _⟩
  rotate_left
  · cases hc
  cases ht
  rw [hacts, sectionActs_rows, sectionActs_default] at hrev
  refine ⟨texts, t, hrep, hget, hrev, hrev.length.trans (fresh_rows _ _), ?_, ?_, ?_, ?_, htr⟩
  · rw [hrev.used]; exact Nat.zero_add _
  · rw [hrev.counts.balance]
    have : usedRows (freshTable (tableRowsFor content.length) useHash).rows = 0 := by
      have := (freshTable_WF (tableRowsFor content.length) useHash).count
      exact Nat.le_zero.1 this
    rw [this]
    show 0 + 0 + _ = _
    omega
  · rw [hrev.longest, longestOf_eq]
    show max 0 _ = _
    omega
  · rw [hrev.counts.greatest]; exact greatestOf_code

/-- C77. What check-table prints about a file in the documented format, without `-b`: the notices of C76; with `-d` a listing that has
every code of the table once, with its translation (with `-v` also the empty places); and statistics that count the rows, those that
replaced others, and give the longest translation, the greatest code, the default translation and the number of places. -/
theorem C77_report {content : Bytes} {ls : List Bytes} {secs : List Section} (hl : HasLines content ls) (hf : FileLines ls secs)
    (hroom : (plainRows secs).length ≤ max 500 (content.length / 6)) (hsize : content.length < 2 ^ 31)
    (e : CheckEnv) (o : CheckOptions) (hb : o.builtin = false) (f n : Bytes)
    (hn : effectiveDefault secs none = some n ∨ effectiveDefault secs none = none ∧ e.nullText = some n) :
    ∃ (texts : List Bytes) (ps : List Place) (list : Bytes) (s : Statistics) (text : Bytes),
      Report (notices secs) texts ∧
      Listing (max 500 (content.length / 6)) o.verbose (lastOf (plainRows secs)) ps ∧ ListingText ps list ∧
      s.Describe (plainRows secs) ∧ s.used = (plainRows secs).length ∧ s.available = max 500 (content.length / 6) ∧
      (o.useHash = false → s.seeks = (plainRows secs).length) ∧ s.default = n ∧ s.Text e.percent text ∧
      ∀ tr oc, oc ≠ .running →
        (Trace (checkFile e o f) (.out (lit "checking: " ++ f ++ lit "\n") :: .slurp (some f) (some content) :: tr) oc ↔
          tr = texts.map Event.out ++ (if o.dump then [.out list] else []) ++ [.out text] ∧ oc = .exit 0) := by
  obtain ⟨texts, t, hrep, hget, hrev, hlen, hused, hbal, hlong, hgc, htr⟩ := first_pass hl hf hroom o.useHash f
  have hns : printfString e t.defaultTranslation = .ok n := by
    rw [hrev.dflt]
    rcases hn with h | ⟨h1, h2⟩
    · rw [h]; rfl
    · rw [h1]; unfold printfString; rw [h2]
  have hcounts := hrev.counts
  obtain ⟨ps, list, text, h1, h2, h3, h4, h5⟩ := tail_report (e := e) (o := o) hrev.wf hget (fun r hr => (plainRows_small hf r hr).2)
    (by omega) (by omega) (hcounts.hits.trans (Nat.zero_add _)) hcounts.misses (Nat.le_trans hcounts.seeks (Nat.le_of_eq (Nat.zero_add _)))
    hbal hlong (rows_short hl hf) (by omega) hgc hns
  rw [hlen] at h1
  refine ⟨texts, ps, list, statisticsOf t n, text, hrep, h1, h2, h3, hused, hlen, ?_, rfl, h4, ?_⟩
  · intro hh
    exact (hcounts.linear hh).trans (Nat.zero_add _)
  · intro tr oc ho
    constructor
    · intro h
      unfold checkFile at h
      cases h with
      | out _ _ _ _ h =>
        rcases trace_bind_any h with ⟨r, tr1, tr2, htr', hc1, hc2⟩ | ⟨o', hs, hc1⟩
        · have hsl : ∃ tr1', tr1 = .slurp (some f) (some content) :: tr1' := by
            unfold checkTable at hc1
            cases hc1 with
            | slurp _ _ a _ _ hc1 => cases htr'; exact ⟨_, rfl⟩
          obtain ⟨tr1', rfl⟩ := hsl
          rw [List.cons_append, List.cons.injEq] at htr'
          obtain ⟨rfl, rfl⟩ := (htr _ _).1 hc1
          rw [hb] at hc2
          have hc3 := (h5 _ _ ho).1 hc2
          rw [htr'.2, hc3.1]
          exact ⟨by rw [List.append_assoc], hc3.2⟩
        · exfalso
          rcases checkTable_end hc1 with rfl | ⟨r, rfl, _⟩
          · cases hs; exact ho rfl
          · cases hs
    · rintro ⟨rfl, rfl⟩
      unfold checkFile
      refine .out _ _ _ _ ?_
      rw [List.append_assoc, ← List.cons_append]
      refine trace_seq ((htr _ _).2 ⟨rfl, rfl⟩) ?_
      rw [hb]
      exact (h5 _ _ ho).2 ⟨rfl, rfl⟩

/-- The places of a table that is about to become a built-in one: the next multiple of 256 above the number of rows. -/
theorem loaderRows_eq (n : Nat) : n < loaderRows n ∧ loaderRows n ≤ n + 256 ∧ 256 ∣ loaderRows n := by
  unfold loaderRows
  refine ⟨by omega, by omega, ⟨n / 256 + 1, by omega⟩⟩

/-- C77. The same with `-b`, for a file whose rows agree: the blocks for languages are reported a second time, and the listing and the
statistics are those of a table with the next multiple of 256 as its number of places, where only different codes count as used. -/
theorem C77_report_resized {content : Bytes} {ls : List Bytes} {secs : List Section} (hl : HasLines content ls) (hf : FileLines ls secs)
    (hroom : (plainRows secs).length ≤ max 500 (content.length / 6)) (hsize : content.length < 2 ^ 31)
    (hagree : ∀ k d d', (k, d) ∈ plainRows secs → (k, d') ∈ plainRows secs → d = d')
    (e : CheckEnv) (o : CheckOptions) (hb : o.builtin = true) (f n : Bytes)
    (hn : effectiveDefault secs none = some n ∨ effectiveDefault secs none = none ∧ e.nullText = some n) :
    ∃ (texts again : List Bytes) (ps : List Place) (list : Bytes) (s : Statistics) (text : Bytes),
      Report (notices secs) texts ∧ Report (skippedBlocks secs) again ∧
      Listing s.available o.verbose (lastOf (plainRows secs)) ps ∧ ListingText ps list ∧
      s.Describe (plainRows secs) ∧ DifferentCodes (plainRows secs) s.used ∧
      (plainRows secs).length < s.available ∧ s.available ≤ (plainRows secs).length + 256 ∧ 256 ∣ s.available ∧
      s.default = n ∧ s.Text e.percent text ∧
      ∀ tr oc, oc ≠ .running →
        (Trace (checkFile e o f) (.out (lit "checking: " ++ f ++ lit "\n") :: .slurp (some f) (some content) ::
            (texts.map Event.out ++ .slurp (some f) (some content) :: tr)) oc ↔
          tr = again.map Event.out ++ (if o.dump then [.out list] else []) ++ [.out text] ∧ oc = .exit 0) := by
  obtain ⟨ls', hd, he⟩ := hasLines_check hl
  have hacts := he.trans (checkActs_file hf hd)
  obtain ⟨texts, t, hrep, hget, hrev, hlen, hused, hbal, hlong, hgc, htr⟩ := first_pass hl hf hroom o.useHash f
  have hwf := hrev.wf
  obtain ⟨hload1, hload2, hload3⟩ := loaderRows_eq t.used
  have hrf : rowsFor (loaderRows t.used) = loaderRows t.used := by
    unfold rowsFor
    split <;> omega
  have hres := resize_counts hwf (loaderRows t.used) true (by have := hwf.count; omega)
  rw [hrf] at hres
  have hget2 : ∀ k, tableGet (tableResize t (loaderRows t.used) true) k = lastOf (plainRows secs) k := fun k => (hres.get k).trans (hget k)
  have hpairs : ∀ k d, (k, d) ∈ rowPairs t.rows ↔ (k, d) ∈ plainRows secs := by
    intro k d
    rw [mem_rowPairs hwf, hget]
    constructor
    · exact lastOf_mem
    · intro h
      obtain ⟨d', hm⟩ := (lastOf_exists _ _).2 ⟨d, h⟩
      rw [hm, hagree k d d' h (lastOf_mem hm)]
  have hall : ∀ r ∈ checkRows (checkActs false (fileLines content.length content)),
      tableGet (tableResize t (loaderRows t.used) true) r.1 = some r.2 := by
    rw [hacts, sectionActs_rows]
    intro r hr
    rw [hres.get]
    exact (mem_rowPairs hwf _ _).1 ((hpairs _ _).2 hr)
  have hsecond : ∃ (b' : Bool) (t3 : Table), t3.WF ∧ (∀ k, tableGet t3 k = lastOf (plainRows secs) k) ∧ t3.rows.length = loaderRows t.used ∧
      t3.used = usedRows t.rows ∧ usedRows t3.rows = usedRows t.rows ∧ t3.hits = (plainRows secs).length ∧ t3.misses = 0 ∧
      t3.seeks ≤ (plainRows secs).length ∧ t3.overwrites = t.overwrites ∧ t3.maxDataLength = longest ((plainRows secs).map Prod.snd) ∧
      GreatestCode (plainRows secs) t3.maxKey ∧ t3.defaultTranslation = effectiveDefault secs none ∧
      checkAgainLines (false, tableResize t (loaderRows t.used) true) (fileLines content.length content) =
        Prog.says ((againNotes (sectionActs secs)).map fun s => (false, s)) (.ret (some (b', t3))) := by
    rcases checkAgainLines_eq (fileLines content.length content) false (tableResize t (loaderRows t.used) true) with
      ⟨_, b', hh, mm, ss, c1, c2, c3, h1⟩ | ⟨notes, k, d, hm, hne, _⟩
    · rw [hacts, sectionActs_rows] at c1 c3
      rw [hacts] at h1
      rw [hres.hits, Nat.zero_add] at c1
      rw [hres.misses] at c2
      rw [hres.seeks, Nat.zero_add] at c3
      refine ⟨b', _, hres.wf.counters hh mm ss, hget2, hres.length, hres.used, hres.entries, c1, c2, c3, hres.overwrites, ?_, ?_,
        hres.dflt.trans hrev.dflt, h1⟩
      · rw [hres.longest]
        refine longest_same fun d => ?_
        rw [List.mem_map, List.mem_map]
        exact ⟨fun ⟨r, hr, he⟩ => ⟨r, (hpairs r.1 r.2).1 hr, he⟩, fun ⟨r, hr, he⟩ => ⟨r, (hpairs r.1 r.2).2 hr, he⟩⟩
      · exact greatest_same (fun k => ⟨fun ⟨d, h⟩ => ⟨d, (hpairs k d).1 h⟩, fun ⟨d, h⟩ => ⟨d, (hpairs k d).2 h⟩⟩) hres.greatest
    · exact absurd (hall _ hm) hne
  obtain ⟨b', t3, w3, g3, l3, u3, e3, hit3, miss3, seek3, ow3, long3, gc3, d3, hprog⟩ := hsecond
  have hns : printfString e t3.defaultTranslation = .ok n := by
    rw [d3]
    rcases hn with h | ⟨h1, h2⟩
    · rw [h]; rfl
    · rw [h1]; unfold printfString; rw [h2]
  have hcount := hwf.count
  obtain ⟨ps, list, text, h1, h2, h3, h4, h5⟩ := tail_report (e := e) (o := o) w3 g3 (fun r hr => (plainRows_small hf r hr).2)
    (by omega) (by omega) hit3 miss3 seek3 (by omega) long3 (rows_short hl hf) (by omega) gc3 hns
  refine ⟨texts, againNotes (sectionActs secs), ps, list, statisticsOf t3 n, text, hrep, againNotes_sections secs, h1, h2, h3, ?_, ?_, ?_, ?_,
    rfl, h4, ?_⟩
  · show DifferentCodes _ t3.used
    rw [u3]
    exact hwf.different_codes fun k => by rw [← lastOf_exists, hget]
  · show _ < t3.rows.length
    omega
  · show t3.rows.length ≤ _
    omega
  · show 256 ∣ t3.rows.length
    rw [l3]
    exact hload3
  · intro tr oc ho
    have hsaid : ((againNotes (sectionActs secs)).map fun s => (false, s)).map saidEvent = (againNotes (sectionActs secs)).map Event.out := by
      rw [List.map_map]
      rfl
    constructor
    · intro h
      unfold checkFile at h
      cases h with
      | out _ _ _ _ h =>
        rcases trace_bind_any h with ⟨r, tr1, tr2, htr', hc1, hc2⟩ | ⟨o', hs, hc1⟩
        · have hsl : ∃ tr1', tr1 = .slurp (some f) (some content) :: tr1' := by
            unfold checkTable at hc1
            cases hc1 with
            | slurp _ _ a _ _ hc1 =>
              rw [List.cons_append, List.cons.injEq] at htr'
              rw [← htr'.1]
              exact ⟨_, rfl⟩
          obtain ⟨tr1', rfl⟩ := hsl
          rw [List.cons_append, List.cons.injEq] at htr'
          obtain ⟨rfl, rfl⟩ := (htr _ _).1 hc1
          have htr2 := List.append_cancel_left htr'.2
          subst htr2
          rw [hb] at hc2
          rcases trace_bind_any hc2 with ⟨r', tr3, tr4, htr4, hd1, hd2⟩ | ⟨o', hs, hd1⟩
          · simp only [if_true] at hd1
            unfold checkTableAgain at hd1
            cases hd1 with
            | slurp _ _ a trr _ hd1 =>
              rw [List.cons_append, List.cons.injEq, Event.slurp.injEq] at htr4
              obtain ⟨⟨_, ha⟩, rfl⟩ := htr4
              subst ha
              dsimp only at hd1
              rw [hprog, Prog.says_bind] at hd1
              obtain ⟨hr', hq⟩ := trace_says_ret hd1
              subst hr'
              have hd3 := (h5 _ _ ho).1 hd2
              rw [hq, hsaid, hd3.1]
              exact ⟨by rw [List.append_assoc], hd3.2⟩
          · exfalso
            simp only [if_true] at hd1
            rcases checkAgain_end hd1 with rfl | ⟨r', rfl⟩ | ⟨_, hno⟩
            · cases hs; exact ho rfl
            · cases hs
            · cases hno
        · exfalso
          rcases checkTable_end hc1 with rfl | ⟨r, rfl, _⟩
          · cases hs; exact ho rfl
          · cases hs
    · rintro ⟨rfl, rfl⟩
      unfold checkFile
      refine .out _ _ _ _ ?_
      rw [← List.cons_append]
      refine trace_seq ((htr _ _).2 ⟨rfl, rfl⟩) ?_
      rw [hb]
      rw [List.append_assoc, ← List.cons_append]
      refine trace_seq (a := some t3) ?_ ((h5 _ _ ho).2 ⟨rfl, rfl⟩)
      simp only [if_true]
      unfold checkTableAgain
      refine .slurp _ _ _ _ _ ?_
      dsimp only
      rw [hprog, Prog.says_bind, ← hsaid]
      exact says_ret _ _

/-! ### Options -/

theorem checkItems_letters (program : Bytes) (ls : Bytes) (h : ∀ c ∈ ls, c ∈ lit "bdlv") : ∀ (o : CheckOptions),
    checkItems program o (ls.map some) = .ret
      { builtin := o.builtin || decide (byteOf 'b' ∈ ls), dump := o.dump || decide (byteOf 'd' ∈ ls),
        useHash := o.useHash && !decide (byteOf 'l' ∈ ls), verbose := o.verbose || decide (byteOf 'v' ∈ ls) } := by
  induction ls with
  | nil => intro o; simp [checkItems]
  | cons c ls ih =>
    intro o
    have hc := h c (by simp)
    have ih := ih fun c hc => h c (List.mem_cons_of_mem _ hc)
    have hcs : c = byteOf 'b' ∨ c = byteOf 'd' ∨ c = byteOf 'l' ∨ c = byteOf 'v' := by
      have : lit "bdlv" = [byteOf 'b', byteOf 'd', byteOf 'l', byteOf 'v'] := by decide
      rw [this] at hc
      simpa using hc
    have nbd : byteOf 'b' ≠ byteOf 'd' := by decide
    have nbl : byteOf 'b' ≠ byteOf 'l' := by decide
    have nbv : byteOf 'b' ≠ byteOf 'v' := by decide
    have ndl : byteOf 'd' ≠ byteOf 'l' := by decide
    have ndv : byteOf 'd' ≠ byteOf 'v' := by decide
    have ndh : byteOf 'd' ≠ byteOf 'h' := by decide
    have nlh : byteOf 'l' ≠ byteOf 'h' := by decide
    have nlv : byteOf 'l' ≠ byteOf 'v' := by decide
    have nvh : byteOf 'v' ≠ byteOf 'h' := by decide
    rw [List.map_cons, checkItems]
    rcases hcs with rfl | rfl | rfl | rfl
    · rw [if_pos rfl, ih]
      simp [List.mem_cons, nbd.symm, nbl.symm, nbv.symm]
    · rw [if_neg nbd.symm, if_pos rfl, ih]
      simp [List.mem_cons, nbd, ndl.symm, ndv.symm]
    · rw [if_neg nbl.symm, if_neg ndl.symm, if_neg nlh, if_pos rfl, ih]
      simp [List.mem_cons, nbl, ndl, nlv.symm]
    · rw [if_neg nbv.symm, if_neg ndv.symm, if_neg nvh, if_neg nlv.symm, ih]
      simp [List.mem_cons, nbv, ndv, nlv]

/-- Letters after a dash: at least one, none of them `h`. -/
def OptionLetters (letters : Bytes) : Prop := letters ≠ [] ∧ ∀ c ∈ letters, c ∈ lit "bdlv"

theorem getoptShort_words (posix : Bool) {ls : List Bytes} (h : ∀ l ∈ ls, OptionLetters l) (rest : List Bytes) :
    getoptShort posix (ls.map (0x2d :: ·) ++ rest) = (ls.flatten.map some ++ (getoptShort posix rest).1, (getoptShort posix rest).2) := by
  induction ls with
  | nil => rfl
  | cons l ls ih =>
    obtain ⟨hne, hl⟩ := h l (by simp)
    have ih := ih fun l hm => h l (List.mem_cons_of_mem _ hm)
    rw [List.map_cons, List.cons_append, getoptShort]
    have h1 : ¬ (0x2d :: l = lit "--") := by
      intro hc
      rw [show lit "--" = [0x2d, 0x2d] from by decide] at hc
      cases hc
      exact absurd (hl 0x2d (by simp)) (by decide)
    have h2 : ((lit "-").isPrefixOf ((0x2d : Byte) :: l) && decide ((0x2d :: l).length > 1)) = true := by
      rw [show lit "-" = [0x2d] from by decide]
      cases l with
      | nil => exact absurd rfl hne
      | cons c l => simp [List.isPrefixOf]
    have h3 : (((0x2d : Byte) :: l).drop 1).map (fun c => if (lit "bdlhv").contains c then some c else none) = l.map some := by
      rw [List.drop_one, List.tail_cons]
      refine List.map_congr_left fun c hc => ?_
      rw [if_pos]
      have hb : ∀ c ∈ lit "bdlv", (lit "bdlhv").contains c = true := by decide
      exact hb c (hl c hc)
    rw [if_neg h1, if_pos h2, h3, ih]
    simp

theorem letters_flatten {ls : List Bytes} (h : ∀ l ∈ ls, OptionLetters l) : ∀ c ∈ ls.flatten, c ∈ lit "bdlv" := by
  intro c hc
  obtain ⟨l, hl, hc⟩ := List.mem_flatten.1 hc
  exact (h l hl).2 c hc

/-- The options for a list of letters. -/
def optionsOf (letters : Bytes) : CheckOptions :=
  ⟨decide (byteOf 'b' ∈ letters), decide (byteOf 'd' ∈ letters), !decide (byteOf 'l' ∈ letters), decide (byteOf 'v' ∈ letters)⟩

/-- C77. What the options mean: `-b` the second pass, `-d` the listing, `-l` a table without a hash, `-v` empty places in the listing;
in any order, in one word or in several, as often as one likes, before the file or (if `getopt` permutes) also after it. -/
theorem C77_options (e : CheckEnv) (program : Bytes) {posix : Bool} {before after : List Bytes}
    (hb : ∀ l ∈ before, OptionLetters l) (ha : ∀ l ∈ after, OptionLetters l) (hp : posix = true → after = []) {f : Bytes}
    (hf : f = lit "-" ∨ ¬ ∃ r, f = 0x2d :: r) :
    ∃ o : CheckOptions, checkMain e program posix (before.map (0x2d :: ·) ++ f :: after.map (0x2d :: ·)) = checkFile e o f ∧
      (o.builtin = true ↔ ∃ l ∈ before ++ after, byteOf 'b' ∈ l) ∧ (o.dump = true ↔ ∃ l ∈ before ++ after, byteOf 'd' ∈ l) ∧
      (o.useHash = false ↔ ∃ l ∈ before ++ after, byteOf 'l' ∈ l) ∧ (o.verbose = true ↔ ∃ l ∈ before ++ after, byteOf 'v' ∈ l) := by
  have hg : getoptShort posix (f :: after.map (0x2d :: ·)) = (after.flatten.map some, [f]) := by
    have hne : f ≠ lit "--" := by
      rintro rfl
      rcases hf with h | h
      · exact absurd h (by decide)
      · exact h ⟨[0x2d], by decide⟩
    have hno : ¬ ((lit "-").isPrefixOf f && decide (f.length > 1)) = true := by
      intro hc
      rw [Bool.and_eq_true] at hc
      rcases hf with h | h
      · subst h
        exact absurd hc.2 (by decide)
      · rw [show lit "-" = [0x2d] from by decide] at hc
        obtain ⟨r, hr⟩ := List.isPrefixOf_iff_prefix.1 hc.1
        exact h ⟨r, hr.symm⟩
    rw [getoptShort, if_neg hne, if_neg hno]
    cases posix with
    | true =>
      have := hp rfl
      subst this
      rfl
    | false =>
      have := getoptShort_words false ha []
      rw [List.append_nil] at this
      simp only [Bool.false_eq_true, if_false]
      rw [this]
      simp [getoptShort]
  refine ⟨optionsOf (before ++ after).flatten, ?_, ?_, ?_, ?_, ?_⟩
  · unfold checkMain
    rw [getoptShort_words posix hb, hg]
    dsimp only
    rw [← List.map_append, ← List.flatten_append, checkItems_letters program _ (letters_flatten fun l hl => by
      rcases List.mem_append.1 hl with h | h
      · exact hb l h
      · exact ha l h)]
    simp only [Prog.bind, Bool.false_or, Bool.true_and]
    rfl
  · simp only [optionsOf, decide_eq_true_eq, List.mem_flatten]
  · simp only [optionsOf, decide_eq_true_eq, List.mem_flatten]
  · simp only [optionsOf, Bool.not_eq_eq_eq_not, Bool.not_false, decide_eq_true_eq, List.mem_flatten]
  · simp only [optionsOf, decide_eq_true_eq, List.mem_flatten]

/-- C77. `-h` shows how to use the program and does nothing else. -/
theorem C77_help (e : CheckEnv) (program : Bytes) (posix : Bool) {before : List Bytes} (hb : ∀ l ∈ before, OptionLetters l) (rest : List Bytes) :
    checkMain e program posix (before.map (0x2d :: ·) ++ lit "-h" :: rest) = .out (lit "check-table [-bdlhv] filename.tbl\n") (.exit 0) := by
  have hstop : ∀ (ls : Bytes), (∀ c ∈ ls, c ∈ lit "bdlv") → ∀ (o : CheckOptions) (more : List (Option Byte)),
      checkItems program o (ls.map some ++ some (byteOf 'h') :: more) = .out (lit "check-table [-bdlhv] filename.tbl\n") (.exit 0) := by
    intro ls
    induction ls with
    | nil =>
      intro _ o more
      rw [List.map_nil, List.nil_append, checkItems, if_neg (by decide), if_neg (by decide), if_pos rfl]
    | cons c ls ih =>
      intro h o more
      have hc := h c (by simp)
      have ih := ih fun c hc => h c (List.mem_cons_of_mem _ hc)
      have hnh : c ≠ byteOf 'h' := by
        rintro rfl
        exact absurd hc (by decide)
      rw [List.map_cons, List.cons_append, checkItems]
      split
      · exact ih _ _
      · split
        · exact ih _ _
        · split
          · exact ih _ _
          · exact ih _ _
  unfold checkMain
  rw [getoptShort_words posix hb]
  have hg : getoptShort posix (lit "-h" :: rest) = (some (byteOf 'h') :: (getoptShort posix rest).1, (getoptShort posix rest).2) := by
    rw [getoptShort, if_neg (by decide), if_pos (by decide)]
    rfl
  rw [hg]
  dsimp only
  rw [hstop _ (letters_flatten hb)]
  rfl

/-! ### Cases -/

/-- The file of C25 and C26 has three rows outside of the language block, two of them for the same code. -/
example : plainRows demoSections = [(0x26, lit "_and_"), (0x26, lit "\""), (9, [])] ∧ DifferentCodes (plainRows demoSections) 2 ∧
    GreatestCode (plainRows demoSections) 0x26 :=
  ⟨rfl, ⟨[9, 0x26], by decide, rfl, by
    intro k
    show k ∈ [9, 0x26] ↔ ∃ d, (k, d) ∈ [(0x26, lit "_and_"), (0x26, lit "\""), (9, [])]
    simp only [List.mem_cons, List.not_mem_nil, or_false, Prod.mk.injEq]
    constructor
    · rintro (rfl | rfl)
      · exact ⟨[], .inr (.inr ⟨rfl, rfl⟩)⟩
      · exact ⟨lit "\"", .inr (.inl ⟨rfl, rfl⟩)⟩
    · rintro ⟨d, ⟨h, _⟩ | ⟨h, _⟩ | ⟨h, _⟩⟩
      · exact .inr h
      · exact .inr h
      · exact .inl h⟩, ⟨by decide, .inr ⟨(0x26, lit "_and_"), by decide, rfl⟩⟩⟩

/-- The hypotheses of `C77_report` hold of it. -/
example (f : Bytes) := C77_report demo_lines demo_file (by decide) (by decide) gnuEnv { dump := true } rfl f (lit "_") (.inl rfl)

/-- What this means: `check-table -d t`. -/
example : Trace (checkMain gnuEnv (lit "check-table") false [lit "-d", lit "t"])
    [.out (lit "checking: t\n"), .slurp (some (lit "t")) (some demoContent),
     .out (lit "warning - code 0x0026 appears twice in a row\n"), .out (lit "warning - code 0x0009 appears after 0x0026\n"),
     .out (lit "skipping language subsection for EN\n"),
     .out (lit "index: 9, key: 0x0009, data: \nindex: 38, key: 0x0026, data: \"\n"),
     .out (lit "used: 3\navailable: 500\nused percent: 0.00\nhits: 3\nmisses: 0\nseeks: 0\noverwrites: 1\nlongest entry: 5\ndefault translation: _\nmaximum key: 0x0026\n")]
    (.exit 0) :=
  Prog.final_sound _ _ _ (by decide +kernel)

/-- `start EN` / `0x24 money` / `end` / `start` / `0x20 _` / `end`. -/
def agreeingLines : List Bytes := [lit "start EN", lit "0x24 money", lit "end", lit "start", lit "0x20 _", lit "end"]

def agreeingSections : List Section := [.langBlock (lit "EN") [(0x24, lit "money")], .block [(0x20, lit "_")]]

theorem agreeing_file : FileLines agreeingLines agreeingSections := by
  refine FileLines.cons [lit "start EN", lit "0x24 money", lit "end"] _ _ _ (.langBlock _ _ [lit "0x24 money"] _ _ ?_ ?_ ?_)
    (FileLines.cons [lit "start", lit "0x20 _", lit "end"] _ _ _ (.block _ [lit "0x20 _"] _ _ ?_ ?_ ?_) .nil)
  · exact .mk [] (lit "start") (lit " ") (lit "EN") (lit "EN") (by decide) (by decide) (by decide) (by decide)
      (.bare 0x45 (lit "N") [] (by decide) (by decide) (by decide) (Or.inl rfl)) (by decide)
  · refine .row _ _ (0x24, lit "money") _ ?_ .nil
    exact .row [] (lit "0x24") (lit " ") (lit "money") _ _ (by decide)
        (.hex 0x78 (lit "24") 0x24 (Or.inl rfl) (by decide) (digits_hex2 _ _ 2 4 16 (by decide) (by decide) (by decide) (by decide)))
        (by decide) (by decide)
        (.bare 0x6D (lit "oney") [] (by decide) (by decide) (by decide) (Or.inl rfl))
        (by decide) (by decide)
  · exact .mk [] (lit "end") [] (by decide) (by decide) (by decide)
  · exact .mk [] (lit "start") [] (by decide) (by decide) (by decide)
  · refine .row _ _ (0x20, lit "_") _ ?_ .nil
    exact .row [] (lit "0x20") (lit " ") (lit "_") _ _ (by decide)
        (.hex 0x78 (lit "20") 0x20 (Or.inl rfl) (by decide) (digits_hex2 _ _ 2 0 16 (by decide) (by decide) (by decide) (by decide)))
        (by decide) (by decide)
        (.bare 0x5F [] [] (by decide) (by decide) (by decide) (Or.inl rfl))
        (by decide) (by decide)
  · exact .mk [] (lit "end") [] (by decide) (by decide) (by decide)

def agreeingContent : Bytes := (agreeingLines.map (· ++ [0x0A])).flatten

/-- The hypotheses of `C77_report_resized` hold of it. -/
example (f : Bytes) := C77_report_resized (content := agreeingContent) ⟨by decide, Or.inl rfl⟩ agreeing_file (by decide) (by decide)
  (by
    intro k d d' h1 h2
    have h1 : (k, d) ∈ [((0x20 : Nat), lit "_")] := h1
    have h2 : (k, d') ∈ [((0x20 : Nat), lit "_")] := h2
    simp only [List.mem_singleton, Prod.mk.injEq] at h1 h2
    rw [h1.2, h2.2])
  gnuEnv { builtin := true } rfl f (lit "(null)") (.inr ⟨rfl, rfl⟩)

/-- The options of `check-table -dl -v t -d`. -/
example : OptionLetters (lit "dl") ∧ OptionLetters (lit "v") ∧ OptionLetters (lit "d") := by
  refine ⟨⟨?_, ?_⟩, ⟨?_, ?_⟩, ⟨?_, ?_⟩⟩ <;> decide

end Detox
