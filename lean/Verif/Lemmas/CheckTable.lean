import Verif.Lemmas.TableCount
import Verif.Lemmas.LoadedTable
import Verif.Lemmas.Trace
import Verif.Spec.CheckTable
import Verif.Model.CheckTable

/-!
# Lemmas on check-table
-/

set_option autoImplicit false

namespace Detox
open Spec

/-! ### Programs that only print -/

/-- Print, then go on. `true` is standard error. -/
def Prog.says {α : Type} : List (Bool × Bytes) → Prog α → Prog α
  | [], p => p
  | (true, s) :: es, p => .err s (says es p)
  | (false, s) :: es, p => .out s (says es p)

/-- The events. -/
def saidEvent : Bool × Bytes → Event
  | (true, s) => .err s
  | (false, s) => .out s

theorem Prog.says_bind {α β : Type} (es : List (Bool × Bytes)) (p : Prog α) (f : α → Prog β) :
    (Prog.says es p).bind f = Prog.says es (p.bind f) := by
  induction es with
  | nil => rfl
  | cons e es ih =>
    obtain ⟨b, s⟩ := e
    cases b <;> simp only [Prog.says, Prog.bind, ih]

theorem Prog.says_append {α : Type} (a b : List (Bool × Bytes)) (p : Prog α) : Prog.says (a ++ b) p = Prog.says a (Prog.says b p) := by
  induction a with
  | nil => rfl
  | cons e es ih =>
    obtain ⟨b, s⟩ := e
    cases b <;> simp only [List.cons_append, Prog.says, ih]

/-- An execution prints a part of the text, or all of it and goes on. -/
theorem trace_says {α : Type} {es : List (Bool × Bytes)} {p : Prog α} {tr : List Event} {o : Outcome α} (h : Trace (Prog.says es p) tr o) :
    (o = .running ∧ ∃ n, tr = (es.take n).map saidEvent) ∨ ∃ tr', tr = es.map saidEvent ++ tr' ∧ Trace p tr' o := by
  induction es generalizing tr with
  | nil => exact .inr ⟨tr, rfl, h⟩
  | cons e es ih =>
    obtain ⟨b, s⟩ := e
    cases b
    · simp only [Prog.says] at h
      cases h with
      | stop => exact .inl ⟨rfl, 0, rfl⟩
      | out _ _ tr' _ h =>
        rcases ih h with ⟨h1, n, h2⟩ | ⟨tr'', h1, h2⟩
        · exact .inl ⟨h1, n + 1, by rw [h2]; rfl⟩
        · exact .inr ⟨tr'', by rw [h1]; rfl, h2⟩
    · simp only [Prog.says] at h
      cases h with
      | stop => exact .inl ⟨rfl, 0, rfl⟩
      | err _ _ tr' _ h =>
        rcases ih h with ⟨h1, n, h2⟩ | ⟨tr'', h1, h2⟩
        · exact .inl ⟨h1, n + 1, by rw [h2]; rfl⟩
        · exact .inr ⟨tr'', by rw [h1]; rfl, h2⟩

theorem trace_says_ret {α : Type} {es : List (Bool × Bytes)} {a b : α} {tr : List Event} (h : Trace (Prog.says es (.ret a)) tr (.ret b)) :
    b = a ∧ tr = es.map saidEvent := by
  rcases trace_says h with ⟨h1, _⟩ | ⟨tr', h1, h2⟩
  · cases h1
  · cases h2
    exact ⟨rfl, by rw [h1, List.append_nil]⟩

theorem says_ret {α : Type} (es : List (Bool × Bytes)) (a : α) : Trace (Prog.says es (.ret a)) (es.map saidEvent) (.ret a) := by
  induction es with
  | nil => exact .ret a
  | cons e es ih =>
    obtain ⟨b, s⟩ := e
    cases b
    · exact .out _ _ _ _ ih
    · exact .err _ _ _ _ ih

/-! ### What the lines ask for -/

/-- What the lines ask of check-table. -/
def checkActs : Bool → List Bytes → List (Option Bytes × LineAction)
  | _, [] => []
  | b, l :: ls =>
    if peek l = 0x23 then checkActs b ls
    else
      match if b then (none, insideLine l) else checkBaseLine l with
      | (some lang, _) => (some lang, .skip) :: checkActs b ls
      | (none, .skip) => checkActs b ls
      | (none, .enter) => (none, .enter) :: checkActs true ls
      | (none, .leave) => checkActs false ls
      | (none, .dflt d) => (none, .dflt d) :: checkActs b ls
      | (none, .row k d) => (none, .row k d) :: checkActs b ls

/-- Rows and defaults of these. -/
def checkRows (as : List (Option Bytes × LineAction)) : List (Nat × Bytes) := actionRows (as.map Prod.snd)

/-- All translations set by `default` lines. -/
def actionDefaults : List LineAction → List Bytes
  | [] => []
  | .dflt (some d) :: as => d :: actionDefaults as
  | _ :: as => actionDefaults as

/-- Warnings on the order, and notes on languages. -/
def checkNotes (last : Nat) : List (Option Bytes × LineAction) → List Bytes
  | [] => []
  | (some lang, _) :: as => skippingMessage lang :: checkNotes 0 as
  | (none, .enter) :: as => checkNotes 0 as
  | (none, .row k _) :: as => (orderWarning k last).toList ++ checkNotes k as
  | (none, _) :: as => checkNotes last as

/-- The longest of some strings, at least `n`. -/
def longestOf (n : Nat) (ds : List Bytes) : Nat := ds.foldl (fun m d => max m d.length) n

theorem longestOf_max (n m : Nat) (ds : List Bytes) : longestOf (max n m) ds = max n (longestOf m ds) := by
  induction ds generalizing n m with
  | nil => rfl
  | cons d ds ih =>
    show longestOf (max (max n m) d.length) ds = max n (longestOf (max m d.length) ds)
    rw [Nat.max_assoc, ih]

theorem longestOf_cons (n : Nat) (d : Bytes) (ds : List Bytes) : longestOf n (d :: ds) = max d.length (longestOf n ds) := by
  show longestOf (max n d.length) ds = _
  rw [Nat.max_comm, longestOf_max]

theorem longestOf_ge (n : Nat) (ds : List Bytes) : n ≤ longestOf n ds := by
  induction ds with
  | nil => exact Nat.le_refl _
  | cons d ds ih => rw [longestOf_cons]; omega

theorem longestOf_mem (n : Nat) (ds : List Bytes) : ∀ d ∈ ds, d.length ≤ longestOf n ds := by
  induction ds with
  | nil => intro d h; cases h
  | cons e ds ih =>
    intro d h
    rw [longestOf_cons]
    rcases List.mem_cons.1 h with rfl | h
    · omega
    · have := ih d h; omega

theorem longestOf_le {n m : Nat} {ds : List Bytes} (hn : n ≤ m) (h : ∀ d ∈ ds, d.length ≤ m) : longestOf n ds ≤ m := by
  induction ds with
  | nil => exact hn
  | cons d ds ih =>
    rw [longestOf_cons]
    have := h d (by simp)
    have := ih fun d h' => h d (by simp [h'])
    omega

/-- Everything check-table measures. -/
def checkLengths : List (Option Bytes × LineAction) → List Bytes
  | [] => []
  | (none, .row _ d) :: as => d :: checkLengths as
  | (none, .dflt (some d)) :: as => d :: checkLengths as
  | _ :: as => checkLengths as

theorem checkActs_languages {b : Bool} {ls : List Bytes} : ∀ a ∈ checkActs b ls, a.1 ≠ none → a.2 = .skip := by
  induction ls generalizing b with
  | nil => intro a h; cases h
  | cons l ls ih =>
    intro a h hn
    unfold checkActs at h
    split at h
    · exact ih a h hn
    · split at h
      all_goals first
        | exact ih a h hn
        | (rcases List.mem_cons.1 h with rfl | h
           · first | rfl | exact absurd rfl hn
           · exact ih a h hn)

/-- Some row cannot be added: key 0, or no room. -/
def Unloadable (t : Table) (rows : List (Nat × Bytes)) : Prop := (∃ r ∈ rows, r.1 = 0) ∨ t.rows.length < t.used + rows.length

theorem tableGet_self {t : Table} (h : t.WF) {k : Nat} {d : Bytes} {t' : Table} {o : Nat} (hp : tablePut t k d = (t', some o)) :
    k ≠ 0 ∧ t.used < t.rows.length ∧ tableGet t' k = some d := by
  have hk : k ≠ 0 := by
    rintro rfl
    rw [tablePut_fail (.inl rfl)] at hp
    cases hp
  have hu : t.used < t.rows.length := by
    have := h.cap
    have : t.used ≠ t.rows.length := by
      intro hc
      rw [tablePut_fail (.inr hc)] at hp
      cases hp
    omega
  have := h.get_put hk hu d k
  rw [hp] at this
  exact ⟨hk, hu, by simpa using this⟩

/-- What is left of a table after the rows of some lines. -/
structure Reviewed (t : Table) (rows : List (Nat × Bytes)) (dflt : Option Bytes) (t' : Table) : Prop where
  wf : t'.WF
  reach : Reachable t'
  length : t'.rows.length = t.rows.length
  used : t'.used = t.used + rows.length
  hash : t'.useHash = t.useHash
  dflt : t'.defaultTranslation = dflt
  longest : t'.maxDataLength = longestOf t.maxDataLength (rows.map Prod.snd)
  get : ∀ k, tableGet t' k = match lastOf rows k with | some d => some d | none => tableGet t k
  loads : ¬ Unloadable t rows
  counts : Counts t rows t'

theorem Reviewed.ofDefault {t : Table} {d : Option Bytes} {rows : List (Nat × Bytes)} {df : Option Bytes} {t' : Table}
    (h : Reviewed { t with defaultTranslation := d } rows df t') : Reviewed t rows df t' :=
  ⟨h.wf, h.reach, h.length, h.used, h.hash, h.dflt, h.longest, h.get, h.loads,
    h.counts.hits, h.counts.misses, h.counts.seeks, h.counts.linear, h.counts.greatest, h.counts.balance⟩

theorem checkTableLines_eq (ls : List Bytes) : ∀ (st : CheckState), Reachable st.table →
    (∃ t' last b, checkTableLines st ls = Prog.says ((checkNotes st.last (checkActs st.inside ls)).map fun s => (false, s))
        (.ret (some { inside := b, table := t', longest := longestOf st.longest (checkLengths (checkActs st.inside ls)), last := last })) ∧
      Reviewed st.table (checkRows (checkActs st.inside ls))
        (actionDefault st.table.defaultTranslation ((checkActs st.inside ls).map Prod.snd)) t') ∨
    (∃ (notes : List Bytes) (k : Nat) (d : Bytes), checkTableLines st ls = Prog.says (notes.map (fun s => (false, s)) ++ [(true, failedMessage (lit "add") k d (lit "to"))])
        (.ret none) ∧ (k, d) ∈ checkRows (checkActs st.inside ls) ∧
      Unloadable st.table (checkRows (checkActs st.inside ls))) := by
  induction ls with
  | nil =>
    intro st hr
    exact .inl ⟨st.table, st.last, st.inside, rfl, hr.wf, hr, rfl, rfl, rfl, rfl, rfl, fun k => rfl,
      by rintro (⟨r, h, _⟩ | h); cases h; have := hr.wf.cap; simp [checkRows, checkActs, actionRows] at h; omega,
      rfl, rfl, Nat.le_refl _, fun _ => rfl, rfl, rfl⟩
  | cons l ls ih =>
    intro st hr
    rw [checkTableLines, checkTableLine, checkActs]
    split
    · exact ih st hr
    · generalize hact : (if st.inside = true then (none, insideLine l) else checkBaseLine l) = act
      obtain ⟨lang, a⟩ := act
      cases lang with
      | some lang =>
        simp only [Prog.bind]
        rcases ih { st with last := 0 } hr with ⟨t', last, b, h1, h2⟩ | ⟨notes, k, d, h1, h2⟩
        · refine .inl ⟨t', last, b, ?_, h2⟩
          rw [h1]; rfl
        · refine .inr ⟨skippingMessage lang :: notes, k, d, ?_, h2⟩
          rw [h1]; rfl
      | none =>
        cases a with
        | skip => exact ih st hr
        | enter => exact ih { st with inside := true, last := 0 } hr
        | leave => exact ih { st with inside := false } hr
        | dflt d =>
          cases d with
          | none =>
            rcases ih { st with table := { st.table with defaultTranslation := none } } (.setDefault _ none hr) with
              ⟨t', last, b, h1, h2⟩ | h
            · exact .inl ⟨t', last, b, h1, h2.ofDefault⟩
            · exact .inr h
          | some d =>
            have h := ih { st with
              table := { st.table with defaultTranslation := some d }
              longest := if d.length > st.longest then d.length else st.longest } (.setDefault _ (some d) hr)
            have hm : (if d.length > st.longest then d.length else st.longest) = max st.longest d.length := by split <;> omega
            rw [hm] at h
            simp only [Prog.bind, hm]
            rcases h with ⟨t', last, b, h1, h2⟩ | h
            · exact .inl ⟨t', last, b, h1, h2.ofDefault⟩
            · exact .inr h
        | row k d =>
          simp only
          cases hp : tablePut st.table k d with
          | mk t o =>
            cases o with
            | none =>
              simp only [Prog.bind]
              refine .inr ⟨[], k, d, rfl, by simp [checkRows, actionRows], ?_⟩
              by_cases hk : k = 0
              · exact .inl ⟨(k, d), by simp [checkRows, actionRows], hk⟩
              · by_cases hu : st.table.used < st.table.rows.length
                · obtain ⟨o, t', he, _⟩ := hr.wf.put_ok hk hu d
                  rw [hp] at he
                  cases he
                · right
                  simp only [checkRows, List.map_cons, actionRows, List.length_cons]
                  omega
            | some o =>
              obtain ⟨hk, hu, hg⟩ := tableGet_self hr.wf hp
              obtain ⟨a, b, c, hc⟩ := tableGetCounting_eq t k
              obtain ⟨o', t1, he, hwf, hrows, hused, hhash, hdef, hmax, _⟩ := hr.wf.put_ok hk hu d
              rw [hp] at he
              cases he
              have hgp := hr.wf.get_put hk hu d
              rw [hp] at hgp
              have hreach : Reachable t := by
                have := Reachable.op _ (.put k d) hr
                rw [show (st.table.step (.put k d)).1 = (tablePut st.table k d).1 from rfl, hp] at this
                exact this
              have hreach' : Reachable { t with hits := a, misses := b, seeks := c } := by
                have := Reachable.op _ (.get k) hreach
                rw [show (t.step (.get k)).1 = (tableGetCounting t k).1 from rfl, hc] at this
                exact this
              simp only [hc, hg, if_true]
              have hm : (if d.length > st.longest then d.length else st.longest) = max st.longest d.length := by split <;> omega
              rw [hm]
              have h := ih ⟨st.inside, { t with hits := a, misses := b, seeks := c }, max st.longest d.length, k⟩ hreach'
              have hlen : t.rows.length = st.table.rows.length := by rw [hrows, List.length_set]
              have unl : ∀ rows, Unloadable { t with hits := a, misses := b, seeks := c } rows ↔ Unloadable st.table ((k, d) :: rows) := by
                intro rows
                unfold Unloadable
                simp only [List.mem_cons, List.length_cons, hlen, hused, exists_eq_or_imp, hk, false_or]
                rw [show st.table.used + 1 + rows.length = st.table.used + (rows.length + 1) by omega]
              have hstep : ∀ nx : CheckState, ((match orderWarning k st.last with
                    | some w => Prog.out w (.ret (some nx))
                    | none => .ret (some nx)).bind fun r =>
                      match r with
                      | none => .ret none
                      | some st' => checkTableLines st' ls) =
                  Prog.says ((orderWarning k st.last).toList.map fun s => (false, s)) (checkTableLines nx ls) := by
                intro nx
                cases orderWarning k st.last <;> rfl
              rcases h with ⟨t', last, b', h1, h2⟩ | ⟨notes, k', d', h1, h2, h3⟩
              · left
                refine ⟨t', last, b', ?_, ?_⟩
                · refine (hstep _).trans ?_
                  rw [h1, checkNotes, List.map_append, Prog.says_append]
                  rfl
                · refine ⟨h2.wf, h2.reach, h2.length.trans hlen, ?_, h2.hash.trans hhash, ?_, ?_, ?_, ?_, ?_⟩
                  · rw [h2.used]
                    show t.used + _ = _
                    rw [hused]
                    simp only [checkRows, List.map_cons, actionRows, List.length_cons]
                    omega
                  · rw [h2.dflt]
                    show actionDefault t.defaultTranslation _ = _
                    rw [hdef]
                    rfl
                  · rw [h2.longest]
                    show longestOf t.maxDataLength _ = _
                    rw [hmax]
                    rfl
                  · intro k'
                    rw [h2.get k']
                    show _ = match lastOf ((k, d) :: checkRows (checkActs st.inside ls)) k' with | some d => some d | none => _
                    rw [lastOf_cons]
                    cases lastOf (checkRows (checkActs st.inside ls)) k' with
                    | some d' => rfl
                    | none =>
                      dsimp only
                      have := hgp k'
                      simp only at this
                      rw [show tableGet { t with hits := a, misses := b, seeks := c } k' = tableGet t k' from rfl, this]
                      by_cases he : k' = k
                      · simp [he]
                      · simp [he, Ne.symm he]
                  · intro hu
                    exact h2.loads ((unl _).2 hu)
                  · obtain ⟨p1, p2, p3, p4, p5⟩ := hr.wf.put_counts hk hu d
                    rw [hp] at p1 p2 p3 p4 p5
                    obtain ⟨g1, g2, g3, g4⟩ := tableGetCounting_hit hg
                    rw [hc] at g1 g2 g3 g4
                    have hc2 := h2.counts
                    have hrl : (checkRows ((none, LineAction.row k d) :: checkActs st.inside ls)).length =
                        (checkRows (checkActs st.inside ls)).length + 1 := rfl
                    refine ⟨?_, ?_, ?_, fun hf => ?_, ?_, ?_⟩
                    · rw [hc2.hits, hrl]; dsimp only at g1 p1 ⊢; omega
                    · rw [hc2.misses]; dsimp only at g2 p2 ⊢; omega
                    · have := hc2.seeks; rw [hrl]; dsimp only at g3 p3 this ⊢; omega
                    · have := hc2.linear (hhash.trans hf)
                      have g4' := g4 (hhash.trans hf)
                      rw [hrl]; dsimp only at g4' p3 this ⊢; omega
                    · rw [hc2.greatest]
                      show greatestOf t.maxKey _ = greatestOf (max st.table.maxKey k) _
                      rw [← p4]
                      rfl
                    · have := hc2.balance; rw [hrl]; dsimp only at p5 this ⊢; omega
              · right
                refine ⟨(orderWarning k st.last).toList ++ notes, k', d', ?_, ?_, (unl _).1 h3⟩
                · refine (hstep _).trans ?_
                  rw [h1, ← Prog.says_append, List.map_append, List.append_assoc]
                · exact List.mem_cons_of_mem _ h2

/-! ### The second pass -/

/-- The notes of the second pass. -/
def againNotes (as : List (Option Bytes × LineAction)) : List Bytes := as.filterMap fun a => a.1.map skippingMessage

theorem checkAgainLines_eq (ls : List Bytes) : ∀ (b : Bool) (t : Table),
    ((∀ r ∈ checkRows (checkActs b ls), tableGet t r.1 = some r.2) ∧
      ∃ b' hh mm ss, hh = t.hits + (checkRows (checkActs b ls)).length ∧ mm = t.misses ∧
        ss ≤ t.seeks + (checkRows (checkActs b ls)).length ∧ checkAgainLines (b, t) ls = Prog.says ((againNotes (checkActs b ls)).map fun s => (false, s))
        (.ret (some (b', { t with hits := hh, misses := mm, seeks := ss })))) ∨
    (∃ (notes : List Bytes) (k : Nat) (d : Bytes), (k, d) ∈ checkRows (checkActs b ls) ∧ tableGet t k ≠ some d ∧
      checkAgainLines (b, t) ls = Prog.says (notes.map (fun s => (false, s)) ++
        [(true, failedMessage (lit "retrieve") k d (lit "in resized"))]) (.ret none)) := by
  induction ls with
  | nil =>
    intro b t
    exact .inl ⟨(fun r h => nomatch h), b, t.hits, t.misses, t.seeks, rfl, rfl, Nat.le_refl _, rfl⟩
  | cons l ls ih =>
    intro b t
    rw [checkAgainLines, checkAgainLine, checkActs]
    split
    · exact ih b t
    · generalize (if b = true then (none, insideLine l) else checkBaseLine l) = act
      obtain ⟨lang, a⟩ := act
      cases lang with
      | some lang =>
        simp only [Prog.bind]
        rcases ih b t with ⟨h, b', hh, mm, ss, c1, c2, c3, h1⟩ | ⟨notes, k, d, h1, h2, h3⟩
        · refine .inl ⟨h, b', hh, mm, ss, c1, c2, c3, ?_⟩
          rw [h1]; rfl
        · refine .inr ⟨skippingMessage lang :: notes, k, d, h1, h2, ?_⟩
          rw [h3]; rfl
      | none =>
        cases a with
        | skip => exact ih b t
        | enter => exact ih true t
        | leave => exact ih false t
        | dflt d => exact ih b t
        | row k d =>
          obtain ⟨hh, mm, ss, hc⟩ := tableGetCounting_eq t k
          simp only [hc]
          by_cases hg : tableGet t k = some d
          · rw [if_pos hg]
            simp only [Prog.bind]
            obtain ⟨g1, g2, g3, _⟩ := tableGetCounting_hit hg
            rw [hc] at g1 g2 g3
            rcases ih b { t with hits := hh, misses := mm, seeks := ss } with ⟨h, b', hh', mm', ss', c1, c2, c3, h1⟩ | ⟨notes, k', d', h1, h2, h3⟩
            · have hrl : (checkRows ((none, LineAction.row k d) :: checkActs b ls)).length = (checkRows (checkActs b ls)).length + 1 := rfl
              dsimp only at g1 g2 g3 c1 c2 c3
              refine .inl ⟨fun r hr => ?_, b', hh', mm', ss', by rw [hrl]; omega, by omega, by rw [hrl]; omega, h1⟩
              rcases List.mem_cons.1 hr with rfl | hr
              · exact hg
              · exact h r hr
            · exact .inr ⟨notes, k', d', List.mem_cons_of_mem _ h1, h2, h3⟩
          · rw [if_neg hg]
            exact .inr ⟨[], k, d, by simp [checkRows, actionRows], hg, rfl⟩

/-! ### Compared with the loader -/

theorem scanToken_nonempty {s tok rest : Bytes} (h : scanToken s = some (tok, rest)) : tok ≠ [] := by
  unfold scanToken at h
  split at h
  · cases h
  · rename_i c r hw
    have hc : isSpaceC c = false := by
      have := List.head?_dropWhile_not isSpaceC s
      rw [show s.dropWhile isSpaceC = c :: r from hw] at this
      simpa using this
    simp only [Option.some.injEq, Prod.mk.injEq] at h
    rw [← h.1]
    simp [hc]

theorem scanUntil_nonempty {q : Byte} {s t : Bytes} (h : scanUntil q s = some t) : t ≠ [] := by
  unfold scanUntil at h
  split at h
  · cases h
  · cases h
    assumption

theorem scanArg_nonempty {rest old : Bytes} (h : old ≠ []) : scanArg rest old ≠ [] := by
  have u : ∀ q, (scanUntil q rest.tail).getD old ≠ [] := by
    intro q
    cases hs : scanUntil q rest.tail with
    | none => exact h
    | some t => exact scanUntil_nonempty hs
  unfold scanArg
  split
  · exact u _
  · split
    · exact u _
    · split
      · rename_i h'; exact scanToken_nonempty h'
      · exact h

theorem checkBaseLine_eq {l : Bytes} (hl : NulFree l) :
    (∃ lang, lang ≠ [] ∧ NulFree lang ∧ checkBaseLine l = (some lang, .skip) ∧
      ∀ ctype, baseLine ctype l = if LangMatches lang ctype then .enter else .skip) ∨
    (∀ ctype, checkBaseLine l = (none, baseLine ctype l)) := by
  unfold checkBaseLine baseLine
  cases h : scanToken l with
  | none => exact .inr fun _ => rfl
  | some p =>
    obtain ⟨parsed, rest⟩ := p
    dsimp only
    by_cases h1 : strncaseeq 5 parsed (lit "start") = true
    · by_cases h2 : rest = []
      · right; intro ctype; simp [h1, h2]
      · left
        have hs := scanToken_sublist h
        have hn : NulFree (scanArg rest parsed) := fun hc => hl ((scanArg_sublist hs.2 hs.1).mem hc)
        refine ⟨scanArg rest parsed, scanArg_nonempty (scanToken_nonempty h), hn, by simp [h1, h2], fun ctype => ?_⟩
        simp only [h1, h2, if_true, if_false]
        rw [strncaseeq_lang _ _ hn]
        simp
    · right
      intro ctype
      by_cases h3 : strncaseeq 7 parsed (lit "default") = true
      · by_cases h2 : rest = []
        · simp [h1, h2, h3]
        · simp [h1, h2, h3]
      · simp [h1, h3]

theorem langMatches_nil {lang : Bytes} (h : lang ≠ []) : ¬ LangMatches lang [] := by
  rintro ⟨r, hr⟩
  cases lang with
  | nil => exact h rfl
  | cons c l => simp at hr

theorem langMatches_self (lang : Bytes) : LangMatches lang lang := ⟨[], by simp⟩

theorem checkBaseLine_of {l : Bytes} (hl : NulFree l) {a : LineAction} (h : ∀ ctype, baseLine ctype l = a) : checkBaseLine l = (none, a) := by
  rcases checkBaseLine_eq hl with ⟨lang, h1, _, _, h2⟩ | h2
  · exfalso
    have ha := h2 []
    have hb := h2 lang
    rw [if_neg (langMatches_nil h1), h] at ha
    rw [if_pos (langMatches_self lang), h, ha] at hb
    cases hb
  · rw [h2 [], h]

/-- Without a locale the loader does the same. -/
theorem checkActs_lineActions (ls : List Bytes) (hl : ∀ l ∈ ls, NulFree l) : ∀ (b : Bool),
    actionRows (lineActions [] b ls) = checkRows (checkActs b ls) ∧
    (∀ d, actionDefault d (lineActions [] b ls) = actionDefault d ((checkActs b ls).map Prod.snd)) := by
  induction ls with
  | nil => intro b; exact ⟨rfl, fun _ => rfl⟩
  | cons l ls ih =>
    have ih := ih fun l h => hl l (List.mem_cons_of_mem _ h)
    intro b
    rw [checkActs, lineActions]
    split
    · exact ih b
    · have hline : (∃ lang, b = false ∧ checkBaseLine l = (some lang, .skip) ∧ baseLine [] l = .skip) ∨
          (if b = true then (none, insideLine l) else checkBaseLine l) = ((none : Option Bytes), if b = true then insideLine l else baseLine [] l) := by
        cases b with
        | true => exact .inr rfl
        | false =>
          rcases checkBaseLine_eq (hl l (by simp)) with ⟨lang, h1, _, h2, h3⟩ | h3
          · exact .inl ⟨lang, rfl, h2, by rw [h3, if_neg (langMatches_nil h1)]⟩
          · right
            simp only [Bool.false_eq_true, if_false]
            exact h3 []
      rcases hline with ⟨lang, rfl, h1, h2⟩ | h
      · simp only [Bool.false_eq_true, if_false, h1, h2]
        exact ih false
      · rw [h]
        generalize (if b = true then insideLine l else baseLine [] l) = a
        cases a with
        | skip => exact ih b
        | enter => exact ih true
        | leave => exact ih false
        | dflt d => exact ⟨(ih b).1, fun _ => (ih b).2 d⟩
        | row k d =>
          refine ⟨?_, (ih b).2⟩
          show (k, d) :: _ = (k, d) :: _
          rw [(ih b).1]
          rfl

theorem checkBaseLine_kinds (l : Bytes) : (checkBaseLine l).2 ≠ .leave ∧ ∀ k d, (checkBaseLine l).2 ≠ .row k d := by
  unfold checkBaseLine
  constructor
  · repeat' split
    all_goals nofun
  · intro k d
    repeat' split
    all_goals nofun

theorem start_is_no_end (l : Bytes) : checkBaseLine l = (none, .enter) → insideLine l ≠ .leave := by
  intro h hl
  unfold checkBaseLine at h
  unfold insideLine at hl
  cases ht : scanToken l with
  | none => rw [ht] at h; cases h
  | some p =>
    obtain ⟨parsed, rest⟩ := p
    rw [ht] at h hl
    dsimp only at h hl
    have hs : strncaseeq 5 parsed (lit "start") = true := by
      split at h
      · assumption
      · split at h
        · split at h <;> cases h
        · cases h
    have he : strncaseeq 5 parsed (lit "end") = true := by
      have hn : ∀ {x : LineAction}, (if strncaseeq 5 parsed (lit "end") = true then LineAction.leave else .skip) = .leave →
          strncaseeq 5 parsed (lit "end") = true := by
        intro _ h
        split at h
        · assumption
        · cases h
      split at hl
      · exact hn (x := .skip) hl
      · split at hl
        · exact hn (x := .skip) hl
        · split at hl
          · cases hl
          · cases hl
    rw [strncaseeq] at hs he
    split at hs
    · cases hs
    · rename_i h1
      split at he
      · cases he
      · rename_i h2
        have e1 : toLowerC (peek parsed) = toLowerC (peek (lit "start")) := Decidable.not_not.1 h1
        have e2 : toLowerC (peek parsed) = toLowerC (peek (lit "end")) := Decidable.not_not.1 h2
        rw [e1] at e2
        exact absurd e2 (by decide)

/-- With any locale the loader takes at least these rows, and at most these defaults. -/
theorem checkActs_locale (ctype : Bytes) (ls : List Bytes) (hl : ∀ l ∈ ls, NulFree l) : ∀ (b b' : Bool), (b = true → b' = true) →
    (checkRows (checkActs b ls)).Sublist (actionRows (lineActions ctype b' ls)) ∧
    (∀ d ∈ actionDefaults (lineActions ctype b' ls), d ∈ checkLengths (checkActs b ls)) := by
  induction ls with
  | nil => intro b b' _; exact ⟨List.Sublist.refl _, fun d h => by cases h⟩
  | cons l ls ih =>
    have ih := ih fun l h => hl l (List.mem_cons_of_mem _ h)
    intro b b' hb
    rw [checkActs, lineActions]
    split
    · exact ih b b' hb
    · cases b with
      | true =>
        cases hb rfl
        simp only [if_true]
        generalize insideLine l = a
        cases a with
        | skip => exact ih true true hb
        | enter => exact ih true true hb
        | leave => exact ih false false (by simp)
        | dflt d =>
          refine ⟨(ih true true hb).1, fun e he => ?_⟩
          cases d with
          | none => exact (ih true true hb).2 e he
          | some d =>
            rcases List.mem_cons.1 he with rfl | he
            · exact List.mem_cons_self
            · exact List.mem_cons_of_mem _ ((ih true true hb).2 e he)
        | row k d =>
          exact ⟨List.Sublist.cons_cons _ (ih true true hb).1, fun e he => List.mem_cons_of_mem _ ((ih true true hb).2 e he)⟩
      | false =>
        cases b' with
        | true =>
          simp only [Bool.false_eq_true, if_false, if_true]
          -- what the loader does inside a language block, against what is done outside of it
          have hdf : ∀ d, insideLine l ≠ .dflt d := by
            intro d
            unfold insideLine
            dsimp only
            repeat' split
            all_goals nofun
          have hen : insideLine l ≠ .enter := by
            unfold insideLine
            dsimp only
            repeat' split
            all_goals nofun
          have hst := start_is_no_end l
          have hbs := checkBaseLine_kinds l
          revert hst hbs hdf hen
          generalize checkBaseLine l = c
          generalize insideLine l = a
          intro hdf hen hst hbs
          obtain ⟨lang, c⟩ := c
          have key : ∀ (b : Bool) (A : List LineAction), (b = true → a ≠ .leave) →
              ((a = .leave ∧ A = lineActions ctype false ls) ∨ (a = .skip ∧ A = lineActions ctype true ls) ∨
                (∃ k d, a = .row k d ∧ A = .row k d :: lineActions ctype true ls)) →
              ∀ L : List Bytes, (∀ d ∈ checkLengths (checkActs b ls), d ∈ L) →
              (checkRows (checkActs b ls)).Sublist (actionRows A) ∧ (∀ d ∈ actionDefaults A, d ∈ L) := by
            intro b A hb hA L hL
            rcases hA with ⟨ha, rfl⟩ | ⟨ha, rfl⟩ | ⟨k, d, ha, rfl⟩
            · have : b = true → false = true := fun h => absurd ha (hb h)
              exact ⟨(ih b false this).1, fun d h => hL d ((ih b false this).2 d h)⟩
            · exact ⟨(ih b true fun _ => rfl).1, fun d h => hL d ((ih b true fun _ => rfl).2 d h)⟩
            · exact ⟨(ih b true fun _ => rfl).1.cons _, fun d h => hL d ((ih b true fun _ => rfl).2 d h)⟩
          have shape : a = .leave ∨ a = .skip ∨ ∃ k d, a = .row k d := by
            cases a with
            | skip => exact .inr (.inl rfl)
            | enter => exact absurd rfl hen
            | leave => exact .inl rfl
            | dflt d => exact absurd rfl (hdf d)
            | row k d => exact .inr (.inr ⟨k, d, rfl⟩)
          cases lang with
          | some lang => refine key false _ (by simp) (by rcases shape with rfl | rfl | ⟨k, d, rfl⟩ <;> simp) _ fun d h => h
          | none =>
            cases c with
            | skip => refine key false _ (by simp) (by rcases shape with rfl | rfl | ⟨k, d, rfl⟩ <;> simp) _ fun d h => h
            | enter => refine key true _ (fun _ => hst rfl) (by rcases shape with rfl | rfl | ⟨k, d, rfl⟩ <;> simp) _ fun d h => h
            | leave => exact absurd rfl hbs.1
            | dflt d =>
              cases d with
              | none => refine key false _ (by simp) (by rcases shape with rfl | rfl | ⟨k, d, rfl⟩ <;> simp) _ fun d h => h
              | some d => refine key false _ (by simp) (by rcases shape with rfl | rfl | ⟨k, d, rfl⟩ <;> simp) _ fun e h => List.mem_cons_of_mem _ h
            | row k d => exact absurd rfl (hbs.2 k d)
        | false =>
          simp only [Bool.false_eq_true, if_false]
          rcases checkBaseLine_eq (hl l (by simp)) with ⟨lang, h1, _, h2, h3⟩ | h3
          · rw [h2, h3]
            by_cases hm : LangMatches lang ctype
            · rw [if_pos hm]; exact ih false true (by simp)
            · rw [if_neg hm]; exact ih false false (by simp)
          · rw [h3 ctype]
            generalize baseLine ctype l = a
            cases a with
            | skip => exact ih false false hb
            | enter => exact ih true true (by simp)
            | leave => exact ih false false (by simp)
            | dflt d =>
              refine ⟨(ih false false hb).1, fun e he => ?_⟩
              cases d with
              | none => exact (ih false false hb).2 e he
              | some d =>
                rcases List.mem_cons.1 he with rfl | he
                · exact List.mem_cons_self
                · exact List.mem_cons_of_mem _ ((ih false false hb).2 e he)
            | row k d =>
              exact ⟨List.Sublist.cons_cons _ (ih false false hb).1, fun e he => List.mem_cons_of_mem _ ((ih false false hb).2 e he)⟩

/-- The longest entry after some actions. -/
theorem applyActions_longest (as : List LineAction) : ∀ (t t' : Table), t.WF → applyActions t as = some t' →
    t'.maxDataLength = longestOf t.maxDataLength ((actionRows as).map Prod.snd) ∧
    (∀ d, t'.defaultTranslation = some d → t.defaultTranslation = some d ∨ d ∈ actionDefaults as) := by
  induction as with
  | nil => intro t t' _ h; cases h; exact ⟨rfl, fun d h => .inl h⟩
  | cons a as ih =>
    intro t t' hwf h
    cases a with
    | skip => exact ih t t' hwf h
    | enter => exact ih t t' hwf h
    | leave => exact ih t t' hwf h
    | dflt d =>
      obtain ⟨h1, h2⟩ := ih _ t' (hwf.withDefault d) h
      refine ⟨h1, fun e he => ?_⟩
      rcases h2 e he with h3 | h3
      · cases d with
        | none => cases h3
        | some d => cases h3; exact .inr List.mem_cons_self
      · cases d with
        | none => exact .inr h3
        | some d => exact .inr (List.mem_cons_of_mem _ h3)
    | row k d =>
      rw [applyActions] at h
      cases hp : tablePut t k d with
      | mk t1 o =>
        rw [hp] at h
        cases o with
        | none => cases h
        | some o =>
          obtain ⟨hk, hu, _⟩ := tableGet_self hwf hp
          obtain ⟨_, _, he, hwf1, _, _, _, hdef, hmax, _⟩ := hwf.put_ok hk hu d
          rw [hp] at he
          cases he
          obtain ⟨h1, h2⟩ := ih t1 t' hwf1 h
          refine ⟨by rw [h1, hmax]; rfl, fun e he => ?_⟩
          rw [← hdef]
          exact h2 e he

/-! ### Documented files -/

/-- What the sections ask of check-table. -/
def sectionActs : List Section → List (Option Bytes × LineAction)
  | [] => []
  | .note :: secs => sectionActs secs
  | .noDefault :: secs => (none, .dflt none) :: sectionActs secs
  | .dflt d :: secs => (none, .dflt (some d)) :: sectionActs secs
  | .block rows :: secs => (none, .enter) :: (rows.map (fun r => (none, .row r.1 r.2)) ++ sectionActs secs)
  | .langBlock lang _ :: secs => (some lang, .skip) :: sectionActs secs

theorem delivered_nulFree {l tl : Bytes} (hg : GoodLine l) (htl : ∀ c ∈ tl, isSpaceC c = true) : NulFree (l ++ tl) := by
  rw [nulFree_append]
  exact ⟨Spec.GoodLine.nulFree hg, fun h => by have := htl 0 h; exact absurd this (by decide)⟩

theorem checkActs_note {b : Bool} {l : Bytes} {ls : List Bytes}
    (h : peek l = 0x23 ∨ (if b then (none, insideLine l) else checkBaseLine l) = ((none : Option Bytes), LineAction.skip)) :
    checkActs b (l :: ls) = checkActs b ls := by
  rw [checkActs]
  by_cases hp : peek l = 0x23
  · rw [if_pos hp]
  · rw [if_neg hp, (h.resolve_left hp)]

theorem checkActs_noteLine {b : Bool} {l tl : Bytes} {ls : List Bytes} (hn : NoteLine l) (hg : GoodLine l)
    (htl : ∀ c ∈ tl, isSpaceC c = true) : checkActs b ((l ++ tl) :: ls) = checkActs b ls := by
  by_cases hp : peek (l ++ tl) = 0x23
  · exact checkActs_note (.inl hp)
  · refine checkActs_note (.inr ?_)
    cases b with
    | true =>
      have := (note_actions (ctype := []) hn htl true).resolve_left hp
      simp only [if_true] at this ⊢
      rw [this]
    | false =>
      simp only [Bool.false_eq_true, if_false]
      refine checkBaseLine_of (delivered_nulFree hg htl) fun ctype => ?_
      have := (note_actions (ctype := ctype) hn htl false).resolve_left hp
      simpa using this

theorem checkActs_inside {body : List Bytes} {rows : List (Nat × Bytes)} (h : Entries body rows) {body' : List Bytes}
    (hd : Delivered body body') (rest : List Bytes) :
    checkActs true (body' ++ rest) = rows.map (fun r => (none, .row r.1 r.2)) ++ checkActs true rest := by
  induction h generalizing body' with
  | nil => cases hd; simp
  | note l ls rows he _ ih =>
    cases hd with
    | cons _ tl _ ls' hg htl hd =>
      cases he with
      | note _ hn =>
        rw [List.cons_append, checkActs_noteLine hn hg htl]
        exact ih hd
  | row l ls r rows he _ ih =>
    cases hd with
    | cons _ tl _ ls' hg htl hd =>
      obtain ⟨k, d⟩ := r
      obtain ⟨h1, h2, _, h4⟩ := row_line (ctype := []) he hg htl
      rw [List.cons_append, checkActs, if_neg h1, if_pos rfl, h2, ih hd]
      rfl

theorem checkActs_outside {body : List Bytes} {rows : List (Nat × Bytes)} (h : Entries body rows) {body' : List Bytes}
    (hd : Delivered body body') (rest : List Bytes) : checkActs false (body' ++ rest) = checkActs false rest := by
  induction h generalizing body' with
  | nil => cases hd; simp
  | note l ls rows he _ ih =>
    cases hd with
    | cons _ tl _ ls' hg htl hd =>
      cases he with
      | note _ hn =>
        rw [List.cons_append, checkActs_noteLine hn hg htl]
        exact ih hd
  | row l ls r rows he _ ih =>
    cases hd with
    | cons _ tl _ ls' hg htl hd =>
      obtain ⟨k, d⟩ := r
      have h3 : checkBaseLine (l ++ tl) = (none, .skip) :=
        checkBaseLine_of (delivered_nulFree hg htl) fun ctype => (row_line (ctype := ctype) he hg htl).2.2.1
      rw [List.cons_append, checkActs_note (b := false) (Or.inr (by simpa using h3))]
      exact ih hd

theorem check_start_word {l w tl : Bytes} (h : KeywordWordLine kwStart l w) (hg : GoodLine l) (htl : ∀ c ∈ tl, isSpaceC c = true) :
    peek (l ++ tl) ≠ 0x23 ∧ checkBaseLine (l ++ tl) = (some w, .skip) := by
  refine ⟨(start_word_line (ctype := []) h hg htl).1, ?_⟩
  cases h with
  | mk ws k ws' text w h1 h2 h3 h4 h5 h6 =>
    have hk := fold_keyword h2 (by decide)
    obtain ⟨c, k', hck, _⟩ := keyword_cons h2
    have hgt : ∀ c ∈ text, c ≠ 0x0A := fun c hc => (hg.2 c (by simp [hc])).2
    obtain ⟨a1, a2, a3⟩ := scanArg_word h5 hgt tl htl k (Or.inl h6)
    have hend : EndsToken (ws' ++ (text ++ tl)) := by
      cases ws' with
      | nil => exact absurd rfl h4
      | cons c ws' => exact Or.inr ⟨c, _, rfl, space_of_blank (h3 c (by simp))⟩
    have := scanToken_eq (blanks_space h1) (tok := k) (by simp [hck]) (fun c hc => (hk c hc).1) hend
    have e : ws ++ k ++ ws' ++ text ++ tl = ws ++ k ++ (ws' ++ (text ++ tl)) := by simp
    rw [e]
    unfold checkBaseLine
    rw [this, skipWs_append (blanks_space h3), a3]
    have he : strncaseeq 5 k (lit "start") = true := strncaseeq_of_fold 5 (by rw [h2]; decide)
    simp only [he, if_true, a2, if_false, a1]

theorem checkActs_file {ls : List Bytes} {secs : List Section} (h : FileLines ls secs) {ls' : List Bytes} (hd : Delivered ls ls') :
    checkActs false ls' = sectionActs secs := by
  induction h generalizing ls' with
  | nil => cases hd; rfl
  | cons ls sec rest secs ht _ ih =>
    obtain ⟨a, b, e, d1, d2⟩ := hd.split
    subst e
    clear hd
    have ih' := ih d2
    cases ht with
    | note l hn =>
      cases d1 with
      | cons _ tl _ ls' hg htl hd =>
        cases hd
        rw [List.cons_append, checkActs_noteLine hn hg htl]
        exact ih'
    | noDefault l hk =>
      cases d1 with
      | cons _ tl _ ls' hg htl hd =>
        cases hd
        have p := (default_line (ctype := []) hk htl).1
        have q := checkBaseLine_of (delivered_nulFree hg htl) fun ctype => (default_line (ctype := ctype) hk htl).2
        rw [List.cons_append, checkActs, if_neg p]
        simp only [Bool.false_eq_true, if_false, q]
        rw [List.nil_append, ih']
        rfl
    | dflt l w hk =>
      cases d1 with
      | cons _ tl _ ls' hg htl hd =>
        cases hd
        have p := (default_word_line (ctype := []) hk hg htl).1
        have q := checkBaseLine_of (delivered_nulFree hg htl) fun ctype => (default_word_line (ctype := ctype) hk hg htl).2
        rw [List.cons_append, checkActs, if_neg p]
        simp only [Bool.false_eq_true, if_false, q]
        rw [List.nil_append, ih']
        rfl
    | block l body rows e hk hb he =>
      rw [List.cons_append] at d1
      cases d1 with
      | cons _ tl _ ls' hg htl hd =>
        obtain ⟨body', e', e'', d3, d4⟩ := hd.split
        subst e''
        cases d4 with
        | cons _ tl' _ ls'' hg' htl' hd' =>
          cases hd'
          have p := (start_line (ctype := []) hk htl).1
          have q := checkBaseLine_of (delivered_nulFree hg htl) fun ctype => (start_line (ctype := ctype) hk htl).2
          obtain ⟨p2, q2, _⟩ := end_line (ctype := []) he htl'
          rw [List.cons_append, checkActs, if_neg p]
          simp only [Bool.false_eq_true, if_false, q]
          rw [List.append_assoc, List.singleton_append, checkActs_inside hb d3, checkActs, if_neg p2]
          simp only [if_true, q2]
          rw [ih']
          rfl
    | langBlock l lang body rows e hk hb he =>
      rw [List.cons_append] at d1
      cases d1 with
      | cons _ tl _ ls' hg htl hd =>
        obtain ⟨body', e', e'', d3, d4⟩ := hd.split
        subst e''
        cases d4 with
        | cons _ tl' _ ls'' hg' htl' hd' =>
          cases hd'
          obtain ⟨p, q⟩ := check_start_word hk hg htl
          have q3 : checkBaseLine (e ++ tl') = (none, .skip) :=
            checkBaseLine_of (delivered_nulFree hg' htl') fun ctype => (end_line (ctype := ctype) he htl').2.2
          rw [List.cons_append, checkActs, if_neg p]
          simp only [Bool.false_eq_true, if_false, q]
          rw [List.append_assoc, List.singleton_append, checkActs_outside hb d3,
            checkActs_note (b := false) (Or.inr (by simpa using q3)), ih']
          rfl

theorem hasLines_check {content : Bytes} {ls : List Bytes} (h : HasLines content ls) :
    ∃ ls', Delivered ls ls' ∧ checkActs false (fileLines content.length content) = checkActs false ls' := by
  obtain ⟨hg, h | h⟩ := h
  · subst h
    exact ⟨_, delivered_newline ls hg, by rw [fileLines_lines ls hg _ (Nat.le_refl _)]⟩
  · rcases List.eq_nil_or_concat ls with e | ⟨init, l, e⟩
    · subst e; simp at h
    · rw [List.concat_eq_append] at e
      subst e
      have hc : content = (init.map (· ++ [0x0A])).flatten ++ l := by
        rw [List.map_append, List.flatten_append] at h
        simp only [List.map_cons, List.map_nil, List.flatten_cons, List.flatten_nil, List.append_nil] at h
        rw [← List.append_assoc] at h
        exact List.append_cancel_right h
      have hgi : ∀ l ∈ init, GoodLine l := fun l hl => hg l (by simp [hl])
      have hgl : GoodLine l := hg l (by simp)
      have hf := fileLines_lines' init l hgi hgl content.length (by rw [hc]; exact Nat.le_refl _)
      rw [← hc] at hf
      refine ⟨init.map (· ++ [0x0A]) ++ [l ++ []], (delivered_newline init hgi).append
        (.cons l [] [] [] hgl (by simp) .nil), ?_⟩
      rw [hf]
      by_cases hl : l = []
      · subst hl
        rw [if_pos rfl]
        have : ∀ (xs : List Bytes) (b : Bool), checkActs b (xs ++ [[] ++ []]) = checkActs b xs := by
          intro xs
          induction xs with
          | nil =>
            intro b
            exact checkActs_noteLine (.blank [] (by intro c hc; simp at hc)) hgl (by simp)
          | cons x xs ih =>
            intro b
            rw [List.cons_append, checkActs, checkActs]
            simp only [ih]
        rw [this, List.append_nil]
      · rw [if_neg hl, List.append_nil]

/-! ### The report -/

theorem sectionActs_rows (secs : List Section) : checkRows (sectionActs secs) = plainRows secs := by
  induction secs with
  | nil => rfl
  | cons sec secs ih =>
    cases sec with
    | note => exact ih
    | noDefault => exact ih
    | dflt d => exact ih
    | langBlock lang rows => exact ih
    | block rows =>
      show actionRows (List.map Prod.snd (rows.map (fun r => ((none : Option Bytes), LineAction.row r.1 r.2)) ++ sectionActs secs)) = rows ++ plainRows secs
      rw [List.map_append, List.map_map]
      refine (actionRows_rows rows _).trans ?_
      rw [← ih]
      rfl

theorem sectionActs_default (secs : List Section) : ∀ d, actionDefault d ((sectionActs secs).map Prod.snd) = effectiveDefault secs d := by
  induction secs with
  | nil => intro d; rfl
  | cons sec secs ih =>
    intro d
    cases sec with
    | note => exact ih d
    | noDefault => exact ih none
    | dflt d' => exact ih (some d')
    | langBlock lang rows => exact ih d
    | block rows =>
      show actionDefault d (List.map Prod.snd (rows.map (fun r => ((none : Option Bytes), LineAction.row r.1 r.2)) ++ sectionActs secs)) = effectiveDefault secs d
      rw [List.map_append, List.map_map]
      refine (actionDefault_rows rows _ d).trans ?_
      exact ih d

theorem longestOf_eq (n : Nat) (ds : List Bytes) : longestOf n ds = max n (longest ds) := by
  induction ds with
  | nil => simp [longestOf, longest]
  | cons d ds ih =>
    rw [longestOf_cons, ih]
    show _ = max n (max d.length (longest ds))
    omega

theorem longestOf_append (n : Nat) (a b : List Bytes) : longestOf n (a ++ b) = max (longestOf n a) (longestOf n b) := by
  induction a with
  | nil =>
    have := longestOf_ge n b
    show _ = max n _
    rw [List.nil_append]
    omega
  | cons d a ih => rw [List.cons_append, longestOf_cons, longestOf_cons, ih]; omega

theorem checkLengths_rows (rows : List (Nat × Bytes)) (as : List (Option Bytes × LineAction)) :
    checkLengths (rows.map (fun r => ((none : Option Bytes), LineAction.row r.1 r.2)) ++ as) = rows.map Prod.snd ++ checkLengths as := by
  induction rows with
  | nil => rfl
  | cons r rows ih => simp [checkLengths, ih]

theorem sectionActs_lengths (secs : List Section) : longestOf 1 (checkLengths (sectionActs secs)) = neededRoom secs := by
  have : ∀ n, longestOf n (checkLengths (sectionActs secs)) =
      max n (max (longest ((plainRows secs).map Prod.snd)) (longest (allDefaults secs))) := by
    intro n
    induction secs with
    | nil => simp [sectionActs, checkLengths, longestOf, plainRows, allDefaults, longest]
    | cons sec secs ih =>
      cases sec with
      | note => exact ih
      | noDefault => exact ih
      | dflt d =>
        show longestOf n (d :: checkLengths (sectionActs secs)) = max n (max (longest ((plainRows secs).map Prod.snd)) (max d.length (longest (allDefaults secs))))
        rw [longestOf_cons, ih]
        omega
      | langBlock lang rows => exact ih
      | block rows =>
        show longestOf n (checkLengths (rows.map (fun r => ((none : Option Bytes), LineAction.row r.1 r.2)) ++ sectionActs secs)) =
          max n (max (longest ((rows ++ plainRows secs).map Prod.snd)) (longest (allDefaults secs)))
        rw [checkLengths_rows, longestOf_append, ih, longestOf_eq, List.map_append]
        have h0 := longestOf_append 0 (rows.map Prod.snd) ((plainRows secs).map Prod.snd)
        rw [longestOf_eq, longestOf_eq, longestOf_eq] at h0
        omega
  exact this 1

theorem Spec.Report.append {a b : List Notice} {x y : List Bytes} (h1 : Report a x) (h2 : Report b y) : Report (a ++ b) (x ++ y) := by
  induction h1 with
  | nil => exact h2
  | cons n t ns ts h _ ih => exact .cons n t _ _ h ih

theorem hexChar_digit (up : Bool) {d : Nat} (h : d < 16) : HexDigit (hexChar up d) d := by
  have : ∀ (up : Bool) (d : Fin 16), HexDigit (hexChar up d.val) d.val := by decide +kernel
  exact this up ⟨d, h⟩

theorem hexChar_upper {d : Nat} (h : d < 16) : ¬ (0x61 ≤ (hexChar true d).toNat ∧ (hexChar true d).toNat ≤ 0x66) := by
  have : ∀ (d : Fin 16), ¬ (0x61 ≤ (hexChar true d.val).toNat ∧ (hexChar true d.val).toNat ≤ 0x66) := by decide +kernel
  exact this ⟨d, h⟩

theorem hexChar_lower {d : Nat} (h : d < 16) : ¬ (0x41 ≤ (hexChar false d).toNat ∧ (hexChar false d).toNat ≤ 0x46) := by
  have : ∀ (d : Fin 16), ¬ (0x41 ≤ (hexChar false d.val).toNat ∧ (hexChar false d.val).toNat ≤ 0x46) := by decide +kernel
  exact this ⟨d, h⟩

theorem hexChar_zero (up : Bool) {d : Nat} (h : d < 16) : hexChar up d = 0x30 → d = 0 := by
  have : ∀ (up : Bool) (d : Fin 16), hexChar up d.val = 0x30 → d.val = 0 := by decide +kernel
  exact this up ⟨d, h⟩

theorem hexDigits_digits (up : Bool) (p : Byte → Prop) (hp : ∀ d, d < 16 → p (hexChar up d)) : ∀ (f n : Nat), n < 16 ^ f → 0 < f →
    Digits 16 (hexDigits up f n) n ∧ (∀ c ∈ hexDigits up f n, p c) ∧
    hexDigits up f n ≠ [] ∧ ((hexDigits up f n).head? = some 0x30 → n = 0) := by
  intro f
  induction f with
  | zero => intro n _ h; omega
  | succ f ih =>
    intro n hn _
    rw [hexDigits]
    by_cases h : n < 16
    · rw [if_pos h]
      refine ⟨?_, ?_, by simp, ?_⟩
      · have := Digits.snoc (base := 16) [] 0 _ n .nil (hexChar_digit up h) h
        rw [Nat.mul_zero, Nat.zero_add] at this
        exact this
      · intro c hc
        rw [List.mem_singleton.1 hc]
        exact hp _ h
      · intro h'
        exact hexChar_zero up h (by simpa using h')
    · rw [if_neg h]
      have h16 : n / 16 < 16 ^ f := by
        rw [Nat.pow_succ] at hn
        exact Nat.div_lt_of_lt_mul (by omega)
      have hf : 0 < f := by
        rcases Nat.eq_zero_or_pos f with h0 | h0
        · subst h0; simp at h16; omega
        · exact h0
      obtain ⟨i1, i2, i3, i4⟩ := ih (n / 16) h16 hf
      refine ⟨?_, ?_, by simp, ?_⟩
      · have := Digits.snoc (base := 16) _ _ _ (n % 16) i1 (hexChar_digit up (Nat.mod_lt _ (by omega))) (Nat.mod_lt _ (by omega))
        rwa [Nat.div_add_mod] at this
      · intro c hc
        rw [List.mem_append, List.mem_singleton] at hc
        rcases hc with hc | rfl
        · exact i2 c hc
        · exact hp _ (Nat.mod_lt _ (by omega))
      · intro h'
        cases hd : hexDigits up f (n / 16) with
        | nil => exact absurd hd i3
        | cons c r =>
          rw [hd] at h' i4
          have := i4 (by simpa using h')
          omega

theorem digits_zeros (m : Nat) {ds : Bytes} {v : Nat} (h : Digits 16 ds v) : Digits 16 (List.replicate m 0x30 ++ ds) v := by
  induction h with
  | nil =>
    rw [List.append_nil]
    induction m with
    | zero => exact .nil
    | succ m ih =>
      rw [List.replicate_succ']
      exact .snoc _ 0 0x30 0 ih (by decide) (by omega)
  | snoc ds v h x _ hx hlt ih =>
    rw [← List.append_assoc]
    exact .snoc _ v h x ih hx hlt

theorem printfHex_upper {n : Nat} (h : n < 2 ^ 31) : UpperHex (printfHex true 4 n) n := by
  obtain ⟨h1, h2, h3, h4⟩ := hexDigits_digits true (fun c => ¬ (0x61 ≤ c.toNat ∧ c.toNat ≤ 0x66)) (fun _ h => hexChar_upper h) 8 n (by omega) (by omega)
  unfold printfHex List.leftpad
  refine ⟨digits_zeros _ h1, ?_, ?_, ?_⟩
  · simp only [List.length_append, List.length_replicate]; omega
  · by_cases hl : (hexDigits true 8 n).length ≤ 4
    · left
      simp only [List.length_append, List.length_replicate]; omega
    · right
      rw [show 4 - (hexDigits true 8 n).length = 0 by omega]
      intro hc
      have := h4 hc
      subst this
      exact hl (by decide)
  · intro c hc
    rw [List.mem_append] at hc
    rcases hc with hc | hc
    · rw [(List.mem_replicate.1 hc).2]; decide
    · exact h2 c hc

theorem printfHex_lower {n : Nat} (h : n < 2 ^ 31) : LowerHex (printfHex false 4 n) n := by
  obtain ⟨h1, h2, h3, h4⟩ := hexDigits_digits false (fun c => ¬ (0x41 ≤ c.toNat ∧ c.toNat ≤ 0x46)) (fun _ h => hexChar_lower h) 8 n (by omega) (by omega)
  unfold printfHex List.leftpad
  refine ⟨digits_zeros _ h1, ?_, ?_, ?_⟩
  · simp only [List.length_append, List.length_replicate]; omega
  · by_cases hl : (hexDigits false 8 n).length ≤ 4
    · left
      simp only [List.length_append, List.length_replicate]; omega
    · right
      rw [show 4 - (hexDigits false 8 n).length = 0 by omega]
      intro hc
      have := h4 hc
      subst this
      exact hl (by decide)
  · intro c hc
    rw [List.mem_append] at hc
    rcases hc with hc | hc
    · rw [(List.mem_replicate.1 hc).2]; decide
    · exact h2 c hc

theorem decChar_digit {d : Nat} (h : d < 10) : HexDigit (UInt8.ofNat (0x30 + d)) d ∧ (UInt8.ofNat (0x30 + d) = 0x30 → d = 0) := by
  have : ∀ (d : Fin 10), HexDigit (UInt8.ofNat (0x30 + d.val)) d.val ∧ (UInt8.ofNat (0x30 + d.val) = 0x30 → d.val = 0) := by decide +kernel
  exact this ⟨d, h⟩

theorem decDigits_decimal : ∀ (f n : Nat), n < 10 ^ f → 0 < f → DecimalText (decDigits f n) n := by
  intro f
  induction f with
  | zero => intro n _ h; omega
  | succ f ih =>
    intro n hn _
    rw [decDigits]
    by_cases h : n < 10
    · rw [if_pos h]
      refine ⟨?_, by simp, ?_⟩
      · have := Digits.snoc (base := 10) [] 0 _ n .nil (decChar_digit h).1 h
        rw [Nat.mul_zero, Nat.zero_add] at this
        exact this
      · intro h'
        exact (decChar_digit h).2 (by simpa using h')
    · rw [if_neg h]
      have h10 : n / 10 < 10 ^ f := by
        rw [Nat.pow_succ] at hn
        exact Nat.div_lt_of_lt_mul (by omega)
      have hf : 0 < f := by
        rcases Nat.eq_zero_or_pos f with h0 | h0
        · subst h0; simp at h10; omega
        · exact h0
      obtain ⟨i1, i3, i4⟩ := ih (n / 10) h10 hf
      refine ⟨?_, by simp, ?_⟩
      · have := Digits.snoc (base := 10) _ _ _ (n % 10) i1 (decChar_digit (Nat.mod_lt _ (by omega))).1 (Nat.mod_lt _ (by omega))
        rwa [Nat.div_add_mod] at this
      · intro h'
        cases hd : decDigits f (n / 10) with
        | nil => exact absurd hd i3
        | cons c r =>
          rw [hd] at h' i4
          have := i4 (by simpa using h')
          omega

theorem checkNotes_rows : ∀ (rows : List (Nat × Bytes)) (last : Nat) (as : List (Option Bytes × LineAction)), last < 2 ^ 31 →
    (∀ r ∈ rows, r.1 < 2 ^ 31) →
    ∃ ts last', last' < 2 ^ 31 ∧ Report (rowNotices last rows) ts ∧
      checkNotes last (rows.map (fun r => ((none : Option Bytes), LineAction.row r.1 r.2)) ++ as) = ts ++ checkNotes last' as := by
  intro rows
  induction rows with
  | nil => intro last as hl _; exact ⟨[], last, hl, .nil, rfl⟩
  | cons r rows ih =>
    obtain ⟨k, d⟩ := r
    intro last as hl hr
    have hk : k < 2 ^ 31 := hr (k, d) (by simp)
    obtain ⟨ts, last', h1, h2, h3⟩ := ih k as hk fun r h => hr r (by simp [h])
    have ho : Report (if k < last then [Notice.after k last] else if k = last then [.twice k] else []) (orderWarning k last).toList := by
      unfold orderWarning
      by_cases h1 : k < last
      · rw [if_pos h1, if_pos h1]
        exact .cons _ _ _ _ (.after _ _ _ _ (printfHex_upper hk) (printfHex_upper hl)) .nil
      · rw [if_neg h1, if_neg h1]
        by_cases h2 : k = last
        · rw [if_pos h2, if_pos h2]
          exact .cons _ _ _ _ (.twice _ _ (printfHex_upper hk)) .nil
        · rw [if_neg h2, if_neg h2]
          exact .nil
    refine ⟨_, last', h1, ho.append h2, ?_⟩
    refine (congrArg ((orderWarning k last).toList ++ ·) h3).trans ?_
    exact (List.append_assoc _ _ _).symm

theorem checkNotes_sections : ∀ (secs : List Section) (last : Nat), last < 2 ^ 31 → (∀ r ∈ plainRows secs, r.1 < 2 ^ 31) →
    Report (sectionNotices secs) (checkNotes last (sectionActs secs)) := by
  intro secs
  induction secs with
  | nil => intro last _ _; exact .nil
  | cons sec secs ih =>
    intro last hl hr
    cases sec with
    | note => exact ih last hl hr
    | noDefault => exact ih last hl hr
    | dflt d => exact ih last hl hr
    | langBlock lang rows => exact .cons _ _ _ _ (.skipped lang) (ih 0 (by omega) hr)
    | block rows =>
      obtain ⟨ts, last', h1, h2, h3⟩ := checkNotes_rows rows 0 (sectionActs secs) (by omega) fun r h => hr r (List.mem_append_left _ h)
      show Report (rowNotices 0 rows ++ sectionNotices secs) (checkNotes 0 (rows.map (fun r => ((none : Option Bytes), LineAction.row r.1 r.2)) ++ sectionActs secs))
      rw [h3]
      exact h2.append (ih last' h1 fun r h => hr r (List.mem_append_right _ h))

theorem entries_small {body : List Bytes} {rows : List (Nat × Bytes)} (h : Entries body rows) : ∀ r ∈ rows, r.1 ≠ 0 ∧ r.1 < 2 ^ 31 := by
  induction h with
  | nil => nofun
  | note l ls rows _ _ ih => exact ih
  | row l ls r rows he _ ih =>
    intro r' hr
    rcases List.mem_cons.1 hr with rfl | hr
    · cases he with
      | row _ _ _ _ _ _ _ _ _ _ _ h1 h2 => exact ⟨by omega, h2⟩
    · exact ih r' hr

theorem plainRows_small {ls : List Bytes} {secs : List Section} (h : FileLines ls secs) : ∀ r ∈ plainRows secs, r.1 ≠ 0 ∧ r.1 < 2 ^ 31 := by
  induction h with
  | nil => nofun
  | cons ls sec rest secs ht _ ih =>
    cases ht with
    | note l hn => exact ih
    | noDefault l hk => exact ih
    | dflt l w hk => exact ih
    | langBlock l lang body rows e hk hb he => exact ih
    | block l body rows e hk hb he =>
      intro r hr
      rcases List.mem_append.1 (show r ∈ rows ++ plainRows secs from hr) with h | h
      · exact entries_small hb r h
      · exact ih r h

theorem checkLengths_short (ls : List Bytes) (hl : ∀ l ∈ ls, NulFree l ∧ l.length ≤ 1023) : ∀ (b : Bool),
    ∀ d ∈ checkLengths (checkActs b ls), d.length ≤ 1023 := by
  induction ls with
  | nil => intro b d h; cases h
  | cons l ls ih =>
    have ih := ih fun l h => hl l (List.mem_cons_of_mem _ h)
    intro b
    rw [checkActs]
    split
    · exact ih b
    · have hfrom : (if b = true then (none, insideLine l) else checkBaseLine l).2.From l := by
        cases b with
        | true => exact insideLine_from l
        | false =>
          simp only [Bool.false_eq_true, if_false]
          rcases checkBaseLine_eq (hl l (by simp)).1 with ⟨lang, _, _, h, _⟩ | h
          · rw [h]; trivial
          · rw [h []]; exact baseLine_from [] l
      revert hfrom
      generalize (if b = true then (none, insideLine l) else checkBaseLine l) = act
      intro hfrom
      obtain ⟨lang, a⟩ := act
      cases lang with
      | some lang => exact ih b
      | none =>
        cases a with
        | skip => exact ih b
        | enter => exact ih true
        | leave => exact ih false
        | dflt d =>
          cases d with
          | none => exact ih b
          | some d =>
            intro e he
            rcases List.mem_cons.1 he with rfl | he
            · have h1 : e.Sublist l := hfrom
              have := h1.length_le
              have := (hl l (by simp)).2
              omega
            · exact ih b e he
        | row k d =>
          intro e he
          rcases List.mem_cons.1 he with rfl | he
          · have h1 : e.Sublist l := hfrom.2
            have := h1.length_le
            have := (hl l (by simp)).2
            omega
          · exact ih b e he

theorem checkRows_lengths (as : List (Option Bytes × LineAction)) (hl : ∀ a ∈ as, a.1 ≠ none → a.2 = .skip) :
    ∀ r ∈ checkRows as, r.2 ∈ checkLengths as := by
  induction as with
  | nil => nofun
  | cons a as ih =>
    have ih := ih fun a h => hl a (List.mem_cons_of_mem _ h)
    obtain ⟨lang, a⟩ := a
    intro r hr
    cases lang with
    | some lang =>
      cases hl _ List.mem_cons_self (by simp)
      exact ih r hr
    | none =>
      cases a with
      | row k d =>
        rcases List.mem_cons.1 hr with rfl | hr
        · exact List.mem_cons_self
        · exact List.mem_cons_of_mem _ (ih r hr)
      | dflt d =>
        cases d with
        | none => exact ih r hr
        | some d => exact List.mem_cons_of_mem _ (ih r hr)
      | _ => exact ih r hr

/-! ### The whole check -/

/-- What a check of `content` comes to. -/
theorem checkTable_eq (useHash : Bool) (content : Bytes) :
    (∃ t, checkContent useHash content =
        Prog.says ((checkNotes 0 (checkActs false (fileLines content.length content)) ++
          (if t.maxDataLength = longestOf 1 (checkLengths (checkActs false (fileLines content.length content))) then []
           else [lengthWarning t.maxDataLength (longestOf 1 (checkLengths (checkActs false (fileLines content.length content))))])).map
             fun s => (false, s)) (.ret (some t)) ∧
      Reviewed (freshTable (tableRowsFor content.length) useHash) (checkRows (checkActs false (fileLines content.length content)))
        (actionDefault none ((checkActs false (fileLines content.length content)).map Prod.snd)) t) ∨
    (∃ (notes : List Bytes) (k : Nat) (d : Bytes),
      checkContent useHash content =
        Prog.says (notes.map (fun s => (false, s)) ++ [(true, failedMessage (lit "add") k d (lit "to"))]) (.ret none) ∧
      (k, d) ∈ checkRows (checkActs false (fileLines content.length content)) ∧
      Unloadable (freshTable (tableRowsFor content.length) useHash) (checkRows (checkActs false (fileLines content.length content)))) := by
  have hr : Reachable (freshTable (tableRowsFor content.length) useHash) := .fresh _ _
  unfold checkContent
  rcases checkTableLines_eq (fileLines content.length content)
    { table := { tableInit (tableRowsFor content.length) with useHash := useHash } } hr with ⟨t, last, b, h1, h2⟩ | ⟨notes, k, d, h1, h2, h3⟩
  · refine .inl ⟨t, ?_, h2⟩
    rw [h1, Prog.says_bind]
    simp only [Prog.bind]
    rw [List.map_append, Prog.says_append]
    congr 1
    by_cases hm : t.maxDataLength = longestOf 1 (checkLengths (checkActs false (fileLines content.length content)))
    · rw [if_pos hm, if_neg (by simpa using hm)]
      rfl
    · rw [if_neg hm, if_pos (by simpa using hm)]
      rfl
  · refine .inr ⟨notes, k, d, ?_, h2, h3⟩
    rw [h1, Prog.says_bind]
    rfl

/-- Every execution that returns, after the content has been read. -/
theorem checkTable_ret {useHash : Bool} {f content : Bytes} {tr : List Event} {r : Option Table}
    (h : Trace (checkTable useHash f) (.slurp (some f) (some content) :: tr) (.ret r)) :
    (∃ t, r = some t ∧ tr = (checkNotes 0 (checkActs false (fileLines content.length content)) ++
          (if t.maxDataLength = longestOf 1 (checkLengths (checkActs false (fileLines content.length content))) then []
           else [lengthWarning t.maxDataLength (longestOf 1 (checkLengths (checkActs false (fileLines content.length content))))])).map
             Event.out ∧
      Reviewed (freshTable (tableRowsFor content.length) useHash) (checkRows (checkActs false (fileLines content.length content)))
        (actionDefault none ((checkActs false (fileLines content.length content)).map Prod.snd)) t) ∨
    (∃ (notes : List Bytes) (k : Nat) (d : Bytes), r = none ∧
      tr = notes.map Event.out ++ [.err (failedMessage (lit "add") k d (lit "to"))] ∧
      (k, d) ∈ checkRows (checkActs false (fileLines content.length content)) ∧
      Unloadable (freshTable (tableRowsFor content.length) useHash) (checkRows (checkActs false (fileLines content.length content)))) := by
  unfold checkTable at h
  cases h with
  | slurp _ _ _ _ _ h =>
    dsimp only at h
    rcases checkTable_eq useHash content with ⟨t, h1, h2⟩ | ⟨notes, k, d, h1, h2, h3⟩
    · rw [h1] at h
      obtain ⟨h4, h5⟩ := trace_says_ret h
      refine .inl ⟨t, h4, ?_, h2⟩
      rw [h5, List.map_map]
      rfl
    · rw [h1] at h
      obtain ⟨h4, h5⟩ := trace_says_ret h
      refine .inr ⟨notes, k, d, h4, ?_, h2, h3⟩
      rw [h5, List.map_append, List.map_map]
      rfl

theorem tableRowsFor_eq (n : Nat) : tableRowsFor n = max 500 (n / 6) := by
  unfold tableRowsFor lineLength
  split <;> omega

theorem fresh_rows (n : Nat) (useHash : Bool) : (freshTable (tableRowsFor n) useHash).rows.length = max 500 (n / 6) := by
  rw [freshTable_length]
  unfold rowsFor
  rw [tableRowsFor_eq]
  split <;> omega

end Detox
