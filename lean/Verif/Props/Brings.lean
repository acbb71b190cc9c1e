import Verif.Lemmas.Brings
import Verif.Props.EndToEnd

/-!
# C91: which characters can be in the names a sequence makes

For any sequence, with any tables: `Brings` and `Replaces` (`Spec/Brings.lean`) only look at what is in the tables.
-/

set_option autoImplicit false

namespace Detox
open Spec

/-! ### Sequences -/

/-- **C91.** A byte that no filter brings in is in the new name only if it was in the old one, and then no filter replaces it. -/
theorem C91_not_brought {P : Platform} {q : Sequence} {s out : Bytes} (h : sequenceRunFilters P (some q) (some s) = .ok (some out)) {b : Byte}
    (hb : ∀ f ∈ q.filters, ¬ Brings f b) (hm : b ∈ out) : b ∈ s ∧ ∀ f ∈ q.filters, ¬ Replaces P f b :=
  runFilters_has q.filters s out h hm hb

/-- **C91.** A byte that is kept out, by a filter that replaces it with no filter from there on bringing it in, is in none of the new names,
whatever comes before that filter. -/
theorem C91_kept_out {P : Platform} {q : Sequence} {s out : Bytes} (h : sequenceRunFilters P (some q) (some s) = .ok (some out)) {b : Byte}
    (hb : KeepsOut P q.filters b) : b ∉ out := by
  obtain ⟨pre, f, post, e, h1, h2⟩ := hb
  intro hm
  have h : runFilters P q.filters (some s) = .ok (some out) := h
  rw [e] at h
  obtain ⟨r, hr⟩ := runFilters_split pre _ _ _ h
  exact (runFilters_has (f :: post) r out hr hm h2).2 f (by simp) h1

theorem filterRun_nulFree {P : Platform} {f : Filter} {s r : Bytes} (h : filterRun P f (some s) = .ok (some r)) (hs : NulFree s) : NulFree r := by
  have inv : ∀ {x : Res Bytes}, (x >>= fun r => (pure (some r) : Res (Option Bytes))) = .ok (some r) → x = .ok r := by
    intro x h
    cases x with
    | ok a => cases h; rfl
    | exit => cases h
    | ub => cases h
    | stuck => cases h
  have fin : ∀ {o : OutBuf}, o.finish = .ok r → NulFree r := by
    intro o h
    unfold OutBuf.finish at h
    cases hp : o.push 0 with
    | ok o' => rw [hp] at h; cases h; exact nulFree_cstr _
    | exit => rw [hp] at h; cases h
    | ub => rw [hp] at h; cases h
    | stuck => rw [hp] at h; cases h
  have fin' : ∀ {x : Res OutBuf}, (x >>= fun o => o.finish) = .ok r → NulFree r := by
    intro x h
    cases x with
    | ok a => exact fin h
    | exit => cases h
    | ub => cases h
    | stuck => cases h
  unfold filterRun at h
  cases hc : f.cleaner with
  | iso8859_1 =>
    rw [hc] at h
    have h := inv h
    cases ht : f.table with
    | none => rw [ht] at h; cases h
    | some t => rw [ht] at h; exact fin' h
  | safe =>
    rw [hc] at h
    have h := inv h
    cases ht : f.table with
    | none => rw [ht] at h; cases h
    | some t => rw [ht] at h; exact fin' h
  | utf8 =>
    rw [hc] at h
    have h := inv h
    cases ht : f.table with
    | none => rw [ht] at h; cases h
    | some t => rw [ht] at h; exact fin' h
  | lower => rw [hc] at h; exact fin' (inv h)
  | uncgi => rw [hc] at h; exact fin' (inv h)
  | wipeup => rw [hc] at h; exact fin' (inv h)
  | maxLength =>
    rw [hc] at h
    exact fun h0 => hs (maxLength_sub (inv h) h0)

theorem runFilters_nulFree {P : Platform} : ∀ (fs : List Filter) (s out : Bytes), runFilters P fs (some s) = .ok (some out) → NulFree s → NulFree out
  | [], _, _, h, hs => by cases h; exact hs
  | _ :: fs, s, out, h, hs => by
    obtain ⟨r, h1, h2⟩ := runFilters_inv h
    exact runFilters_nulFree fs r out h2 (filterRun_nulFree h1 hs)

/-- **C91.** A sequence never brings in a NUL byte. -/
theorem C91_no_nul {P : Platform} {q : Sequence} {s out : Bytes} (h : sequenceRunFilters P (some q) (some s) = .ok (some out)) (hs : NulFree s) :
    NulFree out := runFilters_nulFree q.filters s out h hs

/-! ### The compiled-in tables -/

/-- A translation in a table of rows. -/
theorem lastRow_mem {rows : List Row} {k : Nat} {d : Bytes} (h : lastRow rows k = some d) : ∃ r ∈ rows, r.data = some d := by
  obtain ⟨_, i, hi⟩ := lastRow_eq_some h
  exact ⟨_, List.mem_of_getElem? hi, rfl⟩

theorem safe_has {b : Byte} (h : TableHas load_builtin_safe_table b) : hostile b = false := by
  rcases h with ⟨k, d, h1, h2⟩ | ⟨d, h1, _⟩
  · rw [safe_get] at h1
    obtain ⟨r, hr, hd⟩ := lastRow_mem h1
    have key : ∀ r ∈ builtin_safe_rows, ∀ d, r.data = some d → ∀ b ∈ d, hostile b = false := by
      have : ∀ r ∈ builtin_safe_rows, ∀ b ∈ r.data.getD [], hostile b = false := by decide +kernel
      intro r hr d hd b hb
      exact this r hr b (by rw [hd]; exact hb)
    exact key r hr d hd b h2
  · rw [safe_default] at h1
    cases h1

theorem safe_translates (P : Platform) {b : Byte} (h : hostile b = true) (h0 : b ≠ 0) : tableGet load_builtin_safe_table (P.charToUInt b) ≠ none := by
  have key : ∀ b : Byte, hostile b = true → b ≠ 0 → b.toNat < 128 ∧ lastRow builtin_safe_rows b.toNat ≠ none := forall_byte (by decide +kernel)
  obtain ⟨h1, h2⟩ := key b h h0
  rw [safe_get]
  unfold Platform.charToUInt
  rw [if_neg (by simp; omega)]
  exact h2

/-- **C91.** Whatever a configuration has before it: after `safe` with the compiled-in table nothing hostile is left, and `wipeup`, `lower` and
`max_length`, in any number and with any options, bring nothing hostile in. -/
theorem C91_after_safe {P : Platform} {q : Sequence} {pre post : List Filter} {f : Filter} (hq : q.filters = pre ++ f :: post)
    (hf : f.cleaner = .safe) (ht : f.table = some load_builtin_safe_table)
    (hp : ∀ g ∈ post, g.cleaner = .wipeup ∨ g.cleaner = .lower ∨ g.cleaner = .maxLength) {s out : Bytes} (hs : NulFree s)
    (h : sequenceRunFilters P (some q) (some s) = .ok (some out)) : ∀ c ∈ out, hostile c = false := by
  intro c hc
  have h0 : c ≠ 0 := fun h0 => C91_no_nul h hs (h0 ▸ hc)
  cases hx : hostile c with
  | false => rfl
  | true =>
    refine absurd hc (C91_kept_out h ⟨pre, f, post, hq, ?_, ?_⟩)
    · unfold Replaces
      rw [hf]
      intro t h1
      obtain rfl := Option.some.inj (ht.symm.trans h1)
      exact .inr (safe_translates P hx h0)
    · intro g hg
      have small : ∀ c : Byte, hostile c = true → ¬ (0x61 ≤ c.toNat ∧ c.toNat ≤ 0x7A) := forall_byte (by decide +kernel)
      rcases List.mem_cons.1 hg with rfl | hg
      · unfold Brings
        rw [hf]
        rintro ⟨t, h1, h2⟩
        obtain rfl := Option.some.inj (ht.symm.trans h1)
        rw [safe_has h2] at hx
        cases hx
      · unfold Brings
        rcases hp g hg with h1 | h1 | h1 <;> rw [h1]
        · exact fun h => h
        · exact small c hx
        · exact fun h => h

/-! ### Tables from files -/

theorem applyActions_has {b : Byte} (as : List LineAction) {t t' : Table} (hr : Reachable t) (h : applyActions t as = some t')
    (hb : TableHas t' b) : TableHas t b ∨ (∃ k d, LineAction.row k d ∈ as ∧ b ∈ d) ∨ ∃ d, LineAction.dflt (some d) ∈ as ∧ b ∈ d := by
  induction as generalizing t with
  | nil => cases h; exact .inl hb
  | cons a as ih =>
    have up : ∀ {t1 : Table}, Reachable t1 → applyActions t1 as = some t' → (TableHas t1 b → TableHas t b ∨ (∃ k d, a = .row k d ∧ b ∈ d) ∨ ∃ d, a = .dflt (some d) ∧ b ∈ d) →
        TableHas t b ∨ (∃ k d, LineAction.row k d ∈ a :: as ∧ b ∈ d) ∨ ∃ d, LineAction.dflt (some d) ∈ a :: as ∧ b ∈ d := by
      intro t1 h1 h2 h3
      rcases ih h1 h2 with h4 | ⟨k, d, h4, h5⟩ | ⟨d, h4, h5⟩
      · rcases h3 h4 with h5 | ⟨k, d, rfl, h5⟩ | ⟨d, rfl, h5⟩
        · exact .inl h5
        · exact .inr (.inl ⟨k, d, by simp, h5⟩)
        · exact .inr (.inr ⟨d, by simp, h5⟩)
      · exact .inr (.inl ⟨k, d, List.mem_cons_of_mem _ h4, h5⟩)
      · exact .inr (.inr ⟨d, List.mem_cons_of_mem _ h4, h5⟩)
    cases a with
    | skip => exact up hr h .inl
    | enter => exact up hr h .inl
    | leave => exact up hr h .inl
    | dflt d =>
      refine up (.setDefault _ d hr) h ?_
      rintro (⟨k, e, h1, h2⟩ | ⟨e, h1, h2⟩)
      · exact .inl (.inl ⟨k, e, h1, h2⟩)
      · have h1 : d = some e := h1
        subst h1
        exact .inr (.inr ⟨e, rfl, h2⟩)
    | row k d =>
      rw [applyActions] at h
      cases hp : tablePut t k d with
      | mk t1 o =>
        rw [hp] at h
        cases o with
        | none => cases h
        | some o =>
          have he : (tablePut t k d).1 = t1 := by rw [hp]
          have hk0 : k ≠ 0 := by
            rintro rfl
            rw [tablePut_fail (.inl rfl)] at hp
            cases hp
          have hu : t.used < t.rows.length := by
            have := hr.wf.cap
            have : t.used ≠ t.rows.length := by
              intro hc
              rw [tablePut_fail (.inr hc)] at hp
              cases hp
            omega
          refine up (by rw [← he]; exact .op _ (.put k d) hr) h ?_
          rintro (⟨k', e, h1, h2⟩ | ⟨e, h1, h2⟩)
          · rw [← he, hr.wf.get_put hk0 hu] at h1
            split at h1
            · cases h1
              exact .inr (.inl ⟨k, _, rfl, h2⟩)
            · exact .inl (.inl ⟨k', e, h1, h2⟩)
          · rw [← he, tablePut_default] at h1
            exact .inl (.inr ⟨e, h1, h2⟩)

theorem lineActions_has {ctype : Bytes} {b : Byte} {st : Bool} (ls : List Bytes)
    (h : (∃ k d, LineAction.row k d ∈ lineActions ctype st ls ∧ b ∈ d) ∨ ∃ d, LineAction.dflt (some d) ∈ lineActions ctype st ls ∧ b ∈ d) :
    ∃ l ∈ ls, peek l ≠ 0x23 ∧ b ∈ l := by
  have key : ∀ (st : Bool) (a : LineAction), a ∈ lineActions ctype st ls → ∃ l ∈ ls, peek l ≠ 0x23 ∧ a.From l := by
    clear h
    induction ls with
    | nil => intro st a ha; cases ha
    | cons l ls ih =>
      intro st a ha
      have up : ∀ st, a ∈ lineActions ctype st ls → ∃ l' ∈ l :: ls, peek l' ≠ 0x23 ∧ a.From l' := by
        intro st ha
        obtain ⟨l', h1, h2⟩ := ih st a ha
        exact ⟨l', List.mem_cons_of_mem _ h1, h2⟩
      unfold lineActions at ha
      split at ha
      · exact up _ ha
      · next hc =>
        have hf : (if st = true then insideLine l else baseLine ctype l).From l := by
          split
          · exact insideLine_from l
          · exact baseLine_from ctype l
        generalize (if st = true then insideLine l else baseLine ctype l) = x at ha hf
        cases x with
        | skip => exact up _ ha
        | enter => exact up _ ha
        | leave => exact up _ ha
        | dflt d =>
          rcases List.mem_cons.1 ha with rfl | ha
          · exact ⟨l, by simp, hc, hf⟩
          · exact up _ ha
        | row k d =>
          rcases List.mem_cons.1 ha with rfl | ha
          · exact ⟨l, by simp, hc, hf⟩
          · exact up _ ha
  rcases h with ⟨k, d, h1, h2⟩ | ⟨d, h1, h2⟩
  · obtain ⟨l, a, b', c⟩ := key st _ h1
    exact ⟨l, a, b', c.2.mem h2⟩
  · obtain ⟨l, a, b', c⟩ := key st _ h1
    have c : d.Sublist l := c
    exact ⟨l, a, b', c.mem h2⟩

theorem parsed_has {ctype content : Bytes} {t : Table} (h : parseTableContent ctype content = some t) {b : Byte} (hb : TableHas t b) :
    (∃ k d, LineAction.row k d ∈ lineActions ctype false (fileLines content.length content) ∧ b ∈ d) ∨
      ∃ d, LineAction.dflt (some d) ∈ lineActions ctype false (fileLines content.length content) ∧ b ∈ d := by
  unfold parseTableContent at h
  rw [parseTableLines_eq] at h
  rcases applyActions_has _ (t := freshTable (tableRowsFor content.length) true) (.fresh _ _) h hb with h1 | h1
  · rcases h1 with ⟨k, d, h1, _⟩ | ⟨d, h1, _⟩
    · rw [freshTable_get] at h1; cases h1
    · cases h1
  · exact h1

theorem fileLines_sub {b : Byte} : ∀ (n : Nat) (s l : Bytes), l ∈ fileLines n s → b ∈ l → b ∈ s := by
  intro n
  induction n with
  | zero => intro s l h; cases h
  | succ n ih =>
    intro s l h hb
    cases s with
    | nil => cases h
    | cons c s =>
      have split : ∀ (n : Nat) (s : Bytes), (takeLine n s).1 ++ (takeLine n s).2 = s := by
        intro n
        induction n with
        | zero => intro s; rfl
        | succ n ih =>
          intro s
          cases s with
          | nil => rfl
          | cons c s =>
            unfold takeLine
            split
            · rfl
            · simp [ih s]
      rw [← split 1023 (c :: s)]
      rcases List.mem_cons.1 h with rfl | h
      · exact List.mem_append_left _ ((cstr_sublist _).mem hb)
      · exact List.mem_append_right _ (ih _ _ h hb)

/-- **C91.** A table from a file, whatever the file is, brings in only bytes that are in the file. -/
theorem C91_table_file {ctype content : Bytes} {t : Table} (h : parseTableContent ctype content = some t) {b : Byte} (hb : b ∉ content) :
    ¬ TableHas t b := by
  intro hx
  obtain ⟨l, h1, _, h2⟩ := lineActions_has _ (parsed_has h hx)
  exact hb (fileLines_sub _ _ _ h1 h2)

/-- **C91.** Comments do not count. -/
theorem C91_table_lines {ctype content : Bytes} {ls : List Bytes} (hl : HasLines content ls) {t : Table}
    (h : parseTableContent ctype content = some t) {b : Byte} (h0 : isSpaceC b = false) (hb : ∀ l ∈ ls, b ∈ l → ∃ r, l = 0x23 :: r) : ¬ TableHas t b := by
  intro hx
  have h1 := parsed_has h hx
  obtain ⟨ls', hd, he⟩ := hasLines_actions hl ctype
  rw [he] at h1
  obtain ⟨l, h2, h3, h4⟩ := lineActions_has _ h1
  clear he h1 hl hx h
  induction hd with
  | nil => cases h2
  | cons l0 tl ls ls' hg ht hd ih =>
    rcases List.mem_cons.1 h2 with rfl | h2
    · rcases List.mem_append.1 h4 with h4 | h4
      · obtain ⟨r, rfl⟩ := hb l0 (by simp) h4
        exact h3 rfl
      · rw [ht b h4] at h0; cases h0
    · exact ih (fun l hl => hb l (List.mem_cons_of_mem _ hl)) h2

/-- **C91.** In the sequence in use, every table is one of those compiled in, or was read from a file. -/
theorem C91_tables_in_use {I : Invocation} {ss : List Setting} {tr : List Event} {q : Sequence} (h : InUse I ss tr q) {f : Filter}
    (hf : f ∈ q.filters) {t : Table} (ht : f.table = some t) :
    (∃ n, BuiltinNamed n t) ∨ ∃ path text, Event.slurp (some path) (some text) ∈ tr ∧ parseTableContent I.ctype text = some t := by
  obtain ⟨c, q0, r1, r2, rest, rfl, h1, h2, h3⟩ := h
  obtain ⟨_, _, files, hn⟩ := configFileLoad_good h1
  have hq0 : q0 ∈ c.sequences := by
    have mem : ∀ n, FirstNamed n c.sequences q0 → q0 ∈ c.sequences := by
      rintro n ⟨before, after, h, _⟩
      rw [h]
      simp
    cases hr : requested I ss with
    | some n => rw [hr] at h2; exact mem n h2
    | none =>
      rw [hr] at h2
      rcases h2 with h | ⟨_, h⟩
      · exact mem _ h
      · exact List.mem_of_mem_head? h
  have hno := (hn q0 hq0).2
  have h4 := (reviewSequence_ret h3).1
  have key : ∀ fs rs fs', TablesFor I.ctype I.datadir fs rs fs' → (∀ f ∈ fs, f.table = none) → ∀ f ∈ fs', ∀ t, f.table = some t →
      (∃ n, BuiltinNamed n t) ∨ ∃ path text, (path, some text) ∈ rs ∧ parseTableContent I.ctype text = some t := by
    intro fs rs fs' h
    induction h with
    | nil => intro _ f hf; cases hf
    | cons g r rs t' fs fs' hg _ ih =>
      intro hno f hf t ht
      rcases List.mem_cons.1 hf with rfl | hf
      · have ht : t'.or g.table = some t := ht
        rw [hno g (by simp), Option.or_none] at ht
        subst ht
        cases hg with
        | builtin n b _ _ _ h => exact .inl ⟨b, h⟩
        | filename n path text _ _ _ _ h => exact .inr ⟨path, text, by simp, h⟩
        | found n path text _ before after reads _ _ _ _ _ _ h => exact .inr ⟨path, text, by simp, h⟩
        | fallback n _ reads _ _ _ _ _ h => exact .inl ⟨n, h⟩
      · rcases ih (fun f hf => hno f (List.mem_cons_of_mem _ hf)) f hf t ht with h | ⟨p, x, h1, h2⟩
        · exact .inl h
        · exact .inr ⟨p, x, List.mem_append_right _ h1, h2⟩
  rcases key _ _ _ h4 hno f hf t ht with h | ⟨p, x, h5, h6⟩
  · exact .inl h
  · refine .inr ⟨p, x, ?_, h6⟩
    simp [filesRead_mem h5]

/-! ### Slashes -/

/-- **C91.** With a sequence that keeps slashes out, or brings none in, no slashes are made. So nothing leaves its directory (C27), and scans are complete
(C86). -/
theorem C91_no_slash {P : Platform} {o : Options} {q : Sequence} (ho : o.sequenceToUse = some q)
    (h : KeepsOut P q.filters 0x2F ∨ ∀ f ∈ q.filters, ¬ Brings f 0x2F) : NoNewSlash P o := by
  intro name cleaned _ hn hc hm
  rw [ho] at hc
  rcases h with h | h
  · exact C91_kept_out hc h hm
  · exact hn (C91_not_brought hc h hm).1

end Detox
