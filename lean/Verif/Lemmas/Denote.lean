import Verif.Spec.Denote
import Verif.Lemmas.LoadedTable
import Verif.Props.Tables
import Verif.Props.Config
import Verif.Props.ParseTable
import Verif.Props.Brings
import Verif.Props.Uncgi
import Verif.Props.Utf8
import Verif.Props.MaxLength
import Verif.Props.Lower
import Verif.Props.Wipeup

/-!
# From the texts of config and table files to what happens to a name
-/

set_option autoImplicit false

namespace Detox
open Spec

/-- The table in memory is the one that was written. -/
structure Table.Holds (t : Table) (m : TableText) : Prop where
  rows : ∀ k, tableGet t k = m.row k
  dflt : t.defaultTranslation = m.dflt
  strings : t.CStrings
  small : ∀ k d, tableGet t k = some d → k < 2 ^ 31

theorem builtin_holds {b : Bytes} {t : Table} {m : TableText} (ht : BuiltinNamed b t) (hm : BuiltinSays b m) : t.Holds m := by
  have key : ∀ (rows : List Row) (t : Table) (d : Option Bytes), (∀ k, tableGet t k = lastRow rows k) → t.defaultTranslation = d →
      (∀ r ∈ rows, r.key < 2 ^ 31 ∧ ∀ d ∈ r.data, (0 : Byte) ∉ d) → (∀ x, d = some x → NulFree x) →
      t.Holds ⟨lastOf (writtenRows rows), d⟩ := by
    intro rows t d hg hd hr hx
    refine ⟨fun k => ?_, hd, ⟨fun k d h => ?_, fun d h => ?_⟩, fun k d h => ?_⟩
    · rw [hg, lastRow_eq_lastOf]; rfl
    · rw [hg] at h
      obtain ⟨r, h1, h2⟩ := lastRow_mem h
      exact (hr r h1).2 d h2
    · rw [hd] at h
      exact hx _ h
    · rw [hg] at h
      obtain ⟨_, i, hi⟩ := lastRow_eq_some h
      exact (hr _ (List.mem_of_getElem? hi)).1
  cases ht with
  | iso8859_1 =>
    generalize hb : lit "iso8859_1" = b at hm
    cases hm with
    | iso8859_1 => exact key _ _ _ iso_get iso_default (by decide +kernel) (by intro x h; cases h; decide +kernel)
    | unicode => exact absurd hb (by decide +kernel)
    | safe => exact absurd hb (by decide +kernel)
    | cp1252 => exact absurd hb (by decide +kernel)
  | unicode =>
    generalize hb : lit "unicode" = b at hm
    cases hm with
    | unicode => exact key _ _ _ unicode_get unicode_default (by decide +kernel) (by intro x h; cases h)
    | iso8859_1 => exact absurd hb (by decide +kernel)
    | safe => exact absurd hb (by decide +kernel)
    | cp1252 => exact absurd hb (by decide +kernel)
  | safe =>
    generalize hb : lit "safe" = b at hm
    cases hm with
    | safe => exact key _ _ _ safe_get safe_default (by decide +kernel) (by intro x h; cases h)
    | iso8859_1 => exact absurd hb (by decide +kernel)
    | unicode => exact absurd hb (by decide +kernel)
    | cp1252 => exact absurd hb (by decide +kernel)
  | cp1252 =>
    generalize hb : lit "cp1252" = b at hm
    cases hm with
    | cp1252 => exact key _ _ _ cp1252_get cp1252_default (by decide +kernel) (by intro x h; cases h)
    | iso8859_1 => exact absurd hb (by decide +kernel)
    | unicode => exact absurd hb (by decide +kernel)
    | safe => exact absurd hb (by decide +kernel)

theorem file_holds {ctype text : Bytes} {t : Table} {m : TableText} (ht : parseTableContent ctype text = some t)
    (hm : SaysTable ctype text m) : t.Holds m := by
  obtain ⟨ls, secs, h1, h2, h3, rfl⟩ := hm
  obtain ⟨t', h4, h5, h6⟩ := C25_table_file_loads h1 h2 ctype h3
  rw [ht] at h4
  cases h4
  have hf := parseTable_loaded ht
  exact ⟨h5, h6, ⟨fun k d h => (hf.entry k d h).2.1, fun d h => (hf.dflt d h).1⟩, fun k d h => (hf.entry k d h).1⟩

theorem file_loads {ctype text : Bytes} {m : TableText} (hm : SaysTable ctype text m) : ∃ t, parseTableContent ctype text = some t := by
  obtain ⟨ls, secs, h1, h2, h3, rfl⟩ := hm
  obtain ⟨t', h4, _⟩ := C25_table_file_loads h1 h2 ctype h3
  exact ⟨t', h4⟩

theorem Spec.UsualTable.unique {c : Cleaner} {a b : Bytes} (ha : UsualTable c a) (hb : UsualTable c b) : a = b := by
  cases ha <;> cases hb <;> rfl

/-- The table a filter has been given is the one that was written. -/
theorem tableFor_holds {ctype : Bytes} {datadir : Option Bytes} {files : Bytes → Option Bytes} {f : Filter}
    {reads : List (Bytes × Option Bytes)} {t : Option Table} {m : TableText} {n : Bytes} (h : TableFor ctype datadir f reads t)
    (hr : ReadsFrom files reads) (hm : TableSays ctype datadir files f m) (hu : UsualTable f.cleaner n) : ∃ t', t = some t' ∧ t'.Holds m := by
  cases h with
  | untabled h => exact absurd hu (h n)
  | builtin n' b t' _ hb hn =>
    refine ⟨t', rfl, ?_⟩
    cases hm with
    | builtin b' m hb' hs =>
      rw [hb] at hb'
      cases hb'
      exact builtin_holds hn hs
    | filename _ _ _ hb' => rw [hb] at hb'; cases hb'
    | found _ _ _ _ _ _ _ hb' => rw [hb] at hb'; cases hb'
    | fallback _ _ _ hb' => rw [hb] at hb'; cases hb'
  | filename n' path text t' _ hb hf hp =>
    refine ⟨t', rfl, ?_⟩
    have hx : some text = files path := hr (path, some text) (by simp)
    cases hm with
    | builtin b' m hb' hs => rw [hb] at hb'; cases hb'
    | filename path' text' m _ hf' ht hs =>
      rw [hf] at hf'
      cases hf'
      rw [← hx] at ht
      cases ht
      exact file_holds hp hs
    | found _ _ _ _ _ _ _ _ hf' => rw [hf] at hf'; cases hf'
    | fallback _ _ _ _ hf' => rw [hf] at hf'; cases hf'
  | found n1 path text t' before after reads hu1 hb hf hpaths hbefore hno hp =>
    refine ⟨t', rfl, ?_⟩
    have hx : some text = files path := hr (path, some text) (by simp)
    have hbf : ∀ p ∈ before, NoTable ctype (files p) := by
      intro p hp
      rw [← hbefore] at hp
      obtain ⟨x, hx, rfl⟩ := List.mem_map.1 hp
      rw [← hr x (by simp [hx])]
      exact hno x hx
    have hnot : ¬ NoTable ctype (files path) := by
      intro h
      rw [h text hx.symm] at hp
      cases hp
    cases hm with
    | builtin b' m hb' hs => rw [hb] at hb'; cases hb'
    | filename _ _ _ _ hf' => rw [hf] at hf'; cases hf'
    | found n2 path' text' before' after' _ hu2 _ _ hpaths' hmiss ht hs =>
      cases hu1.unique hu2
      rw [hpaths] at hpaths'
      have : path = path' := by
        rcases List.append_eq_append_iff.1 hpaths' with ⟨as, ha, hb'⟩ | ⟨bs, ha, hb'⟩
        · cases as with
          | nil => exact (List.cons.inj hb').1
          | cons a as =>
            exfalso
            have hin : path ∈ before' := by
              rw [ha, (List.cons.inj hb').1]; simp
            exact hnot (by rw [hmiss _ hin]; intro _ h; cases h)
        · cases bs with
          | nil => exact (List.cons.inj hb').1.symm
          | cons b bs =>
            exfalso
            have hin : path' ∈ before := by
              rw [ha, (List.cons.inj hb').1]; simp
            obtain ⟨t2, ht2⟩ := file_loads hs
            have := hbf _ hin text' ht
            rw [ht2] at this
            cases this
      subst this
      rw [← hx] at ht
      cases ht
      exact file_holds hp hs
    | fallback n2 _ hu2 _ _ hmiss hs =>
      cases hu1.unique hu2
      exact absurd (show NoTable ctype (files path) by rw [hmiss path (by rw [hpaths]; simp)]; intro _ h; cases h) hnot
  | fallback n1 t' _ hu1 hb hf hpaths hno hn =>
    refine ⟨t', rfl, ?_⟩
    cases hm with
    | builtin b' m hb' hs => rw [hb] at hb'; cases hb'
    | filename _ _ _ _ hf' => rw [hf] at hf'; cases hf'
    | found n2 path' text' before' after' _ hu2 _ _ hpaths' hmiss ht hs =>
      cases hu1.unique hu2
      have hin : path' ∈ reads.map Prod.fst := by rw [hpaths, hpaths']; simp
      obtain ⟨x, hx, rfl⟩ := List.mem_map.1 hin
      obtain ⟨t2, ht2⟩ := file_loads hs
      have := hno x hx text' (by rw [hr x hx]; exact ht)
      rw [ht2] at this
      cases this
    | fallback n2 _ hu2 _ _ hmiss hs =>
      cases hu1.unique hu2
      exact builtin_holds hn hs

/-! ### The filters -/

theorem Table.Holds.safe {P : Platform} {t : Table} {m : TableText} (h : t.Holds m) (c : Byte) : safeSub P t c = m.says (safeCode P c) [c] := by
  unfold safeSub TableText.says safeCode Platform.charToUInt
  rw [h.dflt]
  by_cases hc : P.charSigned = true ∧ 128 ≤ c.toNat
  · rw [if_pos hc, if_pos (by simp [hc])]
    cases hg : tableGet t (2 ^ 32 - 256 + c.toNat) with
    | none => rfl
    | some d =>
      have := h.small _ _ hg
      omega
  · rw [if_neg hc, if_neg (by simpa using hc), h.rows]
    rfl

theorem and80 : ∀ c : Byte, (c &&& 0x80 = 0) ↔ c.toNat < 128 := forall_byte (by decide +kernel)

theorem Table.Holds.iso {t : Table} {m : TableText} (h : t.Holds m) (c : Byte) :
    isoSub t c = if c.toNat < 128 then [c] else m.says (some c.toNat) [c] := by
  unfold isoSub TableText.says
  rw [h.dflt, h.rows]
  by_cases hc : c.toNat < 128
  · rw [if_pos hc, if_pos ((and80 c).2 hc)]
  · rw [if_neg hc, if_neg (fun h => hc ((and80 c).1 h))]
    rfl

theorem Table.Holds.unicode {t : Table} {m : TableText} (h : t.Holds m) (v : Nat) (u : Bytes) :
    (utf8Replacement t v).getD u = unicodeSays m v u := by
  unfold utf8Replacement unicodeSays
  rw [h.rows, h.dflt]
  cases m.row v with
  | some d => simp
  | none =>
    by_cases h0 : v = 0
    · simp [h0, nullReplacement]
    · by_cases h1 : 0x10FFFF < v
      · have : ¬ (v ≤ 1114111) := by omega
        simp [h0, unicodeMax, invalidReplacement, h1]
        rfl
      · simp [h0, unicodeMax, h1]

theorem utf8_reads {t : Table} {m : TableText} (h : t.Holds m) (s : Bytes) : UnicodeReads m s (utf8Fn t s) := by
  generalize hn : s.length = n
  induction n using Nat.strongRecOn generalizing s with
  | _ n ih =>
    cases s with
    | nil => exact .nil
    | cons c s =>
      cases hl : leadOf c with
      | none =>
        have := UnicodeReads.broken (m := m) [c] s _ (.stray c s hl) (ih s.length (by rw [← hn]; simp) s rfl)
        have he : utf8Fn t (c :: s) = lit "_" ++ utf8Fn t s := by
          unfold utf8Fn
          rw [List.length_cons]
          conv => lhs; unfold utf8Out
          rw [utf8Width_eq, hl]
          rfl
        rw [he]
        exact this
      | some p =>
        obtain ⟨w, base⟩ := p
        have hw := (leadOf_width c w base hl).1
        rcases eatCont_spec (w - 1) (c.toNat - base) s with ⟨conts, rest, h1, h2, h3, h4⟩ | ⟨conts, rest, h1, h2, h3, h5, h4⟩
        · have hu : IsUnit (c :: conts) (contVal (c.toNat - base) conts) := ⟨c, conts, w, base, rfl, hl, by omega, h3, rfl⟩
          have := UnicodeReads.char (m := m) (c :: conts) _ rest _ hu (ih rest.length (by rw [← hn, h1]; simp; omega) rest rfl)
          rw [← h.unicode, ← utf8Fn_unit hu] at this
          rw [h1]
          exact this
        · have hb := UnicodeReads.broken (m := m) (c :: conts) rest _ (.short c conts rest w base hl (by omega) h3 h5)
            (ih rest.length (by rw [← hn, h1]; simp; omega) rest rfl)
          have he : utf8Fn t (c :: s) = lit "_" ++ utf8Fn t rest := by
            unfold utf8Fn
            rw [List.length_cons]
            conv => lhs; unfold utf8Out
            rw [utf8Width_eq, hl]
            simp only [Option.map_some]
            rw [unpackStart_eq c w base hl, h4]
            dsimp only
            rw [utf8Out_fuel t _ rest.length rest (by simp [h1]) (Nat.le_refl _)]
            rfl
          rw [he, h1]
          exact hb

theorem says_nulFree {t : Table} {m : TableText} (h : t.Holds m) {code : Option Nat} {self : Bytes} (hs : NulFree self) :
    NulFree (m.says code self) := by
  unfold TableText.says
  split
  · next d hd =>
    cases code with
    | none => cases hd
    | some k => exact h.strings.1 k d (by rw [h.rows]; exact hd)
  · cases hd : m.dflt with
    | none => exact hs
    | some d => exact h.strings.2 d (by rw [h.dflt, hd])

theorem unicodeSays_nulFree {t : Table} {m : TableText} (h : t.Holds m) {v : Nat} {u : Bytes} (hs : NulFree u) :
    NulFree (unicodeSays m v u) := by
  unfold unicodeSays
  split
  · next d hd => exact h.strings.1 v d (by rw [h.rows]; exact hd)
  · split
    · decide +kernel
    · split
      · decide +kernel
      · cases hd : m.dflt with
        | none => exact hs
        | some d => exact h.strings.2 d (by rw [h.dflt, hd])

theorem reads_nulFree {t : Table} {m : TableText} (h : t.Holds m) {s out : Bytes} (hr : UnicodeReads m s out) (hs : NulFree s) : NulFree out := by
  induction hr with
  | nil => exact hs
  | char u v rest out hu _ ih =>
    rw [nulFree_append] at hs ⊢
    exact ⟨unicodeSays_nulFree h hs.1, ih hs.2⟩
  | broken u rest out _ _ ih =>
    rw [nulFree_append] at hs ⊢
    exact ⟨by decide +kernel, ih hs.2⟩

/-- A filter that runs does what was written. -/
theorem filter_says {P : Platform} (hP : P.Benign) {locale : Bytes} {datadir : Option Bytes} {files : Bytes → Option Bytes} {f g : Filter}
    {s out : Bytes} (hs : NulFree s) (hg : g.cleaner = f.cleaner ∧ g.removeTrailing = f.removeTrailing ∧ g.maxLength = f.maxLength)
    (ht : ∀ n, UsualTable f.cleaner n → ∃ m t, TableSays locale datadir files f m ∧ g.table = some t ∧ t.Holds m)
    (h : filterRun P g (some s) = .ok (some out)) : FilterSays P locale datadir files f s out := by
  obtain ⟨hg1, hg2, hg3⟩ := hg
  have emitted : ∀ {cap : Nat} {x : Bytes}, NulFree x → (emit cap x >>= fun r => pure (some r)) = Res.ok (some out) → x = out := by
    intro cap x hx he
    rw [emit_eq] at he
    split at he
    · rw [cstr_of_nulFree hx] at he
      exact Option.some.inj (Res.ok.inj he)
    · cases he
  have ok : ∀ {a : Bytes} {r : Res Bytes}, r = .ok a → (r >>= fun r => pure (some r)) = Res.ok (some out) → a = out := by
    intro a r ha he
    rw [ha] at he
    exact Option.some.inj (Res.ok.inj he)
  unfold filterRun at h
  rw [hg1] at h
  cases hc : f.cleaner with
  | iso8859_1 =>
    obtain ⟨m, t, h1, h2, h3⟩ := ht _ (by rw [hc]; exact .iso8859_1)
    rw [hc] at h
    simp only [h2, cleanIso_eq] at h
    have hfun : isoSub t = fun c => if c.toNat < 128 then [c] else m.says (some c.toNat) [c] := funext fun c => h3.iso c
    rw [hfun] at h
    rw [← emitted (nulFree_flatMap fun c hcs => ?_) h]
    · exact .iso8859_1 m hc h1
    · have hc0 : NulFree [c] := nulFree_cons.mpr ⟨fun h0 => hs (h0 ▸ hcs), NulFree.nil⟩
      split
      · exact hc0
      · exact says_nulFree h3 hc0
  | safe =>
    obtain ⟨m, t, h1, h2, h3⟩ := ht _ (by rw [hc]; exact .safe)
    rw [hc] at h
    simp only [h2, cleanSafe_eq] at h
    have hfun : safeSub P t = fun c => m.says (safeCode P c) [c] := funext fun c => h3.safe c
    rw [hfun] at h
    rw [← emitted (nulFree_flatMap fun c hcs => says_nulFree h3 (nulFree_cons.mpr ⟨fun h0 => hs (h0 ▸ hcs), NulFree.nil⟩)) h]
    exact .safe m hc h1
  | utf8 =>
    obtain ⟨m, t, h1, h2, h3⟩ := ht _ (by rw [hc]; exact .utf8)
    rw [hc] at h
    simp only [h2, cleanUtf8_eq] at h
    have hr := utf8_reads h3 s
    rw [← emitted (reads_nulFree h3 hr hs) h]
    exact .utf8 m _ hc h1 hr
  | lower =>
    rw [hc] at h
    simp only at h
    rw [← ok (cleanLower_ok hs (.inl hP.1)) h]
    have : s.map toLowerC = s.map small := List.map_congr_left fun c _ => by
      rw [toLowerC_spec]; rfl
    rw [this]
    exact .lower hc
  | wipeup =>
    rw [hc] at h
    simp only at h
    obtain ⟨o, h1, h2, _⟩ := C04_wipeup_is_the_documented_reduction g.removeTrailing s hs
    rw [← ok h1 h]
    rw [hg2] at h2
    exact .wipeup o hc h2
  | uncgi =>
    rw [hc] at h
    simp only at h
    obtain ⟨o, h1, h2⟩ := cleanUncgi_decodes (P := P) (s := s) (.inl hP.1)
    rw [← ok h2 h]
    exact .uncgi o hc h1
  | maxLength =>
    rw [hc] at h
    simp only at h
    obtain ⟨a1, a2, a3, a4, _⟩ := C06_max_length_exact P g.maxLength (if f.maxLength = 0 then 256 else f.maxLength) s (by rw [hg3]) (.inl hP.2)
    refine .maxLength out hc ?_
    by_cases hl : s.length ≤ (if f.maxLength = 0 then 256 else f.maxLength)
    · rw [← ok (a1 hl) h]
      exact .fits hl
    · have hl' := Nat.lt_of_not_le hl
      rcases extension_or_not s (by rintro rfl; simp at hl') with ⟨hn, _⟩ | ⟨_, e, he, _⟩
      · rw [← ok (a2 hl' hn) h]
        exact .plain hl' hn
      · by_cases hx : (if f.maxLength = 0 then 256 else f.maxLength) ≤ s.length - e
        · rw [← ok (a3 e hl' he hx) h]
          exact .hopeless e hl' he hx
        · obtain ⟨body, b1, b2, b3⟩ := a4 e hl' he (Nat.lt_of_not_le hx)
          rw [← ok b1 h]
          exact .cut e body hl' he (Nat.lt_of_not_le hx) b2 b3

/-- Filters that run do what was written. -/
theorem filters_say {P : Platform} (hP : P.Benign) {locale : Bytes} {datadir : Option Bytes} {files : Bytes → Option Bytes} {fs gs : List Filter}
    {reads : List (Bytes × Option Bytes)} (hl : TablesFor locale datadir fs reads gs) (hr : ReadsFrom files reads)
    (ht : ∀ f ∈ fs, ∀ n, UsualTable f.cleaner n → ∃ m, TableSays locale datadir files f m) {s out : Bytes} (hs : NulFree s)
    (h : runFilters P gs (some s) = .ok (some out)) : FiltersSay P locale datadir files fs s out := by
  induction hl generalizing s with
  | nil =>
    cases Option.some.inj (Res.ok.inj h)
    exact .nil _
  | cons f r rs t fs gs hf hfs ih =>
    rw [runFilters] at h
    obtain ⟨mid, h1, h2⟩ : ∃ mid, filterRun P { f with table := t.or f.table } (some s) = .ok mid ∧ runFilters P gs mid = .ok (some out) := by
      cases hx : filterRun P { f with table := t.or f.table } (some s) with
      | ok mid =>
        rw [hx] at h
        exact ⟨mid, rfl, h⟩
      | exit n => rw [hx] at h; cases h
      | ub u => rw [hx] at h; cases h
      | stuck => rw [hx] at h; cases h
    cases mid with
    | none =>
      cases gs with
      | nil => cases Res.ok.inj h2
      | cons g gs => cases Res.ok.inj h2
    | some mid =>
      have hr1 : ReadsFrom files r := fun x hx => hr x (by simp [hx])
      have hr2 : ReadsFrom files rs := fun x hx => hr x (by simp [hx])
      have hsay : FilterSays P locale datadir files f s mid := by
        refine filter_says hP (g := { f with table := t.or f.table }) hs ⟨rfl, rfl, rfl⟩ (fun n hu => ?_) h1
        obtain ⟨m, hm⟩ := ht f (by simp) n hu
        obtain ⟨t', rfl, hh⟩ := tableFor_holds hf hr1 hm hu
        exact ⟨m, t', hm, rfl, hh⟩
      exact .cons f fs s mid out hsay (ih hr2 (fun g hg => ht g (by simp [hg])) (filterRun_nulFree h1 hs) h2)

/-! ### There is only one thing it can say -/

theorem builtinSays_unique {b : Bytes} {m m' : TableText} (h : BuiltinSays b m) (h' : BuiltinSays b m') : m = m' := by
  have key : ∃ t, BuiltinNamed b t := by
    cases h with
    | iso8859_1 => exact ⟨_, .iso8859_1⟩
    | unicode => exact ⟨_, .unicode⟩
    | safe => exact ⟨_, .safe⟩
    | cp1252 => exact ⟨_, .cp1252⟩
  obtain ⟨t, ht⟩ := key
  have a := builtin_holds ht h
  have b := builtin_holds ht h'
  obtain ⟨r, d⟩ := m
  obtain ⟨r', d'⟩ := m'
  have e1 : r = r' := funext fun k => (a.rows k).symm.trans (b.rows k)
  have e2 : d = d' := a.dflt.symm.trans b.dflt
  rw [e1, e2]

theorem saysTable_unique {locale text : Bytes} {m m' : TableText} (h : SaysTable locale text m) (h' : SaysTable locale text m') : m = m' := by
  obtain ⟨t, ht⟩ := file_loads h
  have a := file_holds ht h
  have b := file_holds ht h'
  obtain ⟨r, d⟩ := m
  obtain ⟨r', d'⟩ := m'
  have e1 : r = r' := funext fun k => (a.rows k).symm.trans (b.rows k)
  have e2 : d = d' := a.dflt.symm.trans b.dflt
  rw [e1, e2]

theorem tableSays_unique {locale : Bytes} {datadir : Option Bytes} {files : Bytes → Option Bytes} {f : Filter} {m m' : TableText}
    (h : TableSays locale datadir files f m) (h' : TableSays locale datadir files f m') : m = m' := by
  cases h with
  | builtin b _ hb hs =>
    cases h' with
    | builtin b' _ hb' hs' =>
      rw [hb] at hb'
      cases hb'
      exact builtinSays_unique hs hs'
    | filename _ _ _ hb' => rw [hb] at hb'; cases hb'
    | found _ _ _ _ _ _ _ hb' => rw [hb] at hb'; cases hb'
    | fallback _ _ _ hb' => rw [hb] at hb'; cases hb'
  | filename path text _ hb hf ht hs =>
    cases h' with
    | builtin b' _ hb' hs' => rw [hb] at hb'; cases hb'
    | filename path' text' _ _ hf' ht' hs' =>
      rw [hf] at hf'
      cases hf'
      rw [ht] at ht'
      cases ht'
      exact saysTable_unique hs hs'
    | found _ _ _ _ _ _ _ _ hf' => rw [hf] at hf'; cases hf'
    | fallback _ _ _ _ hf' => rw [hf] at hf'; cases hf'
  | found n path text before after _ hu hb hf hp hm ht hs =>
    cases h' with
    | builtin b' _ hb' hs' => rw [hb] at hb'; cases hb'
    | filename _ _ _ _ hf' => rw [hf] at hf'; cases hf'
    | found n' path' text' before' after' _ hu' _ _ hp' hm' ht' hs' =>
      cases hu.unique hu'
      rw [hp] at hp'
      have : path = path' := by
        rcases List.append_eq_append_iff.1 hp' with ⟨as, ha, hb'⟩ | ⟨bs, ha, hb'⟩
        · cases as with
          | nil => exact (List.cons.inj hb').1
          | cons a as =>
            have := hm' path (by rw [ha, (List.cons.inj hb').1]; simp)
            rw [ht] at this
            cases this
        · cases bs with
          | nil => exact (List.cons.inj hb').1.symm
          | cons b bs =>
            have := hm path' (by rw [ha, (List.cons.inj hb').1]; simp)
            rw [ht'] at this
            cases this
      subst this
      rw [ht] at ht'
      cases ht'
      exact saysTable_unique hs hs'
    | fallback n' _ hu' _ _ hm' hs' =>
      cases hu.unique hu'
      have := hm' path (by rw [hp]; simp)
      rw [ht] at this
      cases this
  | fallback n _ hu hb hf hm hs =>
    cases h' with
    | builtin b' _ hb' hs' => rw [hb] at hb'; cases hb'
    | filename _ _ _ _ hf' => rw [hf] at hf'; cases hf'
    | found n' path' text' before' after' _ hu' _ _ hp' hm' ht' hs' =>
      cases hu.unique hu'
      have := hm path' (by rw [hp']; simp)
      rw [ht'] at this
      cases this
    | fallback n' _ hu' _ _ hm' hs' =>
      cases hu.unique hu'
      exact builtinSays_unique hs hs'

/-- A whole character is not one that is broken off. -/
theorem unit_not_broken {u : Bytes} {v : Nat} {b rest rest' : Bytes} (hu : IsUnit u v) (hb : BrokenOff b rest') (he : u ++ rest = b ++ rest') :
    False := by
  obtain ⟨c, conts, w, base, rfl, hl, hw, hc, _⟩ := hu
  cases hb with
  | stray c' _ hl' =>
    cases (List.cons.inj he).1
    rw [hl] at hl'
    cases hl'
  | short c' conts' _ w' base' hl' hw' hc' hr =>
    obtain ⟨rfl, he2⟩ := List.cons.inj he
    rw [hl] at hl'
    cases hl'
    rcases List.append_eq_append_iff.1 (show conts ++ rest = conts' ++ rest' from he2) with ⟨as, ha, hb⟩ | ⟨bs, ha, hb⟩
    · rw [ha] at hw'
      simp at hw'
      omega
    · cases bs with
      | nil =>
        rw [List.append_nil] at ha
        rw [ha] at hw
        omega
      | cons x bs =>
        have h1 := hr x (by rw [hb]; rfl)
        have h2 := hc x (by rw [ha]; simp)
        rw [h1] at h2
        cases h2

theorem broken_inj {b b' rest rest' : Bytes} (hb : BrokenOff b rest) (hb' : BrokenOff b' rest') (he : b ++ rest = b' ++ rest') :
    b = b' ∧ rest = rest' := by
  cases hb with
  | stray c _ hl =>
    cases hb' with
    | stray c' _ hl' =>
      obtain ⟨rfl, h⟩ := List.cons.inj he
      exact ⟨rfl, h⟩
    | short c' conts _ w base hl' =>
      cases (List.cons.inj he).1
      rw [hl] at hl'
      cases hl'
  | short c conts _ w base hl hw hc hr =>
    cases hb' with
    | stray c' _ hl' =>
      cases (List.cons.inj he).1
      rw [hl] at hl'
      cases hl'
    | short c' conts' _ w' base' hl' hw' hc' hr' =>
      obtain ⟨rfl, he2⟩ := List.cons.inj he
      rcases List.append_eq_append_iff.1 (show conts ++ rest = conts' ++ rest' from he2) with ⟨as, ha, hb⟩ | ⟨bs, ha, hb⟩
      · cases as with
        | nil =>
          rw [List.append_nil] at ha
          exact ⟨by rw [ha], hb⟩
        | cons x as =>
          have h1 := hr x (by rw [hb]; rfl)
          have h2 := hc' x (by rw [ha]; simp)
          rw [h1] at h2
          cases h2
      · cases bs with
        | nil =>
          rw [List.append_nil] at ha
          exact ⟨by rw [ha], hb.symm⟩
        | cons x bs =>
          have h1 := hr' x (by rw [hb]; rfl)
          have h2 := hc x (by rw [ha]; simp)
          rw [h1] at h2
          cases h2

theorem brokenOff_ne_nil {b rest : Bytes} (h : BrokenOff b rest) : b ≠ [] := by
  cases h <;> simp

theorem reads_unique {m : TableText} {s out out' : Bytes} (h : UnicodeReads m s out) (h' : UnicodeReads m s out') : out = out' := by
  induction h generalizing out' with
  | nil =>
    generalize hs : ([] : Bytes) = s at h'
    cases h' with
    | nil => rfl
    | char u v rest o hu _ =>
      have := hu.ne_nil
      simp at hs
      exact absurd hs.1 this
    | broken u rest o hb _ =>
      have := brokenOff_ne_nil hb
      simp at hs
      exact absurd hs.1 this
  | char u v rest o hu _ ih =>
    generalize hs : u ++ rest = s at h'
    cases h' with
    | nil =>
      have := hu.ne_nil
      simp at hs
      exact absurd hs.1 this
    | char u' v' rest' o' hu' h' =>
      obtain ⟨rfl, rfl, rfl⟩ := hu.append_inj hu' hs
      rw [ih h']
    | broken u' rest' o' hb _ => exact (unit_not_broken hu hb hs).elim
  | broken u rest o hb _ ih =>
    generalize hs : u ++ rest = s at h'
    cases h' with
    | nil =>
      have := brokenOff_ne_nil hb
      simp at hs
      exact absurd hs.1 this
    | char u' v' rest' o' hu' h' => exact (unit_not_broken hu' hb hs.symm).elim
    | broken u' rest' o' hb' h' =>
      obtain ⟨rfl, rfl⟩ := broken_inj hb hb' hs
      rw [ih h']

theorem shortens_unique {n : Nat} {s a b : Bytes} (h : Shortens n s a) (h' : Shortens n s b) : a = b := by
  have ext : ∀ e e', n < s.length → ExtensionAt s e → ExtensionAt s e' → e = e' := by
    intro e e' hl he he'
    rcases extension_or_not s (by rintro rfl; simp at hl) with ⟨_, h⟩ | ⟨_, e0, _, h⟩
    · exact absurd he (h e)
    · rw [h e he, h e' he']
  have no : ∀ e, n < s.length → NoExtension s → ¬ ExtensionAt s e := by
    intro e hl hn
    rcases extension_or_not s (by rintro rfl; simp at hl) with ⟨_, h⟩ | ⟨h, _⟩
    · exact h e
    · exact absurd hn h
  cases h with
  | fits hl =>
    cases h' with
    | fits => rfl
    | plain hl' => omega
    | hopeless => rfl
    | cut _ _ hl' => omega
  | plain hl hn =>
    cases h' with
    | fits hl' => omega
    | plain => rfl
    | hopeless e _ he => exact absurd he (no e hl hn)
    | cut e _ _ he => exact absurd he (no e hl hn)
  | hopeless e hl he hx =>
    cases h' with
    | fits => rfl
    | plain _ hn => exact absurd he (no e hl hn)
    | hopeless => rfl
    | cut e' _ _ he' hx' =>
      have := ext e e' hl he he'
      subst this
      omega
  | cut e body hl he hx hb hlen =>
    cases h' with
    | fits hl' => omega
    | plain _ hn => exact absurd he (no e hl hn)
    | hopeless e' _ he' hx' =>
      have := ext e e' hl he he'
      subst this
      omega
    | cut e' body' _ he' hx' hb' hlen' =>
      have := ext e e' hl he he'
      subst this
      have hlb : body.length = body'.length := by
        simp at hlen hlen'
        omega
      obtain ⟨r, hr⟩ := hb
      obtain ⟨r', hr'⟩ := hb'
      rw [(List.append_inj (hr.trans hr'.symm) hlb).1]

theorem filterSays_unique {P : Platform} {locale : Bytes} {datadir : Option Bytes} {files : Bytes → Option Bytes} {f : Filter} {s a b : Bytes}
    (h : FilterSays P locale datadir files f s a) (h' : FilterSays P locale datadir files f s b) : a = b := by
  cases h with
  | lower hc =>
    cases h' with
    | lower hc' => rfl
    | wipeup o' hc' hx' => rw [hc] at hc'; cases hc'
    | uncgi o' hc' hx' => rw [hc] at hc'; cases hc'
    | maxLength o' hc' hx' => rw [hc] at hc'; cases hc'
    | iso8859_1 m' hc' hm' => rw [hc] at hc'; cases hc'
    | safe m' hc' hm' => rw [hc] at hc'; cases hc'
    | utf8 m' o' hc' hm' hx' => rw [hc] at hc'; cases hc'
  | wipeup o hc hx =>
    cases h' with
    | lower hc' => rw [hc] at hc'; cases hc'
    | wipeup o' hc' hx' => exact Reduces.unique hx hx'
    | uncgi o' hc' hx' => rw [hc] at hc'; cases hc'
    | maxLength o' hc' hx' => rw [hc] at hc'; cases hc'
    | iso8859_1 m' hc' hm' => rw [hc] at hc'; cases hc'
    | safe m' hc' hm' => rw [hc] at hc'; cases hc'
    | utf8 m' o' hc' hm' hx' => rw [hc] at hc'; cases hc'
  | uncgi o hc hx =>
    cases h' with
    | lower hc' => rw [hc] at hc'; cases hc'
    | wipeup o' hc' hx' => rw [hc] at hc'; cases hc'
    | uncgi o' hc' hx' => rw [Decodes.unique hx hx']
    | maxLength o' hc' hx' => rw [hc] at hc'; cases hc'
    | iso8859_1 m' hc' hm' => rw [hc] at hc'; cases hc'
    | safe m' hc' hm' => rw [hc] at hc'; cases hc'
    | utf8 m' o' hc' hm' hx' => rw [hc] at hc'; cases hc'
  | maxLength o hc hx =>
    cases h' with
    | lower hc' => rw [hc] at hc'; cases hc'
    | wipeup o' hc' hx' => rw [hc] at hc'; cases hc'
    | uncgi o' hc' hx' => rw [hc] at hc'; cases hc'
    | maxLength o' hc' hx' => exact shortens_unique hx hx'
    | iso8859_1 m' hc' hm' => rw [hc] at hc'; cases hc'
    | safe m' hc' hm' => rw [hc] at hc'; cases hc'
    | utf8 m' o' hc' hm' hx' => rw [hc] at hc'; cases hc'
  | iso8859_1 m hc hm =>
    cases h' with
    | lower hc' => rw [hc] at hc'; cases hc'
    | wipeup o' hc' hx' => rw [hc] at hc'; cases hc'
    | uncgi o' hc' hx' => rw [hc] at hc'; cases hc'
    | maxLength o' hc' hx' => rw [hc] at hc'; cases hc'
    | iso8859_1 m' hc' hm' => rw [tableSays_unique hm hm']
    | safe m' hc' hm' => rw [hc] at hc'; cases hc'
    | utf8 m' o' hc' hm' hx' => rw [hc] at hc'; cases hc'
  | safe m hc hm =>
    cases h' with
    | lower hc' => rw [hc] at hc'; cases hc'
    | wipeup o' hc' hx' => rw [hc] at hc'; cases hc'
    | uncgi o' hc' hx' => rw [hc] at hc'; cases hc'
    | maxLength o' hc' hx' => rw [hc] at hc'; cases hc'
    | iso8859_1 m' hc' hm' => rw [hc] at hc'; cases hc'
    | safe m' hc' hm' => rw [tableSays_unique hm hm']
    | utf8 m' o' hc' hm' hx' => rw [hc] at hc'; cases hc'
  | utf8 m o hc hm hx =>
    cases h' with
    | lower hc' => rw [hc] at hc'; cases hc'
    | wipeup o' hc' hx' => rw [hc] at hc'; cases hc'
    | uncgi o' hc' hx' => rw [hc] at hc'; cases hc'
    | maxLength o' hc' hx' => rw [hc] at hc'; cases hc'
    | iso8859_1 m' hc' hm' => rw [hc] at hc'; cases hc'
    | safe m' hc' hm' => rw [hc] at hc'; cases hc'
    | utf8 m' o' hc' hm' hx' => 
      cases tableSays_unique hm hm'
      exact reads_unique hx hx'

theorem filtersSay_unique {P : Platform} {locale : Bytes} {datadir : Option Bytes} {files : Bytes → Option Bytes} {fs : List Filter} {s a b : Bytes}
    (h : FiltersSay P locale datadir files fs s a) (h' : FiltersSay P locale datadir files fs s b) : a = b := by
  induction h generalizing b with
  | nil => cases h'; rfl
  | cons f fs s mid out h1 _ ih =>
    cases h' with
    | cons _ _ _ mid' _ h1' h2' =>
      cases filterSays_unique h1 h1'
      exact ih h2'

/-! ### Which configuration -/

theorem firstOf_present {files : Bytes → Option Bytes} {ps : List Bytes} {reads : List (Bytes × Option Bytes)} {ex : List (Bytes × Bytes)}
    (h : FirstOf ps reads ex) (hr : ReadsFrom files reads) : (present files ps).take 1 = ex := by
  induction h with
  | nothing => rfl
  | found p ps text =>
    have : some text = files p := hr (p, some text) (by simp)
    unfold present
    rw [List.filterMap_cons, ← this]
    rfl
  | missing p ps reads r _ ih =>
    have : none = files p := hr (p, none) (by simp)
    unfold present at ih ⊢
    rw [List.filterMap_cons, ← this]
    exact ih fun x hx => hr x (by simp [hx])

theorem allOf_present {files : Bytes → Option Bytes} {ps : List Bytes} {reads : List (Bytes × Option Bytes)} {ex : List (Bytes × Bytes)}
    (h : AllOf ps reads ex) (hr : ReadsFrom files reads) : present files ps = ex := by
  induction h with
  | nothing => rfl
  | found p ps text reads r _ ih =>
    have : some text = files p := hr (p, some text) (by simp)
    have ih := ih fun x hx => hr x (by simp [hx])
    unfold present at ih ⊢
    rw [List.filterMap_cons, ← this]
    simp [ih]
  | missing p ps reads r _ ih =>
    have : none = files p := hr (p, none) (by simp)
    unfold present at ih ⊢
    rw [List.filterMap_cons, ← this]
    exact ih fun x hx => hr x (by simp [hx])

/-- What is loaded is what the files in effect say. -/
theorem config_loaded {E : ConfigEnv} {given : Option Bytes} {tr : List Event} {c : ConfigFile} (h : Trace (configFileLoad E given) tr (.ret c))
    {files : Bytes → Option Bytes} (hr : ReadsFrom files (filesRead tr)) {conf : List (Bytes × Bytes × List Rule)} (hne : conf ≠ [])
    (hconf : (conf.map fun f => (f.1, f.2.1)) = configsInEffect E given files) (hm : ∀ f ∈ conf, Means f.2.1 f.2.2) :
    c.sequences = inEffect (conf.flatMap fun f => definitions f.1 f.2.2) ∧
      ∃ l, c.filesToIgnore = some l ∧ l.Holds (conf.flatMap fun f => ignored f.2.2) 0 := by
  obtain ⟨c', l, h1, h2, h3, h4⟩ := C43_later_files_replace_by_name hne hm
  rw [hconf] at h1
  have : c' = c := by
    cases given with
    | some f =>
      obtain ⟨text, h5, h6⟩ := C44_option_f_result h
      have hx : some text = files f := hr (f, some text) (by rw [h5]; simp)
      have : configsInEffect E (some f) files = [(f, text)] := by
        unfold configsInEffect present
        simp [← hx]
      rw [this] at h1
      have h1' : Merged none [(f, text)] (some c) := .more _ _ _ c _ _ h6 (.nothing _)
      exact Option.some.inj (h1.unique h1')
    | none =>
      obtain ⟨sys, user, ex1, ex2, h5, h6, h7, h8⟩ := C44_without_option_f h
      rw [h5] at hr
      have : configsInEffect E none files = ex1 ++ ex2 := by
        unfold configsInEffect
        simp only
        rw [firstOf_present h6 (fun x hx => hr x (by simp [hx])), allOf_present h7 (fun x hx => hr x (by simp [hx]))]
      rw [this] at h1 hconf
      rcases h8 with ⟨_, h8⟩ | ⟨h8, _⟩
      · exact Option.some.inj (h1.unique h8)
      · rw [h8] at hconf
        exact absurd (List.map_eq_nil_iff.1 hconf) hne
  subst this
  exact ⟨h2, l, h3, h4⟩

end Detox
