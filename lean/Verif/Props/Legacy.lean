import Verif.Lemmas.LegacyFiles
import Verif.Props.Chain
import Verif.Lemmas.CheckDump
import Verif.Props.Settled

/-!
# C114: the legacy tables
-/

set_option autoImplicit false

namespace Detox
open Spec

attribute [local irreducible] legacy_cp1252 legacy_iso8859_1 legacy_unicode legacy_unidecode legacy_cp1252_body legacy_iso8859_1_body legacy_unicode_body
  legacy_unidecode_body legacy_iso8859_1_7 legacy_unicode_13

theorem plain_body {ps : List (List (Nat × Nat))} (h : (ps.all partOK) = true) {k : Nat} {d : Bytes} (hd : (k, d) ∈ bodyRows ps) : Printable d :=
  (partsOK h).2 _ hd

theorem plain_german {ps ps' : List (List (Nat × Nat))} (h : (ps.all partOK) = true) (h' : (ps'.all partOK) = true) (b : Prop) [Decidable b] {k : Nat} {d : Bytes}
    (hd : lastOf (bodyRows ps ++ if b then bodyRows ps' else []) k = some d) : Printable d := by
  have := lastOf_mem hd
  rw [List.mem_append] at this
  rcases this with h1 | h1
  · exact plain_body h h1
  · split at h1
    · exact plain_body h' h1
    · cases h1

theorem german_row {ps ps' : List (List (Nat × Nat))} (b : Prop) [Decidable b] (k : Nat) :
    lastOf (bodyRows ps ++ if b then bodyRows ps' else []) k = if b then (lastOf (bodyRows ps') k).or (lastOf (bodyRows ps) k) else lastOf (bodyRows ps) k := by
  split
  · rw [lastOf_append]
    cases lastOf (bodyRows ps') k <;> rfl
  · rw [List.append_nil]

/-! ## The files -/

/-- **C114.** legacy/cp1252.tbl says, under every locale, what to put in for some bytes, printable ASCII all of it, and has no default. -/
theorem C114_cp1252_file (locale : Bytes) : ∃ m, SaysTable locale legacy_cp1252 m ∧ m.Plain ∧ m.dflt = none ∧ m.row 0x80 = some (lit "EUR") := by
  refine ⟨_, says_cp1252 locale, fun k d hd => plain_body cp1252_body (lastOf_mem hd), rfl, ?_⟩
  refine (bodyRows_row cp1252_upwards (k := 0x80) (d := [69, 85, 82]) (p := legacy_cp1252_2) ?_ (by decide +kernel)).trans (by decide +kernel)
  unfold legacy_cp1252_body
  exact List.mem_singleton.2 rfl

/-- **C114.** legacy/iso8859_1.tbl: printable ASCII for all that it has, and `_` for the rest; ä is `ae` for Germans and `a` for others. -/
theorem C114_iso_file (locale : Bytes) : ∃ m, SaysTable locale legacy_iso8859_1 m ∧ m.Plain ∧ m.dflt = some (lit "_") ∧
    m.row 0xE4 = some (if LangMatches (lit "de") locale then lit "ae" else lit "a") := by
  refine ⟨_, says_iso locale, fun k d hd => plain_german iso_body iso_german _ hd, rfl, ?_⟩
  show lastOf _ 0xE4 = _
  have h1 : lastOf (bodyRows legacy_iso8859_1_body) 0xE4 = some (lit "a") := by
    refine (bodyRows_row iso_upwards (k := 0xE4) (d := [97]) (p := legacy_iso8859_1_2) ?_ (by decide +kernel)).trans (by decide +kernel)
    unfold legacy_iso8859_1_body
    simp
  have h2 : lastOf (bodyRows [legacy_iso8859_1_7]) 0xE4 = some (lit "ae") := by decide +kernel
  rw [german_row, h1, h2]
  split <;> rfl

/-- **C114.** legacy/unicode.tbl likewise; and each printable ASCII character stands for itself. -/
theorem C114_unicode_file (locale : Bytes) : ∃ m, SaysTable locale legacy_unicode m ∧ m.Plain ∧ m.dflt = some (lit "_") ∧
    (∀ c : Byte, 0x20 ≤ c.toNat → c.toNat ≤ 0x7E → m.row c.toNat = some [c]) ∧
    m.row 0xC4 = some (if LangMatches (lit "de") locale then lit "Ae" else lit "A") := by
  have hg : ∀ k, lastOf (bodyRows [legacy_unicode_13]) k = none ∨ 0xC4 ≤ k := by
    intro k
    by_cases h : 0xC4 ≤ k
    · exact .inr h
    · refine .inl (lastOf_eq_none fun r hr => ?_)
      have : ∀ r ∈ bodyRows [legacy_unicode_13], 0xC4 ≤ r.1 := by decide +kernel
      have := this r hr
      omega
  refine ⟨_, says_unicode locale, fun k d hd => plain_german unicode_body unicode_german _ hd, rfl, ?_, ?_⟩
  · intro c h1 h2
    show lastOf _ c.toNat = _
    rw [german_row, bodyRows_self unicode_upwards unicode_self h1 h2]
    rcases hg c.toNat with h | h
    · rw [h]; split <;> rfl
    · omega
  · show lastOf _ 0xC4 = _
    have h1 : lastOf (bodyRows legacy_unicode_body) 0xC4 = some (lit "A") := by
      refine (bodyRows_row unicode_upwards (k := 0xC4) (d := [65]) (p := legacy_unicode_3) ?_ (by decide +kernel)).trans (by decide +kernel)
      unfold legacy_unicode_body
      simp
    have h2 : lastOf (bodyRows [legacy_unicode_13]) 0xC4 = some (lit "Ae") := by decide +kernel
    rw [german_row, h1, h2]
    split <;> rfl

/-- **C114.** legacy/unidecode.tbl likewise. It has `1/2` for ½; and for U+1FEE nothing at all, as the quotes in that line end where they begin. -/
theorem C114_unidecode_file (locale : Bytes) : ∃ m, SaysTable locale legacy_unidecode m ∧ m.Plain ∧ m.dflt = some (lit "_") ∧
    (∀ c : Byte, 0x20 ≤ c.toNat → c.toNat ≤ 0x7E → m.row c.toNat = some [c]) ∧ m.row 0xBD = some (lit "1/2") ∧ m.row 0x1FEE = some [] := by
  refine ⟨_, says_unidecode locale, fun k d hd => plain_body unidecode_body (lastOf_mem hd), rfl,
    fun c h1 h2 => bodyRows_self unidecode_upwards unidecode_self h1 h2, ?_, ?_⟩
  · refine (bodyRows_row unidecode_upwards (k := 0xBD) (d := [49, 47, 50]) (p := legacy_unidecode_3) ?_ (by decide +kernel)).trans (by decide +kernel)
    unfold legacy_unidecode_body
    simp
  · refine (bodyRows_row unidecode_upwards (k := 0x1FEE) (d := []) (p := legacy_unidecode_54) ?_ (by decide +kernel)).trans rfl
    unfold legacy_unidecode_body
    simp

def slashN (r : Nat × List Nat) : Bool := r.2.all (fun c => ! Nat.beq (c % 256) 47) || Nat.beq r.1 47

theorem slash_body {ps : List (List (Nat × Nat))} (h : (ps.all fun p => (partRows p).all slashN) = true) {k : Nat} {d : Bytes} (hd : (k, d) ∈ bodyRows ps)
    (hs : 0x2F ∈ d) : k = 0x2F := by
  obtain ⟨r, hr, e⟩ := List.mem_map.1 hd
  obtain ⟨l, hl, hr⟩ := List.mem_flatten.1 hr
  obtain ⟨p, hp, rfl⟩ := List.mem_map.1 hl
  have := List.all_eq_true.1 (List.all_eq_true.1 h p hp) r hr
  cases e
  unfold slashN at this
  rw [Bool.or_eq_true] at this
  rcases this with h | h
  · exfalso
    obtain ⟨x, hx, e⟩ := List.mem_map.1 hs
    have := List.all_eq_true.1 h x hx
    have e' : x % 256 = 47 := by
      have := congrArg UInt8.toNat e
      simpa using this
    rw [e'] at this
    exact absurd this (by decide)
  · exact Nat.eq_of_beq_eq_true h

/-- **C114.** The other three have a slash for nothing but a slash. -/
theorem C114_no_slash (locale text : Bytes) (ht : text = legacy_cp1252 ∨ text = legacy_iso8859_1 ∨ text = legacy_unicode) {m : TableText}
    (hm : SaysTable locale text m) {k : Nat} {d : Bytes} (hd : m.row k = some d) (hs : 0x2F ∈ d) : k = 0x2F := by
  rcases ht with rfl | rfl | rfl
  · rw [saysTable_unique hm (says_cp1252 locale)] at hd
    exact slash_body (by decide +kernel) (lastOf_mem hd) hs
  · rw [saysTable_unique hm (says_iso locale)] at hd
    have := lastOf_mem hd
    rw [List.mem_append] at this
    rcases this with h | h
    · exact slash_body (by decide +kernel) h hs
    · split at h
      · exact slash_body (by decide +kernel) h hs
      · cases h
  · rw [saysTable_unique hm (says_unicode locale)] at hd
    have := lastOf_mem hd
    rw [List.mem_append] at this
    rcases this with h | h
    · exact slash_body (by decide +kernel) h hs
    · split at h
      · exact slash_body (by decide +kernel) h hs
      · cases h

section
variable {P : Platform} {locale : Bytes} {datadir : Option Bytes} {files : Bytes → Option Bytes}

theorem Spec.UsesFile.says {f : Filter} {c : Cleaner} {text : Bytes} {m : TableText} (h : UsesFile files f c text) (hm : SaysTable locale text m) :
    TableSays locale datadir files f m := by
  obtain ⟨path, h1, h2⟩ := h.filename
  exact .filename path text m h.builtin h1 h2 hm

theorem Spec.UsesFile.same {f : Filter} {c : Cleaner} {text : Bytes} {m m' : TableText} (h : UsesFile files f c text) (hm : SaysTable locale text m)
    (h' : TableSays locale datadir files f m') : m' = m := tableSays_unique h' (h.says hm)

/-! ## What they make of names -/

theorem underscore_printable : Printable (lit "_") := by unfold Printable; decide +kernel

theorem iso_printable {m : TableText} (hm : m.Plain) (hd : m.dflt = some (lit "_")) (c : Byte) : ∀ x ∈ isoSays m c, x.toNat < 128 := by
  intro x hx
  unfold isoSays at hx
  split at hx
  · next h =>
    rw [List.mem_singleton.1 hx]; exact h
  · unfold TableText.says at hx
    split at hx
    · next d hr =>
      have := hm _ d hr x hx
      omega
    · rw [hd] at hx
      have := underscore_printable x hx
      omega

/-- **C114.** With legacy/iso8859_1.tbl the `iso8859_1` filter makes ASCII of every name. -/
theorem C114_iso_makes_ascii {f : Filter} (hf : UsesFile files f .iso8859_1 legacy_iso8859_1) {s out : Bytes}
    (h : FilterSays P locale datadir files f s out) : ∀ c ∈ out, c.toNat < 128 := by
  obtain ⟨m, h1, h2, h3, _⟩ := C114_iso_file locale
  have hc := hf.cleaner
  cases h with
  | iso8859_1 m' _ hm' =>
    rw [hf.same h1 hm']
    intro c hx
    obtain ⟨b, _, hx⟩ := List.mem_flatMap.1 hx
    exact iso_printable h2 h3 b c hx
  | _ => simp_all

/-- **C114.** legacy/cp1252.tbl in front of it, as its comment recommends: the two work as one table, and the name is ASCII again. -/
theorem C114_prefilter {f g : Filter} (hf : UsesFile files f .iso8859_1 legacy_cp1252) (hg : UsesFile files g .iso8859_1 legacy_iso8859_1) :
    ∃ m m', SaysTable locale legacy_cp1252 m ∧ SaysTable locale legacy_iso8859_1 m' ∧ ∀ s out : Bytes, (0 : Byte) ∉ s →
      FiltersSay P locale datadir files [f, g] s out → out = s.flatMap (isoSays (merged [m, m'])) ∧ ∀ c ∈ out, c.toNat < 128 := by
  obtain ⟨m, h1, h2, h3, _⟩ := C114_cp1252_file locale
  obtain ⟨m', h1', h2', h3', _⟩ := C114_iso_file locale
  refine ⟨m, m', h1, h1', fun s out hs h => ?_⟩
  have key := C113_iso_tables (P := P) (datadir := datadir) (.cons f [g] m [m'] hf.cleaner (hf.says h1) (.cons g [] m' [] hg.cleaner (hg.says h1') .nil))
    (by intro x hx; rw [show [m, m'].dropLast = [m] from rfl, List.mem_singleton] at hx; rw [hx]; exact h3)
    (by
      rw [List.pairwise_cons]
      refine ⟨fun x hx c _ d hd => ?_, List.pairwise_singleton _ _⟩
      have hp := h2 _ d hd
      clear hd
      induction d with
      | nil => rfl
      | cons y d ih =>
        rw [List.flatMap_cons, ih fun z hz => hp z (by simp [hz])]
        have := hp y (by simp)
        unfold isoSays
        rw [if_pos (by omega)]
        rfl) hs (out := out)
  have e := key.1 h
  refine ⟨e, fun c hc => ?_⟩
  rw [e] at hc
  obtain ⟨b, _, hx⟩ := List.mem_flatMap.1 hc
  refine iso_printable (m := merged [m, m']) ?_ h3' b c hx
  intro k d hd
  have hd' : (m.row k).or (m'.row k) = some d := hd
  cases hr : m.row k with
  | some d' =>
    rw [hr] at hd'
    cases hd'
    exact h2 k _ hr
  | none =>
    rw [hr] at hd'
    exact h2' k d hd'

/-- A `utf_8` filter with one of the two big tables. -/
theorem utf8_legacy {f : Filter} {text : Bytes} (hf : UsesFile files f .utf8 text) (ht : text = legacy_unicode ∨ text = legacy_unidecode) {s out : Bytes}
    (h : FilterSays P locale datadir files f s out) : ∃ m, UnicodeReads m s out ∧ m.Plain ∧ m.dflt = some (lit "_") ∧
      ∀ c : Byte, 0x20 ≤ c.toNat → c.toNat ≤ 0x7E → m.row c.toNat = some [c] := by
  have hc := hf.cleaner
  have : ∃ m, SaysTable locale text m ∧ m.Plain ∧ m.dflt = some (lit "_") ∧
      ∀ c : Byte, 0x20 ≤ c.toNat → c.toNat ≤ 0x7E → m.row c.toNat = some [c] := by
    rcases ht with rfl | rfl
    · obtain ⟨m, h1, h2, h3, h4, _⟩ := C114_unicode_file locale
      exact ⟨m, h1, h2, h3, h4⟩
    · obtain ⟨m, h1, h2, h3, h4, _⟩ := C114_unidecode_file locale
      exact ⟨m, h1, h2, h3, h4⟩
  obtain ⟨m, h1, h2, h3, h4⟩ := this
  cases h with
  | utf8 m' _ _ hm' hr =>
    rw [hf.same h1 hm'] at hr
    exact ⟨m, hr, h2, h3, h4⟩
  | _ => simp_all

/-- **C114.** With legacy/unicode.tbl or legacy/unidecode.tbl the `utf_8` filter makes printable ASCII of every name, whatever bytes it has. -/
theorem C114_utf8_makes_printable {f : Filter} {text : Bytes} (hf : UsesFile files f .utf8 text) (ht : text = legacy_unicode ∨ text = legacy_unidecode)
    {s out : Bytes} (h : FilterSays P locale datadir files f s out) : Printable out := by
  obtain ⟨m, hr, h2, h3, _⟩ := utf8_legacy hf ht h
  clear h
  induction hr with
  | nil => intro c hc; cases hc
  | char u v rest out hu _ ih =>
    intro c hc
    rw [List.mem_append] at hc
    rcases hc with hc | hc
    · unfold unicodeSays at hc
      split at hc
      · next d hd => exact h2 v d hd c hc
      · split at hc
        · have : Printable (lit "_hidden_null_") := by unfold Printable; decide +kernel
          exact this c hc
        · split at hc
          · exact underscore_printable c hc
          · rw [h3] at hc
            exact underscore_printable c hc
    · exact ih c hc
  | broken u rest out _ _ ih =>
    intro c hc
    rw [List.mem_append] at hc
    rcases hc with hc | hc
    · exact underscore_printable c hc
    · exact ih c hc

/-- **C114.** And what is printable ASCII already it leaves alone. -/
theorem C114_utf8_keeps_printable {f : Filter} {text : Bytes} (hf : UsesFile files f .utf8 text) (ht : text = legacy_unicode ∨ text = legacy_unidecode)
    {s out : Bytes} (hs : Printable s) (h : FilterSays P locale datadir files f s out) : out = s := by
  obtain ⟨m, hr, _, _, h4⟩ := utf8_legacy hf ht h
  refine reads_unique hr ?_
  clear h hr
  induction s with
  | nil => exact .nil
  | cons c s ih =>
    have hc := hs c (by simp)
    have e : unicodeSays m c.toNat [c] = [c] := by
      unfold unicodeSays
      rw [h4 c hc.1 hc.2]
    have := UnicodeReads.char (m := m) [c] c.toNat s s (isUnit_ascii (by omega)) (ih fun x hx => hs x (by simp [hx]))
    rw [e] at this
    exact this

/-- **C114.** Followed by the compiled-in `safe` table and `wipeup`, every name becomes a tidy one of printable ASCII. -/
theorem C114_clean_names {f g w : Filter} {text : Bytes} (hf : UsesFile files f .utf8 text) (ht : text = legacy_unicode ∨ text = legacy_unidecode)
    (hg : g.cleaner = .safe) (hb : g.builtin = some (lit "safe")) (hw : w.cleaner = .wipeup) (hr : w.removeTrailing = true) {s out : Bytes}
    (h : FiltersSay P locale datadir files [f, g, w] s out) : Printable out ∧ Tidy out := by
  obtain ⟨m1, h1, h2⟩ := FiltersSay.split (fs := [f]) (gs := [g, w]) h
  obtain ⟨m2, h2, h3⟩ := FiltersSay.split (fs := [g]) (gs := [w]) h2
  have one : ∀ {x : Filter} {a b : Bytes}, FiltersSay P locale datadir files [x] a b → FilterSays P locale datadir files x a b := by
    intro x a b h
    cases h with
    | cons _ _ _ _ _ h h' => cases h'; exact h
  have p1 := C114_utf8_makes_printable hf ht (one h1)
  have e2 : m2 = m1.flatMap safeMap := by
    have h2 := one h2
    cases h2 with
    | safe m _ hm =>
      rw [tableSays_unique hm (.builtin _ _ hb .safe)]
      congr 1
      funext c
      rw [says_safe]
      unfold safeMap
      rw [lastRow_eq_lastOf]
      rfl
    | _ => simp_all
  have hn : NulFree m1 := by
    intro h0
    have := p1 0 h0
    simp at this
  have e3 : out = safeWipe m1 := by
    have h3 := one h3
    cases h3 with
    | wipeup _ _ hr' =>
      rw [hr, e2] at hr'
      unfold safeWipe
      exact Reduces.unique hr' (wipe_spec (rt := true) (nulFree_safe hn))
    | _ => simp_all
  have tidy := safeWipe_is_tidy hn
  rw [← e3] at tidy
  refine ⟨?_, tidy⟩
  have p2 : Printable m2 := by
    have hall : ∀ c : Byte, 0x20 ≤ c.toNat ∧ c.toNat ≤ 0x7E → ∀ x ∈ safeMap c, 0x20 ≤ x.toNat ∧ x.toNat ≤ 0x7E := forall_byte (by decide +kernel)
    intro c hc
    rw [e2] at hc
    obtain ⟨b, hb, hx⟩ := List.mem_flatMap.1 hc
    exact hall b (p1 b hb) c hx
  have key : ∀ {a b : Bytes}, Reduces true a b → Printable a → Printable b := by
    intro a b h
    induction h with
    | nil => exact fun h => h
    | keep c s o _ _ ih =>
      intro hp x hx
      rw [List.mem_cons] at hx
      rcases hx with rfl | hx
      · exact hp x (by simp)
      · exact ih (fun y hy => hp y (by simp [hy])) x hx
    | run r s o _ _ _ _ ih =>
      intro hp x hx
      rw [List.mem_cons] at hx
      rcases hx with rfl | hx
      · unfold runChar
        split
        · decide
        · split <;> decide
      · exact ih (fun y hy => hp y (by simp [hy])) x hx
  have h3 := one h3
  cases h3 with
  | wipeup _ _ hr' =>
    rw [hr] at hr'
    refine key hr' fun c hc => p2 c ?_
    exact (List.dropWhile_suffix _).subset hc
  | _ => simp_all

/-- **C114.** Without a `safe` filter behind it unidecode.tbl puts slashes into names: ½ becomes `1/2`. -/
theorem C114_slash {f : Filter} (hf : UsesFile files f .utf8 legacy_unidecode) :
    FilterSays P locale datadir files f [0xC2, 0xBD] (lit "1/2") := by
  obtain ⟨m, h1, _, _, _, h5, _⟩ := C114_unidecode_file locale
  have hr := UnicodeReads.char (m := m) [0xC2, 0xBD] 0xBD [] [] ⟨0xC2, [0xBD], 2, 0xC0, rfl, by decide +kernel, rfl, by decide +kernel, by decide +kernel⟩ .nil
  unfold unicodeSays at hr
  rw [h5] at hr
  exact .utf8 m _ hf.cleaner (hf.says h1) hr

/-- **C114.** And the name `῾` with a dieresis (U+1FEE) becomes empty. -/
theorem C114_vanishes {f : Filter} (hf : UsesFile files f .utf8 legacy_unidecode) :
    FilterSays P locale datadir files f [0xE1, 0xBF, 0xAE] [] := by
  obtain ⟨m, h1, _, _, _, _, h6⟩ := C114_unidecode_file locale
  have hr := UnicodeReads.char (m := m) [0xE1, 0xBF, 0xAE] 0x1FEE [] []
    ⟨0xE1, [0xBF, 0xAE], 3, 0xE0, rfl, by decide +kernel, rfl, by decide +kernel, by decide +kernel⟩ .nil
  unfold unicodeSays at hr
  rw [h6] at hr
  exact .utf8 m _ hf.cleaner (hf.says h1) hr

end

/-- A filter and files that meet the hypotheses. -/
example : UsesFile (fun p => if p = lit "/usr/share/detox/legacy/unidecode.tbl" then some legacy_unidecode else none)
    { cleaner := .utf8, filename := some (lit "/usr/share/detox/legacy/unidecode.tbl") } .utf8 legacy_unidecode :=
  ⟨rfl, rfl, _, rfl, if_pos rfl⟩

end Detox
