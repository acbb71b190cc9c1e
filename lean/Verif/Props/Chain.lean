import Verif.Lemmas.Chain
import Verif.Lemmas.Shipped
import Verif.Props.Denote

/-!
# C113: tables in a row
-/

set_option autoImplicit false

namespace Detox
open Spec

section
variable {P : Platform} {locale : Bytes} {datadir : Option Bytes} {files : Bytes → Option Bytes}

theorem safe_turns {fs : List Filter} {ms : List TableText} (h : InRow locale datadir files .safe fs ms) (s : Bytes) :
    FiltersSay P locale datadir files fs s (inTurn (fun _ => true) (safeCode P) ms s) := by
  induction h generalizing s with
  | nil => exact .nil s
  | cons f fs m ms hc hm _ ih =>
    refine .cons f fs s _ _ (.safe m hc hm) ?_
    exact ih _

theorem iso_turns {fs : List Filter} {ms : List TableText} (h : InRow locale datadir files .iso8859_1 fs ms) (s : Bytes) :
    FiltersSay P locale datadir files fs s (inTurn (fun c => decide (128 ≤ c.toNat)) (fun c => some c.toNat) ms s) := by
  induction h generalizing s with
  | nil => exact .nil s
  | cons f fs m ms hc hm _ ih =>
    have := FilterSays.iso8859_1 (P := P) (s := s) m hc hm
    refine .cons f fs s _ _ this ?_
    rw [inTurn]
    have e : byteSays (fun c => decide (128 ≤ c.toNat)) (fun c => some c.toNat) m = fun c => if c.toNat < 128 then [c] else m.says (some c.toNat) [c] := by
      funext c
      unfold byteSays
      by_cases h : c.toNat < 128
      · rw [if_pos h, if_neg (by simpa using h)]
      · rw [if_neg h, if_pos (by simpa using h)]
    rw [e]
    exact ih _

theorem utf8_turns {fs : List Filter} {ms : List TableText} (h : InRow locale datadir files .utf8 fs ms) {s out : Bytes} (ht : UnicodeTurns ms s out) :
    FiltersSay P locale datadir files fs s out := by
  induction h generalizing s with
  | nil => cases ht; exact .nil _
  | cons f fs m ms hc hm _ ih =>
    cases ht with
    | cons _ _ _ mid _ hr ht => exact .cons f fs s _ _ (.utf8 m mid hc hm hr) (ih ht)

theorem byteSays_safe (m : TableText) : byteSays (fun _ => true) (safeCode P) m = safeSays P m := by
  funext c; rfl

theorem byteSays_iso (m : TableText) : byteSays (fun c => decide (128 ≤ c.toNat)) (fun c => some c.toNat) m = isoSays m := by
  funext c
  unfold byteSays isoSays
  by_cases h : c.toNat < 128
  · rw [if_pos h, if_neg (by simpa using h)]
  · rw [if_neg h, if_pos (by simpa using h)]

/-- **C113.** Any number of `safe` tables in a row, all but the last without default, each leaving alone what the ones before put in: they work as one table, the
first row for a character counting. -/
theorem C113_safe_tables {fs : List Filter} {m : TableText} {ms : List TableText} (h : InRow locale datadir files .safe fs (m :: ms))
    (hd : OnlyLastDefault (m :: ms))
    (hp : (m :: ms).Pairwise fun a b => ∀ c, c ≠ 0 → ∀ d, (safeCode P c).bind a.row = some d → d.flatMap (safeSays P b) = d)
    {s out : Bytes} (hs : (0 : Byte) ∉ s) : FiltersSay P locale datadir files fs s out ↔ out = s.flatMap (safeSays P (merged (m :: ms))) := by
  have key := inTurn_merged (touch := fun _ => true) (code := safeCode P) hd (by
    refine hp.imp fun hab c hc _ d hr => ?_
    rw [byteSays_safe]; exact hab c hc d hr) hs
  rw [byteSays_safe] at key
  have hsay := safe_turns (P := P) h s
  rw [key] at hsay
  exact ⟨fun h' => filtersSay_unique h' hsay, fun h' => h' ▸ hsay⟩

/-- **C113.** The same for `iso8859_1`. -/
theorem C113_iso_tables {fs : List Filter} {m : TableText} {ms : List TableText} (h : InRow locale datadir files .iso8859_1 fs (m :: ms))
    (hd : OnlyLastDefault (m :: ms))
    (hp : (m :: ms).Pairwise fun a b => ∀ c : Byte, 128 ≤ c.toNat → ∀ d, a.row c.toNat = some d → d.flatMap (isoSays b) = d)
    {s out : Bytes} (hs : (0 : Byte) ∉ s) : FiltersSay P locale datadir files fs s out ↔ out = s.flatMap (isoSays (merged (m :: ms))) := by
  have key := inTurn_merged (touch := fun c => decide (128 ≤ c.toNat)) (code := fun c => some c.toNat) hd (by
    refine hp.imp fun hab c _ ht d hr => ?_
    rw [byteSays_iso]; exact hab c (by simpa using ht) d hr) hs
  rw [byteSays_iso] at key
  have hsay := iso_turns (P := P) h s
  rw [key] at hsay
  exact ⟨fun h' => filtersSay_unique h' hsay, fun h' => h' ▸ hsay⟩

/-- **C113.** The same for `utf_8`, where the tables after the first are not about hidden NULs and values beyond U+10FFFF and leave `_` and
`_hidden_null_` alone. -/
theorem C113_utf8_tables {fs : List Filter} {m : TableText} {ms : List TableText} (h : InRow locale datadir files .utf8 fs (m :: ms))
    (hd : OnlyLastDefault (m :: ms)) (hg : ∀ x ∈ ms, GoesOn x)
    (hp : (m :: ms).Pairwise fun a b => ∀ v d, a.row v = some d → LeavesText b d) {s out : Bytes} :
    FiltersSay P locale datadir files fs s out ↔ UnicodeReads (merged (m :: ms)) s out := by
  constructor
  · intro h'
    have : ∃ o, UnicodeReads (merged (m :: ms)) s o := by
      cases h with
      | cons f fs _ _ hc _ _ =>
        cases h' with
        | cons _ _ _ mid _ h1 _ =>
          cases h1 with
          | utf8 m1 _ _ _ hr => exact reads_other hr
          | _ => simp_all
    obtain ⟨o, ho⟩ := this
    have := utf8_turns (P := P) h (turns_merged hd hg hp ho)
    rw [filtersSay_unique h' this]
    exact ho
  · exact fun h' => utf8_turns h (turns_merged hd hg hp h')

/-- **C113.** For two `safe` tables the condition is the right one: they work as one exactly if the second leaves alone what the first puts in. -/
theorem C113_safe_exactly {f g : Filter} {m m' : TableText} (h : InRow locale datadir files .safe [f, g] [m, m']) (hd : m.dflt = none) :
    (∀ s : Bytes, (0 : Byte) ∉ s → FiltersSay P locale datadir files [f, g] s (s.flatMap (safeSays P (merged [m, m'])))) ↔
      ∀ c, c ≠ 0 → ∀ d, (safeCode P c).bind m.row = some d → FiltersSay P locale datadir files [g] d d := by
  have hg : InRow locale datadir files .safe [g] [m'] := by
    cases h with
    | cons _ _ _ _ _ _ h => exact h
  have hsay := fun d => safe_turns (P := P) hg d
  have key := inTurn_two_iff (touch := fun _ => true) (code := safeCode P) (m' := m') hd
  simp only [byteSays_safe, forall_const] at key
  constructor
  · intro h1 c hc d hr
    have := key.1 (fun s hs => (filtersSay_unique (h1 s hs) (safe_turns h s)).symm) c hc d hr
    have e := hsay d
    rw [show inTurn (fun _ => true) (safeCode P) [m'] d = d from (by rw [inTurn, byteSays_safe]; exact this)] at e
    exact e
  · intro h1 s hs
    rw [← key.2 (fun c hc d hr => ?_) s hs]
    · exact safe_turns h s
    · have := filtersSay_unique (h1 c hc d hr) (hsay d)
      rw [inTurn, byteSays_safe] at this
      exact this.symm

/-- **C113.** For two `iso8859_1` tables too. -/
theorem C113_iso_exactly {f g : Filter} {m m' : TableText} (h : InRow locale datadir files .iso8859_1 [f, g] [m, m']) (hd : m.dflt = none) :
    (∀ s : Bytes, (0 : Byte) ∉ s → FiltersSay P locale datadir files [f, g] s (s.flatMap (isoSays (merged [m, m'])))) ↔
      ∀ c : Byte, 128 ≤ c.toNat → ∀ d, m.row c.toNat = some d → FiltersSay P locale datadir files [g] d d := by
  have hg : InRow locale datadir files .iso8859_1 [g] [m'] := by
    cases h with
    | cons _ _ _ _ _ _ h => exact h
  have hsay := fun d => iso_turns (P := P) hg d
  have key := inTurn_two_iff (touch := fun c => decide (128 ≤ c.toNat)) (code := fun c => some c.toNat) (m' := m') hd
  simp only [byteSays_iso, decide_eq_true_eq, Option.bind_some] at key
  constructor
  · intro h1 c hc d hr
    have := key.1 (fun s hs => (filtersSay_unique (h1 s hs) (iso_turns h s)).symm) c (by rintro rfl; simp at hc) hc d hr
    have e := hsay d
    rw [inTurn, byteSays_iso, this] at e
    exact e
  · intro h1 s hs
    rw [← key.2 (fun c _ hc d hr => ?_) s hs]
    · exact iso_turns h s
    · have := filtersSay_unique (h1 c hc d hr) (hsay d)
      rw [inTurn, byteSays_iso] at this
      exact this.symm

/-- **C113.** A default in the first table hides the second one: if that leaves alone what the first puts in, it does nothing at all, whatever rows it has. -/
theorem C113_default_hides {c : Cleaner} (hcl : c = .safe ∨ c = .iso8859_1) {f g : Filter} {m m' : TableText} (h : InRow locale datadir files c [f, g] [m, m'])
    {x : Bytes} (hd : m.dflt = some x) (hx : FiltersSay P locale datadir files [g] x x)
    (hp : ∀ k d, m.row k = some d → FiltersSay P locale datadir files [g] d d) (s : Bytes) :
    FiltersSay P locale datadir files [f, g] s = FiltersSay P locale datadir files [f] s := by
  have key : ∀ (touch : Byte → Bool) (code : Byte → Option Nat), x.flatMap (byteSays touch code m') = x →
      (∀ k d, m.row k = some d → d.flatMap (byteSays touch code m') = d) → (∀ c, touch c = false → byteSays touch code m' c = [c]) →
      inTurn touch code [m, m'] s = inTurn touch code [m] s := by
    intro touch code h1 h2 h3
    simp only [inTurn]
    induction s with
    | nil => rfl
    | cons b s ih =>
      rw [List.flatMap_cons, List.flatMap_append, ih]
      congr 1
      unfold byteSays TableText.says
      by_cases ht : touch b = true
      · rw [if_pos ht]
        cases hr : (code b).bind m.row with
        | some d =>
          obtain ⟨k, hk, hr⟩ := Option.bind_eq_some_iff.1 hr
          exact h2 k d hr
        | none =>
          rw [hd]
          exact h1
      · rw [if_neg ht]
        have := h3 b (by simpa using ht)
        simpa [byteSays, TableText.says] using this
  have hf : InRow locale datadir files c [f] [m] := by
    cases h with
    | cons _ _ _ _ h1 h2 h => exact .cons _ _ _ _ h1 h2 .nil
  have hg : InRow locale datadir files c [g] [m'] := by
    cases h with
    | cons _ _ _ _ _ _ h => exact h
  funext out
  apply propext
  have conv : ∀ {a b : Bytes}, FiltersSay P locale datadir files [f, g] s a → FiltersSay P locale datadir files [f] s b → a = b →
      (FiltersSay P locale datadir files [f, g] s out ↔ FiltersSay P locale datadir files [f] s out) := by
    rintro a b h1 h2 rfl
    exact ⟨fun h => filtersSay_unique h h1 ▸ h2, fun h => filtersSay_unique h h2 ▸ h1⟩
  rcases hcl with rfl | rfl
  · refine conv (safe_turns h s) (safe_turns hf s) (key _ _ ?_ ?_ ?_)
    · exact (filtersSay_unique hx (safe_turns hg x)).symm
    · intro k d hr
      exact (filtersSay_unique (hp k d hr) (safe_turns hg d)).symm
    · intro c hc; cases hc
  · refine conv (iso_turns h s) (iso_turns hf s) (key _ _ ?_ ?_ ?_)
    · exact (filtersSay_unique hx (iso_turns hg x)).symm
    · intro k d hr
      exact (filtersSay_unique (hp k d hr) (iso_turns hg d)).symm
    · intro c hc
      unfold byteSays
      rw [if_neg (by simpa using hc)]

/-- **C113.** The compiled-in unicode table may follow any other. -/
theorem C113_unicode_goes_on : GoesOn ⟨lastOf (writtenRows builtin_unicode_rows), none⟩ := by
  have hall : ∀ r ∈ writtenRows builtin_unicode_rows, r.1 ≠ 0 ∧ r.1 ≤ 0x10FFFF := by decide +kernel
  have hu : ∀ x ∈ lit "_hidden_null_", x.toNat < 0x80 ∧
      unicodeSays ⟨lastOf (writtenRows builtin_unicode_rows), none⟩ x.toNat [x] = [x] := by decide +kernel
  exact ⟨lastOf_eq_none fun r hr => (hall r hr).1, fun v hv => lastOf_eq_none fun r hr => by have := (hall r hr).2; omega,
    units_ascii hu, units_ascii fun c hc => hu c (by
      have : ∀ c ∈ lit "_", c ∈ lit "_hidden_null_" := by decide +kernel
      exact this c hc)⟩

/-- **C113.** The chain of detoxrc(5): a `utf_8` table of one's own, without default, in front of the compiled-in one. -/
theorem C113_custom_unicode {f g : Filter} (hf : f.cleaner = .utf8) (hg : g.cleaner = .utf8) {m : TableText} (hm : TableSays locale datadir files f m)
    (hb : g.builtin = some (lit "unicode")) (hd : m.dflt = none)
    (hp : ∀ v d, m.row v = some d → LeavesText ⟨lastOf (writtenRows builtin_unicode_rows), none⟩ d) {s out : Bytes} :
    FiltersSay P locale datadir files [f, g] s out ↔
      UnicodeReads ⟨fun k => (m.row k).or (lastOf (writtenRows builtin_unicode_rows) k), none⟩ s out := by
  refine C113_utf8_tables (.cons _ _ _ _ hf hm (.cons _ _ _ _ hg (.builtin _ _ hb .unicode) .nil)) ?_ ?_ ?_
  · intro x hx
    rw [show [m, TableText.mk (lastOf (writtenRows builtin_unicode_rows)) none].dropLast = [m] from rfl, List.mem_singleton] at hx
    rw [hx]; exact hd
  · intro x hx
    rw [List.mem_singleton.1 hx]
    exact C113_unicode_goes_on
  · rw [List.pairwise_cons]
    refine ⟨fun x hx => ?_, List.pairwise_singleton _ _⟩
    rw [List.mem_singleton.1 hx]
    exact hp

/-- **C113.** The two tables of `iso8859_1-legacy` do not work as one: the second one mangles what the first puts in. -/
theorem C113_legacy_not_one {f g : Filter} (hf : f.cleaner = .iso8859_1) (hg : g.cleaner = .iso8859_1) (hfb : f.builtin = some (lit "cp1252"))
    (hgb : g.builtin = some (lit "iso8859_1")) :
    ¬ ∀ s : Bytes, (0 : Byte) ∉ s → FiltersSay P locale datadir files [f, g] s
      (s.flatMap (isoSays (merged [⟨lastOf (writtenRows builtin_cp1252_rows), none⟩, ⟨lastOf (writtenRows builtin_iso8859_1_rows), some (lit "_")⟩]))) := by
  have hg1 : InRow locale datadir files .iso8859_1 [g] [⟨lastOf (writtenRows builtin_iso8859_1_rows), some (lit "_")⟩] :=
    .cons _ _ _ _ hg (.builtin _ _ hgb .iso8859_1) .nil
  have h : InRow locale datadir files .iso8859_1 [f, g] _ := .cons _ _ _ _ hf (.builtin _ _ hfb .cp1252) hg1
  rw [C113_iso_exactly h rfl]
  intro hall
  have h1 : lastOf (writtenRows builtin_cp1252_rows) 0x80 = some [0xE2, 0x82, 0xAC] := by decide +kernel
  have := filtersSay_unique (hall 0x80 (by decide) _ h1) (iso_turns hg1 _)
  rw [inTurn, byteSays_iso] at this
  have h2 : ([0xE2, 0x82, 0xAC] : Bytes).flatMap (isoSays ⟨lastOf (writtenRows builtin_iso8859_1_rows), some (lit "_")⟩) ≠ [0xE2, 0x82, 0xAC] := by
    decide +kernel
  exact h2 this.symm

end

/-- The table of detox.tbl(5) in front of the compiled-in `safe` table meets what `C113_safe_tables` asks. -/
example (P : Platform) (locale : Bytes) : ∃ m m', InRow locale none manualFiles .safe (manualFilters.take 2) [m, m'] ∧ OnlyLastDefault [m, m'] ∧
    ([m, m'].Pairwise fun a b => ∀ c, c ≠ 0 → ∀ d, (safeCode P c).bind a.row = some d → d.flatMap (safeSays P b) = d) ∧
    (merged [m, m']).row 0x26 = some (lit "_and_") ∧ (merged [m, m']).row 0x20 = some (lit "_") := by
  refine ⟨_, _, .cons _ _ _ _ rfl (.filename _ manualTable _ rfl rfl manualFiles_table (manual_table locale))
    (.cons _ _ _ _ rfl (.fallback _ _ .safe rfl rfl manual_usual .safe) .nil), ?_, ?_, ?_, ?_⟩
  · intro m hm
    simp only [List.dropLast, List.mem_singleton] at hm
    rw [hm]
  · rw [List.pairwise_cons]
    refine ⟨fun x hx => ?_, List.pairwise_singleton _ _⟩
    rw [List.mem_singleton.1 hx]
    intro c _ d hr0
    obtain ⟨k, _, hr⟩ := Option.bind_eq_some_iff.1 hr0
    have hrow : lastOf _ k = some d := hr
    rw [manual_row] at hrow
    have key : ∀ y ∈ [lit "_tab_", lit "_dollar_", lit "_and_", lit "_money_"], ∀ x ∈ y, (lastOf (writtenRows builtin_safe_rows) x.toNat).getD [x] = [x] := by
      decide +kernel
    have hd : d ∈ [lit "_tab_", lit "_dollar_", lit "_and_", lit "_money_"] := by
      split at hrow
      · cases hrow; simp
      · split at hrow
        · cases hrow; split <;> simp
        · split at hrow
          · cases hrow; simp
          · cases hrow
    have hone : ∀ x ∈ d, safeSays P ⟨lastOf (writtenRows builtin_safe_rows), none⟩ x = [x] := by
      intro x hx
      unfold safeSays
      rw [says_safe]
      exact key d hd x hx
    clear key hrow hr hr0 hd
    induction d with
    | nil => rfl
    | cons x d ih => rw [List.flatMap_cons, hone x (by simp), ih fun y hy => hone y (by simp [hy])]; rfl
  · show (lastOf _ 0x26).or _ = _
    rw [manual_row]; rfl
  · show (lastOf _ 0x20).or (lastOf (writtenRows builtin_safe_rows) 0x20) = _
    rw [manual_row, show lastOf (writtenRows builtin_safe_rows) 0x20 = some (lit "_") by decide +kernel]
    rfl

/-- A table with one row, ß to `ss`, may stand in front of the compiled-in unicode table. -/
example : ∀ v d, (if v = 0xDF then some (lit "ss") else none) = some d → LeavesText ⟨lastOf (writtenRows builtin_unicode_rows), none⟩ d := by
  intro v d h
  split at h
  · cases h
    have hu : ∀ x ∈ lit "ss", x.toNat < 0x80 ∧
      unicodeSays ⟨lastOf (writtenRows builtin_unicode_rows), none⟩ x.toNat [x] = [x] := by decide +kernel
    exact units_ascii hu
  · cases h

end Detox
