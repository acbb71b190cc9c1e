import Verif.Props.Exchange
import Verif.Props.OnePass
import Verif.Props.Chain
import Verif.Lemmas.CheckDump

/-!
# C133: the same filter twice

Which filters can be given twice in a row without any effect of the second: with the compiled-in tables all but `uncgi` and `iso8859_1`.
-/

set_option autoImplicit false

namespace Detox
namespace Spec

/-- A filter twice in a row makes of every name what it makes of it once. -/
def CanRepeat (P : Platform) (locale : Bytes) (datadir : Option Bytes) (files : Bytes → Option Bytes) (f : Filter) : Prop :=
  ∀ m, NulFree m → ∀ v, FiltersSay P locale datadir files [f, f] m v ↔ FiltersSay P locale datadir files [f] m v

end Spec
open Spec

section
variable {P : Platform} {locale : Bytes} {datadir : Option Bytes} {files : Bytes → Option Bytes} {f : Filter}

theorem canRepeat_of (h : ∀ m v, NulFree m → FilterSays P locale datadir files f m v → FilterSays P locale datadir files f v v) :
    CanRepeat P locale datadir files f := by
  intro m hm v
  rw [filtersSay_one]
  constructor
  · intro hv
    cases hv with
    | cons _ _ _ mid _ a b =>
      rw [filterSays_unique (filtersSay_one.1 b) (h m mid hm a)]
      exact a
  · intro hv
    exact .cons _ _ _ _ _ hv (filtersSay_one.2 (h m v hm hv))

theorem Spec.CanRepeat.again (h : CanRepeat P locale datadir files f) {m v : Bytes} (hm : NulFree m) (hv : FilterSays P locale datadir files f m v) :
    FilterSays P locale datadir files f v v := by
  cases (h m hm v).2 (filtersSay_one.2 hv) with
  | cons _ _ _ mid _ a b =>
    rw [filterSays_unique a hv] at b
    exact filtersSay_one.1 b

/-- **C133.** `max_length`, whatever the limit. -/
theorem C133_max_length (hf : f.cleaner = .maxLength) : CanRepeat P locale datadir files f := by
  refine canRepeat_of fun m v hm hv => ?_
  have h := (C119_max_length_at_the_end (P := P) (locale := locale) (datadir := datadir) (files := files) (fs := []) (gs := []) nofun (.inl rfl) hf ?_ ?_).1
  · exact filtersSay_one.1 (h.again m v hm (filtersSay_one.2 hv))
  · intro c v hc h x hx
    cases h
    rw [List.mem_singleton.1 hx]
    exact ⟨hc, .nil _⟩
  · intro c v _ hs h hx
    cases h
    exact hs (List.mem_singleton.1 hx).symm

/-- **C133.** `safe` and `iso8859_1` can be repeated if and only if they leave alone what they make of single characters. -/
theorem C133_letter_by_letter (hf : Letterwise f.cleaner) (ht : ∀ n, UsualTable f.cleaner n → ∃ m, TableSays locale datadir files f m) :
    CanRepeat P locale datadir files f ↔ ∀ c : Byte, c ≠ 0 → ∀ v, FilterSays P locale datadir files f [c] v → FilterSays P locale datadir files f v v := by
  obtain ⟨a, ha⟩ := letterwise_says (P := P) hf ht
  refine ⟨fun h c hc v hv => h.again (nulFree_cons.2 ⟨hc, NulFree.nil⟩) hv, fun h => canRepeat_of fun m v hm hv => ?_⟩
  rw [filterSays_unique hv (ha m)]
  have key : (m.flatMap a).flatMap a = m.flatMap a := by
    rw [List.flatMap_assoc, List.flatMap_def, List.flatMap_def]
    refine congrArg List.flatten (List.map_congr_left fun c hc => ?_)
    have h1 : FilterSays P locale datadir files f [c] (a c) := by simpa using ha [c]
    exact filterSays_unique (ha (a c)) (h c (fun h0 => hm (h0 ▸ hc)) _ h1)
  have h2 := ha (m.flatMap a)
  rwa [key] at h2

/-- **C133.** `utf_8` can be repeated if the table leaves alone what is in its own rows, and has neither a default nor rows about a hidden NUL or values beyond U+10FFFF. -/
theorem C133_utf8 (hf : f.cleaner = .utf8) {m : TableText} (hm : TableSays locale datadir files f m) (hd : m.dflt = none) (hg : GoesOn m)
    (hp : ∀ v d, m.row v = some d → LeavesText m d) : CanRepeat P locale datadir files f := by
  intro s _ v
  have h := C113_utf8_tables (P := P) (.cons _ _ _ _ hf hm (.cons _ _ _ _ hf hm .nil)) (s := s) (out := v)
    (by intro x hx; rw [show [m, m].dropLast = [m] from rfl, List.mem_singleton] at hx; rw [hx]; exact hd)
    (by intro x hx; rw [List.mem_singleton.1 hx]; exact hg)
    (by rw [List.pairwise_cons]; exact ⟨fun x hx => by rw [List.mem_singleton.1 hx]; exact hp, List.pairwise_singleton _ _⟩)
  have e : merged [m, m] = m := by
    have hr : (fun k => (m.row k).or (m.row k)) = m.row := funext fun k => by cases m.row k <;> rfl
    show (⟨fun k => (m.row k).or (m.row k), m.dflt⟩ : TableText) = m
    rw [hr]
  rw [h, e, filtersSay_one]
  constructor
  · intro h; exact .utf8 m _ hf hm h
  · intro h
    cases h with
    | utf8 m' _ _ hm' hu => rwa [tableSays_unique hm' hm] at hu
    | lower hc => rw [hc] at hf; cases hf
    | wipeup _ hc => rw [hc] at hf; cases hf
    | uncgi _ hc => rw [hc] at hf; cases hf
    | maxLength _ hc => rw [hc] at hf; cases hf
    | iso8859_1 _ hc => rw [hc] at hf; cases hf
    | safe _ hc => rw [hc] at hf; cases hf

/-- **C133.** With the compiled-in tables, a filter can be given twice in a row without effect if and only if it is neither `uncgi` nor `iso8859_1`. -/
theorem C133_which_filters (hP : P.Benign) (c : Cleaner) : CanRepeat P locale datadir files (usualFilter c) ↔ c ≠ .uncgi ∧ c ≠ .iso8859_1 := by
  have no : ∀ {c : Cleaner} {s v w : Bytes}, NulFree s → NulFree v → filterRun P (loadedFilter c) (some s) = .ok (some v) →
      filterRun P (loadedFilter c) (some v) = .ok (some w) → v ≠ w → ¬ CanRepeat P locale datadir files (usualFilter c) := by
    intro c s v w hs hv h1 h2 hne h
    exact hne (filterSays_unique (h.again hs (loaded_says hP hs h1)) (loaded_says hP hv h2))
  have hb := hP
  obtain ⟨cs, a, b⟩ := P
  obtain ⟨rfl, rfl⟩ : a = true ∧ b = true := hb
  cases c with
  | uncgi =>
    refine iff_of_false ?_ (by simp)
    exact no (s := lit "%2541") (v := lit "%41") (w := lit "A") (by unfold NulFree; decide +kernel) (by unfold NulFree; decide +kernel)
      (by cases cs <;> decide +kernel) (by cases cs <;> decide +kernel) (by decide)
  | iso8859_1 =>
    refine iff_of_false ?_ (by simp)
    exact no (s := [0xE4]) (v := [0xC3, 0xA4]) (w := [0xC3, 0x83, 0xC2, 0xA4]) (by unfold NulFree; decide +kernel) (by unfold NulFree; decide +kernel)
      (by cases cs <;> decide +kernel) (by cases cs <;> decide +kernel) (by decide)
  | lower => exact iff_of_true (fun _ hm v => C130_twice (.inl rfl) hm v) (by simp)
  | wipeup => exact iff_of_true (fun _ hm v => C130_twice (.inr rfl) hm v) (by simp)
  | maxLength => exact iff_of_true (C133_max_length rfl) (by simp)
  | utf8 =>
    refine iff_of_true (C133_utf8 rfl (.builtin _ _ rfl .unicode) rfl C113_unicode_goes_on fun v d hd => ?_) (by simp)
    have all : ∀ r ∈ writtenRows builtin_unicode_rows, ∀ x ∈ r.2, x.toNat < 0x80 ∧
        unicodeSays ⟨lastOf (writtenRows builtin_unicode_rows), none⟩ x.toNat [x] = [x] := by decide +kernel
    exact units_ascii (all _ (lastOf_mem hd))
  | safe =>
    refine iff_of_true ((C133_letter_by_letter (.inr (.inl rfl)) fun n hn => ⟨_, .builtin _ _ rfl .safe⟩).2 fun c _ v hv => ?_) (by simp)
    have ht : TableSays locale datadir files (usualFilter .safe) _ := .builtin _ _ rfl .safe
    have h1 := filterSays_unique hv (.safe _ rfl ht)
    rw [List.flatMap_cons, List.flatMap_nil, List.append_nil, says_safe] at h1
    have fix : ∀ c : Byte, ∀ x ∈ (lastOf (writtenRows builtin_safe_rows) c.toNat).getD [c], (lastOf (writtenRows builtin_safe_rows) x.toNat).getD [x] = [x] :=
      forall_byte (by decide +kernel)
    have h2 : FilterSays ⟨cs, true, true⟩ locale datadir files (usualFilter .safe) v _ := .safe _ rfl ht
    have key : (v.flatMap fun c => (TableText.mk (lastOf (writtenRows builtin_safe_rows)) none).says (safeCode ⟨cs, true, true⟩ c) [c]) = v := by
      have fixv : ∀ x ∈ v, (lastOf (writtenRows builtin_safe_rows) x.toNat).getD [x] = [x] := by rw [h1]; exact fix c
      clear h2 h1 hv
      induction v with
      | nil => rfl
      | cons x v ih => rw [List.flatMap_cons, says_safe, fixv x (by simp), ih fun y hy => fixv y (by simp [hy])]; rfl
    rwa [key] at h2

end

example : CanRepeat .linux [] none (fun _ => none) (usualFilter .utf8) := (C133_which_filters (by decide) _).2 (by decide)
example : ¬ CanRepeat .linux [] none (fun _ => none) (usualFilter .uncgi) := fun h => absurd ((C133_which_filters (by decide) _).1 h) (by decide)

end Detox
