import Verif.Props.Elsewhere

/-!
# C132: the order of the filters

Which filters of a sequence can be exchanged. With the compiled-in tables it is only `lower`, and only with `wipeup`, `max_length`, `safe` and `iso8859_1`; every
other two filters make of some name something else in the other order.
-/

set_option autoImplicit false

namespace Detox
namespace Spec

/-- A filter as a config file has it, with the compiled-in table of that name; `max_length { length 4; };`. -/
def usualFilter : Cleaner → Filter
  | .iso8859_1 => { cleaner := .iso8859_1, builtin := some (lit "iso8859_1") }
  | .safe => { cleaner := .safe, builtin := some (lit "safe") }
  | .utf8 => { cleaner := .utf8, builtin := some (lit "unicode") }
  | .maxLength => { cleaner := .maxLength, maxLength := 4 }
  | c => { cleaner := c }

/-- Two filters make the same of every name in either order. -/
def CanExchange (P : Platform) (locale : Bytes) (datadir : Option Bytes) (files : Bytes → Option Bytes) (f g : Filter) : Prop :=
  ∀ m, NulFree m → ∀ v, FiltersSay P locale datadir files [f, g] m v ↔ FiltersSay P locale datadir files [g, f] m v

/-- The filters that work character by character. -/
def Letterwise (c : Cleaner) : Prop := c = .lower ∨ c = .safe ∨ c = .iso8859_1

end Spec
open Spec

section
variable {P : Platform} {locale : Bytes} {datadir : Option Bytes} {files : Bytes → Option Bytes} {f g : Filter}

theorem Spec.CanExchange.symm (h : CanExchange P locale datadir files f g) : CanExchange P locale datadir files g f := fun m hm v => (h m hm v).symm

theorem canExchange_of (h : ∀ m, NulFree m → ∃ v, FiltersSay P locale datadir files [f, g] m v ∧
    FiltersSay P locale datadir files [g, f] m v) : CanExchange P locale datadir files f g := by
  intro m hm v
  obtain ⟨u, h1, h2⟩ := h m hm
  exact ⟨fun h => filtersSay_unique h h1 ▸ h2, fun h => filtersSay_unique h h2 ▸ h1⟩

/-- What such a filter makes of a character. -/
theorem letterwise_says (hf : Letterwise f.cleaner) (ht : ∀ n, UsualTable f.cleaner n → ∃ m, TableSays locale datadir files f m) :
    ∃ a : Byte → Bytes, ∀ s, FilterSays P locale datadir files f s (s.flatMap a) := by
  rcases hf with hf | hf | hf
  · refine ⟨fun c => [small c], fun s => ?_⟩
    rw [← List.map_eq_flatMap]
    exact .lower hf
  · obtain ⟨m, hm⟩ := ht _ (by rw [hf]; exact .safe)
    exact ⟨_, fun _ => .safe m hf hm⟩
  · obtain ⟨m, hm⟩ := ht _ (by rw [hf]; exact .iso8859_1)
    exact ⟨_, fun _ => .iso8859_1 m hf hm⟩

theorem both_say {a b : Byte → Bytes} (ha : ∀ s, FilterSays P locale datadir files f s (s.flatMap a)) (hb : ∀ s, FilterSays P locale datadir files g s (s.flatMap b))
    (s : Bytes) : FiltersSay P locale datadir files [f, g] s (s.flatMap fun c => (a c).flatMap b) := by
  rw [← List.flatMap_assoc]
  exact .cons _ _ _ _ _ (ha s) (filtersSay_one.2 (hb _))

/-- **C132.** Two filters that work character by character can be exchanged if and only if they can be on names of one character. -/
theorem C132_letter_by_letter (hf : Letterwise f.cleaner) (hg : Letterwise g.cleaner)
    (htf : ∀ n, UsualTable f.cleaner n → ∃ m, TableSays locale datadir files f m) (htg : ∀ n, UsualTable g.cleaner n → ∃ m, TableSays locale datadir files g m) :
    CanExchange P locale datadir files f g ↔
      ∀ c : Byte, c ≠ 0 → ∀ v, FiltersSay P locale datadir files [f, g] [c] v ↔ FiltersSay P locale datadir files [g, f] [c] v := by
  obtain ⟨a, ha⟩ := letterwise_says (P := P) hf htf
  obtain ⟨b, hb⟩ := letterwise_says (P := P) hg htg
  refine ⟨fun h c hc v => h [c] (nulFree_cons.2 ⟨hc, NulFree.nil⟩) v, fun h => ?_⟩
  refine canExchange_of fun m hm => ⟨_, both_say ha hb m, ?_⟩
  have key : (m.flatMap fun c => (a c).flatMap b) = m.flatMap fun c => (b c).flatMap a := by
    rw [List.flatMap_def, List.flatMap_def]
    refine congrArg List.flatten (List.map_congr_left fun c hc => ?_)
    have h1 := (h c (fun h0 => hm (h0 ▸ hc)) _).1 (both_say ha hb [c])
    have h2 := filtersSay_unique h1 (both_say hb ha [c])
    simpa using h2
  rw [key]
  exact both_say hb ha m

/-! ### `lower` -/

theorem small_dot : ∀ c : Byte, (small c = 0x2E ↔ c = 0x2E) := forall_byte (by decide +kernel)

theorem dot_small (s : Bytes) (j : Nat) : (s.map small)[j]? = some 0x2E ↔ s[j]? = some 0x2E := by
  rw [List.getElem?_map]
  cases s[j]? with
  | none => simp
  | some c => simp [small_dot]

theorem shortens_small {limit : Nat} {s v : Bytes} (h : Shortens limit s v) : Shortens limit (s.map small) (v.map small) := by
  have ext : ∀ e, ExtensionAt s e → ExtensionAt (s.map small) e := by
    intro e h
    unfold ExtensionAt LastDot at h ⊢
    simpa only [ne_eq, dot_small, List.length_map] using h
  cases h with
  | fits h => exact .fits (by rwa [List.length_map])
  | plain h h' =>
    rw [List.map_take]
    refine .plain (by rwa [List.length_map]) ?_
    unfold NoExtension LastDot at h' ⊢
    simpa only [ne_eq, dot_small, List.length_map] using h'
  | hopeless e h h1 h2 => exact .hopeless e (by rwa [List.length_map]) (ext e h1) (by rwa [List.length_map])
  | cut e body h h1 h2 h3 h4 =>
    rw [List.map_append, List.map_drop]
    refine .cut e _ (by rwa [List.length_map]) (ext e h1) (by rwa [List.length_map]) ?_ (by simpa using h4)
    obtain ⟨t, ht⟩ := h3
    exact ⟨t.map small, by rw [← List.map_append, ht, List.map_take]⟩

theorem shortens_some (limit : Nat) (s : Bytes) : ∃ v, Shortens limit s v := by
  by_cases hl : s.length ≤ limit
  · exact ⟨_, .fits hl⟩
  · have hl' := Nat.lt_of_not_le hl
    rcases extension_or_not s (by rintro rfl; simp at hl') with ⟨hn, _⟩ | ⟨_, e, he, _⟩
    · exact ⟨_, .plain hl' hn⟩
    · by_cases hx : limit ≤ s.length - e
      · exact ⟨_, .hopeless e hl' he hx⟩
      · refine ⟨_, .cut e ((s.take e).take (limit - (s.length - e))) hl' he (by omega) (List.take_prefix _ _) ?_⟩
        simp only [List.length_append, List.length_take, List.length_drop]
        omega

/-- **C132.** `lower` and `max_length` can be exchanged, whatever the limit. -/
theorem C132_lower_and_max_length (hf : f.cleaner = .lower) (hg : g.cleaner = .maxLength) : CanExchange P locale datadir files f g := by
  refine canExchange_of fun m _ => ?_
  obtain ⟨u, hu⟩ := shortens_some (if g.maxLength = 0 then 256 else g.maxLength) m
  exact ⟨u.map small, .cons _ _ _ _ _ (.lower hf) (filtersSay_one.2 (.maxLength _ hg (shortens_small hu))),
    .cons _ _ _ _ _ (.maxLength _ hg hu) (filtersSay_one.2 (.lower hf))⟩

/-- **C132.** `lower` and `safe` can be exchanged if the table says of a capital letter what it says of the small one, but for case, and of what `lower` leaves alone
something without capital letters. -/
theorem C132_lower_and_safe (hf : f.cleaner = .lower) (hg : g.cleaner = .safe) {m : TableText} (hm : TableSays locale datadir files g m)
    (h : ∀ c, c ≠ 0 → m.says (safeCode P (small c)) [small c] = (m.says (safeCode P c) [c]).map small) : CanExchange P locale datadir files f g := by
  refine canExchange_of fun s hs => ⟨_, .cons _ _ _ _ _ (.lower hf) (filtersSay_one.2 (.safe m hg hm)), ?_⟩
  refine .cons _ _ _ _ _ (.safe m hg hm) (filtersSay_one.2 ?_)
  have e : ((s.map small).flatMap fun c => m.says (safeCode P c) [c]) = (s.flatMap fun c => m.says (safeCode P c) [c]).map small := by
    rw [List.flatMap_map, List.map_flatMap, List.flatMap_def, List.flatMap_def]
    exact congrArg List.flatten (List.map_congr_left fun c hc => h c fun h0 => hs (h0 ▸ hc))
  rw [e]
  exact .lower hf

/-- **C132.** `lower` and `iso8859_1` can be exchanged if there are no capital letters in the table. -/
theorem C132_lower_and_iso (hf : f.cleaner = .lower) (hg : g.cleaner = .iso8859_1) {m : TableText} (hm : TableSays locale datadir files g m)
    (h : ∀ c : Byte, 128 ≤ c.toNat → (m.says (some c.toNat) [c]).map small = m.says (some c.toNat) [c]) : CanExchange P locale datadir files f g := by
  refine canExchange_of fun s hs => ⟨_, .cons _ _ _ _ _ (.lower hf) (filtersSay_one.2 (.iso8859_1 m hg hm)), ?_⟩
  refine .cons _ _ _ _ _ (.iso8859_1 m hg hm) (filtersSay_one.2 ?_)
  have low : ∀ c : Byte, (small c).toNat < 128 ↔ c.toNat < 128 := forall_byte (by decide +kernel)
  have high : ∀ c : Byte, ¬ c.toNat < 128 → small c = c := forall_byte (by decide +kernel)
  have e : ((s.map small).flatMap fun c => if c.toNat < 128 then [c] else m.says (some c.toNat) [c]) =
      (s.flatMap fun c => if c.toNat < 128 then [c] else m.says (some c.toNat) [c]).map small := by
    rw [List.flatMap_map, List.map_flatMap, List.flatMap_def, List.flatMap_def]
    refine congrArg List.flatten (List.map_congr_left fun c _ => ?_)
    by_cases hc : c.toNat < 128
    · rw [if_pos ((low c).2 hc), if_pos hc]; rfl
    · rw [if_neg fun h => hc ((low c).1 h), if_neg hc, high c hc, h c (by omega)]
  rw [e]
  exact .lower hf

/-! ### `iso8859_1` and `wipeup` -/

theorem reduces_keeps {rt : Bool} {a s o : Bytes} (ha : ∀ x ∈ a, reducible rt x = false) (h : Reduces rt s o) : Reduces rt (a ++ s) (a ++ o) := by
  induction a with
  | nil => exact h
  | cons x a ih => exact .keep _ _ _ (ha x (by simp)) (ih fun y hy => ha y (by simp [hy]))

theorem reduces_flatMap {rt : Bool} {a : Byte → Bytes} (hlow : ∀ c, reducible rt c = true → a c = [c])
    (hne : ∀ c, reducible rt c = false → a c ≠ [] ∧ ∀ x ∈ a c, reducible rt x = false) {s o : Bytes} (h : Reduces rt s o) :
    Reduces rt (s.flatMap a) (o.flatMap a) := by
  induction h with
  | nil => exact .nil
  | keep c s o hc _ ih =>
    rw [List.flatMap_cons, List.flatMap_cons]
    exact reduces_keeps (hne c hc).2 ih
  | run r s o hr hall hh _ ih =>
    have hrr : r.flatMap a = r := by
      clear hr
      induction r with
      | nil => rfl
      | cons x r ih' => rw [List.flatMap_cons, hlow x (hall x (by simp)), ih' fun y hy => hall y (by simp [hy])]; rfl
    have hch : reducible rt (runChar r) = true := by
      unfold runChar
      split
      · next h => exact hall _ h
      · split
        · next h => exact hall _ h
        · cases rt <;> decide
    rw [List.flatMap_append, List.flatMap_cons, hrr, hlow _ hch]
    refine .run _ _ _ hr hall ?_ ih
    intro c hc
    cases s with
    | nil => cases hc
    | cons x s =>
      obtain ⟨h1, h2⟩ := hne x (hh x rfl)
      rw [List.flatMap_cons] at hc
      cases hax : a x with
      | nil => exact absurd hax h1
      | cons y t =>
        rw [hax] at hc h2
        cases hc
        exact h2 c (by simp)

/-- **C132.** `iso8859_1` and `wipeup` can be exchanged if the table makes something of every character that is not ASCII, without `-`, `_`, `#` and `.` in it. -/
theorem C132_iso_and_wipeup (hf : f.cleaner = .iso8859_1) (hg : g.cleaner = .wipeup) {m : TableText} (hm : TableSays locale datadir files f m)
    (h : ∀ c : Byte, 128 ≤ c.toNat → m.says (some c.toNat) [c] ≠ [] ∧ ∀ x ∈ m.says (some c.toNat) [c], reducible true x = false ∧ leading x = false) :
    CanExchange P locale datadir files f g := by
  have red : ∀ c : Byte, reducible g.removeTrailing c = true → reducible true c = true := by
    cases g.removeTrailing <;> exact forall_byte (by decide +kernel)
  have asc : ∀ c : Byte, reducible true c = true → c.toNat < 128 := forall_byte (by decide +kernel)
  have asc2 : ∀ c : Byte, leading c = true → c.toNat < 128 := forall_byte (by decide +kernel)
  let a : Byte → Bytes := fun c => if c.toNat < 128 then [c] else m.says (some c.toNat) [c]
  have lead : ∀ s : Bytes, (s.flatMap a).dropWhile leading = (s.dropWhile leading).flatMap a := by
    intro s
    induction s with
    | nil => rfl
    | cons c s ih =>
      by_cases hc : leading c = true
      · have : a c = [c] := if_pos (asc2 c hc)
        rw [List.flatMap_cons, this, List.singleton_append, List.dropWhile_cons_of_pos hc, List.dropWhile_cons_of_pos hc, ih]
      · have hx : ∃ x t, a c = x :: t ∧ leading x = false := by
          by_cases hl : c.toNat < 128
          · exact ⟨c, [], if_pos hl, by simpa using hc⟩
          · obtain ⟨h1, h2⟩ := h c (by omega)
            have e : a c = m.says (some c.toNat) [c] := if_neg hl
            rw [← e] at h1 h2
            cases hac : a c with
            | nil => exact absurd hac h1
            | cons x t => exact ⟨x, t, rfl, (h2 x (by rw [hac]; simp)).2⟩
        obtain ⟨x, t, e, hx⟩ := hx
        rw [List.dropWhile_cons_of_neg hc, List.flatMap_cons, e, List.cons_append, List.dropWhile_cons_of_neg (by simp [hx])]
  refine canExchange_of fun s hs => ?_
  obtain ⟨out, _, h2, _⟩ := C04_wipeup_is_the_documented_reduction g.removeTrailing s hs
  have h3 : IsWipeup g.removeTrailing (s.flatMap a) (out.flatMap a) := by
    unfold IsWipeup at h2 ⊢
    rw [lead]
    refine reduces_flatMap (fun c hc => if_pos (asc c (red c hc))) (fun c hc => ?_) h2
    by_cases hl : c.toNat < 128
    · have e : a c = [c] := if_pos hl
      change a c ≠ [] ∧ ∀ x ∈ a c, _
      rw [e]
      exact ⟨by simp, fun x hx => by rw [List.mem_singleton.1 hx]; exact hc⟩
    · have e : a c = m.says (some c.toNat) [c] := if_neg hl
      change a c ≠ [] ∧ ∀ x ∈ a c, _
      rw [e]
      refine ⟨(h c (by omega)).1, fun x hx => ?_⟩
      by_cases hr : reducible g.removeTrailing x = true
      · exact absurd (red x hr) (by simp [((h c (by omega)).2 x hx).1])
      · simpa using hr
  exact ⟨_, .cons _ _ _ _ _ (.iso8859_1 m hf hm) (filtersSay_one.2 (.wipeup _ hg h3)),
    .cons _ _ _ _ _ (.wipeup _ hg h2) (filtersSay_one.2 (.iso8859_1 m hf hm))⟩

/- `iso8859_1 { filename "t"; };` with the row `0xE9 e`, and `wipeup;` -/
example (rt : Bool) : CanExchange P locale datadir accentFiles { cleaner := .iso8859_1, filename := some (lit "t") } { cleaner := .wipeup, removeTrailing := rt } :=
  C132_iso_and_wipeup rfl rfl (.filename _ accentTable _ rfl rfl (by unfold accentFiles; rw [if_neg (by decide +kernel), if_pos rfl]) (accent_table _))
    (forall_byte (by decide +kernel))

/-- **C132.** In a longer sequence as well, if there are no NULs in what the filters before them make of a name. -/
theorem C132_in_a_sequence {fs gs : List Filter} (h : CanExchange P locale datadir files f g)
    (hz : ∀ m v, NulFree m → FiltersSay P locale datadir files fs m v → NulFree v) {m : Bytes} (hm : NulFree m) (v : Bytes) :
    FiltersSay P locale datadir files (fs ++ [f, g] ++ gs) m v ↔ FiltersSay P locale datadir files (fs ++ [g, f] ++ gs) m v := by
  simp only [filtersSay_both]
  constructor
  · rintro ⟨b, ⟨a, h1, h2⟩, h3⟩
    exact ⟨b, ⟨a, h1, (h a (hz _ _ hm h1) _).1 h2⟩, h3⟩
  · rintro ⟨b, ⟨a, h1, h2⟩, h3⟩
    exact ⟨b, ⟨a, h1, (h a (hz _ _ hm h1) _).2 h2⟩, h3⟩

/- `lower; lower; max_length; wipeup;` and `lower; max_length; lower; wipeup;` -/
example {m : Bytes} (hm : NulFree m) (v : Bytes) :
    FiltersSay P locale datadir files ([usualFilter .lower] ++ [usualFilter .lower, usualFilter .maxLength] ++ [usualFilter .wipeup]) m v ↔
    FiltersSay P locale datadir files ([usualFilter .lower] ++ [usualFilter .maxLength, usualFilter .lower] ++ [usualFilter .wipeup]) m v := by
  refine C132_in_a_sequence (C132_lower_and_max_length rfl rfl) (fun m v hm h => ?_) hm v
  rw [filtersSay_unique h (filtersSay_one.2 (.lower rfl))]
  have nz : ∀ c : Byte, small c = 0 → c = 0 := forall_byte (by decide +kernel)
  intro h0
  obtain ⟨c, hc, e⟩ := List.mem_map.1 h0
  exact hm (nz c e ▸ hc)

end

/-! ### The compiled-in tables -/

/-- Which of the usual filters can be exchanged. -/
def withLower : Cleaner → Bool
  | .wipeup | .maxLength | .safe | .iso8859_1 => true
  | _ => false

/-- A name, and what becomes of it, for two filters that cannot be exchanged. -/
def mixedUp : Cleaner → Cleaner → Option (Bytes × Bytes × Bytes)
  | .uncgi, .lower => some (lit "%41", lit "a", lit "A")
  | .uncgi, .wipeup => some (lit "%2Da", lit "a", lit "-a")
  | .uncgi, .safe => some (lit "%20", lit "_", lit " ")
  | .uncgi, .iso8859_1 => some (lit "%E4", [0xC3, 0xA4], [0xE4])
  | .uncgi, .utf8 => some (lit "%E4", lit "_", [0xE4])
  | .uncgi, .maxLength => some (lit "%41bcd", lit "Abcd", lit "Ab")
  | .utf8, .lower => some ([0xC1, 0x81], lit "a", lit "A")
  | .utf8, .wipeup => some ([0x61, 0x5F, 0x80], lit "a_", lit "a__")
  | .utf8, .safe => some ([0xC0, 0xA6], lit "_and_", lit "&")
  | .utf8, .iso8859_1 => some ([0xE4], lit "_", [0xC3, 0xA4])
  | .utf8, .maxLength => some ([0x61, 0x62, 0xE4, 0x80, 0x63], lit "ab_c", lit "ab_")
  | .maxLength, .wipeup => some (lit "a__bc", lit "a_b", lit "a_bc")
  | .maxLength, .safe => some (lit "a&b", lit "a_and_b", lit "a_an")
  | .maxLength, .iso8859_1 => some ([0x61, 0x62, 0x63, 0xE4], [0x61, 0x62, 0x63, 0xC3, 0xA4], [0x61, 0x62, 0x63, 0xC3])
  | .safe, .wipeup => some (lit "a(_b", lit "a-b", lit "a-_b")
  | .iso8859_1, .safe => some ([0xA0], lit "_", lit " ")
  | .iso8859_1, .wipeup => some ([0x61, 0x5F, 0x80], lit "a_", lit "a__")
  | _, _ => none

/-- The usual filters with their tables. -/
def loadedFilter (c : Cleaner) : Filter :=
  { usualFilter c with
    table := match c with
      | .iso8859_1 => some load_builtin_iso8859_1_table
      | .safe => some load_builtin_safe_table
      | .utf8 => some load_builtin_unicode_table
      | _ => none }

section
variable {P : Platform} {locale : Bytes} {datadir : Option Bytes} {files : Bytes → Option Bytes}

theorem loaded_says (hP : P.Benign) {c : Cleaner} {s v : Bytes} (hs : NulFree s) (h : filterRun P (loadedFilter c) (some s) = .ok (some v)) :
    FilterSays P locale datadir files (usualFilter c) s v := by
  refine filter_says hP (g := loadedFilter c) hs ⟨rfl, rfl, rfl⟩ (fun n hn => ?_) h
  cases c with
  | iso8859_1 => exact ⟨_, _, .builtin _ _ rfl .iso8859_1, rfl, builtin_holds .iso8859_1 .iso8859_1⟩
  | safe => exact ⟨_, _, .builtin _ _ rfl .safe, rfl, builtin_holds .safe .safe⟩
  | utf8 => exact ⟨_, _, .builtin _ _ rfl .unicode, rfl, builtin_holds .unicode .unicode⟩
  | lower => cases hn
  | maxLength => cases hn
  | uncgi => cases hn
  | wipeup => cases hn

/-- Both filters in turn, by computation. -/
def inOrder (P : Platform) (c d : Cleaner) (s v : Bytes) : Bool :=
  match filterRun P (loadedFilter c) (some s) with
  | .ok (some mid) => decide ((0 : Byte) ∉ mid) && decide (filterRun P (loadedFilter d) (some mid) = .ok (some v))
  | _ => false

theorem inOrder_says (hP : P.Benign) {c d : Cleaner} {s v : Bytes} (hs : NulFree s) (h : inOrder P c d s v = true) :
    FiltersSay P locale datadir files [usualFilter c, usualFilter d] s v := by
  unfold inOrder at h
  split at h
  · next mid hm =>
    rw [Bool.and_eq_true, decide_eq_true_iff, decide_eq_true_iff] at h
    exact .cons _ _ _ _ _ (loaded_says hP hs hm) (filtersSay_one.2 (loaded_says hP h.1 h.2))
  · cases h

def allCleaners : List Cleaner := [.iso8859_1, .lower, .maxLength, .safe, .uncgi, .utf8, .wipeup]

theorem mixedUp_runs : ∀ cs, ∀ c ∈ allCleaners, ∀ d ∈ allCleaners, ∀ x, mixedUp c d = some x →
    (0 : Byte) ∉ x.1 ∧ inOrder ⟨cs, true, true⟩ c d x.1 x.2.1 = true ∧ inOrder ⟨cs, true, true⟩ d c x.1 x.2.2 = true ∧ x.2.1 ≠ x.2.2 := by
  have key : ∀ cs, ∀ c ∈ allCleaners, ∀ d ∈ allCleaners, ∀ x ∈ (mixedUp c d).toList,
      (0 : Byte) ∉ x.1 ∧ inOrder ⟨cs, true, true⟩ c d x.1 x.2.1 = true ∧ inOrder ⟨cs, true, true⟩ d c x.1 x.2.2 = true ∧ x.2.1 ≠ x.2.2 := by decide +kernel
  exact fun cs c hc d hd x hx => key cs c hc d hd x (by simp [hx])

theorem mem_allCleaners (c : Cleaner) : c ∈ allCleaners := by cases c <;> decide

theorem mixedUp_not (hP : P.Benign) {c d : Cleaner} {x : Bytes × Bytes × Bytes} (h : mixedUp c d = some x) :
    ¬ CanExchange P locale datadir files (usualFilter c) (usualFilter d) := by
  obtain ⟨cs, a, b⟩ := P
  have hb := hP
  obtain ⟨rfl, rfl⟩ : a = true ∧ b = true := hb
  obtain ⟨h1, h2, h3, h4⟩ := mixedUp_runs cs c (mem_allCleaners c) d (mem_allCleaners d) x h
  intro hx
  exact h4 (filtersSay_unique ((hx _ h1 _).1 (inOrder_says hP h1 h2)) (inOrder_says hP h1 h3))

/-- **C132.** With the compiled-in tables, two different filters can be exchanged if and only if one of them is `lower`, and the other one is `wipeup`, `max_length`, `safe`
or `iso8859_1`. -/
theorem C132_which_filters (hP : P.Benign) {c d : Cleaner} (hne : c ≠ d) : CanExchange P locale datadir files (usualFilter c) (usualFilter d) ↔
    c = .lower ∧ withLower d = true ∨ d = .lower ∧ withLower c = true := by
  have yes : ∀ {d : Cleaner}, withLower d = true → CanExchange P locale datadir files (usualFilter .lower) (usualFilter d) := by
    intro d hd
    cases d with
    | wipeup => exact fun m hm v => C130_lower_and_wipeup rfl rfl hm v
    | maxLength => exact C132_lower_and_max_length rfl rfl
    | safe =>
      refine C132_lower_and_safe rfl rfl (.builtin _ _ rfl .safe) fun c _ => ?_
      rw [says_safe, says_safe]
      exact (forall_byte (p := fun c => (lastOf (writtenRows builtin_safe_rows) (small c).toNat).getD [small c] =
        ((lastOf (writtenRows builtin_safe_rows) c.toNat).getD [c]).map small) (by decide +kernel)) c
    | iso8859_1 => exact C132_lower_and_iso rfl rfl (.builtin _ _ rfl .iso8859_1) (forall_byte (by decide +kernel))
    | lower => cases hd
    | uncgi => cases hd
    | utf8 => cases hd
  constructor
  · intro h
    have all : ∀ c ∈ allCleaners, ∀ d ∈ allCleaners, c ≠ d → (c = .lower ∧ withLower d = true ∨ d = .lower ∧ withLower c = true) ∨
        (mixedUp c d).isSome = true ∨ (mixedUp d c).isSome = true := by decide +kernel
    rcases all c (mem_allCleaners c) d (mem_allCleaners d) hne with h' | h' | h'
    · exact h'
    · obtain ⟨x, hx⟩ := Option.isSome_iff_exists.1 h'
      exact absurd h (mixedUp_not hP hx)
    · obtain ⟨x, hx⟩ := Option.isSome_iff_exists.1 h'
      exact absurd h.symm (mixedUp_not hP hx)
  · rintro (⟨rfl, h⟩ | ⟨rfl, h⟩)
    · exact yes h
    · exact (yes h).symm

end

example : ¬ CanExchange .linux [] none (fun _ => none) (usualFilter .uncgi) (usualFilter .wipeup) := by
  rw [C132_which_filters (by decide) (by decide)]
  decide

example : CanExchange .linux [] none (fun _ => none) (usualFilter .safe) (usualFilter .lower) := (C132_which_filters (by decide) (by decide)).2 (by decide)

end Detox
