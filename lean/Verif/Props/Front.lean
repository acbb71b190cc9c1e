import Verif.Props.Extension

/-!
# C136: the front stays

The counterpart of C135: a name that begins with `report` still begins with it afterwards, unless `max_length` has to shorten it.
-/

set_option autoImplicit false

namespace Detox
open Spec

theorem reduces_front {rt : Bool} {p s o : Bytes} (hp : ∀ x ∈ p, reducible rt x = false) (h : Reduces rt (p ++ s) o) : ∃ b, o = p ++ b := by
  induction p generalizing o with
  | nil => exact ⟨o, rfl⟩
  | cons x p ih =>
    generalize hu : x :: p ++ s = u at h
    cases h with
    | nil => cases hu
    | keep c s' o' _ h =>
      obtain ⟨rfl, rfl⟩ := List.cons.inj hu
      obtain ⟨b, rfl⟩ := ih (fun y hy => hp y (by simp [hy])) h
      exact ⟨b, rfl⟩
    | run r s' o' hr hall _ _ =>
      cases r with
      | nil => exact absurd rfl hr
      | cons y r =>
        obtain ⟨rfl, _⟩ := List.cons.inj hu
        exact absurd (hall x (by simp)) (by simp [hp x (by simp)])

theorem decodes_front {p s o : Bytes} (hp : ∀ x ∈ p, x ≠ 0x25 ∧ x ≠ 0x2B) (h : Decodes (p ++ s) o) : ∃ b, o = p ++ b := by
  induction p generalizing o with
  | nil => exact ⟨o, rfl⟩
  | cons x p ih =>
    generalize hu : x :: p ++ s = u at h
    cases h with
    | nil => cases hu
    | esc h1 h2 v1 v2 rest out _ _ _ => exact absurd (List.cons.inj hu).1 (hp x (by simp)).1
    | plus rest out _ => exact absurd (List.cons.inj hu).1 (hp x (by simp)).2
    | self c rest out _ _ h =>
      obtain ⟨rfl, rfl⟩ := List.cons.inj hu
      obtain ⟨b, rfl⟩ := ih (fun y hy => hp y (by simp [hy])) h
      exact ⟨b, rfl⟩

theorem reads_front {m : TableText} {p s o : Bytes} (hp : ∀ x ∈ p, x.toNat < 0x80 ∧ unicodeSays m x.toNat [x] = [x])
    (h : UnicodeReads m (p ++ s) o) : ∃ b, o = p ++ b := by
  induction p generalizing o with
  | nil => exact ⟨o, rfl⟩
  | cons x p ih =>
    obtain ⟨h1, h2⟩ := hp x (by simp)
    have hlead : leadOf x = some (1, 0) := if_pos h1
    generalize hu : x :: p ++ s = u at h
    cases h with
    | nil => cases hu
    | char u v rest out hun h =>
      obtain ⟨c, conts, w, base, rfl, hl, hw, _, hv⟩ := hun
      obtain ⟨rfl, he⟩ := List.cons.inj hu
      rw [hlead] at hl
      cases hl
      have : conts = [] := List.length_eq_zero_iff.1 (by omega)
      subst this
      have he' : p ++ s = rest := he
      subst he'
      obtain ⟨b, rfl⟩ := ih (fun y hy => hp y (by simp [hy])) h
      refine ⟨b, ?_⟩
      rw [hv]
      exact congrArg (· ++ (p ++ b)) h2
    | broken u rest out hb h =>
      cases hb with
      | stray c _ hc =>
        obtain ⟨rfl, _⟩ := List.cons.inj hu
        rw [hlead] at hc
        cases hc
      | short c conts _ w base hl hw _ _ =>
        obtain ⟨rfl, _⟩ := List.cons.inj hu
        rw [hlead] at hl
        cases hl
        omega

section
variable {P : Platform} {locale : Bytes} {datadir : Option Bytes} {files : Bytes → Option Bytes}

theorem uncgi_keeps {f : Filter} {x : Byte} (hc : f.cleaner = .uncgi) (h1 : FilterSays P locale datadir files f [x] [x]) : x ≠ 0x2B ∧ x ≠ 0 := by
  constructor
  · rintro rfl
    have h0 : FilterSays P locale datadir files f [0x2B] _ := .uncgi _ hc (.plus [] [] .nil)
    have := filterSays_unique h0 h1
    revert this
    decide
  · rintro rfl
    have h0 : FilterSays P locale datadir files f [0] _ := .uncgi _ hc (.self 0 [] [] (by decide) (fun h => absurd h (by decide)) .nil)
    have := filterSays_unique h0 h1
    revert this
    decide

theorem takeWhile_front {p b : Bytes} (hp : ∀ x ∈ p, x ≠ 0) : ∃ b', (p ++ b).takeWhile (· ≠ 0) = p ++ b' := by
  refine ⟨b.takeWhile (· ≠ 0), ?_⟩
  rw [List.takeWhile_append_of_pos]
  intro x hx
  simpa using hp x hx

theorem filter_front {f : Filter} (hf : f.cleaner ≠ .maxLength) {p s out : Bytes} (hdot : (0x2E : Byte) ∉ p) (hpc : (0x25 : Byte) ∉ p)
    (hx : ∀ x ∈ p, FilterSays P locale datadir files f [x] [x]) (h : FilterSays P locale datadir files f (p ++ s) out) : ∃ b, out = p ++ b := by
  have letters : ∀ {k : Byte → Bytes}, (∀ s, FilterSays P locale datadir files f s (s.flatMap k)) → ∃ b, (p ++ s).flatMap k = p ++ b := by
    intro k hk
    refine ⟨s.flatMap k, ?_⟩
    rw [List.flatMap_append, flatMap_kept fun x hxp => ?_]
    have := filterSays_unique (hk [x]) (hx x hxp)
    simpa using this
  cases h with
  | lower hc =>
    rw [List.map_eq_flatMap]
    refine letters fun s => ?_
    rw [← List.map_eq_flatMap]
    exact .lower hc
  | iso8859_1 m hc hm => exact letters fun s => .iso8859_1 m hc hm
  | safe m hc hm => exact letters fun s => .safe m hc hm
  | maxLength _ hc => exact absurd hc hf
  | uncgi o hc hd =>
    obtain ⟨b, rfl⟩ := decodes_front (fun x hxp => ⟨fun h => hpc (h ▸ hxp), (uncgi_keeps hc (hx x hxp)).1⟩) hd
    exact takeWhile_front fun x hxp => (uncgi_keeps hc (hx x hxp)).2
  | wipeup _ hc hw =>
    have keeps : ∀ x ∈ p, reducible f.removeTrailing x = false ∧ leading x = false := fun x hxp =>
      wipeup_keeps hc (fun h0 => hdot (h0 ▸ hxp)) (hx x hxp)
    cases p with
    | nil => exact ⟨out, rfl⟩
    | cons x p =>
      unfold IsWipeup at hw
      rw [List.cons_append, List.dropWhile_cons_of_neg (by simp [(keeps x (by simp)).2])] at hw
      exact reduces_front (p := x :: p) (fun y hy => (keeps y hy).1) hw
  | utf8 m _ hc hm hu => exact reads_front (fun x hxp => utf8_keeps hc hm (hx x hxp)) hu

/-- **C136.** A sequence without `max_length`, all filters of which leave the characters at the front of a name alone, one by one, and none of them a dot or a percent
sign: what the sequence makes of the name begins with the same characters. -/
theorem C136_front_stays {fs : List Filter} (hf : ∀ f ∈ fs, f.cleaner ≠ .maxLength) {p : Bytes} (hdot : (0x2E : Byte) ∉ p) (hpc : (0x25 : Byte) ∉ p)
    (hx : ∀ f ∈ fs, ∀ x ∈ p, FilterSays P locale datadir files f [x] [x]) {s out : Bytes} (h : FiltersSay P locale datadir files fs (p ++ s) out) :
    ∃ b, out = p ++ b := by
  induction fs generalizing s with
  | nil => cases h; exact ⟨s, rfl⟩
  | cons f fs ih =>
    cases h with
    | cons _ _ _ mid _ h1 h2 =>
      obtain ⟨b, rfl⟩ := filter_front (hf f (by simp)) hdot hpc (hx f (by simp)) h1
      exact ih (fun g hg => hf g (by simp [hg])) (fun g hg => hx g (by simp [hg])) h2

/-- **C136.** With the compiled-in tables this holds of every sequence without `max_length` and of all small letters and digits at the front. -/
theorem C136_usual_fronts (hP : P.Benign) {cs : List Cleaner} (hu : Cleaner.maxLength ∉ cs) {p : Bytes}
    (hp : ∀ x ∈ p, (0x61 ≤ x.toNat ∧ x.toNat ≤ 0x7A) ∨ (0x30 ≤ x.toNat ∧ x.toNat ≤ 0x39)) {s out : Bytes}
    (h : FiltersSay P locale datadir files (cs.map usualFilter) (p ++ s) out) : ∃ b, out = p ++ b := by
  refine C136_front_stays ?_ (fun hd => absurd (hp _ hd) (by decide)) (fun hd => absurd (hp _ hd) (by decide)) ?_ h
  · intro f hf
    obtain ⟨c, hc, rfl⟩ := List.mem_map.1 hf
    cases c <;> first | exact absurd hc hu | exact nofun
  · intro f hf x hx
    obtain ⟨c, _, rfl⟩ := List.mem_map.1 hf
    refine usual_keeps hP c ?_
    rcases hp x hx with h | h
    · exact .inl h
    · exact .inr (.inl h)

/-- **C136.** `max_length` is rightly left out: with a limit of four it makes `repo` of `report`. So is the percent sign: `uncgi` leaves it alone, but makes `A` of `%41`.
So is the dot: `wipeup` with `remove_trailing` leaves one alone, but makes one of two. -/
theorem C136_not_for_all (hP : P.Benign) :
    FilterSays P locale datadir files (usualFilter .maxLength) (lit "report") (lit "repo") ∧
    (FilterSays P locale datadir files (usualFilter .uncgi) (lit "%") (lit "%") ∧ FilterSays P locale datadir files (usualFilter .uncgi) (lit "%41") (lit "A")) ∧
    (∀ f : Filter, f.cleaner = .wipeup → f.removeTrailing = true →
      FilterSays P locale datadir files f (lit ".") (lit ".") ∧ FilterSays P locale datadir files f (lit "..") (lit ".")) := by
  have hb := hP
  obtain ⟨sc, p, q⟩ := P
  obtain ⟨rfl, rfl⟩ : p = true ∧ q = true := hb
  refine ⟨loaded_says hP (by unfold NulFree; decide +kernel) (by cases sc <;> decide +kernel),
    ⟨loaded_says hP (by unfold NulFree; decide +kernel) (by cases sc <;> decide +kernel),
      loaded_says hP (by unfold NulFree; decide +kernel) (by cases sc <;> decide +kernel)⟩, fun f hc hr => ⟨.wipeup _ hc ?_, .wipeup _ hc ?_⟩⟩
  · rw [hr]
    exact .run (lit ".") [] [] (by decide) (by decide) (by simp) .nil
  · rw [hr]
    exact .run (lit "..") [] [] (by decide) (by decide) (by simp) .nil

end

/-- A name that meets the hypotheses: `safe` and `wipeup` make `ab_c` of `ab _c`. -/
example : ∃ b, lit "ab_c" = lit "ab" ++ b := by
  have h1 : FilterSays .linux [] none (fun _ => none) (usualFilter .safe) (lit "ab" ++ lit " _c") (lit "ab__c") :=
    loaded_says (by decide) (by unfold NulFree; decide +kernel) (by decide +kernel)
  have h2 : FilterSays .linux [] none (fun _ => none) (usualFilter .wipeup) (lit "ab__c") (lit "ab_c") :=
    loaded_says (by decide) (by unfold NulFree; decide +kernel) (by decide +kernel)
  exact C136_usual_fronts (cs := [.safe, .wipeup]) (by decide) (by decide) (by decide) (.cons _ _ _ _ _ h1 (.cons _ _ _ _ _ h2 (.nil _)))

end Detox
