import Verif.Props.Repeat

/-!
# C135: the extension stays

A file that ends in `.txt` still ends in `.txt` afterwards: no filter but `uncgi` touches an extension of characters that it leaves alone one by one.
-/

set_option autoImplicit false

namespace Detox
open Spec

section
variable {rt : Bool}

theorem reduces_kept {e o : Bytes} (he : ∀ x ∈ e, reducible rt x = false) (h : Reduces rt e o) : o = e := by
  induction h with
  | nil => rfl
  | keep c s o _ _ ih => rw [ih fun x hx => he x (by simp [hx])]
  | run r s o hr hall _ _ _ =>
    cases r with
    | nil => exact absurd rfl hr
    | cons x r => exact absurd (hall x (by simp)) (by simp [he x (by simp)])

theorem reduces_extension {e u o : Bytes} (he : ∀ x ∈ e, reducible rt x = false) (h : Reduces rt u o) :
    ∀ w, u = w ++ 0x2E :: e → ∃ b, o = b ++ 0x2E :: e := by
  induction h with
  | nil => intro w hw; simp at hw
  | keep c s o _ h ih =>
    intro w hw
    cases w with
    | nil =>
      obtain ⟨rfl, rfl⟩ := List.cons.inj hw
      exact ⟨[], by rw [reduces_kept he h]; rfl⟩
    | cons x w =>
      obtain ⟨b, rfl⟩ := ih w (List.cons.inj hw).2
      exact ⟨c :: b, rfl⟩
  | run r s o hr hall _ h ih =>
    intro w hw
    rcases List.append_eq_append_iff.1 hw with ⟨w2, rfl, h2⟩ | ⟨r2, rfl, h2⟩
    · obtain ⟨b, rfl⟩ := ih w2 h2
      exact ⟨runChar r :: b, rfl⟩
    · cases r2 with
      | nil =>
        obtain ⟨b, rfl⟩ := ih [] h2.symm
        exact ⟨_ :: b, rfl⟩
      | cons x r3 =>
        obtain ⟨rfl, rfl⟩ := List.cons.inj h2
        cases r3 with
        | nil =>
          rw [reduces_kept he h, show runChar (w ++ [0x2E]) = 0x2E from if_pos (by simp)]
          exact ⟨[], rfl⟩
        | cons y r3 => exact absurd (hall y (by simp)) (by simp [he y (by simp)])

theorem dropWhile_extension (a e : Bytes) : ∃ w, (a ++ 0x2E :: e).dropWhile leading = w ++ 0x2E :: e := by
  induction a with
  | nil => exact ⟨[], rfl⟩
  | cons c a ih =>
    cases hc : leading c with
    | true => rw [List.cons_append, List.dropWhile_cons_of_pos hc]; exact ih
    | false => rw [List.cons_append, List.dropWhile_cons_of_neg (by simp [hc])]; exact ⟨c :: a, rfl⟩

end

theorem shortens_extension {limit : Nat} {a e out : Bytes} (hne : e ≠ []) (hdot : (0x2E : Byte) ∉ e) (h : Shortens limit (a ++ 0x2E :: e) out) :
    ∃ b, out = b ++ 0x2E :: e := by
  have at_dot : (a ++ 0x2E :: e)[a.length]? = some 0x2E := by simp
  have after : ∀ j, a.length < j → (a ++ 0x2E :: e)[j]? ≠ some 0x2E := by
    intro j hj hx
    rw [List.getElem?_append_right (by omega)] at hx
    obtain ⟨k, hk⟩ : ∃ k, j - a.length = k + 1 := ⟨j - a.length - 1, by omega⟩
    rw [hk, List.getElem?_cons_succ] at hx
    exact hdot (List.mem_of_getElem? hx)
  have last : ∀ d, LastDot (a ++ 0x2E :: e) d → d = a.length := by
    rintro d ⟨h1, h2⟩
    rcases Nat.lt_trichotomy d a.length with hd | hd | hd
    · exact absurd at_dot (h2 _ hd)
    · exact hd
    · exact absurd h1 (after d hd)
  cases h with
  | fits _ => exact ⟨a, rfl⟩
  | hopeless _ _ _ _ => exact ⟨a, rfl⟩
  | plain _ hn =>
    rcases hn with hn | hn
    · exact absurd at_dot (hn _)
    · have := last _ hn
      have : 0 < e.length := List.length_pos_iff.2 hne
      simp only [List.length_append, List.length_cons] at *
      omega
  | cut p body _ hp _ _ _ =>
    obtain ⟨d, hd, _, hpos⟩ := hp
    have hle : p ≤ a.length := by
      have := last d hd
      rcases hpos with ⟨h, _⟩ | ⟨_, h, _⟩ <;> omega
    rw [List.drop_append_of_le_length hle, ← List.append_assoc]
    exact ⟨_, rfl⟩

section
variable {m : TableText}

theorem reads_kept {s out : Bytes} (h : UnicodeReads m s out) (he : ∀ x ∈ s, x.toNat < 0x80 ∧ unicodeSays m x.toNat [x] = [x]) : out = s := by
  induction h with
  | nil => rfl
  | char u v rest out hu _ ih =>
    rw [ih fun x hx => he x (by simp [hx])]
    obtain ⟨c, conts, w, base, rfl, hl, hw, _, hv⟩ := hu
    obtain ⟨h1, h2⟩ := he c (by simp)
    have hl' : leadOf c = some (1, 0) := if_pos h1
    rw [hl'] at hl
    cases hl
    have : conts = [] := List.length_eq_zero_iff.1 (by omega)
    subst this
    rw [hv]
    exact congrArg (· ++ rest) h2
  | broken u rest out hu _ _ =>
    cases hu with
    | stray c _ hc =>
      obtain ⟨h1, _⟩ := he c (by simp)
      rw [show leadOf c = some (1, 0) from if_pos h1] at hc
      cases hc
    | short c conts _ w base hl hw _ _ =>
      obtain ⟨h1, _⟩ := he c (by simp)
      rw [show leadOf c = some (1, 0) from if_pos h1] at hl
      cases hl
      omega

theorem reads_extension {s out e : Bytes} (h : UnicodeReads m s out) (he : ∀ x ∈ e, x.toNat < 0x80 ∧ unicodeSays m x.toNat [x] = [x]) :
    ∀ a, s = a ++ e → ∃ b, out = b ++ e := by
  have ends : ∀ {u : Bytes}, (∀ x ∈ u.tail, isCont x = true) → ∀ {a u2 rest : Bytes}, u = a ++ u2 → e = u2 ++ rest → a = [] ∨ u2 = [] := by
    intro u hu a u2 rest h1 h2
    cases a with
    | nil => exact .inl rfl
    | cons y a =>
      cases u2 with
      | nil => exact .inr rfl
      | cons x u2 =>
        have hx := hu x (by rw [h1]; simp)
        have := (he x (by rw [h2]; simp)).1
        unfold isCont at hx
        rw [Bool.and_eq_true, decide_eq_true_iff] at hx
        omega
  induction h with
  | nil =>
    intro a ha
    obtain ⟨_, rfl⟩ := List.append_eq_nil_iff.1 ha.symm
    exact ⟨[], rfl⟩
  | char u v rest out hu h ih =>
    intro a ha
    rcases List.append_eq_append_iff.1 ha with ⟨a2, rfl, h2⟩ | ⟨u2, h1, h2⟩
    · obtain ⟨b, rfl⟩ := ih a2 h2
      exact ⟨_ ++ b, (List.append_assoc _ _ _).symm⟩
    · have hc : ∀ x ∈ u.tail, isCont x = true := by
        obtain ⟨c, conts, _, _, rfl, _, _, hx, _⟩ := hu
        exact hx
      rcases ends hc h1 h2 with rfl | rfl
      · rw [List.nil_append] at h1 ha
        subst h1
        exact ⟨[], by rw [reads_kept (.char _ _ _ _ hu h) (by rw [← h2]; exact he), ← h2]; rfl⟩
      · rw [List.nil_append] at h2
        obtain ⟨b, rfl⟩ := ih [] h2.symm
        exact ⟨_ ++ b, (List.append_assoc _ _ _).symm⟩
  | broken u rest out hu h ih =>
    intro a ha
    rcases List.append_eq_append_iff.1 ha with ⟨a2, rfl, h2⟩ | ⟨u2, h1, h2⟩
    · obtain ⟨b, rfl⟩ := ih a2 h2
      exact ⟨_ ++ b, (List.append_assoc _ _ _).symm⟩
    · have hc : ∀ x ∈ u.tail, isCont x = true := by
        cases hu with
        | stray c _ _ => simp
        | short c conts _ _ _ _ _ hx _ => exact hx
      rcases ends hc h1 h2 with rfl | rfl
      · rw [List.nil_append] at h1 ha
        subst h1
        exact ⟨[], by rw [reads_kept (.broken _ _ _ hu h) (by rw [← h2]; exact he), ← h2]; rfl⟩
      · rw [List.nil_append] at h2
        obtain ⟨b, rfl⟩ := ih [] h2.symm
        exact ⟨_ ++ b, (List.append_assoc _ _ _).symm⟩

end

section
variable {P : Platform} {locale : Bytes} {datadir : Option Bytes} {files : Bytes → Option Bytes}

theorem flatMap_kept {k : Byte → Bytes} {e : Bytes} (h : ∀ x ∈ e, k x = [x]) : e.flatMap k = e := by
  induction e with
  | nil => rfl
  | cons x e ih => rw [List.flatMap_cons, h x (by simp), ih fun y hy => h y (by simp [hy])]; rfl

theorem utf8_filter_reads {f : Filter} {y z : Bytes} (h : FilterSays P locale datadir files f y z) (hc : f.cleaner = .utf8) :
    ∃ m, TableSays locale datadir files f m ∧ UnicodeReads m y z := by
  cases h with
  | utf8 m _ _ hm hu => exact ⟨m, hm, hu⟩
  | lower h => rw [h] at hc; cases hc
  | wipeup _ h => rw [h] at hc; cases hc
  | uncgi _ h => rw [h] at hc; cases hc
  | maxLength _ h => rw [h] at hc; cases hc
  | iso8859_1 _ h => rw [h] at hc; cases hc
  | safe _ h => rw [h] at hc; cases hc

theorem utf8_keeps {f : Filter} {m : TableText} {x : Byte} (hc : f.cleaner = .utf8) (hm : TableSays locale datadir files f m)
    (h1 : FilterSays P locale datadir files f [x] [x]) : x.toNat < 0x80 ∧ unicodeSays m x.toNat [x] = [x] := by
  obtain ⟨m', hm', hu'⟩ := utf8_filter_reads h1 hc
  rw [tableSays_unique hm' hm] at hu'
  have low : x.toNat < 0x80 := by
    apply Nat.lt_of_not_le
    intro hge
    have hb : BrokenOff [x] [] := by
      cases hl : leadOf x with
      | none => exact .stray x [] hl
      | some p =>
        obtain ⟨w, base⟩ := p
        have hw : 1 < w := by
          unfold leadOf at hl
          rw [if_neg (by omega)] at hl
          repeat' split at hl
          all_goals first | cases hl; done | (cases hl; omega)
        exact .short x [] [] w base hl (by simpa using hw) (by simp) nofun
    have h3 : UnicodeReads m [x] (lit "_" ++ []) := .broken [x] [] [] hb .nil
    have h4 := reads_unique hu' h3
    have : x = 0x5F := (List.cons.inj h4).1
    rw [this] at hge
    exact absurd hge (by decide)
  refine ⟨low, ?_⟩
  have h3 : UnicodeReads m ([x] ++ []) (unicodeSays m x.toNat [x] ++ []) := .char [x] x.toNat [] [] ⟨x, [], 1, 0, rfl, if_pos low, rfl, by simp, by simp⟩ .nil
  simpa using (reads_unique hu' h3).symm

theorem wipeup_keeps {f : Filter} {x : Byte} (hc : f.cleaner = .wipeup) (hdot : x ≠ 0x2E) (h1 : FilterSays P locale datadir files f [x] [x]) :
    reducible f.removeTrailing x = false ∧ leading x = false := by
  have lead : ∀ (rt : Bool) (x : Byte), x ≠ 0x2E → reducible rt x = true → leading x = true := by
    intro rt
    cases rt <;> exact forall_byte (by decide +kernel)
  have hl : leading x = false := by
    cases hl : leading x with
    | false => rfl
    | true =>
      have h0 : FilterSays P locale datadir files f [x] [] := by
        refine .wipeup _ hc ?_
        unfold IsWipeup
        rw [List.dropWhile_cons_of_pos hl]
        exact .nil
      cases filterSays_unique h0 h1
  refine ⟨?_, hl⟩
  cases hr : reducible f.removeTrailing x with
  | false => rfl
  | true => rw [lead _ x hdot hr] at hl; cases hl

theorem filter_extension {f : Filter} (hf : f.cleaner ≠ .uncgi) {a e out : Bytes} (hne : e ≠ []) (hdot : (0x2E : Byte) ∉ e)
    (hx : ∀ x ∈ (0x2E : Byte) :: e, FilterSays P locale datadir files f [x] [x]) (h : FilterSays P locale datadir files f (a ++ 0x2E :: e) out) :
    ∃ b, out = b ++ 0x2E :: e := by
  have letters : ∀ {k : Byte → Bytes}, (∀ s, FilterSays P locale datadir files f s (s.flatMap k)) → ∃ b, (a ++ 0x2E :: e).flatMap k = b ++ 0x2E :: e := by
    intro k hk
    refine ⟨a.flatMap k, ?_⟩
    rw [List.flatMap_append]
    refine congrArg _ (flatMap_kept fun x hxe => ?_)
    have := filterSays_unique (hk [x]) (hx x hxe)
    simpa using this
  cases h with
  | lower hc =>
    rw [List.map_eq_flatMap]
    refine letters fun s => ?_
    rw [← List.map_eq_flatMap]
    exact .lower hc
  | iso8859_1 m hc hm => exact letters fun s => .iso8859_1 m hc hm
  | safe m hc hm => exact letters fun s => .safe m hc hm
  | uncgi _ hc => exact absurd hc hf
  | maxLength _ hc hs => exact shortens_extension hne hdot hs
  | wipeup _ hc hw =>
    have he : ∀ x ∈ e, reducible f.removeTrailing x = false := fun x hxe =>
      (wipeup_keeps hc (fun h0 => hdot (h0 ▸ hxe)) (hx x (by simp [hxe]))).1
    obtain ⟨w, ew⟩ := dropWhile_extension a e
    unfold IsWipeup at hw
    exact reduces_extension he hw w ew
  | utf8 m _ hc hm hu => exact reads_extension hu (fun x hxe => utf8_keeps hc hm (hx x hxe)) a rfl

/-- **C135.** A sequence without `uncgi`, all filters of which leave the characters of an extension and the dot alone, one by one: a name with this extension has it
afterwards as well. -/
theorem C135_extension_stays {fs : List Filter} (hf : ∀ f ∈ fs, f.cleaner ≠ .uncgi) {e : Bytes} (hne : e ≠ []) (hdot : (0x2E : Byte) ∉ e)
    (hx : ∀ f ∈ fs, ∀ x ∈ (0x2E : Byte) :: e, FilterSays P locale datadir files f [x] [x]) {a out : Bytes}
    (h : FiltersSay P locale datadir files fs (a ++ 0x2E :: e) out) : ∃ b, out = b ++ 0x2E :: e := by
  induction fs generalizing a with
  | nil => cases h; exact ⟨a, rfl⟩
  | cons f fs ih =>
    cases h with
    | cons _ _ _ mid _ h1 h2 =>
      obtain ⟨b, rfl⟩ := filter_extension (hf f (by simp)) hne hdot (hx f (by simp)) h1
      exact ih (fun g hg => hf g (by simp [hg])) (fun g hg => hx g (by simp [hg])) h2

theorem usual_keeps (hP : P.Benign) (c : Cleaner) {x : Byte} (hr : (0x61 ≤ x.toNat ∧ x.toNat ≤ 0x7A) ∨ (0x30 ≤ x.toNat ∧ x.toNat ≤ 0x39) ∨ x.toNat = 0x2E) :
    FilterSays P locale datadir files (usualFilter c) [x] [x] := by
  have hb := hP
  obtain ⟨sc, p, q⟩ := P
  obtain ⟨rfl, rfl⟩ : p = true ∧ q = true := hb
  have one : ∀ (c : Cleaner) (x : Byte), (0x61 ≤ x.toNat ∧ x.toNat ≤ 0x7A) ∨ (0x30 ≤ x.toNat ∧ x.toNat ≤ 0x39) ∨ x.toNat = 0x2E →
      filterRun ⟨sc, true, true⟩ (loadedFilter c) (some [x]) = .ok (some [x]) := by
    intro c
    cases sc <;> cases c <;> exact forall_byte (by decide +kernel)
  refine loaded_says hP ?_ (one c x hr)
  intro h0
  rw [← List.mem_singleton.1 h0] at hr
  exact absurd hr (by decide)

/-- **C135.** With the compiled-in tables this holds of every sequence without `uncgi` and of every extension of small letters and digits. -/
theorem C135_usual_extensions (hP : P.Benign) {cs : List Cleaner} (hu : Cleaner.uncgi ∉ cs) {e : Bytes} (hne : e ≠ [])
    (he : ∀ x ∈ e, (0x61 ≤ x.toNat ∧ x.toNat ≤ 0x7A) ∨ (0x30 ≤ x.toNat ∧ x.toNat ≤ 0x39)) {a out : Bytes}
    (h : FiltersSay P locale datadir files (cs.map usualFilter) (a ++ 0x2E :: e) out) : ∃ b, out = b ++ 0x2E :: e := by
  refine C135_extension_stays ?_ hne (fun hd => ?_) ?_ h
  · intro f hf
    obtain ⟨c, hc, rfl⟩ := List.mem_map.1 hf
    cases c <;> first | exact absurd hc hu | exact nofun
  · exact absurd (he _ hd) (by decide)
  · intro f hf x hx
    obtain ⟨c, _, rfl⟩ := List.mem_map.1 hf
    have hr : (0x61 ≤ x.toNat ∧ x.toNat ≤ 0x7A) ∨ (0x30 ≤ x.toNat ∧ x.toNat ≤ 0x39) ∨ x.toNat = 0x2E := by
      rcases List.mem_cons.1 hx with rfl | hx
      · exact .inr (.inr rfl)
      · rcases he x hx with h | h
        · exact .inl h
        · exact .inr (.inl h)
    exact usual_keeps hP c hr

/-- **C135.** `uncgi` is rightly left out: it makes `a` of `a%00.txt`, although it leaves each character of `.txt` alone. -/
theorem C135_not_for_uncgi (hP : P.Benign) :
    (∀ x ∈ lit ".txt", FilterSays P locale datadir files (usualFilter .uncgi) [x] [x]) ∧
    FilterSays P locale datadir files (usualFilter .uncgi) (lit "a%00.txt") (lit "a") := by
  have hb := hP
  obtain ⟨sc, p, q⟩ := P
  obtain ⟨rfl, rfl⟩ : p = true ∧ q = true := hb
  constructor
  · intro x hx
    have all : ∀ x ∈ lit ".txt", NulFree [x] ∧ filterRun ⟨sc, true, true⟩ (loadedFilter .uncgi) (some [x]) = .ok (some [x]) := by
      unfold NulFree
      cases sc <;> decide +kernel
    exact loaded_says hP (all x hx).1 (all x hx).2
  · exact loaded_says hP (by unfold NulFree; decide +kernel) (by cases sc <;> decide +kernel)

end

/-- A name that meets the hypotheses: `safe` and `wipeup` make `.txt` of `_ .txt`. -/
example : ∃ b, lit ".txt" = b ++ 0x2E :: lit "txt" := by
  have h1 : FilterSays .linux [] none (fun _ => none) (usualFilter .safe) (lit "_ " ++ 0x2E :: lit "txt") (lit "__.txt") :=
    loaded_says (by decide) (by unfold NulFree; decide +kernel) (by decide +kernel)
  have h2 : FilterSays .linux [] none (fun _ => none) (usualFilter .wipeup) (lit "__.txt") (lit ".txt") :=
    loaded_says (by decide) (by unfold NulFree; decide +kernel) (by decide +kernel)
  exact C135_usual_extensions (cs := [.safe, .wipeup]) (by decide) (by decide) (by decide) (by decide) (.cons _ _ _ _ _ h1 (.cons _ _ _ _ _ h2 (.nil _)))

end Detox
