import Verif.Model.Counters
import Verif.Spec.Counters
import Verif.Lemmas.Utf8
import Verif.Lemmas.Wipeup
import Verif.Lemmas.Trace

/-!
# Filters with counters and without
-/

set_option autoImplicit false

namespace Detox
open Spec

/-- The table with its counters at zero. -/
def Table.reset (t : Table) : Table := { t with hits := 0, misses := 0, seeks := 0 }

/-- The largest of the counters. -/
def Table.most (t : Table) : Nat := max t.hits (max t.misses t.seeks)

def Filter.reset (f : Filter) : Filter := { f with table := f.table.map Table.reset }

/-! ### What is the same with and without counters -/

/-- A result with a state, and one without: alike, unless a counter overflowed. -/
inductive Alike {σ α : Type} (Ok : σ → Prop) (Over : Prop) : Res (σ × α) → Res α → Prop
  | ok (s : σ) (a : α) : Ok s → Alike Ok Over (.ok (s, a)) (.ok a)
  | over (y : Res α) : Over → Alike Ok Over (.ub .intOverflow) y
  | exit (n : Nat) : Alike Ok Over (.exit n) (.exit n)
  | ub (u : UB) : Alike Ok Over (.ub u) (.ub u)
  | stuck : Alike Ok Over .stuck .stuck

theorem Alike.bind {σ τ α β : Type} {Ok : σ → Prop} {Ok' : τ → Prop} {Over Over' : Prop} {x : Res (σ × α)} {y : Res α} (h : Alike Ok Over x y)
    {f : σ × α → Res (τ × β)} {g : α → Res β} (ho : Over → Over') (hf : ∀ s a, Ok s → y = .ok a → Alike Ok' Over' (f (s, a)) (g a)) :
    Alike Ok' Over' (x >>= f) (y >>= g) := by
  cases h with
  | ok s a h => exact hf s a h rfl
  | over y h => exact .over _ (ho h)
  | exit n => exact .exit n
  | ub u => exact .ub u
  | stuck => exact .stuck

theorem Alike.same {τ α β : Type} {Ok : τ → Prop} {Over : Prop} (x : Res α) {f : α → Res (τ × β)} {g : α → Res β}
    (hf : ∀ a, x = .ok a → Alike Ok Over (f a) (g a)) : Alike Ok Over (x >>= f) (x >>= g) := by
  cases x with
  | ok a => exact hf a rfl
  | exit n => exact .exit n
  | ub u => exact .ub u
  | stuck => exact .stuck

theorem Alike.mono {σ α : Type} {Ok Ok' : σ → Prop} {Over Over' : Prop} {x : Res (σ × α)} {y : Res α} (h : Alike Ok Over x y)
    (h1 : ∀ s, Ok s → Ok' s) (h2 : Over → Over') : Alike Ok' Over' x y := by
  cases h with
  | ok s a h => exact .ok s a (h1 s h)
  | over y h => exact .over _ (h2 h)
  | exit n => exact .exit n
  | ub u => exact .ub u
  | stuck => exact .stuck

/-! ### Lookups -/

theorem tableGet_alike {t t' : Table} (h : t'.reset = t.reset) (k : Nat) : tableGet t' k = tableGet t k := by
  have : tableGet t'.reset k = tableGet t.reset k := by rw [h]
  exact this

theorem default_alike {t t' : Table} (h : t'.reset = t.reset) : t'.defaultTranslation = t.defaultTranslation := by
  have : t'.reset.defaultTranslation = t.reset.defaultTranslation := by rw [h]
  exact this

theorem maxData_alike {t t' : Table} (h : t'.reset = t.reset) : t'.maxDataLength = t.maxDataLength := by
  have : t'.reset.maxDataLength = t.reset.maxDataLength := by rw [h]
  exact this

theorem tableGetCounted_counts {t0 t : Table} (h : t.reset = t0.reset) (k : Nat) :
    Alike (fun t' => t'.reset = t0.reset ∧ t'.most ≤ t.most + 1) (intMax < t.most + 1) (tableGetCounted t k) (.ok (tableGet t0 k)) := by
  rw [← tableGet_alike h]
  unfold tableGetCounted tableGet countUp
  split
  · exact .ok _ _ ⟨h, by omega⟩
  · cases hp : t.getProbe k with
    | some i =>
      simp only
      split
      · refine .ok _ _ ⟨h, ?_⟩
        unfold Table.most
        simp only
        omega
      · exact .over _ (by unfold Table.most; omega)
    | none =>
      simp only
      by_cases h1 : t.seeks < intMax
      · rw [if_pos h1]
        simp only [Res.bind_ok]
        cases t.getScan k with
        | none =>
          simp only
          split
          · refine .ok _ _ ⟨h, ?_⟩
            unfold Table.most
            simp only
            omega
          · exact .over _ (by unfold Table.most; omega)
        | some i =>
          simp only
          split
          · refine .ok _ _ ⟨h, ?_⟩
            unfold Table.most
            simp only
            omega
          · exact .over _ (by unfold Table.most; omega)
      · rw [if_neg h1]
        exact .over _ (by unfold Table.most; omega)

/-! ### Loops -/

theorem isoLoop_counts (t0 : Table) : ∀ (s : Bytes) (t : Table) (o : OutBuf), t.reset = t0.reset →
    Alike (fun t' => t'.reset = t0.reset ∧ t'.most ≤ t.most + s.length) (intMax < t.most + s.length) (cleanIsoLoopCounted t o s) (cleanIsoLoop t0 o s)
  | [], t, o, h => .ok _ _ ⟨h, by simp⟩
  | c :: s, t, o, h => by
    have next : ∀ t' o', t'.reset = t0.reset → t'.most ≤ t.most + 1 →
        Alike (fun t' => t'.reset = t0.reset ∧ t'.most ≤ t.most + (c :: s).length) (intMax < t.most + (c :: s).length)
          (cleanIsoLoopCounted t' o' s) (cleanIsoLoop t0 o' s) := by
      intro t' o' h1 h2
      refine (isoLoop_counts t0 s t' o' h1).mono (fun t'' ⟨h3, h4⟩ => ⟨h3, ?_⟩) fun h => ?_ <;> (rw [List.length_cons]; omega)
    unfold cleanIsoLoopCounted cleanIsoLoop
    split
    · exact .same _ fun o' _ => next t o' h (by omega)
    · refine (tableGetCounted_counts h c.toNat).bind (fun h => by rw [List.length_cons]; omega) ?_ (g := fun r => match r with
        | some r => do let o ← o.pushStr r; cleanIsoLoop t0 o s
        | none => match t0.defaultTranslation with
          | none => do let o ← o.push c; cleanIsoLoop t0 o s
          | some d => do let o ← o.pushStr d; cleanIsoLoop t0 o s)
      rintro t' a ⟨h1, h2⟩ -
      simp only
      rw [default_alike h1]
      cases a with
      | some r => exact .same _ fun o' _ => next t' o' h1 h2
      | none =>
        simp only
        cases t0.defaultTranslation with
        | none => exact .same _ fun o' _ => next t' o' h1 h2
        | some d => exact .same _ fun o' _ => next t' o' h1 h2

theorem safeLoop_counts (P : Platform) (t0 : Table) : ∀ (s : Bytes) (t : Table) (o : OutBuf), t.reset = t0.reset →
    Alike (fun t' => t'.reset = t0.reset ∧ t'.most ≤ t.most + s.length) (intMax < t.most + s.length) (cleanSafeLoopCounted P t o s)
      (cleanSafeLoop P t0 o s)
  | [], t, o, h => .ok _ _ ⟨h, by simp⟩
  | c :: s, t, o, h => by
    have next : ∀ t' o', t'.reset = t0.reset → t'.most ≤ t.most + 1 →
        Alike (fun t' => t'.reset = t0.reset ∧ t'.most ≤ t.most + (c :: s).length) (intMax < t.most + (c :: s).length)
          (cleanSafeLoopCounted P t' o' s) (cleanSafeLoop P t0 o' s) := by
      intro t' o' h1 h2
      refine (safeLoop_counts P t0 s t' o' h1).mono (fun t'' ⟨h3, h4⟩ => ⟨h3, ?_⟩) fun h => ?_ <;> (rw [List.length_cons]; omega)
    unfold cleanSafeLoopCounted cleanSafeLoop
    refine (tableGetCounted_counts h (P.charToUInt c)).bind (fun h => by rw [List.length_cons]; omega) ?_ (g := fun r => match r with
      | some r => do let o ← o.pushStr r; cleanSafeLoop P t0 o s
      | none => match t0.defaultTranslation with
        | none => do let o ← o.push c; cleanSafeLoop P t0 o s
        | some d => do let o ← o.pushStr d; cleanSafeLoop P t0 o s)
    rintro t' a ⟨h1, h2⟩ -
    simp only
    rw [default_alike h1]
    cases a with
    | some r => exact .same _ fun o' _ => next t' o' h1 h2
    | none =>
      simp only
      cases t0.defaultTranslation with
      | none => exact .same _ fun o' _ => next t' o' h1 h2
      | some d => exact .same _ fun o' _ => next t' o' h1 h2

theorem utf8Replacement_counts {t0 t : Table} (h : t.reset = t0.reset) (v : Nat) :
    Alike (fun t' => t'.reset = t0.reset ∧ t'.most ≤ t.most + 1) (intMax < t.most + 1) (utf8ReplacementCounted t v) (.ok (utf8Replacement t0 v)) := by
  unfold utf8ReplacementCounted utf8Replacement
  refine (tableGetCounted_counts h v).bind id ?_ (g := fun r => .ok
    (let r := if r = none ∧ v = 0 then some nullReplacement else r
     let r := if r = none ∧ v > unicodeMax then some [invalidReplacement] else r
     if r = none then t0.defaultTranslation else r))
  rintro t' a ⟨h1, h2⟩ -
  simp only
  rw [default_alike h1]
  exact .ok _ _ ⟨h1, h2⟩

theorem utf8Loop_counts (t0 : Table) : ∀ (n : Nat) (s : Bytes) (t : Table) (o : OutBuf), t.reset = t0.reset →
    Alike (fun t' => t'.reset = t0.reset ∧ t'.most ≤ t.most + s.length) (intMax < t.most + s.length) (cleanUtf8LoopCounted t n o s)
      (cleanUtf8Loop t0 n o s)
  | 0, [], t, o, h => .ok _ _ ⟨h, by simp⟩
  | n + 1, [], t, o, h => .ok _ _ ⟨h, by simp⟩
  | 0, c :: s, t, o, h => .stuck
  | n + 1, c :: s, t, o, h => by
    have next : ∀ t' o' s', t'.reset = t0.reset → t'.most ≤ t.most + 1 → s'.length ≤ s.length →
        Alike (fun t' => t'.reset = t0.reset ∧ t'.most ≤ t.most + (c :: s).length) (intMax < t.most + (c :: s).length)
          (cleanUtf8LoopCounted t' n o' s') (cleanUtf8Loop t0 n o' s') := by
      intro t' o' s' h1 h2 h3
      refine (utf8Loop_counts t0 n s' t' o' h1).mono (fun t'' ⟨h3, h4⟩ => ⟨h3, ?_⟩) fun h => ?_ <;> (rw [List.length_cons]; omega)
    unfold cleanUtf8LoopCounted cleanUtf8Loop
    cases utf8Width c with
    | none => exact .same _ fun o' _ => next t o' s h (by omega) (by omega)
    | some w =>
      simp only
      have hl := eatCont_length (w - 1) (unpackStart w c) s
      generalize eatCont (w - 1) (unpackStart w c) s = p at hl
      obtain ⟨r, s'⟩ := p
      cases r with
      | none => exact .same _ fun o' _ => next t o' s' h (by omega) hl
      | some v =>
        simp only
        refine (utf8Replacement_counts h v).bind (fun h => by rw [List.length_cons]; omega) ?_ (g := fun r => match r with
          | none => do let o ← o.pushStr ((c :: s).take w); cleanUtf8Loop t0 n o s'
          | some r => do let o ← o.pushStr r; cleanUtf8Loop t0 n o s')
        rintro t' a ⟨h1, h2⟩ -
        cases a with
        | none => exact .same _ fun o' _ => next t' o' s' h1 h2 hl
        | some r => exact .same _ fun o' _ => next t' o' s' h1 h2 hl

/-! ### Filters -/

/-- Two tables, or none, that differ only in the counters. -/
theorem reset_some {t0 : Option Table} {t : Option Table} (h : t.map Table.reset = t0.map Table.reset) :
    (t = none ∧ t0 = none) ∨ ∃ a b, t = some a ∧ t0 = some b ∧ a.reset = b.reset := by
  cases t with
  | none =>
    cases t0 with
    | none => exact .inl ⟨rfl, rfl⟩
    | some b => cases h
  | some a =>
    cases t0 with
    | none => cases h
    | some b => exact .inr ⟨a, b, rfl, rfl, Option.some.inj h⟩

/-- A filter that uses its table, without the counters. -/
def cleanPlain (plain : Table → OutBuf → Bytes → Res OutBuf) (t : Option Table) (s : Bytes) : Res Bytes :=
  match t with
  | none => .exit 1
  | some t => do
    let o ← plain t (OutBuf.alloc (s.length * t.maxDataLength + 1)) s
    o.finish

theorem cleanIso_plain (t : Option Table) (s : Bytes) : cleanIso t s = cleanPlain cleanIsoLoop t s := by cases t <;> rfl

theorem cleanSafe_plain (P : Platform) (t : Option Table) (s : Bytes) : cleanSafe P t s = cleanPlain (cleanSafeLoop P) t s := by cases t <;> rfl

theorem cleanUtf8_plain (t : Option Table) (s : Bytes) : cleanUtf8 t s = cleanPlain (fun t o s => cleanUtf8Loop t s.length o s) t s := by
  cases t <;> rfl

theorem clean_counts {loop : Table → OutBuf → Bytes → Res (Table × OutBuf)} {plain : Table → OutBuf → Bytes → Res OutBuf} {s : Bytes}
    (hl : ∀ t0 t o, t.reset = t0.reset →
      Alike (fun t' => t'.reset = t0.reset ∧ t'.most ≤ t.most + s.length) (intMax < t.most + s.length) (loop t o s) (plain t0 o s))
    {t0 t : Option Table} (h : t.map Table.reset = t0.map Table.reset) {b : Nat} (hb : ∀ a, t = some a → a.most ≤ b) :
    Alike (fun t' => t'.map Table.reset = t0.map Table.reset ∧ ∀ a, t' = some a → a.most ≤ b + s.length) (intMax < b + s.length)
      (cleanCounted loop t s) (cleanPlain plain t0 s) := by
  rcases reset_some h with ⟨rfl, rfl⟩ | ⟨t, t0, rfl, rfl, h'⟩
  · exact .exit 1
  · have h := h'
    unfold cleanCounted cleanPlain
    simp only
    rw [maxData_alike h]
    have hb := hb t rfl
    refine (hl t0 t _ h).bind (fun h => by omega) fun t' o' ⟨h1, h2⟩ _ => ?_
    cases o'.finish with
    | ok r =>
      refine .ok _ _ ⟨congrArg some h1, ?_⟩
      intro a ha
      cases ha
      show t'.most ≤ _
      omega
    | exit n => exact .exit n
    | ub u => exact .ub u
    | stuck => exact .stuck

theorem uncounted_counts {t : Option Table} {Ok : Option Table → Prop} {Over : Prop} (h : Ok t) (x : Res Bytes) : Alike Ok Over (uncounted t x) x := by
  unfold uncounted
  cases x with
  | ok r => exact .ok _ _ h
  | exit n => exact .exit n
  | ub u => exact .ub u
  | stuck => exact .stuck

theorem filterRun_counts (P : Platform) {f0 f : Filter} (h : f.reset = f0.reset) {b : Nat} (hb : LooksUp f0 → ∀ t, f.table = some t → t.most ≤ b)
    (s : Bytes) :
    Alike (fun f' => f'.reset = f0.reset ∧ (LooksUp f0 → ∀ t, f'.table = some t → t.most ≤ b + s.length)) (LooksUp f0 ∧ intMax < b + s.length)
      (filterRunCounted P f (some s)) (filterRun P f0 (some s)) := by
  obtain ⟨c, fn, bi, rt, ml, t⟩ := f
  obtain ⟨c0, fn0, bi0, rt0, ml0, t0⟩ := f0
  unfold Filter.reset at h
  injection h with h1 h2 h3 h4 h5 h6
  subst h1 h2 h3 h4 h5
  unfold filterRunCounted filterRun
  simp only at hb h6 ⊢
  have fin : ∀ (x : Res (Option Table × Bytes)) (y : Res Bytes) (L : Prop), (LooksUp (⟨c, fn, bi, rt, ml, t0⟩ : Filter) → L) →
      Alike (fun t' => t'.map Table.reset = t0.map Table.reset ∧ (L → ∀ a, t' = some a → a.most ≤ b + s.length))
        (LooksUp (⟨c, fn, bi, rt, ml, t0⟩ : Filter) ∧ intMax < b + s.length) x y →
      Alike (fun f' => f'.reset = (⟨c, fn, bi, rt, ml, t0⟩ : Filter).reset ∧ (LooksUp (⟨c, fn, bi, rt, ml, t0⟩ : Filter) → ∀ t, f'.table = some t → t.most ≤ b + s.length))
        (LooksUp (⟨c, fn, bi, rt, ml, t0⟩ : Filter) ∧ intMax < b + s.length)
        (x >>= fun p => .ok ((⟨c, fn, bi, rt, ml, p.1⟩ : Filter), some p.2)) (y >>= fun r => .ok (some r)) := by
    intro x y L hL hc
    refine hc.bind id fun t' r ⟨g1, g2⟩ _ => .ok _ _ ⟨?_, fun hl => g2 (hL hl)⟩
    unfold Filter.reset
    simp only
    rw [g1]
  cases c with
  | iso8859_1 =>
    refine fin _ _ True (fun _ => trivial) ?_
    simp only [cleanIso_plain]
    exact (clean_counts (fun t0 t o h => isoLoop_counts t0 s t o h) h6 (hb (.inl rfl))).mono (fun _ g => ⟨g.1, fun _ => g.2⟩) fun h => ⟨.inl rfl, h⟩
  | safe =>
    refine fin _ _ True (fun _ => trivial) ?_
    simp only [cleanSafe_plain]
    exact (clean_counts (fun t0 t o h => safeLoop_counts P t0 s t o h) h6 (hb (.inr (.inl rfl)))).mono (fun _ g => ⟨g.1, fun _ => g.2⟩)
      fun h => ⟨.inr (.inl rfl), h⟩
  | utf8 =>
    refine fin _ _ True (fun _ => trivial) ?_
    simp only [cleanUtf8_plain]
    exact (clean_counts (loop := fun t o s => cleanUtf8LoopCounted t s.length o s) (fun t0 t o h => utf8Loop_counts t0 s.length s t o h) h6
      (hb (.inr (.inr rfl)))).mono (fun _ g => ⟨g.1, fun _ => g.2⟩) fun h => ⟨.inr (.inr rfl), h⟩
  | lower => exact fin _ _ False (by unfold LooksUp; simp) (uncounted_counts ⟨h6, nofun⟩ _)
  | maxLength => exact fin _ _ False (by unfold LooksUp; simp) (uncounted_counts ⟨h6, nofun⟩ _)
  | uncgi => exact fin _ _ False (by unfold LooksUp; simp) (uncounted_counts ⟨h6, nofun⟩ _)
  | wipeup => exact fin _ _ False (by unfold LooksUp; simp) (uncounted_counts ⟨h6, nofun⟩ _)

/-! ### How long names get -/

theorem finish_length {o : OutBuf} {r : Bytes} (h : o.finish = .ok r) : r.length < o.cap := by
  unfold OutBuf.finish OutBuf.push at h
  split at h
  · next hl =>
    have := Res.ok.inj h
    subst this
    rw [cstr_append_zero]
    exact Nat.lt_of_le_of_lt (List.takeWhile_sublist _).length_le hl
  · cases h

theorem push_cap {o o' : OutBuf} {c : Byte} (h : o.push c = .ok o') : o'.cap = o.cap := by
  unfold OutBuf.push at h
  split at h
  · rw [← Res.ok.inj h]
  · cases h

theorem res_bind_ok {α β : Type} {x : Res α} {f : α → Res β} {b : β} (h : (x >>= f) = .ok b) : ∃ a, x = .ok a ∧ f a = .ok b := by
  cases x with
  | ok a => exact ⟨a, rfl, h⟩
  | exit n => cases h
  | ub u => cases h
  | stuck => cases h

theorem lowerLoop_cap (P : Platform) : ∀ (s : Bytes) (o o' : OutBuf), cleanLowerLoop P o s = .ok o' → o'.cap = o.cap
  | [], o, o', h => by rw [← Res.ok.inj h]
  | c :: s, o, o', h => by
    unfold cleanLowerLoop at h
    obtain ⟨up, _, h⟩ := res_bind_ok h
    split at h
    · obtain ⟨o1, h1, h⟩ := res_bind_ok h
      rw [lowerLoop_cap P s o1 o' h, push_cap h1]
    · obtain ⟨o1, h1, h⟩ := res_bind_ok h
      rw [lowerLoop_cap P s o1 o' h, push_cap h1]

theorem uncgiLoop_cap (P : Platform) : ∀ (n : Nat) (s : Bytes) (o o' : OutBuf), cleanUncgiLoop P n o s = .ok o' → o'.cap = o.cap
  | 0, [], o, o', h => by rw [← Res.ok.inj h]
  | n + 1, [], o, o', h => by rw [← Res.ok.inj h]
  | 0, c :: s, o, o', h => by cases h
  | n + 1, c :: s, o, o', h => by
    unfold cleanUncgiLoop at h
    obtain ⟨esc, _, h⟩ := res_bind_ok h
    split at h
    · obtain ⟨o1, h1, h⟩ := res_bind_ok h
      rw [uncgiLoop_cap P n _ o1 o' h, push_cap h1]
    · split at h
      · obtain ⟨o1, h1, h⟩ := res_bind_ok h
        rw [uncgiLoop_cap P n _ o1 o' h, push_cap h1]
      · obtain ⟨o1, h1, h⟩ := res_bind_ok h
        rw [uncgiLoop_cap P n _ o1 o' h, push_cap h1]

theorem emit_length {cap : Nat} {out r : Bytes} (h : emit cap out = .ok r) : r.length < cap := by
  rw [emit_eq] at h
  split at h
  · next hl =>
    rw [← Res.ok.inj h]
    exact Nat.lt_of_le_of_lt (List.takeWhile_sublist _).length_le hl
  · cases h

theorem cleanMaxLength_length {P : Platform} {m : Nat} {s r : Bytes} (h : cleanMaxLength P m s = .ok r) : r.length ≤ s.length := by
  unfold cleanMaxLength at h
  simp only at h
  generalize (if m = 0 then 256 else m) = L at h
  by_cases h1 : s.length ≤ L
  · rw [if_pos h1] at h; rw [← Res.ok.inj h]; exact Nat.le_refl _
  · rw [if_neg h1] at h
    cases he : strrchrIdx 0x2E s with
    | none =>
      rw [he] at h
      rw [← Res.ok.inj h, List.length_take]
      omega
    | some e =>
      rw [he] at h
      simp only at h
      split at h
      · rw [← Res.ok.inj h, List.length_take]; omega
      · obtain ⟨x, _, h⟩ := res_bind_ok h
        split at h
        · rw [← Res.ok.inj h]; exact Nat.le_refl _
        · rw [← Res.ok.inj h, List.length_append, List.length_take]
          omega

theorem filterRun_length {P : Platform} {f : Filter} {s : Bytes} {r : Option Bytes} (h : filterRun P f (some s) = .ok r) :
    ∃ out, r = some out ∧ out.length ≤ s.length * lengthens f := by
  unfold filterRun at h
  simp only at h
  have short : ∀ out : Bytes, out.length ≤ s.length → out.length ≤ s.length * lengthens f := by
    intro out h
    refine Nat.le_trans h (Nat.le_mul_of_pos_right _ ?_)
    unfold lengthens
    split <;> omega
  have table : ∀ (out : Bytes) t, f.table = some t → LooksUp f → out.length < s.length * t.maxDataLength + 1 → out.length ≤ s.length * lengthens f := by
    intro out t ht hl h
    refine Nat.le_trans (Nat.le_of_lt_succ h) (Nat.mul_le_mul_left _ ?_)
    unfold lengthens
    rw [if_pos hl, ht]
    simp only
    omega
  cases hc : f.cleaner with
  | iso8859_1 =>
    rw [hc] at h
    obtain ⟨out, h1, h2⟩ := res_bind_ok h
    refine ⟨out, (Res.ok.inj h2).symm, ?_⟩
    cases ht : f.table with
    | none => rw [ht] at h1; cases h1
    | some t =>
      rw [ht, cleanIso_eq] at h1
      exact table _ t ht (.inl hc) (emit_length h1)
  | safe =>
    rw [hc] at h
    obtain ⟨out, h1, h2⟩ := res_bind_ok h
    refine ⟨out, (Res.ok.inj h2).symm, ?_⟩
    cases ht : f.table with
    | none => rw [ht] at h1; cases h1
    | some t =>
      rw [ht, cleanSafe_eq] at h1
      exact table _ t ht (.inr (.inl hc)) (emit_length h1)
  | utf8 =>
    rw [hc] at h
    obtain ⟨out, h1, h2⟩ := res_bind_ok h
    refine ⟨out, (Res.ok.inj h2).symm, ?_⟩
    cases ht : f.table with
    | none => rw [ht] at h1; cases h1
    | some t =>
      rw [ht, cleanUtf8_eq] at h1
      exact table _ t ht (.inr (.inr hc)) (emit_length h1)
  | lower =>
    rw [hc] at h
    obtain ⟨out, h1, h2⟩ := res_bind_ok h
    refine ⟨out, (Res.ok.inj h2).symm, ?_⟩
    unfold cleanLower at h1
    obtain ⟨o', h2, h3⟩ := res_bind_ok h1
    have := finish_length h3
    rw [lowerLoop_cap P s _ o' h2] at this
    exact short _ (Nat.le_of_lt_succ this)
  | uncgi =>
    rw [hc] at h
    obtain ⟨out, h1, h2⟩ := res_bind_ok h
    refine ⟨out, (Res.ok.inj h2).symm, ?_⟩
    unfold cleanUncgi at h1
    obtain ⟨o', h2, h3⟩ := res_bind_ok h1
    have := finish_length h3
    rw [uncgiLoop_cap P _ s _ o' h2] at this
    exact short _ (Nat.le_of_lt_succ this)
  | maxLength =>
    rw [hc] at h
    obtain ⟨out, h1, h2⟩ := res_bind_ok h
    refine ⟨out, (Res.ok.inj h2).symm, ?_⟩
    exact short _ (cleanMaxLength_length h1)
  | wipeup =>
    rw [hc] at h
    obtain ⟨out, h1, h2⟩ := res_bind_ok h
    refine ⟨out, (Res.ok.inj h2).symm, ?_⟩
    rw [cleanWipeup_eq] at h1
    have h3 := emit_length h1
    rw [wipeLead_eq] at h3
    have h4 := (List.dropWhile_sublist leading (l := s)).length_le
    exact short _ (by omega)

/-! ### Sequences -/

/-- The filters are those at the start but for the counters, which are as small as they must be after `b` bytes. -/
def Counting : Nat → List Filter → List Filter → Prop
  | _, [], [] => True
  | b, f0 :: fs0, f :: fs => f.reset = f0.reset ∧ (LooksUp f0 → ∀ t, f.table = some t → t.most ≤ b) ∧ Counting (b * lengthens f0) fs0 fs
  | _, _, _ => False

theorem Counting.mono : ∀ {fs0 fs : List Filter} {b b' : Nat}, Counting b fs0 fs → b ≤ b' → Counting b' fs0 fs
  | [], [], _, _, _, _ => trivial
  | [], _ :: _, _, _, h, _ => h.elim
  | _ :: _, [], _, _, h, _ => h.elim
  | _ :: _, _ :: _, _, _, ⟨h1, h2, h3⟩, hb => ⟨h1, fun hl t ht => Nat.le_trans (h2 hl t ht) hb, h3.mono (Nat.mul_le_mul_right _ hb)⟩

theorem Counting.start : ∀ {fs : List Filter}, (∀ f ∈ fs, ∀ t, f.table = some t → t.most = 0) → Counting 0 fs fs
  | [], _ => trivial
  | f :: fs, h => ⟨rfl, fun _ t ht => by rw [h f (by simp) t ht]; exact Nat.le_refl _,
      (Counting.start fun f hf => h f (by simp [hf])).mono (Nat.zero_le _)⟩

theorem runFilters_counts (P : Platform) : ∀ (fs0 fs : List Filter) (b : Nat) (s : Bytes), Counting b fs0 fs →
    Alike (Counting (b + s.length) fs0) (intMax < (b + s.length) * reach fs0) (runFiltersCounted P fs (some s)) (runFilters P fs0 (some s))
  | [], [], _, _, _ => .ok _ _ trivial
  | [], _ :: _, _, _, h => h.elim
  | _ :: _, [], _, _, h => h.elim
  | f0 :: fs0, f :: fs, b, s, ⟨h1, h2, h3⟩ => by
    unfold runFiltersCounted runFilters
    refine (filterRun_counts P h1 h2 s).bind ?_ ?_
    · rintro ⟨g1, g2⟩
      unfold reach
      rw [if_pos g1]
      exact Nat.lt_of_lt_of_le g2 (Nat.le_mul_of_pos_right _ (by omega))
    · rintro f' r ⟨g1, g2⟩ hr
      obtain ⟨out, rfl, hl⟩ := filterRun_length hr
      have hle : b * lengthens f0 + out.length ≤ (b + s.length) * lengthens f0 := by
        rw [Nat.add_mul]
        omega
      have := (runFilters_counts P fs0 fs (b * lengthens f0) out h3).mono (fun fs' g => g.mono hle) fun h => by
        show intMax < (b + s.length) * reach (f0 :: fs0)
        unfold reach
        refine Nat.lt_of_lt_of_le h (Nat.le_trans (Nat.mul_le_mul_right _ hle) ?_)
        rw [Nat.mul_assoc]
        exact Nat.mul_le_mul_left _ (by omega)
      revert this
      simp only
      generalize runFilters P fs0 (some out) = y
      generalize runFiltersCounted P fs (some out) = x
      intro this
      cases this with
      | ok fs' a g => exact .ok _ _ ⟨g1, g2, g⟩
      | over y h => exact .over _ h
      | exit n => exact .exit n
      | ub u => exact .ub u
      | stuck => exact .stuck

/-- The sequence in use, after `b` bytes. -/
def CountingSeq (q0 : Sequence) (b : Nat) (q : Option Sequence) : Prop :=
  ∃ q', q = some q' ∧ q'.name = q0.name ∧ q'.sourceFilename = q0.sourceFilename ∧ Counting b q0.filters q'.filters

theorem CountingSeq.mono {q0 : Sequence} {b b' : Nat} {q : Option Sequence} (h : CountingSeq q0 b q) (hb : b ≤ b') : CountingSeq q0 b' q := by
  obtain ⟨q', h1, h2, h3, h4⟩ := h
  exact ⟨q', h1, h2, h3, h4.mono hb⟩

theorem sequenceRun_counts (P : Platform) {q0 : Sequence} {b : Nat} {q : Option Sequence} (h : CountingSeq q0 b q) (w : Option Bytes) :
    Alike (CountingSeq q0 (b + (w.getD []).length)) (intMax < (b + (w.getD []).length) * reach q0.filters) (sequenceRunFiltersCounted P q w)
      (sequenceRunFilters P (some q0) w) := by
  obtain ⟨q', rfl, h2, h3, h4⟩ := h
  cases w with
  | none => exact .ok _ _ ⟨q', rfl, h2, h3, h4⟩
  | some s =>
    unfold sequenceRunFiltersCounted sequenceRunFilters
    simp only
    have := runFilters_counts P q0.filters q'.filters b s h4
    revert this
    generalize runFilters P q0.filters (some s) = y
    generalize runFiltersCounted P q'.filters (some s) = x
    intro this
    cases this with
    | ok fs' a g => exact .ok _ _ ⟨_, rfl, h2, h3, g⟩
    | over y h => exact .over _ h
    | exit n => exact .exit n
    | ub u => exact .ub u
    | stuck => exact .stuck

end Detox
