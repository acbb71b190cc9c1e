import Verif.Lemmas.CountersRun
import Verif.Lemmas.Filters
import Verif.Props.Inline

/-!
# How far the counters of the built-in safe table get
-/

set_option autoImplicit false

namespace Detox
open Spec

/-- A table after so many lookups that found something at once and so many that found nothing. -/
def Table.tally (t : Table) (h m : Nat) : Table := { t with hits := h, misses := m, seeks := m }

theorem tally_get {t : Table} {k : Nat} (hk : k ≠ 0) (h m : Nat) (hs : (t.getProbe k).isSome = false → t.getScan k = none) :
    tableGetCounted (t.tally h m) k =
      if (t.getProbe k).isSome then (if h < intMax then .ok (t.tally (h + 1) m, tableGet t k) else .ub .intOverflow)
      else (if m < intMax then .ok (t.tally h (m + 1), tableGet t k) else .ub .intOverflow) := by
  unfold tableGetCounted tableGet
  rw [if_neg hk, if_neg hk]
  show (match t.getProbe k with | some _ => _ | none => _) = _
  cases hp : t.getProbe k with
  | some i =>
    show (countUp h >>= _) = _
    unfold countUp
    split <;> rfl
  | none =>
    have e := hs (by rw [hp]; rfl)
    have e2 : (t.tally h m).getScan k = none := e
    simp only [e, e2]
    show (countUp m >>= fun seeks => countUp m >>= _) = _
    unfold countUp
    split <;> rfl

/-- The built-in safe table after so many lookups that found something and so many that did not. -/
def tallied (h m : Nat) : Table := load_builtin_safe_table.tally h m

theorem tally_getProbe (t : Table) (h m k : Nat) : (t.tally h m).getProbe k = t.getProbe k := rfl
theorem tally_getScan (t : Table) (h m k : Nat) : (t.tally h m).getScan k = t.getScan k := rfl
theorem tally_default (t : Table) (h m : Nat) : (t.tally h m).defaultTranslation = t.defaultTranslation := rfl
theorem tally_max (t : Table) (h m : Nat) : (t.tally h m).maxDataLength = t.maxDataLength := rfl

/-- Every row is where its key says, so a lookup searches the rows only if there is nothing to be found. -/
theorem safe_probe (P : Platform) (c : Byte) (hc : c ≠ 0) : P.charToUInt c ≠ 0 ∧
    (load_builtin_safe_table.getProbe (P.charToUInt c)).isSome = inSafeTable c ∧
    (inSafeTable c = false → load_builtin_safe_table.getScan (P.charToUInt c) = none) := by
  have key : ∀ b : Bool, ∀ c : Byte, c ≠ 0 → (if b && decide (128 ≤ c.toNat) then 4294967040 + c.toNat else c.toNat) ≠ 0 ∧
      (load_builtin_safe_table.getProbe (if b && decide (128 ≤ c.toNat) then 4294967040 + c.toNat else c.toNat)).isSome = inSafeTable c ∧
      (inSafeTable c = false →
        load_builtin_safe_table.getScan (if b && decide (128 ≤ c.toNat) then 4294967040 + c.toNat else c.toNat) = none) := by
    intro b
    cases b with
    | false => exact forall_byte (by decide +kernel)
    | true => exact forall_byte (by decide +kernel)
  exact key P.charSigned c hc

theorem tableGetCounted_tallied (P : Platform) {c : Byte} (hc : c ≠ 0) (h m : Nat) :
    tableGetCounted (tallied h m) (P.charToUInt c) =
      if inSafeTable c then (if h < intMax then .ok (tallied (h + 1) m, tableGet load_builtin_safe_table (P.charToUInt c)) else .ub .intOverflow)
      else (if m < intMax then .ok (tallied h (m + 1), tableGet load_builtin_safe_table (P.charToUInt c)) else .ub .intOverflow) := by
  obtain ⟨h1, h2, h3⟩ := safe_probe P c hc
  rw [← h2]
  exact tally_get h1 h m fun hp => h3 (h2 ▸ hp)

/-- How many bytes of a name are found. -/
def hitsOf (s : Bytes) : Nat := (s.filter inSafeTable).length
def missesOf (s : Bytes) : Nat := (s.filter (fun c => !inSafeTable c)).length

theorem cleanSafeLoop_tallied (P : Platform) : ∀ (s : Bytes) (o o' : OutBuf) (h m : Nat), NulFree s → h ≤ intMax → m ≤ intMax →
    cleanSafeLoop P load_builtin_safe_table o s = .ok o' →
    cleanSafeLoopCounted P (tallied h m) o s =
      if h + hitsOf s ≤ intMax ∧ m + missesOf s ≤ intMax then .ok (tallied (h + hitsOf s) (m + missesOf s), o') else .ub .intOverflow
  | [], o, o', h, m, _, hh, hm, hl => by
    cases hl
    unfold cleanSafeLoopCounted
    rw [if_pos ⟨hh, hm⟩]
    rfl
  | c :: s, o, o', h, m, hn, hh, hm, hl => by
    have hc : c ≠ 0 := fun e => hn (by simp [e])
    have hs : NulFree s := fun e => hn (List.mem_cons_of_mem _ e)
    unfold cleanSafeLoop at hl
    unfold cleanSafeLoopCounted
    rw [tableGetCounted_tallied P hc]
    have dflt : ∀ h m, (tallied h m).defaultTranslation = none := fun _ _ => (tally_default _ _ _).trans safe_default
    rw [safe_default] at hl
    have go : ∀ h' m', h' ≤ intMax → m' ≤ intMax → h' + hitsOf s = h + hitsOf (c :: s) → m' + missesOf s = m + missesOf (c :: s) →
        (do
          let g ← (.ok (tallied h' m', tableGet load_builtin_safe_table (P.charToUInt c)) : Res (Table × Option Bytes))
          match g.2 with
          | some r => do
            let o ← o.pushStr r
            cleanSafeLoopCounted P g.1 o s
          | none =>
            match g.1.defaultTranslation with
            | none => do
              let o ← o.push c
              cleanSafeLoopCounted P g.1 o s
            | some d => do
              let o ← o.pushStr d
              cleanSafeLoopCounted P g.1 o s) =
        if h + hitsOf (c :: s) ≤ intMax ∧ m + missesOf (c :: s) ≤ intMax then
          .ok (tallied (h + hitsOf (c :: s)) (m + missesOf (c :: s)), o') else .ub .intOverflow := by
      intro h' m' hh' hm' e1 e2
      rw [← e1, ← e2]
      simp only [Res.bind_ok, dflt]
      cases hg : tableGet load_builtin_safe_table (P.charToUInt c) with
      | some r =>
        rw [hg] at hl
        simp only at hl ⊢
        obtain ⟨o1, h1, h2⟩ := res_bind_ok hl
        rw [h1]
        exact cleanSafeLoop_tallied P s o1 o' h' m' hs hh' hm' h2
      | none =>
        rw [hg] at hl
        simp only at hl ⊢
        obtain ⟨o1, h1, h2⟩ := res_bind_ok hl
        rw [h1]
        exact cleanSafeLoop_tallied P s o1 o' h' m' hs hh' hm' h2
    cases hi : inSafeTable c with
    | true =>
      have e1 : hitsOf (c :: s) = hitsOf s + 1 := by simp [hitsOf, hi]
      have e2 : missesOf (c :: s) = missesOf s := by simp [missesOf, hi]
      rw [if_pos rfl]
      by_cases hlt : h < intMax
      · rw [if_pos hlt]
        exact go (h + 1) m (by omega) hm (by omega) (by omega)
      · rw [if_neg hlt, if_neg (by omega)]
        rfl
    | false =>
      have e1 : hitsOf (c :: s) = hitsOf s := by simp [hitsOf, hi]
      have e2 : missesOf (c :: s) = missesOf s + 1 := by simp [missesOf, hi]
      rw [if_neg (by decide)]
      by_cases hlt : m < intMax
      · rw [if_pos hlt]
        exact go h (m + 1) hh (by omega) (by omega) (by omega)
      · rw [if_neg hlt, if_neg (by omega)]
        rfl

/-- The default sequence after so many lookups. -/
def defaultAt (q : Sequence) (h m : Nat) : Sequence := { q with filters := [{ safeF with table := some (tallied h m) }, wipeF] }

theorem sequenceRun_tallied (P : Platform) (q : Sequence) (s : Bytes) {h m : Nat} (hn : NulFree s) (hh : h ≤ intMax) (hm : m ≤ intMax) :
    sequenceRunFiltersCounted P (some (defaultAt q h m)) (some s) =
      if h + hitsOf s ≤ intMax ∧ m + missesOf s ≤ intMax then
        .ok (some (defaultAt q (h + hitsOf s) (m + missesOf s)), some (safeWipe s)) else .ub .intOverflow := by
  have h1 := run_safeF P s hn
  replace h1 : (cleanSafe P (some load_builtin_safe_table) s >>= fun r => pure (some r)) = .ok (some (s.flatMap safeMap)) := h1
  obtain ⟨r, h2, h3⟩ := res_bind_ok h1
  cases h3
  unfold cleanSafe at h2
  obtain ⟨o', h4, h5⟩ := res_bind_ok h2
  have h6 := run_wipeF P _ (nulFree_safe hn)
  replace h6 : (cleanWipeup true (s.flatMap safeMap) >>= fun r => pure (some r)) = .ok (some (wipe true (s.flatMap safeMap))) := h6
  obtain ⟨r, h7, h8⟩ := res_bind_ok h6
  replace h8 : some r = some (wipe true (s.flatMap safeMap)) := Option.some.inj (Res.ok.inj h8) ▸ rfl
  cases h8
  show (do
    let p ← runFiltersCounted P [{ safeF with table := some (tallied h m) }, wipeF] (some s)
    (pure (some { defaultAt q h m with filters := p.1 }, p.2) : Res (Option Sequence × Option Bytes))) = _
  have e := cleanSafeLoop_tallied P s _ o' h m hn hh hm h4
  have e2 : filterRunCounted P { safeF with table := some (tallied h m) } (some s) =
      if h + hitsOf s ≤ intMax ∧ m + missesOf s ≤ intMax then
        .ok ({ safeF with table := some (tallied (h + hitsOf s) (m + missesOf s)) }, some (s.flatMap safeMap)) else .ub .intOverflow := by
    show (cleanCounted (cleanSafeLoopCounted P) (some (tallied h m)) s >>= fun p =>
      (pure ({ safeF with table := p.1 }, some p.2) : Res (Filter × Option Bytes))) = _
    unfold cleanCounted
    simp only
    rw [show (tallied h m).maxDataLength = load_builtin_safe_table.maxDataLength from tally_max _ _ _, e]
    split
    · simp only [Res.bind_ok, h5]
      rfl
    · rfl
  have e3 : filterRunCounted P wipeF (some (s.flatMap safeMap)) = .ok (wipeF, some (wipe true (s.flatMap safeMap))) := by
    show (uncounted wipeF.table (cleanWipeup true (s.flatMap safeMap)) >>= fun p =>
      (pure ({ wipeF with table := p.1 }, some p.2) : Res (Filter × Option Bytes))) = _
    unfold uncounted
    rw [h7]
    rfl
  unfold runFiltersCounted
  rw [e2]
  split
  · simp only [Res.bind_ok]
    unfold runFiltersCounted
    rw [e3]
    rfl
  · rfl

/-! ### Lines -/

/-- Some execution ends with an overflow. -/
def CanOverflow {α : Type} (p : Prog α) : Prop := ∃ t, Trace p t (.ub .intOverflow)

theorem canOverflow_out {α : Type} {s : Bytes} {p : Prog α} : CanOverflow (.out s p) ↔ CanOverflow p :=
  ⟨fun ⟨_, h⟩ => by cases h with | out _ _ t _ h => exact ⟨t, h⟩, fun ⟨t, h⟩ => ⟨_, .out s p t _ h⟩⟩

theorem trace_bind_ub {α β : Type} {p : Prog α} {t : List Event} {u : UB} (h : Trace p t (.ub u)) {f : α → Prog β} : Trace (p.bind f) t (.ub u) := by
  generalize ho : Outcome.ub u = o at h
  induction h with
  | ret => cases ho
  | stop => cases ho
  | exit => cases ho
  | ub => cases ho; exact .ub _
  | stuck => cases ho
  | lstat _ _ _ _ _ _ ih => exact .lstat _ _ _ _ _ (ih ho)
  | rename _ _ _ _ _ _ _ ih => exact .rename _ _ _ _ _ _ (ih ho)
  | opendir _ _ _ _ _ _ ih => exact .opendir _ _ _ _ _ (ih ho)
  | readdir _ _ _ _ _ _ ih => exact .readdir _ _ _ _ _ (ih ho)
  | closedir _ _ _ _ _ ih => exact .closedir _ _ _ _ (ih ho)
  | slurp _ _ _ _ _ _ ih => exact .slurp _ _ _ _ _ (ih ho)
  | out _ _ _ _ _ ih => exact .out _ _ _ _ (ih ho)
  | err _ _ _ _ _ ih => exact .err _ _ _ _ (ih ho)

theorem takeLine_newline : ∀ (n : Nat) (l rest : Bytes), (0x0A : Byte) ∉ l → l.length < n → takeLine n (l ++ 0x0A :: rest) = (l ++ [0x0A], rest)
  | 0, _, _, _, h => by simp at h
  | n + 1, [], rest, _, _ => by simp [takeLine]
  | n + 1, c :: l, rest, hl, hn => by
    have hc : c ≠ 0x0A := fun e => hl (by simp [e])
    have := takeLine_newline n l rest (fun h => hl (List.mem_cons_of_mem _ h)) (by simpa using hn)
    simp only [List.cons_append, takeLine, hc, if_false, this]

theorem nextChunk_line (P : Platform) {l : Bytes} (rest : Bytes) (h1 : (0x0A : Byte) ∉ l) (h2 : l.length < 1007) (h3 : NulFree l) :
    nextChunk P (l ++ 0x0A :: rest) = .ok (l, true, false, rest) := by
  unfold nextChunk
  have e : takeLine (inlineBufSize - inlineBufPadding - 1) (l ++ 0x0A :: rest) = (l ++ [0x0A], rest) := takeLine_newline 1007 l rest h1 h2
  have hn : NulFree (l ++ [0x0A]) := by
    intro h
    rcases List.mem_append.1 h with h | h
    · exact h3 h
    · revert h; decide
  simp only [e, cstr_of_nulFree hn]
  rw [if_neg, cutNewline_last h1]
  · rfl
  · rw [strrchrIdx_last _ _ h1]
    nofun

theorem found_cons (l : Bytes) (ls : List Bytes) : found (l :: ls) = (if isProtected l then 0 else hitsOf l) + found ls := by
  unfold found hitsOf isProtected
  by_cases h : l = lit "." ∨ l = lit ".."
  · have h' : l = [0x2E] ∨ l = [0x2E, 0x2E] := h
    rw [List.filter_cons_of_neg (by rcases h with rfl | rfl <;> decide), if_pos (by simpa using h')]
    omega
  · have h' : ¬ (l = [0x2E] ∨ l = [0x2E, 0x2E]) := h
    rw [List.filter_cons_of_pos (by simpa using h), if_neg (by simpa using h'), List.flatten_cons, List.filter_append, List.length_append]

theorem notFound_cons (l : Bytes) (ls : List Bytes) : notFound (l :: ls) = (if isProtected l then 0 else missesOf l) + notFound ls := by
  unfold notFound missesOf isProtected
  by_cases h : l = lit "." ∨ l = lit ".."
  · have h' : l = [0x2E] ∨ l = [0x2E, 0x2E] := h
    rw [List.filter_cons_of_neg (by rcases h with rfl | rfl <;> decide), if_pos (by simpa using h')]
    omega
  · have h' : ¬ (l = [0x2E] ∨ l = [0x2E, 0x2E]) := h
    rw [List.filter_cons_of_pos (by simpa using h), if_neg (by simpa using h'), List.flatten_cons, List.filter_append, List.length_append]

theorem inlineLoop_overflows (P : Platform) (q : Sequence) : ∀ (ls : List Bytes) (n h m : Nat),
    (∀ l ∈ ls, (0x0A : Byte) ∉ l ∧ l.length < 1007 ∧ NulFree l) → ls.length ≤ n → h ≤ intMax → m ≤ intMax →
    (CanOverflow (inlineLoopCounted P n (some (defaultAt q h m)) (ls.flatMap (· ++ [0x0A]))) ↔
      intMax < h + found ls ∨ intMax < m + notFound ls)
  | [], n, h, m, _, _, hh, hm => by
    have e : inlineLoopCounted P n (some (defaultAt q h m)) (List.flatMap (· ++ [0x0A]) []) = .ret (some (defaultAt q h m)) := by
      cases n <;> rfl
    rw [e]
    constructor
    · rintro ⟨t, h⟩; cases h
    · show intMax < h + 0 ∨ intMax < m + 0 → _
      omega
  | l :: ls, 0, h, m, _, hn, _, _ => by simp at hn
  | l :: ls, n + 1, h, m, hl, hn, hh, hm => by
    obtain ⟨g1, g2, g3⟩ := hl l (by simp)
    have e : (l :: ls).flatMap (· ++ [(0x0A : Byte)]) = l ++ 0x0A :: ls.flatMap (· ++ [0x0A]) := by simp
    have step : inlineLoopCounted P (n + 1) (some (defaultAt q h m)) ((l :: ls).flatMap (· ++ [(0x0A : Byte)])) =
        (printChunkCounted P (some (defaultAt q h m)) l true).bind fun q => inlineLoopCounted P n q (ls.flatMap (· ++ [(0x0A : Byte)])) := by
      have hne : ∀ s : Bytes, s ≠ [] → inlineLoopCounted P (n + 1) (some (defaultAt q h m)) s =
          (Prog.ofRes (nextChunk P s)).bind fun r =>
            let next := (printChunkCounted P (some (defaultAt q h m)) r.1 r.2.1).bind fun q => inlineLoopCounted P n q r.2.2.2
            if r.2.2.1 then .err (lit "detox: warning: stream push back failed\n") next else next := by
        intro s hs
        cases s with
        | nil => exact absurd rfl hs
        | cons c s => rfl
      rw [hne _ (by rw [e]; simp), e, nextChunk_line P _ g1 g2 g3]
      rfl
    rw [step, found_cons, notFound_cons]
    unfold printChunkCounted
    have ih := fun h m => inlineLoop_overflows P q ls n h m (fun x hx => hl x (List.mem_cons_of_mem _ hx)) (by simpa using hn)
    cases hp : isProtected l with
    | true =>
      simp only [if_true]
      show CanOverflow (.out _ (.out _ _)) ↔ _
      rw [canOverflow_out, canOverflow_out]
      refine (ih h m hh hm).trans ?_
      rw [Nat.zero_add, Nat.zero_add]
    | false =>
      simp only [Bool.false_eq_true, if_false]
      rw [sequenceRun_tallied P q l g3 hh hm]
      split
      · next hlt =>
        show CanOverflow (.out _ (.out _ _)) ↔ _
        rw [canOverflow_out, canOverflow_out]
        refine (ih _ _ hlt.1 hlt.2).trans ?_
        rw [Nat.add_assoc, Nat.add_assoc]
      · next hlt =>
        refine ⟨fun _ => by omega, fun _ => ⟨[], .ub _⟩⟩

end Detox
