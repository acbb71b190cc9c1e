import Verif.Model.Locale
import Verif.Props.Main
import Verif.Props.Safety
import Verif.Lemmas.Leaks

/-!
# Lemmas on the locale
-/

set_option autoImplicit false

namespace Detox
open Spec

/-! ### The work for the usual way of cleaning -/

theorem dirLoopBy_eq (P : Platform) (o : Options) (recDir recDir' : Option Filelist → Bytes → Prog (Option Filelist)) (hr : recDir = recDir')
    (h : Nat) (f : Bytes) : ∀ (m : Nat) (st : Stat) (ign : Option Filelist),
    dirLoopBy (sequenceRunFilters P o.sequenceToUse) o recDir h f m st ign = dirLoop P o recDir' h f m st ign := by
  subst hr
  intro m
  induction m with
  | zero => intro st ign; rfl
  | succ m ih =>
    intro st ign
    unfold dirLoopBy dirLoop
    simp only [ih]
    rfl

theorem parseDirBy_eq (P : Platform) (o : Options) : ∀ (n : Nat) (ign : Option Filelist) (f : Bytes),
    parseDirBy (sequenceRunFilters P o.sequenceToUse) o n ign f = parseDir P o n ign f := by
  intro n
  induction n with
  | zero => intro ign f; rfl
  | succ n ih =>
    intro ign f
    unfold parseDirBy parseDir
    simp only [dirLoopBy_eq P o _ _ (funext fun a => funext fun b => ih a b)]
    rfl

theorem processArgBy_eq (P : Platform) (o : Options) (fuel : Nat) (ign : Option Filelist) (f : Bytes) :
    processArgBy (sequenceRunFilters P o.sequenceToUse) o fuel ign f = processArg P o fuel ign f := by
  unfold processArgBy processArg
  simp only [parseDirBy_eq]
  rfl

theorem fileLoopBy_eq (P : Platform) (o : Options) (fuel : Nat) : ∀ (n : Nat) (l : Filelist) (ign : Option Filelist),
    fileLoopBy (sequenceRunFilters P o.sequenceToUse) o fuel n l ign = fileLoop P o fuel n l ign := by
  intro n
  induction n with
  | zero => intro l ign; rfl
  | succ n ih =>
    intro l ign
    unfold fileLoopBy fileLoop
    simp only [ih, processArgBy_eq]
    rfl

theorem inlineLoopBy_eq (P : Platform) (o : Options) : ∀ (n : Nat) (s : Bytes),
    inlineLoopBy (sequenceRunFilters P o.sequenceToUse) P n s = inlineLoop P o n s := by
  intro n
  induction n with
  | zero => intro s; cases s <;> rfl
  | succ n ih =>
    intro s
    cases s with
    | nil => rfl
    | cons c s =>
      unfold inlineLoopBy inlineLoop
      simp only [ih]
      rfl

theorem parseInlineBy_eq (P : Platform) (o : Options) (f : Option Bytes) :
    parseInlineBy (sequenceRunFilters P o.sequenceToUse) P f = parseInline P o f := by
  unfold parseInlineBy parseInline
  simp only [inlineLoopBy_eq]
  rfl

theorem inlineFileLoopBy_eq (P : Platform) (o : Options) : ∀ (n : Nat) (l : Filelist),
    inlineFileLoopBy (sequenceRunFilters P o.sequenceToUse) P n l = inlineFileLoop P o n l := by
  intro n
  induction n with
  | zero => intro l; rfl
  | succ n ih =>
    intro l
    unfold inlineFileLoopBy inlineFileLoop inlineArgBy inlineArg
    simp only [ih, parseInlineBy_eq]
    rfl

theorem detoxWorkBy_eq (P : Platform) (o : Options) (fuel : Nat) :
    detoxWorkBy (sequenceRunFilters P o.sequenceToUse) P o fuel = detoxWork P o fuel := by
  unfold detoxWorkBy detoxWork inlineMainBy inlineMain
  simp only [fileLoopBy_eq, inlineFileLoopBy_eq, parseInlineBy_eq]
  rfl

/-- The sequence in the options matters for the cleaning only. -/
theorem checkAndRename_sequence (o : Options) (q : Option Sequence) (a b : Bytes) :
    checkAndRename { o with sequenceToUse := q } a b = checkAndRename o a b := rfl

theorem dirLoopBy_sequence (run : Option Bytes → Res (Option Bytes)) (o : Options) (q : Option Sequence)
    (recDir recDir' : Option Filelist → Bytes → Prog (Option Filelist)) (hr : recDir = recDir')
    (h : Nat) (f : Bytes) : ∀ (m : Nat) (st : Stat) (ign : Option Filelist),
    dirLoopBy run { o with sequenceToUse := q } recDir h f m st ign = dirLoopBy run o recDir' h f m st ign := by
  subst hr
  intro m
  induction m with
  | zero => intro st ign; rfl
  | succ m ih =>
    intro st ign
    unfold dirLoopBy
    simp only [ih]
    rfl

theorem parseDirBy_sequence (run : Option Bytes → Res (Option Bytes)) (o : Options) (q : Option Sequence) :
    ∀ (n : Nat) (ign : Option Filelist) (f : Bytes), parseDirBy run { o with sequenceToUse := q } n ign f = parseDirBy run o n ign f := by
  intro n
  induction n with
  | zero => intro ign f; rfl
  | succ n ih =>
    intro ign f
    unfold parseDirBy
    simp only [dirLoopBy_sequence run o q _ _ (funext fun a => funext fun b => ih a b)]

theorem fileLoopBy_sequence (run : Option Bytes → Res (Option Bytes)) (o : Options) (q : Option Sequence) (fuel : Nat) :
    ∀ (n : Nat) (l : Filelist) (ign : Option Filelist),
    fileLoopBy run { o with sequenceToUse := q } fuel n l ign = fileLoopBy run o fuel n l ign := by
  intro n
  induction n with
  | zero => intro l ign; rfl
  | succ n ih =>
    intro l ign
    unfold fileLoopBy processArgBy
    simp only [ih, parseDirBy_sequence]
    rfl

theorem detoxWorkBy_sequence (run : Option Bytes → Res (Option Bytes)) (P : Platform) (o : Options) (q : Option Sequence) (fuel : Nat) :
    detoxWorkBy run P { o with sequenceToUse := q } fuel = detoxWorkBy run P o fuel := by
  unfold detoxWorkBy
  simp only [fileLoopBy_sequence]

/-! ### `lower` as a table -/

/-- What `lower` makes of a byte. -/
def Locale.lowered (L : Locale) (P : Platform) (c : Byte) : Byte :=
  if (L.upper c && !(P.charSigned && c = 0xFF)) = true then L.lower c else c

theorem Locale.isUpper_benign (L : Locale) {P : Platform} (h : P.ctypeNegDefined = true) (c : Byte) :
    L.isUpper P c = .ok (L.upper c && !(P.charSigned && c = 0xFF)) := ctypeCall_benign h _ _

theorem cleanLowerLoopIn_eq (L : Locale) {P : Platform} (h : P.ctypeNegDefined = true) (o : OutBuf) (s : Bytes) :
    cleanLowerLoopIn L P o s = o.pushStr (s.map (L.lowered P)) := by
  induction s generalizing o with
  | nil => rfl
  | cons c s ih =>
    unfold cleanLowerLoopIn
    rw [L.isUpper_benign h]
    simp only [Res.bind_ok, List.map_cons]
    rw [← OutBuf.push_bind]
    unfold Locale.lowered
    split
    · simp only [ih]
      rfl
    · simp only [ih]
      rfl

theorem cleanLowerIn_eq (L : Locale) {P : Platform} (h : P.ctypeNegDefined = true) (s : Bytes) :
    cleanLowerIn L P s = emit (s.length + 1) (s.map (L.lowered P)) := by
  unfold cleanLowerIn emit
  simp only [cleanLowerLoopIn_eq _ h]

/-- All bytes. -/
def allBytes : Bytes := (List.range 256).map UInt8.ofNat

theorem mem_allBytes (c : Byte) : c ∈ allBytes := by
  unfold allBytes
  rw [List.mem_map]
  exact ⟨c.toNat, List.mem_range.2 c.toNat_lt, by simp⟩

/-- A table with a row for every byte but NUL. -/
def Locale.table (L : Locale) (P : Platform) : Table :=
  tableResize { rows := allBytes.map fun b => ⟨P.charToUInt b, some [L.lowered P b]⟩ } 256 true

theorem charToUInt_inj {P : Platform} {a b : Byte} (h : P.charToUInt a = P.charToUInt b) : a = b := by
  have ha := a.toNat_lt
  have hb := b.toNat_lt
  apply UInt8.toNat_inj.1
  unfold Platform.charToUInt at h
  split at h <;> split at h <;> omega

theorem charToUInt_ne_zero {P : Platform} {a : Byte} (h : a ≠ 0) : P.charToUInt a ≠ 0 := by
  have : a.toNat ≠ 0 := fun h0 => h (UInt8.toNat_inj.1 h0)
  unfold Platform.charToUInt
  split <;> omega

theorem lastRow_bytes {key : Byte → Nat} (hk : ∀ a b, key a = key b → a = b) (g : Byte → Bytes) {c : Byte} (h0 : key c ≠ 0) :
    ∀ bs : Bytes, c ∈ bs → lastRow (bs.map fun b => ⟨key b, some (g b)⟩) (key c) = some (g c) := by
  have none_of : ∀ bs : Bytes, c ∉ bs → lastRow (bs.map fun b => ⟨key b, some (g b)⟩) (key c) = none := by
    intro bs
    induction bs with
    | nil => intro _; rfl
    | cons b bs ih =>
      intro h
      rw [List.map_cons]
      unfold lastRow
      rw [ih fun hm => h (by simp [hm])]
      exact if_neg fun hb => h (by rw [hk _ _ hb.1]; simp)
  intro bs
  induction bs with
  | nil => intro h; cases h
  | cons b bs ih =>
    intro h
    rw [List.map_cons]
    unfold lastRow
    by_cases hm : c ∈ bs
    · rw [ih hm]
    · rw [none_of bs hm]
      rcases List.mem_cons.1 h with rfl | h
      · exact if_pos ⟨rfl, h0⟩
      · exact absurd h hm

theorem Locale.table_get (L : Locale) (P : Platform) {c : Byte} (h : c ≠ 0) :
    tableGet (L.table P) (P.charToUInt c) = some [L.lowered P c] := by
  unfold Locale.table
  rw [resize_get]
  · exact lastRow_bytes (fun a b => charToUInt_inj) (fun b => [L.lowered P b]) (charToUInt_ne_zero h) _ (mem_allBytes c)
  · refine Nat.le_trans List.countP_le_length ?_
    simp only [List.length_map, allBytes, List.length_range]
    decide

theorem Locale.table_reachable (L : Locale) (P : Platform) : Reachable (L.table P) := Reachable.resize _ _ _

theorem Locale.table_default (L : Locale) (P : Platform) : (L.table P).defaultTranslation = none := by
  unfold Locale.table
  rw [tableResize_eq, tableCopyRows_default]

theorem Locale.table_max (L : Locale) (P : Platform) : 1 ≤ (L.table P).maxDataLength :=
  C23_max_data_length_is_an_upper_bound _ (L.table_reachable P) _ _ (L.table_get P (c := 1) (by decide))

theorem Locale.table_roomy (L : Locale) (P : Platform) : (L.table P).Roomy :=
  ⟨L.table_reachable P, L.table_max P, fun d h => by rw [L.table_default P] at h; cases h⟩

theorem Locale.lowered_zero (L : Locale) (P : Platform) : L.lowered P 0 = 0 := by
  unfold Locale.lowered
  rw [L.nul]
  rfl

theorem Locale.table_sub (L : Locale) (P : Platform) (c : Byte) : safeSub P (L.table P) c = [L.lowered P c] := by
  unfold safeSub
  by_cases h : c = 0
  · subst h
    rw [show tableGet (L.table P) (P.charToUInt 0) = none from by
      rw [show P.charToUInt 0 = 0 from by unfold Platform.charToUInt; simp]
      unfold tableGet
      exact if_pos rfl, L.table_default P, L.lowered_zero P]
    rfl
  · rw [L.table_get P h]

theorem cleanLowerIn_as_safe (L : Locale) {P : Platform} (h : P.ctypeNegDefined = true) (s : Bytes) :
    cleanLowerIn L P s = cleanSafe P (some (L.table P)) s := by
  rw [cleanLowerIn_eq L h, cleanSafe_eq, flatMap_congr_byte (L.table_sub P), emit_eq, emit_eq]
  have e : s.flatMap (fun c => [L.lowered P c]) = s.map (L.lowered P) := by
    induction s with
    | nil => rfl
    | cons c s ih => simp [ih]
  rw [e, List.length_map, if_pos (Nat.lt_succ_self _), if_pos]
  have := Nat.le_mul_of_pos_right s.length (L.table_max P)
  omega

/-- `lower` in a locale, written as `safe` with a table. -/
def Filter.inLocale (L : Locale) (P : Platform) (f : Filter) : Filter :=
  if f.cleaner = .lower then { f with cleaner := .safe, table := some (L.table P) } else f

/-- A sequence in a locale. -/
def Sequence.inLocale (L : Locale) (P : Platform) (q : Sequence) : Sequence := { q with filters := q.filters.map (Filter.inLocale L P) }

theorem filterRunIn_eq (L : Locale) {P : Platform} (h : P.ctypeNegDefined = true) (f : Filter) (s : Option Bytes) :
    filterRunIn L P f s = filterRun P (f.inLocale L P) s := by
  unfold filterRunIn Filter.inLocale
  cases s with
  | none => rfl
  | some s =>
    obtain ⟨cl, a, b, c, d, e⟩ := f
    cases cl <;> try rfl
    simp only [cleanLowerIn_as_safe L h]
    rfl

theorem runFiltersIn_eq (L : Locale) {P : Platform} (h : P.ctypeNegDefined = true) : ∀ (fs : List Filter) (s : Option Bytes),
    runFiltersIn L P fs s = runFilters P (fs.map (Filter.inLocale L P)) s := by
  intro fs
  induction fs with
  | nil => intro s; rfl
  | cons f fs ih =>
    intro s
    cases s with
    | none => rfl
    | some s =>
      rw [List.map_cons]
      unfold runFiltersIn runFilters
      rw [filterRunIn_eq L h]
      simp only [ih]

theorem sequenceRunFiltersIn_eq (L : Locale) {P : Platform} (h : P.ctypeNegDefined = true) (q : Sequence) (s : Option Bytes) :
    sequenceRunFiltersIn L P (some q) s = sequenceRunFilters P (some (q.inLocale L P)) s := by
  cases s with
  | none => rfl
  | some s => exact runFiltersIn_eq L h _ _

theorem detoxWorkIn_eq (L : Locale) {P : Platform} (h : P.ctypeNegDefined = true) (q : Sequence) (o : Options) (fuel : Nat) :
    detoxWorkBy (sequenceRunFiltersIn L P (some q)) P o fuel = detoxWork P { o with sequenceToUse := some (q.inLocale L P) } fuel := by
  rw [← detoxWorkBy_eq]
  rw [show sequenceRunFiltersIn L P (some q) = sequenceRunFilters P (some (q.inLocale L P)) from
    funext fun s => sequenceRunFiltersIn_eq L h q s]
  exact (detoxWorkBy_sequence _ P o _ fuel).symm

/-! ### The "C" locale -/

/-- Only ASCII letters are letters: the "C" locale, and those with UTF-8. -/
def Locale.Plain (L : Locale) : Prop := ∀ c, L.upper c = isUpperC c ∧ (isUpperC c = true → L.lower c = toLowerC c)

theorem Locale.Plain.isUpper {L : Locale} (h : L.Plain) (P : Platform) (c : Byte) : L.isUpper P c = ctypeCall P isUpperC c := by
  unfold Locale.isUpper
  rw [show (fun c => L.upper c && !(P.charSigned && c = 0xFF)) = isUpperC from ?_]
  funext c
  show (L.upper c && !(P.charSigned && c = 0xFF)) = isUpperC c
  rw [(h c).1]
  by_cases h : c = 0xFF
  · subst h
    rfl
  · simp [h]

theorem Locale.Plain.loop {L : Locale} (h : L.Plain) (P : Platform) (s : Bytes) : ∀ o : OutBuf,
    cleanLowerLoopIn L P o s = cleanLowerLoop P o s := by
  induction s with
  | nil => intro o; rfl
  | cons c s ih =>
    intro o
    unfold cleanLowerLoopIn cleanLowerLoop
    rw [h.isUpper]
    simp only [ih]
    unfold ctypeCall
    split
    · rfl
    · show (if isUpperC c = true then _ else _) = (if isUpperC c = true then _ else _)
      split
      · next hu => rw [(h c).2 hu]
      · rfl

theorem Locale.Plain.filter {L : Locale} (h : L.Plain) (P : Platform) (f : Filter) (s : Option Bytes) : filterRunIn L P f s = filterRun P f s := by
  unfold filterRunIn
  split
  · next s hc =>
    unfold filterRun cleanLowerIn
    simp only [hc, h.loop]
    rfl
  · rfl

theorem Locale.Plain.filters {L : Locale} (h : L.Plain) (P : Platform) : ∀ (fs : List Filter) (s : Option Bytes),
    runFiltersIn L P fs s = runFilters P fs s := by
  intro fs
  induction fs with
  | nil => intro s; rfl
  | cons f fs ih =>
    intro s
    cases s with
    | none => rfl
    | some s =>
      unfold runFiltersIn runFilters
      simp only [h.filter, ih]

theorem Locale.Plain.sequence {L : Locale} (h : L.Plain) (P : Platform) (q : Option Sequence) :
    sequenceRunFiltersIn L P q = sequenceRunFilters P q := by
  funext s
  cases q with
  | none => rfl
  | some q =>
    cases s with
    | none => rfl
    | some s => exact h.filters P _ _

/-! ### Loading tables -/

theorem tryTableIn_bind {β : Type} (there : Bytes → Bool) (ctype path : Bytes) (k : Option Table → Prog β) :
    ((tryTableIn there ctype path).bind fun r => k r.2) = (tryTable ctype path).bind k := by
  unfold tryTableIn tryTable
  split <;> rfl

theorem findTableIn_bind {β : Type} (there : Bytes → Bool) (ctype : Bytes) (datadir : Option Bytes) (name : Bytes) (k : Option Table → Prog β) :
    ((findTableIn there ctype datadir name).bind fun r => k r.2) = (findTable ctype datadir name).bind k := by
  have last : ∀ b : Bool, (((tryTableIn there ctype (lit "/usr/local/share/detox/" ++ name)).bind fun t3 =>
      (.ret (b || t3.1, t3.2) : Prog (Bool × Option Table))).bind fun r => k r.2) =
      (tryTable ctype (lit "/usr/local/share/detox/" ++ name)).bind k := by
    intro b
    rw [Prog.bind_assoc]
    exact tryTableIn_bind there ctype _ k
  have mid : ∀ b : Bool, (((tryTableIn there ctype (lit "/usr/share/detox/" ++ name)).bind fun t2 =>
      match t2.2 with
      | some t => (.ret (b || t2.1, some t) : Prog (Bool × Option Table))
      | none => (tryTableIn there ctype (lit "/usr/local/share/detox/" ++ name)).bind fun t3 => .ret (b || t2.1 || t3.1, t3.2)).bind fun r => k r.2) =
      ((tryTable ctype (lit "/usr/share/detox/" ++ name)).bind fun t2 =>
        match t2 with
        | some t => .ret (some t)
        | none => tryTable ctype (lit "/usr/local/share/detox/" ++ name)).bind k := by
    intro b
    rw [Prog.bind_assoc, Prog.bind_assoc, ← tryTableIn_bind there]
    congr 1
    funext r
    obtain ⟨r, t⟩ := r
    cases t with
    | some t => rfl
    | none => exact last _
  unfold findTableIn findTable
  cases datadir with
  | none => exact mid false
  | some d =>
    rw [Prog.bind_assoc, Prog.bind_assoc, ← tryTableIn_bind there]
    congr 1
    funext r
    obtain ⟨r, t⟩ := r
    cases t with
    | some t => rfl
    | none => exact mid r

theorem loadTableIn_bind {β : Type} (there : Bytes → Bool) (ctype : Bytes) (datadir : Option Bytes) (f : Filter) (k : Option Table → Prog β) :
    ((loadTableIn there ctype datadir f).bind fun r => k r.2) = (loadTable ctype datadir f).bind k := by
  unfold loadTableIn loadTable
  cases defaultTableFilename f.cleaner with
  | none => rfl
  | some name =>
    cases hb : f.builtin with
    | some b =>
      simp only
      cases filterLoadBuiltinByFilename b <;> rfl
    | none =>
      cases hf : f.filename with
      | some fn =>
        unfold readTableIn readTable
        show Prog.slurp _ _ = Prog.slurp _ _
        congr 1
        funext r
        show Prog.bind (match r.bind (parseTableContent ctype) with | none => _ | some t => _) _ = Prog.bind (match r.bind (parseTableContent ctype) with | none => _ | some t => _) _
        cases r.bind (parseTableContent ctype) <;> rfl
      | none =>
        simp only
        rw [Prog.bind_assoc, Prog.bind_assoc, ← findTableIn_bind there]
        congr 1
        funext r
        obtain ⟨r, t⟩ := r
        cases t with
        | some t => rfl
        | none =>
          simp only
          cases filterLoadBuiltin f <;> rfl

theorem loadTablesIn_bind {β : Type} (there : Bytes → Bool) (ctype : Bytes) (datadir : Option Bytes) : ∀ (fs : List Filter) (k : List Filter → Prog β),
    ((loadTablesIn there ctype datadir fs).bind fun r => k r.2) = (loadTables ctype datadir fs).bind k := by
  intro fs
  induction fs with
  | nil => intro k; rfl
  | cons f fs ih =>
    intro k
    unfold loadTablesIn loadTables
    rw [Prog.bind_assoc, Prog.bind_assoc, ← loadTableIn_bind there]
    congr 1
    funext t
    rw [Prog.bind_assoc, Prog.bind_assoc]
    exact ih fun fs' => k ((match t.2 with | some t => { f with table := some t } | none => f) :: fs')

theorem reviewSequenceIn_bind {β : Type} (there : Bytes → Bool) (ctype : Bytes) (datadir : Option Bytes) (q : Sequence) (k : Sequence → Prog β) :
    ((reviewSequenceIn there ctype datadir q).bind fun r => k r.2) = (reviewSequence ctype datadir q).bind k := by
  unfold reviewSequenceIn reviewSequence
  rw [Prog.bind_assoc, Prog.bind_assoc]
  exact loadTablesIn_bind there ctype datadir q.filters fun fs => k { q with filters := fs }

/-- What has been done in the first part has been done. -/
theorem trace_bind_running {α β : Type} {p : Prog α} {t : List Event} {o : Outcome α} (h : Trace p t o) {f : α → Prog β} :
    Trace (p.bind f) t .running := by
  induction h with
  | ret => exact .stop _
  | stop => exact .stop _
  | exit => exact .stop _
  | ub => exact .stop _
  | stuck => exact .stop _
  | lstat _ _ _ _ _ _ ih => exact .lstat _ _ _ _ _ ih
  | rename _ _ _ _ _ _ _ ih => exact .rename _ _ _ _ _ _ ih
  | opendir _ _ _ _ _ _ ih => exact .opendir _ _ _ _ _ ih
  | readdir _ _ _ _ _ _ ih => exact .readdir _ _ _ _ _ ih
  | closedir _ _ _ _ _ ih => exact .closedir _ _ _ _ ih
  | slurp _ _ _ _ _ _ ih => exact .slurp _ _ _ _ _ ih
  | out _ _ _ _ _ ih => exact .out _ _ _ _ ih
  | err _ _ _ _ _ ih => exact .err _ _ _ _ ih

/-! ### When `setlocale` is called -/

/-- A table file was examined. -/
def Examined (there : Bytes → Bool) (tr : List Event) : Prop := ∃ p r, Event.slurp (some p) r ∈ tr ∧ (r ≠ none ∨ there p = true)

theorem Examined.append {there : Bytes → Bool} {a b : List Event} : Examined there (a ++ b) ↔ Examined there a ∨ Examined there b := by
  constructor
  · rintro ⟨p, r, h, k⟩
    rcases List.mem_append.1 h with h | h
    · exact .inl ⟨p, r, h, k⟩
    · exact .inr ⟨p, r, h, k⟩
  · rintro (⟨p, r, h, k⟩ | ⟨p, r, h, k⟩)
    · exact ⟨p, r, List.mem_append_left _ h, k⟩
    · exact ⟨p, r, List.mem_append_right _ h, k⟩

theorem Examined.nil {there : Bytes → Bool} : ¬ Examined there [] := by
  rintro ⟨p, r, h, _⟩
  cases h

theorem readTableIn_examined {there : Bytes → Bool} {ctype path : Bytes} {tr : List Event} {b : Bool} {t : Option Table}
    (h : Trace (readTableIn there ctype path) tr (.ret (b, t))) : b = true ↔ Examined there tr := by
  unfold readTableIn at h
  cases h with
  | slurp _ _ r _ _ h =>
    cases h
    constructor
    · intro h
      refine ⟨path, r, by simp, ?_⟩
      cases r with
      | none => exact .inr (by simpa using h)
      | some r => exact .inl nofun
    · rintro ⟨p, r', h, k⟩
      simp at h
      obtain ⟨rfl, rfl⟩ := h
      rcases k with k | k
      · cases r' with
        | none => exact absurd rfl k
        | some r => rfl
      · simp [k]

theorem tryTableIn_examined {there : Bytes → Bool} {ctype path : Bytes} {tr : List Event} {b : Bool} {t : Option Table}
    (h : Trace (tryTableIn there ctype path) tr (.ret (b, t))) : b = true ↔ Examined there tr := by
  unfold tryTableIn at h
  split at h
  · exact readTableIn_examined h
  · cases h
    simp [Examined.nil]

theorem findTableIn_examined {there : Bytes → Bool} {ctype : Bytes} {datadir : Option Bytes} {name : Bytes} {tr : List Event} {b : Bool}
    {t : Option Table} (h : Trace (findTableIn there ctype datadir name) tr (.ret (b, t))) : b = true ↔ Examined there tr := by
  unfold findTableIn at h
  obtain ⟨⟨b1, t1⟩, tr1, tr2, rfl, h1, h2⟩ := trace_bind_ret h
  have e1 : b1 = true ↔ Examined there tr1 := by
    cases datadir with
    | none => cases h1; simp [Examined.nil]
    | some d => exact tryTableIn_examined h1
  rw [Examined.append, ← e1]
  cases t1 with
  | some t1 => cases h2; simp [Examined.nil]
  | none =>
    obtain ⟨⟨b2, t2⟩, tr3, tr4, rfl, h3, h4⟩ := trace_bind_ret h2
    rw [Examined.append, ← tryTableIn_examined h3]
    cases t2 with
    | some t2 => cases h4; simp [Examined.nil]
    | none =>
      obtain ⟨⟨b3, t3⟩, tr5, tr6, rfl, h5, h6⟩ := trace_bind_ret h4
      cases h6
      rw [Examined.append, ← tryTableIn_examined h5]
      simp [Examined.nil, or_assoc]

theorem loadTableIn_examined {there : Bytes → Bool} {ctype : Bytes} {datadir : Option Bytes} {f : Filter} {tr : List Event} {b : Bool}
    {t : Option Table} (h : Trace (loadTableIn there ctype datadir f) tr (.ret (b, t))) : b = true ↔ Examined there tr := by
  unfold loadTableIn at h
  split at h
  · cases h; simp [Examined.nil]
  · split at h
    · split at h
      · cases h with | err _ _ _ _ h => cases h
      · cases h; simp [Examined.nil]
    · split at h
      · obtain ⟨⟨b1, t1⟩, tr1, tr2, rfl, h1, h2⟩ := trace_bind_ret h
        rw [Examined.append, ← readTableIn_examined h1]
        cases t1 with
        | none => cases h2 with | err _ _ _ _ h => cases h
        | some t1 => cases h2; simp [Examined.nil]
      · obtain ⟨⟨b1, t1⟩, tr1, tr2, rfl, h1, h2⟩ := trace_bind_ret h
        rw [Examined.append, ← findTableIn_examined h1]
        cases t1 with
        | some t1 => cases h2; simp [Examined.nil]
        | none =>
          simp only at h2
          split at h2
          · cases h2 with | err _ _ _ _ h => cases h
          · cases h2; simp [Examined.nil]

theorem loadTablesIn_examined {there : Bytes → Bool} {ctype : Bytes} {datadir : Option Bytes} : ∀ {fs : List Filter} {tr : List Event} {b : Bool}
    {fs' : List Filter}, Trace (loadTablesIn there ctype datadir fs) tr (.ret (b, fs')) → (b = true ↔ Examined there tr) := by
  intro fs
  induction fs with
  | nil =>
    intro tr b fs' h
    cases h
    simp [Examined.nil]
  | cons f fs ih =>
    intro tr b fs' h
    unfold loadTablesIn at h
    obtain ⟨⟨b1, t1⟩, tr1, tr2, rfl, h1, h2⟩ := trace_bind_ret h
    obtain ⟨⟨b2, fs2⟩, tr3, tr4, rfl, h3, h4⟩ := trace_bind_ret h2
    cases h4
    rw [Examined.append, Examined.append, ← loadTableIn_examined h1, ← ih h3]
    simp [Examined.nil]

theorem reviewSequenceIn_examined {there : Bytes → Bool} {ctype : Bytes} {datadir : Option Bytes} {q : Sequence} {tr : List Event} {b : Bool}
    {q' : Sequence} (h : Trace (reviewSequenceIn there ctype datadir q) tr (.ret (b, q'))) : b = true ↔ Examined there tr := by
  unfold reviewSequenceIn at h
  obtain ⟨⟨b1, fs⟩, tr1, tr2, rfl, h1, h2⟩ := trace_bind_ret h
  cases h2
  rw [List.append_nil]
  exact loadTablesIn_examined h1

end Detox
