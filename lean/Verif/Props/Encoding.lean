import Verif.Lemmas.Encoding
import Verif.Props.InlineMain
import Verif.Props.Resume
import Verif.Lemmas.CheckDump

/-!
# C109 — names in UTF-8 stay in UTF-8
-/

set_option autoImplicit false

namespace Detox

open Spec

/-! ### Filters and sequences -/

/-- **C109.** Whatever the filters and tables: if all of the filters mind UTF-8, what the sequence makes of a name in UTF-8 is UTF-8. -/
theorem C109_sequences_mind_utf8 {P : Platform} {locale : Bytes} {datadir : Option Bytes} {files : Bytes → Option Bytes} {fs : List Filter}
    (hf : ∀ f ∈ fs, MindsUtf8 P locale datadir files f) {s out : Bytes} (h : FiltersSay P locale datadir files fs s out) (hs : ValidUtf8 s) :
    ValidUtf8 out := by
  induction h with
  | nil => exact hs
  | cons f fs s mid out h _ ih => exact ih (fun g hg => hf g (by simp [hg])) (valid_filter (hf f (by simp)) h hs)

/-- **C109.** `max_length` keeps a name in UTF-8 exactly if the first byte it drops does not go on with a character. -/
theorem C109_max_length {limit : Nat} {s out : Bytes} (h : Shortens limit s out) (hs : ValidUtf8 s) :
    ValidUtf8 out ↔ ∀ k, CutBehind limit s k → ∀ c, s[k]? = some c → isCont c = false := by
  have ext : ∀ {e e' : Nat}, limit < s.length → ExtensionAt s e → ExtensionAt s e' → e = e' := by
    intro e e' hl he he'
    rcases extension_or_not s (by rintro rfl; simp at hl) with ⟨_, h⟩ | ⟨_, e0, _, h⟩
    · exact absurd he (h e)
    · rw [h e he, h e' he']
  have no : ∀ {e : Nat}, limit < s.length → NoExtension s → ¬ ExtensionAt s e := by
    intro e hl hn
    rcases extension_or_not s (by rintro rfl; simp at hl) with ⟨_, h⟩ | ⟨h, _⟩
    · exact h e
    · exact absurd hn h
  cases h with
  | fits hl =>
    refine ⟨fun _ k hk => ?_, fun _ => hs⟩
    cases hk <;> omega
  | plain hl hn =>
    rw [valid_take hs]
    constructor
    · intro h k hk
      cases hk with
      | plain => exact h
      | extension e _ he _ => exact absurd he (no hl hn)
    · exact fun h => h _ (.plain hl hn)
  | hopeless e hl he hle =>
    refine ⟨fun _ k hk => ?_, fun _ => hs⟩
    cases hk with
    | plain _ hn => exact absurd he (no hl hn)
    | extension e' _ he' _ => cases ext hl he he'; omega
  | cut e body hl he hlt hb hlen =>
    have hdot : s[e]? = some 0x2E := by
      obtain ⟨d, h1, _, h2⟩ := he
      rcases h2 with ⟨rfl, _⟩ | ⟨_, _, _, h, _⟩
      · exact h1.1
      · exact h
    have hel : e < s.length := by
      rcases Nat.lt_or_ge e s.length with h | h
      · exact h
      · rw [List.getElem?_eq_none h] at hdot; cases hdot
    have hbody : body = s.take (limit - (s.length - e)) := by
      rw [List.length_append, List.length_drop] at hlen
      rw [List.prefix_iff_eq_take.1 hb, List.take_take]
      congr 1
      have := hb.length_le
      rw [List.length_take] at this
      omega
    have hhead : ∀ c, (s.drop e).head? = some c → isCont c = false := by
      intro c hc
      rw [List.head?_drop, hdot] at hc
      cases hc
      decide
    have hd : ValidUtf8 (s.drop e) := by
      have := hs
      rw [← List.take_append_drop e s] at this
      exact (valid_split this hhead).2
    have h1 : ValidUtf8 (body ++ s.drop e) ↔ ValidUtf8 body := ⟨fun h => (valid_split h hhead).1, fun h => valid_append h hd⟩
    rw [h1, hbody, valid_take hs]
    constructor
    · intro h k hk
      cases hk with
      | plain _ hn => exact absurd he (no hl hn)
      | extension e' _ he' _ => cases ext hl he he'; exact h
    · exact fun h => h _ (.extension e hl he hlt)

/-- **C109.** `uncgi` makes UTF-8 of UTF-8 if the escapes are those of ASCII characters. -/
theorem C109_uncgi {s out : Bytes} (h : Decodes s out) (hs : ValidUtf8 s)
    (he : ∀ a h1 h2 b v1 v2, s = a ++ 0x25 :: h1 :: h2 :: b → HexDigit h1 v1 → HexDigit h2 v2 → v1 < 8) : ValidUtf8 (out.takeWhile (· ≠ 0)) := by
  have hex : ∀ (c : Byte) (v : Nat), HexDigit c v → c.toNat < 128 ∧ v < 16 := by
    intro c v h
    unfold HexDigit at h
    omega
  have key : ∀ p : Bytes, ValidUtf8 (p ++ s) → ValidUtf8 (p ++ out) := by
    clear hs
    induction h with
    | nil => exact fun p h => h
    | esc h1 h2 v1 v2 rest out d1 d2 _ ih =>
      intro p hp
      obtain ⟨g1, g2⟩ := valid_at_ascii (by decide) hp
      obtain ⟨_, g2⟩ := valid_at_ascii (p := []) (hex _ _ d1).1 g2
      obtain ⟨_, g2⟩ := valid_at_ascii (p := []) (hex _ _ d2).1 g2
      have hv := he [] h1 h2 rest v1 v2 rfl d1 d2
      have hv2 := (hex _ _ d2).2
      refine valid_append g1 (valid_cons ?_ (ih (fun a x1 x2 b w1 w2 e => he (0x25 :: h1 :: h2 :: a) x1 x2 b w1 w2 (by rw [e]; rfl)) [] g2))
      rw [UInt8.toNat_ofNat']
      omega
    | plus rest out _ ih =>
      intro p hp
      obtain ⟨g1, g2⟩ := valid_at_ascii (by decide) hp
      exact valid_append g1 (valid_cons (by decide) (ih (fun a x1 x2 b w1 w2 e => he (0x2B :: a) x1 x2 b w1 w2 (by rw [e]; rfl)) [] g2))
    | self c rest out _ _ _ ih =>
      intro p hp
      have := ih (fun a x1 x2 b w1 w2 e => he (c :: a) x1 x2 b w1 w2 (by rw [e]; rfl)) (p ++ [c]) (by simpa using hp)
      simpa using this
  have ho := key [] hs
  have ho : ValidUtf8 (out.takeWhile (· ≠ 0) ++ out.dropWhile (· ≠ 0)) := by rw [List.takeWhile_append_dropWhile]; exact ho
  refine (valid_split ho fun c hc => ?_).1
  have := List.head?_dropWhile_not (fun c : Byte => decide (c ≠ 0)) out
  rw [hc] at this
  have : c = 0 := by simpa using this
  rw [this]
  decide

/- `éé` cut behind three bytes and behind two. -/
example : Shortens 3 [0xC3, 0xA9, 0xC3, 0xA9] [0xC3, 0xA9, 0xC3] := .plain (by decide) (.inl fun j => by
  rcases j with _ | _ | _ | _ | j <;> simp)
example : ¬ ValidUtf8 [0xC3, 0xA9, 0xC3] := by
  have hn : NoExtension [0xC3, 0xA9, 0xC3, 0xA9] := .inl fun j => by rcases j with _ | _ | _ | _ | j <;> simp
  show ¬ ValidUtf8 (List.take 3 [0xC3, 0xA9, 0xC3, 0xA9])
  rw [C109_max_length (.plain (s := [0xC3, 0xA9, 0xC3, 0xA9]) (limit := 3) (by decide) hn) ⟨[0xE9, 0xE9], by decide +kernel, by decide +kernel⟩]
  intro h
  have := h 3 (.plain (by decide) hn) 0xA9 (by decide)
  revert this
  decide
example : ValidUtf8 [0xC3, 0xA9] := by
  have hn : NoExtension [0xC3, 0xA9, 0xC3, 0xA9] := .inl fun j => by rcases j with _ | _ | _ | _ | j <;> simp
  show ValidUtf8 (List.take 2 [0xC3, 0xA9, 0xC3, 0xA9])
  rw [C109_max_length (.plain (s := [0xC3, 0xA9, 0xC3, 0xA9]) (limit := 2) (by decide) hn) ⟨[0xE9, 0xE9], by decide +kernel, by decide +kernel⟩]
  intro k hk c hc
  cases hk with
  | plain => cases hc; decide
  | extension e _ he _ =>
    rcases extension_or_not _ (by simp : ([0xC3, 0xA9, 0xC3, 0xA9] : Bytes) ≠ []) with ⟨_, h⟩ | ⟨h, _⟩
    · exact absurd he (h e)
    · exact absurd hn h

/-! ### The built-in tables -/

/-- The value of a character written in two or three bytes. -/
def valueOf : Bytes → Nat
  | [a, b] => (a.toNat - 0xC0) * 64 + (b.toNat - 0x80)
  | [a, b, c] => (a.toNat - 0xE0) * 4096 + (b.toNat - 0x80) * 64 + (c.toNat - 0x80)
  | _ => 0

/-- ASCII, or one character. -/
def simpleText (d : Bytes) : Bool := d.all (fun c => decide (c.toNat < 128)) || (decide (Scalar (valueOf d)) && decide (encode (valueOf d) = d))

theorem simpleText_valid {d : Bytes} (h : simpleText d = true) : ValidUtf8 d := by
  unfold simpleText at h
  rw [Bool.or_eq_true, Bool.and_eq_true, decide_eq_true_eq, decide_eq_true_eq, List.all_eq_true] at h
  rcases h with h | ⟨h1, h2⟩
  · exact valid_ascii fun c hc => of_decide_eq_true (h c hc)
  · rw [← h2]; exact valid_encode h1

/-- **C109.** What the built-in tables put into names is UTF-8. -/
theorem C109_builtin_tables {b : Bytes} {m : TableText} (h : BuiltinSays b m) : m.InUtf8 := by
  have key : ∀ rows : List (Nat × Bytes), (∀ r ∈ rows, simpleText r.2 = true) → ∀ d : Option Bytes, (∀ x, d = some x → simpleText x = true) →
      TableText.InUtf8 ⟨lastOf rows, d⟩ :=
    fun rows h d hd => ⟨fun k x hx => simpleText_valid (h _ (lastOf_mem hx)), fun x hx => simpleText_valid (hd x hx)⟩
  cases h with
  | iso8859_1 => exact key _ (by decide +kernel) _ (by rintro x ⟨⟩; decide +kernel)
  | unicode => exact key _ (by decide +kernel) _ nofun
  | safe => exact key _ (by decide +kernel) _ nofun
  | cp1252 => exact key _ (by decide +kernel) _ nofun

/-- **C109.** All filters that use their own built-in table mind UTF-8, on any platform. -/
theorem C109_builtin_filters (P : Platform) (locale : Bytes) (datadir : Option Bytes) (files : Bytes → Option Bytes) {f : Filter} {n : Bytes}
    (hu : UsualTable f.cleaner n) (hb : f.builtin = some n) : MindsUtf8 P locale datadir files f := by
  generalize hc : f.cleaner = c at hu
  cases hu with
  | iso8859_1 =>
    exact .iso8859_1 _ hc (.builtin _ _ hb .iso8859_1) (C109_builtin_tables .iso8859_1) (.inr (.inl (by simp)))
  | utf8 => exact .utf8 _ hc (.builtin _ _ hb .unicode) (C109_builtin_tables .unicode)
  | safe =>
    refine .safe _ hc (.builtin _ _ hb .safe) (C109_builtin_tables .safe) (.inl ⟨rfl, fun c hc => ?_⟩)
    have hrows : ∀ r ∈ writtenRows builtin_safe_rows, r.1 < 128 := by decide +kernel
    unfold safeCode
    split
    · rfl
    · show lastOf (writtenRows builtin_safe_rows) c.toNat = none
      cases hl : lastOf (writtenRows builtin_safe_rows) c.toNat with
      | none => rfl
      | some d =>
        have := hrows _ (lastOf_mem hl)
        exact absurd this (by show ¬ c.toNat < 128; omega)

/-! ### The built-in sequences -/

/-- The built-in sequences that make UTF-8 of UTF-8. -/
def utf8Sequences : List Bytes :=
  [lit "default", lit "iso8859_1", lit "iso8859_1-legacy", lit "utf_8", lit "lower", lit "iso8859_1-only", lit "utf_8-only", lit "lower-only"]

/-- The built-in sequences that make UTF-8 of anything. -/
def toUtf8Sequences : List Bytes := [lit "iso8859_1", lit "iso8859_1-legacy", lit "iso8859_1-only"]

theorem safeMap_minds : (∀ c : Byte, c.toNat < 128 → ∀ x ∈ safeMap c, x.toNat < 128) ∧ ∀ c : Byte, 128 ≤ c.toNat → safeMap c = [c] :=
  ⟨forall_byte (by decide +kernel), forall_byte (by decide +kernel)⟩

theorem valid_safeWipe {s : Bytes} (hn : NulFree s) (hs : ValidUtf8 s) : ValidUtf8 (safeWipe s) := by
  have h1 : ValidUtf8 (s.flatMap safeMap) := valid_flatMap (fun c hc => valid_ascii (safeMap_minds.1 c hc)) (.inl safeMap_minds.2) hs
  exact valid_wipeup (cleanWipeup_ok true _ (nulFree_safe hn)).2.1 h1

theorem latin1_minds (c : Byte) : ValidUtf8 (latin1 c) := by
  by_cases hc : c = 0
  · rw [hc]; exact valid_ascii (by decide +kernel)
  · obtain ⟨cp, h3, h4⟩ := (latin1_facts c hc).2.2.1
    rw [h4]
    have := List.mem_range.1 h3
    exact valid_encode (by unfold Scalar; omega)

theorem valid_latin1 (s : Bytes) : ValidUtf8 (s.flatMap latin1) := by
  induction s with
  | nil => exact valid_nil
  | cons c s ih => rw [List.flatMap_cons]; exact valid_append (latin1_minds c) ih

theorem unicode_minds {s out : Bytes} (hn : NulFree s) (hs : ValidUtf8 s) (h : cleanUtf8 (some load_builtin_unicode_table) s = .ok out) : ValidUtf8 out := by
  obtain ⟨cps, h1, rfl⟩ := hs
  have h0 : ∀ cp ∈ cps, Scalar cp ∧ cp ≠ 0 := by
    refine fun cp hcp => ⟨h1 cp hcp, fun e => hn ?_⟩
    refine List.mem_flatMap.2 ⟨cp, hcp, ?_⟩
    rw [e]
    decide
  have h2 := C11_utf8_translates_code_points load_builtin_unicode_table unicode_table_ascii.cstrings cps h0
  dsimp only at h2
  rw [h] at h2
  split at h2
  · cases h2
    rename_i hfits
    clear h hn h0 hfits
    induction cps with
    | nil => exact valid_nil
    | cons cp cps ih =>
      rw [List.flatMap_cons]
      refine valid_append ?_ (ih fun x hx => h1 x (by simp [hx]))
      unfold translate
      cases hg : tableGet load_builtin_unicode_table cp with
      | some r => exact valid_ascii fun c hc => (unicode_table_ascii.1 cp r hg c hc).1
      | none =>
        cases hd : load_builtin_unicode_table.defaultTranslation with
        | some d => exact valid_ascii fun c hc => (unicode_table_ascii.2 d hd c hc).1
        | none => exact valid_encode (h1 cp (by simp))
  · cases h2

theorem toLowerC_small (s : Bytes) : s.map toLowerC = s.map small := by
  have : ∀ c : Byte, toLowerC c = small c := forall_byte (by decide +kernel)
  exact List.map_congr_left fun c _ => this c

/-- **C109.** With three of the built-in sequences, every new name is UTF-8, whatever the old one. -/
theorem C109_builtin_makes_utf8 (P : Platform) (E : TableEnv) {name : Bytes} (hname : name ∈ toUtf8Sequences) {s out : Bytes} (hn : NulFree s)
    (h : runBuiltin P E (some name) s = .ok (some out)) : ValidUtf8 out := by
  simp only [toUtf8Sequences, List.mem_cons, List.not_mem_nil, or_false] at hname
  rcases hname with rfl | rfl | rfl
  · rw [runBuiltin_eq P E _ _ [isoF, safeF, wipeF] (by simp [builtinFilters]), runFilters_cons (run_isoF P s hn), run_safe_wipe P _ (nulFree_latin1 hn)] at h
    cases h
    exact valid_safeWipe (nulFree_latin1 hn) (valid_latin1 s)
  · rw [runBuiltin_eq P E _ _ [cpF, isoF, safeF, wipeF] (by simp [builtinFilters]), runFilters_cons (run_cpF P s hn),
      runFilters_cons (run_isoF P _ (nulFree_cp1252 hn)), run_safe_wipe P _ (nulFree_latin1 (nulFree_cp1252 hn))] at h
    cases h
    exact valid_safeWipe (nulFree_latin1 (nulFree_cp1252 hn)) (valid_latin1 _)
  · rw [runBuiltin_eq P E _ _ [isoF] (by simp [builtinFilters]), runFilters_cons (run_isoF P s hn)] at h
    cases h
    exact valid_latin1 s

/-- **C109.** With eight of the eleven built-in sequences, the default among them, names in UTF-8 stay in UTF-8. -/
theorem C109_builtin_minds_utf8 (P : Platform) (hP : P.Benign) (E : TableEnv) {name : Option Bytes} (hname : name = none ∨ ∃ n ∈ utf8Sequences, name = some n)
    {s out : Bytes} (hn : NulFree s) (hs : ValidUtf8 s) (h : runBuiltin P E name s = .ok (some out)) : ValidUtf8 out := by
  have dflt : ∀ out, runBuiltin P E none s = .ok (some out) → ValidUtf8 out := by
    intro out h
    rw [runBuiltin_none, run_safe_wipe P s hn] at h
    cases h
    exact valid_safeWipe hn hs
  rcases hname with rfl | ⟨n, hmem, rfl⟩
  · exact dflt out h
  · simp only [utf8Sequences, List.mem_cons, List.not_mem_nil, or_false] at hmem
    rcases hmem with rfl | rfl | rfl | rfl | rfl | rfl | rfl | rfl
    · rw [runBuiltin_asked (.inr rfl)] at h
      exact dflt out h
    · exact C109_builtin_makes_utf8 P E (by simp [toUtf8Sequences]) hn h
    · exact C109_builtin_makes_utf8 P E (by simp [toUtf8Sequences]) hn h
    · rw [runBuiltin_eq P E _ _ [utf8F, safeF, wipeF] (by simp [builtinFilters]), runFilters_utf8] at h
      cases hu : cleanUtf8 (some load_builtin_unicode_table) s with
      | ok r =>
        rw [hu] at h
        have hr : NulFree r := by
          have hunits := utf8Fn_fixUnits s
          rw [← cleanUtf8_some unicode_table_ascii hu] at hunits
          exact hunits.nulFree fun _ _ h => h.2
        change runFilters P [safeF, wipeF] (some r) = _ at h
        rw [run_safe_wipe P r hr] at h
        cases h
        exact valid_safeWipe hr (unicode_minds hn hs hu)
      | exit n => rw [hu] at h; cases h
      | ub u => rw [hu] at h; cases h
      | stuck => rw [hu] at h; cases h
    · rw [run_lower_seq P hP E s hn] at h
      cases h
      have h1 : ValidUtf8 (s.flatMap safeMap) := valid_flatMap (fun c hc => valid_ascii (safeMap_minds.1 c hc)) (.inl safeMap_minds.2) hs
      refine valid_wipeup (cleanWipeup_ok true _ (nulFree_map_lower (nulFree_safe hn))).2.1 ?_
      rw [toLowerC_small]
      exact valid_small h1
    · exact C109_builtin_makes_utf8 P E (by simp [toUtf8Sequences]) hn h
    · rw [runBuiltin_eq P E _ _ [utf8F] (by simp [builtinFilters]), runFilters_utf8] at h
      cases hu : cleanUtf8 (some load_builtin_unicode_table) s with
      | ok r =>
        rw [hu] at h
        cases h
        exact unicode_minds hn hs hu
      | exit n => rw [hu] at h; cases h
      | ub u => rw [hu] at h; cases h
      | stuck => rw [hu] at h; cases h
    · rw [run_lower_only P hP E s hn] at h
      cases h
      rw [toLowerC_small]
      exact valid_small hs

/-- The sequences that are left: `cp1252-only` translates some of the bytes of a character and not the others, and `%ff` is not UTF-8. -/
theorem C109_not_all_builtin_mind_utf8 (E : TableEnv) :
    (ValidUtf8 [0xC2, 0x80] ∧ runBuiltin .linux E (some (lit "cp1252-only")) [0xC2, 0x80] = .ok (some [0xC2, 0xE2, 0x82, 0xAC]) ∧
      ¬ ValidUtf8 [0xC2, 0xE2, 0x82, 0xAC]) ∧
    (ValidUtf8 (lit "%ff") ∧ runBuiltin .linux E (some (lit "uncgi-only")) (lit "%ff") = .ok (some [0xFF]) ∧
      runBuiltin .linux E (some (lit "uncgi")) (lit "%ff") = .ok (some [0xFF]) ∧ ¬ ValidUtf8 [0xFF]) := by
  refine ⟨⟨⟨[0x80], by decide +kernel, by decide +kernel⟩, ?_, ?_⟩, ⟨valid_ascii (by decide +kernel), ?_, ?_, ?_⟩⟩
  · rw [runBuiltin_eq .linux E _ _ [cpF] (by simp [builtinFilters])]
    decide +kernel
  · intro h
    obtain ⟨cps, h1, h2⟩ := h
    cases cps with
    | nil => cases h2
    | cons cp cps =>
      obtain ⟨c, conts, w, b, e1, e2, e3, e4, _⟩ := encode_unit (scalar_le (h1 cp (by simp)))
      rw [List.flatMap_cons, e1, List.cons_append] at h2
      obtain ⟨rfl, h3⟩ := List.cons.inj h2
      rw [show leadOf 0xC2 = some (2, 0xC0) by decide] at e2
      cases e2
      cases conts with
      | nil => simp at e3
      | cons x conts =>
        obtain ⟨rfl, _⟩ := List.cons.inj h3
        have := e4 0xE2 (by simp)
        revert this
        decide
  · rw [runBuiltin_eq .linux E _ _ [uncgiF] (by simp [builtinFilters])]
    decide +kernel
  · rw [runBuiltin_eq .linux E _ _ [uncgiF, safeF, wipeF] (by simp [builtinFilters])]
    decide +kernel
  · intro h
    obtain ⟨w, b, hw⟩ := validUtf8_head h
    revert hw
    rw [show leadOf 0xFF = none by decide]
    nofun

/-! ### The whole program -/

theorem valid_path {old dir name : Bytes} (h : SplitsAs old dir name) : ValidUtf8 old ↔ ValidUtf8 dir ∧ ValidUtf8 name := by
  obtain ⟨rfl, _, h⟩ := h
  refine ⟨fun hv => ?_, fun ⟨h1, h2⟩ => valid_append h1 h2⟩
  rcases h with rfl | ⟨d, rfl⟩
  · exact ⟨valid_nil, hv⟩
  · rw [List.append_assoc] at hv
    obtain ⟨h1, h2⟩ := valid_at_ascii (by decide) hv
    exact ⟨valid_append h1 (valid_byte (by decide)), h2⟩

/-- **C109.** With nothing configured and one of these sequences, no file with a path in UTF-8 is given one that is not. -/
theorem C109_builtin_renames {P : Platform} (hP : P.Benign) {I : Invocation} {fuel : Nat} {ss : List Setting} {ws : List Bytes}
    (hc : CommandLine I.posixlyCorrect I.args ss ws) {tr : List Event} {out : Outcome Unit} (h : Trace (detoxMain P I fuel) tr out)
    (hu : Unconfigured I ss tr) (hn : requested I ss = none ∨ ∃ n ∈ utf8Sequences, requested I ss = some n) {old new : Bytes} {ok : Bool}
    (hmem : Event.rename old new ok ∈ tr) (hold : NulFree old) (hv : ValidUtf8 old) : ValidUtf8 new := by
  obtain ⟨dir, name, cleaned, a, rfl, _, d⟩ := C70_builtin_renames hc h hu old new ok hmem
  obtain ⟨h1, h2⟩ := (valid_path a).1 hv
  refine valid_append h1 (C109_builtin_minds_utf8 P hP ⟨fun _ => none, none⟩ hn (fun hm => hold ?_) h2 (d _))
  rw [a.1]
  exact List.mem_append_right _ hm

/-- **C109.** The same with `iso8859_1` and the like, where the old name may be anything. -/
theorem C109_renames_to_utf8 {P : Platform} {I : Invocation} {fuel : Nat} {ss : List Setting} {ws : List Bytes}
    (hc : CommandLine I.posixlyCorrect I.args ss ws) {tr : List Event} {out : Outcome Unit} (h : Trace (detoxMain P I fuel) tr out)
    (hu : Unconfigured I ss tr) {n : Bytes} (hmem : n ∈ toUtf8Sequences) (hn : requested I ss = some n) {old new : Bytes} {ok : Bool}
    (hren : Event.rename old new ok ∈ tr) (hold : NulFree old) : ∃ dir name cleaned, SplitsAs old dir name ∧ new = dir ++ cleaned ∧ ValidUtf8 cleaned := by
  obtain ⟨dir, name, cleaned, a, rfl, _, d⟩ := C70_builtin_renames hc h hu old new ok hren
  have d := d ⟨fun _ => none, none⟩
  rw [hn] at d
  refine ⟨dir, name, cleaned, a, rfl, C109_builtin_makes_utf8 P _ hmem (fun hm => hold ?_) d⟩
  rw [a.1]
  exact List.mem_append_right _ hm

/-- **C109.** With config and table files that are well written: if the filters of the sequence asked for mind UTF-8, no file with a path in UTF-8 is given
one that is not. -/
theorem C109_renames_as_written {P : Platform} (hP : P.Benign) {I : Invocation} {fuel : Nat} {ss : List Setting} {ws : List Bytes}
    (hc : CommandLine I.posixlyCorrect I.args ss ws) {tr : List Event} {out : Outcome Unit} (h : Trace (detoxMain P I fuel) tr out)
    {files : Bytes → Option Bytes} (hfiles : ∀ p r, Event.slurp (some p) r ∈ tr → r = files p)
    {conf : List (Bytes × Bytes × List Rule)} (hne : conf ≠ [])
    (hconf : (conf.map fun f => (f.1, f.2.1)) = configsInEffect I.config (lastConfig ss) files) (hm : ∀ f ∈ conf, Means f.2.1 f.2.2)
    {q : Sequence} (hq : Chosen (inEffect (conf.flatMap fun f => definitions f.1 f.2.2)) (requested I ss) q)
    (hf : ∀ f ∈ q.filters, MindsUtf8 P I.ctype I.datadir files f)
    {old new : Bytes} {ok : Bool} (hmem : Event.rename old new ok ∈ tr) (hold : NulFree old) (hv : ValidUtf8 old) : ValidUtf8 new := by
  have ht : ∀ f ∈ q.filters, ∀ n, UsualTable f.cleaner n → ∃ m, TableSays I.ctype I.datadir files f m := by
    intro f hmf n hu
    cases hf f hmf with
    | lower h => rw [h] at hu; cases hu
    | wipeup h => rw [h] at hu; cases hu
    | utf8 m _ h | iso8859_1 m _ h | safe m _ h => exact ⟨m, h⟩
  obtain ⟨dir, name, cleaned, a, rfl, _, d⟩ := C96_renames_as_written hP hc h hfiles hne hconf hm hq ht hmem hold
  obtain ⟨h1, h2⟩ := (valid_path a).1 hv
  exact valid_append h1 (C109_sequences_mind_utf8 hf d h2)

/-- **C109.** At any moment of a run in the usual case, all names are in UTF-8 if they were to begin with. -/
theorem C109_trees_stay_in_utf8 {P : Platform} (hP : P.Benign) {E : TableEnv} {I : Invocation} {ss : List Setting} {ws : List Bytes} {fs : FS}
    {depth : Ino → Nat} {slack level : Nat} (hu : UsualCase P E I ss ws fs depth slack level) {tr : List Event} {out : Outcome Unit} {w : World}
    (h : Attempt P I ss fs tr out w) (hv : ∀ e ∈ fs.entries, ValidUtf8 e.name) : ∀ e ∈ w.fs.entries, ValidUtf8 e.name := by
  have dec := Classical.propDecidable
  obtain ⟨new, hfs, hnew⟩ := C108_at_any_moment hP hu { recurse := decide (Setting.recurse ∈ ss), special := decide (Setting.special ∈ ss) }
    (by simp) (by simp) h
  rw [hfs]
  intro x hx
  obtain ⟨e, he, rfl⟩ := List.mem_map.1 hx
  show ValidUtf8 (new e)
  rcases hnew e he with h | ⟨h, _⟩
  · rw [h]; exact hv e he
  · refine C109_builtin_minds_utf8 P hP E ?_ (hu.names e he _ (.inl rfl)).1.nul (hv e he) h
    refine hu.sequence.imp_right fun ⟨n, hn, hr⟩ => ⟨n, ?_, hr⟩
    simp only [List.mem_cons, List.not_mem_nil, or_false] at hn
    rcases hn with rfl | rfl | rfl | rfl <;> simp [utf8Sequences]

theorem builtinChunks_utf8 {P : Platform} (hP : P.Benign) {E : TableEnv} {n : Option Bytes} (hn : n = none ∨ ∃ m ∈ utf8Sequences, n = some m) {cs : List Chunk} {out : Bytes}
    (h : BuiltinChunks P E n cs out) (hcs : ∀ c ∈ cs, NulFree c.1 ∧ ValidUtf8 c.1) : ValidUtf8 out := by
  induction h with
  | nil => exact valid_nil
  | cons l c nl cs out hl _ ih =>
    refine valid_append (valid_append ?_ ?_) (ih fun x hx => hcs x (List.mem_cons_of_mem _ hx))
    · obtain ⟨k1, k2⟩ := hcs _ (List.mem_cons_self ..)
      rcases hl with ⟨_, rfl⟩ | ⟨_, hl⟩
      · exact k2
      · exact C109_builtin_minds_utf8 P hP E hn k1 k2 hl
    · cases nl with
      | true => exact valid_byte (by decide)
      | false => exact valid_nil

/-- **C109.** `inline-detox` with nothing configured and one of these sequences: texts in UTF-8 come out as UTF-8, whatever the lengths of the lines. -/
theorem C109_inline_output {P : Platform} (hP : P.Benign) {I : Invocation} {fuel : Nat} {ss : List Setting} {ws : List Bytes}
    (hc : CommandLine I.posixlyCorrect I.args ss ws) (hi : CalledInline I.program ∨ Setting.inline ∈ ss) {tr : List Event}
    (h : Trace (detoxMain P I fuel) tr (.ret ())) (hu : Unconfigured I ss tr) (hn : requested I ss = none ∨ ∃ n ∈ utf8Sequences, requested I ss = some n)
    (ht : ∀ s ∈ textsRead tr, NulFree s ∧ ValidUtf8 s) : ValidUtf8 (outText tr) := by
  obtain ⟨reads, t, rfl, hr, hin⟩ := C95_inline_builtin hc hi h hu ⟨fun _ => none, none⟩
  have hr : Fruitless reads := hr
  rw [hr.outText]
  rw [textsRead_append, hr.texts, List.nil_append] at ht
  refine InlineInput.total (C := fun _ out => ValidUtf8 out) valid_nil (fun _ _ _ _ h1 h2 => valid_append h1 h2)
    (InlineInput.mono (fun s out hs hm => ?_) hin)
  obtain ⟨cs, h1, h2, h3⟩ := hs (ht s hm).1
  obtain ⟨_, g⟩ := chunks_nulFree h1 (ht s hm).1
  exact builtinChunks_utf8 hP hn h3 fun c hc => ⟨(g c hc).1, h2 (ht s hm).2 c hc⟩

/- A file `é b`. -/
example : Trace (detoxMain .linux { program := lit "detox", args := [[0xC3, 0xA9, 0x20, 0x62]] } 0)
    (nothingInstalled ++ [.lstat [0xC3, 0xA9, 0x20, 0x62] (some (regStat 2)), .lstat [0xC3, 0xA9, 0x20, 0x62] (some (regStat 2)),
      .lstat [0xC3, 0xA9, 0x5F, 0x62] none, .rename [0xC3, 0xA9, 0x20, 0x62] [0xC3, 0xA9, 0x5F, 0x62] true]) (.ret ()) :=
  Prog.result_sound _ _ _ (by decide +kernel)
example : ValidUtf8 [0xC3, 0xA9, 0x20, 0x62] ∧ NulFree [0xC3, 0xA9, 0x20, 0x62] := ⟨⟨[0xE9, 0x20, 0x62], by decide +kernel, by decide +kernel⟩, by decide +kernel⟩

end Detox
