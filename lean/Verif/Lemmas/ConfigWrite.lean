import Verif.Lemmas.ConfigMeaning

/-!
# Writing a configuration
-/

set_option autoImplicit false

namespace Detox
open Spec

theorem method_writable {f : Filter} (h : Writable f) : MethodG (methodToks f) f := by
  cases h with
  | uncgi => exact .uncgi
  | lower => exact .lower
  | wipeup b => cases b <;> constructor
  | maxLength n _ => exact .maxLengthValue n
  | tabled k c hk => cases hk <;> exact .tabled _ _ (by constructor)
  | filename k c s hk _ => cases hk <;> exact .tabledFile _ _ _ _ (by constructor) (.qstring s)
  | builtin k c s hk _ => cases hk <;> exact .tabledBuiltin _ _ _ _ (by constructor) (.qstring s)

theorem methods_append {fs : List Filter} (h : ∀ f ∈ fs, Writable f) : ∀ {ms : List Tok} {fs0 : List Filter}, MethodsG ms fs0 →
    MethodsG (ms ++ fs.flatMap methodToks) (fs0 ++ fs) := by
  induction fs with
  | nil => intro ms fs0 h0; simpa using h0
  | cons f fs ih =>
    intro ms fs0 h0
    have := ih (fun g hg => h g (by simp [hg])) (.more ms _ fs0 f h0 (method_writable (h f (by simp))))
    simpa using this

theorem methods_writable {fs : List Filter} (hne : fs ≠ []) (h : ∀ f ∈ fs, Writable f) : MethodsG (fs.flatMap methodToks) fs := by
  cases fs with
  | nil => exact absurd rfl hne
  | cons f fs =>
    have := methods_append (fs := fs) (fun g hg => h g (by simp [hg])) (.one _ f (method_writable (h f (by simp))))
    simpa using this

theorem ignores_append {ws : List Bytes} : ∀ {is : List Tok} {ws0 : List Bytes}, IgnoresG is ws0 →
    IgnoresG (is ++ ws.flatMap fun s => [.kw .filename, .qstring s, .eol]) (ws0 ++ ws) := by
  induction ws with
  | nil => intro is ws0 h0; simpa using h0
  | cons w ws ih =>
    intro is ws0 h0
    have := ih (.more is ws0 _ w h0 (.qstring w))
    simpa using this

theorem config_append {ts us : List Tok} {rs vs : List Rule} (h1 : ConfigG ts rs) (h2 : ConfigG us vs) : ConfigG (ts ++ us) (rs ++ vs) := by
  induction h2 with
  | nil => simpa using h1
  | more us r vs rule _ hr ih =>
    rw [← List.append_assoc, ← List.append_assoc]
    exact .more _ _ _ _ ih hr

/-- The rules of a written configuration. -/
def configRules (qs : List Sequence) (ws : List Bytes) : List Rule :=
  qs.map (fun q => .sequence q.name q.filters) ++ (if ws = [] then [] else [.ignore ws])

theorem config_writable {qs : List Sequence} {ws : List Bytes} (h : WritableConfig qs ws) :
    ConfigG (configToks qs ws) (configRules qs ws) := by
  refine config_append ?_ ?_
  · have : ∀ qs : List Sequence, (∀ q ∈ qs, q.filters ≠ [] ∧ ∀ f ∈ q.filters, Writable f) →
        ConfigG (qs.flatMap sequenceToks) (qs.map fun q => .sequence q.name q.filters) := by
      intro qs
      induction qs with
      | nil => intro _; exact .nil
      | cons q qs ih =>
        intro hq
        have hf := hq q (by simp)
        have h1 : ConfigG ([] ++ sequenceToks q) ([] ++ [.sequence q.name q.filters]) :=
          .more _ _ _ _ .nil (.sequence _ _ _ _ (.qstring _) (methods_writable hf.1 hf.2))
        exact config_append h1 (ih fun p hp => hq p (by simp [hp]))
    exact this qs h.filters
  · cases ws with
    | nil => exact .nil
    | cons w ws =>
      have h1 : IgnoresG ((w :: ws).flatMap fun s => [.kw .filename, .qstring s, .eol]) (w :: ws) := by
        have := ignores_append (ws := ws) (.one _ w (.qstring w))
        simpa using this
      exact .more _ _ _ _ .nil (.ignore _ _ h1)

theorem definitions_configRules (file : Bytes) (qs : List Sequence) (ws : List Bytes) :
    definitions file (configRules qs ws) = qs.map fun q => { q with sourceFilename := some file } := by
  unfold configRules
  rw [definitions_append]
  have h2 : definitions file (if ws = [] then [] else [Rule.ignore ws]) = [] := by split <;> rfl
  rw [h2, List.append_nil]
  induction qs with
  | nil => rfl
  | cons q qs ih => simp [definitions, ih]

theorem ignored_configRules (qs : List Sequence) (ws : List Bytes) : ignored (configRules qs ws) = ws := by
  unfold configRules
  rw [ignored_append]
  have h1 : ∀ qs : List Sequence, ignored (qs.map fun q => Rule.sequence q.name q.filters) = [] := by
    intro qs
    induction qs with
    | nil => rfl
    | cons q qs ih => simpa [ignored] using ih
  rw [h1, List.nil_append]
  split
  · next h => rw [h]; rfl
  · simp [ignored]

/-! ### Spelling -/

theorem digit_byte : ∀ d : Nat, d < 10 → isDigitByte (0x30 + UInt8.ofNat d) = true ∧ (0x30 + UInt8.ofNat d : Byte).toNat - 0x30 = d := by
  decide +kernel

theorem digitsOf_spec : ∀ (k n : Nat), n < k → digitsOf k n ≠ [] ∧ (∀ c ∈ digitsOf k n, isDigitByte c = true) ∧
    decimal (digitsOf k n) = n
  | 0, n, h => by omega
  | k + 1, n, h => by
    have hd := digit_byte (n % 10) (Nat.mod_lt _ (by decide))
    unfold digitsOf
    by_cases hn : n < 10
    · rw [if_pos hn]
      refine ⟨by simp, by simpa using hd.1, ?_⟩
      simp only [decimal, List.nil_append, List.foldl_cons, List.foldl_nil, hd.2]
      omega
    · rw [if_neg hn]
      obtain ⟨_, h2, h3⟩ := digitsOf_spec k (n / 10) (by omega)
      refine ⟨by simp, ?_, ?_⟩
      · intro c hc
        rcases List.mem_append.mp hc with hc | hc
        · exact h2 c hc
        · rw [List.mem_singleton.mp hc]; exact hd.1
      · unfold decimal at h3 ⊢
        rw [List.foldl_append, h3, List.foldl_cons, List.foldl_nil, hd.2]
        omega

/-- A token that can be written. -/
def TokWritable : Tok → Prop
  | .nvalue n => n ≤ 2147483647
  | .ident _ => False
  | .qstring s => Quotable s
  | _ => True

theorem writeTok_spelling {t : Tok} (h : TokWritable t) : Spelling t (writeTok t) := by
  cases t with
  | kw k => cases k <;> exact .kw _ _ (by decide)
  | opn => exact .opn
  | cls => exact .cls
  | eol => exact .eol
  | nvalue n =>
    obtain ⟨h1, h2, h3⟩ := digitsOf_spec (n + 1) n (by omega)
    have := Spelling.nvalue _ h1 h2 (by rw [h3]; exact h)
    rwa [h3] at this
  | ident s => exact h.elim
  | qstring s => exact .qstring s h.1 h.2.1 h.2.2

theorem ends_blank (t : Tok) (rest : Bytes) : Ends t (0x20 :: rest) := by
  cases t <;> simp only [Ends, List.head?_cons, Option.some.injEq] <;> try trivial
  all_goals
    intro c hc
    rw [← hc]
    decide

theorem spells_gap {ts : List Tok} {s g : Bytes} (hg : Gap g) (h : Spells ts s) : Spells ts (g ++ s) := by
  have app : ∀ {g g' : Bytes}, Gap g → Gap g' → Gap (g ++ g') := by
    intro g g' hg hg'
    induction hg with
    | nil => exact hg'
    | blank c g hc _ ih => exact .blank c _ hc ih
    | comment text g ht _ ih =>
      have := Gap.comment text _ ht ih
      simpa using this
  cases h with
  | done g' hg' => exact .done _ (app hg hg')
  | comment g' text hg' ht => rw [← List.append_assoc]; exact .comment _ _ (app hg hg') ht
  | tok g' t w ts rest hg' hw he hr =>
    have := Spells.tok _ t w ts rest (app hg hg') hw he hr
    simpa using this

theorem writeToks_spells {ts : List Tok} (h : ∀ t ∈ ts, TokWritable t) : Spells ts (writeToks ts) := by
  induction ts with
  | nil => exact .done [] .nil
  | cons t ts ih =>
    have hrest : Spells ts (0x20 :: writeToks ts) :=
      spells_gap (.blank 0x20 [] (.inl rfl) .nil) (ih fun u hu => h u (by simp [hu]))
    have := Spells.tok [] t (writeTok t) ts _ .nil (writeTok_spelling (h t (by simp))) (ends_blank t _) hrest
    have e : writeToks (t :: ts) = [] ++ writeTok t ++ 0x20 :: writeToks ts := by
      simp only [writeToks, List.flatMap_cons, List.nil_append, List.append_assoc]
      rfl
    rw [e]
    exact this

theorem writable_toks {f : Filter} (h : Writable f) : ∀ t ∈ methodToks f, TokWritable t := by
  cases h with
  | uncgi => simp [methodToks, TokWritable]
  | lower => simp [methodToks, TokWritable]
  | wipeup b => cases b <;> simp [methodToks, TokWritable]
  | maxLength n hn => simpa [methodToks, TokWritable] using hn
  | tabled k c hk => cases hk <;> simp [methodToks, tableToks, TokWritable]
  | filename k c s hk hs => cases hk <;> simpa [methodToks, tableToks, TokWritable] using hs
  | builtin k c s hk hs => cases hk <;> simpa [methodToks, tableToks, TokWritable] using hs

theorem writableConfig_toks {qs : List Sequence} {ws : List Bytes} (h : WritableConfig qs ws) :
    ∀ t ∈ configToks qs ws, TokWritable t := by
  intro t ht
  rcases List.mem_append.mp ht with ht | ht
  · obtain ⟨q, hq, ht⟩ := List.mem_flatMap.mp ht
    rcases List.mem_append.mp ht with ht | ht
    · rcases List.mem_append.mp ht with ht | ht
      · simp only [List.mem_cons, List.not_mem_nil, or_false] at ht
        rcases ht with rfl | rfl | rfl
        · trivial
        · exact h.names q hq
        · trivial
      · obtain ⟨f, hf, ht⟩ := List.mem_flatMap.mp ht
        exact writable_toks ((h.filters q hq).2 f hf) t ht
    · simp only [List.mem_cons, List.not_mem_nil, or_false] at ht
      rcases ht with rfl | rfl <;> trivial
  · unfold ignoreToks at ht
    split at ht
    · simp at ht
    · rcases List.mem_append.mp ht with ht | ht
      · rcases List.mem_append.mp ht with ht | ht
        · simp only [List.mem_cons, List.not_mem_nil, or_false] at ht
          rcases ht with rfl | rfl <;> trivial
        · obtain ⟨w, hw, ht⟩ := List.mem_flatMap.mp ht
          simp only [List.mem_cons, List.not_mem_nil, or_false] at ht
          rcases ht with rfl | rfl | rfl
          · trivial
          · exact h.ignore w hw
          · trivial
      · simp only [List.mem_cons, List.not_mem_nil, or_false] at ht
        rcases ht with rfl | rfl <;> trivial

end Detox
