import Verif.Model.Options
import Verif.Spec.Options
import Verif.Lemmas.Builtin
import Verif.Lemmas.Filelist
import Verif.Lemmas.FileRun

/-!
# Reading the command line
-/

set_option autoImplicit false

namespace Detox

open Spec

/-! ### Letters -/

/-- The setting of a letter without argument. -/
def letterSetting (c : Byte) : Option Setting :=
  if c = 0x68 then some .help else if c = 0x4C then some .list else if c = 0x6E then some .dryRun
  else if c = 0x72 then some .recurse else if c = 0x76 then some .verbose else if c = 0x56 then some .version
  else if c = 0x3F then some .usage else none

theorem letter_iff (c : Byte) (s : Setting) : Letter c s ↔ letterSetting c = some s := by
  constructor
  · intro h; cases h <;> rfl
  · intro h
    unfold letterSetting at h
    repeat' split at h
    all_goals (first | (cases h; subst_vars; constructor) | cases h)

/-- The setting of a letter with argument. -/
def argSetting (c : Byte) (a : Bytes) : Option Setting :=
  if c = 0x66 then some (.config a) else if c = 0x73 then some (.sequence a) else none

theorem argLetter_iff (c : Byte) (a : Bytes) (s : Setting) : ArgLetter c a s ↔ argSetting c a = some s := by
  constructor
  · intro h; cases h <;> rfl
  · intro h
    unfold argSetting at h
    repeat' split at h
    all_goals (first | (cases h; subst_vars; constructor) | cases h)

theorem argSetting_isSome (c : Byte) (a : Bytes) : (argSetting c a).isSome = argLetters.contains c := by
  have h : ∀ c : Byte, argLetters.contains c = (decide (c = 0x66) || decide (c = 0x73)) := forall_byte (by decide +kernel)
  rw [h]; unfold argSetting; repeat' split
  all_goals simp [*]

theorem letterSetting_isSome : ∀ c : Byte, (letterSetting c).isSome = flagLetters.contains c := forall_byte (by decide +kernel)

/-- A letter is not of both sorts, and `-` is of none. -/
theorem letters_disjoint : ∀ c : Byte, ¬ (argLetters.contains c = true ∧ flagLetters.contains c = true) :=
  forall_byte (by decide +kernel)

/-! ### What an item says -/

def setOf : OptItem → Option Setting
  | .flag c => letterSetting c
  | .withArg c a => argSetting c a
  | .long n =>
    if n = longOptionInline then some .inline else if n = longOptionRecursive then some .recurse
    else if n = longOptionSpecial then some .special else none
  | .error => some .unreadable

/-! ### Long options -/

theorem longOption_iff (name : Bytes) (s : Setting) : LongOption name s ↔ ∃ i, (name, i) ∈ longOpts ∧ setOf i = some s := by
  constructor
  · intro h
    cases h
    · exact ⟨.flag (byteOf 'n'), by decide, rfl⟩
    · exact ⟨.flag (byteOf 'h'), by decide, rfl⟩
    · exact ⟨.long longOptionInline, by decide, rfl⟩
    · exact ⟨.long longOptionRecursive, by decide, rfl⟩
    · exact ⟨.long longOptionSpecial, by decide, rfl⟩
    · exact ⟨.flag (byteOf 'v'), by decide, rfl⟩
  · rintro ⟨i, hm, hs⟩
    simp only [longOpts, List.mem_cons, Prod.mk.injEq, List.not_mem_nil, or_false] at hm
    rcases hm with ⟨rfl, rfl⟩ | ⟨rfl, rfl⟩ | ⟨rfl, rfl⟩ | ⟨rfl, rfl⟩ | ⟨rfl, rfl⟩ | ⟨rfl, rfl⟩ <;>
      · cases hs; constructor

/-- The long option that begins with this letter. -/
def longWith (c : Byte) : Option (Bytes × OptItem) := longOpts.find? (fun p => p.1.head? = some c)

theorem mem_longOpts (p : Bytes × OptItem) (h : p ∈ longOpts) :
    ∃ c cs, p.1 = c :: cs ∧ longWith c = some p ∧ (0x3D : Byte) ∉ p.1 := by
  revert p
  have : ∀ p ∈ longOpts, p.1 ≠ [] ∧ longWith (p.1.headD 0) = some p ∧ (0x3D : Byte) ∉ p.1 := by
    decide +kernel
  intro p hp
  have := this p hp
  revert this
  cases h1 : p.1 with
  | nil => intro h; exact absurd rfl h.1
  | cons c cs => intro h; exact ⟨c, cs, rfl, h.2⟩

theorem filter_longWith (c : Byte) (cs : Bytes) : longOpts.filter (fun p => (c :: cs).isPrefixOf p.1) =
    (match longWith c with
      | some p => if (c :: cs).isPrefixOf p.1 then [p] else []
      | none => []) := by
  have key : ∀ p ∈ longOpts, longWith c ≠ some p → (c :: cs).isPrefixOf p.1 = false := by
    intro p hp hne
    obtain ⟨c', cs', h1, h2, _⟩ := mem_longOpts p hp
    rw [h1]
    simp only [List.isPrefixOf, Bool.and_eq_false_imp, beq_iff_eq]
    intro h; subst h; exact absurd h2 hne
  cases hl : longWith c with
  | none =>
    simp only
    rw [List.filter_eq_nil_iff]
    intro p hp
    rw [key p hp (by rw [hl]; simp)]; simp
  | some p =>
    simp only
    have hm : p ∈ longOpts := List.mem_of_find?_eq_some hl
    have hnd : longOpts.Nodup := by decide +kernel
    split
    · rename_i hpre
      have : ∀ (l : List (Bytes × OptItem)), l.Nodup → (∀ q ∈ l, q ∈ longOpts) →
          l.filter (fun q => (c :: cs).isPrefixOf q.1) = if p ∈ l then [p] else [] := by
        intro l
        induction l with
        | nil => intro _ _; rfl
        | cons q l ih =>
          intro hn hsub
          have ih' := ih (List.nodup_cons.1 hn).2 (fun q hq => hsub q (List.mem_cons_of_mem _ hq))
          by_cases hq : q = p
          · subst hq
            have hnot := (List.nodup_cons.1 hn).1
            simp only [List.filter_cons, hpre, if_true, ih', if_neg hnot, List.mem_cons_self]
          · have : (c :: cs).isPrefixOf q.1 = false := key q (hsub q List.mem_cons_self) (by
              rw [hl]; intro h; exact hq (Option.some.inj h).symm)
            simp only [List.filter_cons, this, ih', List.mem_cons]
            by_cases hp : p ∈ l
            · simp [hp]
            · have : ¬ (p = q) := fun h => hq h.symm
              simp [hp, this]
      rw [this longOpts hnd (fun q hq => hq), if_pos hm]
    · rename_i hpre
      rw [List.filter_eq_nil_iff]
      intro q hq
      by_cases hqp : q = p
      · subst hqp; exact hpre
      · rw [key q hq (by rw [hl]; intro h; exact hqp (Option.some.inj h).symm)]; simp

theorem lookup_longOpts {name : Bytes} {i : OptItem} (h : longOpts.lookup name = some i) : (name, i) ∈ longOpts := by
  have gen : ∀ (l : List (Bytes × OptItem)), l.lookup name = some i → (name, i) ∈ l := by
    intro l
    induction l with
    | nil => intro h; cases h
    | cons p l ih =>
      intro h
      rw [List.lookup] at h
      split at h
      · rename_i hb
        have hb := eq_of_beq hb
        cases h
        subst hb
        exact List.mem_cons_self
      · exact List.mem_cons_of_mem _ (ih h)
  exact gen _ h

theorem isPrefixOf_split {a b : Bytes} (h : a.isPrefixOf b = true) : ∃ r, a ++ r = b := by
  exact List.isPrefixOf_iff_prefix.1 h

theorem takeWhile_no_eq : ∀ {t : Bytes}, (0x3D : Byte) ∉ t → t.takeWhile (· ≠ 0x3D) = t
  | [], _ => rfl
  | c :: t, h => by
    rw [List.mem_cons, not_or] at h
    rw [List.takeWhile_cons, if_pos (by simpa using fun e : c = 0x3D => h.1 e.symm), takeWhile_no_eq h.2]

/-- A long option that can be read. -/
theorem longItem_abbreviates {t : Bytes} {s : Setting} (h : Abbreviates t s) : setOf (longItem t) = some s := by
  obtain ⟨name, r, hl, hr, hne⟩ := h
  obtain ⟨i, hm, hs⟩ := (longOption_iff name s).1 hl
  obtain ⟨c, cs, h1, h2, h3⟩ := mem_longOpts _ hm
  dsimp only at h1 h3
  have hno : (0x3D : Byte) ∉ t := fun hin => h3 (by rw [← hr]; exact List.mem_append_left _ hin)
  have htake : t.takeWhile (· ≠ 0x3D) = t := by
    exact takeWhile_no_eq hno
  have hcon : t.contains 0x3D = false := by simpa using hno
  cases t with
  | nil => exact absurd rfl hne
  | cons d ds =>
    have hd : d = c := by rw [h1, List.cons_append] at hr; exact (List.cons.inj hr).1
    subst hd
    have hpre : (d :: ds).isPrefixOf name = true := by
      rw [List.isPrefixOf_iff_prefix]; exact ⟨r, hr⟩
    unfold longItem
    simp only [htake, hcon]
    cases hlk : longOpts.lookup (d :: ds) with
    | some j =>
      have hj := lookup_longOpts hlk
      obtain ⟨c', cs', g1, g2, _⟩ := mem_longOpts _ hj
      dsimp only at g1
      have : c' = d := (List.cons.inj g1).1.symm
      subst this
      rw [h2] at g2
      have := Option.some.inj g2
      cases this
      exact hs
    | none =>
      rw [filter_longWith, h2]
      simp only [hpre, if_true]
      exact hs

/-- A long option that cannot. -/
theorem longItem_bad {t : Bytes} (h : ∀ s, ¬ Abbreviates t s) (hne : t ≠ []) : longItem t = .error := by
  unfold longItem
  by_cases hc : t.contains 0x3D = true
  · simp only [hc, if_true]; split <;> rfl
  · simp only [hc, Bool.false_eq_true, if_false]
    have hno : (0x3D : Byte) ∉ t := by simpa using hc
    have htake : t.takeWhile (· ≠ 0x3D) = t := by
      exact takeWhile_no_eq hno
    have hset : ∀ p ∈ longOpts, ∃ s, setOf p.2 = some s := by
      have : ∀ p ∈ longOpts, (setOf p.2).isSome = true := by decide +kernel
      intro p hp; exact Option.isSome_iff_exists.1 (this p hp)
    simp only [htake]
    cases hlk : longOpts.lookup t with
    | some j =>
      have hj := lookup_longOpts hlk
      obtain ⟨s, hs⟩ := hset _ hj
      exact absurd ⟨t, [], (longOption_iff t s).2 ⟨j, hj, hs⟩, List.append_nil _, hne⟩ (h s)
    | none =>
      cases t with
      | nil => exact absurd rfl hne
      | cons c cs =>
        rw [filter_longWith]
        cases hl : longWith c with
        | none => rfl
        | some p =>
          simp only
          by_cases hp : (c :: cs).isPrefixOf p.1 = true
          · exfalso
            have hm : p ∈ longOpts := List.mem_of_find?_eq_some hl
            obtain ⟨s, hs⟩ := hset _ hm
            obtain ⟨r, hr⟩ := isPrefixOf_split hp
            exact h s ⟨p.1, r, (longOption_iff p.1 s).2 ⟨p.2, hm, hs⟩, hr, hne⟩
          · simp only [hp, Bool.false_eq_true, if_false]

/-! ### Clusters -/

theorem letter_flag {c : Byte} {s : Setting} (h : Letter c s) : argLetters.contains c = false ∧ flagLetters.contains c = true ∧
    setOf (.flag c) = some s := by
  have h1 := (letter_iff c s).1 h
  have h2 : flagLetters.contains c = true := by rw [← letterSetting_isSome, h1]; rfl
  refine ⟨?_, h2, h1⟩
  cases h3 : argLetters.contains c with
  | true => exact absurd ⟨h3, h2⟩ (letters_disjoint c)
  | false => rfl

theorem shortItems_cons_flag {c : Byte} (h : argLetters.contains c = false) (cs : Bytes) (rest : List Bytes) :
    shortItems (c :: cs) rest =
      ((if flagLetters.contains c then .flag c else .error) :: (shortItems cs rest).1, (shortItems cs rest).2) := by
  rw [shortItems.eq_def]
  simp only [h, Bool.false_eq_true, if_false]

theorem shortItems_cons_arg {c : Byte} (h : argLetters.contains c = true) (cs : Bytes) (rest : List Bytes) :
    shortItems (c :: cs) rest =
      (match (generalizing := false) cs, rest with
        | b :: bs, _ => ([.withArg c (b :: bs)], rest)
        | [], a :: rest' => ([.withArg c a], rest')
        | [], [] => ([.error], [])) := by
  rw [shortItems.eq_def]
  simp only [h, if_true]
  cases cs <;> cases rest <;> rfl

theorem shortItems_cluster {cs : Bytes} {s1 : List Setting} (h : Cluster cs s1) (more : Bytes) (rest : List Bytes) :
    ∃ items, items.map setOf = s1.map some ∧
      shortItems (cs ++ more) rest = (items ++ (shortItems more rest).1, (shortItems more rest).2) := by
  induction h with
  | nil => exact ⟨[], rfl, rfl⟩
  | cons c s cs ss hl _ ih =>
    obtain ⟨items, h1, h2⟩ := ih
    obtain ⟨g1, g2, g3⟩ := letter_flag hl
    refine ⟨.flag c :: items, by simp [h1, g3], ?_⟩
    rw [List.cons_append, shortItems_cons_flag g1, if_pos g2, h2]
    rfl

theorem argLetter_contains {c : Byte} {a : Bytes} {s : Setting} (h : ArgLetter c a s) : argLetters.contains c = true ∧
    setOf (.withArg c a) = some s := by
  have h1 := (argLetter_iff c a s).1 h
  exact ⟨by rw [← argSetting_isSome c a, h1]; rfl, h1⟩

/-! ### The whole command line -/

/-- What `getopt_long` reported is what the command line says, up to the first argument that cannot be read. -/
def Agree (g : List OptItem × List Bytes) (ss : List Setting) (ws : List Bytes) : Prop :=
  (Setting.unreadable ∉ ss ∧ g.1.map setOf = ss.map some ∧ g.2 = ws) ∨
  (∃ pre more, Setting.unreadable ∉ pre ∧ ss = pre ++ [.unreadable] ∧
    g.1.map setOf = pre.map some ++ some .unreadable :: more)

theorem Agree.cons {g : List OptItem × List Bytes} {ss : List Setting} {ws : List Bytes} (h : Agree g ss ws)
    {items : List OptItem} {s1 : List Setting} (hi : items.map setOf = s1.map some) (hs : Setting.unreadable ∉ s1) :
    Agree (items ++ g.1, g.2) (s1 ++ ss) ws := by
  rcases h with ⟨h1, h2, h3⟩ | ⟨pre, more, h1, h2, h3⟩
  · refine Or.inl ⟨?_, ?_, h3⟩
    · rw [List.mem_append]; rintro (h | h); exact hs h; exact h1 h
    · simp [hi, h2]
  · refine Or.inr ⟨s1 ++ pre, more, ?_, ?_, ?_⟩
    · rw [List.mem_append]; rintro (h | h); exact hs h; exact h1 h
    · rw [h2, List.append_assoc]
    · simp [hi, h3]

theorem cluster_readable {cs : Bytes} {s1 : List Setting} (h : Cluster cs s1) : Setting.unreadable ∉ s1 := by
  induction h with
  | nil => simp
  | cons c s cs ss hl _ ih =>
    rw [List.mem_cons]; rintro (h | h)
    · subst h; cases hl
    · exact ih h

theorem argLetter_readable {c : Byte} {a : Bytes} {s : Setting} (h : ArgLetter c a s) : Setting.unreadable ≠ s := by
  cases h <;> simp

theorem abbreviates_readable {t : Bytes} {s : Setting} (h : Abbreviates t s) : Setting.unreadable ≠ s := by
  obtain ⟨n, r, h, _⟩ := h
  cases h <;> simp

theorem cluster_head {c : Byte} {cs : Bytes} {s1 : List Setting} (h : Cluster (c :: cs) s1) : c ≠ 0x2D := by
  cases h with
  | cons c s cs ss hl _ => cases hl <;> decide

/-- An argument with short options. -/
theorem getoptAll_short (posix : Bool) (n : Nat) {c : Byte} (cs : Bytes) (rest : List Bytes) (hc : c ≠ 0x2D) :
    getoptAll posix (n + 1) ((0x2D :: c :: cs) :: rest) =
      ((shortItems (c :: cs) rest).1 ++ (getoptAll posix n (shortItems (c :: cs) rest).2).1,
        (getoptAll posix n (shortItems (c :: cs) rest).2).2) := by
  have h1 : ¬ ((0x2D :: c :: cs : Bytes) = lit "--") := by
    intro h
    have h' : (0x2D :: c :: cs : Bytes) = [0x2D, 0x2D] := h
    simp only [List.cons.injEq] at h'
    exact hc h'.2.1
  have h2 : ¬ ((lit "--").isPrefixOf (0x2D :: c :: cs) = true) := by
    show ¬ (([0x2D, 0x2D] : Bytes).isPrefixOf (0x2D :: c :: cs) = true)
    simp only [List.isPrefixOf, Bool.and_true, Bool.and_eq_true, beq_iff_eq, true_and]
    exact fun h => hc h.symm
  have h3 : ((lit "-").isPrefixOf (0x2D :: c :: cs) && decide ((0x2D :: c :: cs : Bytes).length > 1)) = true := by
    show (([0x2D] : Bytes).isPrefixOf (0x2D :: c :: cs) && decide ((0x2D :: c :: cs : Bytes).length > 1)) = true
    simp [List.isPrefixOf]
  rw [getoptAll, if_neg h1, if_neg h2, if_pos h3]
  rfl

theorem getoptAll_operand (posix : Bool) (n : Nat) {a : Bytes} (rest : List Bytes) (ha : IsOperand a) :
    getoptAll posix (n + 1) (a :: rest) =
      (if posix then ([], a :: rest) else ((getoptAll posix n rest).1, a :: (getoptAll posix n rest).2)) := by
  have h1 : ¬ (a = lit "--") := by
    rintro rfl
    rcases ha with h | h
    · exact h rfl
    · exact absurd h (by decide)
  have h2 : ¬ ((lit "--").isPrefixOf a = true) := by
    intro hp
    obtain ⟨r, hr⟩ := isPrefixOf_split hp
    have hr' : (0x2D :: 0x2D :: r : Bytes) = a := hr
    subst hr'
    rcases ha with h | h
    · exact h rfl
    · simp at h
  have h3 : ¬ (((lit "-").isPrefixOf a && decide (a.length > 1)) = true) := by
    intro hp
    rw [Bool.and_eq_true] at hp
    obtain ⟨r, hr⟩ := isPrefixOf_split hp.1
    have hr' : (0x2D :: r : Bytes) = a := hr
    subst hr'
    rcases ha with h | h
    · exact h rfl
    · have := of_decide_eq_true hp.2
      rw [h] at this; simp at this
  rw [getoptAll, if_neg h1, if_neg h2, if_neg h3]

theorem getoptAll_long (posix : Bool) (n : Nat) {t : Bytes} (rest : List Bytes) (ht : t ≠ []) :
    getoptAll posix (n + 1) ((0x2D :: 0x2D :: t) :: rest) =
      (longItem t :: (getoptAll posix n rest).1, (getoptAll posix n rest).2) := by
  have h1 : ¬ ((0x2D :: 0x2D :: t : Bytes) = lit "--") := by
    intro h
    have h' : (0x2D :: 0x2D :: t : Bytes) = [0x2D, 0x2D] := h
    simp only [List.cons.injEq, true_and] at h'
    exact ht h'
  have h2 : (lit "--").isPrefixOf (0x2D :: 0x2D :: t) = true := by
    show ([0x2D, 0x2D] : Bytes).isPrefixOf (0x2D :: 0x2D :: t) = true
    simp [List.isPrefixOf]
  rw [getoptAll, if_neg h1, if_pos h2]
  rfl

/-- `getoptAll` reads the command line. -/
theorem getoptAll_agrees {posix : Bool} {args : List Bytes} {ss : List Setting} {ws : List Bytes}
    (h : CommandLine posix args ss ws) (n : Nat) (hn : args.length ≤ n) : Agree (getoptAll posix n args) ss ws := by
  induction h generalizing n with
  | none => cases n <;> exact Or.inl ⟨by simp, rfl, rfl⟩
  | stop rest =>
    obtain ⟨n, rfl⟩ : ∃ m, n = m + 1 := ⟨n - 1, by simp only [List.length_cons] at hn; omega⟩
    refine Or.inl ⟨by simp, ?_, ?_⟩
    · rw [getoptAll, if_pos (by decide)]; rfl
    · rw [getoptAll, if_pos (by decide)]
  | operand a rest ws ss hp ha _ ih =>
    obtain ⟨n, rfl⟩ : ∃ m, n = m + 1 := ⟨n - 1, by simp only [List.length_cons] at hn; omega⟩
    rw [getoptAll_operand _ _ _ ha, hp, if_neg (by simp)]
    have hn' : rest.length ≤ n := by simpa using hn
    have := ih n hn'
    rw [hp] at this
    rcases this with ⟨h1, h2, h3⟩ | ⟨pre, more, h1, h2, h3⟩
    · exact Or.inl ⟨h1, h2, by simp [h3]⟩
    · exact Or.inr ⟨pre, more, h1, h2, h3⟩
  | firstOperand a rest hp ha =>
    obtain ⟨n, rfl⟩ : ∃ m, n = m + 1 := ⟨n - 1, by simp only [List.length_cons] at hn; omega⟩
    rw [getoptAll_operand _ _ _ ha, hp, if_pos rfl]
    exact Or.inl ⟨by simp, rfl, rfl⟩
  | long t s rest ws ss ha _ ih =>
    obtain ⟨n, rfl⟩ : ∃ m, n = m + 1 := ⟨n - 1, by simp only [List.length_cons] at hn; omega⟩
    have hn' : rest.length ≤ n := by simpa using hn
    rw [getoptAll_long _ _ _ (by obtain ⟨_, _, _, _, h⟩ := ha; exact h)]
    have := (ih n hn').cons (items := [longItem t]) (s1 := [s]) (by simp [longItem_abbreviates ha])
      (by simpa using abbreviates_readable ha)
    exact this
  | cluster cs s1 rest ws ss hne hc _ ih =>
    obtain ⟨n, rfl⟩ : ∃ m, n = m + 1 := ⟨n - 1, by simp only [List.length_cons] at hn; omega⟩
    have hn' : rest.length ≤ n := by simpa using hn
    obtain ⟨items, h1, h2⟩ := shortItems_cluster hc [] rest
    rw [List.append_nil, show shortItems [] rest = ([], rest) from rfl, List.append_nil] at h2
    cases cs with
    | nil => exact absurd rfl hne
    | cons c cs =>
      rw [getoptAll_short _ _ _ _ (cluster_head hc), h2]
      exact (ih n hn').cons h1 (cluster_readable hc)
  | attached cs s1 c a s rest ws ss hc ha hne _ ih =>
    obtain ⟨n, rfl⟩ : ∃ m, n = m + 1 := ⟨n - 1, by simp only [List.length_cons] at hn; omega⟩
    have hn' : rest.length ≤ n := by simpa using hn
    obtain ⟨g1, g2⟩ := argLetter_contains ha
    have hsub : shortItems (c :: a) rest = ([.withArg c a], rest) := by
      cases a with
      | nil => exact absurd rfl hne
      | cons b bs => rw [shortItems_cons_arg g1]
    obtain ⟨items, h1, h2⟩ := shortItems_cluster hc (c :: a) rest
    rw [hsub] at h2
    have hshape : ∃ d ds, cs ++ c :: a = d :: ds ∧ d ≠ 0x2D := by
      cases cs with
      | nil => exact ⟨c, a, rfl, by cases ha <;> decide⟩
      | cons d ds => exact ⟨d, ds ++ c :: a, rfl, cluster_head hc⟩
    obtain ⟨d, ds, hd, hd'⟩ := hshape
    rw [List.cons_append, hd, getoptAll_short _ _ _ _ hd', ← hd, h2]
    have := (ih n hn').cons (items := items ++ [.withArg c a]) (s1 := s1 ++ [s]) (by simp [h1, g2]) (by
      rw [List.mem_append, List.mem_singleton]; rintro (h | h)
      · exact cluster_readable hc h
      · exact argLetter_readable ha h)
    simpa using this
  | separate cs s1 c a s rest ws ss hc ha _ ih =>
    obtain ⟨n, rfl⟩ : ∃ m, n = m + 1 := ⟨n - 1, by simp only [List.length_cons] at hn; omega⟩
    have hn' : rest.length ≤ n := by simp only [List.length_cons] at hn; omega
    obtain ⟨g1, g2⟩ := argLetter_contains ha
    have hsub : shortItems [c] (a :: rest) = ([.withArg c a], rest) := by
      rw [shortItems_cons_arg g1]
    obtain ⟨items, h1, h2⟩ := shortItems_cluster hc [c] (a :: rest)
    rw [hsub] at h2
    have hshape : ∃ d ds, cs ++ [c] = d :: ds ∧ d ≠ 0x2D := by
      cases cs with
      | nil => exact ⟨c, [], rfl, by cases ha <;> decide⟩
      | cons d ds => exact ⟨d, ds ++ [c], rfl, cluster_head hc⟩
    obtain ⟨d, ds, hd, hd'⟩ := hshape
    rw [List.cons_append, hd, getoptAll_short _ _ _ _ hd', ← hd, h2]
    have := (ih n hn').cons (items := items ++ [.withArg c a]) (s1 := s1 ++ [s]) (by simp [h1, g2]) (by
      rw [List.mem_append, List.mem_singleton]; rintro (h | h)
      · exact cluster_readable hc h
      · exact argLetter_readable ha h)
    simpa using this
  | badLong t rest hne hb =>
    obtain ⟨n, rfl⟩ : ∃ m, n = m + 1 := ⟨n - 1, by simp only [List.length_cons] at hn; omega⟩
    rw [getoptAll_long _ _ _ hne, longItem_bad hb hne]
    exact Or.inr ⟨[], _, by simp, rfl, rfl⟩
  | badLetter cs s1 c more rest hc hl ha hd =>
    obtain ⟨n, rfl⟩ : ∃ m, n = m + 1 := ⟨n - 1, by simp only [List.length_cons] at hn; omega⟩
    obtain ⟨items, h1, h2⟩ := shortItems_cluster hc (c :: more) rest
    have g1 : argLetters.contains c = false := by
      rw [← argSetting_isSome c [], Option.isSome_eq_false_iff, Option.isNone_iff_eq_none]
      cases h : argSetting c [] with
      | none => rfl
      | some s => exact absurd ((argLetter_iff c [] s).2 h) (ha [] s)
    have g2 : flagLetters.contains c = false := by
      rw [← letterSetting_isSome c, Option.isSome_eq_false_iff, Option.isNone_iff_eq_none]
      cases h : letterSetting c with
      | none => rfl
      | some s => exact absurd ((letter_iff c s).2 h) (hl s)
    rw [shortItems_cons_flag g1, if_neg (by rw [g2]; simp)] at h2
    have hshape : ∃ d ds, cs ++ c :: more = d :: ds ∧ d ≠ 0x2D := by
      cases cs with
      | nil => exact ⟨c, more, rfl, hd rfl⟩
      | cons d ds => exact ⟨d, ds ++ c :: more, rfl, cluster_head hc⟩
    obtain ⟨d, ds, hd1, hd'⟩ := hshape
    rw [List.cons_append, hd1, getoptAll_short _ _ _ _ hd', ← hd1, h2]
    refine Or.inr ⟨s1, (shortItems more rest).1.map setOf ++ (getoptAll posix n (shortItems more rest).2).1.map setOf,
      cluster_readable hc, rfl, ?_⟩
    simp only [List.map_append, h1, List.map_cons, List.append_assoc, List.cons_append]
    rfl
  | missing cs s1 c hc ha =>
    obtain ⟨n, rfl⟩ : ∃ m, n = m + 1 := ⟨n - 1, by simp only [List.length_cons] at hn; omega⟩
    obtain ⟨a, s, ha⟩ := ha
    obtain ⟨g1, g2⟩ := argLetter_contains ha
    have hsub : shortItems [c] [] = ([.error], []) := by rw [shortItems_cons_arg g1]
    obtain ⟨items, h1, h2⟩ := shortItems_cluster hc [c] []
    rw [hsub] at h2
    have hshape : ∃ d ds, cs ++ [c] = d :: ds ∧ d ≠ 0x2D := by
      cases cs with
      | nil => exact ⟨c, [], rfl, by cases ha <;> decide⟩
      | cons d ds => exact ⟨d, ds ++ [c], rfl, cluster_head hc⟩
    obtain ⟨d, ds, hd, hd'⟩ := hshape
    rw [List.cons_append, hd, getoptAll_short _ _ _ _ hd', ← hd, h2]
    refine Or.inr ⟨s1, (getoptAll posix n []).1.map setOf, cluster_readable hc, rfl, ?_⟩
    simp only [List.map_append, h1, List.map_cons, List.append_assoc, List.cons_append]
    rfl

/-! ### Every command line can be read -/

theorem cluster_split : ∀ (cs : Bytes), (∃ s1, Cluster cs s1) ∨
    ∃ pre s1 c more, cs = pre ++ c :: more ∧ Cluster pre s1 ∧ ∀ s, ¬ Letter c s
  | [] => Or.inl ⟨[], .nil⟩
  | c :: cs => by
    by_cases h : ∃ s, Letter c s
    · obtain ⟨s, h⟩ := h
      rcases cluster_split cs with ⟨s1, h1⟩ | ⟨pre, s1, c', more, rfl, h2, h3⟩
      · exact Or.inl ⟨s :: s1, .cons c s cs s1 h h1⟩
      · exact Or.inr ⟨c :: pre, s :: s1, c', more, rfl, .cons c s pre s1 h h2, h3⟩
    · exact Or.inr ⟨[], [], c, cs, rfl, .nil, fun s hs => h ⟨s, hs⟩⟩

theorem commandLine_total (posix : Bool) : ∀ (n : Nat) (args : List Bytes), args.length ≤ n →
    ∃ ss ws, CommandLine posix args ss ws
  | _, [], _ => ⟨[], [], .none⟩
  | 0, _ :: _, h => by simp at h
  | n + 1, a :: rest, h => by
    have hrest : rest.length ≤ n := by simpa using h
    obtain ⟨ss, ws, ih⟩ := commandLine_total posix n rest hrest
    by_cases hop : IsOperand a
    · cases posix with
      | false => exact ⟨ss, a :: ws, .operand a rest ws ss rfl hop ih⟩
      | true => exact ⟨[], a :: rest, .firstOperand a rest rfl hop⟩
    · unfold IsOperand at hop
      rw [not_or, Classical.not_not] at hop
      obtain ⟨h1, h2⟩ := hop
      match a, h1, h2 with
      | [], h1, _ => cases h1
      | [c], h1, h2 => cases h1; exact absurd rfl h2
      | c :: d :: cs, h1, _ =>
        simp only [List.head?_cons, Option.some.injEq] at h1
        subst h1
        by_cases hd : d = 0x2D
        · subst hd
          by_cases hcs : cs = []
          · subst hcs; exact ⟨[], rest, .stop rest⟩
          · by_cases hs : ∃ s, Abbreviates cs s
            · obtain ⟨s, hs⟩ := hs
              exact ⟨s :: ss, ws, .long cs s rest ws ss hs ih⟩
            · exact ⟨_, _, .badLong cs rest hcs fun s h => hs ⟨s, h⟩⟩
        · rcases cluster_split (d :: cs) with ⟨s1, hc⟩ | ⟨pre, s1, c, more, heq, hc, hl⟩
          · exact ⟨s1 ++ ss, ws, .cluster (d :: cs) s1 rest ws ss (by simp) hc ih⟩
          · rw [heq]
            by_cases hc2 : ∃ a s, ArgLetter c a s
            · have hany : ∀ a, ∃ s, ArgLetter c a s := by
                intro a
                obtain ⟨_, _, h⟩ := hc2
                cases h
                · exact ⟨_, .config a⟩
                · exact ⟨_, .sequence a⟩
              cases more with
              | cons b bs =>
                obtain ⟨s, hs⟩ := hany (b :: bs)
                exact ⟨_, _, .attached pre s1 c (b :: bs) s rest ws ss hc hs (by simp) ih⟩
              | nil =>
                cases rest with
                | nil => exact ⟨_, _, .missing pre s1 c hc hc2⟩
                | cons b rest =>
                  obtain ⟨s, hs⟩ := hany b
                  obtain ⟨ss', ws', ih'⟩ := commandLine_total posix n rest (by simp only [List.length_cons] at hrest; omega)
                  exact ⟨_, _, .separate pre s1 c b s rest ws' ss' hc hs ih'⟩
            · refine ⟨_, _, .badLetter pre s1 c more rest hc hl (fun a s h => hc2 ⟨a, s, h⟩) ?_⟩
              rintro rfl hc3
              rw [List.nil_append] at heq
              exact hd ((List.cons.inj heq).1.trans hc3)

/-! ### Following the settings -/

/-- What one setting does. -/
def applySetting (program : Bytes) (o : Options) : Setting → Prog Options
  | .help => .out (usageFor o) (.out [0x0A] (.out (if o.isInlineBin then helpMessageInline else helpMessage) (.exit 0)))
  | .version => .out (packageString ++ [0x0A]) (.exit 0)
  | .usage => .out (usageFor o) (.exit 0)
  | .unreadable => .err (program ++ lit ": ") (.out (usageFor o) (.exit 0))
  | .list => .ret { o with listSequences := true }
  | .dryRun => .ret { o with dryRun := true }
  | .recurse => .ret { o with recurse := true }
  | .verbose => .ret { o with verbose := o.verbose + 1 }
  | .inline => .ret { o with isInlineMode := true }
  | .special => .ret { o with special := true }
  | .config f => .ret { o with checkConfigFile := some f }
  | .sequence n => .ret { o with sequenceName := some n }

theorem applyItem_setting (program : Bytes) (o : Options) {i : OptItem} {s : Setting} (h : setOf i = some s) :
    applyItem program o i = applySetting program o s := by
  cases i with
  | error => cases h; rfl
  | flag c =>
    have h := (letter_iff c s).2 h
    cases h <;> rfl
  | withArg c a =>
    have h := (argLetter_iff c a s).2 h
    cases h <;> rfl
  | long n =>
    simp only [setOf] at h
    simp only [applyItem]
    by_cases h1 : n = longOptionInline
    · rw [if_pos h1] at h; cases h; rw [if_pos h1]; rfl
    · rw [if_neg h1] at h ⊢
      by_cases h2 : n = longOptionRecursive
      · rw [if_pos h2] at h; cases h; rw [if_pos h2]; rfl
      · rw [if_neg h2] at h ⊢
        by_cases h3 : n = longOptionSpecial
        · rw [if_pos h3] at h; cases h; rw [if_pos h3]; rfl
        · rw [if_neg h3] at h; cases h

/-- The options after some settings none of which leaves. -/
def settled (o : Options) (ss : List Setting) : Options :=
  { o with
    listSequences := o.listSequences || decide (Setting.list ∈ ss)
    dryRun := o.dryRun || decide (Setting.dryRun ∈ ss)
    recurse := o.recurse || decide (Setting.recurse ∈ ss)
    verbose := o.verbose + ss.count .verbose
    isInlineMode := o.isInlineMode || decide (Setting.inline ∈ ss)
    special := o.special || decide (Setting.special ∈ ss)
    checkConfigFile := (lastConfig ss).or o.checkConfigFile
    sequenceName := (lastSequence ss).or o.sequenceName }

theorem applySetting_stays (program : Bytes) (o : Options) {s : Setting} (hs : ¬ s.Leaves) :
    ∃ o', applySetting program o s = .ret o' ∧ ∀ ss, settled o' ss = settled o (s :: ss) := by
  unfold Setting.Leaves at hs
  cases s with
  | help => exact absurd (Or.inl rfl) hs
  | version => exact absurd (Or.inr (Or.inl rfl)) hs
  | usage => exact absurd (Or.inr (Or.inr (Or.inl rfl))) hs
  | unreadable => exact absurd (Or.inr (Or.inr (Or.inr rfl))) hs
  | list => exact ⟨_, rfl, fun ss => by simp [settled, lastConfig, lastSequence]⟩
  | dryRun => exact ⟨_, rfl, fun ss => by simp [settled, lastConfig, lastSequence]⟩
  | recurse => exact ⟨_, rfl, fun ss => by simp [settled, lastConfig, lastSequence]⟩
  | verbose => exact ⟨_, rfl, fun ss => by simp [settled, lastConfig, lastSequence]; omega⟩
  | inline => exact ⟨_, rfl, fun ss => by simp [settled, lastConfig, lastSequence]⟩
  | special => exact ⟨_, rfl, fun ss => by simp [settled, lastConfig, lastSequence]⟩
  | config f =>
    exact ⟨_, rfl, fun ss => by cases h : lastConfig ss <;> simp [settled, lastConfig, lastSequence, h]⟩
  | sequence n =>
    exact ⟨_, rfl, fun ss => by cases h : lastSequence ss <;> simp [settled, lastConfig, lastSequence, h]⟩

theorem applyItems_stay (program : Bytes) : ∀ (ss : List Setting) (items : List OptItem) (rest : List OptItem) (o : Options),
    items.map setOf = ss.map some → (∀ s ∈ ss, ¬ s.Leaves) →
    applyItems program o (items ++ rest) = applyItems program (settled o ss) rest
  | [], items, rest, o, hi, _ => by
    have : items = [] := by simpa using hi
    subst this
    have : settled o [] = o := by simp [settled, lastConfig, lastSequence]
    rw [this]; rfl
  | s :: ss, items, rest, o, hi, hs => by
    cases items with
    | nil => simp at hi
    | cons i items =>
      simp only [List.map_cons, List.cons.injEq] at hi
      obtain ⟨o', h1, h2⟩ := applySetting_stays program o (hs s List.mem_cons_self)
      rw [List.cons_append, applyItems, applyItem_setting program o hi.1, h1, Prog.bind,
        applyItems_stay program ss items rest o' hi.2 (fun s h => hs s (List.mem_cons_of_mem _ h)), h2]

/-- Settings that leave do so the same way with whatever comes after them. -/
theorem applySetting_leaves (program : Bytes) (o : Options) {s : Setting} (hs : s.Leaves) {β : Type} (f : Options → Prog β) :
    (applySetting program o s).bind f = (match s with
      | .help => .out (usageFor o) (.out [0x0A] (.out (if o.isInlineBin then helpMessageInline else helpMessage) (.exit 0)))
      | .version => .out (packageString ++ [0x0A]) (.exit 0)
      | .usage => .out (usageFor o) (.exit 0)
      | _ => .err (program ++ lit ": ") (.out (usageFor o) (.exit 0)) : Prog β) := by
  rcases hs with rfl | rfl | rfl | rfl <;> rfl

/-! ### The operands -/

theorem putFiles_holds : ∀ (ws done : List Bytes) (l : Filelist) (n : Nat), l.Holds done n → (ws = [] → n = 0) →
    ∃ l', putFiles l ws = .ok l' ∧ l'.Holds (done ++ ws) 0
  | [], done, l, n, h, h0 => ⟨l, rfl, by rw [h0 rfl] at h; simpa using h⟩
  | w :: ws, done, l, n, h, _ => by
    obtain ⟨l1, h1, h2⟩ := filelistPut_holds h w
    obtain ⟨l2, h3, h4⟩ := putFiles_holds ws (done ++ [w]) l1 0 h2 (fun _ => rfl)
    refine ⟨l2, ?_, by simpa using h4⟩
    rw [putFiles, h1]
    exact h3

/-! ### The name of the program -/

/-- A path without the slashes at its end. -/
def trimSlashes (p : Bytes) : Bytes := (p.reverse.dropWhile (· = 0x2F)).reverse

theorem trimSlashes_append (p : Bytes) : ∃ k, p = trimSlashes p ++ List.replicate k 0x2F := by
  have gen : ∀ q : Bytes, ∃ k, q = List.replicate k 0x2F ++ q.dropWhile (· = 0x2F) := by
    intro q
    induction q with
    | nil => exact ⟨0, rfl⟩
    | cons c q ih =>
      obtain ⟨k, hk⟩ := ih
      by_cases hc : c = 0x2F
      · refine ⟨k + 1, ?_⟩
        rw [List.dropWhile_cons, if_pos (by simp [hc]), List.replicate_succ, List.cons_append, ← hk, hc]
      · exact ⟨0, by rw [List.dropWhile_cons, if_neg (by simp [hc])]; rfl⟩
  obtain ⟨k, hk⟩ := gen p.reverse
  refine ⟨k, ?_⟩
  have := congrArg List.reverse hk
  rw [List.reverse_reverse, List.reverse_append, List.reverse_replicate] at this
  exact this

theorem trimSlashes_of (p : Bytes) (c : Byte) (hc : c ≠ 0x2F) (k : Nat) :
    trimSlashes (p ++ [c] ++ List.replicate k 0x2F) = p ++ [c] := by
  have gen : ∀ (k : Nat) (q : Bytes), (List.replicate k 0x2F ++ c :: q).dropWhile (· = 0x2F) = c :: q := by
    intro k q
    induction k with
    | zero => rw [List.replicate_zero, List.nil_append, List.dropWhile_cons, if_neg (by simp [hc])]
    | succ k ih => rw [List.replicate_succ, List.cons_append, List.dropWhile_cons, if_pos (by simp), ih]
  unfold trimSlashes
  rw [List.reverse_append, List.reverse_replicate, List.reverse_append, List.reverse_singleton, List.singleton_append, gen,
    List.reverse_cons, List.reverse_reverse]

theorem posixBasename_inline (program : Bytes) : posixBasename program = lit "inline-detox" ↔ CalledInline program := by
  have hbody : posixBasename program = (if program = [] then lit "." else if trimSlashes program = [] then lit "/"
      else basePart (trimSlashes program)) := rfl
  have hlast : lit "inline-detox" = lit "inline-deto" ++ [0x78] := by decide
  have hslash : lit "/inline-detox" = [0x2F] ++ lit "inline-detox" := by decide
  constructor
  · intro h
    rw [hbody] at h
    by_cases h1 : program = []
    · rw [if_pos h1] at h; exact absurd h (by decide)
    · rw [if_neg h1] at h
      by_cases h2 : trimSlashes program = []
      · rw [if_pos h2] at h; exact absurd h (by decide)
      · rw [if_neg h2] at h
        obtain ⟨k, hk⟩ := trimSlashes_append program
        obtain ⟨g1, g2, g3⟩ := splitsAs_parts (trimSlashes program)
        rw [h] at g1
        refine ⟨k, ?_⟩
        rcases g3 with g3 | ⟨d, g3⟩
        · left; rw [g3, List.nil_append] at g1; rw [g1] at hk; exact hk
        · right
          refine ⟨d, ?_⟩
          rw [g3, List.append_assoc, ← hslash] at g1; rw [g1] at hk; exact hk
  · rintro ⟨k, h⟩
    have key : ∀ d : Bytes, (d = [] ∨ ∃ d', d = d' ++ [0x2F]) → program = d ++ lit "inline-detox" ++ List.replicate k 0x2F →
        posixBasename program = lit "inline-detox" := by
      intro d hd hp
      have ht : trimSlashes program = d ++ lit "inline-detox" := by
        rw [hp, hlast, ← List.append_assoc]
        exact trimSlashes_of _ _ (by decide) k
      have hs : SplitsAs (trimSlashes program) d (lit "inline-detox") := ⟨ht, by decide, hd⟩
      have hne : trimSlashes program ≠ [] := by
        rw [ht]; intro h
        exact absurd (List.append_eq_nil_iff.1 h).2 (by decide)
      rw [hbody, if_neg ?_, if_neg hne, ← (splitsAs_unique hs).2]
      intro h; rw [h] at hne; exact hne rfl
    rcases h with h | ⟨d, h⟩
    · exact key [] (Or.inl rfl) h
    · refine key (d ++ [0x2F]) (Or.inr ⟨d, rfl⟩) ?_
      rw [h, hslash, ← List.append_assoc]

end Detox
