import Verif.Lemmas.MemoryParse

/-!
# The built-in configuration with pointers
-/

set_option autoImplicit false

namespace Detox

section

variable {A S : Nat → Bool} {N : Prop}

/-- A new filter. -/
def NewFilter (lo : Nat) (h : Heap) (F : Filter) (f : Addr) (h' : Heap) : Prop := f = h.length ∧ Alters [] h h' ∧ FilterIn h' lo f none F

theorem filterInit_does {h : Heap} {lo : Nat} (hl : lo ≤ h.length) (c : Cleaner) : Does A (mFilterInit A c) h (NewFilter lo h (filterInit c)) :=
  Does.malloc ⟨rfl, Alters.malloc h _, hl, rfl, none, none, Heap.get_new h _, ⟨rfl, by simp⟩, ⟨rfl, by simp⟩⟩

theorem generateBuiltinFilter_does {h : Heap} {lo : Nat} (hl : lo ≤ h.length) (c : Cleaner) (b : Bytes) :
    Does A (mGenerateBuiltinFilter A c b) h (NewFilter lo h (generateBuiltinFilter c b)) := by
  unfold mGenerateBuiltinFilter mFilterInit
  refine Does.bind (P := fun w h' => w = h.length ∧ h' = h ++ [some (.filter none c none none false 0 none)]) (Does.malloc ⟨rfl, rfl⟩) ?_
  rintro w h1 ⟨rfl, rfl⟩
  have a1 := Alters.malloc h (.filter none c none none false 0 none)
  have g1 := Heap.get_new h (.filter none c none none false 0 none)
  generalize h ++ [some (Block.filter none c none none false 0 none)] = h1 at *
  refine Does.bind (strdup_alters h1 b) ?_
  rintro nm h2 ⟨rfl, rfl⟩
  have a2 := Alters.malloc h1 (.text (b.length + 1) b)
  have g2 := Heap.get_new h1 (.text (b.length + 1) b)
  have g3 := a2.keep g1
  generalize h1 ++ [some (Block.text (b.length + 1) b)] = h2 at *
  refine Does.step (Mem.update_eq g3 rfl) ?_
  have a3 : Alters [h.length] h2 (h2.set h.length (some (.filter none c none (some h1.length) false 0 none))) := Alters.set _ _
  have ne : h1.length ≠ h.length := by have := Heap.get_lt g1; omega
  refine Does.ret rfl ⟨rfl, (a1.trans a2 (by simp)).trans a3 fun x hx => ?_, hl, rfl, none, some h1.length, Heap.get_set_eq (Heap.get_lt g3) _,
    ⟨rfl, by simp⟩, ?_, ?_⟩
  · right; cases (List.mem_singleton.1 hx); exact Nat.le_refl _
  · simp only [Heap.optAt, Heap.textAt_of (a3.get g2 (by simpa using ne))]
    rfl
  · intro x hx
    simp only [Option.toList_some, List.mem_singleton] at hx
    rw [hx]; exact Nat.le_trans hl a1.grows

theorem generateFilter_does {h : Heap} {lo : Nat} (hl : lo ≤ h.length) (c : Cleaner) :
    Does A (mGenerateFilter A c) h (NewFilter lo h (generateFilter c)) := by
  cases c with
  | safe => exact generateBuiltinFilter_does hl _ _
  | _ => exact filterInit_does hl _

theorem generateWipeupFilter_does {h : Heap} {lo : Nat} (hl : lo ≤ h.length) (rt : Bool) :
    Does A (mGenerateWipeupFilter A rt) h (NewFilter lo h (generateWipeupFilter rt)) := by
  unfold mGenerateWipeupFilter mFilterInit
  refine Does.bind (P := fun w h' => w = h.length ∧ h' = h ++ [some (.filter none .wipeup none none false 0 none)]) (Does.malloc ⟨rfl, rfl⟩) ?_
  rintro w h1 ⟨rfl, rfl⟩
  have a1 := Alters.malloc h (.filter none .wipeup none none false 0 none)
  have g1 := Heap.get_new h (.filter none .wipeup none none false 0 none)
  generalize h ++ [some (Block.filter none .wipeup none none false 0 none)] = h1 at *
  refine Does.step (Mem.update_eq g1 rfl) ?_
  refine Does.ret rfl ⟨rfl, a1.trans (Alters.set _ _) fun x hx => ?_, hl, rfl, none, none, Heap.get_set_eq (Heap.get_lt g1) _, ⟨rfl, by simp⟩, ⟨rfl, by simp⟩⟩
  right; cases (List.mem_singleton.1 hx); exact Nat.le_refl _

/-- The source of the built-in sequences, config_file_spoof.c:59. -/
def builtInSource : Bytes := lit "built-in config file"

/-- A sequence without filters, at the end. -/
def BareSeq (h : Heap) (lo : Nat) (q : Addr) (first : Option Addr) (name : Bytes) : Prop :=
  lo ≤ q ∧ ∃ nm src, h.get q = some (.sequence none (some nm) first src) ∧ TextIn h lo nm name ∧ OptIn h lo src (some builtInSource)

theorem generateSequence_does {h : Heap} {lo : Nat} (hl : lo ≤ h.length) (name : Bytes) : Does A (mGenerateSequence A name) h fun q h' =>
    q = h.length ∧ Alters [] h h' ∧ BareSeq h' lo q none name := by
  unfold mGenerateSequence
  refine Does.bind (sequenceInit_does hl 0 name) ?_
  rintro q h1 ⟨rfl, a1, l1, nm, src, fas, g1, t1, _, _, _, e1⟩
  have hf : fas = [] := by
    cases fas with
    | nil => rfl
    | cons x xs => exact absurd (e1 x (by simp)) (Nat.not_lt_zero _)
  subst hf
  simp only [List.head?_nil] at g1
  refine Does.bind (strdup_alters h1 (lit "built-in config file")) ?_
  rintro s h2 ⟨rfl, rfl⟩
  have a2 := Alters.malloc h1 (.text ((lit "built-in config file").length + 1) (lit "built-in config file"))
  have g2 := Heap.get_new h1 (.text ((lit "built-in config file").length + 1) (lit "built-in config file"))
  have g3 := a2.keep g1
  have t2 := t1.keep a2.keepsTextNil
  generalize h1 ++ [some (Block.text ((lit "built-in config file").length + 1) (lit "built-in config file"))] = h2 at *
  refine Does.step (Mem.update_eq g3 rfl) ?_
  have a3 : Alters [h.length] h2 (h2.set h.length (some (.sequence none (some nm) none (some h1.length)))) := Alters.set _ _
  obtain ⟨kt, _, _⟩ := a3.sequence g3 rfl
  refine Does.ret rfl ⟨rfl, (a1.trans a2 (by simp)).trans a3 fun x hx => ?_, l1, nm, some h1.length, Heap.get_set_eq (Heap.get_lt g3) _, t2.keep kt, ?_, ?_⟩
  · right; cases (List.mem_singleton.1 hx); exact Nat.le_refl _
  · simp only [Heap.optAt, kt _ _ (Heap.textAt_of g2)]
    rfl
  · intro x hx
    simp only [Option.toList_some, List.mem_singleton] at hx
    rw [hx]; exact Nat.le_trans hl a1.grows

/-- In the middle of `spoof_config_file`: the sequences `qs` are done, `q` is the last one and has the filters `fas` so far; `sw` and `wu` are
shared. -/
structure SpoofInv (base : Heap) (lo n : Nat) (h : Heap) (c sw wu : Addr) (qs : List Addr) (ss : List Sequence) (q : Addr) (name : Bytes) (fas : List Addr)
    (fs : List Filter) : Prop where
  low : lo ≤ h.length
  below : Below lo base h
  cut : n ≤ h.length
  confLow : lo ≤ c
  conf : h.get c = some (.config (qs.head?.or (some q)) none)
  seqs : Links (SeqIn h lo n) qs ss (some q)
  nodup : (qs ++ [q]).Nodup
  last : BareSeq h lo q fas.head? name
  filters : Links (FilterIn h lo) fas fs none
  filNodup : fas.Nodup
  shared : Links (FilterIn h lo) [sw, wu] safeWipeup none
  ne : sw ≠ wu
  swLt : sw < n
  wuLt : wu < n

section

variable {base : Heap} {lo n : Nat} {h h' : Heap} {c sw wu : Addr} {qs : List Addr} {ss : List Sequence} {q : Addr} {name : Bytes} {fas : List Addr}
  {fs : List Filter}

theorem FilterIn.alloc {a : Addr} {next : Option Addr} {f : Filter} (l : FilterIn h lo a next f) (a1 : Alters [] h h') : FilterIn h' lo a next f :=
  l.keep a1.keepsTextNil fun _ hb _ => a1.keep hb

theorem BareSeq.keep {first : Option Addr} (l : BareSeq h lo q first name) (k : KeepsText h h')
    (e : ∀ b, h.get q = some b → b.isSequence = true → h'.get q = some b) : BareSeq h' lo q first name := by
  obtain ⟨h1, nm, src, h2, h3, h4⟩ := l
  exact ⟨h1, nm, src, e _ h2 rfl, h3.keep k, h4.keep k⟩

theorem SpoofInv.alloc (i : SpoofInv base lo n h c sw wu qs ss q name fas fs) (a : Alters [] h h') : SpoofInv base lo n h' c sw wu qs ss q name fas fs :=
  { i with
    low := Nat.le_trans i.low a.grows
    cut := Nat.le_trans i.cut a.grows
    conf := a.keep i.conf
    below := i.below.trans (a.below i.low (by simp))
    seqs := i.seqs.mono fun _ _ _ _ l => l.keep a.keepsTextNil a.keepsFiltersNil (Nat.le_refl _) fun _ hb _ => a.keep hb
    last := i.last.keep a.keepsTextNil fun _ hb _ => a.keep hb
    filters := i.filters.mono fun _ _ _ _ l => l.alloc a
    shared := i.shared.mono fun _ _ _ _ l => l.alloc a }

/-- `sequence->filters = filter` -/
theorem SpoofInv.first (i : SpoofInv base lo n h c sw wu qs ss q name [] fs) {f : Addr} {gas : List Addr} {gs : List Filter} (hg : gas.head? = some f)
    (l : Links (FilterIn h lo) gas gs none) (hn : gas.Nodup) :
    ∃ h', Mem.update q (Block.setSeqFilters (some f)) h = .ret (.ok ((), h')) ∧
      SpoofInv base lo n h' c sw wu qs ss q name gas gs := by
  obtain ⟨h1, nm, src, g, h3, h4⟩ := i.last
  refine ⟨_, Mem.update_eq g rfl, ?_⟩
  have a : Alters [q] h (h.set q (some (.sequence none (some nm) (some f) src))) := Alters.set _ _
  have g' : Heap.get (h.set q (some (.sequence none (some nm) (some f) src))) q = _ := Heap.get_set_eq (Heap.get_lt g) _
  generalize h.set q (some (Block.sequence none (some nm) (some f) src)) = h' at *
  obtain ⟨kt, kf, ko⟩ := a.sequence g rfl
  have kfil : ∀ x nx b, FilterIn h lo x nx b → FilterIn h' lo x nx b := fun x nx b l =>
    l.keep kt fun b hb hf => ko _ _ hb (by cases b <;> first | rfl | cases hf)
  exact { i with
    low := Nat.le_trans i.low a.grows
    below := i.below.trans (a.below i.low fun x hx => by cases (List.mem_singleton.1 hx); exact h1)
    cut := Nat.le_trans i.cut a.grows
    conf := ko _ _ i.conf rfl
    seqs := i.seqs.mono fun x hx _ _ l => l.keep kt (kf n) (Nat.le_refl _) fun b hb _ => a.get hb fun hm => by
      cases (List.mem_singleton.1 hm)
      exact (List.nodup_append.1 i.nodup).2.2 _ hx _ (by simp) rfl
    last := ⟨h1, nm, src, by rw [g', hg], h3.keep kt, h4.keep kt⟩
    filters := l.mono fun x _ _ _ l => kfil _ _ _ l
    filNodup := hn
    shared := i.shared.mono fun x _ _ _ l => kfil _ _ _ l }

/-- `filter->next = …` -/
theorem SpoofInv.link {xs : List Addr} {l : Addr} (i : SpoofInv base lo n h c sw wu qs ss q name (xs ++ [l]) fs) (hl : n ≤ l) {f : Addr} {gas : List Addr}
    {gs : List Filter} (hg : gas.head? = some f) (lg : Links (FilterIn h lo) gas gs none) (hn : (xs ++ [l] ++ gas).Nodup) :
    ∃ h', Mem.update l (Block.setNext (some f)) h = .ret (.ok ((), h')) ∧
      SpoofInv base lo n h' c sw wu qs ss q name (xs ++ [l] ++ gas) (fs ++ gs) := by
  obtain ⟨fs', b', rfl, e1, e2, e3, fn, bi, g, o1, o2⟩ := i.filters.last
  refine ⟨_, Mem.update_eq g rfl, ?_⟩
  have a : Alters [l] h (h.set l (some (.filter (some f) b'.cleaner fn bi b'.removeTrailing b'.maxLength none))) := Alters.set _ _
  have g' : Heap.get (h.set l (some (.filter (some f) b'.cleaner fn bi b'.removeTrailing b'.maxLength none))) l = _ := Heap.get_set_eq (Heap.get_lt g) _
  generalize h.set l (some (Block.filter (some f) b'.cleaner fn bi b'.removeTrailing b'.maxLength none)) = h' at *
  have kt : KeepsText h h' := a.keepsText fun x hx b e => by
    cases (List.mem_singleton.1 hx); rw [g] at e; cases e; rfl
  have kf : KeepsFilters n h h' := a.keepsFilters fun x hx b _ _ => by cases (List.mem_singleton.1 hx); exact hl
  have ne : ∀ x b, h.get x = some b → b.isFilter = false → x ∉ [l] := fun x b e hb hx => by
    cases (List.mem_singleton.1 hx); rw [g] at e; cases e; cases hb
  have kfil : ∀ x nx b, x ≠ l → FilterIn h lo x nx b → FilterIn h' lo x nx b := fun x nx b hx l =>
    l.keep kt fun b hb hf => a.get hb (by simpa using hx)
  have n1 := List.nodup_append.1 hn
  have n2 := List.nodup_append.1 n1.1
  refine { i with
    low := Nat.le_trans i.low a.grows
    below := i.below.trans (a.below i.low fun x hx => by cases (List.mem_singleton.1 hx); exact e2)
    cut := Nat.le_trans i.cut a.grows
    conf := a.get i.conf (ne _ _ i.conf rfl)
    seqs := i.seqs.mono fun x hx _ _ l => l.keep kt kf (Nat.le_refl _) fun b hb hs =>
      a.get hb (ne _ _ hb (by cases b <;> first | rfl | cases hs))
    last := ?_
    filters := ?_
    filNodup := hn
    shared := i.shared.mono fun x hx _ _ l => kfil _ _ _ ?_ l }
  · have := i.last.keep kt fun b hb hs => a.get hb (ne _ _ hb (by cases b <;> first | rfl | cases hs))
    have e : (xs ++ [l] ++ gas).head? = (xs ++ [l]).head? := by cases xs <;> rfl
    rw [e]; exact this
  · refine Links.append (lg.mono fun x hx _ _ l => kfil _ _ _ ?_ l) ?_
    · rintro rfl; exact n1.2.2 _ (by simp) _ hx rfl
    · have hw : FilterIn h' lo l (gas.head?.or none) b' := ⟨e2, e3, fn, bi, by rw [g', hg]; rfl, o1.keep kt, o2.keep kt⟩
      have hx : Links (FilterIn h' lo) xs fs' (some l) := e1.mono fun x hx _ _ l => kfil _ _ _ (by
        rintro rfl; exact n2.2.2 _ hx _ (by simp) rfl) l
      exact Links.append (as' := [l]) (bs' := [b']) ⟨hw, trivial⟩ hx
  · intro e
    simp only [List.mem_cons, List.not_mem_nil, or_false] at hx
    have h1 := i.swLt
    have h2 := i.wuLt
    rcases hx with e' | e' <;> omega

/-- A sequence with its filters. -/
theorem BareSeq.seq {next : Option Addr} (hq : lo ≤ q) {nm : Addr} {src : Option Addr} (g : h.get q = some (.sequence next (some nm) fas.head? src))
    (t : TextIn h lo nm name) (o : OptIn h lo src (some builtInSource)) (l : Links (FilterIn h lo) fas fs none) (hn : fas.Nodup)
    (hm : ∀ x, x ∈ fas → x < n) : SeqIn h lo n q next (generateSequence name fs) :=
  ⟨hq, nm, src, fas, g, t, o, hn, l, hm⟩

theorem SpoofInv.filLt (i : SpoofInv base lo n h c sw wu qs ss q name fas fs) : ∀ x, x ∈ fas → x < h.length := fun x hx => by
  obtain ⟨_, _, l⟩ := i.filters.mem x hx
  obtain ⟨b, hb, _⟩ := l.isFilter
  exact Heap.get_lt hb

theorem SpoofInv.seqLt (i : SpoofInv base lo n h c sw wu qs ss q name fas fs) : ∀ x, x ∈ qs ++ [q] → x < h.length := fun x hx => by
  rcases List.mem_append.1 hx with hx | hx
  · obtain ⟨_, _, l⟩ := i.seqs.mem x hx
    obtain ⟨b, hb, _⟩ := l.isSequence
    exact Heap.get_lt hb
  · cases (List.mem_singleton.1 hx)
    obtain ⟨_, _, _, g, _⟩ := i.last
    exact Heap.get_lt g

theorem SpoofInv.next (i : SpoofInv base lo n h c sw wu qs ss q name fas fs) (name' : Bytes) : Does A (mNextSequence A q name') h fun q' h' => ∃ n',
    SpoofInv base lo n' h' c sw wu (qs ++ [q]) (ss ++ [generateSequence name fs]) q' name' [] [] := by
  unfold mNextSequence
  refine Does.bind (generateSequence_does i.low name') ?_
  rintro q' h1 ⟨rfl, a1, b1⟩
  have i1 := i.alloc a1
  obtain ⟨l1, nm, src, g, t1, o1⟩ := i1.last
  refine Does.step (Mem.update_eq g rfl) ?_
  have a : Alters [q] h1 (h1.set q (some (.sequence (some h.length) (some nm) fas.head? src))) := Alters.set _ _
  have g' : Heap.get (h1.set q (some (.sequence (some h.length) (some nm) fas.head? src))) q = _ := Heap.get_set_eq (Heap.get_lt g) _
  generalize h1.set q (some (Block.sequence (some h.length) (some nm) fas.head? src)) = h2 at *
  obtain ⟨kt, kf, ko⟩ := a.sequence g rfl
  have new : h.length ∉ qs ++ [q] := fun hx => by have := i.seqLt _ hx; omega
  have kfil : ∀ x nx b, FilterIn h1 lo x nx b → FilterIn h2 lo x nx b := fun x nx b l =>
    l.keep kt fun b hb hf => ko _ _ hb (by cases b <;> first | rfl | cases hf)
  have le : h1.length ≤ h2.length := a.grows
  refine Does.ret rfl ⟨h2.length, {
    below := ?_
    low := Nat.le_trans i1.low le
    cut := Nat.le_refl _
    confLow := i1.confLow
    conf := ?_
    seqs := ?_
    nodup := ?_
    last := b1.keep kt fun b hb _ => a.get hb fun hm => new (by simp [List.mem_singleton.1 hm])
    filters := trivial
    filNodup := by simp
    shared := i1.shared.mono fun x _ _ _ l => kfil _ _ _ l
    ne := i1.ne
    swLt := Nat.lt_of_lt_of_le (Nat.lt_of_lt_of_le i1.swLt i1.cut) le
    wuLt := Nat.lt_of_lt_of_le (Nat.lt_of_lt_of_le i1.wuLt i1.cut) le }⟩
  · refine i1.below.trans (a.below i1.low fun x hx => ?_)
    cases (List.mem_singleton.1 hx); exact l1
  · have := ko _ _ i1.conf rfl
    rw [this]
    cases qs <;> rfl
  · refine Links.append (as' := [q]) (bs' := [generateSequence name fs])
      ⟨BareSeq.seq l1 g' (t1.keep kt) (o1.keep kt) (i1.filters.mono fun x _ _ _ l => kfil _ _ _ l) i1.filNodup
        fun x hx => Nat.lt_of_lt_of_le (i1.filLt x hx) le, trivial⟩ ?_
    exact i1.seqs.mono fun x hx _ _ l => l.keep kt (kf n) (Nat.le_trans i1.cut le) fun b hb _ => a.get hb fun hm => by
      cases (List.mem_singleton.1 hm)
      exact (List.nodup_append.1 i1.nodup).2.2 _ hx _ (by simp) rfl
  · refine List.nodup_append.2 ⟨i.nodup, by simp, fun x hx y hy => ?_⟩
    cases (List.mem_singleton.1 hy)
    exact fun e => new (e ▸ hx)

/-- A new first filter. -/
theorem SpoofInv.one (i : SpoofInv base lo n h c sw wu qs ss q name [] fs) {F : Filter} {f : Addr} (nf : NewFilter lo h F f h') :
    n ≤ f ∧ ∃ h'', Mem.update q (Block.setSeqFilters (some f)) h' = .ret (.ok ((), h'')) ∧ SpoofInv base lo n h'' c sw wu qs ss q name [f] [F] := by
  obtain ⟨rfl, a, l⟩ := nf
  exact ⟨i.cut, (i.alloc a).first rfl ⟨l, trivial⟩ (by simp)⟩

/-- A new filter after the last one. -/
theorem SpoofInv.more {xs : List Addr} {l : Addr} (i : SpoofInv base lo n h c sw wu qs ss q name (xs ++ [l]) fs) (hl : n ≤ l) {F : Filter} {f : Addr}
    (nf : NewFilter lo h F f h') : n ≤ f ∧ f ∉ xs ++ [l] ∧ ∃ h'', Mem.update l (Block.setNext (some f)) h' = .ret (.ok ((), h'')) ∧
      SpoofInv base lo n h'' c sw wu qs ss q name (xs ++ [l] ++ [f]) (fs ++ [F]) := by
  obtain ⟨rfl, a, lf⟩ := nf
  have hn : h.length ∉ xs ++ [l] := fun hx => by have := i.filLt _ hx; omega
  refine ⟨i.cut, hn, (i.alloc a).link hl rfl ⟨lf, trivial⟩ (List.nodup_append.2 ⟨i.filNodup, by simp, fun x hx y hy => ?_⟩)⟩
  cases (List.mem_singleton.1 hy)
  exact fun e => hn (e ▸ hx)

/-- The shared filters after the last one. -/
theorem SpoofInv.rest {xs : List Addr} {l : Addr} (i : SpoofInv base lo n h c sw wu qs ss q name (xs ++ [l]) fs) (hl : ∀ x, x ∈ xs ++ [l] → n ≤ x) :
    ∃ h'', Mem.update l (Block.setNext (some sw)) h = .ret (.ok ((), h'')) ∧
      SpoofInv base lo n h'' c sw wu qs ss q name (xs ++ [l] ++ [sw, wu]) (fs ++ safeWipeup) := by
  refine i.link (hl l (by simp)) rfl i.shared (List.nodup_append.2 ⟨i.filNodup, by simpa using i.ne, fun x hx y hy => ?_⟩)
  have := hl x hx
  have h1 := i.swLt
  have h2 := i.wuLt
  simp only [List.mem_cons, List.not_mem_nil, or_false] at hy
  rcases hy with rfl | rfl <;> omega

theorem spoofSequences_does {h : Heap} {lo : Nat} (hl : lo ≤ h.length) {c sw wu : Addr} (hc : lo ≤ c) (gc : h.get c = some (.config none none))
    (hs : Links (FilterIn h lo) [sw, wu] safeWipeup none) (hne : sw ≠ wu) : Does A (mSpoofSequences A c sw) h fun _ h' => ∃ n qs ss q name fas fs,
      SpoofInv h lo n h' c sw wu qs ss q name fas fs ∧ ss ++ [generateSequence name fs] = spoofSequences := by
  unfold mSpoofSequences
  refine Does.bind (generateSequence_does hl (lit "default")) ?_
  rintro q h1 ⟨rfl, a1, b1⟩
  have g1 := a1.keep gc
  refine Does.step (Mem.update_eq g1 rfl) ?_
  have a2 : Alters [c] h1 (h1.set c (some (.config (some h.length) none))) := Alters.set _ _
  have g2 : Heap.get (h1.set c (some (.config (some h.length) none))) c = _ := Heap.get_set_eq (Heap.get_lt g1) _
  generalize h1.set c (some (Block.config (some h.length) none)) = h2 at *
  have kt : KeepsText h1 h2 := a2.keepsText fun x hx b e => by
    cases (List.mem_singleton.1 hx); rw [g1] at e; cases e; rfl
  have ko : ∀ x b, h1.get x = some b → (∀ s i, b ≠ .config s i) → Heap.get h2 x = some b := fun x b e hb => a2.get e fun hx => by
    cases (List.mem_singleton.1 hx); rw [g1] at e; cases e; exact hb _ _ rfl
  have lts : ∀ x, x ∈ [sw, wu] → x < h.length := fun x hx => by
    obtain ⟨_, _, l⟩ := hs.mem x hx
    obtain ⟨b, hb, _⟩ := l.isFilter
    exact Heap.get_lt hb
  have le2 : h.length ≤ h2.length := Nat.le_trans a1.grows a2.grows
  have i0 : SpoofInv h lo h2.length h2 c sw wu [] [] h.length (lit "default") [] [] := {
    low := Nat.le_trans hl le2
    below := (a1.below hl (by simp)).trans (a2.below (Nat.le_trans hl a1.grows) fun x hx => by cases (List.mem_singleton.1 hx); exact hc)
    cut := Nat.le_refl _
    confLow := hc
    conf := g2
    seqs := trivial
    nodup := by simp
    last := b1.keep kt fun b hb hs => ko _ _ hb fun s i e => by rw [e] at hs; cases hs
    filters := trivial
    filNodup := by simp
    shared := hs.mono fun x _ _ _ l => (l.alloc a1).keep kt fun b hb hf => ko _ _ hb fun s i e => by rw [e] at hf; cases hf
    ne := hne
    swLt := Nat.lt_of_lt_of_le (lts sw (by simp)) le2
    wuLt := Nat.lt_of_lt_of_le (lts wu (by simp)) le2 }
  obtain ⟨h3, e3, i3⟩ := i0.first rfl i0.shared (by simpa using hne)
  refine Does.step e3 ?_
  clear e3 i0 ko kt
  -- iso8859_1
  refine Does.bind (i3.next _) ?_
  rintro q4 h4 ⟨n4, i4⟩
  refine Does.bind (generateBuiltinFilter_does i4.low _ _) ?_
  intro f5 h5 nf5
  obtain ⟨l5, h6, e6, i6⟩ := i4.one nf5
  refine Does.step e6 ?_
  obtain ⟨h7, e7, i7⟩ := SpoofInv.rest (xs := []) i6 (by simpa using l5)
  refine Does.step e7 ?_
  -- iso8859_1-legacy
  refine Does.bind (i7.next _) ?_
  clear i3 i4 nf5 e6 i6 e7 i7
  rintro q8 h8 ⟨n8, i8⟩
  refine Does.bind (generateBuiltinFilter_does i8.low _ _) ?_
  intro f9 h9 nf9
  obtain ⟨l9, h10, e10, i10⟩ := i8.one nf9
  refine Does.step e10 ?_
  refine Does.bind (generateBuiltinFilter_does i10.low _ _) ?_
  intro f11 h11 nf11
  obtain ⟨l11, m11, h12, e12, i12⟩ := SpoofInv.more (xs := []) i10 l9 nf11
  refine Does.step e12 ?_
  obtain ⟨h13, e13, i13⟩ := SpoofInv.rest (xs := [f9]) i12 (by simpa using ⟨l9, l11⟩)
  refine Does.step e13 ?_
  -- utf_8
  refine Does.bind (i13.next _) ?_
  clear i8 nf9 e10 i10 nf11 m11 e12 i12 e13 i13
  rintro q14 h14 ⟨n14, i14⟩
  refine Does.bind (generateBuiltinFilter_does i14.low _ _) ?_
  intro f15 h15 nf15
  obtain ⟨l15, h16, e16, i16⟩ := i14.one nf15
  refine Does.step e16 ?_
  obtain ⟨h17, e17, i17⟩ := SpoofInv.rest (xs := []) i16 (by simpa using l15)
  refine Does.step e17 ?_
  -- uncgi
  refine Does.bind (i17.next _) ?_
  clear i14 nf15 e16 i16 e17 i17
  rintro q18 h18 ⟨n18, i18⟩
  refine Does.bind (generateFilter_does i18.low _) ?_
  intro f19 h19 nf19
  obtain ⟨l19, h20, e20, i20⟩ := i18.one nf19
  refine Does.step e20 ?_
  obtain ⟨h21, e21, i21⟩ := SpoofInv.rest (xs := []) i20 (by simpa using l19)
  refine Does.step e21 ?_
  -- lower
  refine Does.bind (i21.next _) ?_
  clear i18 nf19 e20 i20 e21 i21
  rintro q22 h22 ⟨n22, i22⟩
  refine Does.bind (generateFilter_does i22.low _) ?_
  intro f23 h23 nf23
  obtain ⟨l23, h24, e24, i24⟩ := i22.one nf23
  refine Does.step e24 ?_
  refine Does.bind (generateFilter_does i24.low _) ?_
  intro f25 h25 nf25
  obtain ⟨l25, m25, h26, e26, i26⟩ := SpoofInv.more (xs := []) i24 l23 nf25
  refine Does.step e26 ?_
  refine Does.bind (generateWipeupFilter_does i26.low _) ?_
  intro f27 h27 nf27
  obtain ⟨l27, m27, h28, e28, i28⟩ := SpoofInv.more (xs := [f23]) i26 l25 nf27
  refine Does.step e28 ?_
  -- iso8859_1-only
  refine Does.bind (i28.next _) ?_
  clear i22 nf23 e24 i24 nf25 m25 e26 i26 nf27 m27 e28 i28
  rintro q29 h29 ⟨n29, i29⟩
  refine Does.bind (generateBuiltinFilter_does i29.low _ _) ?_
  intro f30 h30 nf30
  obtain ⟨l30, h31, e31, i31⟩ := i29.one nf30
  refine Does.step e31 ?_
  -- cp1252-only
  refine Does.bind (i31.next _) ?_
  clear i29 nf30 e31 i31
  rintro q32 h32 ⟨n32, i32⟩
  refine Does.bind (generateBuiltinFilter_does i32.low _ _) ?_
  intro f33 h33 nf33
  obtain ⟨l33, h34, e34, i34⟩ := i32.one nf33
  refine Does.step e34 ?_
  -- utf_8-only
  refine Does.bind (i34.next _) ?_
  clear i32 nf33 e34 i34
  rintro q35 h35 ⟨n35, i35⟩
  refine Does.bind (generateBuiltinFilter_does i35.low _ _) ?_
  intro f36 h36 nf36
  obtain ⟨l36, h37, e37, i37⟩ := i35.one nf36
  refine Does.step e37 ?_
  -- uncgi-only
  refine Does.bind (i37.next _) ?_
  clear i35 nf36 e37 i37
  rintro q38 h38 ⟨n38, i38⟩
  refine Does.bind (generateFilter_does i38.low _) ?_
  intro f39 h39 nf39
  obtain ⟨l39, h40, e40, i40⟩ := i38.one nf39
  refine Does.step e40 ?_
  -- lower-only
  refine Does.bind (i40.next _) ?_
  clear i38 nf39 e40 i40
  rintro q41 h41 ⟨n41, i41⟩
  refine Does.bind (generateFilter_does i41.low _) ?_
  intro f42 h42 nf42
  obtain ⟨l42, h43, e43, i43⟩ := i41.one nf42
  exact Does.ret e43 ⟨_, _, _, _, _, _, _, i43, rfl⟩

theorem spoofConfigFile_follows {h : Heap} {lo : Nat} (hl : lo ≤ h.length) :
    Follows A N (fun c h' cfg => ConfigIn h' lo c cfg ∧ Below lo h h') (mSpoofConfigFile A h) (Prog.ofRes spoofConfigFile) := by
  obtain ⟨l', ep, hp⟩ := filelistPut_holds filelistInit_holds (lit "{arch}")
  have ev : spoofConfigFile = .ok { sequences := spoofSequences, filesToIgnore := some l' } := by
    unfold spoofConfigFile
    rw [ep]; rfl
  rw [ev]
  refine Follows.ofDoes (P := fun c h' => ConfigIn h' lo c { sequences := spoofSequences, filesToIgnore := some l' } ∧ Below lo h h') ?_ fun _ _ hx => hx
  unfold mSpoofConfigFile
  refine Does.bind (generateFilter_does hl .safe) ?_
  rintro sw h1 ⟨rfl, a1, f1⟩
  have l1 : lo ≤ h1.length := Nat.le_trans hl a1.grows
  refine Does.bind (generateWipeupFilter_does l1 true) ?_
  rintro wu h2 ⟨rfl, a2, f2⟩
  have f1' := f1.alloc a2
  obtain ⟨q1, q2, fn, bi, g2, o1, o2⟩ := f1'
  refine Does.step (Mem.update_eq g2 rfl) ?_
  have a3 : Alters [h.length] h2 (h2.set h.length (some (.filter (some h1.length) (generateFilter .safe).cleaner fn bi (generateFilter .safe).removeTrailing
    (generateFilter .safe).maxLength none))) := Alters.set _ _
  have g3 : Heap.get (h2.set h.length (some (.filter (some h1.length) (generateFilter .safe).cleaner fn bi (generateFilter .safe).removeTrailing
    (generateFilter .safe).maxLength none))) h.length = _ := Heap.get_set_eq (Heap.get_lt g2) _
  generalize h2.set h.length (some (Block.filter (some h1.length) (generateFilter .safe).cleaner fn bi (generateFilter .safe).removeTrailing
    (generateFilter .safe).maxLength none)) = h3 at *
  have kt : KeepsText h2 h3 := a3.keepsText fun x hx b e => by
    cases (List.mem_singleton.1 hx); rw [g2] at e; cases e; rfl
  have ne : h1.length ≠ h.length := by
    obtain ⟨b, hb, _⟩ := f1.isFilter
    have := Heap.get_lt hb
    omega
  have sh : Links (FilterIn h3 lo) [h.length, h1.length] safeWipeup none :=
    ⟨⟨q1, q2, fn, bi, g3, o1.keep kt, o2.keep kt⟩, f2.keep kt (fun b hb _ => a3.get hb (by simpa using ne)), trivial⟩
  have l3 : lo ≤ h3.length := Nat.le_trans l1 (Nat.le_trans a2.grows a3.grows)
  refine Does.bind (P := fun c h' => c = h3.length ∧ h' = h3 ++ [some (.config none none)]) (Does.malloc ⟨rfl, rfl⟩) ?_
  rintro c h4 ⟨rfl, rfl⟩
  have a4 := Alters.malloc h3 (.config none none)
  have g4 := Heap.get_new h3 (.config none none)
  generalize h3 ++ [some (Block.config none none)] = h4 at *
  have l4 : lo ≤ h4.length := Nat.le_trans l3 a4.grows
  refine Does.bind (spoofSequences_does l4 l3 g4 (sh.mono fun x _ _ _ l => l.alloc a4) (fun e => ne e.symm)) ?_
  rintro _ h5 ⟨n, qs, ss, q, name, fas, fs, i5, e5⟩
  refine Does.bind (filelistInit_does A h5) ?_
  rintro la h6 ⟨fa, t6, s6⟩
  have i6 := i5.alloc s6.alters
  refine Does.step (Mem.update_eq i6.conf rfl) ?_
  have b6 : Below lo h h6 := by
    refine ((a1.trans a2 (by simp)).trans a3 ?_).below hl (by simp) |>.trans ((a4.below l3 (by simp)).trans i6.below)
    intro x hx; right; cases (List.mem_singleton.1 hx); exact Nat.le_refl _
  have li : ∀ x, x ∈ listBlocks la fa [] → lo ≤ x := fun x hx => by
    have := i5.low
    rcases s6.source x hx with h2 | h2
    · cases h2
    · omega
  have a7 : Alters [h3.length] h6 (h6.set h3.length (some (.config (qs.head?.or (some q)) (some la)))) := Alters.set _ _
  have g7 : Heap.get (h6.set h3.length (some (.config (qs.head?.or (some q)) (some la)))) h3.length = _ := Heap.get_set_eq (Heap.get_lt i6.conf) _
  generalize h6.set h3.length (some (Block.config (qs.head?.or (some q)) (some la))) = h7 at *
  have nc : ∀ x b, h6.get x = some b → (∀ s i, b ≠ .config s i) → x ∉ [h3.length] := fun x b e hb hx => by
    cases (List.mem_singleton.1 hx); rw [i6.conf] at e; cases e; exact hb _ _ rfl
  have t7 : ListAt h7 la fa [] [] 0 := by
    refine a7.list t6 fun x hx => ?_
    obtain ⟨⟨k, t1, t2⟩, _, _, _⟩ := t6
    simp only [listBlocks, List.mem_cons, List.not_mem_nil, or_false] at hx
    rcases hx with rfl | rfl
    · exact nc _ _ t1 (by simp)
    · exact nc _ _ t2 (by simp)
  have kt7 : KeepsText h6 h7 := a7.keepsText fun x hx b e => by
    cases (List.mem_singleton.1 hx); rw [i6.conf] at e; cases e; rfl
  refine Does.bind (filelistPut_does t7 (lit "{arch}")) ?_
  rintro _ h8 ⟨fa', p, t8, s8⟩
  obtain ⟨kt8, ko8⟩ := t7.alters t8 s8.alters
  have l7 : lo ≤ h7.length := Nat.le_trans i6.low a7.grows
  have kt := kt7.trans kt8
  have ko : ∀ x b, h6.get x = some b → b.inList = false → (∀ s i, b ≠ .config s i) → h8.get x = some b := fun x b e hb hc =>
    ko8 _ _ (a7.get e (nc _ _ e hc)) hb
  have kfil : ∀ x nx b, FilterIn h6 lo x nx b → FilterIn h8 lo x nx b := fun x nx b l =>
    l.keep kt fun b hb hf => ko _ _ hb (by cases b <;> first | rfl | cases hf) fun s i e => by rw [e] at hf; cases hf
  have kf : ∀ m, KeepsFilters m h6 h8 := fun m x b _ hb hf =>
    ko _ _ hb (by cases b <;> first | rfl | cases hf) fun s i e => by rw [e] at hf; cases hf
  have le8 : h6.length ≤ h8.length := Nat.le_trans a7.grows s8.grows
  refine Does.ret rfl ⟨⟨l3, qs ++ [q], la, fa', _, _, l', ?_, i6.nodup, ?_, rfl, t8, hp, fun x hx => ?_⟩, ?_⟩
  · rw [ko8 _ _ g7 rfl]
    cases qs <;> rfl
  · simp only
    rw [← e5]
    obtain ⟨q1, nm, src, g, h3', h4'⟩ := i6.last
    refine Links.append (as' := [q]) (bs' := [generateSequence name fs]) ⟨BareSeq.seq q1 (ko _ _ g rfl (by simp)) (h3'.keep kt) (h4'.keep kt)
      (i6.filters.mono fun x _ _ _ l => kfil _ _ _ l) i6.filNodup fun x hx => Nat.lt_of_lt_of_le (i6.filLt x hx) le8, trivial⟩ ?_
    exact i6.seqs.mono fun x _ _ _ l => l.keep kt (kf n) (Nat.le_trans i6.cut le8) fun b hb hs =>
      ko _ _ hb (by cases b <;> first | rfl | cases hs) fun s i e => by rw [e] at hs; cases hs
  · rcases s8.source x hx with h2 | h2
    · exact li x h2
    · omega
  · refine b6.trans ((a7.below i6.low fun x hx => ?_).trans (s8.alters.below l7 li))
    cases (List.mem_singleton.1 hx); exact l3

end

end

end Detox
