import Verif.Lemmas.MemoryChains
import Verif.Lemmas.ConfigSafety

/-!
# The actions of the config file parser with pointers
-/

set_option autoImplicit false

namespace Detox

section

variable {A : Nat → Bool} {N : Prop}

/-- Where the parser is: `qs` are the sequences, `fas` the filters of the current one, and the rest is the list of names to ignore. `hs` is the heap
it started with; the blocks below `lo` are not its own. The filters of the sequences are below `n`, those of the current one not. -/
structure CfInv (lo : Nat) (hs : Heap) (c : Addr) (h : Heap) (v : CfVars) (st : CState) (n : Nat) (qs fas : List Addr) (la fa : Addr)
    (ps : List Addr) (ws : List Bytes) : Prop where
  low : lo ≤ hs.length
  below : Below lo hs h
  cut : n ≤ h.length
  conf : ∃ s i, h.get c = some (.config s i)
  seqs : Links (SeqIn h lo n) qs st.sequences none
  seqNodup : qs.Nodup
  seqRet : v.sequenceRet = qs.head?
  seqCur : v.sequenceCurrent = qs.getLast?
  filters : Links (FilterIn h lo) fas st.filters none
  filNodup : fas.Nodup
  filAbove : ∀ x, x ∈ fas → n ≤ x
  filRet : v.filterRet = fas.head?
  filCur : v.filterCurrent = fas.getLast?
  ignore : v.ignore = some la
  list : ListAt h la fa ps ws 0
  holds : st.ignore.Holds ws 0
  listIn : ∀ x, x ∈ listBlocks la fa ps → lo ≤ x

section

variable {lo : Nat} {hs h : Heap} {c : Addr} {v : CfVars} {st : CState} {n : Nat} {qs fas : List Addr} {la fa : Addr} {ps : List Addr} {ws : List Bytes}

theorem CfInv.seqLow (i : CfInv lo hs c h v st n qs fas la fa ps ws) : ∀ x, x ∈ qs → lo ≤ x := fun x hx => by
  obtain ⟨_, _, l⟩ := i.seqs.mem x hx; exact l.1

theorem CfInv.filLow (i : CfInv lo hs c h v st n qs fas la fa ps ws) : ∀ x, x ∈ fas → lo ≤ x := fun x hx => by
  obtain ⟨_, _, l⟩ := i.filters.mem x hx; exact l.1

theorem CfInv.lowNow (i : CfInv lo hs c h v st n qs fas la fa ps ws) : lo ≤ h.length := Nat.le_trans i.low i.below.1

theorem CfInv.seqLt (i : CfInv lo hs c h v st n qs fas la fa ps ws) : ∀ x, x ∈ qs → x < h.length := fun x hx => by
  obtain ⟨_, _, l⟩ := i.seqs.mem x hx
  obtain ⟨b, hb, _⟩ := l.isSequence
  exact Heap.get_lt hb

theorem CfInv.filLt (i : CfInv lo hs c h v st n qs fas la fa ps ws) : ∀ x, x ∈ fas → x < h.length := fun x hx => by
  obtain ⟨_, _, l⟩ := i.filters.mem x hx
  obtain ⟨b, hb, _⟩ := l.isFilter
  exact Heap.get_lt hb

/-- New blocks do not matter. -/
theorem CfInv.alloc (i : CfInv lo hs c h v st n qs fas la fa ps ws) {h' : Heap} (a : Alters [] h h') : CfInv lo hs c h' v st n qs fas la fa ps ws := by
  have kt := a.keepsTextNil
  have kf := a.keepsFiltersNil (n := n)
  obtain ⟨s, ig, hc⟩ := i.conf
  exact { i with
    below := i.below.trans (a.below i.lowNow (by simp))
    cut := Nat.le_trans i.cut a.grows
    conf := ⟨s, ig, a.keep hc⟩
    seqs := i.seqs.mono fun x _ _ _ l => l.keep kt kf (Nat.le_refl _) fun b hb _ => a.keep hb
    filters := i.filters.mono fun x _ _ _ l => l.keep kt fun b hb _ => a.keep hb
    list := a.list i.list (by simp) }

/-! ### cf_append_filter -/

theorem newFilter_does {h : Heap} {lo : Nat} (hl : lo ≤ h.length) (c : Cleaner) {bi fn : Option Addr} {b f : Option Bytes} (ml : Nat) (rt : Bool)
    (hb : h.optAt bi = some b) (hf : h.optAt fn = some f) : Does A (mNewFilter A c bi fn ml rt) h fun w h' => w = h.length ∧ Alters [] h h' ∧
      FilterIn h' lo w none { filterInit c with builtin := b, filename := f, maxLength := ml, removeTrailing := rt } := by
  unfold mNewFilter mFilterInit
  refine Does.bind (P := fun w h' => w = h.length ∧ h' = h ++ [some (.filter none c none none false 0 none)]) (Does.malloc ⟨rfl, rfl⟩) ?_
  rintro w h1 ⟨rfl, rfl⟩
  have a1 := Alters.malloc h (.filter none c none none false 0 none)
  have g1 := Heap.get_new h (.filter none c none none false 0 none)
  have hb1 := a1.keepsTextNil.opt hb
  have hf1 := a1.keepsTextNil.opt hf
  generalize h ++ [some (Block.filter none c none none false 0 none)] = h1 at *
  refine Does.bind (strdupOpt_does hb1) ?_
  rintro q2 h2 ⟨o2, s2, n2, _⟩
  have a2 : Alters [] h1 h2 := s2.alters
  have g2 := a2.keep g1
  have hf2 := a2.keepsTextNil.opt hf1
  refine Does.step (Mem.update_eq g2 rfl) ?_
  have m2 : ∀ x, x ∈ [h.length] → ∀ b, h2.get x = some b → b.isText = false := fun x hx b e => by
    cases (List.mem_singleton.1 hx); rw [g2] at e; cases e; rfl
  have a3 : Alters [h.length] h2 (h2.set h.length (some (.filter none c none q2 false 0 none))) := Alters.set _ _
  have g3 : Heap.get (h2.set h.length (some (.filter none c none q2 false 0 none))) h.length = some (.filter none c none q2 false 0 none) :=
    Heap.get_set_eq (Heap.get_lt g2) _
  have hf3 := (a3.keepsText m2).opt hf2
  have o3 := (a3.keepsText m2).opt o2
  generalize h2.set h.length (some (Block.filter none c none q2 false 0 none)) = h3 at *
  refine Does.bind (strdupOpt_does hf3) ?_
  rintro q4 h4 ⟨o4, s4, n4, _⟩
  have a4 : Alters [] h3 h4 := s4.alters
  have g4 := a4.keep g3
  have o4' := a4.keepsTextNil.opt o3
  refine Does.step (Mem.update_eq g4 rfl) ?_
  refine Does.step (Mem.update_eq (Heap.get_set_eq (Heap.get_lt g4) _) rfl) ?_
  refine Does.step (Mem.update_eq (Heap.get_set_eq (by simpa using Heap.get_lt g4) _) rfl) ?_
  have m4 : ∀ x, x ∈ [h.length] → ∀ b, h4.get x = some b → b.isText = false := fun x hx b e => by
    cases (List.mem_singleton.1 hx); rw [g4] at e; cases e; rfl
  have a5 : Alters [h.length] h4 (((h4.set h.length (some (.filter none c q4 q2 false 0 none))).set h.length
      (some (.filter none c q4 q2 false ml none))).set h.length (some (.filter none c q4 q2 rt ml none))) :=
    ((Alters.set _ _).trans (Alters.set _ _) fun x hx => .inl hx).trans (Alters.set _ _) fun x hx => .inl hx
  have le : h.length ≤ h1.length := a1.grows
  have hq : ∀ {q : Option Addr} {m : Nat}, h.length ≤ m → (∀ x, x ∈ q.toList → x = m) → ∀ x, x ∈ q.toList → lo ≤ x := fun hm e x hx => by
    rw [e x hx]; exact Nat.le_trans hl hm
  refine Does.ret rfl ⟨rfl, ?_, hl, rfl, q4, q2, Heap.get_set_eq (by simpa using Heap.get_lt g4) _, ⟨(a5.keepsText m4).opt o4, ?_⟩,
    ⟨(a5.keepsText m4).opt o4', ?_⟩⟩
  · refine (((a1.trans a2 (by simp)).trans a3 ?_).trans a4 (by simp)).trans a5 ?_
    · intro x hx; right; cases (List.mem_singleton.1 hx); exact Nat.le_refl _
    · intro x hx; right; cases (List.mem_singleton.1 hx); exact Nat.le_refl _
  · exact hq (m := h3.length) (Nat.le_trans le (Nat.le_trans a2.grows a3.grows)) n4
  · exact hq (m := h1.length) le n2

theorem List.concat_cases {α : Type} (l : List α) : l = [] ∨ ∃ xs x, l = xs ++ [x] := by
  rcases List.eq_nil_or_concat l with h | ⟨xs, x, h⟩
  · exact .inl h
  · exact .inr ⟨xs, x, by simpa using h⟩

theorem cfAppendFilter_does (i : CfInv lo hs c h v st n qs fas la fa ps ws) (cl : Cleaner) {bi fn : Option Addr} {b f : Option Bytes} (ml : Nat)
    (rt : Bool) (hb : h.optAt bi = some b) (hf : h.optAt fn = some f) : Does A (mCfAppendFilter A v cl bi fn ml rt) h fun v' h' =>
      v'.name = v.name ∧ KeepsText h h' ∧ ∃ fas', CfInv lo hs c h' v' (cfAppendFilter st cl b f ml rt) n qs fas' la fa ps ws := by
  unfold mCfAppendFilter
  refine Does.bind (newFilter_does i.lowNow cl ml rt hb hf) ?_
  rintro w h1 ⟨rfl, a1, l1⟩
  have i1 := i.alloc a1
  have new : h.length ∉ fas := fun hx => by have := i.filLt _ hx; omega
  rcases List.concat_cases fas with rfl | ⟨xs, l, rfl⟩
  · have e : v.filterRet = none := i.filRet
    rw [e]
    have hs0 : st.filters = [] := by
      have := i.filters.length
      cases hst : st.filters with
      | nil => rfl
      | cons x y => rw [hst] at this; cases this
    refine Does.ret rfl ⟨rfl, a1.keepsTextNil, [h.length], { i1 with
      filters := ?_
      filNodup := by simp
      filAbove := ?_
      filRet := rfl
      filCur := rfl }⟩
    · simp only [cfAppendFilter, hs0]
      exact ⟨l1, trivial⟩
    · intro x hx; cases (List.mem_singleton.1 hx); exact i.cut
  · have e1 : ∃ y, v.filterRet = some y := by
      rw [i.filRet]
      cases xs <;> simp
    obtain ⟨y, e1⟩ := e1
    have e2 : v.filterCurrent = some l := by rw [i.filCur]; simp
    rw [e1, e2]
    refine Does.step (deref_eq l h1) ?_
    obtain ⟨_, b', _, _, _, _, fn', bi', g1, _⟩ := i1.filters.last
    refine Does.step (Mem.update_eq g1 rfl) ?_
    have ln : n ≤ l := i.filAbove l (by simp)
    have ll : lo ≤ l := i.filLow l (by simp)
    have lx : l ∉ xs := fun hx => by
      have := (List.nodup_append.1 i.filNodup).2.2 l hx l (by simp)
      exact this rfl
    have a2 : Alters [l] h1 (h1.set l (some (.filter (some h.length) b'.cleaner fn' bi' b'.removeTrailing b'.maxLength none))) := Alters.set _ _
    have g2 : Heap.get (h1.set l (some (.filter (some h.length) b'.cleaner fn' bi' b'.removeTrailing b'.maxLength none))) l = _ :=
      Heap.get_set_eq (Heap.get_lt g1) _
    generalize h1.set l (some (Block.filter (some h.length) b'.cleaner fn' bi' b'.removeTrailing b'.maxLength none)) = h2 at *
    have ne : ∀ x b, h1.get x = some b → b.isFilter = false → x ∉ [l] := fun x b e hb hx => by
      cases (List.mem_singleton.1 hx); rw [g1] at e; cases e; cases hb
    have kt : KeepsText h1 h2 := a2.keepsText fun x hx b e => by
      cases (List.mem_singleton.1 hx); rw [g1] at e; cases e; rfl
    have kf : KeepsFilters n h1 h2 := a2.keepsFilters fun x hx b _ _ => by cases (List.mem_singleton.1 hx); exact ln
    obtain ⟨s, ig, hc⟩ := i1.conf
    refine Does.ret rfl ⟨rfl, a1.keepsTextNil.trans kt, xs ++ [l] ++ [h.length], { i1 with
      below := i1.below.trans (a2.below i1.lowNow fun x hx => by cases (List.mem_singleton.1 hx); exact ll)
      cut := Nat.le_trans i1.cut a2.grows
      conf := ⟨s, ig, a2.get hc (ne _ _ hc rfl)⟩
      seqs := i1.seqs.mono fun x _ _ _ q => q.keep kt kf (Nat.le_refl _) fun b hb hs => a2.get hb (ne _ _ hb (by cases b <;> first | rfl | cases hs))
      filters := ?_
      filNodup := ?_
      filAbove := ?_
      filRet := ?_
      filCur := by simp
      list := a2.list i1.list fun x hx => ?_ }⟩
    · refine i1.filters.extend (fun x hx _ _ q => q.keep kt fun b hb _ => a2.get hb fun hm => ?_) (fun b'' q => ?_) (l1.keep kt fun b hb _ => a2.get hb fun hm => ?_)
      · cases (List.mem_singleton.1 hm); exact lx hx
      · obtain ⟨q1, q2, fn'', bi'', q3, q4, q5⟩ := q
        rw [g1] at q3
        simp only [Option.some.injEq, Block.filter.injEq] at q3
        obtain ⟨_, e3, e4, e5, e6, e7, _⟩ := q3
        exact ⟨q1, q2, fn'', bi'', by rw [g2, e3, e4, e5, e6, e7], q4.keep kt, q5.keep kt⟩
      · have e : h.length = l := by simpa using hm
        exact new (by simp [e])
    · refine List.nodup_append.2 ⟨i.filNodup, by simp, fun x hx y hy => ?_⟩
      cases (List.mem_singleton.1 hy)
      exact fun e => new (e ▸ hx)
    · intro x hx
      rcases List.mem_append.1 hx with hx | hx
      · exact i.filAbove x hx
      · cases (List.mem_singleton.1 hx); exact i.cut
    · show some y = _
      rw [← e1, i.filRet]
      cases xs <;> rfl
    · obtain ⟨⟨k, t1, t2⟩, t3, _, _⟩ := i1.list
      simp only [listBlocks, List.mem_cons] at hx
      rcases hx with rfl | rfl | hx
      · exact ne _ _ t1 rfl
      · exact ne _ _ t2 rfl
      · obtain ⟨_, _, t4⟩ := t3.mem hx; exact ne _ _ t4 rfl

/-! ### cf_append_sequence_list -/

/-- Only a sequence changes. -/
theorem Alters.sequence {h h' : Heap} {w : Addr} {b : Block} (a : Alters [w] h h') (g : h.get w = some b) (hb : b.isSequence = true) :
    KeepsText h h' ∧ (∀ m, KeepsFilters m h h') ∧ ∀ x d, h.get x = some d → d.isSequence = false → h'.get x = some d := by
  refine ⟨a.keepsText fun x hx d e => ?_, fun m => a.keepsFilters fun x hx d e hd => ?_, fun x d e hd => a.get e fun hx => ?_⟩
  · cases (List.mem_singleton.1 hx); rw [g] at e; cases e; cases b <;> first | rfl | cases hb
  · cases (List.mem_singleton.1 hx); rw [g] at e; cases e; cases b <;> first | (cases hd; done) | (cases hb; done)
  · cases (List.mem_singleton.1 hx); rw [g] at e; cases e; rw [hb] at hd; cases hd

theorem findSequence_eq {h : Heap} {lo n : Nat} (name : Bytes) : ∀ {k : Nat} {qs : List Addr} {ss : List Sequence}, qs.length ≤ k →
    Links (SeqIn h lo n) qs ss none → ∃ r, mFindSequence name k qs.head? h = .ret (.ok (r, h)) ∧
      ((r = none ∧ ∀ q, q ∈ ss → q.name ≠ name) ∨ ∃ xs w ys us u vs, r = some w ∧ qs = xs ++ w :: ys ∧ ss = us ++ u :: vs ∧
        xs.length = us.length ∧ u.name = name ∧ ∀ q, q ∈ us → q.name ≠ name)
  | k, [], [], _, _ => ⟨none, by cases k <;> rfl, .inl ⟨rfl, by simp⟩⟩
  | _, [], _ :: _, _, l => by cases l
  | _, _ :: _, [], _, l => by cases l
  | 0, _ :: _, _ :: _, hk, _ => by cases hk
  | k + 1, a :: qs, q :: ss, hk, ⟨e, l⟩ => by
    obtain ⟨_, nm, src, fas, g, ⟨_, t⟩, _⟩ := e
    obtain ⟨m, t⟩ := Heap.textAt_get t
    have e1 : mFindSequence name (k + 1) (some a) h = (if q.name = name then pure (some a) else mFindSequence name k (qs.head?.or none)) h := by
      simp only [mFindSequence]
      rw [Mem.bind_ok (loadSequence_eq g)]
      rw [Mem.bind_ok (deref_eq nm h)]
      rw [Mem.bind_ok (Mem.text_eq t)]
    rw [Option.or_none] at e1
    simp only [List.head?_cons]
    rw [e1]
    by_cases hn : q.name = name
    · rw [if_pos hn]
      exact ⟨some a, rfl, .inr ⟨[], a, qs, [], q, ss, rfl, rfl, rfl, rfl, hn, by simp⟩⟩
    · rw [if_neg hn]
      obtain ⟨r, e2, e3⟩ := findSequence_eq name (by simpa using hk) l
      refine ⟨r, e2, ?_⟩
      rcases e3 with ⟨rfl, e3⟩ | ⟨xs, w, ys, us, u, vs, rfl, rfl, rfl, h1, h2, h3⟩
      · exact .inl ⟨rfl, by simpa using ⟨hn, e3⟩⟩
      · exact .inr ⟨a :: xs, w, ys, q :: us, u, vs, rfl, rfl, rfl, by simpa using h1, h2, by simpa using ⟨hn, h3⟩⟩

theorem replaceSequence_new (q : Sequence) : ∀ {ss : List Sequence}, (∀ x, x ∈ ss → x.name ≠ q.name) → replaceSequence q ss = ss ++ [q]
  | [], _ => rfl
  | x :: ss, h => by
    unfold replaceSequence
    rw [if_neg (h x (by simp)), replaceSequence_new q fun y hy => h y (by simp [hy])]
    rfl

theorem replaceSequence_old (q : Sequence) {u : Sequence} {vs : List Sequence} (hu : u.name = q.name) : ∀ {us : List Sequence},
    (∀ x, x ∈ us → x.name ≠ q.name) →
    replaceSequence q (us ++ u :: vs) = us ++ { u with filters := q.filters, sourceFilename := q.sourceFilename } :: vs
  | [], _ => by
    simp only [List.nil_append]
    unfold replaceSequence
    rw [if_pos hu]
  | x :: us, h => by
    simp only [List.cons_append]
    rw [replaceSequence, if_neg (h x (by simp)), replaceSequence_old q hu fun y hy => h y (by simp [hy])]

theorem sequenceInit_does {h : Heap} {lo : Nat} (hl : lo ≤ h.length) (m : Nat) (name : Bytes) : Does A (mSequenceInit A name) h fun w h' =>
    w = h.length ∧ Alters [] h h' ∧ SeqIn h' lo m w none { name := name, filters := [] } := by
  unfold mSequenceInit
  refine Does.bind (P := fun w h' => w = h.length ∧ h' = h ++ [some (.sequence none none none none)]) (Does.malloc ⟨rfl, rfl⟩) ?_
  rintro w h1 ⟨rfl, rfl⟩
  have a1 := Alters.malloc h (.sequence none none none none)
  have g1 := Heap.get_new h (.sequence none none none none)
  generalize h ++ [some (Block.sequence none none none none)] = h1 at *
  refine Does.bind (strdup_alters h1 name) ?_
  rintro nm h2 ⟨rfl, rfl⟩
  have a2 := Alters.malloc h1 (.text (name.length + 1) name)
  have g2 := Heap.get_new h1 (.text (name.length + 1) name)
  have g3 := a2.keep g1
  generalize h1 ++ [some (Block.text (name.length + 1) name)] = h2 at *
  refine Does.step (Mem.update_eq g3 rfl) ?_
  have a3 : Alters [h.length] h2 (h2.set h.length (some (.sequence none (some h1.length) none none))) := Alters.set _ _
  refine Does.ret rfl ⟨rfl, (a1.trans a2 (by simp)).trans a3 fun x hx => ?_, hl, h1.length, none, [], Heap.get_set_eq (Heap.get_lt g3) _,
    ⟨Nat.le_trans hl a1.grows, (a3.sequence g3 rfl).1 _ _ (Heap.textAt_of g2)⟩, ⟨rfl, by simp⟩, by simp, trivial, by simp⟩
  right; cases (List.mem_singleton.1 hx); exact Nat.le_refl _

/-- The sequence of that name is found or appended. -/
structure SequenceFor (v : CfVars) (st : CState) (name : Bytes) (w : Addr) (v' : CfVars) (qs' : List Addr) (st' : CState) : Prop where
  split : ∃ xs ys us u vs, qs' = xs ++ w :: ys ∧ st'.sequences = us ++ u :: vs ∧ xs.length = us.length ∧
    ∀ fs src, replaceSequence { name := name, filters := fs, sourceFilename := src } st.sequences =
      us ++ { u with filters := fs, sourceFilename := src } :: vs
  name : v'.name = v.name
  filters : st'.filters = st.filters
  ignore : st'.ignore = st.ignore

theorem sequenceFor_does (i : CfInv lo hs c h v st n qs fas la fa ps ws) (name : Bytes) : Does A (mSequenceFor A v name) h fun r h' =>
    KeepsText h h' ∧ ∃ qs' st', CfInv lo hs c h' r.2 st' n qs' fas la fa ps ws ∧ SequenceFor v st name r.1 r.2 qs' st' := by
  unfold mSequenceFor
  refine Does.step (a := h.length) rfl ?_
  have hk : qs.length ≤ h.length := length_le_of_nodup_lt _ _ i.seqNodup i.seqLt
  obtain ⟨r, e, hr⟩ := findSequence_eq name hk i.seqs
  rw [← i.seqRet] at e
  refine Does.step e ?_
  rcases hr with ⟨rfl, hr⟩ | ⟨xs, w, ys, us, u, vs, rfl, h1, h2, h3, h4, h5⟩
  · simp only
    refine Does.bind (sequenceInit_does i.lowNow n name) ?_
    rintro w h1 ⟨rfl, a1, l1⟩
    have i1 := i.alloc a1
    have new : h.length ∉ qs := fun hx => by have := i.seqLt _ hx; omega
    have rep : ∀ fs src, replaceSequence { name := name, filters := fs, sourceFilename := src } st.sequences =
        st.sequences ++ [{ name := name, filters := fs, sourceFilename := src }] := fun fs src => replaceSequence_new _ hr
    rcases List.concat_cases qs with rfl | ⟨xs, l, rfl⟩
    · have e : v.sequenceRet = none := i.seqRet
      have hs0 : st.sequences = [] := by
        have := i.seqs.length
        cases hst : st.sequences with
        | nil => rfl
        | cons x y => rw [hst] at this; cases this
      rw [e]
      refine Does.ret rfl ⟨a1.keepsTextNil, [h.length], { st with sequences := [{ name := name, filters := [] }] }, { i1 with
        seqs := ⟨l1, trivial⟩
        seqNodup := by simp
        seqRet := rfl
        seqCur := rfl }, ⟨[], [], [], { name := name, filters := [] }, [], rfl, rfl, rfl, fun fs src => ?_⟩, rfl, rfl, rfl⟩
      rw [rep, hs0]
    · have e1 : ∃ y, v.sequenceRet = some y := by
        rw [i.seqRet]
        cases xs <;> simp
      obtain ⟨y, e1⟩ := e1
      have e2 : v.sequenceCurrent = some l := by rw [i.seqCur]; simp
      rw [e1, e2]
      refine Does.step (deref_eq l h1) ?_
      obtain ⟨_, b', _, _, _, nm, src, fas', g1, _⟩ := i1.seqs.last
      refine Does.step (Mem.update_eq g1 rfl) ?_
      have ll : lo ≤ l := i.seqLow l (by simp)
      have lx : l ∉ xs := fun hx => by
        have := (List.nodup_append.1 i.seqNodup).2.2 l hx l (by simp)
        exact this rfl
      have a2 : Alters [l] h1 (h1.set l (some (.sequence (some h.length) (some nm) fas'.head? src))) := Alters.set _ _
      have g2 : Heap.get (h1.set l (some (.sequence (some h.length) (some nm) fas'.head? src))) l = _ := Heap.get_set_eq (Heap.get_lt g1) _
      generalize h1.set l (some (Block.sequence (some h.length) (some nm) fas'.head? src)) = h2 at *
      obtain ⟨kt, kf, ko⟩ := a2.sequence g1 rfl
      obtain ⟨s, ig, hc⟩ := i1.conf
      refine Does.ret rfl ⟨a1.keepsTextNil.trans kt, xs ++ [l] ++ [h.length], { st with sequences := st.sequences ++ [{ name := name, filters := [] }] },
        { i1 with
          below := i1.below.trans (a2.below i1.lowNow fun x hx => by cases (List.mem_singleton.1 hx); exact ll)
          cut := Nat.le_trans i1.cut a2.grows
          conf := ⟨s, ig, ko _ _ hc rfl⟩
          seqs := ?_
          seqNodup := ?_
          seqRet := ?_
          seqCur := by simp
          filters := i1.filters.mono fun x _ _ _ l => l.keep kt fun b hb hf => ko _ _ hb (by cases b <;> first | rfl | cases hf)
          list := a2.list i1.list fun x hx hm => ?_ },
        ⟨xs ++ [l], [], st.sequences, { name := name, filters := [] }, [], rfl, rfl, i.seqs.length, rep⟩, rfl, rfl, rfl⟩
      · refine i1.seqs.extend (fun x hx _ _ q => q.keep kt (kf n) (Nat.le_refl _) fun b hb _ => a2.get hb fun hm => ?_) (fun b'' q => ?_)
          (l1.keep kt (kf n) (Nat.le_refl _) fun b hb _ => a2.get hb fun hm => ?_)
        · cases (List.mem_singleton.1 hm); exact lx hx
        · obtain ⟨q1, nm', src', fas'', q3, q4, q5, q6, q7, q8⟩ := q
          rw [g1] at q3
          simp only [Option.some.injEq, Block.sequence.injEq] at q3
          obtain ⟨_, e3, e4, e5⟩ := q3
          exact ⟨q1, nm', src', fas'', by rw [g2, e3, e4, e5], q4.keep kt, q5.keep kt, q6, filtersIn_keep kt (kf n) q7 q8, q8⟩
        · have e : h.length = l := by simpa using hm
          exact new (by simp [e])
      · refine List.nodup_append.2 ⟨i.seqNodup, by simp, fun x hx y hy => ?_⟩
        cases (List.mem_singleton.1 hy)
        exact fun e => new (e ▸ hx)
      · show some y = _
        rw [← e1, i.seqRet]
        cases xs <;> rfl
      · cases (List.mem_singleton.1 hm)
        obtain ⟨⟨k, t1, t2⟩, t3, _, _⟩ := i1.list
        simp only [listBlocks, List.mem_cons] at hx
        rcases hx with rfl | rfl | hx
        · rw [g1] at t1; cases t1
        · rw [g1] at t2; cases t2
        · obtain ⟨_, _, t4⟩ := t3.mem hx; rw [g1] at t4; cases t4
  · exact Does.ret rfl ⟨KeepsText.refl _, qs, st, i, ⟨xs, ys, us, u, vs, h1, h2, h3, fun fs src => by
      rw [h2]; exact replaceSequence_old _ h4 h5⟩, rfl, rfl, rfl⟩

/-- The name of the config file. -/
def FileIs (h : Heap) : CString → Bytes → Prop
  | .fixed s, f => s = f
  | .heap a, f => h.textAt a = some f

theorem FileIs.keep {h h' : Heap} {file : CString} {f : Bytes} (l : FileIs h file f) (k : KeepsText h h') : FileIs h' file f := by
  cases file with
  | fixed s => exact l
  | heap a => exact k _ _ l

theorem FileIs.chars {h : Heap} {file : CString} {f : Bytes} (l : FileIs h file f) : Mem.chars file h = .ret (.ok (f, h)) := by
  cases file with
  | fixed s => cases l; rfl
  | heap a =>
    obtain ⟨n, l⟩ := Heap.textAt_get l
    exact Mem.text_eq l

theorem cfAppendSequenceList_does (i : CfInv lo hs c h v st n qs fas la fa ps ws) {file : CString} {f : Bytes} (hf : FileIs h file f) {nm : Addr}
    (hv : v.name = some nm) (hn : h.textAt nm = some st.name) : Does A (mCfAppendSequenceList A file v) h fun v' h' =>
      v'.name = v.name ∧ KeepsText h h' ∧ ∃ n' qs', CfInv lo hs c h' v' (cfAppendSequenceList f st) n' qs' [] la fa ps ws := by
  obtain ⟨m, hn⟩ := Heap.textAt_get hn
  unfold mCfAppendSequenceList
  rw [hv]
  refine Does.step (a := nm) rfl ?_
  refine Does.step (Mem.text_eq hn) ?_
  have e : ({ v with name := some nm } : CfVars) = v := by rw [← hv]
  rw [e]
  refine Does.bind (sequenceFor_does i st.name) ?_
  rintro ⟨w, v1⟩ h1 ⟨k1, qs1, st1, i1, s1⟩
  simp only at i1 s1 ⊢
  obtain ⟨⟨xs, ys, us, u, vs, e1, e2, e3, e4⟩, e5, e6, e7⟩ := s1
  have hseqs := i1.seqs
  rw [e1, e2] at hseqs
  obtain ⟨nx, lw, nm1, src1, fas1, g1, t1, o1, r1, r2, r3⟩ := Links.at e3 hseqs
  refine Does.step (Mem.update_eq g1 rfl) ?_
  have a2 : Alters [w] h1 (h1.set w (some (.sequence nx (some nm1) v1.filterRet src1))) := Alters.set _ _
  have g2 : Heap.get (h1.set w (some (.sequence nx (some nm1) v1.filterRet src1))) w = _ := Heap.get_set_eq (Heap.get_lt g1) _
  have f2 := (hf.keep k1).keep (a2.sequence g1 rfl).1
  generalize h1.set w (some (Block.sequence nx (some nm1) v1.filterRet src1)) = h2 at *
  refine Does.step f2.chars ?_
  refine Does.bind (strdup_alters h2 f) ?_
  rintro src h3 ⟨rfl, rfl⟩
  have a3 := Alters.malloc h2 (.text (f.length + 1) f)
  have t3 := Heap.get_new h2 (.text (f.length + 1) f)
  have g3 := a3.keep g2
  generalize h2 ++ [some (Block.text (f.length + 1) f)] = h3 at *
  refine Does.step (Mem.update_eq g3 rfl) ?_
  have a4 : Alters [w] h3 (h3.set w (some (.sequence nx (some nm1) v1.filterRet (some h2.length)))) := Alters.set _ _
  have g4 : Heap.get (h3.set w (some (.sequence nx (some nm1) v1.filterRet (some h2.length)))) w = _ := Heap.get_set_eq (Heap.get_lt g3) _
  have t4 := (a4.sequence g3 rfl).1 _ _ (Heap.textAt_of t3)
  generalize h3.set w (some (Block.sequence nx (some nm1) v1.filterRet (some h2.length))) = h4 at *
  have a : Alters [w] h1 h4 := (a2.trans a3 (by simp)).trans a4 fun x hx => .inl hx
  obtain ⟨kt, kf, ko⟩ := a.sequence g1 rfl
  obtain ⟨s, ig, hc⟩ := i1.conf
  have hx : ∀ x, x ∈ xs → x ≠ w := fun x hx e => by
    have := i1.seqNodup
    rw [e1] at this
    exact (List.nodup_append.1 this).2.2 x hx w (by simp) e
  have hy : ∀ y, y ∈ ys → y ≠ w := fun y hy e => by
    have := i1.seqNodup
    rw [e1] at this
    exact (List.nodup_cons.1 (List.nodup_append.1 this).2.1).1 (e ▸ hy)
  have le : h1.length ≤ h4.length := a.grows
  refine Does.ret rfl ⟨e5.trans hv, k1.trans kt, h4.length, qs1, { i1 with
    below := i1.below.trans (a.below i1.lowNow fun x hx => by cases (List.mem_singleton.1 hx); exact lw)
    cut := Nat.le_refl _
    conf := ⟨s, ig, ko _ _ hc rfl⟩
    seqs := ?_
    filters := trivial
    filNodup := by simp
    filAbove := by simp
    filRet := rfl
    filCur := rfl
    list := a.list i1.list fun x hx hm => ?_
    holds := by rw [← show st1.ignore = (cfAppendSequenceList f st).ignore from e7]; exact i1.holds }⟩
  · rw [e1]
    simp only [cfAppendSequenceList]
    rw [e4]
    refine Links.replace (P := SeqIn h1 lo n) (fun nxt q => ?_) (fun x hx _ _ q => ?_) e3 hseqs (fun x hm _ _ q => ?_)
    · obtain ⟨q1, nm', src', fas'', q3, q4, q5, q6, q7, q8⟩ := q
      rw [g1] at q3
      simp only [Option.some.injEq, Block.sequence.injEq] at q3
      obtain ⟨e8, e9, _, _⟩ := q3
      refine ⟨q1, nm1, some h2.length, fas, ?_, ?_, ⟨?_, ?_⟩, i1.filNodup, ?_, ?_⟩
      · rw [g4, e8, i1.filRet]
      · exact t1.keep kt
      · simp only [Heap.optAt, t4]; rfl
      · intro x hx
        simp only [Option.toList_some, List.mem_singleton] at hx
        rw [hx]; exact Nat.le_trans i1.lowNow a2.grows
      · rw [← e6]
        exact i1.filters.mono fun x _ _ _ l => l.keep kt fun b hb hf => ko _ _ hb (by cases b <;> first | rfl | cases hf)
      · exact fun x hx => Nat.lt_of_lt_of_le (i1.filLt x hx) le
    · exact q.keep kt (kf n) (Nat.le_trans i1.cut le) fun b hb _ => a.get hb fun hc => hy x hx (by simpa using hc)
    · exact q.keep kt (kf n) (Nat.le_trans i1.cut le) fun b hb _ => a.get hb fun hc => hx x hm (by simpa using hc)
  · cases (List.mem_singleton.1 hm)
    obtain ⟨⟨k, t1, t2⟩, t3, _, _⟩ := i1.list
    simp only [listBlocks, List.mem_cons] at hx
    rcases hx with rfl | rfl | hx
    · rw [g1] at t1; cases t1
    · rw [g1] at t2; cases t2
    · obtain ⟨_, _, t4⟩ := t3.mem hx; rw [g1] at t4; cases t4

/-! ### cf_append_ignore_entry -/

/-- The block belongs to a file list. -/
def Block.inList : Block → Bool
  | .filelist .. | .slots _ | .text .. => true
  | _ => false

/-- Only a file list changes. -/
theorem ListAt.alters {h h' : Heap} {a fa fa' : Addr} {qs : List Addr} {ws : List Bytes} {n : Nat} {q : Addr} {w : Bytes}
    (l : ListAt h a fa qs ws n) (l' : ListAt h' a fa' (qs ++ [q]) (ws ++ [w]) 0) (s : Alters (listBlocks a fa qs) h h') :
    KeepsText h h' ∧ ∀ x d, h.get x = some d → d.inList = false → h'.get x = some d := by
  obtain ⟨⟨k, t1, t2⟩, t3, _, _⟩ := l
  constructor
  · intro x u e
    by_cases hx : x ∈ listBlocks a fa qs
    · simp only [listBlocks, List.mem_cons] at hx
      obtain ⟨m, e'⟩ := Heap.textAt_get e
      rcases hx with rfl | rfl | hx
      · rw [t1] at e'; cases e'
      · rw [t2] at e'; cases e'
      · have e1 := l'.strings
        unfold Strings at e1 t3
        simp only [List.map_append] at e1
        have e2 := (List.append_inj e1 (by simpa using congrArg List.length t3)).1
        rw [← t3] at e2
        rw [List.map_inj_left.1 e2 x hx, e]
    · exact s.textAt e hx
  · intro x d e hd
    refine s.get e fun hx => ?_
    simp only [listBlocks, List.mem_cons] at hx
    rcases hx with rfl | rfl | hx
    · rw [t1] at e; cases e; cases hd
    · rw [t2] at e; cases e; cases hd
    · obtain ⟨_, _, t4⟩ := t3.mem hx
      rw [t4] at e; cases e; cases hd

theorem cfAppendIgnoreEntry_does (i : CfInv lo hs c h v st n qs fas la fa ps ws) {p : Addr} {w : Bytes} (hp : h.textAt p = some w) :
    Does A (mCfAppendIgnoreEntry A v (some p)) h fun v' h' => v'.name = v.name ∧ KeepsText h h' ∧ ∃ l' fa' ps' ws', filelistPut st.ignore w = .ok l' ∧
      CfInv lo hs c h' v' { st with ignore := l' } n qs fas la fa' ps' ws' := by
  obtain ⟨m, hp⟩ := Heap.textAt_get hp
  obtain ⟨l', e', hl'⟩ := filelistPut_holds i.holds w
  unfold mCfAppendIgnoreEntry
  refine Does.step (deref_eq p h) ?_
  refine Does.step (Mem.text_eq hp) ?_
  rw [i.ignore]
  refine Does.bind (filelistPut_does i.list w) ?_
  rintro _ h1 ⟨fa', q, l1, s1⟩
  have a1 := s1.alters
  obtain ⟨kt, ko⟩ := i.list.alters l1 a1
  have kf : ∀ m, KeepsFilters m h h1 := fun m x b _ hb hf => ko x b hb (by cases b <;> first | rfl | cases hf)
  obtain ⟨s, ig, hc⟩ := i.conf
  refine Does.ret rfl ⟨rfl, kt, l', fa', ps ++ [q], ws ++ [w], e', { i with
    below := i.below.trans (a1.below i.lowNow i.listIn)
    cut := Nat.le_trans i.cut a1.grows
    conf := ⟨s, ig, ko _ _ hc rfl⟩
    seqs := i.seqs.mono fun x _ _ _ l => l.keep kt (kf n) (Nat.le_refl _) fun b hb hq => ko _ _ hb (by cases b <;> first | rfl | cases hq)
    filters := i.filters.mono fun x _ _ _ l => l.keep kt fun b hb hf => ko _ _ hb (by cases b <;> first | rfl | cases hf)
    list := l1
    holds := hl'
    listIn := fun x hx => ?_ }⟩
  by_cases hm : x ∈ listBlocks la fa ps
  · exact i.listIn x hm
  · have := s1.source x hx
    have := i.lowNow
    simp only [hm, false_or] at *
    omega

end

end

end Detox
