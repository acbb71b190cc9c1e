import Verif.Lemmas.MemoryLoad
import Verif.Lemmas.MemoryMain
import Verif.Model.MemoryMain

/-!
# The whole program with pointers
-/

set_option autoImplicit false

namespace Detox

section

variable {A S : Nat → Bool} {N : Prop}

/-! ### Options -/

/-- The characters of `sequence_name`. -/
def NameIs (h : Heap) : Option CString → Option Bytes → Prop
  | none, none => True
  | some c, some s => FileIs h c s
  | _, _ => False

theorem NameIs.keep {h h' : Heap} (k : KeepsText h h') : ∀ {p : Option CString} {s : Option Bytes}, NameIs h p s → NameIs h' p s
  | none, none, _ => trivial
  | some _, some _, l => FileIs.keep l k
  | none, some _, l => by cases l
  | some _, none, l => by cases l

theorem NameIs.read {h : Heap} : ∀ {p : Option CString} {s : Option Bytes}, NameIs h p s → mReadName p h = .ret (.ok (s, h))
  | none, none, _ => rfl
  | some c, some s, l => Mem.bind_ok (f := fun s => pure (some s)) (FileIs.chars l)
  | none, some _, l => by cases l
  | some _, none, l => by cases l

/-- The options with pointers and those of `Options`. -/
def OptionsAt (m : MOptions) (h : Heap) (o : Options) : Prop :=
  ∃ d s l bf, o = { m.flags with checkConfigFile := d, sequenceName := s, files := l } ∧ h.optAt m.checkConfigFile = some d ∧
    NameIs h m.sequenceName s ∧ OptListAt h m.files bf l

/-- There is no file list yet. -/
def OptionsOnly (m : MOptions) (h : Heap) (o : Options) : Prop :=
  ∃ d s, o = { m.flags with checkConfigFile := d, sequenceName := s, files := none } ∧ h.optAt m.checkConfigFile = some d ∧
    NameIs h m.sequenceName s ∧ m.files = none

theorem OptionsOnly.at {h : Heap} {m : MOptions} {o : Options} (l : OptionsOnly m h o) : OptionsAt m h o := by
  obtain ⟨d, s, h1, h2, h3, h4⟩ := l
  exact ⟨d, s, none, [], h1, h2, h3, by rw [h4]; rfl⟩

theorem applyItem_follows (program : Bytes) (i : OptItem) {h : Heap} {m : MOptions} {o : Options} (l : OptionsOnly m h o) :
    Follows A N OptionsOnly (mApplyItem A program m i h) (applyItem program o i) := by
  obtain ⟨d, s, rfl, h2, h3, h4⟩ := l
  cases i with
  | error => exact Follows.err' (Follows.out' (.exit 0))
  | withArg c arg =>
    unfold mApplyItem applyItem
    have k := (Alters.malloc h (.text (arg.length + 1) arg)).keepsTextNil
    have g := Heap.get_new h (.text (arg.length + 1) arg)
    by_cases hc : c = byteOf 'f'
    · simp only [if_pos hc]
      refine Follows.does (strdup_alters h arg) ?_
      rintro a h1 ⟨rfl, rfl⟩
      refine .ret _ _ _ ⟨some arg, s, rfl, ?_, h3.keep k, h4⟩
      simp only [Heap.optAt, Heap.textAt_of g]; rfl
    · simp only [if_neg hc]
      refine Follows.does (strdup_alters h arg) ?_
      rintro a h1 ⟨rfl, rfl⟩
      exact .ret _ _ _ ⟨d, some arg, rfl, k.opt h2, Heap.textAt_of g, h4⟩
  | long n =>
    unfold mApplyItem applyItem
    by_cases h5 : n = longOptionInline
    · simp only [if_pos h5]; exact .ret _ _ _ ⟨d, s, rfl, h2, h3, h4⟩
    simp only [if_neg h5]
    by_cases h6 : n = longOptionRecursive
    · simp only [if_pos h6]; exact .ret _ _ _ ⟨d, s, rfl, h2, h3, h4⟩
    simp only [if_neg h6]
    by_cases h7 : n = longOptionSpecial
    · simp only [if_pos h7]; exact .ret _ _ _ ⟨d, s, rfl, h2, h3, h4⟩
    simp only [if_neg h7]
    exact .ret _ _ _ ⟨d, s, rfl, h2, h3, h4⟩
  | flag c =>
    unfold mApplyItem applyItem
    by_cases h5 : c = byteOf 'h'
    · simp only [if_pos h5]; exact Follows.out' (Follows.out' (Follows.out' (.exit 0)))
    simp only [if_neg h5]
    by_cases h6 : c = byteOf 'L'
    · simp only [if_pos h6]; exact .ret _ _ _ ⟨d, s, rfl, h2, h3, h4⟩
    simp only [if_neg h6]
    by_cases h7 : c = byteOf 'n'
    · simp only [if_pos h7]; exact .ret _ _ _ ⟨d, s, rfl, h2, h3, h4⟩
    simp only [if_neg h7]
    by_cases h8 : c = byteOf 'r'
    · simp only [if_pos h8]; exact .ret _ _ _ ⟨d, s, rfl, h2, h3, h4⟩
    simp only [if_neg h8]
    by_cases h9 : c = byteOf 'v'
    · simp only [if_pos h9]; exact .ret _ _ _ ⟨d, s, rfl, h2, h3, h4⟩
    simp only [if_neg h9]
    by_cases h10 : c = byteOf 'V'
    · simp only [if_pos h10]; exact Follows.out' (.exit 0)
    simp only [if_neg h10]
    exact Follows.out' (.exit 0)

theorem applyItems_follows (program : Bytes) : ∀ (is : List OptItem) {h : Heap} {m : MOptions} {o : Options}, OptionsOnly m h o →
    Follows A N OptionsOnly (mApplyItems A program m is h) (applyItems program o is)
  | [], _, _, _, l => .ret _ _ _ l
  | i :: is, _, _, _, l => by
    unfold mApplyItems applyItems
    exact Follows.bind (applyItem_follows program i l) fun m' h' o' l' => applyItems_follows program is l'

theorem putFiles_follows {la : Addr} : ∀ (ws : List Bytes) {h : Heap} {fa : Addr} {ps : List Addr} {us : List Bytes} {n : Nat} {l : Filelist},
    ListAt h la fa ps us n → l.Holds us n → Follows A N (fun _ h' l' => KeepsText h h' ∧ ∃ bs, OptListAt h' (some la) bs (some l'))
      (mPutFiles A la ws h) (Prog.ofRes (putFiles l ws))
  | [], h, fa, ps, us, n, l, L, H => .ret _ _ _ ⟨KeepsText.refl h, fa :: ps, fa, ps, us, n, rfl, L, H⟩
  | w :: ws, h, fa, ps, us, n, l, L, H => by
    obtain ⟨l1, e1, H1⟩ := filelistPut_holds H w
    unfold mPutFiles putFiles
    rw [e1]
    refine Follows.does (filelistPut_does L w) ?_
    rintro _ h1 ⟨fa', q, L1, s1⟩
    have k := (L.alters L1 s1.alters).1
    exact (putFiles_follows ws L1 H1).mono fun _ _ _ ⟨k', r⟩ => ⟨k.trans k', r⟩

theorem withOperands_follows {h : Heap} {m : MOptions} {o : Options} (l : OptionsOnly m h o) (ws : List Bytes) :
    Follows A N OptionsAt (mWithOperands A m ws h) (withOperands o ws) := by
  have lo := l.at
  obtain ⟨d, s, rfl, h2, h3, h4⟩ := l
  unfold mWithOperands withOperands
  by_cases hl : m.flags.listSequences = true
  · rw [if_pos hl, if_pos (show ({ m.flags with checkConfigFile := d, sequenceName := s, files := none } : Options).listSequences = true from hl)]
    exact .ret _ _ _ lo
  · rw [if_neg hl, if_neg (show ¬ ({ m.flags with checkConfigFile := d, sequenceName := s, files := none } : Options).listSequences = true from hl)]
    refine Follows.does (filelistInit_does A h) ?_
    rintro la h1 ⟨fa, L1, s1⟩
    have k := s1.alters.keepsTextNil
    cases ws with
    | nil =>
      simp only
      by_cases hi : m.flags.isInlineMode = true
      · rw [if_pos hi, if_pos (show ({ m.flags with checkConfigFile := d, sequenceName := s, files := none } : Options).isInlineMode = true from hi)]
        exact .ret _ _ _ ⟨d, s, some filelistInit, _, rfl, k.opt h2, h3.keep k, fa, [], [], 0, rfl, L1, filelistInit_holds⟩
      · rw [if_neg hi, if_neg (show ¬ ({ m.flags with checkConfigFile := d, sequenceName := s, files := none } : Options).isInlineMode = true from hi)]
        exact Follows.out' (.exit 1)
    | cons w ws =>
      simp only
      refine Follows.bind (putFiles_follows (w :: ws) L1 filelistInit_holds) ?_
      rintro _ h2' l' ⟨k', bs, L'⟩
      exact .ret _ _ _ ⟨d, s, some l', bs, rfl, k'.opt (k.opt h2), (h3.keep k).keep k', L'⟩

theorem parseOptions_follows (program : Bytes) (args : List Bytes) (sequence : Option Bytes) (posix : Bool) (h : Heap) :
    Follows A N OptionsAt (mParseOptions A program args sequence posix h) (parseOptions program args sequence posix) := by
  unfold mParseOptions parseOptions
  refine Follows.malloc ?_
  refine Follows.bind (applyItems_follows program _ ?_) fun m h1 o l => withOperands_follows l _
  refine ⟨none, sequence, rfl, rfl, ?_, rfl⟩
  cases sequence with
  | none => trivial
  | some s => exact rfl

/-! ### The flags -/

/-- The fields that are pointers do not matter to the functions below. -/
def Options.pointers (o : Options) (d s : Option Bytes) (l i : Option Filelist) (q : Option Sequence) : Options :=
  { o with checkConfigFile := d, sequenceName := s, files := l, filesToIgnore := i, sequenceToUse := q }

variable {P : Platform} {o : Options} {d s : Option Bytes} {l i : Option Filelist} {u : Option Sequence}

theorem mParseFile_flags (q : Option Addr) (a : Addr) : mParseFile A P (o.pointers d s l i u) q a = mParseFile A P o q a := rfl

theorem mDirLoop_flags (q ig : Option Addr) {r r' : Addr → Mem Unit} (hr : r = r') (hd : Nat) (fn nf : Addr) : ∀ (n : Nat) (st : Stat),
    mDirLoop A P (o.pointers d s l i u) q ig r hd fn nf n st = mDirLoop A P o q ig r' hd fn nf n st
  | 0, _ => rfl
  | n + 1, st => by
    subst hr
    have ih : mDirLoop A P (o.pointers d s l i u) q ig r hd fn nf n = mDirLoop A P o q ig r hd fn nf n :=
      funext fun st => mDirLoop_flags q ig rfl hd fn nf n st
    unfold mDirLoop
    simp only [ih, mParseFile_flags]
    rfl

theorem mParseDir_flags (q ig : Option Addr) : ∀ (n : Nat), mParseDir A P (o.pointers d s l i u) q ig n = mParseDir A P o q ig n
  | 0 => rfl
  | n + 1 => by
    funext a
    unfold mParseDir
    simp only [mDirLoop_flags q ig (mParseDir_flags q ig n)]

theorem mProcessArg_flags (q ig : Option Addr) (fuel : Nat) (a : Addr) :
    mProcessArg A P (o.pointers d s l i u) q ig fuel a = mProcessArg A P o q ig fuel a := by
  unfold mProcessArg
  simp only [mParseDir_flags, mParseFile_flags]
  rfl

theorem mFileLoop_flags (q ig f : Option Addr) (fuel : Nat) : ∀ (n : Nat),
    mFileLoop A P (o.pointers d s l i u) q ig f fuel n = mFileLoop A P o q ig f fuel n
  | 0 => rfl
  | n + 1 => by
    unfold mFileLoop
    simp only [mProcessArg_flags, mFileLoop_flags q ig f fuel n]

theorem mDetoxWork_flags (q ig f : Option Addr) (fuel : Nat) :
    mDetoxWork A P (o.pointers d s l i u) q ig f fuel = mDetoxWork A P o q ig f fuel := by
  unfold mDetoxWork
  simp only [mFileLoop_flags]
  rfl

/-! ### Choosing a sequence -/

theorem Links.get {β : Type} {P : Addr → Option Addr → β → Prop} : ∀ {as : List Addr} {bs : List β} {t : Option Addr} {k : Nat} {b : β}, Links P as bs t →
    bs[k]? = some b → ∃ a n, as[k]? = some a ∧ P a n b
  | a :: as, c :: bs, t, 0, b, ⟨h, _⟩, e => by
    cases e
    exact ⟨a, _, rfl, h⟩
  | a :: as, c :: bs, t, k + 1, b, ⟨_, l⟩, e => l.get (k := k) (by simpa using e)
  | [], [], _, _, _, _, e => by simp at e
  | [], _ :: _, _, _, _, l, _ => by cases l
  | _ :: _, [], _, _, _, l, _ => by cases l

theorem chooseDefault_at (ss : List Sequence) (name : Option Bytes) :
    sequenceChooseDefault ss name = (chosenPosition ss name).bind (ss[·]?) := by
  have key : ∀ (nm : Bytes) (ss : List Sequence), sequenceFind nm ss = (ss.findIdx? (·.name = nm)).bind (ss[·]?) := by
    intro nm ss
    induction ss with
    | nil => rfl
    | cons q ss ih =>
      rw [sequenceFind, List.findIdx?_cons]
      by_cases h : q.name = nm
      · simp [h]
      · simp only [h, if_false, ih, decide_false, Bool.false_eq_true]
        cases ss.findIdx? (·.name = nm) with
        | none => rfl
        | some k => simp
  have hn : sequenceChooseDefault ss name = (match sequenceFind (name.getD (lit "default")) ss with
      | some q => some q
      | none => match name with | none => ss.head? | some _ => none) := by cases name <;> rfl
  rw [hn, key]
  unfold chosenPosition
  cases hf : ss.findIdx? (·.name = name.getD (lit "default")) with
  | some k =>
    have hk := (List.findIdx?_eq_some_iff_getElem.1 hf).1
    simp [List.getElem?_eq_getElem hk]
  | none =>
    cases name with
    | some n => simp
    | none => cases ss <;> simp

theorem sequenceChooseDefault_eq {h : Heap} {lo n : Nat} {qs : List Addr} {ss : List Sequence} (hn : qs.Nodup) (hl : Links (SeqIn h lo n) qs ss none)
    (name : Option Bytes) : mSequenceChooseDefault qs.head? name h = .ret (.ok ((chosenPosition ss name).bind (qs[·]?), h)) := by
  have hk : qs.length ≤ h.length := length_le_of_nodup_lt _ _ hn fun x hx => by
    obtain ⟨_, _, e⟩ := hl.mem x hx
    obtain ⟨b, hb, _⟩ := e.isSequence
    exact Heap.get_lt hb
  obtain ⟨r, e, hr⟩ := findSequence_eq (name.getD (lit "default")) hk hl
  unfold mSequenceChooseDefault
  refine (Mem.bind_ok (a := h.length) (h' := h) rfl).trans ((Mem.bind_ok e).trans ?_)
  unfold chosenPosition
  rcases hr with ⟨rfl, ha⟩ | ⟨xs, w, ys, us, v, vs, rfl, rfl, rfl, e1, e2, e3⟩
  · have hf : ss.findIdx? (fun q => q.name = name.getD (lit "default")) = none := by
      rw [List.findIdx?_eq_none_iff]
      intro q hq
      simpa using ha q hq
    rw [hf]
    cases name with
    | some nm => simp; rfl
    | none =>
      cases qs with
      | nil => cases ss with
        | nil => rfl
        | cons => cases hl
      | cons a qs => cases ss with
        | nil => cases hl
        | cons => rfl
  · have hf : (us ++ v :: vs).findIdx? (fun q => q.name = name.getD (lit "default")) = some us.length := by
      rw [List.findIdx?_append]
      have : us.findIdx? (fun q => q.name = name.getD (lit "default")) = none := by
        rw [List.findIdx?_eq_none_iff]
        intro q hq
        simpa using e3 q hq
      rw [this]
      simp [List.findIdx?_cons, e2]
    rw [hf]
    have : (xs ++ w :: ys)[us.length]? = some w := by rw [← e1]; simp
    simp only [Option.bind_some, this]
    cases name <;> rfl

/-! ### `-L` -/

theorem readFilters_eq {h : Heap} {lo : Nat} : ∀ {k : Nat} {fas : List Addr} {fs : List Filter}, fas.length ≤ k → Links (FilterIn h lo) fas fs none →
    mReadFilters k fas.head? h = .ret (.ok (fs, h))
  | k, [], [], _, _ => by cases k <;> rfl
  | _, [], _ :: _, _, l => by cases l
  | _, _ :: _, [], _, l => by cases l
  | 0, _ :: _, _ :: _, hk, _ => by cases hk
  | k + 1, a :: fas, f :: fs, hk, ⟨e, l⟩ => by
    obtain ⟨_, ht, fn, bi, g, ⟨o1, _⟩, ⟨o2, _⟩⟩ := e
    have ih := readFilters_eq (k := k) (by simpa using hk) l
    have eh : fas.head?.or none = fas.head? := by cases fas <;> rfl
    rw [eh] at g
    change mReadFilters (k + 1) (some a) h = _
    unfold mReadFilters
    refine (Mem.bind_ok (loadFilter_eq g)).trans ((Mem.bind_ok (loadFilterNames_eq g)).trans ((Mem.bind_ok (readOpt_eq o1)).trans
      ((Mem.bind_ok (readOpt_eq o2)).trans ((Mem.bind_ok ih).trans ?_))))
    cases f
    cases ht
    rfl

theorem dumpSequences_eq {h : Heap} {lo n : Nat} {verbose : Bool} {chosen : Option Addr} {pos : Option Nat} : ∀ {k count : Nat} {qs : List Addr}
    {ss : List Sequence}, qs.length ≤ k → Links (SeqIn h lo n) qs ss none →
    (∀ j a, qs[j]? = some a → (chosen = some a ↔ pos = some (count + j))) →
    mDumpSequences verbose chosen k count qs.head? h = .ret (.ok (dumpSequences verbose pos count ss, h))
  | k, _, [], [], _, _, _ => by cases k <;> rfl
  | _, _, [], _ :: _, _, l, _ => by cases l
  | _, _, _ :: _, [], _, l, _ => by cases l
  | 0, _, _ :: _, _ :: _, hk, _, _ => by cases hk
  | k + 1, count, a :: qs, q :: ss, hk, ⟨e, l⟩, hc => by
    obtain ⟨_, nm, src, fas, g, ⟨_, t⟩, ⟨o1, _⟩, nd, fl, _⟩ := e
    obtain ⟨m, t⟩ := Heap.textAt_get t
    have ih := dumpSequences_eq (verbose := verbose) (count := count + 1) (k := k) (by simpa using hk) l fun j b hb => by
      rw [hc (j + 1) b (by simpa using hb), Nat.add_assoc, Nat.add_comm 1 j]
    have eh : qs.head?.or none = qs.head? := by cases qs <;> rfl
    rw [eh] at g
    have hf : fas.length ≤ h.length := length_le_of_nodup_lt _ _ nd fun x hx => by
      obtain ⟨_, _, e⟩ := fl.mem x hx
      obtain ⟨b, hb, _⟩ := e.isFilter
      exact Heap.get_lt hb
    have hd : decide (chosen = some a) = decide (pos = some count) := by
      have := hc 0 a rfl
      simp only [this, Nat.add_zero]
    change mDumpSequences verbose chosen (k + 1) count (some a) h = _
    unfold mDumpSequences
    refine (Mem.bind_ok (loadSequence_eq g)).trans ((Mem.bind_ok (deref_eq nm h)).trans ((Mem.bind_ok (Mem.text_eq t)).trans
      ((Mem.bind_ok (readOpt_eq o1)).trans ((Mem.bind_ok (a := h.length) (h' := h) rfl).trans ((Mem.bind_ok (readFilters_eq hf fl)).trans
        ((Mem.bind_ok ih).trans ?_))))))
    rw [hd]
    rfl

theorem dumpIgnored_follows {a : Addr} {bs : List Addr} : ∀ {n : Nat} {h : Heap} {l : Filelist}, OptListAt h (some a) bs (some l) →
    Follows A N (fun t _ t' => t = t') (mDumpIgnored (some a) n h) (Prog.ofRes (dumpIgnored n l))
  | 0, h, l, _ => .stuck
  | n + 1, h, l, e => by
    obtain ⟨q, h', l', w, e1, e2, ho, e3, s, _⟩ := filelistGet_follows e
    unfold mDumpIgnored dumpIgnored
    rw [e2]
    refine Follows.step e1 ?_
    simp only [Res.bind_ok]
    cases q with
    | none =>
      cases w with
      | none => exact .ret _ _ _ rfl
      | some w => cases ho
    | some x =>
      obtain ⟨m, w, g, rfl⟩ := Heap.optAt_some ho (a := x) (by simp)
      refine Follows.step (Mem.text_eq g) ?_
      have ih := dumpIgnored_follows (n := n) e3
      have er : Prog.ofRes (dumpIgnored n l' >>= fun r => pure (lit "\t" ++ w ++ lit "\n" ++ r)) =
          (Prog.ofRes (dumpIgnored n l')).bind fun r => .ret (lit "\t" ++ w ++ lit "\n" ++ r) := by cases dumpIgnored n l' <;> rfl
      change Follows A N _ _ (Prog.ofRes (dumpIgnored n l' >>= fun r => pure (lit "\t" ++ w ++ lit "\n" ++ r)))
      rw [er]
      exact Follows.bind ih fun t _ t' ht => by subst ht; exact .ret _ _ _ rfl

theorem dumpConfigFile_follows {h : Heap} {lo : Nat} {c : Addr} {cfg : ConfigFile} {qs : List Addr} {ign : Option Addr} {o : Options}
    (i : ConfigIn h lo c cfg) (hc : h.get c = some (.config qs.head? ign)) (hn : qs.Nodup) (hl : Links (SeqIn h lo h.length) qs cfg.sequences none) :
    Follows A N (fun t _ t' => t = t') (mDumpConfigFile c o.verbose ((chosenPosition cfg.sequences o.sequenceName).bind (qs[·]?)) h)
      (Prog.ofRes (dumpConfigFile cfg o)) := by
  obtain ⟨_, qs', la, fa, ps, ws, l, g, _, _, e1, L, H, _⟩ := i
  have ei : ign = some la := by
    rw [hc] at g
    injection g with g
    injection g
  subst ei
  have hk : qs.length ≤ h.length := length_le_of_nodup_lt _ _ hn fun x hx => by
    obtain ⟨_, _, e⟩ := hl.mem x hx
    obtain ⟨b, hb, _⟩ := e.isSequence
    exact Heap.get_lt hb
  have body := dumpSequences_eq (verbose := decide (o.verbose ≠ 0)) (chosen := (chosenPosition cfg.sequences o.sequenceName).bind (qs[·]?))
    (pos := chosenPosition cfg.sequences o.sequenceName) (count := 0) hk hl fun j a ha => by
      rw [Nat.zero_add]
      cases chosenPosition cfg.sequences o.sequenceName with
      | none => simp
      | some k =>
        simp only [Option.bind_some, Option.some.injEq]
        constructor
        · intro hk'
          exact (List.getElem?_inj (List.getElem?_eq_some_iff.1 hk').1 hn).1 (hk'.trans ha.symm)
        · rintro rfl; exact ha
  have L' : OptListAt h (some la) (fa :: ps) (some l) := ⟨fa, ps, ws, 0, rfl, L, H⟩
  unfold mDumpConfigFile dumpConfigFile
  refine Follows.step (loadConfig_eq hc) ?_
  refine Follows.step (a := h.length) (h' := h) rfl ?_
  refine Follows.step body ?_
  refine Follows.step (filelistCount_opt L') ?_
  rw [e1]
  by_cases hp : l.count > 0
  · have hp' : filelistCount (some l) > 0 := hp
    simp only [if_pos hp, if_pos hp']
    generalize dumpSequences _ _ 0 cfg.sequences = body
    generalize (if o.verbose = 0 then lit "available sequences:\n" else []) = head
    have er : Prog.ofRes (dumpIgnored (l.count + 1) l >>= fun t => pure (lit "\nfiles to ignore:\n" ++ t) >>= fun tail => pure (head ++ body ++ tail)) =
        (Prog.ofRes (dumpIgnored (l.count + 1) l)).bind fun t => .ret (head ++ body ++ (lit "\nfiles to ignore:\n" ++ t)) := by
      cases dumpIgnored (l.count + 1) l <;> rfl
    rw [er]
    exact Follows.bind (dumpIgnored_follows L') fun t _ t' ht => by subst ht; exact .ret _ _ _ rfl
  · have hp' : ¬ filelistCount (some l) > 0 := hp
    simp only [if_neg hp, if_neg hp']
    exact .ret _ _ _ rfl

/-! ### `sequence_review` -/

theorem chainAt_of_links {h : Heap} {lo : Nat} : ∀ {fas : List Addr} {fs : List Filter}, Links (FilterIn h lo) fas fs none → ChainAt h fas fs
  | [], [], _ => trivial
  | a :: fas, f :: fs, ⟨⟨_, ht, fn, bi, g, ⟨o1, _⟩, ⟨o2, _⟩⟩, l⟩ => by
    have eh : fas.head?.or none = fas.head? := by cases fas <;> rfl
    rw [eh] at g
    exact ⟨⟨fn, bi, none, g, o1, o2, by rw [ht]; trivial⟩, chainAt_of_links l⟩
  | [], _ :: _, l => by cases l
  | _ :: _, [], l => by cases l

theorem OptListAt.inLists {h h' : Heap} (k : ∀ x d, h.get x = some d → d.inList = true → h'.get x = some d) {p : Option Addr} {bs : List Addr}
    {l : Option Filelist} (e : OptListAt h p bs l) : OptListAt h' p bs l := by
  cases p with
  | none => cases l <;> exact e
  | some a => cases l with
    | none => cases e
    | some l =>
      obtain ⟨fa, ps, ws, n, rfl, L, H⟩ := e
      refine ⟨fa, ps, ws, n, rfl, L.congr fun x hx => ?_, H⟩
      obtain ⟨⟨m, h1, h2⟩, h3, _, _⟩ := L
      simp only [listBlocks, List.mem_cons] at hx
      rcases hx with rfl | rfl | hx
      · rw [h1, k _ _ h1 rfl]
      · rw [h2, k _ _ h2 rfl]
      · obtain ⟨m, s, g⟩ := h3.mem hx
        rw [g, k _ _ g rfl]

theorem sequenceReview_follows (ctype : Bytes) (datadir : Option Bytes) {h : Heap} {lo n : Nat} {a : Addr} {next : Option Addr} {q : Sequence}
    (e : SeqIn h lo n a next q) : Follows A N (fun _ h' q' => SequenceAt h' (some a) (some q') ∧ ∀ x d, h.get x = some d → d.inList = true → h'.get x = some d)
      (mSequenceReview A ctype datadir a h) (reviewSequence ctype datadir q) := by
  obtain ⟨_, nm, src, fas, g, ⟨_, t⟩, ⟨o1, _⟩, nd, fl, _⟩ := e
  have hf : fas.length ≤ h.length := length_le_of_nodup_lt _ _ nd fun x hx => by
    obtain ⟨_, _, e⟩ := fl.mem x hx
    obtain ⟨b, hb, _⟩ := e.isFilter
    exact Heap.get_lt hb
  have ch := chainAt_of_links fl
  have only : OnlyFilters fas h := fun x hx b hb => by
    obtain ⟨b', h1, h2⟩ := ch.isFilter x hx
    rw [h1] at hb; cases hb; exact h2
  unfold mSequenceReview reviewSequence
  refine Follows.step (loadSequence_eq g) ?_
  refine Follows.step (a := h.length) (h' := h) rfl ?_
  refine (reviewFilters_follows ctype datadir hf nd ch).map ?_
  rintro _ h' fs' ⟨c', al⟩
  refine ⟨⟨next, nm, fas.head?, src, al.get g ?_, al.textAt t ?_, al.optText only o1, c'.filters⟩, fun x d hx hd => al.get hx ?_⟩
  · intro hc; cases only _ hc _ g
  · intro hc
    obtain ⟨m, t⟩ := Heap.textAt_get t
    cases only _ hc _ t
  · intro hc
    have := only _ hc _ hx
    cases d <;> first | cases this; done | cases hd

/-! ### `main` -/

theorem Below.alters {h h' : Heap} (b : Below h.length h h') : Alters [] h h' := ⟨b.1, fun x hx _ => b.2 x hx⟩

/-- `mDetoxConfigured` once there is a configuration. -/
def mAfterLoading (A : Nat → Bool) (P : Platform) (I : Invocation) (o : MOptions) (fuel : Nat) (c : Addr) : Mem Unit := do
  let (sequences, ignore) ← Mem.loadConfig c
  let name ← mReadName o.sequenceName
  let chosen ← mSequenceChooseDefault sequences name
  if o.flags.listSequences then do
    let t ← mDumpConfigFile c o.flags.verbose chosen
    Mem.out t
    Mem.exit 0
  else
    match chosen with
    | none => do
      Mem.err (lit "detox: no sequence to work with\n")
      Mem.exit 1
    | some q => do
      mSequenceReview A I.ctype I.datadir q
      mDetoxWork A P o.flags (some q) ignore o.files fuel

theorem mDetoxConfigured_split (P : Platform) (I : Invocation) (o : MOptions) (fuel : Nat) :
    mDetoxConfigured A S P I o fuel = mConfigFileLoad A S I.config o.checkConfigFile >>= mAfterLoading A P I o fuel := rfl

/-- `detoxConfigured` once there is a configuration. -/
def afterLoading (P : Platform) (I : Invocation) (o : Options) (fuel : Nat) (c : ConfigFile) : Prog Unit :=
  if o.listSequences then
    (Prog.ofRes (dumpConfigFile c o)).bind fun t => .out t (.exit 0)
  else
    match sequenceChooseDefault c.sequences o.sequenceName with
    | none => .err (lit "detox: no sequence to work with\n") (.exit 1)
    | some q =>
      (reviewSequence I.ctype I.datadir q).bind fun q' =>
        detoxWork P { o with
          filesToIgnore := c.filesToIgnore, sequenceToUse := some q' } fuel

theorem detoxConfigured_split (P : Platform) (I : Invocation) (o : Options) (fuel : Nat) :
    detoxConfigured P I o fuel = (configFileLoad I.config o.checkConfigFile).bind (afterLoading P I o fuel) := rfl

theorem afterLoading_follows (P : Platform) (I : Invocation) (fuel : Nat) {h h1 : Heap} {m : MOptions} {o : Options} {c : Addr} {cfg : ConfigFile}
    (l : OptionsAt m h o) (lc : LoadedIn h c h1 cfg) : Follows A N (fun _ _ (_ : Unit) => True) (mAfterLoading A P I m fuel c h1)
      (afterLoading P I o fuel cfg) := by
  obtain ⟨d, s, fl, bf, rfl, h2, h3, h4⟩ := l
  obtain ⟨lo, hlo, ci, bl⟩ := lc
  unfold mAfterLoading afterLoading
  have al := bl.alters
  have ci' := ci
  obtain ⟨_, qs, la, fa, ps, ws, ig, g, nd, lk, e1, L, H, inl⟩ := ci'
  have n1 := h3.keep al.keepsTextNil
  refine Follows.step (loadConfig_eq g) ?_
  refine Follows.step n1.read ?_
  refine Follows.step (sequenceChooseDefault_eq nd lk s) ?_
  by_cases hL : m.flags.listSequences = true
  · rw [if_pos hL, if_pos (show ({ m.flags with checkConfigFile := d, sequenceName := s, files := fl } : Options).listSequences = true from hL)]
    refine Follows.bind (dumpConfigFile_follows (o := { m.flags with checkConfigFile := d, sequenceName := s, files := fl }) ci g nd lk) ?_
    rintro t _ t' rfl
    exact Follows.out' (.exit 0)
  · rw [if_neg hL, if_neg (show ¬ ({ m.flags with checkConfigFile := d, sequenceName := s, files := fl } : Options).listSequences = true from hL)]
    change Follows A N _ _ (match sequenceChooseDefault cfg.sequences s with
      | none => _
      | some q => _)
    rw [chooseDefault_at]
    cases hp : chosenPosition cfg.sequences s with
    | none => exact Follows.err' (.exit 1)
    | some k =>
      simp only [Option.bind_some]
      cases hq : cfg.sequences[k]? with
      | none =>
        have : qs[k]? = none := by rw [List.getElem?_eq_none_iff] at hq ⊢; rw [lk.length]; exact hq
        rw [this]
        exact Follows.err' (.exit 1)
      | some q =>
        obtain ⟨a, next, ha, e⟩ := lk.get hq
        rw [ha]
        refine Follows.bind (sequenceReview_follows I.ctype I.datadir e) ?_
        rintro _ h5 q' ⟨sq, keep⟩
        have fl1 : OptListAt h1 m.files bf fl := h4.inLists fun x d hx _ => al.keep hx
        have ig1 : OptListAt h1 (some la) (fa :: ps) (some ig) := ⟨fa, ps, ws, 0, rfl, L, H⟩
        rw [← mDetoxWork_flags (o := m.flags) (d := d) (s := s) (l := fl) (i := cfg.filesToIgnore) (u := some q')]
        have w := detoxWork_follows (A := A) (N := N) (P := P) (o := m.flags.pointers d s fl cfg.filesToIgnore (some q')) (q := some a) (p := some la)
          (f := m.files) fuel (h := h5) sq (fl1.inLists keep) (by rw [show (m.flags.pointers d s fl cfg.filesToIgnore (some q')).filesToIgnore = some ig from e1]; exact ig1.inLists keep) (by
            intro x hx hc
            cases List.mem_singleton.1 (show x ∈ [la] from hc)
            obtain ⟨b, hb, _⟩ := h4.live _ hx
            have := Heap.get_lt hb
            have := inl la (by simp [listBlocks])
            omega)
        refine (detoxWorkLost_fst (P := P) (o := m.flags.pointers d s fl cfg.filesToIgnore (some q')) fuel) ▸ ?_
        exact w.map fun _ _ _ _ => trivial

theorem detoxConfigured_follows (hS : ∀ n, S n = true) (P : Platform) (I : Invocation) (fuel : Nat) {h : Heap} {m : MOptions} {o : Options}
    (l : OptionsAt m h o) : Follows A N (fun _ _ (_ : Unit) => True) (mDetoxConfigured A S P I m fuel h) (detoxConfigured P I o fuel) := by
  rw [mDetoxConfigured_split, detoxConfigured_split]
  have l' := l
  obtain ⟨d, s, fl, bf, rfl, h2, _⟩ := l'
  exact Follows.bind (configFileLoad_follows hS I.config h2) fun c h1 cfg lc => afterLoading_follows P I fuel l lc

/-- The program with pointers does what `detoxMain` does. -/
theorem detoxMain_follows (hS : ∀ n, S n = true) (P : Platform) (I : Invocation) (fuel : Nat) (h : Heap) :
    Follows A N (fun _ _ (_ : Unit) => True) (mDetoxMain A S P I fuel h) (detoxMain P I fuel) :=
  Follows.bind (parseOptions_follows _ _ _ _ h) fun _ _ _ l => detoxConfigured_follows hS P I fuel l

end

end Detox
