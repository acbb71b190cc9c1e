import Verif.Lemmas.MemoryFile
import Verif.Lemmas.Inline

/-!
# `/repo/src/detox.c:88-129` with pointers
-/

set_option autoImplicit false

namespace Detox

open Spec

section

variable {A : Nat → Bool} {N : Prop}

/-! ### Inline mode -/

theorem nextChunk_length {P : Platform} {s t : Bytes} {nl w : Bool} {rest : Bytes} (h : nextChunk P s = .ok (t, nl, w, rest)) :
    t.length < inlineBufSize := by
  have hl := lineBuf_length s
  unfold inlineBufSize
  rcases nextChunk_cases P s with ⟨_, hx⟩ | ⟨_, ⟨hnl, hx⟩ | ⟨hnl, n, hn5, _, _, hx⟩⟩
  · rw [hx] at h; cases h
  · rw [hx] at h
    simp only [Res.ok.injEq, Prod.mk.injEq] at h
    rw [← h.1]
    unfold cutNewline
    split
    · exact Nat.lt_of_le_of_lt hl (by omega)
    · rw [List.length_take]; omega
  · rw [hx] at h
    simp only [Res.ok.injEq, Prod.mk.injEq] at h
    rw [← h.1, List.length_append]
    have := (fetchConts_spec P n (takeLine 1007 s).2).2.1
    omega

/-- The part of a chunk that is not needed any more, and what is printed. -/
theorem printChunk_follows {P : Platform} {o : Options} {q : Option Addr} {h0 h : Heap} {base : Addr} {k m : Nat} {t : Bytes} {nl : Bool}
    (hq : SequenceAt h q o.sequenceToUse) (lv : Leaves h0 [] h [base] k) (gb : h.get base = some (.text m t)) :
    Follows A N (fun _ h' (_ : Unit) => Leaves h0 [] h' [base] (k + if isProtected t then 1 else 0) ∧ h'.get base = some (.text m t))
      (mPrintChunk A P q base nl h)
      ((Prog.ofRes (sequenceRunFilters P o.sequenceToUse (if isProtected t then none else some t))).bind fun hold =>
        .out (match hold with | some w => w | none => t) (if nl then .out [0x0A] (.ret ()) else .ret ())) := by
  unfold mPrintChunk
  refine Follows.step (Mem.text_eq gb) ?_
  refine Follows.does (strdup_does h t) ?_
  rintro w h1 ⟨tw, s1⟩
  obtain ⟨nw, gw⟩ := Heap.textAt_get tw
  have gb1 : h1.get base = some (.text m t) := s1.keepsNil _ _ gb rfl
  have hwb : base ≠ w := by
    intro e
    rcases s1.source w (by simp) with h' | h'
    · cases h'
    · have := Heap.get_lt gb; omega
  have lv1 : Leaves h0 [] h1 [w, base] k := lv.trans (m := 0) ((Leaves.ofSwap s1).frame (f := [base])
    (fun x hx => by cases (List.mem_singleton.1 hx : x = base); exact ⟨Heap.get_lt gb, by simp⟩))
  refine Follows.step (Mem.text_eq gw) ?_
  have hq1 := s1.keepsNil.sequence hq
  have hwo : h1.optAt (if isProtected t = true then none else some w) = some (if isProtected t = true then none else some t) := by
    by_cases hp : isProtected t = true
    · rw [if_pos hp, if_pos hp]; rfl
    · rw [if_neg hp, if_neg hp]; simp only [Heap.optAt, tw]; rfl
  refine Follows.bindRes (sequenceRunFilters_follows hq1 hwo) ?_
  rintro p h2 b hb ⟨hp2, s2⟩
  have gb2 : h2.get base = some (.text m t) := s2.keepsNil _ _ gb1 rfl
  have gw2 : h2.get w = some (.text nw t) := s2.keepsNil _ _ gw rfl
  have hpl : ∀ x, x ∈ p.toList → x ≠ w ∧ x ≠ base := fun x hx => by
    rcases s2.source x hx with h' | h'
    · cases h'
    · have := Heap.get_lt gw; have := Heap.get_lt gb1; constructor <;> omega
  have lv2 : Leaves h0 [] h2 (w :: base :: p.toList) k := by
    refine lv1.trans (m := 0) (((Leaves.ofSwap s2).frame (f := [w, base]) (fun x hx => ⟨?_, by simp⟩)).perm (fun x => by simp) (fun x => ?_))
    · rcases List.mem_cons.1 hx with rfl | hx
      · exact Heap.get_lt gw
      · cases (List.mem_singleton.1 hx : x = base); exact Heap.get_lt gb1
    · simp only [List.mem_append, List.mem_cons, List.not_mem_nil, or_false]
      constructor
      · rintro (h' | h' | h') <;> simp [h']
      · rintro (h' | h' | h') <;> simp [h']
  have hwnot : w ∉ base :: p.toList := fun hc => by
    rcases List.mem_cons.1 hc with h' | h'
    · exact hwb h'.symm
    · exact (hpl w h').1 rfl
  -- the copy of the chunk
  have hfree : ∃ h3, Mem.freeOpt (if isProtected t = true then none else some w) h2 = .ret (.ok ((), h3)) ∧
      Leaves h0 [] h3 (base :: p.toList) (k + if isProtected t then 1 else 0) ∧ h3.get base = some (.text m t) ∧ h3.optAt p = some b := by
    by_cases hp : isProtected t = true
    · rw [if_pos hp, if_pos hp]
      exact ⟨h2, rfl, lv2.drop hwnot (Heap.textAt_of gw2), gb2, hp2⟩
    · rw [if_neg hp, if_neg hp]
      refine ⟨h2.set w none, Mem.free_eq gw2, lv2.free hwnot gw2, by rw [Heap.get_set_ne hwb]; exact gb2, ?_⟩
      cases p with
      | none => exact hp2
      | some p =>
        rw [← hp2]
        simp only [Heap.optAt, Heap.textAt]
        rw [Heap.get_set_ne (hpl p (by simp)).1]
  obtain ⟨h3, e3, lv3, gb3, hp3⟩ := hfree
  refine Follows.step e3 ?_
  have fin : ∀ (h4 : Heap), Leaves h0 [] h4 [base] (k + if isProtected t then 1 else 0) → h4.get base = some (.text m t) →
      Follows A N (fun _ h' (_ : Unit) => Leaves h0 [] h' [base] (k + if isProtected t then 1 else 0) ∧ h'.get base = some (.text m t))
        ((if nl = true then Mem.out [0x0A] else pure () : Mem Unit) h4) (if nl = true then .out [0x0A] (.ret ()) else .ret ()) := by
    intro h4 l4 g4
    cases nl with
    | true => exact .out _ _ _ (.ret _ _ _ ⟨l4, g4⟩)
    | false => exact .ret _ _ _ ⟨l4, g4⟩
  cases p with
  | none =>
    cases hp3
    exact Follows.step (Mem.text_eq gb3) (Follows.out' (fin h3 lv3 gb3))
  | some p =>
    obtain ⟨np, tp, gp, rfl⟩ := Heap.optAt_some hp3 (a := p) (by simp)
    refine Follows.step (Mem.text_eq gp) (Follows.out' (Follows.step (Mem.free_eq gp) (fin _ ?_ ?_)))
    · exact (lv3.perm (p' := [p, base]) (fun _ => Iff.rfl) (fun x => by simp [or_comm])).free (by simpa using (hpl p (by simp)).2) gp
    · rw [Heap.get_set_ne (Ne.symm (hpl p (by simp)).2)]; exact gb3

theorem inlineLoop_follows {P : Platform} {o : Options} {q : Option Addr} {h0 : Heap} {base : Addr} (hq : SequenceAt h0 q o.sequenceToUse) : ∀ {n : Nat} {s : Bytes} {h : Heap} {k : Nat} {u : Bytes}, Leaves h0 [] h [base] k →
      h.get base = some (.text inlineBufSize u) →
      Follows A N (fun _ h' r => Leaves h0 [] h' [] r) (mInlineLoop A P q base n s h) (inlineLoopLost P o n s (k + 1)) := by
  intro n
  induction n with
  | zero =>
    intro s h k u lv gb
    cases s with
    | nil => exact .ret _ _ _ (lv.drop (by simp) (Heap.textAt_of gb))
    | cons c s => exact .stuck
  | succ n ih =>
    intro s h k u lv gb
    cases s with
    | nil => exact .ret _ _ _ (lv.drop (by simp) (Heap.textAt_of gb))
    | cons c s =>
      unfold mInlineLoop inlineLoopLost
      refine Follows.ofRes fun r hr => ?_
      obtain ⟨t, nl, wn, rest⟩ := r
      simp only
      have hlen := nextChunk_length hr
      refine Follows.step (Mem.putText_eq gb hlen) ?_
      have lv1 : Leaves h0 [] (h.set base (some (.text inlineBufSize t))) [base] k :=
        lv.trans (m := 0) (Leaves.ofSwap (Swap.store (by simp) _))
      have gb1 : Heap.get (h.set base (some (.text inlineBufSize t))) base = some (.text inlineBufSize t) := Heap.get_set_eq (Heap.get_lt gb) _
      generalize h.set base (some (.text inlineBufSize t)) = h1 at *
      have hq1 := (lv1.keeps (by simp)).sequence hq
      have hprint : Follows A N (fun _ h' r => Leaves h0 [] h' [] r) ((mPrintChunk A P q base nl >>= fun _ => mInlineLoop A P q base n rest) h1)
          ((Prog.ofRes (sequenceRunFilters P o.sequenceToUse (if isProtected t then none else some t))).bind fun hold =>
            .out (match hold with | some w => w | none => t)
              (if nl then .out [0x0A] (inlineLoopLost P o n rest (k + 1 + if isProtected t then 1 else 0))
                else inlineLoopLost P o n rest (k + 1 + if isProtected t then 1 else 0))) := by
        have := Follows.bind (f := fun _ => mInlineLoop A P q base n rest)
          (g := fun _ => inlineLoopLost P o n rest (k + 1 + if isProtected t then 1 else 0)) (Q := fun _ h' r => Leaves h0 [] h' [] r)
          (printChunk_follows (A := A) (N := N) (P := P) (nl := nl) hq1 lv1 gb1) (by
            rintro _ h2 _ ⟨lv2, gb2⟩
            have := ih (s := rest) lv2 gb2
            rw [show k + (if isProtected t = true then 1 else 0) + 1 = k + 1 + (if isProtected t = true then 1 else 0) by omega] at this
            exact this)
        rw [Prog.bind_assoc] at this
        cases nl <;> exact this
      cases wn with
      | true => exact Follows.err' hprint
      | false => exact hprint

theorem parseInline_follows {P : Platform} {o : Options} {q p : Option Addr} {h : Heap} {f : Option Bytes} (hq : SequenceAt h q o.sequenceToUse)
    (hf : h.optAt p = some f) : Follows A N (fun _ h' r => Leaves h [] h' [] r) (mParseInline A P q p h) (parseInlineLost P o f) := by
  unfold mParseInline parseInlineLost
  refine Follows.step (readOpt_eq hf) (Follows.slurp' fun r => ?_)
  cases r with
  | none => exact .err _ _ _ (.ret _ _ _ (Leaves.ofSwap (Swap.refl _ _)))
  | some s =>
    refine Follows.malloc ?_
    exact inlineLoop_follows hq (k := 0) (Leaves.ofSwap (Swap.malloc h [] _)) (Heap.get_new h _)

theorem inlineArg_follows {P : Platform} {o : Options} {q : Option Addr} {h : Heap} {a : Addr} {s : Bytes} (hq : SequenceAt h q o.sequenceToUse)
    (hs : h.textAt a = some s) : Follows A N (fun _ h' r => Leaves h [] h' [] r) (mInlineArg A P q a h) (inlineArgLost P o s) := by
  obtain ⟨n, g⟩ := Heap.textAt_get hs
  unfold mInlineArg inlineArgLost
  refine Follows.step (Mem.text_eq g) (Follows.lstat' fun r => ?_)
  cases r with
  | none => exact .err _ _ _ (.ret _ _ _ (Leaves.ofSwap (Swap.refl _ _)))
  | some st =>
    simp only
    by_cases hk : st.kind = .dir
    · rw [if_pos hk, if_pos hk]; exact .err _ _ _ (.ret _ _ _ (Leaves.ofSwap (Swap.refl _ _)))
    · rw [if_neg hk, if_neg hk]
      exact parseInline_follows hq (by simp only [Heap.optAt, hs]; rfl)

theorem inlineFileLoop_follows {P : Platform} {o : Options} {q : Option Addr} {a : Addr} {bs : List Addr} {h0 : Heap} :
    ∀ {n : Nat} {h : Heap} {l : Filelist} {k : Nat}, SequenceAt h q o.sequenceToUse → OptListAt h (some a) bs (some l) → Leaves h0 [a] h [a] k →
      Follows A N (fun _ h' r => Leaves h0 [a] h' [a] r ∧ ∃ l, OptListAt h' (some a) bs l) (mInlineFileLoop A P q (some a) n h)
        (inlineFileLoopLost P o n l k)
  | 0, _, _, _, _, _, _ => .stuck
  | n + 1, h, l, k, hq, hl, lv => by
    obtain ⟨p, h1, l1, w, e1, e2, ho, hl1, s1, _⟩ := filelistGet_follows hl
    unfold mInlineFileLoop inlineFileLoopLost
    rw [e2]
    refine Follows.step e1 ?_
    have hq1 := (s1.keeps hl.moving).sequence hq
    have lv1 := lv.trans (Leaves.ofSwap s1)
    cases p with
    | none => cases ho; exact .ret _ _ _ ⟨lv1, _, hl1⟩
    | some p =>
      obtain ⟨np, tp, gp, rfl⟩ := Heap.optAt_some ho (a := p) (by simp)
      change Follows A N _ _ ((inlineArgLost P o tp).bind fun r => inlineFileLoopLost P o n l1 (k + r))
      refine Follows.bind (inlineArg_follows hq1 (Heap.textAt_of gp)) ?_
      intro _ h2 r lv2
      obtain ⟨b, gb, _⟩ := hl1.live a (by simp)
      exact inlineFileLoop_follows ((lv2.keeps (by simp)).sequence hq1) (hl1.leaves lv2 (by simp) (by simp))
        (lv1.trans ((lv2.frame (f := [a]) (fun x hx => by cases (List.mem_singleton.1 hx : x = a); exact ⟨Heap.get_lt gb, by simp⟩))))

/-! ### The files -/

theorem processArg_follows {P : Platform} {o : Options} {q p : Option Addr} {bs : List Addr} {h : Heap} {ign : Option Filelist} {a : Addr} {s : Bytes}
    (fuel : Nat) (hq : SequenceAt h q o.sequenceToUse) (hl : OptListAt h p bs ign) (hs : h.textAt a = some s) :
    Follows A N (fun _ h' r => OptListAt h' p bs r.1 ∧ Leaves h p.toList h' p.toList r.2) (mProcessArg A P o q p fuel a h)
      (processArgLost P o fuel ign s) := by
  obtain ⟨n, g⟩ := Heap.textAt_get hs
  have hpl : ∀ x, x ∈ p.toList → x < h.length := fun x hx => by obtain ⟨b, hb, _⟩ := hl.live x hx; exact Heap.get_lt hb
  have hbl : ∀ x, x ∈ bs → x < h.length := fun x hx => by obtain ⟨b, hb, _⟩ := hl.still x hx; exact Heap.get_lt hb
  have after : ∀ (w : Addr) (h1 : Heap) (t : Bytes) (k : Nat), h1.textAt w = some t → Leaves h [] h1 [w] k →
      OptListAt h1 p bs ign ∧ Leaves h p.toList h1 (w :: p.toList) k ∧ w ∉ p.toList ∧ h.length ≤ w := by
    intro w h1 t k tw l1
    have hw : h.length ≤ w := by
      rcases l1.source w (by simp) with h' | h'
      · cases h'
      · exact h'
    exact ⟨hl.leaves l1 (by simp) (by simp), (l1.frame (f := p.toList) (fun x hx => ⟨hpl x hx, by simp⟩)).perm (fun x => by simp) (fun x => by simp),
      fun hc => by have := hpl w hc; omega, hw⟩
  -- a file: the path is lost
  have file : Follows A N (fun _ h' r => OptListAt h' p bs r.1 ∧ Leaves h p.toList h' p.toList r.2)
      ((mParseFile A P o q a >>= fun _ => pure ()) h) ((parseFile P o s).bind fun _ => .ret (ign, fileLeaks P o s + 1)) := by
    refine Follows.bind (parseFile_follows hq hs) ?_
    rintro w h1 t ⟨tw, l1⟩
    obtain ⟨hl1, lv1, hw, _⟩ := after w h1 t _ tw l1
    exact .ret _ _ _ ⟨hl1, lv1.drop hw tw⟩
  have body : Follows A N (fun _ h' r => OptListAt h' p bs r.1 ∧ Leaves h p.toList h' p.toList r.2)
      ((Mem.lstat s >>= fun r => match r with
        | none => Mem.err (s ++ lit ": ")
        | some st =>
          if st.kind = .dir then do
            let work ← mParseFile A P o q a
            mParseDir A P o q p fuel work
            Mem.free work
          else if st.kind = .reg then do
            let _ ← mParseFile A P o q a
            pure ()
          else if o.special then do
            let _ ← mParseFile A P o q a
            pure ()
          else pure ()) h)
      (.lstat s fun r =>
        match r with
        | none => .err (s ++ lit ": ") (.ret (ign, 0))
        | some st =>
          if st.kind = .dir then
            (parseFile P o s).bind fun work => (parseDirLost P o fuel ign work).bind fun r => .ret (r.1, fileLeaks P o s + r.2)
          else if st.kind = .reg then (parseFile P o s).bind fun _ => .ret (ign, fileLeaks P o s + 1)
          else if o.special then (parseFile P o s).bind fun _ => .ret (ign, fileLeaks P o s + 1)
          else .ret (ign, 0)) := by
    refine Follows.lstat' fun r => ?_
    cases r with
    | none => exact .err _ _ _ (.ret _ _ _ ⟨hl, Leaves.ofSwap (Swap.refl _ _)⟩)
    | some st =>
      simp only
      by_cases hk : st.kind = .dir
      · rw [if_pos hk, if_pos hk]
        refine Follows.bind (parseFile_follows hq hs) ?_
        rintro w h1 t ⟨tw, l1⟩
        obtain ⟨hl1, lv1, hw, hwl⟩ := after w h1 t _ tw l1
        obtain ⟨nw, gw⟩ := Heap.textAt_get tw
        refine Follows.bind (parseDir_follows fuel h1 w t ign ((l1.keeps (by simp)).sequence hq) tw hl1) ?_
        rintro _ h2 r ⟨hl2, lv2⟩
        have gw2 := lv2.keeps hl1.moving _ _ gw rfl
        rw [Mem.free_eq gw2]
        refine .ret _ _ _ ⟨?_, ?_⟩
        · refine hl2.congr (fun x hx => Heap.get_set_ne (fun (e : x = w) => hw (e ▸ hx)) _) (fun x hx => Heap.get_set_ne (fun (e : x = w) => ?_) _)
          have := hbl x hx; omega
        · refine (lv1.trans ((lv2.frame (f := [w]) (fun x hx => ?_)).perm (fun x => ?_) (fun x => ?_))).free hw gw2
          · cases (List.mem_singleton.1 hx : x = w); exact ⟨Heap.get_lt gw, hw⟩
          · simp [or_comm]
          · simp [or_comm]
      · rw [if_neg hk, if_neg hk]
        by_cases hr : st.kind = .reg
        · rw [if_pos hr, if_pos hr]; exact file
        · rw [if_neg hr, if_neg hr]
          by_cases hsp : o.special = true
          · rw [if_pos hsp, if_pos hsp]; exact file
          · rw [if_neg hsp, if_neg hsp]; exact .ret _ _ _ ⟨hl, Leaves.ofSwap (Swap.refl _ _)⟩
  unfold mProcessArg processArgLost
  refine Follows.step (Mem.text_eq g) ?_
  by_cases hv : o.verbose ≠ 0
  · simp only [if_pos hv]
    exact Follows.out' body
  · simp only [if_neg hv]
    exact body

theorem fileLoop_follows {P : Platform} {o : Options} {q p : Option Addr} {a : Addr} {bf bs : List Addr} (fuel : Nat) {h0 : Heap} (ha : a ∉ p.toList) :
    ∀ {n : Nat} {h : Heap} {l : Filelist} {ign : Option Filelist} {k : Nat}, SequenceAt h q o.sequenceToUse → OptListAt h (some a) bf (some l) →
      OptListAt h p bs ign → Leaves h0 (a :: p.toList) h (a :: p.toList) k →
      Follows A N (fun _ h' r => Leaves h0 (a :: p.toList) h' (a :: p.toList) r ∧ (∃ l, OptListAt h' (some a) bf l) ∧ ∃ l, OptListAt h' p bs l)
        (mFileLoop A P o q p (some a) fuel n h) (fileLoopLost P o fuel n l ign k)
  | 0, _, _, _, _, _, _, _, _ => .stuck
  | n + 1, h, l, ign, k, hq, hl, hi, lv => by
    obtain ⟨w, h1, l1, v, e1, e2, ho, hl1, s1, _⟩ := filelistGet_follows hl
    unfold mFileLoop fileLoopLost
    rw [e2]
    refine Follows.step e1 ?_
    have hq1 := (s1.keeps hl.moving).sequence hq
    obtain ⟨b, gb, hfix⟩ := hl.live a (by simp)
    have hpl : ∀ x, x ∈ p.toList → x < h.length := fun x hx => by obtain ⟨b, hb, _⟩ := hi.live x hx; exact Heap.get_lt hb
    have hi1 : OptListAt h1 p bs ign := hi.swap s1 (fun x hx hc => by cases (List.mem_singleton.1 hc : x = a); exact ha hx)
      (fun x hx hc => by
        cases (List.mem_singleton.1 hc : x = a)
        obtain ⟨c, gc, hc⟩ := hi.still _ hx
        rw [gb] at gc; cases gc; rw [hfix] at hc; cases hc)
    have lv1 : Leaves h0 (a :: p.toList) h1 (a :: p.toList) k :=
      lv.trans (m := 0) (((Leaves.ofSwap s1).frame (f := p.toList) (fun x hx => ⟨hpl x hx, fun hc => by
        cases (List.mem_singleton.1 hc : x = a); exact ha hx⟩)).perm (fun x => by simp) (fun x => by simp))
    cases w with
    | none => cases ho; exact .ret _ _ _ ⟨lv1, ⟨_, hl1⟩, _, hi1⟩
    | some w =>
      obtain ⟨np, tp, gp, rfl⟩ := Heap.optAt_some ho (a := w) (by simp)
      change Follows A N _ _ ((processArgLost P o fuel ign tp).bind fun r => fileLoopLost P o fuel n l1 r.1 (k + r.2))
      refine Follows.bind (processArg_follows fuel hq1 hi1 (Heap.textAt_of gp)) ?_
      rintro _ h2 r ⟨hi2, lv2⟩
      obtain ⟨b1, gb1, hfix1⟩ := hl1.live a (by simp)
      refine fileLoop_follows fuel ha ((lv2.keeps hi1.moving).sequence hq1) (hl1.leaves lv2 (fun x hx hc => ?_) (fun x hx hc => ?_)) hi2
        (lv1.trans ((lv2.frame (f := [a]) (fun x hx => ?_)).perm (fun x => ?_) (fun x => ?_)))
      · cases (List.mem_singleton.1 hx : x = a); exact ha hc
      · obtain ⟨c, gc, hc1⟩ := hl1.still x hx
        obtain ⟨d, gd, hd1⟩ := hi1.live x hc
        rw [gc] at gd; cases gd; rw [hc1] at hd1; cases hd1
      · cases (List.mem_singleton.1 hx : x = a); exact ⟨Heap.get_lt gb1, ha⟩
      · simp [or_comm]
      · simp [or_comm]

/-- The work of detox with pointers: what it prints, what it calls, and how many strings it loses. -/
theorem detoxWork_follows {P : Platform} {o : Options} {q p f : Option Addr} {bf bs : List Addr} (fuel : Nat) {h : Heap}
    (hq : SequenceAt h q o.sequenceToUse) (hl : OptListAt h f bf o.files) (hi : OptListAt h p bs o.filesToIgnore)
    (hd : ∀ x, x ∈ f.toList → x ∉ p.toList) :
    Follows A N (fun _ h' r => Leaves h (f.toList ++ p.toList) h' (f.toList ++ p.toList) r ∧ (∃ l, OptListAt h' f bf l) ∧ ∃ l, OptListAt h' p bs l)
      (mDetoxWork A P o q p f fuel h) (detoxWorkLost P o fuel) := by
  have hpl : ∀ x, x ∈ p.toList → x < h.length := fun x hx => by obtain ⟨b, hb, _⟩ := hi.live x hx; exact Heap.get_lt hb
  have hfl : ∀ x, x ∈ f.toList → x < h.length := fun x hx => by obtain ⟨b, hb, _⟩ := hl.live x hx; exact Heap.get_lt hb
  have inl : Follows A N (fun _ h' r => Leaves h (f.toList ++ p.toList) h' (f.toList ++ p.toList) r ∧ (∃ l, OptListAt h' f bf l) ∧ ∃ l, OptListAt h' p bs l)
      (mParseInline A P q none h) (parseInlineLost P o none) := by
    refine (parseInline_follows hq (by rfl)).mono fun _ h' r lv => ⟨?_, ⟨_, hl.leaves lv (by simp) (by simp)⟩, _, hi.leaves lv (by simp) (by simp)⟩
    refine (lv.frame (f := f.toList ++ p.toList) (fun x hx => ⟨?_, by simp⟩)).perm (fun x => by simp) (fun x => by simp)
    rcases List.mem_append.1 hx with hx | hx
    · exact hfl x hx
    · exact hpl x hx
  unfold mDetoxWork detoxWorkLost
  refine Follows.step (filelistCount_opt hl) ?_
  cases f with
  | none =>
    cases hof : o.files with
    | some l => rw [hof] at hl; cases hl
    | none =>
      by_cases hm : o.isInlineMode = true
      · rw [if_pos hm, if_pos hm]
        exact inl
      · rw [if_neg hm, if_neg hm]
        exact .ret _ _ _ ⟨Leaves.ofSwap (Swap.refl _ _), ⟨_, hl⟩, _, hi⟩
  | some a =>
    cases hof : o.files with
    | none => rw [hof] at hl; cases hl
    | some l =>
      rw [hof] at hl
      have hap := hd a (by simp)
      by_cases hm : o.isInlineMode = true
      · rw [if_pos hm, if_pos hm]
        simp only
        by_cases hc : filelistCount (some l) > 0
        · rw [if_pos hc, if_pos hc]
          refine (inlineFileLoop_follows (h0 := h) (k := 0) hq hl (Leaves.ofSwap (Swap.refl _ _))).mono ?_
          rintro _ h' r ⟨lv, l'⟩
          refine ⟨lv.frame (fun x hx => ⟨hpl x hx, fun hc => by cases (List.mem_singleton.1 hc : x = a); exact hap hx⟩), l', _,
            hi.leaves lv (fun x hx hc => by cases (List.mem_singleton.1 hc : x = a); exact hap hx) (fun x hx hc => ?_)⟩
          cases (List.mem_singleton.1 hc : x = a)
          obtain ⟨b, gb, hb⟩ := hl.live a (by simp)
          obtain ⟨c, gc, hc⟩ := hi.still a hx
          rw [gb] at gc; cases gc; rw [hb] at hc; cases hc
        · rw [if_neg hc, if_neg hc]
          exact inl
      · rw [if_neg hm, if_neg hm]
        exact fileLoop_follows (h0 := h) fuel hap hq hl hi (Leaves.ofSwap (Swap.refl _ _))

end

end Detox
