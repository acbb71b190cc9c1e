import Verif.Lemmas.Concurrent
import Verif.Props.ScanRun

/-!
# Interleaved runs over files
-/

set_option autoImplicit false

namespace Detox
open Spec

/-! ### Interleavings -/

theorem Careful.undisturbed_all {fair : Prop} {T1 T2 : Ino → Bytes → Prop} {t2 : List Event} : ∀ {t1 : List Event} {fs fs1 : FS}, Disjoint fs T1 T2 → fs.Unique →
    Careful fair T1 fs t1 → StepsBy fair fs t1 fs1 → Careful fair T2 fs t2 → Careful fair T2 fs1 t2
  | [], _, _, _, _, _, hs, h => by cases hs; exact h
  | _ :: _, _, _, hd, hu, hc, hs, h => by
    cases hs with
    | cons _ y _ _ _ h1 h2 =>
      obtain ⟨hf, hc'⟩ := hc.2 _ h1
      have u := step_leavesAlone hd hu hc.1 hf h1
      exact Careful.undisturbed_all (hd.of_norm u.norm) u.uniq hc' h2 (h.undisturbed hd hu hc.1 hf h1)

/-- A process: its part of the file system, and its calls. -/
abbrev Proc := (Ino → Bytes → Prop) × List Event

/-- The parts of all of them together. -/
def together (ps : List Proc) (d : Ino) (n : Bytes) : Prop := ∃ p ∈ ps, p.1 d n

structure AllCareful (fair : Prop) (fs : FS) (ps : List Proc) : Prop where
  uniq : fs.Unique
  disjoint : ps.Pairwise fun p q => Disjoint fs p.1 q.1
  careful : ∀ p ∈ ps, Careful fair p.1 fs p.2

theorem AllCareful.apart {fair : Prop} {fs : FS} {l r : List Proc} {p : Proc} (h : AllCareful fair fs (l ++ p :: r)) :
    (∀ q ∈ l, Disjoint fs p.1 q.1) ∧ ∀ q ∈ r, Disjoint fs p.1 q.1 := by
  obtain ⟨_, h2, h3⟩ := List.pairwise_append.1 h.disjoint
  exact ⟨fun q hq => (h3 q hq p (by simp)).symm, (List.pairwise_cons.1 h2).1⟩

/-- One after the other, they keep to their parts. -/
theorem AllCareful.flat {fair : Prop} : ∀ {ps : List Proc} {fs : FS}, AllCareful fair fs ps → Careful fair (together ps) fs (ps.flatMap (·.2))
  | [], _, _ => trivial
  | p :: ps, fs, h => by
    obtain ⟨h1, h2⟩ := List.pairwise_cons.1 h.disjoint
    rw [List.flatMap_cons]
    refine ((h.careful p (by simp)).mono (fun d n hp => ⟨p, by simp, hp⟩)).append fun fs1 hs => ?_
    have hc := h.careful p (by simp)
    have u : LeavesAlone (fun _ _ => False) fs fs1 := hc.leavesAlone (fun d n n' _ h => h.elim) h.uniq hs
    refine Careful.mono (T := together ps) (fun d n ⟨q, hq, hqd⟩ => ⟨q, by simp [hq], hqd⟩) (AllCareful.flat ⟨u.uniq, ?_, fun q hq => ?_⟩)
    · exact h2.imp fun hd => hd.of_norm u.norm
    · exact Careful.undisturbed_all (h1 q hq) h.uniq hc hs (h.careful q (by simp [hq]))

/-- One of them makes its next call. -/
theorem AllCareful.step {fair : Prop} {l r : List Proc} {T : Ino → Bytes → Prop} {e : Event} {t : List Event} {fs fs1 : FS}
    (h : AllCareful fair fs (l ++ (T, e :: t) :: r)) (hs : StepBy fair fs e fs1) : AllCareful fair fs1 (l ++ (T, t) :: r) := by
  have hc := h.careful (T, e :: t) (by simp)
  obtain ⟨hf, hc'⟩ := hc.2 _ hs
  have u : LeavesAlone (fun _ _ => False) fs fs1 := step_leavesAlone (fun d n n' _ h => h.elim) h.uniq hc.1 hf hs
  refine ⟨u.uniq, ?_, fun q hq => ?_⟩
  · have : (l ++ (T, t) :: r).map (·.1) = (l ++ (T, e :: t) :: r).map (·.1) := by simp
    have h2 := h.disjoint
    rw [← List.pairwise_map (f := fun p : Proc => p.1) (R := fun a b => Disjoint fs a b)] at h2
    rw [← List.pairwise_map (f := fun p : Proc => p.1) (R := fun a b => Disjoint fs1 a b), this]
    exact h2.imp fun hd => hd.of_norm u.norm
  · simp only [List.mem_append, List.mem_cons] at hq
    rcases hq with hq | rfl | hq
    · exact (h.careful q (by simp [hq])).undisturbed (h.apart.1 q hq) h.uniq hc.1 hf hs
    · exact hc'
    · exact (h.careful q (by simp [hq])).undisturbed (h.apart.2 q hq) h.uniq hc.1 hf hs

/-- Interleaved, they keep to their parts as well. -/
theorem AllCareful.mixed {fair : Prop} {ts : List (List Event)} {m : List Event} (hi : Interleaved ts m) : ∀ {ps : List Proc} {fs : FS}, ps.map (·.2) = ts →
    AllCareful fair fs ps → Careful fair (together ps) fs m := by
  induction hi with
  | done => intro _ _ _ _; trivial
  | next l r e t m _ ih =>
    intro ps fs hps h
    obtain ⟨l', x, rfl, rfl, hx⟩ := List.map_eq_append_iff.1 hps
    obtain ⟨⟨T, t'⟩, r', rfl, ht, rfl⟩ := List.map_eq_cons_iff.1 hx
    dsimp only at ht
    subst ht
    have hc := h.careful (T, e :: t) (by simp)
    have he : ∀ d n, together (l' ++ (T, t) :: r') d n → together (l' ++ (T, e :: t) :: r') d n := by
      rintro d n ⟨q, hq, hqd⟩
      simp only [List.mem_append, List.mem_cons] at hq
      rcases hq with hq | rfl | hq
      · exact ⟨q, by simp [hq], hqd⟩
      · exact ⟨(T, e :: t), by simp, hqd⟩
      · exact ⟨q, by simp [hq], hqd⟩
    have hone : Careful fair T fs [e] := ⟨hc.1, fun fs1 hs => ⟨(hc.2 fs1 hs).1, trivial⟩⟩
    have := hone.mono (T' := together (l' ++ (T, e :: t) :: r')) fun d n hp => ⟨(T, e :: t), by simp, hp⟩
    refine ⟨this.1, fun fs1 hs => ⟨(hc.2 fs1 hs).1, (ih (by simp) (h.step hs)).mono he⟩⟩

/-- **The calls might as well be made one process after the other.** -/
theorem AllCareful.serial {fair : Prop} {ts : List (List Event)} {m : List Event} (hi : Interleaved ts m) : ∀ {ps : List Proc} {fs fs' : FS}, ps.map (·.2) = ts →
    AllCareful fair fs ps → StepsBy fair fs m fs' → StepsBy fair fs (ps.flatMap (·.2)) fs' := by
  induction hi with
  | done ts h0 =>
    intro ps fs fs' hps _ hs
    have : ps.flatMap (·.2) = [] := by
      rw [List.flatMap_eq_nil_iff]
      intro p hp
      exact h0 p.2 (by rw [← hps]; exact List.mem_map.2 ⟨p, hp, rfl⟩)
    rw [this]
    exact hs
  | next l r e t m _ ih =>
    intro ps fs fs' hps h hs
    obtain ⟨l', x, rfl, rfl, hx⟩ := List.map_eq_append_iff.1 hps
    obtain ⟨⟨T, t'⟩, r', rfl, ht, rfl⟩ := List.map_eq_cons_iff.1 hx
    dsimp only at ht
    subst ht
    have hc := h.careful (T, e :: t) (by simp)
    cases hs with
    | cons _ fs1 _ _ _ h1 h2 =>
    obtain ⟨hf, hc'⟩ := hc.2 _ h1
    have h3 := ih (by simp) (h.step h1) h2
    rw [List.flatMap_append, List.flatMap_cons] at h3 ⊢
    obtain ⟨y, h4, h5⟩ := h3.append_inv
    have hl : AllCareful fair fs l' := ⟨h.uniq, (List.pairwise_append.1 h.disjoint).1, fun p hp => h.careful p (by simp [hp])⟩
    have hd : Disjoint fs T (together l') := by
      rintro d n n' h1 ⟨q, hq, h2⟩
      exact h.apart.1 q hq d n n' h1 h2
    obtain ⟨z, hz1, hz2⟩ := Careful.pass hd h.uniq hc.1 hf h1 hl.flat h4
    exact hz1.append (.cons _ _ _ _ _ hz2 h5)

theorem interleaved_perm {ts : List (List Event)} {m : List Event} (hi : Interleaved ts m) : ∀ {ts' : List (List Event)}, ts'.Perm ts → Interleaved ts' m := by
  induction hi with
  | done ts h => intro ts' hp; exact .done _ fun t ht => h t (hp.mem_iff.1 ht)
  | next l r e t m _ ih =>
    intro ts' hp
    obtain ⟨l', r', rfl⟩ := List.append_of_mem (hp.mem_iff.2 (by simp : (e :: t) ∈ l ++ (e :: t) :: r))
    have h1 : (l' ++ r').Perm (l ++ r) := by
      have := (List.perm_middle.symm.trans hp).trans List.perm_middle
      exact this.cons_inv
    exact .next _ _ _ _ _ (ih ((List.perm_middle.trans (h1.cons t)).trans List.perm_middle.symm))

/-! ### Runs over files -/

/-- The part `T` is where the files are, and where they should be. -/
structure Territory (R : Bytes → Bytes → Prop) (args : List Bytes) (T : Ino → Bytes → Prop) (fs : FS) : Prop where
  uniq : fs.Unique
  cover : ∀ f ∈ args, ∀ p, Concerns R f p → ∀ d n, fs.locate p = some (d, n) → T d n
  reg : ∀ f ∈ args, ∀ i, fs.lookup f = some i → fs.kind i = .reg

theorem Territory.step {fair : Prop} {R : Bytes → Bytes → Prop} {args : List Bytes} {T : Ino → Bytes → Prop} {fs fs1 : FS} (h : Territory R args T fs) {a : Event}
    (hl : Local T fs a) (hf : Free fs a) (hs : StepBy fair fs a fs1) : Territory R args T fs1 := by
  cases hs.1 with
  | renamed old new _ hr =>
    obtain ⟨d1, n1, d2, n2, e, hm, rfl⟩ := rename_moves hl hf hr
    obtain ⟨M, U⟩ := fileMoved_move h.uniq hm.here hm.there (by rw [hm.reg]; simp)
    refine ⟨U, fun f hf p hp d n hd => h.cover f hf p hp d n (by rw [← M.locate]; exact hd), fun f hf i hi => ?_⟩
    show fs.kind i = .reg
    have hreg := h.reg f hf
    by_cases hsl : endsInSlash f = true
    · have : fs.lookup f = some i := by
        unfold FS.lookup at hi ⊢
        split at hi
        · cases hi
        · next h0 =>
          rw [if_neg h0, if_pos hsl]
          split at hi
          · cases hi
          · next j hj =>
            split at hi
            · next hk =>
              cases hi
              rw [show fs.walk walkLimit (fs.start fs.cwd f) (comps f) = some i from M.symm.walk _ _ _ _ hj hk]
              exact if_pos hk
            · cases hi
      exact hreg i this
    · have hsl : endsInSlash f = false := by simpa using hsl
      by_cases hb : ∃ d n, fs.locate f = some (d, n) ∧ ((d = d1 ∧ fs.norm d n = fs.norm d n1) ∨ (d = d2 ∧ fs.norm d n = fs.norm d n2))
      · obtain ⟨d, n, hd, hbad⟩ := hb
        rw [FS_lookup_locate (by rw [M.locate]; exact hd) hsl] at hi
        rcases (M.here d n hbad).2 with h | h
        · rw [h] at hi; cases hi
        · rw [h] at hi; cases hi; exact hm.reg
      · refine hreg i (M.symm.lookup_some (fun d n hd hbad => hb ⟨d, n, ?_, hbad⟩) hi)
        rw [← M.locate]; exact hd
  | _ => exact h

theorem Careful.keeps {fair : Prop} {R : Bytes → Bytes → Prop} {args : List Bytes} {T : Ino → Bytes → Prop} : ∀ {t : List Event} {fs fs1 : FS}, Careful fair T fs t →
    Territory R args T fs → StepsBy fair fs t fs1 → Territory R args T fs1
  | [], _, _, _, h, hs => by cases hs; exact h
  | _ :: _, _, _, hc, h, hs => by
    cases hs with
    | cons _ _ _ _ _ h1 h2 => exact (hc.2 _ h1).2.keeps (h.step hc.1 (hc.2 _ h1).1 h1) h2

theorem careful_lstat {fair : Prop} {T : Ino → Bytes → Prop} {fs : FS} {p : Bytes} {r : Option Stat} {t : List Event} (h1 : ∀ d n, fs.locate p = some (d, n) → T d n)
    (h2 : fs.lstat p = r → Careful fair T fs t) : Careful fair T fs (.lstat p r :: t) := by
  refine ⟨h1, fun fs1 hs => ⟨trivial, ?_⟩⟩
  cases hs.1 with
  | lstat _ _ h => exact h2 h

theorem careful_out {fair : Prop} {T : Ino → Bytes → Prop} {fs : FS} {s : Bytes} {t : List Event} (h : Careful fair T fs t) : Careful fair T fs (.out s :: t) := by
  refine ⟨trivial, fun fs1 hs => ⟨trivial, ?_⟩⟩
  cases hs.1 with
  | out => exact h

theorem careful_err {fair : Prop} {T : Ino → Bytes → Prop} {fs : FS} {s : Bytes} {t : List Event} (h : Careful fair T fs t) : Careful fair T fs (.err s :: t) := by
  refine ⟨trivial, fun fs1 hs => ⟨trivial, ?_⟩⟩
  cases hs.1 with
  | err => exact h

theorem lookup_reg_no_slash {fs : FS} {f : Bytes} {i : Ino} (h : fs.lookup f = some i) (hk : fs.kind i = .reg) : endsInSlash f = false := by
  cases he : endsInSlash f with
  | false => rfl
  | true =>
    unfold FS.lookup at h
    split at h
    · cases h
    · split at h
      · cases h
      · split at h
        · next hd => cases h; rw [hk] at hd; cases hd
        · cases h

/-- The rename that comes after the checks. -/
theorem careful_rename {fair : Prop} {R : Bytes → Bytes → Prop} {args : List Bytes} {T : Ino → Bytes → Prop} {fs : FS} (h : Territory R args T fs) {f : Bytes}
    (hf : f ∈ args) {dir name w : Bytes} (a1 : SplitsAs f dir name) (a4 : R name w) {so : Stat} {rn : Option Stat} (e1 : fs.lstat f = some so)
    (e2 : fs.lstat (dir ++ w) = rn) (a6 : ∀ sn, rn = some sn → sn.dev = so.dev ∧ sn.ino = so.ino ∧ so.nlink ≤ 1) (ok : Bool) :
    Careful fair T fs [.rename f (dir ++ w) ok] := by
  obtain ⟨i, hi, hd, hin⟩ := FS_lstat_some e1
  have hik := h.reg f hf i hi
  have hend := lookup_reg_no_slash hi hik
  refine ⟨⟨hend, fun d n hd => ⟨h.cover f hf f (.inl rfl) d n hd, fun e he => ?_⟩, fun d n hd => h.cover f hf _ (.inr ⟨dir, name, w, a1, a4, rfl⟩) d n hd⟩,
    fun fs1 hs => ⟨?_, trivial⟩⟩
  · have := FS_lookup_locate hd hend
    rw [he] at this
    exact h.reg f hf _ this
  · cases hs.1 with
    | renameFailed => trivial
    | renamed _ _ _ hr =>
    intro d1 n1 e d2 n2 l1 l3 l2
    obtain ⟨d1', n1', d2', n2', e', l1', l2', l3', l4⟩ := FS_guarded_rename hend e1 e2 a6 hr
    rw [l1] at l1'
    rw [l2] at l2'
    cases l1'
    cases l2'
    rw [l3] at l3'
    cases l3'
    rcases l4 with ⟨q, _⟩ | ⟨q, _⟩ | ⟨e2', q1, q2, q3, _⟩
    · exact .inl q
    · exact .inr q
    · exfalso
      have hlook : fs.lookup f = some e.ino := by rw [FS_lookup_locate l1 hend, l3]; rfl
      have hk : fs.kind e.ino = .reg := h.reg f hf _ hlook
      have hend' : endsInSlash (dir ++ w) = false := by
        cases hx : endsInSlash (dir ++ w) with
        | false => rfl
        | true =>
          have : fs.rename f (dir ++ w) = none := by
            unfold FS.rename
            rw [l1, l2]
            dsimp only
            rw [l3]
            dsimp only
            rw [if_neg (by simp [hend]), if_pos ⟨hx, by rw [hk]; simp⟩]
          rw [this] at hr
          cases hr
      have hlnew : fs.lookup (dir ++ w) = (fs.find d2 n2).map Entry.ino := FS_lookup_locate l2 hend'
      obtain ⟨sn, hsn, _⟩ := FS_lstat_lookup (hlnew.trans (by rw [q1]; rfl))
      have h1 := (a6 sn (e2.symm.trans hsn)).2.2
      have hso : so.nlink = fs.names e.ino := by
        unfold FS.lstat at e1
        rw [hlook] at e1
        cases e1
        dsimp only
        rw [if_neg (by rw [hk]; simp)]
      rw [hso] at h1
      have h2 := names_two (FS_find_some l3).1 (FS_find_some q1).1 (fun h => q2 h.symm) q3.symm
      omega

theorem arg_careful {fair : Prop} {R : Bytes → Bytes → Prop} {args : List Bytes} {T : Ino → Bytes → Prop} {fs : FS} (h : Territory R args T fs) {f : Bytes} (hf : f ∈ args)
    {o : Options} {ws seen seen' : List Bytes} {t : List Event} (hs : ArgScanBy R o ws f seen t seen') : Careful fair T fs t := by
  have hT : ∀ d n, fs.locate f = some (d, n) → T d n := h.cover f hf f (.inl rfl)
  have hT' : ∀ {dir name w : Bytes}, SplitsAs f dir name → R name w → ∀ d n, fs.locate (dir ++ w) = some (d, n) → T d n :=
    fun a b => h.cover f hf _ (.inr ⟨_, _, _, a, b, rfl⟩)
  have said : ∀ {s : Bytes} {t : List Event}, Careful fair T fs t → Careful fair T fs ((if o.verbose = 0 then [] else [.out s]) ++ t) := by
    intro s t ht
    split
    · exact ht
    · exact careful_out ht
  cases hs with
  | missing => exact careful_lstat hT fun _ => careful_err trivial
  | leave st _ h1 h2 h3 => exact careful_lstat hT fun _ => trivial
  | dir st _ _ mid sub p h1 =>
    refine careful_lstat hT fun e => ?_
    obtain ⟨i, hi, _⟩ := FS_lstat_some e
    have := h.reg f hf i hi
    unfold FS.lstat at e
    rw [hi] at e
    cases e
    dsimp only at h1
    rw [this] at h1
    cases h1
  | file st _ mid p h1 h2 =>
    refine careful_lstat hT fun _ => ?_
    cases h2 with
    | clean => trivial
    | gone => exact careful_lstat hT fun _ => trivial
    | refused dir name w so sn a1 a2 a3 a4 => exact careful_lstat hT fun _ => careful_lstat (hT' a1 a4) fun _ => careful_err trivial
    | dry dir name w so sn a1 a2 a3 a4 => exact careful_lstat hT fun _ => careful_lstat (hT' a1 a4) fun _ => careful_out trivial
    | renamed dir name w so rn a1 a2 a3 a4 a5 a6 a7 =>
      refine careful_lstat hT fun e1 => careful_lstat (hT' a1 a4) fun e2 => ?_
      exact said (careful_rename h hf a1 a4 e1 e2 a6 true)
    | failed dir name w so rn a1 a2 a3 a4 a5 a6 a7 =>
      refine careful_lstat hT fun e1 => careful_lstat (hT' a1 a4) fun e2 => ?_
      refine said (Careful.append (t1 := [.rename f (dir ++ w) false]) (careful_rename h hf a1 a4 e1 e2 a6 false) fun fs1 _ => ?_)
      exact careful_err trivial

theorem args_careful {fair : Prop} {R : Bytes → Bytes → Prop} {all : List Bytes} {T : Ino → Bytes → Prop} {o : Options} {ws : List Bytes} :
    ∀ {args seen seen' : List Bytes} {t : List Event} {fs : FS}, (∀ f ∈ args, f ∈ all) → Territory R all T fs → ArgsScanBy R o ws args seen t seen' → Careful fair T fs t
  | [], _, _, _, _, _, _, hs => by cases hs; trivial
  | f :: rest, _, _, _, fs, hall, h, hs => by
    cases hs with
    | cons _ _ _ s1 _ t1 t2 d1 d2 =>
      have h1 : Careful fair T fs ((if o.verbose = 0 then [] else [.out (lit "Scanning: " ++ f ++ lit "\n")]) ++ t1) := by
        split
        · exact arg_careful h (hall f (by simp)) d1
        · exact careful_out (arg_careful h (hall f (by simp)) d1)
      exact h1.append fun fs1 hs => args_careful (fun g hg => hall g (by simp [hg])) (h1.keeps h hs) d2

theorem careful_harmless {fair : Prop} {T : Ino → Bytes → Prop} : ∀ {t : List Event} {fs : FS}, (∀ e ∈ t, Harmless e) → Careful fair T fs t
  | [], _, _ => trivial
  | e :: t, fs, h => by
    have ht : ∀ {fs1 : FS}, Careful fair T fs1 t := careful_harmless fun x hx => h x (by simp [hx])
    cases h e (by simp) with
    | slurp p r => exact ⟨trivial, fun _ _ => ⟨trivial, ht⟩⟩
    | out s => exact ⟨trivial, fun _ _ => ⟨trivial, ht⟩⟩
    | err s => exact ⟨trivial, fun _ _ => ⟨trivial, ht⟩⟩

end Detox
