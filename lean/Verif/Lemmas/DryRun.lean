import Verif.Spec.DryRun
import Verif.Lemmas.FileSystem
import Verif.Lemmas.Complete
import Verif.Props.ScanRun

/-!
# Renaming a file does not change what other paths mean
-/

set_option autoImplicit false

namespace Detox

open Spec

/-- The two file systems differ in where the file `i` is: at one of the places `bad`, or not at all. -/
structure FileMoved (a b : FS) (i : Ino) (bad : Ino → Bytes → Prop) : Prop where
  same : ∃ es, b = { a with entries := es }
  other : ∀ d n, ¬ bad d n → (b.find d n).map Entry.ino = (a.find d n).map Entry.ino
  here : ∀ d n, bad d n → ((a.find d n).map Entry.ino = none ∨ (a.find d n).map Entry.ino = some i) ∧
    ((b.find d n).map Entry.ino = none ∨ (b.find d n).map Entry.ino = some i)
  names : ∀ j, b.names j = a.names j
  file : a.kind i ≠ .dir ∧ a.kind i ≠ .link

theorem FileMoved.symm {a b : FS} {i : Ino} {bad : Ino → Bytes → Prop} (h : FileMoved a b i bad) : FileMoved b a i bad := by
  obtain ⟨⟨es, rfl⟩, h2, h3, h4, h5⟩ := h
  exact ⟨⟨a.entries, rfl⟩, fun d n hn => (h2 d n hn).symm, fun d n hn => (h3 d n hn).symm, fun j => (h4 j).symm, h5⟩

theorem FileMoved.walk {a b : FS} {i : Ino} {bad : Ino → Bytes → Prop} (h : FileMoved a b i bad) :
    ∀ (fuel : Nat) (d : Ino) (cs : List Bytes) (x : Ino), a.walk fuel d cs = some x → a.kind x = .dir → b.walk fuel d cs = some x := by
  have hk : b.kind = a.kind := by obtain ⟨⟨es, rfl⟩, _⟩ := h; rfl
  have hp : b.parent = a.parent := by obtain ⟨⟨es, rfl⟩, _⟩ := h; rfl
  have ht : b.target = a.target := by obtain ⟨⟨es, rfl⟩, _⟩ := h; rfl
  have hst : ∀ d p, b.start d p = a.start d p := by obtain ⟨⟨es, rfl⟩, _⟩ := h; exact fun _ _ => rfl
  intro fuel
  induction fuel with
  | zero =>
    intro d cs x hw _
    cases cs with
    | nil => exact hw
    | cons n rest => cases hw
  | succ fuel ih =>
    intro d cs x hw hx
    cases cs with
    | nil => exact hw
    | cons n rest =>
      unfold FS.walk at hw ⊢
      cases hs : a.step d n with
      | none => rw [hs] at hw; cases hw
      | some j =>
        rw [hs] at hw
        dsimp only at hw
        by_cases hj : j = i
        · subst hj
          rw [if_neg h.file.2] at hw
          exfalso
          cases rest with
          | nil =>
            have : j = x := by cases fuel <;> exact Option.some.inj hw
            exact h.file.1 (this ▸ hx)
          | cons m rest =>
            cases fuel with
            | zero => cases hw
            | succ fuel =>
              unfold FS.walk at hw
              rw [show a.step j m = none by unfold FS.step; rw [if_pos h.file.1]] at hw
              cases hw
        · have hb : b.step d n = some j := by
            unfold FS.step at hs ⊢
            rw [hk, hp]
            by_cases h1 : a.kind d ≠ .dir
            · rw [if_pos h1] at hs; cases hs
            rw [if_neg h1] at hs ⊢
            by_cases h2 : n = [0x2E]
            · rw [if_pos h2] at hs ⊢; exact hs
            rw [if_neg h2] at hs ⊢
            by_cases h3 : n = [0x2E, 0x2E]
            · rw [if_pos h3] at hs ⊢; exact hs
            rw [if_neg h3] at hs ⊢
            rw [← hs]
            refine h.other d n fun hbad => ?_
            rcases (h.here d n hbad).1 with e | e
            · rw [e] at hs; cases hs
            · rw [e] at hs; exact hj (Option.some.inj hs).symm
          rw [hb]
          dsimp only
          rw [hk, ht]
          by_cases hl : a.kind j = .link
          · rw [if_pos hl] at hw ⊢
            rw [hst]
            exact ih _ _ _ hw hx
          · rw [if_neg hl] at hw ⊢
            exact ih _ _ _ hw hx

theorem FileMoved.dirOf {a b : FS} {i : Ino} {bad : Ino → Bytes → Prop} (h : FileMoved a b i bad) {p : Bytes} {d : Ino}
    (hd : a.dirOf p = some d) (hk : a.kind d = .dir) : b.dirOf p = some d := by
  unfold FS.dirOf at hd ⊢
  rw [show b.start b.cwd p = a.start a.cwd p by obtain ⟨⟨es, rfl⟩, _⟩ := h; rfl]
  exact h.walk _ _ _ _ hd hk

theorem FileMoved.locate_some {a b : FS} {i : Ino} {bad : Ino → Bytes → Prop} (h : FileMoved a b i bad) {p : Bytes} {x : Ino × Bytes}
    (hx : a.locate p = some x) : b.locate p = some x := by
  obtain ⟨d, n⟩ := x
  obtain ⟨h1, h2, h3, h4, h5, h6, h7⟩ := FS_locate_inv hx
  have hk : b.kind = a.kind := by obtain ⟨⟨es, rfl⟩, _⟩ := h; rfl
  have hd : b.denied = a.denied := by obtain ⟨⟨es, rfl⟩, _⟩ := h; rfl
  unfold FS.locate
  rw [if_neg (by rw [hd, h2]; simp [h1]), h.dirOf h3 h5, h4]
  dsimp only
  rw [if_neg (by rw [hk, h5]; simp [h6, h7])]

theorem FileMoved.locate {a b : FS} {i : Ino} {bad : Ino → Bytes → Prop} (h : FileMoved a b i bad) (p : Bytes) : b.locate p = a.locate p := by
  cases ha : a.locate p with
  | some x => exact h.locate_some ha
  | none =>
    cases hb : b.locate p with
    | none => rfl
    | some x => rw [h.symm.locate_some hb] at ha; cases ha

theorem FileMoved.lookup_some {a b : FS} {i : Ino} {bad : Ino → Bytes → Prop} (h : FileMoved a b i bad) {p : Bytes} {x : Ino}
    (hb : ∀ d n, a.locate p = some (d, n) → ¬ bad d n) (hx : a.lookup p = some x) : b.lookup p = some x := by
  have hk : b.kind = a.kind := by obtain ⟨⟨es, rfl⟩, _⟩ := h; rfl
  have hd : b.denied = a.denied := by obtain ⟨⟨es, rfl⟩, _⟩ := h; rfl
  have hp : b.parent = a.parent := by obtain ⟨⟨es, rfl⟩, _⟩ := h; rfl
  have hst : b.start b.cwd p = a.start a.cwd p := by obtain ⟨⟨es, rfl⟩, _⟩ := h; rfl
  unfold FS.lookup at hx ⊢
  rw [hd]
  by_cases h0 : p = [] ∨ a.denied p = true
  · rw [if_pos h0] at hx; cases hx
  rw [if_neg h0] at hx ⊢
  by_cases hs : endsInSlash p = true
  · rw [if_pos hs] at hx ⊢
    cases hw : a.walk walkLimit (a.start a.cwd p) (comps p) with
    | none => rw [hw] at hx; cases hx
    | some j =>
      rw [hw] at hx
      dsimp only at hx
      by_cases hj : a.kind j = .dir
      · rw [if_pos hj] at hx
        rw [hst, h.walk _ _ _ _ hw hj]
        dsimp only
        rw [hk, if_pos hj]
        exact hx
      · rw [if_neg hj] at hx; cases hx
  · rw [if_neg hs] at hx ⊢
    cases hw : a.dirOf p with
    | none => rw [hw] at hx; cases hx
    | some d =>
      cases hl : (comps p).getLast? with
      | none => rw [hw, hl] at hx; cases hx
      | some n =>
        rw [hw, hl] at hx
        dsimp only at hx
        have hdir : a.kind d = .dir := by
          by_cases h1 : a.kind d = .dir
          · exact h1
          · unfold FS.step at hx
            rw [if_pos h1] at hx
            cases hx
        rw [h.dirOf hw hdir]
        dsimp only
        unfold FS.step at hx ⊢
        rw [hk, hp]
        rw [if_neg (by simp [hdir])] at hx ⊢
        by_cases h2 : n = [0x2E]
        · rw [if_pos h2] at hx ⊢; exact hx
        rw [if_neg h2] at hx ⊢
        by_cases h3 : n = [0x2E, 0x2E]
        · rw [if_pos h3] at hx ⊢; exact hx
        rw [if_neg h3] at hx ⊢
        rw [← hx]
        refine h.other d n (hb d n ?_)
        unfold FS.locate
        rw [if_neg h0, hw, hl]
        dsimp only
        rw [if_neg (by simp [h2, h3, hdir])]

theorem FileMoved.lstat {a b : FS} {i : Ino} {bad : Ino → Bytes → Prop} (h : FileMoved a b i bad) {p : Bytes}
    (hb : ∀ d n, a.locate p = some (d, n) → ¬ bad d n) : b.lstat p = a.lstat p := by
  have hl : b.lookup p = a.lookup p := by
    cases ha : a.lookup p with
    | some x => exact h.lookup_some hb ha
    | none =>
      cases hx : b.lookup p with
      | none => rfl
      | some x => rw [h.symm.lookup_some (fun d n e => hb d n (by rw [← h.locate p]; exact e)) hx] at ha; cases ha
  have hk : b.kind = a.kind := by obtain ⟨⟨es, rfl⟩, _⟩ := h; rfl
  have hd : b.dirLinks = a.dirLinks := by obtain ⟨⟨es, rfl⟩, _⟩ := h; rfl
  unfold FS.lstat
  rw [hl, hk, hd]
  congr 1
  funext j
  rw [h.names j]

/-- Moving the entry of a file. -/
theorem fileMoved_move {fs : FS} (hu : fs.Unique) {d1 d2 : Ino} {n1 n2 : Bytes} {e1 : Entry} (h1 : fs.find d1 n1 = some e1)
    (h2 : fs.find d2 n2 = none ∨ fs.find d2 n2 = some e1) (hk : fs.kind e1.ino ≠ .dir ∧ fs.kind e1.ino ≠ .link) :
    FileMoved fs { fs with entries := fs.entries.map (moveEntry e1 d2 n2) } e1.ino (fun d n => (d = d1 ∧ fs.norm d n = fs.norm d n1) ∨ (d = d2 ∧ fs.norm d n = fs.norm d n2)) ∧
    FS.Unique { fs with entries := fs.entries.map (moveEntry e1 d2 n2) } := by
  obtain ⟨hm, hd, hn⟩ := FS_find_some h1
  have hfree : ∀ e ∈ fs.entries, e.dir = d2 → fs.norm d2 e.name = fs.norm d2 n2 → e = e1 := by
    intro e he hed hen
    rcases h2 with h2 | h2
    · exact absurd ⟨hed, hen⟩ (FS_find_none h2 e he)
    · obtain ⟨_, a, b⟩ := FS_find_some h2
      exact hu.eq he hm (by rw [hed, a]) (by rw [hed, a, hen, b])
  have hu' := FS_unique_move hu hm hfree
  refine ⟨⟨⟨_, rfl⟩, ?_, ?_, ?_, hk⟩, hu'⟩
  · intro d n hno
    unfold FS.find
    dsimp only
    have key : ∀ l : List Entry, ((l.map (moveEntry e1 d2 n2)).find? fun e => decide (e.dir = d) && decide (fs.norm d e.name = fs.norm d n)) =
        l.find? fun e => decide (e.dir = d) && decide (fs.norm d e.name = fs.norm d n) := by
      intro l
      induction l with
      | nil => rfl
      | cons x l ih =>
        rw [List.map_cons, List.find?_cons, List.find?_cons, ih]
        by_cases hx : x = e1
        · subst hx
          have a1 : (decide (x.dir = d) && decide (fs.norm d x.name = fs.norm d n)) = false := by
            rw [Bool.eq_false_iff]
            intro hc
            simp only [Bool.and_eq_true, decide_eq_true_eq] at hc
            refine hno (.inl ⟨by rw [← hc.1, hd], ?_⟩)
            rw [← hc.2, ← hc.1, hd, hn]
          have a2 : (decide ((moveEntry x d2 n2 x).dir = d) && decide (fs.norm d (moveEntry x d2 n2 x).name = fs.norm d n)) = false := by
            rw [Bool.eq_false_iff]
            intro hc
            simp only [moveEntry, if_true, Bool.and_eq_true, decide_eq_true_eq] at hc
            exact hno (.inr ⟨hc.1.symm, by rw [← hc.2]⟩)
          rw [a1, a2]
        · rw [show moveEntry e1 d2 n2 x = x by unfold moveEntry; rw [if_neg hx]]
    rw [key]
  · intro d n hb
    have fin : ∀ {g : FS} {o : Option Entry}, (∀ e, o = some e → e.ino = e1.ino) → o.map Entry.ino = none ∨ o.map Entry.ino = some e1.ino := by
      intro g o ho
      cases o with
      | none => exact .inl rfl
      | some e => exact .inr (by rw [Option.map_some, ho e rfl])
    have hold : ∀ e, fs.find d n = some e → e.ino = e1.ino := by
      intro e he
      obtain ⟨a, b, c⟩ := FS_find_some he
      rcases hb with ⟨rfl, hb⟩ | ⟨rfl, hb⟩
      · rw [hu.eq a hm (by rw [b, hd]) (by rw [b, hd, c, hb, hn])]
      · rw [hfree e a b (by rw [c, hb])]
    refine ⟨fin (g := fs) hold, fin (g := fs) fun e he => ?_⟩
    obtain ⟨a, b, c⟩ := FS_find_some he
    obtain ⟨x, hx, rfl⟩ := List.mem_map.mp a
    by_cases hxe : x = e1
    · subst hxe; exact moveEntry_ino _ _ _ _
    · have hxx : moveEntry e1 d2 n2 x = x := by unfold moveEntry; rw [if_neg hxe]
      rw [hxx] at b c ⊢
      refine hold x ?_
      have := find_exact hu hx
      unfold FS.find at this ⊢
      rw [← b, ← this]
      congr 1
      funext e
      rw [show fs.norm x.dir n = fs.norm x.dir x.name by rw [b]; exact c.symm]
  · intro j
    rw [FS_names_eq, FS_names_eq]
    show ((List.map Entry.ino (List.map (moveEntry e1 d2 n2) fs.entries)).filter _).length = _
    rw [map_moveEntry_ino]

end Detox
