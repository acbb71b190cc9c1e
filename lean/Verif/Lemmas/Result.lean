import Verif.Spec.Result
import Verif.Props.DryRun

/-!
# The state after a run over files
-/

set_option autoImplicit false

namespace Detox
open Spec

theorem Spec.FS.FairSteps.steps {fs fs' : FS} {tr : List Event} (h : FS.FairSteps fs tr fs') : FS.Steps fs tr fs' := by
  induction h with
  | nil fs => exact .nil fs
  | cons fs fs1 fs2 e tr h1 _ ih => exact .cons _ _ _ _ _ h1.1 ih

theorem Spec.FS.FairSteps.append_inv {t1 t2 : List Event} {fs fs' : FS} (h : FS.FairSteps fs (t1 ++ t2) fs') :
    ∃ mid, FS.FairSteps fs t1 mid ∧ FS.FairSteps mid t2 fs' := by
  induction t1 generalizing fs with
  | nil => exact ⟨fs, .nil fs, h⟩
  | cons e t1 ih =>
    cases h with
    | cons _ fs1 _ _ _ h1 h2 =>
      obtain ⟨mid, h3, h4⟩ := ih h2
      exact ⟨mid, .cons _ _ _ _ _ h1 h3, h4⟩

/-- A rename that fails in the middle. -/
theorem Spec.FS.FairSteps.failed {t1 t2 : List Event} {fs fs' : FS} {old new : Bytes} (h : FS.FairSteps fs (t1 ++ .rename old new false :: t2) fs')
    (hq : ∀ e ∈ t1, ∀ a b, e ≠ .rename a b true) : fs.rename old new = none := by
  obtain ⟨mid, h1, h2⟩ := h.append_inv
  have : mid = fs := by
    clear h h2
    induction h1 with
    | nil => rfl
    | cons a b c e t h _ ih =>
      rw [ih fun x hx => hq x (by simp [hx])]
      cases h.1 with
      | renamed old new _ _ => exact absurd rfl (hq _ (by simp) old new)
      | _ => rfl
  subst this
  cases h2 with
  | cons _ _ _ _ _ h3 _ => exact h3.2 _ _ rfl

theorem find_iff {fs : FS} (hu : fs.Unique) {d : Ino} {n : Bytes} {e : Entry} :
    fs.find d n = some e ↔ e ∈ fs.entries ∧ e.dir = d ∧ fs.norm d e.name = fs.norm d n := by
  refine ⟨FS_find_some, fun ⟨h1, h2, h3⟩ => ?_⟩
  subst h2
  cases hf : fs.find e.dir n with
  | none => exact absurd ⟨rfl, h3⟩ (FS_find_none hf e h1)
  | some e' =>
    obtain ⟨a, b, c⟩ := FS_find_some hf
    rw [hu.eq a h1 b (by rw [b, c, h3])]

/-- The path of a neighbour. -/
theorem locate_sibling {fs : FS} {f dir name w : Bytes} {d : Ino} (hn : name ≠ []) (hs : SplitsAs f dir name) (hl : fs.locate f = some (d, name))
    (hw : w ≠ [] ∧ w ≠ lit "." ∧ w ≠ lit "..") (hws : (0x2F : Byte) ∉ w) (ha : fs.denied (dir ++ w) = false) :
    fs.locate (dir ++ w) = some (d, w) := by
  obtain ⟨rfl, hns, hd⟩ := hs
  obtain ⟨_, _, h3, _, h5, _, _⟩ := FS_locate_inv hl
  have h6 : fs.dirOf (dir ++ w) = some d := by
    rw [dirOf_dir_name fs hd hw.1 hws, start_dir_append fs _ hws]
    rw [dirOf_dir_name fs hd hn hns, start_dir_append fs _ hns] at h3
    exact h3
  unfold FS.locate
  rw [if_neg (by simp [hw.1, ha]), h6, comps_dir_name hd hw.1 hws]
  simp only [List.getLast?_append, List.getLast?_singleton, Option.some_or]
  rw [if_neg]
  rintro (h | h | h)
  · exact hw.2.1 h
  · exact hw.2.2 h
  · exact h h5

theorem wants_mem {R : Bytes → Bytes → Prop} {fs : FS} {f dir w : Bytes} {e : Entry} (h : Wants R fs f dir e w) : e ∈ fs.entries := by
  obtain ⟨name, _, _, _, h4, _⟩ := h
  exact (FS_find_some h4).1

/-- Two entries for a file: it has more than one name. -/
theorem names_two {fs : FS} {a b : Entry} (ha : a ∈ fs.entries) (hb : b ∈ fs.entries) (hne : a ≠ b) (hi : a.ino = b.ino) : 1 < fs.names a.ino := by
  unfold FS.names
  have h1 : a ∈ fs.entries.filter fun e => e.ino = a.ino := List.mem_filter.2 ⟨ha, by simp⟩
  have h2 : b ∈ fs.entries.filter fun e => e.ino = a.ino := List.mem_filter.2 ⟨hb, by simp [hi]⟩
  generalize fs.entries.filter (fun e => e.ino = a.ino) = l at h1 h2
  match l, h1, h2 with
  | [x], h1, h2 => rw [List.mem_singleton] at h1 h2; exact absurd (h1.trans h2.symm) hne
  | _ :: _ :: _, _, _ => simp

/-- One argument that is a file: it gets the name it should have, if it can have it. -/
theorem arg_effect {R : Bytes → Bytes → Prop} (hR : ∀ a b c, R a b → R a c → b = c) 
    {f : Bytes} (hsl : NewNameHasNoSlash R f)
    {o : Options} (hdry : o.dryRun = false) {ws : List Bytes} {seen seen' : List Bytes} {t : List Event}
    (h : ArgScanBy R o ws f seen t seen') {fs fs' : FS} (hs : FS.FairSteps fs t fs') (hu : fs.Unique)
    (hreg : ∀ i, fs.lookup f = some i → fs.kind i = .reg) :
    (∃ dir w e, Wants R fs f dir e w ∧ CanHave fs dir e w ∧ fs' = { fs with entries := fs.entries.map (moveEntry e e.dir w) }) ∨
      (fs' = fs ∧ ∀ dir w e, Wants R fs f dir e w → ¬ CanHave fs dir e w) := by
  have first : ∀ {p : Bytes} {r : Option Stat} {t : List Event}, FS.FairSteps fs (.lstat p r :: t) fs' → fs.lstat p = r ∧ FS.FairSteps fs t fs' := by
    intro p r t h
    cases h with
    | cons _ _ _ _ _ h1 h2 =>
      cases h1.1 with
      | lstat _ _ h => exact ⟨h, h2⟩
  -- what `lstat` and `rename` say of a file that can have its name
  have facts : ∀ dir w e, Wants R fs f dir e w → CanHave fs dir e w → ∃ name, SplitsAs f dir name ∧ R name w ∧ w ≠ name ∧ name ≠ lit "." ∧ name ≠ lit ".." ∧
      (∃ so, fs.lstat f = some so ∧ ∀ sn, fs.lstat (dir ++ w) = some sn → sn.dev = so.dev ∧ sn.ino = so.ino ∧ so.nlink ≤ 1) ∧
      fs.rename f (dir ++ w) ≠ none := by
    intro dir w e ⟨name, h0, h1, h2, h3, h4, h5⟩ hc
    obtain ⟨_, hden, _, _, hkd, h6, h7⟩ := FS_locate_inv h2
    have hws := hsl _ _ _ h1 h4
    have hloc := locate_sibling h0 h1 h2 hc.proper hws hc.allowed
    have hend : endsInSlash f = false := by rw [h1.1]; exact endsInSlash_dir_name h0 h1.2.1
    have hend' : endsInSlash (dir ++ w) = false := endsInSlash_dir_name hc.proper.1 hws
    have hlook : fs.lookup f = some e.ino := by rw [FS_lookup_locate h2 hend, h3]; rfl
    have hk := hreg _ hlook
    refine ⟨name, h1, h4, h5, h6, h7, ⟨_, by unfold FS.lstat; rw [hlook]; rfl, ?_⟩, ?_⟩
    · intro sn hsn
      obtain ⟨i, hi, h8, h9⟩ := FS_lstat_some hsn
      rw [FS_lookup_locate hloc hend'] at hi
      cases hf : fs.find e.dir w with
      | none => rw [hf] at hi; cases hi
      | some e2 =>
        rw [hf] at hi
        obtain ⟨a, b, c⟩ := FS_find_some hf
        obtain ⟨rfl, hn⟩ := hc.free e2 a b c
        cases hi
        refine ⟨h8, h9, ?_⟩
        dsimp only
        rw [if_neg (by rw [hk]; simp)]
        exact hn
    · unfold FS.rename
      rw [h2, hloc]
      dsimp only
      rw [h3]
      dsimp only
      rw [if_neg (by simp [hend]), if_neg (by simp [hend']), if_neg (by simp)]
      cases hf : fs.find e.dir w with
      | none => simp
      | some e2 =>
        obtain ⟨a, b, c⟩ := FS_find_some hf
        obtain ⟨rfl, _⟩ := hc.free e2 a b c
        simp [hend']
  have same : ∀ {dir name w dir' name' w' : Bytes}, SplitsAs f dir name → SplitsAs f dir' name' → R name w → R name' w' →
      dir' = dir ∧ name' = name ∧ w' = w := by
    intro dir name w dir' name' w' a b c d
    have ha := splitsAs_unique a
    have hb := splitsAs_unique b
    have e1 : dir' = dir := by rw [ha.1, hb.1]
    have e2 : name' = name := by rw [ha.2, hb.2]
    subst e1 e2
    exact ⟨rfl, rfl, hR _ _ _ d c⟩
  have quiet : ∀ (t : List Event) (a b : FS), FS.FairSteps a t b → (∀ x y, Event.rename x y true ∉ t) → b = a := by
    intro t a b hs hno
    induction hs with
    | nil => rfl
    | cons fs fs1 fs2 e t h1 _ ih =>
      rw [ih fun x y hm => hno x y (List.mem_cons_of_mem _ hm)]
      cases h1.1 with
      | renamed old new _ _ => exact absurd List.mem_cons_self (hno old new)
      | _ => rfl
  have nothing : fs.lstat f = none → ∀ dir w e, Wants R fs f dir e w → ¬ CanHave fs dir e w := by
    intro hn dir w e hw hc
    obtain ⟨_, _, _, _, _, _, ⟨so, h1, _⟩, _⟩ := facts dir w e hw hc
    rw [hn] at h1
    cases h1
  have reg : ∀ {st : Stat}, fs.lstat f = some st → st.kind = .reg := by
    intro st h
    unfold FS.lstat at h
    cases hl : fs.lookup f with
    | none => rw [hl] at h; cases h
    | some i =>
      rw [hl] at h
      cases h
      exact hreg i hl
  cases h with
  | missing => exact .inr ⟨quiet _ _ _ hs (by simp), nothing (first hs).1⟩
  | leave st _ h1 h2 h3 => exact absurd (reg (first hs).1) h2
  | dir st _ _ mid sub p h1 => rw [reg (first hs).1] at h1; cases h1
  | file st _ mid p h1 h2 =>
    obtain ⟨_, hs⟩ := first hs
    cases h2 with
    | clean dir name a b =>
      refine .inr ⟨quiet _ _ _ hs (by simp), fun dir' w e hw hc => ?_⟩
      obtain ⟨name', k1, k2, k3, k4, k5, _⟩ := facts dir' w e hw hc
      have : name' = name := by rw [(splitsAs_unique a).2, (splitsAs_unique k1).2]
      subst this
      rcases b with b | b | b
      · exact k4 b
      · exact k5 b
      · exact k3 (hR _ _ _ k2 b)
    | gone => exact .inr ⟨quiet _ _ _ hs (by simp), nothing (first hs).1⟩
    | refused dir name w so sn a1 a2 a3 a4 a5 a6 =>
      refine .inr ⟨quiet _ _ _ hs (by simp), fun dir' w' e hw hc => ?_⟩
      obtain ⟨name', k1, k2, k3, k4, k5, ⟨so', k6, k7⟩, _⟩ := facts dir' w' e hw hc
      obtain ⟨rfl, rfl, rfl⟩ := same a1 k1 a4 k2
      have e1 := (first hs).1
      have e2 := (first (first hs).2).1
      rw [e1] at k6
      cases k6
      exact a6 (k7 _ e2)
    | dry _ _ _ _ _ _ _ _ _ _ _ h => rw [hdry] at h; cases h
    | failed dir name w so rn a1 a2 a3 a4 a5 a6 a7 =>
      refine .inr ⟨quiet _ _ _ hs (by intro x y hm; split at hm <;> simp at hm), fun dir' w' e hw hc => ?_⟩
      obtain ⟨name', k1, k2, k3, k4, k5, _, k8⟩ := facts dir' w' e hw hc
      obtain ⟨rfl, rfl, rfl⟩ := same a1 k1 a4 k2
      refine k8 (hs.failed ?_)
      intro x hx a b
      rcases List.mem_append.1 hx with hx | hx
      · simp only [List.mem_cons, List.not_mem_nil, or_false] at hx
        rcases hx with rfl | rfl <;> simp
      · split at hx
        · cases hx
        · rw [List.mem_singleton.1 hx]; simp
    | renamed dir name w so rn a1 a2 a3 a4 a5 a6 a7 =>
      have e1 := (first hs).1
      have e2 := (first (first hs).2).1
      have hren : fs.rename f (dir ++ w) = some fs' := by
        obtain ⟨fs1, ha, hb⟩ := hs.append_inv
        have hc := quiet _ _ _ ha (by intro x y hm; split at hm <;> simp at hm)
        subst hc
        cases hb with
        | cons _ _ _ _ _ h1 h2 =>
          cases h2
          cases h1.1 with
          | renamed _ _ _ hr => exact hr
      obtain ⟨i, hi, hd, hin⟩ := FS_lstat_some e1
      have hik := hreg i hi
      have hname : name ≠ [] := by
        rintro rfl
        have hend : endsInSlash f = true ∨ f = [] := by
          rcases a1.2.2 with h | ⟨d, h⟩
          · exact .inr (by rw [a1.1, h]; rfl)
          · exact .inl (by rw [a1.1, h]; simp [endsInSlash])
        rcases hend with hend | rfl
        · unfold FS.lookup at hi
          split at hi
          · cases hi
          · split at hi
            · cases hi
            · split at hi
              · rename_i hk; cases hi; rw [hik] at hk; cases hk
              · cases hi
        · unfold FS.lookup at hi
          rw [if_pos (.inl rfl)] at hi
          cases hi
      have hws := hsl _ _ _ a1 a4
      have hend : endsInSlash f = false := by rw [a1.1]; exact endsInSlash_dir_name hname a1.2.1
      obtain ⟨d1, n1, d2, n2, e, l1, l2, l3, l4⟩ := FS_guarded_rename hend e1 e2 a6 hren
      have hn1 : n1 = name := by
        obtain ⟨_, _, _, hl, _⟩ := FS_locate_inv l1
        rw [a1.1, comps_dir_name a1.2.2 hname a1.2.1] at hl
        simpa using hl.symm
      subst hn1
      obtain ⟨m1, m2, m3⟩ := FS_find_some l3
      obtain ⟨x1, x2, x3, x4, x5, x6, x7⟩ := FS_locate_inv l2
      have hlook : fs.lookup f = some e.ino := by rw [FS_lookup_locate l1 hend, l3]; rfl
      have hie : e.ino = i := Option.some.inj (hlook.symm.trans hi)
      have hw0 : w ≠ [] := by
        rintro rfl
        rcases a1.2.2 with h | ⟨d, h⟩
        · subst h; exact x1 rfl
        · -- a file cannot be renamed to a path that ends in a slash
          have hes : endsInSlash (dir ++ []) = true := by rw [h]; simp [endsInSlash]
          have : fs.rename f (dir ++ []) = none := by
            unfold FS.rename
            rw [l1, l2]
            dsimp only
            rw [l3]
            dsimp only
            rw [if_neg (by simp [hend]), if_pos ⟨hes, by rw [hie, hik]; simp⟩]
          rw [this] at hren
          cases hren
      have hn2 : n2 = w := by
        rw [comps_dir_name a1.2.2 hw0 hws] at x4
        simpa using x4.symm
      subst hn2
      have hd2 : d2 = d1 := by
        obtain ⟨_, _, y3, _⟩ := FS_locate_inv l1
        rw [a1.1, dirOf_dir_name fs a1.2.2 hname a1.2.1, start_dir_append fs _ a1.2.1] at y3
        rw [dirOf_dir_name fs a1.2.2 hw0 hws, start_dir_append fs _ hws] at x3
        exact Option.some.inj (x3.symm.trans y3)
      subst hd2
      have hso : so.nlink = fs.names e.ino := by
        unfold FS.lstat at e1
        rw [hlook] at e1
        cases e1
        dsimp only
        rw [if_neg (by rw [hie, hik]; simp)]
      have hwants : Wants R fs f dir e n2 := ⟨n1, hname, a1, by rw [m2]; exact l1, by rw [m2]; exact l3, a4, a5⟩
      have hlnew : fs.lookup (dir ++ n2) = (fs.find d2 n2).map Entry.ino := FS_lookup_locate l2 (endsInSlash_dir_name hw0 hws)
      rcases l4 with ⟨q1, q2, q3⟩ | ⟨q1, q3⟩ | ⟨e2', q1, q2, q3, _⟩
      · refine .inl ⟨dir, n2, e, hwants, ⟨⟨hw0, x6, x7⟩, x2, fun e' he' h1 h2 => ?_⟩, by rw [m2]; exact q3⟩
        rw [m2] at h1 h2
        exact absurd ⟨h1, h2⟩ (FS_find_none q1 e' he')
      · refine .inl ⟨dir, n2, e, hwants, ⟨⟨hw0, x6, x7⟩, x2, fun e' he' h1 h2 => ?_⟩, by rw [m2]; exact q3⟩
        obtain ⟨_, _, p3⟩ := FS_find_some q1
        rw [m2] at h1 h2
        refine ⟨hu.eq he' m1 (by rw [h1, m2]) (by rw [h1, m2, h2, p3]), ?_⟩
        obtain ⟨sn, hsn, _⟩ := FS_lstat_lookup (hlnew.trans (by rw [q1]; rfl))
        have := (a6 sn (e2.symm.trans hsn)).2.2
        rw [hso] at this
        exact this
      · exfalso
        obtain ⟨sn, hsn, _⟩ := FS_lstat_lookup (hlnew.trans (by rw [q1]; rfl))
        have h1 := (a6 sn (e2.symm.trans hsn)).2.2
        rw [hso] at h1
        have h2 := names_two m1 (FS_find_some q1).1 (fun h => q2 h.symm) q3.symm
        omega

/-- After a file got its name, what is wanted of the others, and what they can have, is the same as before. -/
theorem others_same {R : Bytes → Bytes → Prop} {f : Bytes} {rest : List Bytes} (hsl : ∀ g ∈ f :: rest, NewNameHasNoSlash R g) {fs : FS} (hu : fs.Unique) {dir w : Bytes}
    {e : Entry} (hw : Wants R fs f dir e w) (hc : CanHave fs dir e w) (hk : fs.kind e.ino = .reg) (hap : Apart R fs (f :: rest)) :
    ∃ fs1 : FS, fs1 = { fs with entries := fs.entries.map (moveEntry e e.dir w) } ∧ fs1.Unique ∧ (∀ p, fs1.locate p = fs.locate p) ∧ Apart R fs1 rest ∧
      (∀ g ∈ rest, fs1.lstat g = fs.lstat g) ∧
      (∀ g ∈ rest, ∀ dir' e' w', Wants R fs1 g dir' e' w' → e' ≠ { e with name := w } ∧ e' ≠ e ∧ Wants R fs g dir' e' w') ∧
      (∀ g ∈ rest, ∀ dir' e' w', Wants R fs g dir' e' w' → e' ≠ e ∧ Wants R fs1 g dir' e' w') ∧
      (∀ g ∈ rest, ∀ dir' e' w', Wants R fs g dir' e' w' → (CanHave fs1 dir' e' w' ↔ CanHave fs dir' e' w')) := by
  obtain ⟨name, h0, h1, h2, h3, h4, h5⟩ := hw
  obtain ⟨m1, _, m3⟩ := FS_find_some h3
  have hws := hsl _ (by simp) _ _ _ h1 h4
  have hloc := locate_sibling h0 h1 h2 hc.proper hws hc.allowed
  have hfree : fs.find e.dir w = none ∨ fs.find e.dir w = some e := by
    cases hf : fs.find e.dir w with
    | none => exact .inl rfl
    | some e2 =>
      obtain ⟨a, b, c⟩ := FS_find_some hf
      rw [(hc.free e2 a b c).1]
      exact .inr rfl
  obtain ⟨M, U⟩ := fileMoved_move hu h3 hfree (by rw [hk]; simp)
  have hap' := List.pairwise_cons.mp hap
  have slot1 : fs.slot f = some (e.dir, fs.norm e.dir e.name) := by
    unfold FS.slot
    rw [h2, Option.map_some, m3]
  have slot2 : fs.slot (dir ++ w) = some (e.dir, fs.norm e.dir w) := by
    unfold FS.slot
    rw [hloc, Option.map_some]
  have far : ∀ g ∈ rest, ∀ q d n, Concerns R g q → fs.locate q = some (d, n) →
      ¬ (d = e.dir ∧ fs.norm e.dir n = fs.norm e.dir e.name) ∧ ¬ (d = e.dir ∧ fs.norm e.dir n = fs.norm e.dir w) := by
    intro g hg q d n hq hl
    refine ⟨?_, ?_⟩
    · rintro ⟨rfl, hn⟩
      refine hap'.1 g hg f q _ (.inl rfl) hq slot1 ?_
      unfold FS.slot
      rw [hl, Option.map_some, hn]
    · rintro ⟨rfl, hn⟩
      refine hap'.1 g hg (dir ++ w) q _ (.inr ⟨dir, name, w, h1, h4, rfl⟩) hq slot2 ?_
      unfold FS.slot
      rw [hl, Option.map_some, hn]
  have mem1 : ∀ x, x ∈ fs.entries.map (moveEntry e e.dir w) ↔ (x ∈ fs.entries ∧ x ≠ e) ∨ x = { e with name := w } := by
    intro x
    rw [List.mem_map]
    constructor
    · rintro ⟨y, hy, rfl⟩
      unfold moveEntry
      by_cases hye : y = e
      · rw [if_pos hye]; exact .inr rfl
      · rw [if_neg hye]; exact .inl ⟨hy, hye⟩
    · rintro (⟨hx, hne⟩ | rfl)
      · exact ⟨x, hx, by unfold moveEntry; rw [if_neg hne]⟩
      · exact ⟨e, m1, by unfold moveEntry; rw [if_pos rfl]⟩
  refine ⟨_, rfl, U, M.locate, ?_, ?_, ?_, ?_, ?_⟩
  · refine hap'.2.imp fun {a b} h p q x hp hq hpx hqx => h p q x hp hq ?_ ?_
    · unfold FS.slot at hpx ⊢
      rw [M.locate] at hpx
      exact hpx
    · unfold FS.slot at hqx ⊢
      rw [M.locate] at hqx
      exact hqx
  · intro g hg
    refine M.lstat fun d n hl hbad => ?_
    have := far g hg g d n (.inl rfl) hl
    rcases hbad with ⟨a, b⟩ | ⟨a, b⟩
    · exact this.1 ⟨a, by subst a; rw [b, m3]⟩
    · exact this.2 ⟨a, by subst a; exact b⟩
  · rintro g hg dir' e' w' ⟨name', k0, k1, k2, k3, k4, k5⟩
    rw [M.locate] at k2
    obtain ⟨n1, n2⟩ := far g hg g _ _ (.inl rfl) k2
    obtain ⟨q1, _, q3⟩ := (find_iff U).1 k3
    have hne : e' ≠ { e with name := w } := by
      rintro rfl
      exact n2 ⟨rfl, q3.symm⟩
    have hne' : e' ≠ e := by
      rintro rfl
      exact n1 ⟨rfl, q3.symm⟩
    refine ⟨hne, hne', name', k0, k1, k2, (find_iff hu).2 ⟨?_, rfl, q3⟩, k4, k5⟩
    rcases (mem1 e').1 q1 with h | h
    · exact h.1
    · exact absurd h hne
  · rintro g hg dir' e' w' ⟨name', k0, k1, k2, k3, k4, k5⟩
    obtain ⟨n1, n2⟩ := far g hg g _ _ (.inl rfl) k2
    obtain ⟨q1, _, q3⟩ := (find_iff hu).1 k3
    have hne : e' ≠ e := by
      rintro rfl
      exact n1 ⟨rfl, q3.symm⟩
    exact ⟨hne, name', k0, k1, by rw [M.locate]; exact k2, (find_iff U).2 ⟨(mem1 e').2 (.inl ⟨q1, hne⟩), rfl, q3⟩, k4, k5⟩
  · rintro g hg dir' e' w' ⟨name', k0, k1, k2, k3, k4, k5⟩
    have hws' := hsl g (by simp [hg]) _ _ _ k1 k4
    have key : CanHave fs dir' e' w' ∨ CanHave { fs with entries := fs.entries.map (moveEntry e e.dir w) } dir' e' w' →
        ¬ (e'.dir = e.dir ∧ fs.norm e.dir w' = fs.norm e.dir e.name) ∧ ¬ (e'.dir = e.dir ∧ fs.norm e.dir w' = fs.norm e.dir w) := by
      intro h
      have hp : (w' ≠ [] ∧ w' ≠ lit "." ∧ w' ≠ lit "..") ∧ fs.denied (dir' ++ w') = false := by
        rcases h with h | h
        · exact ⟨h.proper, h.allowed⟩
        · exact ⟨h.proper, h.allowed⟩
      exact far g hg (dir' ++ w') _ _ (.inr ⟨dir', name', w', k1, k4, rfl⟩) (locate_sibling k0 k1 k2 hp.1 hws' hp.2)
    constructor
    · intro h
      obtain ⟨n1, _⟩ := key (.inr h)
      refine ⟨h.proper, h.allowed, fun e2 he2 hd hn => ?_⟩
      have hne : e2 ≠ e := by
        rintro rfl
        exact n1 ⟨hd.symm, by rw [hd, hn]⟩
      obtain ⟨a, b⟩ := h.free e2 ((mem1 e2).2 (.inl ⟨he2, hne⟩)) hd hn
      exact ⟨a, by rw [← M.names]; exact b⟩
    · intro h
      obtain ⟨_, n2⟩ := key (.inl h)
      refine ⟨h.proper, h.allowed, fun e2 he2 hd hn => ?_⟩
      rcases (mem1 e2).1 he2 with he2 | rfl
      · obtain ⟨a, b⟩ := h.free e2 he2.1 hd hn
        exact ⟨a, by rw [M.names]; exact b⟩
      · have hd' : e.dir = e'.dir := hd
        have hn' : fs.norm e'.dir w = fs.norm e'.dir w' := hn
        exact absurd ⟨hd'.symm, by rw [hd', hn']⟩ n2

theorem wants_unique {R : Bytes → Bytes → Prop} {fs : FS} {f dir dir' w w' : Bytes} {e e' : Entry} (h : Wants R fs f dir e w) (h' : Wants R fs f dir' e' w') : e = e' := by
  obtain ⟨n, _, _, h2, h3, _⟩ := h
  obtain ⟨n', _, _, h2', h3', _⟩ := h'
  rw [h2] at h2'
  have hx := Option.some.inj h2'
  have h1 : e.dir = e'.dir := congrArg Prod.fst hx
  have h4 : n = n' := congrArg Prod.snd hx
  rw [h1, h4, h3'] at h3
  exact (Option.some.inj h3).symm

theorem args_effect {R : Bytes → Bytes → Prop} (hR : ∀ a b c, R a b → R a c → b = c)
    {o : Options} (hdry : o.dryRun = false) {ws : List Bytes} :
    ∀ (args : List Bytes) {seen seen' : List Bytes} {tr : List Event} {fs fs' : FS}, ArgsScanBy R o ws args seen tr seen' → FS.FairSteps fs tr fs' →
      fs.Unique → (∀ f ∈ args, ∀ i, fs.lookup f = some i → fs.kind i = .reg) → (∀ f ∈ args, NewNameHasNoSlash R f) → Apart R fs args →
      ∃ g : Entry → Entry, fs' = { fs with entries := fs.entries.map g } ∧ ∀ e ∈ fs.entries, Becomes R fs args e (g e) := by
  intro args
  induction args with
  | nil =>
    intro seen seen' tr fs fs' h hs _ _ _ _
    cases h
    cases hs
    exact ⟨id, by simp, fun e _ => .kept (by simp)⟩
  | cons f rest ih =>
    intro seen seen' tr fs fs' h hs hu hreg hsl hap
    cases h with
    | cons _ _ _ s1 _ t1 t2 d1 d2 =>
    obtain ⟨y1, hs, hs2⟩ := hs.append_inv
    obtain ⟨y0, hy, hs1⟩ := hs.append_inv
    have : y0 = fs := by
      refine FS.Steps.quiet ?_ hy.steps
      intro e he
      split at he
      · cases he
      · rw [List.mem_singleton.mp he]; exact ⟨_, rfl⟩
    subst this
    have hap' := List.pairwise_cons.mp hap
    rcases arg_effect hR (hsl f (by simp)) hdry d1 hs1 hu (hreg f (by simp)) with ⟨dir, w, e, hw, hc, he⟩ | ⟨rfl, hno⟩
    · have hk : y0.kind e.ino = .reg := by
        refine hreg f (by simp) _ ?_
        obtain ⟨n, k0, k1, k2, k3, _⟩ := hw
        rw [FS_lookup_locate k2 (by rw [k1.1]; exact endsInSlash_dir_name k0 k1.2.1), k3]
        rfl
      obtain ⟨fs1, e1, U, L, A, S, W1, W2, C⟩ := others_same hsl hu hw hc hk hap
      rw [he, ← e1] at hs2
      obtain ⟨g, hg1, hg2⟩ := ih d2 hs2 U (by
        intro x hx i hi
        obtain ⟨st, h1, _⟩ := FS_lstat_lookup hi
        rw [S x hx] at h1
        have hlook : y0.lookup x = some i := by
          obtain ⟨j, hj, a, b⟩ := FS_lstat_some h1
          obtain ⟨st', h1', c, d⟩ := FS_lstat_lookup hi
          rw [S x hx, h1] at h1'
          cases h1'
          rw [hj]
          cases i; cases j
          simp only at a b c d
          rw [← a, ← b, c, d]
        rw [e1]
        exact hreg x (by simp [hx]) i hlook) (fun x hx => hsl x (by simp [hx])) A
      refine ⟨fun x => g (moveEntry e e.dir w x), ?_, ?_⟩
      · rw [hg1, e1]
        simp [Function.comp_def]
      · intro x hx
        show Becomes R y0 (f :: rest) x (g (moveEntry e e.dir w x))
        by_cases hxe : x = e
        · subst hxe
          have hm : moveEntry x x.dir w x = { x with name := w } := by unfold moveEntry; rw [if_pos rfl]
          rw [hm]
          have hin : { x with name := w } ∈ fs1.entries := by
            rw [e1]
            exact List.mem_map.2 ⟨x, hx, hm⟩
          have := hg2 _ hin
          generalize hgx : g { x with name := w } = y at this
          cases this with
          | renamed f' dir' w' hf' hw' _ => exact absurd rfl (W1 f' hf' _ _ _ hw').1
          | kept => exact .renamed f dir w (by simp) hw hc
        · have hm : moveEntry e e.dir w x = x := by unfold moveEntry; rw [if_neg hxe]
          rw [hm]
          have hin : x ∈ fs1.entries := by
            rw [e1]
            exact List.mem_map.2 ⟨x, hx, hm⟩
          have := hg2 _ hin
          generalize g x = y at this
          cases this with
          | renamed f' dir' w' hf' hw' hc' =>
            have hw0 := (W1 f' hf' _ _ _ hw').2.2
            exact .renamed f' dir' w' (by simp [hf']) hw0 ((C f' hf' _ _ _ hw0).1 hc')
          | kept hno =>
            refine .kept fun f' hf' dir' w' hw' hc' => ?_
            rcases List.mem_cons.1 hf' with rfl | hf'
            · exact hxe (wants_unique hw' hw)
            · exact hno f' hf' dir' w' (W2 f' hf' _ _ _ hw').2 ((C f' hf' _ _ _ hw').2 hc')
    · obtain ⟨g, hg1, hg2⟩ := ih d2 hs2 hu (fun x hx => hreg x (by simp [hx])) (fun x hx => hsl x (by simp [hx])) hap'.2
      refine ⟨g, hg1, fun x hx => ?_⟩
      have := hg2 x hx
      generalize g x = y at this
      cases this with
      | renamed f' dir' w' hf' hw' hc' => exact .renamed f' dir' w' (by simp [hf']) hw' hc'
      | kept hno' =>
        refine .kept fun f' hf' dir' w' hw' => ?_
        rcases List.mem_cons.1 hf' with rfl | hf'
        · exact hno dir' w' x hw'
        · exact hno' f' hf' dir' w' hw'

end Detox
