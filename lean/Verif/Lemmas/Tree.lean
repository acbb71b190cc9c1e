import Verif.Lemmas.Complete
import Verif.Spec.Tree

/-!
# Lemmas for C98
-/

set_option autoImplicit false

namespace Detox
open Spec

/-! ### Paths -/

theorem walk_prefix (fs : FS) : ∀ (fuel : Nat) (s : Ino) (cs ds : List Bytes) (d : Ino), fs.walk fuel s (cs ++ ds) = some d →
    ∃ x, fs.walk fuel s cs = some x
  | fuel, s, [], ds, d, _ => ⟨s, by cases fuel <;> rfl⟩
  | 0, s, c :: cs, ds, d, h => by simp [FS.walk] at h
  | fuel + 1, s, c :: cs, ds, d, h => by
    rw [List.cons_append, FS.walk] at h
    rw [FS.walk]
    cases hst : fs.step s c with
    | none => simp [hst] at h
    | some j =>
      simp only [hst] at h ⊢
      by_cases hk : fs.kind j = .link
      · simp only [hk, if_true] at h ⊢
        rw [← List.append_assoc] at h
        exact walk_prefix fs fuel _ _ ds d h
      · simp only [hk, if_false] at h ⊢
        exact walk_prefix fs fuel _ _ ds d h

theorem uses_prefix (fs : FS) : ∀ (fuel : Nat) (s : Ino) (cs ds : List Bytes), ∀ x ∈ fs.uses fuel s cs, x ∈ fs.uses fuel s (cs ++ ds)
  | fuel, s, [], ds, x, h => by cases fuel <;> cases h
  | 0, s, c :: cs, ds, x, h => by cases h
  | fuel + 1, s, c :: cs, ds, x, h => by
    rw [List.cons_append, FS.uses]
    rw [FS.uses] at h
    rcases List.mem_append.1 h with h | h
    · exact List.mem_append_left _ h
    · refine List.mem_append_right _ ?_
      cases hst : fs.step s c with
      | none => simp [hst] at h
      | some j =>
        simp only [hst] at h ⊢
        by_cases hk : fs.kind j = .link
        · simp only [hk, if_true] at h ⊢
          rw [← List.append_assoc]
          exact uses_prefix fs fuel _ _ ds x h
        · simp only [hk, if_false] at h ⊢
          exact uses_prefix fs fuel _ _ ds x h

section
variable {depth : Ino → Nat} {slack level : Nat}

/-- A path that ends in a slash, `.` or `..` leads to the same thing as long as the directories above are the same. -/
theorem lookup_same_self {fs fs' : FS} (hs : SameBut fs fs') (ht : fs.Tree depth slack) {f dir name : Bytes} {d : Ino} (h1 : f = dir ++ name)
    (h2 : dir = [] ∨ ∃ d, dir = d ++ [0x2F]) (h3 : name = [] ∨ name = [0x2E] ∨ name = [0x2E, 0x2E]) (h4 : f ≠ [])
    (hl : fs.Leads depth slack level f d) (hf : ∀ x, depth x < level → ∀ n, fs'.find x n = fs.find x n) : fs'.lookup f = fs.lookup f := by
  have hl' := leads_same hs hl hf
  have hstart : fs'.start fs'.cwd f = fs.start fs.cwd f := by obtain ⟨es, rfl⟩ := hs; rfl
  have hk : fs'.kind = fs.kind := by obtain ⟨es, rfl⟩ := hs; rfl
  have hp : fs'.parent = fs.parent := by obtain ⟨es, rfl⟩ := hs; rfl
  have hden : fs'.denied = fs.denied := by obtain ⟨es, rfl⟩ := hs; rfl
  have hb := Nat.le_of_lt (ht.bound d)
  unfold FS.lookup
  rw [hden]
  by_cases hno : f = [] ∨ fs.denied f = true
  · rw [if_pos hno, if_pos hno]
  rw [if_neg hno, if_neg hno]
  by_cases hsl : endsInSlash f = true
  · rw [if_pos hsl, if_pos hsl, walk_more _ _ _ _ _ _ hl.walk hb, walk_more _ _ _ _ _ _ hl'.walk hb, hk]
  · rw [if_neg hsl, if_neg hsl]
    have hdots : name = [0x2E] ∨ name = [0x2E, 0x2E] := by
      rcases h3 with h3 | h3
      · exfalso
        rw [h3, List.append_nil] at h1
        subst h1
        rcases h2 with h2 | ⟨d', h2⟩
        · exact h4 h2
        · apply hsl; rw [h2]; simp [endsInSlash]
      · exact h3
    have hne : name ≠ [] := by rcases hdots with h | h <;> rw [h] <;> simp
    have hsf : (0x2F : Byte) ∉ name := by rcases hdots with h | h <;> rw [h] <;> decide
    have hc : comps f = comps dir ++ [name] := by rw [h1]; exact comps_dir_name h2 hne hsf
    have hw := hl.walk
    have hu := hl.uses
    rw [hc] at hw hu
    obtain ⟨x, hx⟩ := walk_prefix fs _ _ _ _ _ hw
    have hx' : fs'.walk (depth d + slack) (fs'.start fs'.cwd f) (comps dir) = some x := by
      rw [hstart, (walk_same hs _ _ _ fun y hy n => hf y (hu y (uses_prefix fs _ _ _ _ y hy)) n).1]
      exact hx
    unfold FS.dirOf
    rw [hc, List.dropLast_concat, List.getLast?_concat, walk_more _ _ _ _ _ _ hx hb, walk_more _ _ _ _ _ _ hx' hb]
    simp only
    exact fsStep_same hs fun h => absurd hdots h

theorem locate_of_leads {fs : FS} {dir n : Bytes} {x : Ino} (ht : fs.Tree depth slack) (hd : dir = [] ∨ ∃ d, dir = d ++ [0x2F]) (hn : PlainName n)
    (h : fs.Leads depth slack level dir x) (hden : fs.denied (dir ++ n) = false) : fs.locate (dir ++ n) = some (x, n) := by
  unfold FS.locate
  rw [if_neg (by simp [hn.nonempty, hden]), dirOf_leads ht hd hn.nonempty hn.slash h, comps_dir_name hd hn.nonempty hn.slash]
  simp [hn.dot, hn.dots, h.kind]

end

/-! ### Where the names come from -/

/-- Where things stand: `g` says what has become of the entries of `fs0`. -/
structure Now (R : Bytes → Bytes → Prop) (o : Options) (args : List Bytes) (fs0 : FS) (g : Entry → Entry) (fs : FS) : Prop where
  same : fs = { fs0 with entries := fs0.entries.map g }
  each : ∀ e ∈ fs0.entries, g e = e ∨
    ((g e).dir = e.dir ∧ (g e).ino = e.ino ∧ NulFree e.name ∧ R e.name (g e).name ∧ fs0.Treats o args Hidden e)

/-- Those that have their new names keep them. -/
def Later (R : Bytes → Bytes → Prop) (fs0 : FS) (g g' : Entry → Entry) : Prop := ∀ e ∈ fs0.entries, R e.name (g e).name → g' e = g e

theorem Later.refl {R : Bytes → Bytes → Prop} {fs0 : FS} (g : Entry → Entry) : Later R fs0 g g := fun _ _ _ => rfl

theorem Later.trans {R : Bytes → Bytes → Prop} {fs0 : FS} {g g1 g2 : Entry → Entry} (h1 : Later R fs0 g g1) (h2 : Later R fs0 g1 g2) :
    Later R fs0 g g2 := by
  intro e he h
  have := h1 e he h
  rw [h2 e he (by rw [this]; exact h), this]

section
variable {R : Bytes → Bytes → Prop} {o : Options} {args : List Bytes} {fs0 : FS} {g : Entry → Entry} {fs : FS}

theorem Now.sameBut (h : Now R o args fs0 g fs) : SameBut fs0 fs := ⟨_, h.same⟩
theorem Now.kind (h : Now R o args fs0 g fs) : fs.kind = fs0.kind := h.sameBut.kind
theorem Now.norm (h : Now R o args fs0 g fs) : fs.norm = fs0.norm := by rw [h.same]
theorem Now.denied (h : Now R o args fs0 g fs) : fs.denied = fs0.denied := h.sameBut.denied

theorem Now.mem (h : Now R o args fs0 g fs) {y : Entry} (hy : y ∈ fs.entries) : ∃ e ∈ fs0.entries, g e = y := by
  rw [h.same] at hy
  exact List.mem_map.1 hy

theorem Now.place (h : Now R o args fs0 g fs) {e : Entry} (he : e ∈ fs0.entries) : (g e).dir = e.dir ∧ (g e).ino = e.ino := by
  rcases h.each e he with h | h
  · rw [h]; exact ⟨rfl, rfl⟩
  · exact ⟨h.1, h.2.1⟩

/-- What is asked of the relation: one new name for a name, and one pass is enough. -/
structure OnePass (R : Bytes → Bytes → Prop) : Prop where
  one : ∀ a b c, R a b → R a c → b = c
  pass : ∀ m v, NulFree m → R m v → R v v

/-- An entry whose name is to be changed has the name it had at first. -/
theorem Now.untouched (hR : OnePass R) (h : Now R o args fs0 g fs) {e : Entry} {n w : Bytes} (he : e ∈ fs0.entries) (hn : fs0.Literal R n)
    (hnorm : fs0.norm (g e).dir (g e).name = fs0.norm (g e).dir n) (hw : R n w) (hne : w ≠ n) : g e = e ∧ n = e.name := by
  rcases h.each e he with h1 | ⟨h1, h2, h3, h4, _⟩
  · refine ⟨h1, hn e he _ (.inl rfl) ?_⟩
    rw [h1] at hnorm
    exact hnorm.symm
  · exfalso
    rw [h1] at hnorm
    have : n = (g e).name := hn e he _ (.inr h4) hnorm.symm
    have hp := hR.pass _ _ h3 h4
    rw [← this] at hp
    exact hne (hR.one _ _ _ hw hp)

theorem Now.moved (hR : OnePass R) (h : Now R o args fs0 g fs) {e : Entry} {n w : Bytes} (he : e ∈ fs.entries) (hn : fs0.Literal R n) (h0 : NulFree n)
    (hnorm : fs0.norm e.dir e.name = fs0.norm e.dir n) (hw : R n w) (hne : w ≠ n)
    (htr : e ∈ fs0.entries → e.name = n → fs0.Treats o args Hidden e) :
    ∃ g', Now R o args fs0 g' (movedFS fs e w) ∧ Later R fs0 g g' ∧ ∀ y, g y = e → g' y = ⟨e.dir, w, e.ino⟩ := by
  have key : ∀ x ∈ fs0.entries, g x = e → x = e ∧ n = e.name := by
    intro x hx hxe
    obtain ⟨a, b⟩ := h.untouched hR hx hn (by rw [hxe]; exact hnorm) hw hne
    have : x = e := by rw [← a]; exact hxe
    exact ⟨this, by rw [← this]; exact b⟩
  obtain ⟨e0, he0, hge0⟩ := h.mem he
  obtain ⟨h1, h2⟩ := key e0 he0 hge0
  subst h1
  refine ⟨fun x => moveEntry e0 e0.dir w (g x), ⟨?_, ?_⟩, ?_, fun y hy => by simp only [moveEntry, hy, if_true]⟩
  · rw [h.same]
    simp only [movedFS, List.map_map]
    rfl
  · intro x hx
    by_cases hxe : g x = e0
    · obtain ⟨rfl, _⟩ := key x hx hxe
      refine .inr ?_
      simp only [moveEntry, hxe, if_true]
      exact ⟨trivial, trivial, by rw [← h2]; exact h0, by rw [← h2]; exact hw, htr hx h2.symm⟩
    · have : moveEntry e0 e0.dir w (g x) = g x := by simp [moveEntry, hxe]
      rw [this]
      exact h.each x hx
  · intro x hx hrx
    by_cases hxe : g x = e0
    · exfalso
      obtain ⟨rfl, _⟩ := key x hx hxe
      rw [hxe, ← h2] at hrx
      exact hne (hR.one _ _ _ hw hrx)
    · simp [moveEntry, hxe]

/-- `parse_file` on a name in a known directory. -/
theorem fileRun_now {E : List Event} {depth : Ino → Nat} {slack level : Nat} {denied : Bytes → Bool} (hR : OnePass R) (S : ScanSetting R o E denied)
    {W W' : World} (hden : W.fs.denied = denied) (ht : W.fs.Tree depth slack) {dir n p : Bytes} {x : Ino} {mid : List Event}
    (hd : dir = [] ∨ ∃ d, dir = d ++ [0x2F]) (hn : PlainName n) (h0 : (0 : Byte) ∉ n) (hl : W.fs.Leads depth slack level dir x)
    (hf : FileRunBy R o (dir ++ n) mid p) (hs : World.Steps W mid W') (hE : ∀ e ∈ mid, e ∈ E) (hlk : W.fs.denied (dir ++ n) = false)
    (hlit : fs0.Literal R n) (hnow : Now R o args fs0 g W.fs)
    (htr : ∀ e, W.fs.find x n = some e → e ∈ fs0.entries → e.name = n → fs0.Treats o args Hidden e) :
    ∃ g', Now R o args fs0 g' W'.fs ∧ Later R fs0 g g' ∧ ∀ e y, W.fs.find x n = some e → g y = e →
      (g' y = e ∧ (R n n ∨ Complained E (dir ++ n))) ∨ ∃ w, R n w ∧ g' y = ⟨e.dir, w, e.ino⟩ := by
  obtain ⟨f1, f2⟩ := fileRun_exact S hden ht hd hn h0 hl hf hs hE hlk
  cases hfe : W.fs.find x n with
  | none =>
    obtain ⟨rfl, _⟩ := f1 hfe
    exact ⟨g, hnow, .refl g, fun e y h => (by cases h)⟩
  | some e =>
    obtain ⟨he, hed, hnorm⟩ := FS_find_some hfe
    rcases f2 e hfe with ⟨rfl, _, h3⟩ | ⟨w, _, hw, hne, _, _, _, rfl⟩
    · exact ⟨g, hnow, .refl g, fun e' y h hy => .inl ⟨hy, h3⟩⟩
    · obtain ⟨g', h1, h2, h3⟩ := hnow.moved hR he hlit h0 (by rw [← hnow.norm, hed]; exact hnorm) hw hne (htr e hfe)
      refine ⟨g', h1, h2, fun e' y h hy => .inr ⟨w, hw, ?_⟩⟩
      cases h
      exact h3 y hy

/-- The directories that are entered. -/
theorem now_scans (hnow : Now R o args fs0 g fs) {e : Entry} {n : Bytes} (he : e ∈ fs.entries) (hsc : fs0.Scans o args Hidden e.dir) (hh : ¬ Hidden n)
    (hn : fs0.Literal R n) (hnorm : fs0.norm e.dir e.name = fs0.norm e.dir n) (hrec : o.recurse = true) (hk : fs.kind e.ino = .dir) :
    fs0.Scans o args Hidden e.ino := by
  obtain ⟨e0, he0, rfl⟩ := hnow.mem he
  rw [hnow.kind] at hk
  rcases hnow.each e0 he0 with h1 | ⟨h1, h2, _, _, ⟨_, h3⟩⟩
  · rw [h1] at hsc hnorm hk ⊢
    have : n = e0.name := hn e0 he0 _ (.inl rfl) hnorm.symm
    subst this
    exact .sub e0 he0 hsc hrec hk hh
  · rw [h2] at hk ⊢
    rcases h3 with ⟨f, hf, dir, name, h4, h5, h6, h7⟩ | ⟨h3, h4⟩
    · have hsl : endsInSlash f = false := by rw [h4.1]; exact endsInSlash_dir_name h5 h4.2.1
      refine .arg f _ hf ?_ hk
      rw [FS_lookup_locate h6 hsl, h7]
      rfl
    · exact .sub e0 he0 h3 hrec hk h4

end

/-! ### A system that obliges -/

theorem obliges_tail {W W1 : World} {e : Event} {tr : List Event} (h : W.ObligesIn (e :: tr)) (hs : World.Step W e W1) : W1.ObligesIn tr :=
  fun t1 x t2 W2 h1 h2 => h (e :: t1) x t2 W2 (by rw [h1]; rfl) (.cons _ _ _ _ _ hs h2)

theorem obliges_left {W : World} {t1 t2 : List Event} (h : W.ObligesIn (t1 ++ t2)) : W.ObligesIn t1 :=
  fun a x b W2 h1 h2 => h a x (b ++ t2) W2 (by rw [h1]; simp) h2

theorem steps_append {W W1 W2 : World} {t1 t2 : List Event} (h1 : World.Steps W t1 W1) (h2 : World.Steps W1 t2 W2) : World.Steps W (t1 ++ t2) W2 := by
  induction h1 with
  | nil => exact h2
  | cons _ _ _ _ _ h _ ih => exact .cons _ _ _ _ _ h (ih h2)

theorem obliges_right {W W1 : World} {t1 t2 : List Event} (h : W.ObligesIn (t1 ++ t2)) (hs : World.Steps W t1 W1) : W1.ObligesIn t2 :=
  fun a x b W2 h1 h2 => h (t1 ++ a) x b W2 (by rw [h1]; simp) (steps_append hs h2)

section
variable {R : Bytes → Bytes → Prop} {o : Options} {args : List Bytes} {fs0 : FS} {g : Entry → Entry}

theorem Now.names {fs : FS} (h : Now R o args fs0 g fs) (i : Ino) : fs.names i = fs0.names i := by
  unfold FS.names
  rw [h.same]
  have : ∀ l : List Entry, (∀ e ∈ l, (g e).ino = e.ino) → ((l.map g).filter fun e => e.ino = i).length = (l.filter fun e => e.ino = i).length := by
    intro l
    induction l with
    | nil => intro _; rfl
    | cons e l ih =>
      intro hl
      have h1 := hl e (by simp)
      have h2 := ih fun e he => hl e (by simp [he])
      simp only [List.map_cons, List.filter_cons, h1]
      split
      · simp [h2]
      · exact h2
  exact this _ fun e he => (h.place he).2

/-- Where there is room, a name that is wanted is free. -/
theorem Now.room {fs : FS} (hR : OnePass R) (h : Now R o args fs0 g fs) (hroom : fs0.Room R o args) {e e2 : Entry} {w : Bytes} (he : e ∈ fs0.entries)
    (hge : g e = e) (htr : fs0.Treats o args Hidden e) (hw : R e.name w) (hne : w ≠ e.name) (hf : fs.find e.dir w = some e2) :
    e2 = e ∧ fs.kind e.ino ≠ .dir ∧ fs.names e.ino ≤ 1 := by
  obtain ⟨he2, hd2, hn2⟩ := FS_find_some hf
  rw [h.norm] at hn2
  obtain ⟨e3, he3, rfl⟩ := h.mem he2
  rcases h.each e3 he3 with h3 | ⟨h3, _, _, h6, h7⟩
  · rw [h3] at hd2 hn2 ⊢
    obtain ⟨rfl, b, c⟩ := hroom.free e he htr w hw hne e3 he3 hd2 hn2.symm
    exact ⟨rfl, by rw [h.kind]; exact b, by rw [h.names]; exact c⟩
  · rw [h3] at hd2
    have : e3 = e := hroom.apart e he htr e3 he3 h7 hd2 w _ hw h6 hn2.symm
    subst this
    rw [hge] at h6
    exact absurd (hR.one _ _ _ hw h6) hne

theorem Now.entryName {fs : FS} (h : Now R o args fs0 g fs) (hroom : fs0.Room R o args) {y : Entry} (hy : y ∈ fs.entries) : EntryName y.name := by
  obtain ⟨e, he, rfl⟩ := h.mem hy
  rcases h.each e he with hg | ⟨_, _, _, h6, h7⟩
  · rw [hg]; exact hroom.names e he
  · exact (hroom.proper e he h7 _ h6).1

/-- `parse_file` has nothing to complain about. -/
theorem fileRun_quiet {E : List Event} {depth : Ino → Nat} {slack level : Nat} {denied : Bytes → Bool} (hR : OnePass R) (S : ScanSetting R o E denied)
    {W W' : World} (hden : W.fs.denied = denied) (ht : W.fs.Tree depth slack) {dir n p : Bytes} {x : Ino} {mid : List Event}
    (hd : dir = [] ∨ ∃ d, dir = d ++ [0x2F]) (hn : PlainName n) (h0 : (0 : Byte) ∉ n) (hl : W.fs.Leads depth slack level dir x)
    (hf : FileRunBy R o (dir ++ n) mid p) (hs : World.Steps W mid W') (hE : ∀ e ∈ mid, e ∈ E) (hlk : W.fs.denied (dir ++ n) = false)
    (hlit : fs0.Literal R n) (hnow : Now R o args fs0 g W.fs) (hroom : fs0.Room R o args) (hob : W.ObligesIn mid)
    (htr : ∀ e, W.fs.find x n = some e → e ∈ fs0.entries → e.name = n → fs0.Treats o args Hidden e) : ∀ s, Event.err s ∉ mid := by
  have split : ∀ {dir' name' : Bytes}, SplitsAs (dir ++ n) dir' name' → dir' = dir ∧ name' = n := by
    intro dir' name' h
    have h1 : SplitsAs (dir ++ n) dir n := ⟨rfl, hn.slash, hd⟩
    exact ⟨(splitsAs_unique h).1.trans (splitsAs_unique h1).1.symm, (splitsAs_unique h).2.trans (splitsAs_unique h1).2.symm⟩
  have hlook := lookup_leads ht hd hn hl hlk
  have hsl : endsInSlash (dir ++ n) = false := endsInSlash_dir_name hn.nonempty hn.slash
  -- the entry, and what is at the new name
  have facts : ∀ {w : Bytes} {so : Stat}, R n w → w ≠ n → W.fs.lstat (dir ++ n) = some so → W.fs.denied (dir ++ w) = false →
      (∀ sn, W.fs.lstat (dir ++ w) = some sn → sn.dev = so.dev ∧ sn.ino = so.ino ∧ so.nlink ≤ 1) ∧
      ∃ fs', W.fs.rename (dir ++ n) (dir ++ w) = some fs' ∧ ∀ x ∈ fs'.entries, EntryName x.name := by
    intro w so hw hne hso hdw
    obtain ⟨i, hi, hi1, hi2⟩ := FS_lstat_some hso
    have hi' := hi
    rw [hlook] at hi'
    obtain ⟨e, hfe, rfl⟩ := Option.map_eq_some_iff.1 hi'
    obtain ⟨he, hed, hnorm⟩ := FS_find_some hfe
    obtain ⟨e0, he0, rfl⟩ := hnow.mem he
    obtain ⟨hge, hname⟩ := hnow.untouched hR he0 hlit (by rw [← hnow.norm, hed]; exact hnorm) hw hne
    rw [hge] at hfe hed hi hi1 hi2
    have htr0 := htr e0 hfe he0 hname.symm
    subst hname
    obtain ⟨p1, p2, p3⟩ := hroom.proper e0 he0 htr0 w hw
    have hwp : PlainName w := ⟨p1.nonempty, p1.slash, p2, p3⟩
    have hlook2 := lookup_leads ht hd hwp hl hdw
    have hloc1 := locate_of_leads ht hd hn hl hlk
    have hloc2 := locate_of_leads ht hd hwp hl hdw
    have hsl2 : endsInSlash (dir ++ w) = false := endsInSlash_dir_name hwp.nonempty hwp.slash
    refine ⟨fun sn hsn => ?_, ?_⟩
    · obtain ⟨j, hj, hj1, hj2⟩ := FS_lstat_some hsn
      rw [hlook2] at hj
      obtain ⟨e2, hfe2, rfl⟩ := Option.map_eq_some_iff.1 hj
      obtain ⟨rfl, r2, r3⟩ := hnow.room hR hroom he0 hge htr0 hw hne (by rw [hed]; exact hfe2)
      refine ⟨by rw [hj1, hi1], by rw [hj2, hi2], ?_⟩
      unfold FS.lstat at hso
      rw [hi, Option.map_some, if_neg r2] at hso
      cases hso
      exact r3
    · refine ⟨{ W.fs with entries := W.fs.entries.map (moveEntry e0 x w) }, ?_, fun y hy => ?_⟩
      · unfold FS.rename
        rw [hloc1, hloc2]
        dsimp only
        rw [hfe]
        dsimp only
        rw [if_neg (by simp [hsl]), if_neg (by simp [hsl2]), if_neg (by simp)]
        cases hfw : W.fs.find x w with
        | none => rfl
        | some e2 =>
          obtain ⟨rfl, _, _⟩ := hnow.room hR hroom he0 hge htr0 hw hne (by rw [hed]; exact hfw)
          simp [hsl2]
      · obtain ⟨z, hz, rfl⟩ := List.mem_map.1 hy
        unfold moveEntry
        split
        · exact p1
        · exact hnow.entryName hroom hz
  intro s hm
  cases hf with
  | clean => cases hm
  | gone => simp at hm
  | dry _ _ _ _ _ _ _ _ _ _ _ h => rw [S.wet] at h; cases h
  | renamed => revert hm; split <;> simp
  | refused dir' name' w so sn h1 h2 h3 h4 h5 h6 =>
    obtain ⟨rfl, rfl⟩ := split h1
    obtain ⟨a, b⟩ := world_lstat hs
    obtain ⟨a2, b⟩ := world_lstat b
    exact h6 ((facts h4 h5 a (by rw [hden]; exact S.allowed _ (some sn) (hE _ (by simp)))).1 sn a2)
  | failed dir' name' w so rn h1 h2 h3 h4 h5 h6 h7 =>
    obtain ⟨rfl, rfl⟩ := split h1
    have hs' := hs
    rw [List.append_assoc] at hs
    simp only [List.cons_append, List.nil_append] at hs
    obtain ⟨a, b⟩ := world_lstat hs
    obtain ⟨a2, b⟩ := world_lstat b
    obtain ⟨fs', hfs, hgood⟩ := (facts h4 h5 a (by rw [hden]; exact S.allowed _ rn (hE _ (by simp)))).2
    suffices hst : World.Steps W _ W by
      obtain ⟨x, hx, hbad⟩ := (hob _ _ _ W rfl hst).rename _ _ rfl fs' hfs
      exact hbad (hgood x hx)
    refine .cons _ _ _ _ _ (.lstat _ _ _ a) (.cons _ _ _ _ _ (.lstat _ _ _ a2) ?_)
    split
    · exact .nil _
    · exact .cons _ _ _ _ _ (.out _ _) (.nil _)

end

/-! ### The scan -/

section
variable {R : Bytes → Bytes → Prop} {o : Options} {E : List Event} {depth : Ino → Nat} {slack : Nat} {args ws : List Bytes} {fs0 : FS}

/-- What a task does to the names; and if the system obliges and there is room for the names, it does not complain. -/
def ScanNow (R : Bytes → Bytes → Prop) (o : Options) (args : List Bytes) (fs0 : FS) (depth : Ino → Nat) (slack : Nat) (tr : List Event) : Task → World → World → Prop
  | .dir p, W, W' => p ≠ [] → ∀ d, W.fs.Leads depth slack (depth d) p d → W.fs.lookup p = some d → fs0.Scans o args Hidden d →
      ∀ g, Now R o args fs0 g W.fs → (∃ g', Now R o args fs0 g' W'.fs ∧ Later R fs0 g g') ∧ (fs0.Room R o args → W.ObligesIn tr → ∀ s, Event.err s ∉ tr)
  | .entries h p _, W, W' => ∀ d owed, W.streams h = some ⟨d, owed⟩ → p ≠ [] → W.fs.Leads depth slack (depth d) p d → fs0.Scans o args Hidden d →
      ∀ g, Now R o args fs0 g W.fs → (∃ g', Now R o args fs0 g' W'.fs ∧ Later R fs0 g g') ∧ (fs0.Room R o args → W.ObligesIn tr → ∀ s, Event.err s ∉ tr)

/-- The world after `parse_file` on an entry of an open directory. -/
theorem fileRun_stays {level : Nat} {denied : Bytes → Bool} (S : ScanSetting R o E denied)
    {W W' : World} (hden : W.fs.denied = denied) (ht : W.fs.Tree depth slack) {dir n p : Bytes} {x : Ino} {mid : List Event}
    (hd : dir = [] ∨ ∃ d, dir = d ++ [0x2F]) (hn : PlainName n) (h0 : (0 : Byte) ∉ n) (hl : W.fs.Leads depth slack level dir x)
    (hf : FileRunBy R o (dir ++ n) mid p) (hs : World.Steps W mid W') (hE : ∀ e ∈ mid, e ∈ E) (hlk : W.fs.denied (dir ++ n) = false) :
    SameBut W.fs W'.fs ∧ W'.fs.Tree depth slack ∧ (∀ y, depth y < level → ∀ m, W'.fs.find y m = W.fs.find y m) ∧
      (∀ k s, W.streams k = some s → ∃ s', W'.streams k = some s' ∧ s'.dir = s.dir) ∧
      ((W.fs.find x n = none ∧ W' = W ∧ p = dir ++ n) ∨ ∃ e w, W.fs.find x n = some e ∧ p = dir ++ w ∧ PlainName w ∧
        W'.fs.find x w = some ⟨x, (if w = n then e.name else w), e.ino⟩ ∧ W'.fs.denied (dir ++ w) = false) := by
  obtain ⟨f1, f2⟩ := fileRun_exact S hden ht hd hn h0 hl hf hs hE hlk
  cases hfe : W.fs.find x n with
  | none =>
    obtain ⟨rfl, rfl⟩ := f1 hfe
    exact ⟨.refl _, ht, fun _ _ _ => rfl, fun k s h => ⟨s, h, rfl⟩, .inl ⟨rfl, rfl, rfl⟩⟩
  | some e =>
    obtain ⟨he, hed, hnorm⟩ := FS_find_some hfe
    rcases f2 e hfe with ⟨rfl, rfl, _⟩ | ⟨w, hw, _, hne, rfl, hfree, hdw, rfl⟩
    · refine ⟨.refl _, ht, fun _ _ _ => rfl, fun k s h => ⟨s, h, rfl⟩, .inr ⟨e, n, rfl, rfl, hn, ?_, hlk⟩⟩
      rw [hfe, if_pos rfl, ← hed]
    · rw [← hed] at hfree
      refine ⟨⟨_, rfl⟩, moved_tree ht he hfree, fun y hy m => moved_find (fun h => ?_) m, fun k s h => ⟨Stream.after (movedFS W.fs e w) s, ?_, rfl⟩,
        .inr ⟨e, w, rfl, rfl, hw, ?_, hdw⟩⟩
      · have := hl.deep
        rw [h, hed] at hy
        omega
      · simp [World.moved, h]
      · have := moved_here ht he hfree
        rw [hed] at this
        rw [if_neg hne]
        exact this

theorem scan_now {denied : Bytes → Bool} (hR : OnePass R) (S : ScanSetting R o E denied) (hlit : ∀ h n, Event.readdir h (some n) ∈ E → fs0.Literal R n)
    {t : Task} {seen seen' : List Bytes} {tr : List Event} (h : ScanBy R o ws t seen tr seen') : (∀ e ∈ tr, e ∈ E) → ∀ W W' : World,
    W.fs.denied = denied → W.fs.Tree depth slack → World.Steps W tr W' → ScanNow R o args fs0 depth slack tr t W W' := by
  induction h with
  | gone p seen =>
    intro hE W W' hden ht hs hp d hl hlk hsc g hg
    obtain ⟨_, b⟩ := world_lstat hs
    rw [world_nil b]
    exact ⟨⟨g, hg, .refl g⟩, fun _ _ s hm => by simp at hm⟩
  | replaced p st seen hk =>
    intro hE W W' hden ht hs hp d hl hlk hsc g hg
    obtain ⟨_, b⟩ := world_lstat hs
    rw [world_nil b]
    exact ⟨⟨g, hg, .refl g⟩, fun _ _ s hm => by simp at hm⟩
  | closed p st seen hk =>
    intro hE W W' hden ht hs hp d hl hlk hsc g hg
    obtain ⟨a, b⟩ := world_lstat hs
    have hd : W.fs.denied p = false := by rw [hden]; exact S.allowed p (some st) (hE _ (by simp))
    have hfo := follow_leads ht hp hd hl
    cases b with
    | cons _ _ _ _ _ s1 t1 =>
      cases s1 with
      | refused _ _ hno =>
        refine ⟨⟨g, by rw [world_nil (world_err t1)]; exact hg, .refl g⟩, fun _ hob => ?_⟩
        exact absurd hl.kind ((hob [_] _ _ W rfl (.cons _ _ _ _ _ (.lstat _ _ _ a) (.nil _))).opendir p _ rfl hno d hfo)
  | opened p st h seen seen' tr hk _ ih =>
    intro hE W W' hden ht hs hp d hl hlk hsc g hg
    obtain ⟨a, b⟩ := world_lstat hs
    have hd : W.fs.denied p = false := by rw [hden]; exact S.allowed p (some st) (hE _ (by simp))
    have hfo := follow_leads ht hp hd hl
    cases b with
    | cons _ _ _ _ _ s1 t1 =>
      cases s1 with
      | refused _ _ hno => exact absurd rfl (hno h)
      | opened _ _ d' h1 h2 h3 =>
        rw [hfo] at h1
        cases h1
        clear hs
        obtain ⟨k1, k2⟩ := ih (fun e he => hE e (by simp [he])) (W.inside h d p) _ hden ht t1 d (W.fs.namesIn d) (by simp [World.inside]) hp hl hsc g hg
        refine ⟨k1, fun hroom hob s hm => k2 hroom (obliges_tail (obliges_tail hob (.lstat _ _ _ a)) (.opened _ _ _ _ hfo h2 h3)) s ?_⟩
        simpa using hm
  | finish h p st seen =>
    intro hE W W' hden ht hs d owed hst hp hl hsc g hg
    cases hs with
    | cons _ _ _ _ _ s1 t1 =>
      cases s1 with
      | finished _ s h1 h2 =>
        cases t1 with
        | cons _ _ _ _ _ s2 t2 =>
          cases s2
          rw [world_nil t2]
          exact ⟨⟨g, hg, .refl g⟩, fun _ _ s hm => by simp at hm⟩
  | pass h p st name seen seen' tr hpass _ ih =>
    intro hE W W' hden ht hs d owed hst hp hl hsc g hg
    obtain ⟨hen, hs⟩ := world_readdir hst hs
    obtain ⟨k1, k2⟩ := ih (fun e he => hE e (by simp [he])) (W.given h d owed name) _ hden ht hs d (owed.filter (· ≠ name)) (by simp [World.given]) hp hl hsc g hg
    refine ⟨k1, fun hroom hob s hm => k2 hroom (obliges_tail hob (.entry _ _ _ _ hst hen)) s ?_⟩
    simpa using hm
  | leave h p st name r seen seen' tr hpass hkd hkr hsp _ ih =>
    intro hE W W' hden ht hs d owed hst hp hl hsc g hg
    obtain ⟨hen, hs⟩ := world_readdir hst hs
    obtain ⟨a, hs⟩ := world_lstat hs
    obtain ⟨k1, k2⟩ := ih (fun e he => hE e (by simp [he])) (W.given h d owed name) _ hden ht hs d (owed.filter (· ≠ name)) (by simp [World.given]) hp hl hsc g hg
    refine ⟨k1, fun hroom hob s hm => k2 hroom (obliges_tail (obliges_tail hob (.entry _ _ _ _ hst hen)) (.lstat _ _ _ a)) s ?_⟩
    simpa using hm
  | file h p st name r seen seen' mid tr q hpass hkind hf _ ih =>
    intro hE W W' hden ht hs d owed hst hp hl hsc g hg
    obtain ⟨hen, hs⟩ := world_readdir hst hs
    obtain ⟨a, hs⟩ := world_lstat hs
    obtain ⟨W4, hs1, hs2⟩ := World.Steps.append_inv hs
    have hh : ¬ Hidden name := fun h0 => hpass (.inl h0)
    have hplain : PlainName name := ⟨hen.nonempty, hen.slash, fun h0 => hpass (.inl ⟨_, h0⟩), fun h0 => hpass (.inl ⟨_, h0⟩)⟩
    have hl1 : fs0.Literal R name := hlit h name (hE _ (by simp))
    rw [entryPath_short hen.short] at a hE hf
    have hallow : W.fs.denied ((p ++ [0x2F]) ++ name) = false := by rw [hden]; exact S.allowed _ r (hE _ (by simp))
    have hls := leads_slash hp hl
    have hlk := lookup_leads ht (.inr ⟨p, rfl⟩) hplain hls hallow
    have hmid : ∀ e ∈ mid, e ∈ E := fun e he => hE e (by simp [he])
    have htr : ∀ e, (W.given h d owed name).fs.find d name = some e → e ∈ fs0.entries → e.name = name → fs0.Treats o args Hidden e := by
      intro e hfe he hne
      obtain ⟨_, hed, _⟩ := FS_find_some hfe
      rw [show W.fs.find d name = some e from hfe] at hlk
      refine ⟨?_, .inr ⟨by rw [hed]; exact hsc, by rw [hne]; exact hh⟩⟩
      cases r with
      | none => rw [show (W.given h d owed name).fs = W.fs from rfl] at a; rw [lookup_none a] at hlk; cases hlk
      | some st' =>
        obtain ⟨b, _, _⟩ := lstat_kind hlk a
        rw [hg.kind] at b
        simp only [Option.getD_some, b] at hkind
        rcases hkind with h1 | h1 | h1
        · exact .inl h1.1
        · exact .inr (.inl h1)
        · exact .inr (.inr h1.2)
    obtain ⟨g1, hg1, hg2, _⟩ := fileRun_now (W := W.given h d owed name) hR S hden ht (.inr ⟨p, rfl⟩) hplain hen.nul hls hf hs1 hmid hallow hl1 hg htr
    obtain ⟨k1, k2, k3, k4, _⟩ := fileRun_stays (W := W.given h d owed name) S hden ht (.inr ⟨p, rfl⟩) hplain hen.nul hls hf hs1 hmid hallow
    obtain ⟨⟨d4, owed4⟩, hs4, hd4⟩ := k4 h ⟨d, owed.filter (· ≠ name)⟩ (by simp [World.given])
    dsimp only at hd4
    subst hd4
    obtain ⟨⟨g', h1, h2⟩, h3⟩ := ih (fun e he => hE e (by simp [he])) W4 W' (by rw [k1.denied]; exact hden) k2 hs2 d4 owed4 hs4 hp
      (leads_same k1 hl k3) hsc g1 hg1
    refine ⟨⟨g', h1, hg2.trans h2⟩, fun hroom hob s hm => ?_⟩
    have hob2 := obliges_tail (obliges_tail hob (.entry _ _ _ _ hst hen)) (.lstat _ _ _ (by rw [entryPath_short hen.short]; exact a))
    simp only [List.mem_cons, List.mem_append, reduceCtorEq, false_or] at hm
    rcases hm with hm | hm
    · exact fileRun_quiet (W := W.given h d4 owed name) hR S hden ht (.inr ⟨p, rfl⟩) hplain hen.nul hls hf hs1 hmid hallow hl1 hg hroom (obliges_left hob2) htr s hm
    · exact h3 hroom (obliges_right hob2 hs1) s hm
  | recurse h p st name r seen seen1 seen' mid sub tr q hpass hkind hrec hf hsub _ ih1 ih2 =>
    intro hE W W' hden ht hs d owed hst hp hl hsc g hg
    obtain ⟨hen, hs⟩ := world_readdir hst hs
    obtain ⟨a, hs⟩ := world_lstat hs
    obtain ⟨W3, hs1, hs2⟩ := World.Steps.append_inv hs
    obtain ⟨W4, hs2, hs3⟩ := World.Steps.append_inv hs2
    have hh : ¬ Hidden name := fun h0 => hpass (.inl h0)
    have hplain : PlainName name := ⟨hen.nonempty, hen.slash, fun h0 => hpass (.inl ⟨_, h0⟩), fun h0 => hpass (.inl ⟨_, h0⟩)⟩
    have hl1 : fs0.Literal R name := hlit h name (hE _ (by simp))
    rw [entryPath_short hen.short] at a hE hf
    have hallow : W.fs.denied ((p ++ [0x2F]) ++ name) = false := by rw [hden]; exact S.allowed _ r (hE _ (by simp))
    have hls := leads_slash hp hl
    have hlk := lookup_leads ht (.inr ⟨p, rfl⟩) hplain hls hallow
    have hmid : ∀ e ∈ mid, e ∈ E := fun e he => hE e (by simp [he])
    have hsubE : ∀ e ∈ sub, e ∈ E := fun e he => hE e (by simp [he])
    have iskind : ∀ e, W.fs.find d name = some e → W.fs.kind e.ino = .dir := by
      intro e hfe
      rw [hfe] at hlk
      cases r with
      | none => rw [show (W.given h d owed name).fs = W.fs from rfl] at a; rw [lookup_none a] at hlk; cases hlk
      | some st' =>
        obtain ⟨b, _, _⟩ := lstat_kind hlk a
        simp only [Option.getD_some, b] at hkind
        exact hkind
    have htr : ∀ e, (W.given h d owed name).fs.find d name = some e → e ∈ fs0.entries → e.name = name → fs0.Treats o args Hidden e := by
      intro e hfe he hne
      obtain ⟨_, hed, _⟩ := FS_find_some hfe
      have := iskind e hfe
      rw [hg.kind] at this
      exact ⟨.inl this, .inr ⟨by rw [hed]; exact hsc, by rw [hne]; exact hh⟩⟩
    obtain ⟨g1, hg1, hg2, _⟩ := fileRun_now (W := W.given h d owed name) hR S hden ht (.inr ⟨p, rfl⟩) hplain hen.nul hls hf hs1 hmid hallow hl1 hg htr
    obtain ⟨k1, k2, k3, k4, k5⟩ := fileRun_stays (W := W.given h d owed name) S hden ht (.inr ⟨p, rfl⟩) hplain hen.nul hls hf hs1 hmid hallow
    obtain ⟨s3, hs3', hd3⟩ := k4 h ⟨d, owed.filter (· ≠ name)⟩ (by simp [World.given])
    have hden3 : W3.fs.denied = denied := by rw [k1.denied]; exact hden
    have hl3 := leads_same k1 hl k3
    have hls3 := leads_same k1 hls k3
    have goal1 := scan_goal S hsub hsubE W3 W4 hden3 k2 hs2
    -- the subdirectory
    have sub4 : ((∃ g2, Now R o args fs0 g2 W4.fs ∧ Later R fs0 g1 g2) ∧ (fs0.Room R o args → W3.ObligesIn sub → ∀ s, Event.err s ∉ sub)) ∧ SameBut W3.fs W4.fs ∧ W4.fs.Tree depth slack ∧
        (∀ y, depth y < depth d → ∀ m, W4.fs.find y m = W3.fs.find y m) ∧ ∃ s4, W4.streams h = some s4 ∧ s4.dir = d := by
      rcases k5 with ⟨hno, hW, rfl⟩ | ⟨e, w, hfe, rfl, hw, hhere, hdw⟩
      · have hlk3 : W3.fs.lookup ((p ++ [0x2F]) ++ name) = none := by
          rw [hW]
          show W.fs.lookup _ = none
          rw [hlk, show W.fs.find d name = none from hno]
          rfl
        have hno4 : ∀ s, Event.err s ∉ sub := by
          intro s hm
          have hl0 := lstat_none hlk3
          cases hsub with
          | gone => simp at hm
          | replaced _ _ _ _ => simp at hm
          | closed _ _ _ _ => rw [(world_lstat hs2).1] at hl0; cases hl0
          | opened _ _ _ _ _ _ _ _ => rw [(world_lstat hs2).1] at hl0; cases hl0
        have := (goal1 (by simp)).1 hlk3
        subst this
        exact ⟨⟨⟨g1, hg1, .refl g1⟩, fun _ _ => hno4⟩, .refl _, k2, fun _ _ _ => rfl, s3, hs3', hd3⟩
      · have hkd := iskind e hfe
        obtain ⟨he, hed, hnorm⟩ := FS_find_some (show W.fs.find d name = some e from hfe)
        have hkd3 : W3.fs.kind e.ino = .dir := by rw [k1.kind]; exact hkd
        have hlev := ht.level e he hkd
        rw [hed] at hlev
        have hlk3 := lookup_leads k2 (.inr ⟨p, rfl⟩) hw hls3 hdw
        rw [hhere] at hlk3
        have hle := leads_entry (e := ⟨d, (if w = name then e.name else w), e.ino⟩) k2 (.inr ⟨p, rfl⟩) hw hls3 hhere hkd3
        obtain ⟨c1, _⟩ := (goal1 (by simp)).2 e.ino hle hlk3
        have hsc' : fs0.Scans o args Hidden e.ino :=
          now_scans hg he (by rw [hed]; exact hsc) hh hl1 (by rw [← hg.norm, hed]; exact hnorm) hrec hkd
        obtain ⟨s4, h4, hd4⟩ := c1.streams h s3 (fun x => x) hs3'
        exact ⟨ih1 hsubE W3 W4 hden3 k2 hs2 (by simp) e.ino hle hlk3 hsc' g1 hg1, c1.same, c1.tree, fun y hy m => c1.finds y (by omega) m,
          s4, h4, hd4.trans hd3⟩
    obtain ⟨⟨⟨g2, hg3, hg4⟩, mq⟩, m1, m2, m3, ⟨d4, owed4⟩, m4, m5⟩ := sub4
    dsimp only at m5
    subst m5
    obtain ⟨⟨g', h1, h2⟩, h3⟩ := ih2 (fun e he => hE e (by simp [he])) W4 W' (by rw [m1.denied]; exact hden3) m2 hs3 d4 owed4 m4 hp
      (leads_same m1 hl3 m3) hsc g2 hg3
    refine ⟨⟨g', h1, (hg2.trans hg4).trans h2⟩, fun hroom hob s hm => ?_⟩
    have hob2 := obliges_tail (obliges_tail hob (.entry _ _ _ _ hst hen)) (.lstat _ _ _ (by rw [entryPath_short hen.short]; exact a))
    have hob3 := obliges_right hob2 hs1
    simp only [List.mem_cons, List.mem_append, reduceCtorEq, false_or] at hm
    rcases hm with hm | hm | hm
    · exact fileRun_quiet (W := W.given h d4 owed name) hR S hden ht (.inr ⟨p, rfl⟩) hplain hen.nul hls hf hs1 hmid hallow hl1 hg hroom (obliges_left hob2) htr s hm
    · exact mq hroom (obliges_left hob3) s hm
    · exact h3 hroom (obliges_right hob3 hs2) s hm

/-! ### The arguments -/

theorem pairwise_pick {α : Type} {S : α → α → Prop} : ∀ {l : List α}, l.Pairwise S → ∀ {a b : α}, a ∈ l → b ∈ l → a ≠ b → S a b ∨ S b a
  | [], _, _, _, h, _, _ => by cases h
  | x :: l, hp, a, b, ha, hb, hne => by
    rw [List.pairwise_cons] at hp
    rcases List.mem_cons.1 ha with h1 | h1 <;> rcases List.mem_cons.1 hb with h2 | h2
    · exact absurd (h1.trans h2.symm) hne
    · rw [h1]; exact .inl (hp.1 b h2)
    · rw [h2]; exact .inr (hp.1 a h1)
    · exact pairwise_pick hp.2 h1 h2 hne

/-- The name of an argument means the entry it meant at first, if it means anything. -/
theorem Now.find_back {fs : FS} {g : Entry → Entry} (hR : OnePass R) (hnow : Now R o args fs0 g fs) (hu0 : fs0.Unique) (hu : fs.Unique) {x : Ino} {n : Bytes}
    (hn : fs0.Literal R n) {e e0 : Entry} (h : fs.find x n = some e) (h0 : fs0.find x n = some e0) : e = e0 ∧ g e0 = e0 ∧ n = e0.name := by
  obtain ⟨he, hed, hnorm⟩ := FS_find_some h
  obtain ⟨he0, hed0, hnorm0⟩ := FS_find_some h0
  have hname : n = e0.name := hn e0 he0 _ (.inl rfl) (by rw [hed0]; exact hnorm0.symm)
  rw [hnow.norm] at hnorm
  obtain ⟨e1, he1, rfl⟩ := hnow.mem he
  rcases hnow.each e1 he1 with h1 | ⟨h1, h2, h3, h4, _⟩
  · rw [h1] at hed hnorm ⊢
    have : e1 = e0 := hu0.eq he1 he0 (hed.trans hed0.symm) (by rw [hed, hed0, hnorm, hnorm0])
    rw [this] at h1 ⊢
    exact ⟨rfl, h1, hname⟩
  · have hname1 : n = (g e1).name := hn e1 he1 _ (.inr h4) (by rw [← h1, hed]; exact hnorm.symm)
    have hnn : R n n := by rw [hname1]; exact hR.pass _ _ h3 h4
    have hg0 : g e0 = e0 := by
      rcases hnow.each e0 he0 with h5 | ⟨h5, h6, _, h7, _⟩
      · exact h5
      · rw [← hname] at h7
        have := hR.one _ _ _ h7 hnn
        cases hg : g e0 with
        | mk a b c =>
          rw [hg] at h5 h6 this
          cases e0
          simp only at h5 h6 this hname
          rw [h5, h6, this, hname]
    by_cases hee : e1 = e0
    · rw [hee]; exact ⟨hg0, hg0, hname⟩
    · exfalso
      have hpw := hu
      unfold FS.Unique at hpw
      rw [hnow.norm] at hpw
      rw [hnow.same] at hpw
      rw [show ({ fs0 with entries := fs0.entries.map g } : FS).entries = fs0.entries.map g from rfl, List.pairwise_map] at hpw
      have hbad : (g e1).dir = (g e0).dir ∧ fs0.norm (g e1).dir (g e1).name = fs0.norm (g e0).dir (g e0).name := by
        rw [hg0, ← hname1, ← hname, hed, hed0]
        exact ⟨rfl, rfl⟩
      rcases pairwise_pick hpw he1 he0 hee with h | h
      · exact h hbad
      · exact h ⟨hbad.1.symm, hbad.2.symm⟩

theorem isAt_dots {fs : FS} {f dir name : Bytes} {e : Entry} (h1 : f = dir ++ name) (h2 : dir = [] ∨ ∃ d, dir = d ++ [0x2F])
    (h3 : name = [] ∨ name = [0x2E] ∨ name = [0x2E, 0x2E]) : ¬ fs.IsAt f e := by
  rintro ⟨dir', name', h4, h5, h6, h7⟩
  have hsp : SplitsAs f dir name := by
    refine ⟨h1, ?_, h2⟩
    rcases h3 with rfl | rfl | rfl <;> decide
  have hn : name' = name := (splitsAs_unique h4).2.trans (splitsAs_unique hsp).2.symm
  subst hn
  rcases h3 with h3 | h3
  · exact h5 h3
  unfold FS.locate at h6
  split at h6
  · cases h6
  · have : comps f = comps dir ++ [name'] := by rw [h1]; exact comps_dir_name h2 h5 hsp.2.1
    rw [this, List.getLast?_concat] at h6
    split at h6
    · rename_i heq
      cases heq
      rw [if_pos (by rcases h3 with h | h <;> simp [h])] at h6
      cases h6
    · cases h6

/-- What an argument leads to. Where `parse_file` does not rename, there may be a reason `Q`, one that lasts. -/
theorem arg_now_if {denied : Bytes → Bool} {level : Nat} {Q : FS → Entry → Prop} (hR : OnePass R) (S : ScanSetting R o E denied)
    (hlit : ∀ h n, Event.readdir h (some n) ∈ E → fs0.Literal R n) {f : Bytes} {seen seen' : List Bytes} {tr : List Event}
    (h : ArgScanBy R o ws f seen tr seen') (hE : ∀ e ∈ tr, e ∈ E) {W W' : World} (hden : W.fs.denied = denied) (ht0 : fs0.Tree depth slack)
    (ht : W.fs.Tree depth slack) (hst : fs0.Steady depth slack level f) (hfinds : ∀ x, depth x < level → ∀ n, W.fs.find x n = fs0.find x n)
    (h0 : (0 : Byte) ∉ f) (hf : f ∈ args) (hex : fs0.lookup f ≠ none) (hlf : ∀ dir name, SplitsAs f dir name → fs0.Literal R name)
    (hs : World.Steps W tr W') {g : Entry → Entry} (hnow : Now R o args fs0 g W.fs) (hmiss : W.fs.lookup f ≠ none)
    (hlast : ∀ (g g' : Entry → Entry) (fs fs' : FS) (e : Entry), Now R o args fs0 g fs → Now R o args fs0 g' fs' → Later R fs0 g g' → e ∈ fs0.entries →
      NulFree e.name → Q fs e → Q fs' e)
    (hfile : ∀ (dir n p : Bytes) (x : Ino) (e : Entry) (mid rest : List Event) (r : Option Stat), f = dir ++ n → (dir = [] ∨ ∃ d, dir = d ++ [0x2F]) →
      PlainName n → W.fs.Leads depth slack level dir x → W.fs.find x n = some e → e.name = n → FileRunBy R o f mid p → tr = .lstat f r :: (mid ++ rest) →
      World.Steps W mid W → W.fs.denied f = false → R n n ∨ Q W.fs e) :
    ∃ g', Now R o args fs0 g' W'.fs ∧ Later R fs0 g g' ∧
      (∀ e, fs0.IsAt f e → (fs0.kind e.ino = .dir ∨ fs0.kind e.ino = .reg ∨ o.special = true) → R e.name (g' e).name ∨ Q W'.fs e) ∧
      ∀ d, fs0.lookup f = some d → fs0.kind d = .dir → Entered W' d := by
  have hsame := hnow.sameBut
  have hstW := steady_same hsame hst hfinds
  obtain ⟨_, _, hent⟩ := arg_goal S h hE hden ht hstW h0 hs
  obtain ⟨i0, hi0⟩ := Option.ne_none_iff_exists'.1 hex
  cases hst with
  | self dir name d g1 g2 g3 g4 g5 =>
    have hlk := lookup_same_self hsame ht0 g1 g2 g3 g4 g5 hfinds
    have hat : ∀ e, ¬ fs0.IsAt f e := fun e => isAt_dots g1 g2 g3
    have hEnt : ∀ d, fs0.lookup f = some d → fs0.kind d = .dir → Entered W' d :=
      fun d hd hk => hent d (hlk.trans hd) (by rw [hnow.kind]; exact hk)
    have g5' := leads_same hsame g5 hfinds
    cases h with
    | missing _ => exact absurd (lookup_none (world_lstat hs).1) hmiss
    | leave st _ h1 h2 h3 =>
      obtain ⟨a, b⟩ := world_lstat hs
      rw [world_nil b]
      exact ⟨g, hnow, .refl g, fun e he => absurd he (hat e), by rw [← world_nil b]; exact hEnt⟩
    | file st _ mid p hk hfr =>
      obtain ⟨a, b⟩ := world_lstat hs
      obtain ⟨rfl, rfl⟩ := fileRun_self S.empty hfr g1 g2 g3
      rw [world_nil b]
      exact ⟨g, hnow, .refl g, fun e he => absurd he (hat e), by rw [← world_nil b]; exact hEnt⟩
    | dir st _ _ mid sub p hk hfr hsub =>
      obtain ⟨a, b⟩ := world_lstat hs
      obtain ⟨rfl, rfl⟩ := fileRun_self S.empty hfr g1 g2 g3
      rw [List.nil_append] at b
      obtain ⟨i, hi, _, _⟩ := FS_lstat_some a
      have hki := (lstat_kind hi a).1.symm.trans hk
      have hid := lookup_self g5' hi hki
      subst hid
      obtain ⟨⟨g', h1, h2⟩, _⟩ := scan_now hR S hlit hsub (fun e he => hE e (by simp [he])) W W' hden ht b g4 i (leads_level g5') hi
        (.arg p i hf (hlk.symm.trans hi) (by rw [← hnow.kind]; exact hki)) g hnow
      exact ⟨g', h1, h2, fun e he => absurd he (hat e), hEnt⟩
  | name dir name x g1 g2 g3 g4 g5 g6 g7 =>
    subst g1
    have hplain : PlainName name := ⟨g4, g3, g5, g6⟩
    have hallow : W.fs.denied (dir ++ name) = false := by
      rw [hden]
      cases h with
      | missing _ => exact S.allowed _ none (hE _ (by simp))
      | leave st => exact S.allowed _ (some st) (hE _ (by simp))
      | file st => exact S.allowed _ (some st) (hE _ (by simp))
      | dir st => exact S.allowed _ (some st) (hE _ (by simp))
    have hallow0 : fs0.denied (dir ++ name) = false := by rw [← hnow.denied]; exact hallow
    have g7' := leads_same hsame g7 hfinds
    have hl1 : fs0.Literal R name := hlf dir name ⟨rfl, g3, g2⟩
    have hlk0 := lookup_leads ht0 g2 hplain g7 hallow0
    have hlkW := lookup_leads ht g2 hplain g7' hallow
    rw [hi0] at hlk0
    obtain ⟨e0, hfe0, hei0⟩ := Option.map_eq_some_iff.1 hlk0.symm
    have hloc := locate_of_leads ht0 g2 hplain g7 hallow0
    have hat : ∀ e, fs0.IsAt (dir ++ name) e → e = e0 := by
      rintro e ⟨dir', name', h4, h5, h6, h7⟩
      rw [hloc] at h6
      cases h6
      exact Option.some.inj (h7.symm.trans hfe0)
    have hat0 : fs0.IsAt (dir ++ name) e0 := by
      obtain ⟨_, hed0, _⟩ := FS_find_some hfe0
      exact ⟨dir, name, ⟨rfl, g3, g2⟩, g4, by rw [hloc, hed0], by rw [hed0]; exact hfe0⟩
    -- what is found now is what was there at first
    have key : ∀ {st : Stat}, W.fs.lstat (dir ++ name) = some st → W.fs.find x name = some e0 ∧ g e0 = e0 ∧ name = e0.name ∧ W.fs.lookup (dir ++ name) = some e0.ino ∧
        st.kind = fs0.kind e0.ino := by
      intro st a
      obtain ⟨i, hi, _, _⟩ := FS_lstat_some a
      have hst := (lstat_kind hi a).1
      have hi' := hi
      rw [hlkW] at hi'
      obtain ⟨e, hfe, hei⟩ := Option.map_eq_some_iff.1 hi'
      obtain ⟨rfl, h2, h3⟩ := hnow.find_back hR ht0.unique ht.unique hl1 hfe hfe0
      exact ⟨hfe, h2, h3, by rw [hei]; exact hi, by rw [hst, hei, hnow.kind]⟩
    have hEnt : W.fs.lookup (dir ++ name) = some e0.ino → ∀ d, fs0.lookup (dir ++ name) = some d → fs0.kind d = .dir → Entered W' d := by
      intro hw d hd hk
      rw [hi0] at hd
      cases hd
      exact hent i0 (by rw [hw, hei0]) (by rw [hnow.kind]; exact hk)
    have hnul : NulFree name := fun h => h0 (List.mem_append_right _ h)
    have file : ∀ {mid rest : List Event} {p : Bytes} {W3 : World} {st : Stat}, W.fs.lstat (dir ++ name) = some st → FileRunBy R o (dir ++ name) mid p →
        World.Steps W mid W3 → (∀ e ∈ mid, e ∈ E) → (st.kind = .dir ∨ st.kind = .reg ∨ o.special = true) →
        tr = .lstat (dir ++ name) (some st) :: (mid ++ rest) →
        ∃ g', Now R o args fs0 g' W3.fs ∧ Later R fs0 g g' ∧ (R e0.name (g' e0).name ∨ Q W3.fs e0) := by
      intro mid rest p W3 st a hfr b hmid hk hform
      obtain ⟨k1, k2, k3, k4, k5⟩ := key a
      have htr : ∀ e, W.fs.find x name = some e → e ∈ fs0.entries → e.name = name → fs0.Treats o args Hidden e := by
        intro e hfe he hne
        rw [k1] at hfe
        cases hfe
        exact ⟨by rw [← k5]; exact hk, .inl ⟨_, hf, hat0⟩⟩
      obtain ⟨_, f2⟩ := fileRun_exact S hden ht g2 hplain hnul g7' hfr b hmid hallow
      rcases f2 e0 k1 with ⟨rfl, _, _⟩ | ⟨w, _, hw, hne, _, _, _, rfl⟩
      · refine ⟨g, hnow, .refl g, ?_⟩
        rcases hfile dir name p x e0 mid rest (some st) rfl g2 hplain g7' k1 k3.symm hfr hform b hallow with h4 | h4
        · rw [k2, ← k3]; exact .inl h4
        · exact .inr h4
      · obtain ⟨he0, hed0, hnorm0⟩ := FS_find_some k1
        obtain ⟨g', h1, h2, h3⟩ := hnow.moved hR he0 hl1 hnul (by rw [← hnow.norm, hed0]; exact hnorm0) hw hne (htr e0 k1)
        exact ⟨g', h1, h2, .inl (by rw [h3 e0 k2, ← k3]; exact hw)⟩
    cases h with
    | missing _ => exact absurd (lookup_none (world_lstat hs).1) hmiss
    | leave st _ h1 h2 h3 =>
      obtain ⟨a, b⟩ := world_lstat hs
      obtain ⟨_, _, _, k4, k5⟩ := key a
      refine ⟨g, by rw [world_nil b]; exact hnow, .refl g, fun e he hk => ?_, hEnt k4⟩
      rw [hat e he, ← k5, h3] at hk
      rcases hk with hk | hk | hk
      · exact absurd hk h1
      · exact absurd hk h2
      · cases hk
    | file st _ mid p hk hfr =>
      obtain ⟨a, b⟩ := world_lstat hs
      obtain ⟨_, _, _, k4, k5⟩ := key a
      obtain ⟨g', h1, h2, h3⟩ := file a hfr b (fun e he => hE e (by simp [he])) (by
        rcases hk with hk | hk
        · exact .inr (.inl hk)
        · exact .inr (.inr hk.2)) (rest := []) (by simp)
      exact ⟨g', h1, h2, fun e he _ => by rw [hat e he]; exact h3, hEnt k4⟩
    | dir st _ _ mid sub p hk hfr hsub =>
      obtain ⟨a, b⟩ := world_lstat hs
      obtain ⟨W3, b, c⟩ := World.Steps.append_inv b
      obtain ⟨k1, k2, k3, k4, k5⟩ := key a
      have hmid : ∀ e ∈ mid, e ∈ E := fun e he => hE e (by simp [he])
      obtain ⟨g1, h1, h2, h3⟩ := file a hfr b hmid (.inl hk) rfl
      obtain ⟨m1, m2, m3, _, m5⟩ := fileRun_stays S hden ht g2 hplain (fun h => h0 (List.mem_append_right _ h)) g7' hfr b hmid hallow
      rcases m5 with ⟨m5, _⟩ | ⟨e, w, hfe, rfl, hw, hhere, hdw⟩
      · rw [k1] at m5; cases m5
      rw [k1] at hfe
      cases hfe
      have hl3 := leads_same m1 g7' m3
      have hlk3 := lookup_leads m2 g2 hw hl3 hdw
      rw [hhere] at hlk3
      have hk0 : fs0.kind e0.ino = .dir := by rw [← k5]; exact hk
      have hle := leads_entry (e := ⟨x, (if w = name then e0.name else w), e0.ino⟩) m2 g2 hw hl3 hhere (by rw [h1.kind]; exact hk0)
      obtain ⟨⟨g', h4, h5⟩, _⟩ := scan_now hR S hlit hsub (fun e he => hE e (by simp [he])) W3 W' (by rw [m1.denied]; exact hden) m2 c (by simp [hw.nonempty])
        e0.ino hle hlk3 (.arg _ e0.ino hf (by rw [hi0, hei0]) hk0) g1 h1
      obtain ⟨he0, _, _⟩ := FS_find_some hfe0
      refine ⟨g', h4, h2.trans h5, fun e he _ => ?_, hEnt k4⟩
      rw [hat e he]
      rcases h3 with h3 | h3
      · rw [h5 e0 he0 h3]; exact .inl h3
      · exact .inr (hlast g1 g' _ _ e0 h1 h4 h5 he0 (by rw [← k3]; exact hnul) h3)

theorem arg_now {denied : Bytes → Bool} {level : Nat} (hR : OnePass R) (S : ScanSetting R o E denied)
    (hlit : ∀ h n, Event.readdir h (some n) ∈ E → fs0.Literal R n) (hsil : ∀ s, Event.err s ∉ E) {f : Bytes} {seen seen' : List Bytes} {tr : List Event}
    (h : ArgScanBy R o ws f seen tr seen') (hE : ∀ e ∈ tr, e ∈ E) {W W' : World} (hden : W.fs.denied = denied) (ht0 : fs0.Tree depth slack)
    (ht : W.fs.Tree depth slack) (hst : fs0.Steady depth slack level f) (hfinds : ∀ x, depth x < level → ∀ n, W.fs.find x n = fs0.find x n)
    (h0 : (0 : Byte) ∉ f) (hf : f ∈ args) (hex : fs0.lookup f ≠ none) (hlf : ∀ dir name, SplitsAs f dir name → fs0.Literal R name)
    (hs : World.Steps W tr W') {g : Entry → Entry} (hnow : Now R o args fs0 g W.fs) :
    ∃ g', Now R o args fs0 g' W'.fs ∧ Later R fs0 g g' ∧
      (∀ e, fs0.IsAt f e → (fs0.kind e.ino = .dir ∨ fs0.kind e.ino = .reg ∨ o.special = true) → R e.name (g' e).name) ∧
      ∀ d, fs0.lookup f = some d → fs0.kind d = .dir → Entered W' d := by
  obtain ⟨g', h1, h2, h3, h4⟩ := arg_now_if (Q := fun _ _ => False) hR S hlit h hE hden ht0 ht hst hfinds h0 hf hex hlf hs hnow (by
      intro hno
      cases h with
      | missing _ => exact absurd (hE _ (by simp)) (hsil (f ++ lit ": "))
      | leave st => have := lstat_none hno; rw [(world_lstat hs).1] at this; cases this
      | file st => have := lstat_none hno; rw [(world_lstat hs).1] at this; cases this
      | dir st => have := lstat_none hno; rw [(world_lstat hs).1] at this; cases this)
    (fun _ _ _ _ _ _ _ _ _ _ h => h) (by
      rintro dir n p x e mid rest r rfl hd hn hl hfe hne hfr rfl hsm hlk
      have hmid : ∀ ev ∈ mid, ev ∈ E := fun ev hev => hE ev (by simp [hev])
      obtain ⟨_, f2⟩ := fileRun_exact S hden ht hd hn (fun h => h0 (List.mem_append_right _ h)) hl hfr hsm hmid hlk
      rcases f2 e hfe with ⟨_, _, h5 | ⟨_, h5⟩⟩ | ⟨w, _, hw, hne', _, _, _, hW⟩
      · exact .inl h5
      · exact absurd h5 (hsil _)
      · exfalso
        obtain ⟨he, _, _⟩ := FS_find_some hfe
        have hin2 : e ∈ (movedFS W.fs e w).entries := by
          have : W.fs = movedFS W.fs e w := congrArg World.fs hW
          rw [← this]; exact he
        rcases (mem_moved he).1 hin2 with h6 | h6
        · exact hne' (by rw [← hne, h6])
        · exact h6.2 rfl)
  exact ⟨g', h1, h2, fun e he hk => (h3 e he hk).resolve_right id, h4⟩

theorem args_now {denied : Bytes → Bool} {level : Nat} (hR : OnePass R) (S : ScanSetting R o E denied)
    (hlit : ∀ h n, Event.readdir h (some n) ∈ E → fs0.Literal R n) (hsil : ∀ s, Event.err s ∉ E) (ht0 : fs0.Tree depth slack) {fl : List Bytes} {seen seen' : List Bytes}
    {tr : List Event} (h : ArgsScanBy R o ws fl seen tr seen') : (∀ e ∈ tr, e ∈ E) → ∀ {W W' : World}, W.fs.denied = denied → W.fs.Tree depth slack →
    (∀ f ∈ fl, fs0.Steady depth slack level f) → (∀ x, depth x < level → ∀ n, W.fs.find x n = fs0.find x n) → (∀ f ∈ fl, (0 : Byte) ∉ f) →
    (∀ f ∈ fl, f ∈ args) → (∀ f ∈ fl, fs0.lookup f ≠ none) → (∀ f ∈ fl, ∀ dir name, SplitsAs f dir name → fs0.Literal R name) →
    World.Steps W tr W' → ∀ {g : Entry → Entry}, Now R o args fs0 g W.fs →
    ∃ g', Now R o args fs0 g' W'.fs ∧ Later R fs0 g g' ∧ ∀ f ∈ fl,
      (∀ e, fs0.IsAt f e → (fs0.kind e.ino = .dir ∨ fs0.kind e.ino = .reg ∨ o.special = true) → R e.name (g' e).name) ∧
      ∀ d, fs0.lookup f = some d → fs0.kind d = .dir → Entered W' d := by
  induction h with
  | nil seen =>
    intro _ W W' _ ht _ _ _ _ _ _ hs g hnow
    rw [world_nil hs]
    exact ⟨g, hnow, .refl g, fun _ h => (by cases h)⟩
  | cons f fl seen seen1 seen' t tr hf hfl ih =>
    intro hE W W' hden ht hst hfinds h0 hin hex hlf hs g hnow
    rw [List.append_assoc] at hs
    obtain ⟨W0, hs0, hs'⟩ := World.Steps.append_inv hs
    clear hs
    have : W0 = W := by
      split at hs0
      · exact world_nil hs0
      · exact world_nil (world_out hs0)
    subst this
    obtain ⟨W1, hs1, hs2⟩ := World.Steps.append_inv hs'
    have hE1 : ∀ e ∈ t, e ∈ E := fun e he => hE e (by simp [he])
    have hE2 : ∀ e ∈ tr, e ∈ E := fun e he => hE e (by simp [he])
    have hstW : ∀ f' ∈ f :: fl, W0.fs.Steady depth slack level f' := fun f' hf' => steady_same hnow.sameBut (hst f' hf') hfinds
    obtain ⟨k1, _, _⟩ := arg_goal S hf hE1 hden ht (hstW f (by simp)) (h0 f (by simp)) hs1
    obtain ⟨g1, n1, l1, a1⟩ := arg_now hR S hlit hsil hf hE1 hden ht0 ht (hst f (by simp)) hfinds (h0 f (by simp)) (hin f (by simp)) (hex f (by simp))
      (hlf f (by simp)) hs1 hnow
    have hden1 : W1.fs.denied = denied := by rw [k1.same.denied]; exact hden
    have hfinds1 : ∀ x, depth x < level → ∀ n, W1.fs.find x n = fs0.find x n := fun x hx n => (k1.finds x hx n).trans (hfinds x hx n)
    obtain ⟨g2, n2, l2, a2⟩ := ih hE2 hden1 k1.tree (fun f' h => hst f' (by simp [h])) hfinds1 (fun f' h => h0 f' (by simp [h])) (fun f' h => hin f' (by simp [h]))
      (fun f' h => hex f' (by simp [h])) (fun f' h => hlf f' (by simp [h])) hs2 n1
    obtain ⟨k2, _, _⟩ := args_goal S hfl hE2 hden1 k1.tree (fun f' h => steady_same k1.same (hstW f' (by simp [h])) k1.finds)
      (fun f' h => h0 f' (by simp [h])) hs2
    refine ⟨g2, n2, l1.trans l2, fun f' hf' => ?_⟩
    rcases List.mem_cons.1 hf' with rfl | hf'
    · refine ⟨fun e he hk => ?_, fun d hd hk => (a1.2 d hd hk).mono k2.opened k2.refused⟩
      have h1 := a1.1 e he hk
      obtain ⟨_, _, _, _, _, he'⟩ := he
      rw [l2 e (FS_find_some he').1 h1]
      exact h1
    · exact a2 f' hf'

/-! ### Arguments without complaints -/

theorem scans_congr {fs : FS} {o o2 : Options} {args args2 : List Bytes} {skip skip2 : Bytes → Prop} (hr : o.recurse = true → o2.recurse = true)
    (ha : ∀ f ∈ args, f ∈ args2) (hk : ∀ e ∈ fs.entries, skip2 e.name → skip e.name) {d : Ino} (h : fs.Scans o args skip d) : fs.Scans o2 args2 skip2 d := by
  induction h with
  | arg f d h1 h2 h3 => exact .arg f d (ha f h1) h2 h3
  | sub e h1 _ h3 h4 h5 ih => exact .sub e h1 ih (hr h3) h4 fun h => h5 (hk e h1 h)

theorem treats_congr {fs : FS} {o o2 : Options} {args args2 : List Bytes} {skip skip2 : Bytes → Prop} (hr : o.recurse = true → o2.recurse = true)
    (hsp : o.special = true → o2.special = true) (ha : ∀ f ∈ args, f ∈ args2) (hk : ∀ e ∈ fs.entries, skip2 e.name → skip e.name) {e : Entry}
    (he : e ∈ fs.entries) (h : fs.Treats o args skip e) : fs.Treats o2 args2 skip2 e := by
  obtain ⟨h1, h2⟩ := h
  refine ⟨h1.imp id (.imp id hsp), ?_⟩
  rcases h2 with ⟨f, h2, h3⟩ | ⟨h2, h3⟩
  · exact .inl ⟨f, ha f h2, h3⟩
  · exact .inr ⟨scans_congr hr ha hk h2, fun h => h3 (hk e he h)⟩

theorem Now.mono {args2 : List Bytes} {g : Entry → Entry} {fs : FS} (h : Now R o args fs0 g fs) (ha : ∀ f ∈ args, f ∈ args2) : Now R o args2 fs0 g fs :=
  ⟨h.same, fun e he => (h.each e he).imp id fun ⟨a, b, c, d, k⟩ => ⟨a, b, c, d, treats_congr id id ha (fun _ _ h => h) he k⟩⟩

theorem room_mono {args2 : List Bytes} (h : fs0.Room R o args2) (ha : ∀ f ∈ args, f ∈ args2) : fs0.Room R o args := by
  have key : ∀ e ∈ fs0.entries, fs0.Treats o args Hidden e → fs0.Treats o args2 Hidden e := fun e he => treats_congr id id ha (fun _ _ h => h) he
  exact ⟨h.names, fun e he ht => h.proper e he (key e he ht), fun e he ht => h.free e he (key e he ht),
    fun e he ht e' he' ht' => h.apart e he (key e he ht) e' he' (key e' he' ht')⟩

theorem arg_quiet {denied : Bytes → Bool} {level : Nat} (hR : OnePass R) (S : ScanSetting R o E denied)
    (hlit : ∀ h n, Event.readdir h (some n) ∈ E → fs0.Literal R n) {f : Bytes} {seen seen' : List Bytes} {tr : List Event}
    (h : ArgScanBy R o ws f seen tr seen') (hE : ∀ e ∈ tr, e ∈ E) {W W' : World} (hden : W.fs.denied = denied) (ht0 : fs0.Tree depth slack)
    (ht : W.fs.Tree depth slack) (hst : fs0.Steady depth slack level f) (hfinds : ∀ x, depth x < level → ∀ n, W.fs.find x n = fs0.find x n)
    (h0 : (0 : Byte) ∉ f) (hf : f ∈ args) (hex : fs0.lookup f ≠ none) (hlf : ∀ dir name, SplitsAs f dir name → fs0.Literal R name)
    (hs : World.Steps W tr W') {g : Entry → Entry} (hnow : Now R o args fs0 g W.fs) (hroom : fs0.Room R o args) (hob : W.ObligesIn tr)
    (hstill : ∀ e ∈ fs0.entries, fs0.IsAt f e → g e = e) : ∀ s, Event.err s ∉ tr := by
  have hsame := hnow.sameBut
  obtain ⟨i0, hi0⟩ := Option.ne_none_iff_exists'.1 hex
  cases hst with
  | self dir name d g1 g2 g3 g4 g5 =>
    have hlk := lookup_same_self hsame ht0 g1 g2 g3 g4 g5 hfinds
    have g5' := leads_same hsame g5 hfinds
    cases h with
    | missing _ =>
      exfalso
      have := lookup_none (world_lstat hs).1
      rw [hlk, hi0] at this
      cases this
    | leave st _ h1 h2 h3 => intro s hm; simp at hm
    | file st _ mid p hk hfr =>
      obtain ⟨rfl, rfl⟩ := fileRun_self S.empty hfr g1 g2 g3
      intro s hm
      simp at hm
    | dir st _ _ mid sub p hk hfr hsub =>
      obtain ⟨a, b⟩ := world_lstat hs
      obtain ⟨rfl, rfl⟩ := fileRun_self S.empty hfr g1 g2 g3
      rw [List.nil_append] at b
      obtain ⟨i, hi, _, _⟩ := FS_lstat_some a
      have hki := (lstat_kind hi a).1.symm.trans hk
      have hid := lookup_self g5' hi hki
      subst hid
      obtain ⟨_, h3⟩ := scan_now hR S hlit hsub (fun e he => hE e (by simp [he])) W W' hden ht b g4 i (leads_level g5') hi
        (.arg p i hf (hlk.symm.trans hi) (by rw [← hnow.kind]; exact hki)) g hnow
      intro s hm
      refine h3 hroom (obliges_tail hob (.lstat _ _ _ a)) s ?_
      simpa using hm
  | name dir name x g1 g2 g3 g4 g5 g6 g7 =>
    subst g1
    have hplain : PlainName name := ⟨g4, g3, g5, g6⟩
    have hallow : W.fs.denied (dir ++ name) = false := by
      rw [hden]
      cases h with
      | missing _ => exact S.allowed _ none (hE _ (by simp))
      | leave st => exact S.allowed _ (some st) (hE _ (by simp))
      | file st => exact S.allowed _ (some st) (hE _ (by simp))
      | dir st => exact S.allowed _ (some st) (hE _ (by simp))
    have hallow0 : fs0.denied (dir ++ name) = false := by rw [← hnow.denied]; exact hallow
    have g7' := leads_same hsame g7 hfinds
    have hl1 : fs0.Literal R name := hlf dir name ⟨rfl, g3, g2⟩
    have hlk0 := lookup_leads ht0 g2 hplain g7 hallow0
    have hlkW := lookup_leads ht g2 hplain g7' hallow
    rw [hi0] at hlk0
    obtain ⟨e0, hfe0, hei0⟩ := Option.map_eq_some_iff.1 hlk0.symm
    obtain ⟨he0, hed0, hnorm0⟩ := FS_find_some hfe0
    have hloc := locate_of_leads ht0 g2 hplain g7 hallow0
    have hat0 : fs0.IsAt (dir ++ name) e0 := ⟨dir, name, ⟨rfl, g3, g2⟩, g4, by rw [hloc, hed0], by rw [hed0]; exact hfe0⟩
    have hge := hstill e0 he0 hat0
    have hfW : W.fs.find x name = some e0 := by
      have hin : e0 ∈ W.fs.entries := by
        rw [hnow.same]
        exact List.mem_map.2 ⟨e0, he0, hge⟩
      cases hfe : W.fs.find x name with
      | none => exact absurd ⟨hed0, by rw [hnow.norm]; exact hnorm0⟩ (FS_find_none hfe e0 hin)
      | some e1 =>
        obtain ⟨a, b, c⟩ := FS_find_some hfe
        rw [ht.unique.eq a hin (b.trans hed0.symm) (by rw [b, hed0, c, hnow.norm, hnorm0])]
    have hlkW' : W.fs.lookup (dir ++ name) = some e0.ino := by rw [hlkW, hfW]; rfl
    have hkind : ∀ {st : Stat}, W.fs.lstat (dir ++ name) = some st → st.kind = fs0.kind e0.ino := by
      intro st a
      rw [(lstat_kind hlkW' a).1, hnow.kind]
    have file : ∀ {mid : List Event} {p : Bytes} {W3 : World} {st : Stat}, W.fs.lstat (dir ++ name) = some st → FileRunBy R o (dir ++ name) mid p →
        World.Steps W mid W3 → (∀ e ∈ mid, e ∈ E) → (st.kind = .dir ∨ st.kind = .reg ∨ o.special = true) → W.ObligesIn mid →
        (∃ g', Now R o args fs0 g' W3.fs) ∧ ∀ s, Event.err s ∉ mid := by
      intro mid p W3 st a hfr b hmid hk hob
      have htr : ∀ e, W.fs.find x name = some e → e ∈ fs0.entries → e.name = name → fs0.Treats o args Hidden e := by
        intro e hfe he hne
        rw [hfW] at hfe
        cases hfe
        exact ⟨by rw [← hkind a]; exact hk, .inl ⟨_, hf, hat0⟩⟩
      obtain ⟨g', h1, h2, h3⟩ := fileRun_now hR S hden ht g2 hplain (fun h => h0 (List.mem_append_right _ h)) g7' hfr b hmid hallow hl1 hnow htr
      exact ⟨⟨g', h1⟩, fileRun_quiet hR S hden ht g2 hplain (fun h => h0 (List.mem_append_right _ h)) g7' hfr b hmid hallow hl1 hnow hroom hob htr⟩
    cases h with
    | missing _ =>
      exfalso
      have := lookup_none (world_lstat hs).1
      rw [hlkW'] at this
      cases this
    | leave st _ h1 h2 h3 => intro s hm; simp at hm
    | file st _ mid p hk hfr =>
      obtain ⟨a, b⟩ := world_lstat hs
      obtain ⟨_, h1⟩ := file a hfr b (fun e he => hE e (by simp [he])) (by
        rcases hk with hk | hk
        · exact .inr (.inl hk)
        · exact .inr (.inr hk.2)) (obliges_tail hob (.lstat _ _ _ a))
      intro s hm
      exact h1 s (by simpa using hm)
    | dir st _ _ mid sub p hk hfr hsub =>
      obtain ⟨a, b⟩ := world_lstat hs
      obtain ⟨W3, b, c⟩ := World.Steps.append_inv b
      have hmid : ∀ e ∈ mid, e ∈ E := fun e he => hE e (by simp [he])
      have hob2 := obliges_tail hob (.lstat _ _ _ a)
      obtain ⟨⟨g1, h1⟩, h2⟩ := file a hfr b hmid (.inl hk) (obliges_left hob2)
      obtain ⟨m1, m2, m3, _, m5⟩ := fileRun_stays S hden ht g2 hplain (fun h => h0 (List.mem_append_right _ h)) g7' hfr b hmid hallow
      rcases m5 with ⟨m5, _⟩ | ⟨e, w, hfe, rfl, hw, hhere, hdw⟩
      · rw [hfW] at m5; cases m5
      rw [hfW] at hfe
      cases hfe
      have hl3 := leads_same m1 g7' m3
      have hlk3 := lookup_leads m2 g2 hw hl3 hdw
      rw [hhere] at hlk3
      have hk0 : fs0.kind e0.ino = .dir := by rw [← hkind a]; exact hk
      have hle := leads_entry (e := ⟨x, (if w = name then e0.name else w), e0.ino⟩) m2 g2 hw hl3 hhere (by rw [h1.kind]; exact hk0)
      obtain ⟨_, h5⟩ := scan_now hR S hlit hsub (fun e he => hE e (by simp [he])) W3 W' (by rw [m1.denied]; exact hden) m2 c (by simp [hw.nonempty])
        e0.ino hle hlk3 (.arg _ e0.ino hf (by rw [hi0, hei0]) hk0) g1 h1
      intro s hm
      simp only [List.mem_cons, List.mem_append, reduceCtorEq, false_or] at hm
      rcases hm with hm | hm
      · exact h2 s hm
      · exact h5 hroom (obliges_right hob2 b) s hm

/-- All arguments. -/
theorem args_quiet {denied : Bytes → Bool} {level : Nat} (hR : OnePass R) (S : ScanSetting R o E denied)
    (hlit : ∀ h n, Event.readdir h (some n) ∈ E → fs0.Literal R n) (ht0 : fs0.Tree depth slack) (hroom : fs0.Room R o args) (honce : fs0.NamedOnce R o args)
    {fl : List Bytes} {seen seen' : List Bytes} {tr : List Event} (h : ArgsScanBy R o ws fl seen tr seen') : (∀ e ∈ tr, e ∈ E) → ∀ {W W' : World},
    W.fs.denied = denied → W.fs.Tree depth slack → (∀ f ∈ fl, fs0.Steady depth slack level f) → (∀ x, depth x < level → ∀ n, W.fs.find x n = fs0.find x n) →
    (∀ f ∈ fl, (0 : Byte) ∉ f) → (∀ f ∈ fl, fs0.lookup f ≠ none) → (∀ f ∈ fl, ∀ dir name, SplitsAs f dir name → fs0.Literal R name) →
    World.Steps W tr W' → W.ObligesIn tr → ∀ done, args = done ++ fl → ∀ {g : Entry → Entry}, Now R o done fs0 g W.fs → ∀ s, Event.err s ∉ tr := by
  induction h with
  | nil seen => intro _ W W' _ _ _ _ _ _ _ _ _ _ _ g _ s hm; cases hm
  | cons f fl seen seen1 seen' t tr hf hfl ih =>
    intro hE W W' hden ht hst hfinds h0 hex hlf hs hob done hdone g hnow
    rw [List.append_assoc] at hs hob
    obtain ⟨W0, hs0, hs'⟩ := World.Steps.append_inv hs
    clear hs
    have hob1 := obliges_right hob hs0
    clear hob
    have : W0 = W := by
      split at hs0
      · exact world_nil hs0
      · exact world_nil (world_out hs0)
    subst this
    obtain ⟨W1, hs1, hs2⟩ := World.Steps.append_inv hs'
    have hE1 : ∀ e ∈ t, e ∈ E := fun e he => hE e (by simp [he])
    have hE2 : ∀ e ∈ tr, e ∈ E := fun e he => hE e (by simp [he])
    have hstW : ∀ f' ∈ f :: fl, W0.fs.Steady depth slack level f' := fun f' hf' => steady_same hnow.sameBut (hst f' hf') hfinds
    obtain ⟨k1, _, _⟩ := arg_goal S hf hE1 hden ht (hstW f (by simp)) (h0 f (by simp)) hs1
    have hsub : ∀ f' ∈ done ++ [f], f' ∈ args := by
      intro f' hf'
      rw [hdone]
      simp only [List.mem_append, List.mem_cons, List.not_mem_nil, or_false] at hf' ⊢
      rcases hf' with h | h
      · exact .inl h
      · exact .inr (.inl h)
    have hnow' : Now R o (done ++ [f]) fs0 g W0.fs := hnow.mono fun f' h => by simp [h]
    have hstill : ∀ e ∈ fs0.entries, fs0.IsAt f e → g e = e := by
      intro e he hat
      rcases hnow.each e he with h | ⟨p1, p2, _, p4, _, p5⟩
      · exact h
      have hclean : R e.name e.name := by
        rcases p5 with ⟨f', hf', hat'⟩ | ⟨p5, _⟩
        · have := honce.twice
          rw [hdone, List.pairwise_append] at this
          exact this.2.2 f' hf' f (by simp) e hat' hat
        · exact honce.scanned f (hsub f (by simp)) e hat (scans_congr id (fun f' h => hsub f' (by simp [h])) (fun _ _ h => h) p5)
      have hname := hR.one _ _ _ p4 hclean
      cases hg : g e with
      | mk a b c =>
        rw [hg] at p1 p2 hname
        simp only at p1 p2 hname
        rw [p1, p2, hname]
    have hsil := arg_quiet (args := done ++ [f]) hR S hlit hf hE1 hden ht0 ht (hst f (by simp)) hfinds (h0 f (by simp)) (by simp) (hex f (by simp))
      (hlf f (by simp)) hs1 hnow' (room_mono hroom hsub) (obliges_left hob1) hstill
    have S1 : ScanSetting R o t denied := ⟨S.wet, S.slash, S.empty, fun p r hm => S.allowed p r (hE1 _ hm)⟩
    obtain ⟨g1, n1, _, _⟩ := arg_now (args := done ++ [f]) hR S1 (fun k n hm => hlit k n (hE1 _ hm)) hsil hf (fun _ h => h) hden ht0 ht (hst f (by simp)) hfinds
      (h0 f (by simp)) (by simp) (hex f (by simp)) (hlf f (by simp)) hs1 hnow'
    have hrest := ih hE2 (by rw [k1.same.denied]; exact hden) k1.tree (fun f' h => hst f' (by simp [h])) (fun x hx n => (k1.finds x hx n).trans (hfinds x hx n))
      (fun f' h => h0 f' (by simp [h])) (fun f' h => hex f' (by simp [h])) (fun f' h => hlf f' (by simp [h])) hs2 (obliges_right hob1 hs1)
      (done ++ [f]) (by rw [hdone]; simp) n1
    intro s hm
    simp only [List.mem_append] at hm
    rcases hm with (hm | hm) | hm
    · revert hm; split <;> simp
    · exact hsil s hm
    · exact hrest s hm

end

end Detox
