import Verif.Lemmas.World
import Verif.Spec.Complete
import Verif.Props.ScanRun

/-!
# Lemmas for C86
-/

set_option autoImplicit false

namespace Detox
open Spec

theorem Spec.World.Steps.append_inv {tr1 tr2 : List Event} : ∀ {w w2 : World}, World.Steps w (tr1 ++ tr2) w2 →
    ∃ w1, World.Steps w tr1 w1 ∧ World.Steps w1 tr2 w2 := by
  induction tr1 with
  | nil => intro w w2 h; exact ⟨w, .nil w, h⟩
  | cons e t ih =>
    intro w w2 h
    cases h with
    | cons _ wm _ _ _ hs ht =>
      obtain ⟨w1, a, b⟩ := ih ht
      exact ⟨w1, .cons _ _ _ _ _ hs a, b⟩

theorem world_out {s : Bytes} {w w' : World} {tr : List Event} (h : World.Steps w (.out s :: tr) w') : World.Steps w tr w' := by
  cases h with
  | cons _ _ _ _ _ hs ht => cases hs; exact ht

theorem world_err {s : Bytes} {w w' : World} {tr : List Event} (h : World.Steps w (.err s :: tr) w') : World.Steps w tr w' := by
  cases h with
  | cons _ _ _ _ _ hs ht => cases hs; exact ht

theorem world_lstat {p : Bytes} {r : Option Stat} {w w' : World} {tr : List Event} (h : World.Steps w (.lstat p r :: tr) w') :
    w.fs.lstat p = r ∧ World.Steps w tr w' := by
  cases h with
  | cons _ _ _ _ _ hs ht =>
    cases hs with
    | lstat _ _ hr => exact ⟨hr, ht⟩

theorem world_nil {w w' : World} (h : World.Steps w [] w') : w' = w := by cases h; rfl

theorem lstat_none {fs : FS} {p : Bytes} (h : fs.lookup p = none) : fs.lstat p = none := by rw [FS.lstat, h]; rfl

theorem lookup_none {fs : FS} {p : Bytes} (h : fs.lstat p = none) : fs.lookup p = none := by
  unfold FS.lstat at h
  cases hl : fs.lookup p with
  | none => rfl
  | some i => rw [hl] at h; cases h

/-! ### One rename -/

/-- The file system after the entry got another name. -/
def movedFS (fs : FS) (e : Entry) (w : Bytes) : FS := { fs with entries := fs.entries.map (moveEntry e e.dir w) }

theorem mem_moved {fs : FS} {e y : Entry} {w : Bytes} (he : e ∈ fs.entries) :
    y ∈ (movedFS fs e w).entries ↔ y = ⟨e.dir, w, e.ino⟩ ∨ (y ∈ fs.entries ∧ y ≠ e) := by
  unfold movedFS
  simp only [List.mem_map]
  constructor
  · rintro ⟨x, hx, rfl⟩
    unfold moveEntry
    by_cases h : x = e
    · simp [h]
    · simp [h, hx]
  · rintro (rfl | ⟨h1, h2⟩)
    · exact ⟨e, he, by simp [moveEntry]⟩
    · exact ⟨y, h1, by simp [moveEntry, h2]⟩

theorem moved_find {fs : FS} {e : Entry} {w : Bytes} {x : Ino} (hx : x ≠ e.dir) (n : Bytes) :
    (movedFS fs e w).find x n = fs.find x n := by
  unfold FS.find movedFS
  dsimp only
  generalize fs.entries = l
  induction l with
  | nil => rfl
  | cons a l ih =>
    rw [List.map_cons, List.find?_cons, List.find?_cons, ih]
    unfold moveEntry
    by_cases h : a = e
    · subst h
      simp [Ne.symm hx]
    · simp [h]

section
variable {depth : Ino → Nat} {slack : Nat}

theorem moved_tree {fs : FS} {e : Entry} {w : Bytes} (ht : fs.Tree depth slack) (he : e ∈ fs.entries)
    (hfree : fs.find e.dir w = none ∨ fs.find e.dir w = some e) : (movedFS fs e w).Tree depth slack := by
  refine ⟨?_, ?_, ?_, ht.bound⟩
  · refine FS_unique_move ht.unique he fun y hy hd hn => ?_
    rcases hfree with hf | hf
    · exact absurd ⟨hd, hn⟩ (FS_find_none hf y hy)
    · obtain ⟨_, _, q2⟩ := FS_find_some hf
      exact ht.unique.eq hy he hd (by rw [hd, hn, q2])
  · intro y hy hk
    rcases (mem_moved he).1 hy with rfl | ⟨h1, _⟩
    · exact ht.level e he hk
    · exact ht.level y h1 hk
  · intro y hy z hz hk hi
    rcases (mem_moved he).1 hy with rfl | ⟨h1, h1'⟩ <;> rcases (mem_moved he).1 hz with rfl | ⟨h2, h2'⟩
    · rfl
    · exact absurd (ht.once e he z h2 hk hi).symm h2'
    · exact absurd (ht.once y h1 e he hk hi) h1'
    · exact ht.once y h1 z h2 hk hi

theorem moved_here {fs : FS} {e : Entry} {w : Bytes} (ht : fs.Tree depth slack) (he : e ∈ fs.entries)
    (hfree : fs.find e.dir w = none ∨ fs.find e.dir w = some e) : (movedFS fs e w).find e.dir w = some ⟨e.dir, w, e.ino⟩ := by
  have ht' := moved_tree ht he hfree
  have hm : (⟨e.dir, w, e.ino⟩ : Entry) ∈ (movedFS fs e w).entries := (mem_moved he).2 (.inl rfl)
  cases hf : (movedFS fs e w).find e.dir w with
  | none => exact absurd ⟨rfl, rfl⟩ (FS_find_none hf _ hm)
  | some y =>
    obtain ⟨h1, h2, h3⟩ := FS_find_some hf
    rw [ht'.unique.eq h1 hm h2 (by rw [h2, h3])]

theorem find_exact {fs : FS} (hu : fs.Unique) {e : Entry} (he : e ∈ fs.entries) : fs.find e.dir e.name = some e := by
  cases hf : fs.find e.dir e.name with
  | none => exact absurd ⟨rfl, rfl⟩ (FS_find_none hf e he)
  | some y =>
    obtain ⟨h1, h2, h3⟩ := FS_find_some hf
    rw [hu.eq h1 he h2 (by rw [h2, h3])]

end

/-- The world after a rename. -/
def Spec.World.moved (w : World) (e : Entry) (n : Bytes) : World :=
  { w with fs := movedFS w.fs e n, streams := fun k => (w.streams k).map (Stream.after (movedFS w.fs e n)) }

theorem two_names {fs : FS} {e e2 : Entry} (h1 : e ∈ fs.entries) (h2 : e2 ∈ fs.entries) (hne : e2 ≠ e) (hi : e2.ino = e.ino) :
    2 ≤ fs.names e.ino := by
  unfold FS.names
  have m1 : e ∈ fs.entries.filter fun y => y.ino = e.ino := by simp [h1]
  have m2 : e2 ∈ fs.entries.filter fun y => y.ino = e.ino := by simp [h2, hi]
  generalize fs.entries.filter (fun y => y.ino = e.ino) = l at *
  match l with
  | [] => cases m1
  | [a] =>
    simp only [List.mem_singleton] at m1 m2
    exact absurd (m2.trans m1.symm) hne
  | a :: b :: l => simp

/-- The settings the lemmas are about: `tr` is the whole history. -/
structure ScanSetting (R : Bytes → Bytes → Prop) (o : Options) (tr : List Event) (denied : Bytes → Bool) : Prop where
  wet : o.dryRun = false
  slash : ∀ name cleaned : Bytes, NulFree name → (0x2F : Byte) ∉ name → R name cleaned → (0x2F : Byte) ∉ cleaned
  empty : ∀ w, R [] w → w = []
  allowed : ∀ p r, Event.lstat p r ∈ tr → denied p = false

section
variable {R : Bytes → Bytes → Prop} {o : Options} {E : List Event} {depth : Ino → Nat} {slack level : Nat}

/-- What `parse_file` does to a name in a known directory. -/
theorem fileRun_exact {denied : Bytes → Bool} (S : ScanSetting R o E denied) {W W' : World} (hden : W.fs.denied = denied)
    (ht : W.fs.Tree depth slack) {dir n p : Bytes} {x : Ino} {mid : List Event} (hd : dir = [] ∨ ∃ d, dir = d ++ [0x2F])
    (hn : PlainName n) (h0 : (0 : Byte) ∉ n) (hl : W.fs.Leads depth slack level dir x) (hf : FileRunBy R o (dir ++ n) mid p)
    (hs : World.Steps W mid W') (hE : ∀ e ∈ mid, e ∈ E) (hlk : W.fs.denied (dir ++ n) = false) :
    (W.fs.find x n = none → W' = W ∧ p = dir ++ n) ∧
    ∀ e, W.fs.find x n = some e →
      (W' = W ∧ p = dir ++ n ∧ (R n n ∨ Complained E (dir ++ n))) ∨
      (∃ w, PlainName w ∧ R n w ∧ w ≠ n ∧ p = dir ++ w ∧ (W.fs.find x w = none ∨ W.fs.find x w = some e) ∧
        W.fs.denied (dir ++ w) = false ∧ W' = W.moved e w) := by
  have hlook := lookup_leads ht hd hn hl hlk
  have split : ∀ {dir' name' : Bytes}, SplitsAs (dir ++ n) dir' name' → dir' = dir ∧ name' = n := by
    intro dir' name' h
    have h2 : SplitsAs (dir ++ n) dir n := ⟨rfl, hn.slash, hd⟩
    exact ⟨(splitsAs_unique h).1.trans (splitsAs_unique h2).1.symm, (splitsAs_unique h).2.trans (splitsAs_unique h2).2.symm⟩
  cases hf with
  | clean dir' name' h1 h2 =>
    obtain ⟨rfl, rfl⟩ := split h1
    refine ⟨fun _ => ⟨world_nil hs, rfl⟩, fun e _ => .inl ⟨world_nil hs, rfl, .inl ?_⟩⟩
    rcases h2 with h2 | h2 | h2
    · exact absurd h2 hn.dot
    · exact absurd h2 hn.dots
    · exact h2
  | gone dir' name' w h1 h2 h3 h4 h5 =>
    obtain ⟨rfl, rfl⟩ := split h1
    obtain ⟨a, b⟩ := world_lstat hs
    refine ⟨fun _ => ⟨world_nil b, rfl⟩, fun e he => ?_⟩
    have := lookup_none a
    rw [hlook, he] at this
    cases this
  | refused dir' name' w so sn h1 h2 h3 h4 h5 h6 =>
    obtain ⟨rfl, rfl⟩ := split h1
    obtain ⟨a, b⟩ := world_lstat hs
    obtain ⟨_, b⟩ := world_lstat b
    have b := world_nil (world_err b)
    refine ⟨fun _ => ⟨b, rfl⟩, fun e he => .inl ⟨b, rfl, .inr ⟨dir' ++ w ++ lit ": file already exists\n", ?_⟩⟩⟩
    have := hE (.err (lit "Cannot rename " ++ (dir' ++ name') ++ lit " to " ++ (dir' ++ w) ++ lit ": file already exists\n")) (by simp)
    simpa [List.append_assoc] using this
  | dry _ _ _ _ _ _ _ _ _ _ _ h => rw [S.wet] at h; cases h
  | failed dir' name' w so rn h1 h2 h3 h4 h5 h6 h7 =>
    obtain ⟨rfl, rfl⟩ := split h1
    rw [List.append_assoc] at hs
    simp only [List.cons_append, List.nil_append] at hs
    obtain ⟨a, b⟩ := world_lstat hs
    obtain ⟨_, b⟩ := world_lstat b
    have b : W' = W := by
      obtain ⟨w1, q1, q2⟩ := World.Steps.append_inv b
      have : w1 = W := by
        split at q1
        · exact world_nil q1
        · exact world_nil (world_out q1)
      subst this
      cases q2 with
      | cons _ _ _ _ _ s1 t1 => cases s1; exact world_nil (world_err t1)
    refine ⟨fun _ => ⟨b, rfl⟩, fun e he => .inl ⟨b, rfl, .inr ⟨dir' ++ w ++ lit ": ", ?_⟩⟩⟩
    have := hE (.err (lit "Cannot rename " ++ (dir' ++ name') ++ lit " to " ++ (dir' ++ w) ++ lit ": ")) (by simp)
    simpa [List.append_assoc] using this
  | renamed dir' name' w so rn h1 h2 h3 h4 h5 h6 h7 =>
    obtain ⟨rfl, rfl⟩ := split h1
    have hlw : W.fs.denied (dir' ++ w) = false := by
      rw [hden]; exact S.allowed _ rn (hE _ (by simp))
    rw [List.append_assoc] at hs
    simp only [List.cons_append, List.nil_append] at hs
    obtain ⟨a, b⟩ := world_lstat hs
    obtain ⟨a2, b⟩ := world_lstat b
    obtain ⟨fs, hr, hW⟩ : ∃ fs, W.fs.rename (dir' ++ name') (dir' ++ w) = some fs ∧
        W' = { W with fs := fs, streams := fun k => (W.streams k).map (Stream.after fs) } := by
      obtain ⟨w1, q1, q2⟩ := World.Steps.append_inv b
      have : w1 = W := by
        split at q1
        · exact world_nil q1
        · exact world_nil (world_out q1)
      subst this
      cases q2 with
      | cons _ _ _ _ _ s1 t1 =>
        cases s1 with
        | renamed _ _ fs hr => exact ⟨fs, hr, world_nil t1⟩
    have hslw : (0x2F : Byte) ∉ w := S.slash name' w h0 hn.slash h4
    obtain ⟨i, hi1, hi2, hi3⟩ := FS_lstat_some a
    rw [hlook] at hi1
    obtain ⟨e, hfe, rfl⟩ := Option.map_eq_some_iff.1 hi1
    obtain ⟨he, hedir, _⟩ := FS_find_some hfe
    refine ⟨fun hnone => (by rw [hnone] at hfe; cases hfe), fun e' he' => .inr ?_⟩
    rw [hfe] at he'
    cases he'
    have hwne : w ≠ [] := by
      intro hw
      subst hw
      rw [List.append_nil] at a2 hr hlw
      rcases hd with rfl | ⟨d, rfl⟩
      · have : W.fs.locate [] = none := by simp [FS.locate]
        simp [FS.rename, this] at hr
      · have hlk2 : W.fs.lookup (d ++ [0x2F]) = some x := by
          unfold FS.lookup
          rw [if_neg (by simp [hlw]), if_pos (by simp [endsInSlash]),
            walk_more W.fs _ _ _ _ _ hl.walk (Nat.le_of_lt (ht.bound x))]
          simp [hl.kind]
        obtain ⟨sn, hsn, hs1, hs2⟩ := FS_lstat_lookup hlk2
        rw [hsn] at a2
        obtain ⟨g1, g2, _⟩ := h6 sn a2.symm
        have hx : x = e.ino := by
          cases x; cases hh : e.ino
          rw [hh] at hi2 hi3
          simp only at hs1 hs2 hi2 hi3
          rw [← hs1, ← hs2, g1, g2, hi2, hi3]
        have := ht.level e he (by rw [← hx]; exact hl.kind)
        rw [← hx, hedir] at this
        omega
    have hsl : endsInSlash (dir' ++ name') = false := endsInSlash_dir_name hn.nonempty hn.slash
    obtain ⟨d1, n1, d2, n2, e1, hl1, hl2, he1, hc⟩ := FS_guarded_rename hsl a a2 h6 hr
    obtain ⟨rfl, rfl, _⟩ := locate_leads ht hd hn.nonempty hn.slash hl hl1
    obtain ⟨hx, rfl, hpw⟩ := locate_leads ht hd hwne hslw hl hl2
    subst hx
    rw [hfe] at he1
    cases he1
    refine ⟨n2, hpw, h4, h5, rfl, ?_⟩
    rcases hc with ⟨hf2, _, hfs⟩ | ⟨hf2, hfs⟩ | ⟨e2, hf2, hne, hio, hfs⟩
    · refine ⟨.inl hf2, hlw, ?_⟩
      rw [hW, hfs]; simp only [World.moved, movedFS, hedir]
    · refine ⟨.inr hf2, hlw, ?_⟩
      rw [hW, hfs]; simp only [World.moved, movedFS, hedir]
    · exfalso
      obtain ⟨he2, _, _⟩ := FS_find_some hf2
      by_cases hk : W.fs.kind e.ino = .dir
      · exact hne (ht.once e he e2 he2 hk hio.symm).symm
      · have hn2 := two_names he he2 hne hio
        have hlw2 := lookup_leads ht hd hpw hl hlw
        rw [hf2] at hlw2
        obtain ⟨sn, hsn, _, _⟩ := FS_lstat_lookup hlw2
        rw [hsn] at a2
        obtain ⟨_, _, g3⟩ := h6 sn a2.symm
        unfold FS.lstat at a
        rw [hlook, hfe] at a
        simp only [Option.map_some, hk, if_false, Option.some.injEq] at a
        rw [← a] at g3
        dsimp only at g3
        omega

/-- What `parse_file` does to a name in a known directory. -/
theorem fileRun_world {denied : Bytes → Bool} (S : ScanSetting R o E denied) {W W' : World} (hden : W.fs.denied = denied)
    (ht : W.fs.Tree depth slack) {dir n p : Bytes} {x : Ino} {mid : List Event} (hd : dir = [] ∨ ∃ d, dir = d ++ [0x2F])
    (hn : PlainName n) (h0 : (0 : Byte) ∉ n) (hl : W.fs.Leads depth slack level dir x) (hf : FileRunBy R o (dir ++ n) mid p)
    (hs : World.Steps W mid W') (hE : ∀ e ∈ mid, e ∈ E) (hlk : W.fs.denied (dir ++ n) = false) :
    (W.fs.find x n = none → W' = W ∧ p = dir ++ n) ∧
    ∀ e, W.fs.find x n = some e →
      (W' = W ∧ p = dir ++ n ∧ (CleanedBy R n ∨ Complained E (dir ++ n))) ∨
      (∃ w, PlainName w ∧ CleanedBy R w ∧ w ≠ n ∧ p = dir ++ w ∧ (W.fs.find x w = none ∨ W.fs.find x w = some e) ∧
        W.fs.denied (dir ++ w) = false ∧ W' = W.moved e w) := by
  have cleaned : ∀ {w : Bytes}, R n w → CleanedBy R w :=
    fun h => ⟨n, hn.nonempty, hn.slash, h0, h⟩
  obtain ⟨h1, h2⟩ := fileRun_exact S hden ht hd hn h0 hl hf hs hE hlk
  refine ⟨h1, fun e he => (h2 e he).imp (fun ⟨a, b, c⟩ => ⟨a, b, c.imp cleaned id⟩) ?_⟩
  rintro ⟨w, a, b, c, d, e, f, g⟩
  exact ⟨w, a, cleaned b, c, d, e, f, g⟩

/-! ### What stays -/

/-- The entry has a clean name, or there is a reason why not. With `-r`, a directory was entered. -/
def HandledIf (B : World → Entry → Prop) (R : Bytes → Bytes → Prop) (o : Options) (W : World) (e : Entry) : Prop :=
  (CleanedBy R e.name ∨ B W e) ∧ (o.recurse = true → W.fs.kind e.ino = .dir → Entered W e.ino)

/-- The entry needs no more attention. -/
def SettledIf (B : World → Entry → Prop) (R : Bytes → Bytes → Prop) (o : Options) (ws : List Bytes) (W : World) (e : Entry) : Prop :=
  LeftAlone o ws W e ∨ HandledIf B R o W e

/-- The reason is that the user was told. -/
def ComplainedOf (E : List Event) (W : World) (e : Entry) : Prop := ∃ p, (e.dir, p) ∈ W.opened ∧ Complained E (p ++ lit "/" ++ e.name)

/-- The entry needs no more attention. -/
abbrev Settled (R : Bytes → Bytes → Prop) (o : Options) (ws : List Bytes) (E : List Event) : World → Entry → Prop := SettledIf (ComplainedOf E) R o ws

/-- A reason that lasts while the world changes as `Ext` says, and calls of which `Ok` holds; `parse_file` gives a reason if there is no clean name, and `D`
holds if a directory cannot be opened. -/
structure Judge (B : World → Entry → Prop) (Ext : World → World → Prop) (Ok : World → List Event → Prop) (D : Prop) (R : Bytes → Bytes → Prop)
    (o : Options) (E : List Event) (depth : Ino → Nat) (slack : Nat) (denied : Bytes → Bool) : Prop where
  refl : ∀ W W' : World, W'.fs = W.fs → Ext W W'
  trans : ∀ W W' W'' : World, Ext W W' → Ext W' W'' → Ext W W''
  lasts : ∀ (W W' : World) (e : Entry), Ext W W' → (∀ a ∈ W.opened, a ∈ W'.opened) → B W e → B W' e
  tail : ∀ (W W1 : World) (ev : Event) (t : List Event), Ok W (ev :: t) → World.Step W ev W1 → Ok W1 t
  left : ∀ (W : World) (t1 t2 : List Event), Ok W (t1 ++ t2) → Ok W t1
  right : ∀ (W W1 : World) (t1 t2 : List Event), Ok W (t1 ++ t2) → World.Steps W t1 W1 → Ok W1 t2
  shut : ∀ (W : World) (p : Bytes) (r : OpenRes) (t : List Event) (d : Ino), Ok W (.opendir p r :: t) → (∀ h, r ≠ .ok h) → W.fs.follow p = some d →
    W.fs.kind d = .dir → Event.err (lit "unable to parse: ") ∈ E → D
  file : ∀ (W W' : World) (level : Nat) (dir n p : Bytes) (x : Ino) (mid : List Event), W.fs.denied = denied → W.fs.Tree depth slack →
    (dir = [] ∨ ∃ d, dir = d ++ [0x2F]) → PlainName n → (0 : Byte) ∉ n → W.fs.Leads depth slack level dir x → FileRunBy R o (dir ++ n) mid p →
    World.Steps W mid W' → (∀ e ∈ mid, e ∈ E) → W.fs.denied (dir ++ n) = false → Ok W mid →
    (W.fs.find x n = none → W' = W ∧ p = dir ++ n) ∧
    ∀ e, W.fs.find x n = some e →
      (W' = W ∧ p = dir ++ n ∧ (CleanedBy R n ∨ (Complained E (dir ++ n) ∧
        (e.name = n → ∀ p', dir = p' ++ [0x2F] → (x, p') ∈ W.opened → B W e)))) ∨
      (∃ w, PlainName w ∧ CleanedBy R w ∧ w ≠ n ∧ p = dir ++ w ∧ (W.fs.find x w = none ∨ W.fs.find x w = some e) ∧
        W.fs.denied (dir ++ w) = false ∧ W' = W.moved e w ∧ Ext W (W.moved e w))

/-- From `W` to `W'` nothing changed but in directories of depth `level` or more, where entries got clean names; the open directories other than
`X` stay open and no name gets lost. -/
structure KeepsIf (B : World → Entry → Prop) (Ext : World → World → Prop) (D : Prop) (R : Bytes → Bytes → Prop) (o : Options) (ws : List Bytes) (E : List Event)
    (depth : Ino → Nat) (slack level : Nat) (X : Nat → Prop) (W W' : World) : Prop where
  same : SameBut W.fs W'.fs
  ext : Ext W W'
  tree : W'.fs.Tree depth slack
  finds : ∀ x, depth x < level → ∀ n, W'.fs.find x n = W.fs.find x n
  opened : ∀ a ∈ W.opened, a ∈ W'.opened
  refused : ∀ a ∈ W.refused, a ∈ W'.refused
  unread : ∀ a ∈ W'.refused, a ∈ W.refused ∨ D
  streams : ∀ k s, ¬ X k → W.streams k = some s → ∃ s', W'.streams k = some s' ∧ s'.dir = s.dir
  kept : ∀ e ∈ W'.fs.entries, HandledIf B R o W' e ∨ (e ∈ W.fs.entries ∧ ∀ k s s', ¬ X k → W.streams k = some s → W'.streams k = some s' →
    s.dir = e.dir → e.name ∈ s.owed → e.name ∈ s'.owed)
  forward : ∀ e ∈ W.fs.entries, ∃ e' ∈ W'.fs.entries, e'.dir = e.dir ∧ e'.ino = e.ino ∧ (e' = e ∨ CleanedBy R e'.name)
  fresh : ∀ a ∈ W'.opened, a ∈ W.opened ∨ ∀ e ∈ W'.fs.entries, e.dir = a.1 → SettledIf B R o ws W' e

abbrev Keeps (R : Bytes → Bytes → Prop) (o : Options) (ws : List Bytes) (E : List Event) (depth : Ino → Nat) (slack level : Nat) (X : Nat → Prop) :
    World → World → Prop := KeepsIf (ComplainedOf E) (fun _ _ => True) (Event.err (lit "unable to parse: ") ∈ E) R o ws E depth slack level X

theorem SameBut.kind {a b : FS} (h : SameBut a b) : b.kind = a.kind := by obtain ⟨es, rfl⟩ := h; rfl
theorem SameBut.denied {a b : FS} (h : SameBut a b) : b.denied = a.denied := by obtain ⟨es, rfl⟩ := h; rfl

variable {ws : List Bytes} {X : Nat → Prop} {B : World → Entry → Prop} {Ext : World → World → Prop} {Ok : World → List Event → Prop}
  {D : Prop} {denied : Bytes → Bool}

theorem KeepsIf.refl (J : Judge B Ext Ok D R o E depth slack denied) {W : World} (ht : W.fs.Tree depth slack) :
    KeepsIf B Ext D R o ws E depth slack level X W W :=
  ⟨.refl _, J.refl _ _ rfl, ht, fun _ _ _ => rfl, fun _ h => h, fun _ h => h, fun _ h => .inl h, fun _ s _ h => ⟨s, h, rfl⟩,
    fun _ h => .inr ⟨h, fun k s s' _ h1 h2 _ hm => by rw [h1] at h2; cases h2; exact hm⟩, fun e h => ⟨e, h, rfl, rfl, .inl rfl⟩,
    fun _ h => .inl h⟩

theorem Spec.Entered.mono {W W' : World} (ho : ∀ a ∈ W.opened, a ∈ W'.opened) (hr : ∀ a ∈ W.refused, a ∈ W'.refused) {d : Ino}
    (h : Entered W d) : Entered W' d := by
  obtain ⟨p, h | h⟩ := h
  · exact ⟨p, .inl (ho _ h)⟩
  · exact ⟨p, .inr (hr _ h)⟩

theorem HandledIf.mono (J : Judge B Ext Ok D R o E depth slack denied) {W W' : World} (k : KeepsIf B Ext D R o ws E depth slack level X W W') {e : Entry}
    (h : HandledIf B R o W e) : HandledIf B R o W' e := by
  refine ⟨?_, fun h1 h2 => (h.2 h1 (by rw [← k.same.kind]; exact h2)).mono k.opened k.refused⟩
  rcases h.1 with h | h
  · exact .inl h
  · exact .inr (J.lasts W W' e k.ext k.opened h)

theorem SettledIf.mono (J : Judge B Ext Ok D R o E depth slack denied) {W W' : World} (k : KeepsIf B Ext D R o ws E depth slack level X W W') {e : Entry}
    (h : SettledIf B R o ws W e) : SettledIf B R o ws W' e := by
  rcases h with h | h
  · left
    unfold LeftAlone at h ⊢
    rw [k.same.kind]
    exact h
  · exact .inr (h.mono J k)

theorem KeepsIf.trans (J : Judge B Ext Ok D R o E depth slack denied) {W W' W'' : World} (h1 : KeepsIf B Ext D R o ws E depth slack level X W W') (h2 : KeepsIf B Ext D R o ws E depth slack level X W' W'') :
    KeepsIf B Ext D R o ws E depth slack level X W W'' := by
  refine ⟨h1.same.trans h2.same, J.trans _ _ _ h1.ext h2.ext, h2.tree, fun x hx n => (h2.finds x hx n).trans (h1.finds x hx n), fun a h => h2.opened a (h1.opened a h),
    fun a h => h2.refused a (h1.refused a h), ?_, ?_, ?_, ?_, ?_⟩
  · intro a h
    rcases h2.unread a h with h | h
    · exact h1.unread a h
    · exact .inr h
  · intro k s hx hk
    obtain ⟨s1, a, b⟩ := h1.streams k s hx hk
    obtain ⟨s2, c, d⟩ := h2.streams k s1 hx a
    exact ⟨s2, c, d.trans b⟩
  · intro e he
    rcases h2.kept e he with h | ⟨h, hk⟩
    · exact .inl h
    · rcases h1.kept e h with h | ⟨h, hk'⟩
      · exact .inl (h.mono J h2)
      · refine .inr ⟨h, fun k s s'' hx hs hs'' hd hm => ?_⟩
        obtain ⟨s', a, b⟩ := h1.streams k s hx hs
        exact hk k s' s'' hx a hs'' (b.trans hd) (hk' k s s' hx hs a hd hm)
  · intro e he
    obtain ⟨e1, m1, d1, i1, c1⟩ := h1.forward e he
    obtain ⟨e2, m2, d2, i2, c2⟩ := h2.forward e1 m1
    refine ⟨e2, m2, d2.trans d1, i2.trans i1, ?_⟩
    rcases c2 with rfl | c2
    · rcases c1 with rfl | c1
      · exact .inl rfl
      · exact .inr c1
    · exact .inr c2
  · intro a ha
    rcases h2.fresh a ha with h | h
    · rcases h1.fresh a h with h | h
      · exact .inl h
      · refine .inr fun e he hd => ?_
        rcases h2.kept e he with hh | ⟨hh, _⟩
        · exact .inr hh
        · exact (h e hh hd).mono J h2
    · exact .inr h

theorem KeepsIf.weaken {W W' : World} {level' : Nat} {X' : Nat → Prop} (h : KeepsIf B Ext D R o ws E depth slack level' X' W W') (hl : level ≤ level')
    (hx : ∀ k, X' k → X k) : KeepsIf B Ext D R o ws E depth slack level X W W' :=
  ⟨h.same, h.ext, h.tree, fun x hx n => h.finds x (by omega) n, h.opened, h.refused, h.unread, fun k s hk => h.streams k s (fun a => hk (hx k a)),
    fun e he => (h.kept e he).imp id fun a => ⟨a.1, fun k s s' hk => a.2 k s s' (fun b => hk (hx k b))⟩, h.forward, h.fresh⟩

/-- A rename, and what comes after it. -/
theorem KeepsIf.move (J : Judge B Ext Ok D R o E depth slack denied) {W W' : World} {e : Entry} {w : Bytes} (he : e ∈ W.fs.entries)
    (hl : level ≤ depth e.dir) (hext : Ext W (W.moved e w)) (hc : CleanedBy R w) (hent : o.recurse = true → W.fs.kind e.ino = .dir → Entered W' e.ino)
    (hk : KeepsIf B Ext D R o ws E depth slack level X (W.moved e w) W') : KeepsIf B Ext D R o ws E depth slack level X W W' := by
  have hsame : SameBut W.fs (W.moved e w).fs := ⟨_, rfl⟩
  have hhand : ∀ y : Entry, y = ⟨e.dir, w, e.ino⟩ → HandledIf B R o W' y := by
    rintro y rfl
    exact ⟨.inl hc, fun h1 h2 => hent h1 (by rw [← (hsame.trans hk.same).kind]; exact h2)⟩
  refine ⟨hsame.trans hk.same, J.trans _ _ _ hext hk.ext, hk.tree, fun x hx n => ?_, hk.opened, hk.refused, hk.unread, ?_, ?_, ?_, hk.fresh⟩
  · rw [hk.finds x hx n]
    exact moved_find (fun h => by rw [h] at hx; omega) n
  · intro k s hx hs
    exact hk.streams k (Stream.after (movedFS W.fs e w) s) hx (by simp [World.moved, hs])
  · intro y hy
    rcases hk.kept y hy with h | ⟨h, hk'⟩
    · exact .inl h
    · rcases (mem_moved he).1 h with h1 | ⟨h1, h2⟩
      · exact .inl (hhand y h1)
      · refine .inr ⟨h1, fun k s s' hx hs hs' hd hm => ?_⟩
        refine hk' k (Stream.after (movedFS W.fs e w) s) s' hx (by simp [World.moved, hs]) hs' hd ?_
        unfold Stream.after
        simp only [List.mem_filter, hm, true_and, decide_eq_true_eq]
        unfold FS.namesIn
        rw [List.mem_map]
        refine ⟨y, ?_, rfl⟩
        rw [List.mem_filter]
        exact ⟨h, by simp [hd]⟩
  · intro y hy
    by_cases hye : y = e
    · subst hye
      obtain ⟨e', m, d, i, c⟩ := hk.forward ⟨y.dir, w, y.ino⟩ ((mem_moved he).2 (.inl rfl))
      refine ⟨e', m, d, i, .inr ?_⟩
      rcases c with h | h
      · rw [h]; exact hc
      · exact h
    · exact hk.forward y ((mem_moved he).2 (.inr ⟨hy, hye⟩))

/-! ### The scan -/

/-- `opendir` succeeds. -/
def Spec.World.inside (W : World) (h : Nat) (d : Ino) (p : Bytes) : World :=
  { W with streams := fun k => if k = h then some ⟨d, W.fs.namesIn d⟩ else W.streams k, opened := (d, p) :: W.opened }

/-- `readdir` gives a name: the stream of the directory changes. -/
def Spec.World.given (W : World) (h : Nat) (d : Ino) (owed : List Bytes) (n : Bytes) : World :=
  { W with streams := fun k => if k = h then some ⟨d, owed.filter (· ≠ n)⟩ else W.streams k }

theorem world_readdir {W W' : World} {h : Nat} {d : Ino} {owed : List Bytes} {n : Bytes} {tr : List Event}
    (hW : W.streams h = some ⟨d, owed⟩) (hs : World.Steps W (.readdir h (some n) :: tr) W') :
    EntryName n ∧ World.Steps (W.given h d owed n) tr W' := by
  cases hs with
  | cons _ _ _ _ _ s1 t1 =>
    cases s1 with
    | entry _ s _ h1 h2 =>
      rw [hW] at h1
      cases h1
      exact ⟨h2, t1⟩

theorem KeepsIf.given (J : Judge B Ext Ok D R o E depth slack denied) {W : World} {h : Nat} {d : Ino} {owed : List Bytes} {n : Bytes} (ht : W.fs.Tree depth slack) :
    KeepsIf B Ext D R o ws E depth slack level (· = h) W (W.given h d owed n) := by
  refine ⟨.refl _, J.refl _ _ rfl, ht, fun _ _ _ => rfl, fun _ h => h, fun _ h => h, fun _ h => .inl h, ?_, ?_,
    fun e h => ⟨e, h, rfl, rfl, .inl rfl⟩, fun _ h => .inl h⟩
  · intro k s hk hs
    exact ⟨s, by simp [World.given, hk, hs], rfl⟩
  · intro e he
    refine .inr ⟨he, fun k s s' hk hs hs' _ hm => ?_⟩
    simp only [World.given, if_neg hk, hs, Option.some.injEq] at hs'
    rw [← hs']
    exact hm

theorem Judge.lstat (J : Judge B Ext Ok D R o E depth slack denied) {W W' : World} {p : Bytes} {r : Option Stat} {t : List Event}
    (h : Ok W (.lstat p r :: t)) (hs : World.Steps W (.lstat p r :: t) W') : Ok W t :=
  J.tail _ _ _ _ h (.lstat W _ _ (world_lstat hs).1)

theorem Judge.readdir (J : Judge B Ext Ok D R o E depth slack denied) {W W' : World} {h : Nat} {d : Ino} {owed : List Bytes} {n : Bytes} {t : List Event}
    (hW : W.streams h = some ⟨d, owed⟩) (hok : Ok W (.readdir h (some n) :: t)) (hs : World.Steps W (.readdir h (some n) :: t) W') :
    Ok (W.given h d owed n) t :=
  J.tail _ _ _ _ hok (.entry W h _ n hW (world_readdir hW hs).1)

/-- One name dealt with, then the others. -/
theorem entry_done (J : Judge B Ext Ok D R o E depth slack denied) {W W4 W' : World} {h : Nat} {d : Ino} {owed : List Bytes} {n : Bytes} (ht : W.fs.Tree depth slack)
    (hK : KeepsIf B Ext D R o ws E depth slack (depth d) (fun _ => False) (W.given h d owed n) W4)
    (hn : ∀ e ∈ W.fs.entries, e.dir = d → e.name = n → e ∈ W4.fs.entries → SettledIf B R o ws W4 e)
    (ih : ∀ owed4, W4.streams h = some ⟨d, owed4⟩ → KeepsIf B Ext D R o ws E depth slack (depth d) (· = h) W4 W' ∧
      ∀ e ∈ W'.fs.entries, e.dir = d → SettledIf B R o ws W' e ∨ (e ∈ W4.fs.entries ∧ e.name ∉ owed4)) :
    KeepsIf B Ext D R o ws E depth slack (depth d) (· = h) W W' ∧
      ∀ e ∈ W'.fs.entries, e.dir = d → SettledIf B R o ws W' e ∨ (e ∈ W.fs.entries ∧ e.name ∉ owed) := by
  have hg : (W.given h d owed n).streams h = some ⟨d, owed.filter (· ≠ n)⟩ := by simp [World.given]
  obtain ⟨⟨d4, owed4⟩, h4, hd4⟩ := hK.streams h _ (fun x => x) hg
  dsimp only at hd4
  subst hd4
  obtain ⟨k1, k2⟩ := ih owed4 h4
  refine ⟨(KeepsIf.given J ht).trans J ((hK.weaken (Nat.le_refl _) (fun _ x => x.elim)).trans J k1), fun e he hd => ?_⟩
  rcases k2 e he hd with hs | ⟨hm, ho⟩
  · exact .inl hs
  · rcases hK.kept e hm with hh | ⟨hm', hk⟩
    · exact .inl (.inr (hh.mono J k1))
    · by_cases hen : e.name = n
      · exact .inl ((hn e hm' hd hen hm).mono J k1)
      · refine .inr ⟨hm', fun ho' => ho ?_⟩
        exact hk h _ _ (fun x => x) hg h4 hd.symm (List.mem_filter.2 ⟨ho', by simpa using hen⟩)

/-- What a task achieves. -/
def ScanGoalIf (B : World → Entry → Prop) (Ext : World → World → Prop) (D : Prop) (R : Bytes → Bytes → Prop) (o : Options) (ws : List Bytes) (E : List Event) (depth : Ino → Nat) (slack : Nat) : Task → World → World → Prop
  | .dir p, W, W' => p ≠ [] → (W.fs.lookup p = none → W' = W) ∧
      ∀ d, W.fs.Leads depth slack (depth d) p d → W.fs.lookup p = some d →
        KeepsIf B Ext D R o ws E depth slack (depth d) (fun _ => False) W W' ∧ Entered W' d
  | .entries h p _, W, W' => ∀ d owed, W.streams h = some ⟨d, owed⟩ → p ≠ [] → W.fs.Leads depth slack (depth d) p d → (d, p) ∈ W.opened →
      KeepsIf B Ext D R o ws E depth slack (depth d) (· = h) W W' ∧
      ∀ e ∈ W'.fs.entries, e.dir = d → SettledIf B R o ws W' e ∨ (e ∈ W.fs.entries ∧ e.name ∉ owed)

theorem entryPath_short {p n : Bytes} (h : n.length ≤ 255) : entryPath p n = (p ++ [0x2F]) ++ n := by
  unfold entryPath
  have : lit "/" = [0x2F] := by decide
  rw [this, List.take_of_length_le]
  simp
  omega

theorem lstat_kind {fs : FS} {p : Bytes} {st : Stat} {i : Ino} (h : fs.lookup p = some i) (hs : fs.lstat p = some st) :
    st.kind = fs.kind i ∧ st.dev = i.dev ∧ st.ino = i.num := by
  unfold FS.lstat at hs
  rw [h] at hs
  cases hs
  exact ⟨rfl, rfl, rfl⟩

theorem scan_goal_if (J : Judge B Ext Ok D R o E depth slack denied) (S : ScanSetting R o E denied) {t : Task} {seen seen' : List Bytes} {tr : List Event}
    (h : ScanBy R o ws t seen tr seen') : (∀ e ∈ tr, e ∈ E) → ∀ W W' : World, W.fs.denied = denied → W.fs.Tree depth slack →
    World.Steps W tr W' → Ok W tr → ScanGoalIf B Ext D R o ws E depth slack t W W' := by
  induction h with
  | gone p seen =>
    intro hE W W' hden ht hs hok hp
    obtain ⟨a, b⟩ := world_lstat hs
    have b := world_nil b
    refine ⟨fun _ => b, fun d _ hlk => ?_⟩
    rw [lookup_none a] at hlk
    cases hlk
  | replaced p st seen hk =>
    intro hE W W' hden ht hs hok hp
    obtain ⟨a, b⟩ := world_lstat hs
    have b := world_nil b
    refine ⟨fun _ => b, fun d hl hlk => ?_⟩
    exact absurd ((lstat_kind hlk a).1.trans hl.kind) hk
  | closed p st seen hk =>
    intro hE W W' hden ht hs hok hp
    obtain ⟨a, b⟩ := world_lstat hs
    refine ⟨fun hx => (by rw [lstat_none hx] at a; cases a), fun d hl hlk => ?_⟩
    have hd : W.fs.denied p = false := by rw [hden]; exact S.allowed p (some st) (hE _ (by simp))
    have hfo := follow_leads ht hp hd hl
    have hok1 := J.tail _ _ _ _ hok (.lstat W _ _ a)
    cases b with
    | cons _ _ _ _ _ s1 t1 =>
      cases s1 with
      | refused _ _ hno =>
        have := world_nil (world_err t1)
        subst this
        rw [hfo]
        refine ⟨⟨.refl _, J.refl _ _ rfl, ht, fun _ _ _ => rfl, fun _ h => h, fun _ h => List.mem_append_right _ h,
          fun _ _ => .inr (J.shut _ _ _ _ _ hok1 hno hfo hl.kind (hE _ (by simp))), fun _ s _ h => ⟨s, h, rfl⟩,
          fun _ h => .inr ⟨h, fun k s s' _ h1 h2 _ hm => ?_⟩, fun e h => ⟨e, h, rfl, rfl, .inl rfl⟩, fun _ h => .inl h⟩, ⟨p, .inr ?_⟩⟩
        · dsimp only at h2
          rw [h1] at h2; cases h2; exact hm
        · simp
  | opened p st h seen seen' tr hk _ ih =>
    intro hE W W' hden ht hs hok hp
    obtain ⟨a, b⟩ := world_lstat hs
    refine ⟨fun hx => (by rw [lstat_none hx] at a; cases a), fun d hl hlk => ?_⟩
    have hd : W.fs.denied p = false := by rw [hden]; exact S.allowed p (some st) (hE _ (by simp))
    have hfo := follow_leads ht hp hd hl
    have hok1 := J.tail _ _ _ _ hok (.lstat W _ _ a)
    cases b with
    | cons _ _ _ _ _ s1 t1 =>
      have hok2 := J.tail _ _ _ _ hok1 s1
      cases s1 with
      | refused _ _ hno => exact absurd rfl (hno h)
      | opened _ _ d' h1 h2 h3 =>
        rw [hfo] at h1
        cases h1
        clear hs
        obtain ⟨k1, k2⟩ := ih (fun e he => hE e (by simp [he])) (W.inside h d p) _ hden ht t1 hok2 d (W.fs.namesIn d) (by simp [World.inside]) hp hl
          (by simp [World.inside])
        refine ⟨⟨k1.same, J.trans W (W.inside h d p) _ (J.refl _ _ rfl) k1.ext, k1.tree, k1.finds, fun x hx => k1.opened x (by simp [World.inside, hx]), k1.refused, k1.unread, ?_, ?_, k1.forward, ?_⟩,
          ⟨p, .inl (k1.opened _ (by simp [World.inside]))⟩⟩
        · intro k s _ hs
          have hkh : k ≠ h := by rintro rfl; rw [h3] at hs; cases hs
          exact k1.streams k s hkh (by simpa [World.inside, hkh] using hs)
        · intro e he
          rcases k1.kept e he with hh | ⟨hm, hkk⟩
          · exact .inl hh
          · refine .inr ⟨hm, fun k s s' _ hs hs' => ?_⟩
            have hkh : k ≠ h := by rintro rfl; rw [h3] at hs; cases hs
            exact hkk k s s' hkh (by simpa [World.inside, hkh] using hs) hs'
        · intro x hx
          rcases k1.fresh x hx with hh | hh
          · rcases List.mem_cons.1 hh with rfl | hh
            · refine .inr fun e he hde => ?_
              rcases k2 e he hde with hse | ⟨hm, hno⟩
              · exact hse
              · refine absurd ?_ hno
                unfold FS.namesIn
                rw [List.mem_map]
                exact ⟨e, by rw [List.mem_filter]; exact ⟨hm, by simpa using hde⟩, rfl⟩
            · exact .inl hh
          · exact .inr hh
  | finish h p st seen =>
    intro hE W W' hden ht hs hok d owed hst hp hl hop
    cases hs with
    | cons _ _ _ _ _ s1 t1 =>
      cases s1 with
      | finished _ s h1 h2 =>
        rw [hst] at h1
        cases h1
        dsimp only at h2
        subst h2
        cases t1 with
        | cons _ _ _ _ _ s2 t2 =>
          cases s2
          have := world_nil t2
          subst this
          refine ⟨⟨.refl _, J.refl _ _ rfl, ht, fun _ _ _ => rfl, fun _ h => h, fun _ h => h, fun _ h => .inl h, ?_, ?_,
            fun e h => ⟨e, h, rfl, rfl, .inl rfl⟩, fun _ h => .inl h⟩, fun e he _ => .inr ⟨he, by simp⟩⟩
          · intro k s hk hs
            exact ⟨s, by simpa [hk] using hs, rfl⟩
          · intro e he
            refine .inr ⟨he, fun k s s' hk hs hs' _ hm => ?_⟩
            simp only [if_neg hk, hs, Option.some.injEq] at hs'
            rw [← hs']
            exact hm
  | pass h p st name seen seen' tr hpass _ ih =>
    intro hE W W' hden ht hs hok d owed hst hp hl hop
    have hok := J.readdir hst hok hs
    obtain ⟨hen, hs⟩ := world_readdir hst hs
    refine entry_done J (W4 := W.given h d owed name) ht (.refl J ht) ?_ (fun owed4 h4 =>
      ih (fun e he => hE e (by simp [he])) (W.given h d owed name) _ hden ht hs hok d owed4 h4 hp hl hop)
    intro e _ _ hne _
    refine .inl ?_
    unfold LeftAlone
    rw [hne]
    rcases hpass with hpass | hpass
    · exact .inl hpass
    · exact .inr (.inl (List.mem_of_mem_drop hpass))
  | leave h p st name r seen seen' tr hpass hkd hkr hsp _ ih =>
    intro hE W W' hden ht hs hok d owed hst hp hl hop
    have hok := J.readdir hst hok hs
    obtain ⟨hen, hs⟩ := world_readdir hst hs
    have hok := J.lstat hok hs
    obtain ⟨a, hs⟩ := world_lstat hs
    refine entry_done J (W4 := W.given h d owed name) ht (.refl J ht) ?_ (fun owed4 h4 =>
      ih (fun e he => hE e (by simp [he])) (W.given h d owed name) _ hden ht hs hok d owed4 h4 hp hl hop)
    intro e he hd hne _
    have hplain : PlainName name := ⟨hen.nonempty, hen.slash, fun h0 => hpass (.inl ⟨_, h0⟩), fun h0 => hpass (.inl ⟨_, h0⟩)⟩
    have hfe : W.fs.find d name = some e := by rw [← hd, ← hne]; exact find_exact ht.unique he
    rw [entryPath_short hen.short] at a hE
    have hlk := lookup_leads ht (.inr ⟨p, rfl⟩) hplain (leads_slash hp hl) (by rw [hden]; exact S.allowed _ r (hE _ (by simp)))
    rw [hfe] at hlk
    cases r with
    | none => rw [show (W.given h d owed name).fs = W.fs from rfl] at a; rw [lookup_none a] at hlk; cases hlk
    | some st' =>
      obtain ⟨b, _, _⟩ := lstat_kind hlk a
      refine .inl (.inr (.inr ⟨?_, ?_, hsp⟩))
      · rw [show (W.given h d owed name).fs = W.fs from rfl, ← b]; exact hkd
      · rw [show (W.given h d owed name).fs = W.fs from rfl, ← b]; exact hkr
  | file h p st name r seen seen' mid tr q hpass hkind hf _ ih =>
    intro hE W W' hden ht hs hok d owed hst hp hl hop
    have hok := J.readdir hst hok hs
    obtain ⟨hen, hs⟩ := world_readdir hst hs
    have hok := J.lstat hok hs
    obtain ⟨a, hs⟩ := world_lstat hs
    obtain ⟨W4, hs1, hs2⟩ := World.Steps.append_inv hs
    have hokl := J.left _ _ _ hok
    have hokr := J.right _ _ _ _ hok hs1
    have hplain : PlainName name := ⟨hen.nonempty, hen.slash, fun h0 => hpass (.inl ⟨_, h0⟩), fun h0 => hpass (.inl ⟨_, h0⟩)⟩
    rw [entryPath_short hen.short] at a hE hf
    have hallow : W.fs.denied ((p ++ [0x2F]) ++ name) = false := by rw [hden]; exact S.allowed _ r (hE _ (by simp))
    have hlk := lookup_leads ht (.inr ⟨p, rfl⟩) hplain (leads_slash hp hl) hallow
    have hls := leads_slash hp hl
    obtain ⟨f1, f2⟩ := J.file (W.given h d owed name) _ _ _ _ _ _ _ hden ht (.inr ⟨p, rfl⟩) hplain hen.nul hls hf hs1
      (fun e he => hE e (by simp [he])) hallow hokl
    have nokind : ∀ e, W.fs.find d name = some e → o.recurse = true → W.fs.kind e.ino ≠ .dir := by
      intro e hfe hrec hkd
      rw [hfe] at hlk
      cases r with
      | none => rw [show (W.given h d owed name).fs = W.fs from rfl] at a; rw [lookup_none a] at hlk; cases hlk
      | some st' =>
        obtain ⟨b, _, _⟩ := lstat_kind hlk a
        simp only [Option.getD_some, b, hkd] at hkind
        rcases hkind with ⟨_, h1⟩ | h1 | ⟨h1, _⟩
        · rw [hrec] at h1; cases h1
        · cases h1
        · exact h1 rfl
    cases hfe : W.fs.find d name with
    | none =>
      obtain ⟨rfl, rfl⟩ := f1 hfe
      refine entry_done J (W4 := W.given h d owed name) ht (.refl J ht) ?_ (fun owed4 h4 =>
        ih (fun e he => hE e (by simp [he])) (W.given h d owed name) _ hden ht hs2 hokr d owed4 h4 hp hl hop)
      intro e he hd hne _
      rw [← hd, ← hne, find_exact ht.unique he] at hfe
      cases hfe
    | some e =>
      obtain ⟨he, hed, _⟩ := FS_find_some hfe
      rcases f2 e hfe with ⟨rfl, rfl, hcl⟩ | ⟨w, hw, hcl, hne, rfl, hfree, hdw, rfl, hext⟩
      · refine entry_done J (W4 := W.given h d owed name) ht (.refl J ht) ?_ (fun owed4 h4 =>
          ih (fun e he => hE e (by simp [he])) (W.given h d owed name) _ hden ht hs2 hokr d owed4 h4 hp hl hop)
        intro e' he' hd' hne' _
        have : e' = e := by
          rw [← hd', ← hne', find_exact ht.unique he'] at hfe; exact Option.some.inj hfe
        subst this
        refine .inr ⟨?_, fun h1 h2 => absurd h2 (nokind e' hfe h1)⟩
        rw [hne']
        rcases hcl with hcl | hcl
        · exact .inl hcl
        · exact .inr (hcl.2 hne' p rfl hop)
      · rw [← hed] at hfree
        have ht4 := moved_tree (fs := W.fs) ht he hfree
        have hK : KeepsIf B Ext D R o ws E depth slack (depth d) (fun _ => False) (W.given h d owed name) ((W.given h d owed name).moved e w) :=
          KeepsIf.move J (W := W.given h d owed name) he (by rw [hed]; exact Nat.le_refl _) hext hcl
            (fun h1 h2 => absurd h2 (nokind e hfe h1)) (.refl J ht4)
        refine entry_done J ht hK ?_ (fun owed4 h4 =>
          ih (fun e he => hE e (by simp [he])) ((W.given h d owed name).moved e w) _ hden ht4 hs2 hokr d owed4 h4 hp
            (leads_same hK.same hl hK.finds) (hK.opened _ hop))
        intro e' he' hd' hne' hm
        exfalso
        have : e' = e := by
          rw [← hd', ← hne', find_exact ht.unique he'] at hfe; exact Option.some.inj hfe
        subst this
        rcases (mem_moved (fs := W.fs) he).1 hm with h1 | ⟨_, h1⟩
        · exact hne (by rw [← hne', h1])
        · exact h1 rfl
  | recurse h p st name r seen seen1 seen' mid sub tr q hpass hkind hrec hf _ _ ih1 ih2 =>
    intro hE W W' hden ht hs hok d owed hst hp hl hop
    have hok := J.readdir hst hok hs
    obtain ⟨hen, hs⟩ := world_readdir hst hs
    have hok := J.lstat hok hs
    obtain ⟨a, hs⟩ := world_lstat hs
    obtain ⟨W3, hs1, hs2⟩ := World.Steps.append_inv hs
    have hokl := J.left _ _ _ hok
    have hokr := J.right _ _ _ _ hok hs1
    obtain ⟨W4, hs2, hs3⟩ := World.Steps.append_inv hs2
    have hokm := J.left _ _ _ hokr
    have hokt := J.right _ _ _ _ hokr hs2
    have hplain : PlainName name := ⟨hen.nonempty, hen.slash, fun h0 => hpass (.inl ⟨_, h0⟩), fun h0 => hpass (.inl ⟨_, h0⟩)⟩
    rw [entryPath_short hen.short] at a hE hf
    have hallow : W.fs.denied ((p ++ [0x2F]) ++ name) = false := by rw [hden]; exact S.allowed _ r (hE _ (by simp))
    have hlk := lookup_leads ht (.inr ⟨p, rfl⟩) hplain (leads_slash hp hl) hallow
    have hls := leads_slash hp hl
    obtain ⟨f1, f2⟩ := J.file (W.given h d owed name) _ _ _ _ _ _ _ hden ht (.inr ⟨p, rfl⟩) hplain hen.nul hls hf hs1
      (fun e he => hE e (by simp [he])) hallow hokl
    have iskind : ∀ e, W.fs.find d name = some e → W.fs.kind e.ino = .dir := by
      intro e hfe
      rw [hfe] at hlk
      cases r with
      | none => rw [show (W.given h d owed name).fs = W.fs from rfl] at a; rw [lookup_none a] at hlk; cases hlk
      | some st' =>
        obtain ⟨b, _, _⟩ := lstat_kind hlk a
        simp only [Option.getD_some, b] at hkind
        exact hkind
    cases hfe : W.fs.find d name with
    | none =>
      obtain ⟨rfl, rfl⟩ := f1 hfe
      rw [hfe] at hlk
      obtain ⟨g, _⟩ := ih1 (fun e he => hE e (by simp [he])) (W.given h d owed name) W4 hden ht hs2 hokm (by simp)
      have := g hlk
      subst this
      refine entry_done J (W4 := W.given h d owed name) ht (.refl J ht) ?_ (fun owed4 h4 =>
        ih2 (fun e he => hE e (by simp [he])) (W.given h d owed name) _ hden ht hs3 hokt d owed4 h4 hp hl hop)
      intro e he hd hne _
      rw [← hd, ← hne, find_exact ht.unique he] at hfe
      cases hfe
    | some e =>
      have hkd := iskind e hfe
      obtain ⟨he, hed, _⟩ := FS_find_some hfe
      have hlev := ht.level e he hkd
      rw [hed] at hlev
      rcases f2 e hfe with ⟨rfl, rfl, hcl⟩ | ⟨w, hw, hcl, hne, rfl, hfree, hdw, rfl, hext⟩
      · rw [hfe] at hlk
        obtain ⟨_, g⟩ := ih1 (fun e he => hE e (by simp [he])) (W.given h d owed name) W4 hden ht hs2 hokm (by simp)
        obtain ⟨g1, g2⟩ := g e.ino (leads_entry ht (.inr ⟨p, rfl⟩) hplain hls hfe hkd) hlk
        have hK := g1.weaken (level := depth d) (X := fun _ => False) (by omega) (fun _ h => h)
        refine entry_done J ht hK ?_ (fun owed4 h4 =>
          ih2 (fun e he => hE e (by simp [he])) _ _ (by rw [hK.same.denied]; exact hden) hK.tree hs3 hokt d owed4 h4 hp
            (leads_same hK.same hl hK.finds) (hK.opened _ hop))
        intro e' he' hd' hne' _
        have : e' = e := by
          rw [← hd', ← hne', find_exact ht.unique he'] at hfe; exact Option.some.inj hfe
        subst this
        refine .inr ⟨?_, fun _ _ => g2⟩
        rw [hne']
        rcases hcl with hcl | hcl
        · exact .inl hcl
        · exact .inr (J.lasts _ _ _ hK.ext hK.opened (hcl.2 hne' p rfl hop))
      · rw [← hed] at hfree
        have ht3 := moved_tree (fs := W.fs) ht he hfree
        have hhere := moved_here (fs := W.fs) ht he hfree
        rw [hed] at hhere
        have hls3 : ((W.given h d owed name).moved e w).fs.Leads depth slack (depth d) (p ++ [0x2F]) d :=
          leads_same ⟨_, rfl⟩ hls (fun x hx n => moved_find (fun hx' => by rw [hx', hed] at hx; omega) n)
        have hlk3 := lookup_leads (fs := ((W.given h d owed name).moved e w).fs) ht3 (.inr ⟨p, rfl⟩) hw hls3 hdw
        rw [show ((W.given h d owed name).moved e w).fs.find d w = _ from hhere] at hlk3
        obtain ⟨_, g⟩ := ih1 (fun e he => hE e (by simp [he])) ((W.given h d owed name).moved e w) W4 hden ht3 hs2 hokm (by simp)
        obtain ⟨g1, g2⟩ := g e.ino (leads_entry (e := ⟨d, w, e.ino⟩) (fs := ((W.given h d owed name).moved e w).fs) ht3 (.inr ⟨p, rfl⟩) hw hls3 hhere hkd) hlk3
        have hK : KeepsIf B Ext D R o ws E depth slack (depth d) (fun _ => False) (W.given h d owed name) W4 :=
          KeepsIf.move J (W := W.given h d owed name) he (by rw [hed]; exact Nat.le_refl _) hext hcl
            (fun _ _ => g2) (g1.weaken (by omega) (fun _ h => h))
        refine entry_done J ht hK ?_ (fun owed4 h4 =>
          ih2 (fun e he => hE e (by simp [he])) _ _ (by rw [hK.same.denied]; exact hden) hK.tree hs3 hokt d owed4 h4 hp
            (leads_same hK.same hl hK.finds) (hK.opened _ hop))
        intro e' he' hd' hne' hm
        have hee : e' = e := by
          rw [← hd', ← hne', find_exact ht.unique he'] at hfe; exact Option.some.inj hfe
        subst hee
        rcases g1.kept e' hm with hh | ⟨hm3, _⟩
        · exact .inr hh
        · exfalso
          rcases (mem_moved (fs := W.fs) he).1 hm3 with h1 | ⟨_, h1⟩
          · exact hne (by rw [← hne', h1])
          · exact h1 rfl

/-- Where the reason is that the user was told. -/
theorem told_judge (S : ScanSetting R o E denied) : Judge (ComplainedOf E) (fun _ _ => True) (fun _ _ => True) (Event.err (lit "unable to parse: ") ∈ E) R o E depth slack denied where
  refl := fun _ _ _ => trivial
  trans := fun _ _ _ _ _ => trivial
  lasts := fun _ _ _ _ ho ⟨p, h1, h2⟩ => ⟨p, ho _ h1, h2⟩
  tail := fun _ _ _ _ _ _ => trivial
  left := fun _ _ _ _ => trivial
  right := fun _ _ _ _ _ _ => trivial
  shut := fun _ _ _ _ _ _ _ _ _ h => h
  file := by
    intro W W' level dir n p x mid hden ht hd hn h0 hl hf hs hE hlk _
    obtain ⟨f1, f2⟩ := fileRun_world S hden ht hd hn h0 hl hf hs hE hlk
    refine ⟨f1, fun e he => (f2 e he).imp (fun ⟨a, b, c⟩ => ⟨a, b, c.imp id fun c => ⟨c, fun hen p' hp' ho => ⟨p', ?_, ?_⟩⟩⟩) ?_⟩
    · rintro ⟨w, h1, h2, h3, h4, h5, h6, h7⟩
      exact ⟨w, h1, h2, h3, h4, h5, h6, h7, trivial⟩
    · rw [(FS_find_some he).2.1]; exact ho
    · rw [hen, show lit "/" = [0x2F] from by decide, ← hp']; exact c

theorem scan_goal (S : ScanSetting R o E denied) {t : Task} {seen seen' : List Bytes} {tr : List Event}
    (h : ScanBy R o ws t seen tr seen') (hE : ∀ e ∈ tr, e ∈ E) (W W' : World) (hden : W.fs.denied = denied) (ht : W.fs.Tree depth slack)
    (hs : World.Steps W tr W') : ScanGoalIf (ComplainedOf E) (fun _ _ => True) (Event.err (lit "unable to parse: ") ∈ E) R o ws E depth slack t W W' :=
  scan_goal_if (told_judge S) S h hE W W' hden ht hs trivial

/-! ### The arguments -/

theorem fileRun_self (hR : ∀ w, R [] w → w = []) {f dir name p : Bytes} {mid : List Event} (hf : FileRunBy R o f mid p) (h1 : f = dir ++ name)
    (h2 : dir = [] ∨ ∃ d, dir = d ++ [0x2F]) (h3 : name = [] ∨ name = [0x2E] ∨ name = [0x2E, 0x2E]) : mid = [] ∧ p = f := by
  have hsp : SplitsAs f dir name := by
    refine ⟨h1, ?_, h2⟩
    rcases h3 with rfl | rfl | rfl <;> decide
  have no : ∀ {dir' name' w : Bytes}, SplitsAs f dir' name' → name' ≠ lit "." → name' ≠ lit ".." →
      R name' w → w ≠ name' → False := by
    intro dir' name' w a b c d e
    have hn : name' = name := (splitsAs_unique a).2.trans (splitsAs_unique hsp).2.symm
    subst hn
    rcases h3 with rfl | rfl | rfl
    · exact e (hR w d)
    · exact b rfl
    · exact c rfl
  cases hf with
  | clean => exact ⟨rfl, rfl⟩
  | gone _ _ _ a b c d e => exact (no a b c d e).elim
  | refused _ _ _ _ _ a b c d e => exact (no a b c d e).elim
  | dry _ _ _ _ _ a b c d e => exact (no a b c d e).elim
  | renamed _ _ _ _ _ a b c d e => exact (no a b c d e).elim
  | failed _ _ _ _ _ a b c d e => exact (no a b c d e).elim

/-- A path to a directory is followed to what it is looked up as. -/
theorem lookup_self {fs : FS} {f : Bytes} {d i : Ino} (hl : fs.Leads depth slack level f d) (hlk : fs.lookup f = some i) (hk : fs.kind i = .dir) : i = d := by
  unfold FS.lookup at hlk
  split at hlk
  · cases hlk
  split at hlk
  · split at hlk
    · cases hlk
    · rename_i j hj
      split at hlk
      · cases hlk
        exact walk_unique hj hl.walk
      · cases hlk
  · rename_i hne hsl
    split at hlk
    · rename_i x n hx hn
      obtain ⟨cs, hcs⟩ := List.getLast?_eq_some_iff.1 hn
      unfold FS.dirOf at hx
      rw [hcs, List.dropLast_concat] at hx
      have hw := walk_snoc fs n i (by rw [hk]; intro h; cases h) _ _ _ _ hx hlk
      rw [← hcs] at hw
      exact walk_unique hw hl.walk
    · cases hlk

theorem Spec.AnsweredBy.mono {W W' : World} {f : Bytes} (h : AnsweredBy R o E W f) (hst : W.fs.Steady depth slack level f)
    (hk : KeepsIf B Ext D R o ws E depth slack level X W W') (ht : W.fs.Tree depth slack) : AnsweredBy R o E W' f := by
  rcases h with h | ⟨st, i, h1, h2, h2', h3⟩
  · exact .inl h
  · refine .inr ⟨st, i, h1, h2, by rw [hk.same.kind]; exact h2', ?_⟩
    rcases h3 with h3 | ⟨h3, h4⟩
    · exact .inl h3
    · refine .inr ⟨?_, fun h => (h4 h).mono hk.opened hk.refused⟩
      rcases h3 with h3 | ⟨e, h5, h6, h7, h8⟩
      · exact .inl h3
      · cases hst with
        | self dir name d g1 g2 g3 g4 g5 => exact .inl ⟨dir, name, g1, g2, g3⟩
        | name dir name x g1 g2 g3 g4 g5 g6 g7 =>
          subst g1
          rw [dirOf_leads ht g2 g4 g3 g7] at h7
          have hd := dirOf_leads hk.tree g2 g4 g3 (leads_same hk.same g7 hk.finds)
          obtain ⟨e', m, d, i', c⟩ := hk.forward e h5
          refine .inr ⟨e', m, i'.trans h6, by rw [hd, d]; exact h7, ?_⟩
          have hnorm : W'.fs.norm = W.fs.norm := by obtain ⟨es, h⟩ := hk.same; rw [h]
          rw [hnorm]
          rcases c with rfl | c
          · exact h8
          · exact .inl ⟨_, rfl, c⟩

theorem arg_goal_if (J : Judge B Ext Ok D R o E depth slack denied) (S : ScanSetting R o E denied) {f : Bytes} {seen seen' : List Bytes} {tr : List Event}
    (h : ArgScanBy R o ws f seen tr seen') (hE : ∀ e ∈ tr, e ∈ E) {W W' : World} (hden : W.fs.denied = denied) (ht : W.fs.Tree depth slack)
    (hst : W.fs.Steady depth slack level f) (h0 : (0 : Byte) ∉ f) (hs : World.Steps W tr W') (hok : Ok W tr) :
    KeepsIf B Ext D R o ws E depth slack level (fun _ => False) W W' ∧ AnsweredBy R o E W' f ∧
      ∀ i, W.fs.lookup f = some i → W.fs.kind i = .dir → Entered W' i := by
  cases h with
  | missing _ =>
    obtain ⟨a, b⟩ := world_lstat hs
    have := world_nil (world_err b)
    subst this
    exact ⟨.refl J ht, .inl (hE _ (by simp)), fun i hi _ => by rw [lookup_none a] at hi; cases hi⟩
  | leave st _ h1 h2 h3 =>
    obtain ⟨a, b⟩ := world_lstat hs
    have := world_nil b
    subst this
    obtain ⟨i, hi, hd, hn⟩ := FS_lstat_some a
    have hi' : i = Ino.mk st.dev st.ino := by cases i; simp only at hd hn; rw [hd, hn]
    have hkind := (lstat_kind hi a).1.symm
    refine ⟨.refl J ht, .inr ⟨st, i, hE _ (by simp), hi', hkind, .inl ⟨h1, h2, h3⟩⟩, fun j hj hjk => ?_⟩
    rw [hi] at hj
    cases hj
    exact absurd (hkind.symm.trans hjk) h1
  | file st _ mid p hk hf =>
    have hokl := J.lstat hok hs
    obtain ⟨a, b⟩ := world_lstat hs
    obtain ⟨i, hi, hd, hn⟩ := FS_lstat_some a
    have hi' : i = Ino.mk st.dev st.ino := by cases i; simp only at hd hn; rw [hd, hn]
    have hkind := (lstat_kind hi a).1.symm
    have hnd : st.kind ≠ .dir := by
      rcases hk with hk | hk
      · rw [hk]; intro h; cases h
      · exact hk.1
    have hno : ∀ (V : World) (j : Ino), W.fs.lookup f = some j → W.fs.kind j = .dir → Entered V j := by
      intro V j hj hjk
      rw [hi] at hj
      cases hj
      exact absurd (hkind.symm.trans hjk) hnd
    cases hst with
    | self dir name d g1 g2 g3 g4 g5 =>
      obtain ⟨rfl, rfl⟩ := fileRun_self S.empty hf g1 g2 g3
      have := world_nil b
      subst this
      exact ⟨.refl J ht, .inr ⟨st, i, hE _ (by simp), hi', hkind, .inr ⟨.inl ⟨dir, name, g1, g2, g3⟩, fun h => absurd h hnd⟩⟩, hno _⟩
    | name dir name x g1 g2 g3 g4 g5 g6 g7 =>
      subst g1
      have hallow : W.fs.denied (dir ++ name) = false := by rw [hden]; exact S.allowed _ (some st) (hE _ (by simp))
      have hplain : PlainName name := ⟨g4, g3, g5, g6⟩
      have hlk := lookup_leads ht g2 hplain g7 hallow
      rw [hi] at hlk
      obtain ⟨e, hfe, hei⟩ := Option.map_eq_some_iff.1 hlk.symm
      obtain ⟨he, hed, hnorm⟩ := FS_find_some hfe
      obtain ⟨_, f2⟩ := J.file _ _ _ _ _ _ _ _ hden ht g2 hplain (fun h => h0 (List.mem_append_right _ h)) g7 hf b
        (fun e he => hE e (by simp [he])) hallow hokl
      rcases f2 e hfe with ⟨rfl, rfl, hcl⟩ | ⟨w, hw, hcl, hne, rfl, hfree, hdw, rfl, hext⟩
      · refine ⟨.refl J ht, .inr ⟨st, i, hE _ (by simp), hi', hkind, .inr ⟨.inr ⟨e, he, hei, ?_, ?_⟩, fun h => absurd h hnd⟩⟩, hno _⟩
        · rw [dirOf_leads ht g2 g4 g3 g7, hed]
        · exact hcl.imp (fun hcl => ⟨name, by rw [hed, hnorm], hcl⟩) And.left
      · have hnk : W.fs.kind e.ino ≠ .dir := by rw [hei, hkind]; exact hnd
        rw [← hed] at hfree
        have hK : KeepsIf B Ext D R o ws E depth slack level (fun _ => False) W (W.moved e w) :=
          KeepsIf.move J he (by rw [hed]; exact g7.deep) hext hcl (fun _ h2 => absurd h2 hnk) (.refl J (moved_tree ht he hfree))
        refine ⟨hK, .inr ⟨st, i, hE _ (by simp), hi', by rw [hK.same.kind]; exact hkind,
          .inr ⟨.inr ⟨⟨e.dir, w, e.ino⟩, (mem_moved he).2 (.inl rfl), hei, ?_, .inl ⟨w, rfl, hcl⟩⟩, fun h => absurd h hnd⟩⟩, hno _⟩
        rw [dirOf_leads hK.tree g2 g4 g3 (leads_same hK.same g7 hK.finds), hed]
  | dir st _ _ mid sub p hk hf hsub =>
    have hok' := J.lstat hok hs
    obtain ⟨a, b⟩ := world_lstat hs
    obtain ⟨W3, b, c⟩ := World.Steps.append_inv b
    have hokl := J.left _ _ _ hok'
    have hokr := J.right _ _ _ _ hok' b
    obtain ⟨i, hi, hd, hn⟩ := FS_lstat_some a
    have hi' : i = Ino.mk st.dev st.ino := by cases i; simp only at hd hn; rw [hd, hn]
    have hkind := (lstat_kind hi a).1.symm
    have hki := hkind.trans hk
    have hin : ∀ V : World, Entered V i → ∀ j, W.fs.lookup f = some j → W.fs.kind j = .dir → Entered V j := by
      intro V hV j hj _
      rw [hi] at hj
      cases hj
      exact hV
    cases hst with
    | self dir name d g1 g2 g3 g4 g5 =>
      obtain ⟨rfl, rfl⟩ := fileRun_self S.empty hf g1 g2 g3
      have := world_nil b
      subst this
      have hid := lookup_self g5 hi hki
      subst hid
      obtain ⟨_, q⟩ := scan_goal_if J S hsub (fun e he => hE e (by simp [he])) _ _ hden ht c hokr g4
      obtain ⟨q1, q2⟩ := q i (leads_level g5) hi
      exact ⟨q1.weaken g5.deep (fun _ h => h), .inr ⟨st, i, hE _ (by simp), hi', by rw [q1.same.kind]; exact hkind,
        .inr ⟨.inl ⟨dir, name, g1, g2, g3⟩, fun _ => q2⟩⟩, hin _ q2⟩
    | name dir name x g1 g2 g3 g4 g5 g6 g7 =>
      subst g1
      have hallow : W.fs.denied (dir ++ name) = false := by rw [hden]; exact S.allowed _ (some st) (hE _ (by simp))
      have hplain : PlainName name := ⟨g4, g3, g5, g6⟩
      have hlk := lookup_leads ht g2 hplain g7 hallow
      rw [hi] at hlk
      obtain ⟨e, hfe, hei⟩ := Option.map_eq_some_iff.1 hlk.symm
      obtain ⟨he, hed, hnorm⟩ := FS_find_some hfe
      have hek : W.fs.kind e.ino = .dir := by rw [hei]; exact hki
      have hlev := ht.level e he hek
      rw [hed] at hlev
      have hdeep := g7.deep
      obtain ⟨_, f2⟩ := J.file _ _ _ _ _ _ _ _ hden ht g2 hplain (fun h => h0 (List.mem_append_right _ h)) g7 hf b
        (fun e he => hE e (by simp [he])) hallow hokl
      rcases f2 e hfe with ⟨rfl, rfl, hcl⟩ | ⟨w, hw, hcl, hne, rfl, hfree, hdw, rfl, hext⟩
      · obtain ⟨_, q⟩ := scan_goal_if J S hsub (fun e he => hE e (by simp [he])) _ _ hden ht c hokr (by simp [g4])
        obtain ⟨q1, q2⟩ := q e.ino (leads_entry ht g2 hplain g7 hfe hek) (by rw [hei]; exact hi)
        have hK := q1.weaken (level := level) (X := fun _ => False) (by omega) (fun _ h => h)
        obtain ⟨e', m, d', i', c'⟩ := hK.forward e he
        refine ⟨hK, .inr ⟨st, i, hE _ (by simp), hi', by rw [q1.same.kind]; exact hkind,
          .inr ⟨.inr ⟨e', m, i'.trans hei, ?_, ?_⟩, fun _ => by rw [← hei]; exact q2⟩⟩, hin _ (by rw [← hei]; exact q2)⟩
        · rw [dirOf_leads hK.tree g2 g4 g3 (leads_same hK.same g7 hK.finds), d', hed]
        · have hnn : W'.fs.norm = W3.fs.norm := by obtain ⟨es, h⟩ := hK.same; rw [h]
          rw [hnn]
          rcases c' with rfl | c'
          · exact hcl.imp (fun hcl => ⟨name, by rw [hed, hnorm], hcl⟩) And.left
          · exact .inl ⟨_, rfl, c'⟩
      · rw [← hed] at hfree
        have ht3 := moved_tree ht he hfree
        have hhere := moved_here ht he hfree
        rw [hed] at hhere
        have hl3 : (W.moved e w).fs.Leads depth slack level dir x :=
          leads_same ⟨_, rfl⟩ g7 (fun y hy n => moved_find (fun hx' => by rw [hx', hed] at hy; omega) n)
        have hlk3 := lookup_leads (fs := (W.moved e w).fs) ht3 g2 hw hl3 hdw
        rw [show (W.moved e w).fs.find x w = _ from hhere] at hlk3
        obtain ⟨_, q⟩ := scan_goal_if J S hsub (fun e he => hE e (by simp [he])) (W.moved e w) W' hden ht3 c hokr (by simp [hw.nonempty])
        obtain ⟨q1, q2⟩ := q e.ino (leads_entry (e := ⟨x, w, e.ino⟩) (fs := (W.moved e w).fs) ht3 g2 hw hl3 hhere hek) hlk3
        have hK : KeepsIf B Ext D R o ws E depth slack level (fun _ => False) W W' :=
          KeepsIf.move J he (by rw [hed]; exact hdeep) hext hcl (fun _ _ => q2) (q1.weaken (by omega) (fun _ h => h))
        obtain ⟨e', m, d', i', c'⟩ := q1.forward ⟨e.dir, w, e.ino⟩ ((mem_moved he).2 (.inl rfl))
        refine ⟨hK, .inr ⟨st, i, hE _ (by simp), hi', by rw [hK.same.kind]; exact hkind,
          .inr ⟨.inr ⟨e', m, i'.trans hei, ?_, .inl ⟨_, rfl, ?_⟩⟩, fun _ => by rw [← hei]; exact q2⟩⟩, hin _ (by rw [← hei]; exact q2)⟩
        · rw [dirOf_leads hK.tree g2 g4 g3 (leads_same hK.same g7 hK.finds), d', hed]
        · rcases c' with rfl | c'
          · exact hcl
          · exact c'

theorem args_goal_if (J : Judge B Ext Ok D R o E depth slack denied) (S : ScanSetting R o E denied) {args : List Bytes} {seen seen' : List Bytes} {tr : List Event}
    (h : ArgsScanBy R o ws args seen tr seen') : (∀ e ∈ tr, e ∈ E) → ∀ {W W' : World}, W.fs.denied = denied → W.fs.Tree depth slack →
    (∀ f ∈ args, W.fs.Steady depth slack level f) → (∀ f ∈ args, (0 : Byte) ∉ f) → World.Steps W tr W' → Ok W tr →
    KeepsIf B Ext D R o ws E depth slack level (fun _ => False) W W' ∧ (∀ f ∈ args, AnsweredBy R o E W' f) ∧
      ∀ f i, args.head? = some f → W.fs.lookup f = some i → W.fs.kind i = .dir → Entered W' i := by
  induction h with
  | nil seen =>
    intro _ W W' _ ht _ _ hs _
    have := world_nil hs
    subst this
    exact ⟨.refl J ht, fun _ h => (by cases h), fun _ _ h => (by cases h)⟩
  | cons f fs seen seen1 seen' t tr hf _ ih =>
    intro hE W W' hden ht hst h0 hs hok
    rw [List.append_assoc] at hs hok
    obtain ⟨W0, hs0, hs'⟩ := World.Steps.append_inv hs
    clear hs
    have : W0 = W := by
      split at hs0
      · exact world_nil hs0
      · exact world_nil (world_out hs0)
    subst this
    have hok' := J.right _ _ _ _ hok hs0
    obtain ⟨W1, hs1, hs2⟩ := World.Steps.append_inv hs'
    obtain ⟨k1, a1, b1⟩ := arg_goal_if J S hf (fun e he => hE e (by simp [he])) hden ht (hst f (by simp)) (h0 f (by simp)) hs1 (J.left _ _ _ hok')
    have hst1 : ∀ g ∈ f :: fs, W1.fs.Steady depth slack level g := fun g hg => steady_same k1.same (hst g hg) k1.finds
    obtain ⟨k2, a2, _⟩ := ih (fun e he => hE e (by simp [he])) (by rw [k1.same.denied]; exact hden) k1.tree
      (fun g hg => hst1 g (by simp [hg])) (fun g hg => h0 g (by simp [hg])) hs2 (J.right _ _ _ _ hok' hs1)
    refine ⟨k1.trans J k2, fun g hg => ?_, fun g i hg hi hk => ?_⟩
    · rcases List.mem_cons.1 hg with rfl | hg
      · exact a1.mono (hst1 _ (by simp)) k2 k1.tree
      · exact a2 g hg
    · cases hg
      exact (b1 i hi hk).mono k2.opened k2.refused

theorem arg_goal (S : ScanSetting R o E denied) {f : Bytes} {seen seen' : List Bytes} {tr : List Event}
    (h : ArgScanBy R o ws f seen tr seen') (hE : ∀ e ∈ tr, e ∈ E) {W W' : World} (hden : W.fs.denied = denied) (ht : W.fs.Tree depth slack)
    (hst : W.fs.Steady depth slack level f) (h0 : (0 : Byte) ∉ f) (hs : World.Steps W tr W') :
    Keeps R o ws E depth slack level (fun _ => False) W W' ∧ AnsweredBy R o E W' f ∧
      ∀ i, W.fs.lookup f = some i → W.fs.kind i = .dir → Entered W' i :=
  arg_goal_if (told_judge S) S h hE hden ht hst h0 hs trivial

theorem args_goal (S : ScanSetting R o E denied) {args : List Bytes} {seen seen' : List Bytes} {tr : List Event}
    (h : ArgsScanBy R o ws args seen tr seen') (hE : ∀ e ∈ tr, e ∈ E) {W W' : World} (hden : W.fs.denied = denied) (ht : W.fs.Tree depth slack)
    (hst : ∀ f ∈ args, W.fs.Steady depth slack level f) (h0 : ∀ f ∈ args, (0 : Byte) ∉ f) (hs : World.Steps W tr W') :
    Keeps R o ws E depth slack level (fun _ => False) W W' ∧ (∀ f ∈ args, AnsweredBy R o E W' f) ∧
      ∀ f i, args.head? = some f → W.fs.lookup f = some i → W.fs.kind i = .dir → Entered W' i :=
  args_goal_if (told_judge S) S h hE hden ht hst h0 hs trivial

end

/-! ### Examples -/

theorem World_exec_sound : ∀ (tr : List Event) {w w' : World}, w.exec tr = some w' → World.Steps w tr w'
  | [], w, w', h => by
    simp only [World.exec, Option.some.injEq] at h
    subst h
    exact .nil _
  | e :: tr, w, w', h => by
    cases e with
    | lstat p r =>
      simp only [World.exec] at h
      split at h
      · rename_i hr; exact .cons _ _ _ _ _ (.lstat _ _ _ hr) (World_exec_sound tr h)
      · cases h
    | rename old new ok =>
      cases ok with
      | true =>
        simp only [World.exec] at h
        split at h
        · cases h
        · rename_i fs1 hr; exact .cons _ _ _ _ _ (.renamed _ _ _ _ hr) (World_exec_sound tr h)
      | false => simp only [World.exec] at h; exact .cons _ _ _ _ _ (.renameFailed _ _ _) (World_exec_sound tr h)
    | opendir p r =>
      cases r with
      | ok k =>
        simp only [World.exec] at h
        split at h
        · cases h
        · rename_i d hd
          split at h
          · rename_i hk
            exact .cons _ _ _ _ _ (.opened _ _ _ _ hd hk.1 (by simpa using hk.2)) (World_exec_sound tr h)
          · cases h
      | _ => simp only [World.exec] at h; exact .cons _ _ _ _ _ (.refused _ _ _ (by intro k hk; cases hk)) (World_exec_sound tr h)
    | readdir k r =>
      cases r with
      | some n =>
        simp only [World.exec] at h
        split at h
        · cases h
        · rename_i s hs
          split at h
          · rename_i hn; exact .cons _ _ _ _ _ (.entry _ _ _ _ hs hn) (World_exec_sound tr h)
          · cases h
      | none =>
        simp only [World.exec] at h
        split at h
        · cases h
        · rename_i s hs
          split at h
          · rename_i hn; exact .cons _ _ _ _ _ (.finished _ _ _ hs hn) (World_exec_sound tr h)
          · cases h
    | closedir k => simp only [World.exec] at h; exact .cons _ _ _ _ _ (.closed _ _) (World_exec_sound tr h)
    | slurp p r => simp only [World.exec] at h; exact .cons _ _ _ _ _ (.slurp _ _ _) (World_exec_sound tr h)
    | out s => simp only [World.exec] at h; exact .cons _ _ _ _ _ (.out _ _) (World_exec_sound tr h)
    | err s => simp only [World.exec] at h; exact .cons _ _ _ _ _ (.err _ _) (World_exec_sound tr h)

/-- An execution with the outcome `f`. -/
theorem World_exec_out {α : Type} {w : World} {tr : List Event} {f : World → α} {x : α} (h : (w.exec tr).map f = some x) :
    ∃ w', World.Steps w tr w' ∧ f w' = x := by
  cases hx : w.exec tr with
  | none => rw [hx] at h; cases h
  | some w' => rw [hx] at h; cases h; exact ⟨w', World_exec_sound tr hx, rfl⟩

theorem world_harmless {reads t : List Event} {w w' : World} (hq : ∀ e ∈ reads, Harmless e) (h : World.Steps w (reads ++ t) w') :
    World.Steps w t w' := by
  induction reads with
  | nil => exact h
  | cons e reads ih =>
    cases h with
    | cons _ w1 _ _ _ h1 h2 =>
      have he := hq e (by simp)
      have : w = w1 := by cases he <;> cases h1 <;> rfl
      subst this
      exact ih (fun e he => hq e (by simp [he])) h2

end Detox
