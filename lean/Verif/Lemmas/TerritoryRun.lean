import Verif.Lemmas.Territory

/-!
# A process stays in its part of the file system
-/

set_option autoImplicit false

namespace Detox
open Spec

variable {B : Ground} {T : Renamer}

/-- `V` is what the process would see without the others, `W` is what it sees. -/
structure AgreeOnW (B : Ground) (T : Renamer) (V W : World) : Prop where
  fs : AgreeOn B T V.fs W.fs
  streams : W.streams = V.streams
  opened : W.opened = V.opened
  refused : W.refused = V.refused
  dirs : ∀ h s, V.streams h = some s → B.fs.Inside T.args s.dir ∧ ∀ n ∈ s.owed, n ∈ V.fs.namesIn s.dir

/-- The call has the answer it would have without the others, and does the same. -/
def Fine (B : Ground) (T : Renamer) (V : World) (e : Event) : Prop :=
  ∀ W, AgreeOnW B T V W → ∀ W', World.Step W e W' → ∃ V', World.Step V e V' ∧ AgreeOnW B T V' W' ∧ Touch B T W.fs W'.fs

/-- All calls are like this. -/
def SafeFrom (B : Ground) (T : Renamer) : World → List Event → Prop
  | _, [] => True
  | V, e :: t => Fine B T V e ∧ ∀ V', World.Step V e V' → SafeFrom B T V' t

/-- The program makes only such calls, and leaves a world with the property. -/
def StaysIn (B : Ground) (T : Renamer) {α : Type} (post : World → α → Prop) : Prog α → World → Prop
  | .ret a, V => post V a
  | .exit _, _ => True
  | .ub _, _ => True
  | .stuck, _ => True
  | .lstat p k, V => ∀ r, Fine B T V (.lstat p r) ∧ ∀ V', World.Step V (.lstat p r) V' → StaysIn B T post (k r) V'
  | .rename a b k, V => ∀ r, Fine B T V (.rename a b r) ∧ ∀ V', World.Step V (.rename a b r) V' → StaysIn B T post (k r) V'
  | .opendir p k, V => ∀ r, Fine B T V (.opendir p r) ∧ ∀ V', World.Step V (.opendir p r) V' → StaysIn B T post (k r) V'
  | .readdir h k, V => ∀ r, Fine B T V (.readdir h r) ∧ ∀ V', World.Step V (.readdir h r) V' → StaysIn B T post (k r) V'
  | .closedir h k, V => Fine B T V (.closedir h) ∧ ∀ V', World.Step V (.closedir h) V' → StaysIn B T post k V'
  | .slurp p k, V => ∀ r, Fine B T V (.slurp p r) ∧ ∀ V', World.Step V (.slurp p r) V' → StaysIn B T post (k r) V'
  | .out s k, V => Fine B T V (.out s) ∧ ∀ V', World.Step V (.out s) V' → StaysIn B T post k V'
  | .err s k, V => Fine B T V (.err s) ∧ ∀ V', World.Step V (.err s) V' → StaysIn B T post k V'

theorem StaysIn.safe {α : Type} {post : World → α → Prop} {p : Prog α} {tr : List Event} {out : Outcome α} (ht : Trace p tr out) :
    ∀ {V : World}, StaysIn B T post p V → SafeFrom B T V tr := by
  induction ht with
  | stop | ret | exit | ub | stuck => intro V _; exact trivial
  | lstat p k r tr o _ ih => intro V h; exact ⟨(h r).1, fun V' hs => ih ((h r).2 V' hs)⟩
  | rename a b k r tr o _ ih => intro V h; exact ⟨(h r).1, fun V' hs => ih ((h r).2 V' hs)⟩
  | opendir p k r tr o _ ih => intro V h; exact ⟨(h r).1, fun V' hs => ih ((h r).2 V' hs)⟩
  | readdir p k r tr o _ ih => intro V h; exact ⟨(h r).1, fun V' hs => ih ((h r).2 V' hs)⟩
  | slurp p k r tr o _ ih => intro V h; exact ⟨(h r).1, fun V' hs => ih ((h r).2 V' hs)⟩
  | closedir p k tr o _ ih => intro V h; exact ⟨h.1, fun V' hs => ih (h.2 V' hs)⟩
  | out p k tr o _ ih => intro V h; exact ⟨h.1, fun V' hs => ih (h.2 V' hs)⟩
  | err p k tr o _ ih => intro V h; exact ⟨h.1, fun V' hs => ih (h.2 V' hs)⟩

theorem StaysIn.bind {α β : Type} {post : World → β → Prop} {f : α → Prog β} {p : Prog α} :
    ∀ {V : World}, StaysIn B T (fun V' a => StaysIn B T post (f a) V') p V → StaysIn B T post (p.bind f) V := by
  induction p with
  | ret a => intro V h; exact h
  | exit | ub | stuck => intro V _; exact trivial
  | lstat p k ih => intro V h r; exact ⟨(h r).1, fun V' hs => ih r ((h r).2 V' hs)⟩
  | rename a b k ih => intro V h r; exact ⟨(h r).1, fun V' hs => ih r ((h r).2 V' hs)⟩
  | opendir p k ih => intro V h r; exact ⟨(h r).1, fun V' hs => ih r ((h r).2 V' hs)⟩
  | readdir p k ih => intro V h r; exact ⟨(h r).1, fun V' hs => ih r ((h r).2 V' hs)⟩
  | slurp p k ih => intro V h r; exact ⟨(h r).1, fun V' hs => ih r ((h r).2 V' hs)⟩
  | closedir p k ih => intro V h; exact ⟨h.1, fun V' hs => ih (h.2 V' hs)⟩
  | out p k ih => intro V h; exact ⟨h.1, fun V' hs => ih (h.2 V' hs)⟩
  | err p k ih => intro V h; exact ⟨h.1, fun V' hs => ih (h.2 V' hs)⟩

theorem StaysIn.mono {α : Type} {post post' : World → α → Prop} (hp : ∀ V a, post V a → post' V a) {p : Prog α} :
    ∀ {V : World}, StaysIn B T post p V → StaysIn B T post' p V := by
  induction p with
  | ret a => intro V h; exact hp _ _ h
  | exit | ub | stuck => intro V _; exact trivial
  | lstat p k ih => intro V h r; exact ⟨(h r).1, fun V' hs => ih r ((h r).2 V' hs)⟩
  | rename a b k ih => intro V h r; exact ⟨(h r).1, fun V' hs => ih r ((h r).2 V' hs)⟩
  | opendir p k ih => intro V h r; exact ⟨(h r).1, fun V' hs => ih r ((h r).2 V' hs)⟩
  | readdir p k ih => intro V h r; exact ⟨(h r).1, fun V' hs => ih r ((h r).2 V' hs)⟩
  | slurp p k ih => intro V h r; exact ⟨(h r).1, fun V' hs => ih r ((h r).2 V' hs)⟩
  | closedir p k ih => intro V h; exact ⟨h.1, fun V' hs => ih (h.2 V' hs)⟩
  | out p k ih => intro V h; exact ⟨h.1, fun V' hs => ih (h.2 V' hs)⟩
  | err p k ih => intro V h; exact ⟨h.1, fun V' hs => ih (h.2 V' hs)⟩

theorem StaysIn.ofRes {α : Type} {post : World → α → Prop} {x : Res α} {V : World} (h : ∀ a, x = .ok a → post V a) : StaysIn B T post (.ofRes x) V := by
  cases x with
  | ok a => exact h a rfl
  | exit n => exact trivial
  | ub u => exact trivial
  | stuck => exact trivial

/-! ### The calls -/

section
variable {α : Type} {post : World → α → Prop} {V : World}

theorem stays_out {s : Bytes} {k : Prog α} (h : StaysIn B T post k V) : StaysIn B T post (.out s k) V := by
  refine ⟨fun W hW W' hs => ?_, fun V' hs => ?_⟩
  · cases hs
    exact ⟨V, .out V s, hW, .not⟩
  · cases hs
    exact h

theorem stays_err {s : Bytes} {k : Prog α} (h : StaysIn B T post k V) : StaysIn B T post (.err s k) V := by
  refine ⟨fun W hW W' hs => ?_, fun V' hs => ?_⟩
  · cases hs
    exact ⟨V, .err V s, hW, .not⟩
  · cases hs
    exact h

theorem fine_slurp (p r : Option Bytes) : Fine B T V (.slurp p r) := by
  intro W hW W' hs
  cases hs
  exact ⟨V, .slurp V p r, hW, .not⟩

theorem stays_lstat {p : Bytes} {k : Option Stat → Prog α} (ha : ∀ g, AgreeOn B T V.fs g → g.lookup p = V.fs.lookup p)
    (h : StaysIn B T post (k (V.fs.lstat p)) V) : StaysIn B T post (.lstat p k) V := by
  refine fun r => ⟨fun W hW W' hs => ?_, fun V' hs => ?_⟩
  · cases hs with
    | lstat _ _ hr => exact ⟨V, .lstat V p r ((lstat_of_lookup hW.fs (ha _ hW.fs)).symm.trans hr), hW, .not⟩
  · cases hs with
    | lstat _ _ hr => rw [← hr]; exact h

theorem stays_readdir {h : Nat} {k : Option Bytes → Prog α}
    (hk : ∀ r V', V'.fs = V.fs → (∀ n, r = some n → EntryName n) → StaysIn B T post (k r) V') : StaysIn B T post (.readdir h k) V := by
  refine fun r => ⟨fun W hW W' hs => ?_, fun V' hs => ?_⟩
  · cases hs with
    | entry _ s n h1 h2 =>
      have h1' : V.streams h = some s := by rw [← hW.streams]; exact h1
      refine ⟨_, .entry V h s n h1' h2, ⟨hW.fs, ?_, hW.opened, hW.refused, ?_⟩, .not⟩
      · simp only [hW.streams]
      · intro h' s' hs'
        simp only at hs'
        split at hs'
        · cases hs'
          obtain ⟨a, b⟩ := hW.dirs h s h1'
          exact ⟨a, fun n hn => b n (List.mem_filter.1 hn).1⟩
        · exact hW.dirs h' s' hs'
    | finished _ s h1 h2 => exact ⟨V, .finished V h s (by rw [← hW.streams]; exact h1) h2, hW, .not⟩
  · cases hs with
    | entry _ s n h1 h2 => exact hk _ _ rfl fun n hn => by cases hn; exact h2
    | finished _ s h1 h2 => exact hk _ _ rfl nofun

theorem stays_closedir {h : Nat} {k : Prog α} (hk : ∀ V', V'.fs = V.fs → StaysIn B T post k V') : StaysIn B T post (.closedir h k) V := by
  refine ⟨fun W hW W' hs => ?_, fun V' hs => ?_⟩
  · cases hs
    refine ⟨_, .closed V h, ⟨hW.fs, ?_, hW.opened, hW.refused, ?_⟩, .not⟩
    · simp only [hW.streams]
    · intro h' s' hs'
      simp only at hs'
      split at hs'
      · cases hs'
      · exact hW.dirs h' s' hs'
  · cases hs
    exact hk _ rfl

theorem follow_denied {fs : FS} {p : Bytes} (h : fs.denied p = true) : fs.follow p = none := by
  unfold FS.follow
  rw [if_pos (.inr h)]

theorem stays_opendir (hv : View B T V.fs) {p : Bytes} {d : Ino} (way : Way B T V.fs p d) (hp : p ≠ []) (hd : B.fs.Inside T.args d) {k : OpenRes → Prog α}
    (hk : ∀ r V', V'.fs = V.fs → StaysIn B T post (k r) V') : StaysIn B T post (.opendir p k) V := by
  have follows : ∀ g : FS, g.Tree B.depth B.slack → g.Leads B.depth B.slack (B.depth d) p d → ∀ d', g.follow p = some d' → d' = d ∧ g.denied p = false := by
    intro g ht hl d' hf
    cases hx : g.denied p with
    | true => rw [follow_denied hx] at hf; cases hf
    | false =>
      rw [follow_leads ht hp hx hl] at hf
      exact ⟨(Option.some.inj hf).symm, rfl⟩
  have agree : ∀ g, AgreeOn B T V.fs g → g.follow p = V.fs.follow p := by
    intro g ha
    cases hx : V.fs.denied p with
    | true => rw [follow_denied hx, follow_denied (by rw [ha.same.denied]; exact hx)]
    | false => rw [follow_leads hv.tree hp hx way.leads, follow_leads ha.tree hp (by rw [ha.same.denied]; exact hx) (way.agree ha)]
  refine fun r => ⟨fun W hW W' hs => ?_, fun V' hs => ?_⟩
  · cases hs with
    | opened _ h d' h1 h2 h3 =>
      obtain ⟨rfl, _⟩ := follows W.fs hW.fs.tree (way.agree hW.fs) d' h1
      refine ⟨_, .opened V p h d' ((agree _ hW.fs).symm.trans h1) (by rw [← hW.fs.same.kind]; exact h2) (by rw [← hW.streams]; exact h3),
        ⟨hW.fs, ?_, by simp only [hW.opened], hW.refused, ?_⟩, .not⟩
      · simp only [hW.streams, namesIn_filter (hW.fs.inside d' hd)]
      · intro h' s' hs'
        simp only at hs'
        split at hs'
        · cases hs'
          exact ⟨hd, fun n hn => hn⟩
        · exact hW.dirs h' s' hs'
    | refused _ _ h1 =>
      exact ⟨_, .refused V p r h1, ⟨hW.fs, hW.streams, hW.opened, by simp only [hW.refused, agree _ hW.fs], hW.dirs⟩, .not⟩
  · cases hs with
    | opened _ h d' h1 h2 h3 => exact hk _ _ rfl
    | refused _ _ h1 => exact hk _ _ rfl

end

/-! ### Renaming -/

/-- What a successful rename is if the new name was found free, or that of the file itself. -/
theorem rename_shape {fs fs' : FS} {level : Nat} (ht : fs.Tree B.depth B.slack) {dir n w : Bytes} {x : Ino} {so : Stat} {rn : Option Stat}
    (hd : dir = [] ∨ ∃ d, dir = d ++ [0x2F]) (hn : PlainName n) (hl : fs.Leads B.depth B.slack level dir x) (hden : fs.denied (dir ++ n) = false)
    (hslw : (0x2F : Byte) ∉ w) (a : fs.lstat (dir ++ n) = some so) (a2 : fs.lstat (dir ++ w) = rn)
    (h6 : ∀ sn, rn = some sn → sn.dev = so.dev ∧ sn.ino = so.ino ∧ so.nlink ≤ 1) (hr : fs.rename (dir ++ n) (dir ++ w) = some fs') :
    ∃ e, fs.find x n = some e ∧ PlainName w ∧ fs.denied (dir ++ w) = false ∧ (fs.find x w = none ∨ fs.find x w = some e) ∧ fs' = movedFS fs e w := by
  have hlook := lookup_leads ht hd hn hl hden
  obtain ⟨i, hi1, hi2, hi3⟩ := FS_lstat_some a
  rw [hlook] at hi1
  obtain ⟨e, hfe, rfl⟩ := Option.map_eq_some_iff.1 hi1
  obtain ⟨he, hedir, _⟩ := FS_find_some hfe
  have hlw : fs.denied (dir ++ w) = false := by
    cases hx : fs.denied (dir ++ w) with
    | false => rfl
    | true =>
      have : fs.locate (dir ++ w) = none := by unfold FS.locate; rw [if_pos (.inr hx)]
      unfold FS.rename at hr
      rw [this] at hr
      cases h : fs.locate (dir ++ n) <;> rw [h] at hr <;> cases hr
  have hwne : w ≠ [] := by
    intro hw
    subst hw
    rw [List.append_nil] at a2 hr hlw
    rcases hd with rfl | ⟨d, rfl⟩
    · have : fs.locate [] = none := by simp [FS.locate]
      simp [FS.rename, this] at hr
    · obtain ⟨sn, hsn, hs1, hs2⟩ := FS_lstat_lookup (lookup_slash_leads ht hlw hl)
      rw [hsn] at a2
      obtain ⟨g1, g2, _⟩ := h6 sn a2.symm
      have hx : x = e.ino := by
        cases x; cases hh : e.ino
        rw [hh] at hi2 hi3
        simp only at hs1 hs2 hi2 hi3
        rw [← hs1, ← hs2, g1, g2, hi2, hi3]
      have := ht.level e he (by rw [← hx]; exact hl.kind)
      rw [← hx, hedir] at this
      omega
  have hsl : endsInSlash (dir ++ n) = false := endsInSlash_dir_name hn.nonempty hn.slash
  obtain ⟨d1, n1, d2, n2, e1, hl1, hl2, he1, hc⟩ := FS_guarded_rename hsl a a2 h6 hr
  obtain ⟨rfl, rfl, _⟩ := locate_leads ht hd hn.nonempty hn.slash hl hl1
  obtain ⟨hx, rfl, hpw⟩ := locate_leads ht hd hwne hslw hl hl2
  subst hx
  rw [hfe] at he1
  cases he1
  refine ⟨e, hfe, hpw, hlw, ?_⟩
  rcases hc with ⟨hf2, _, hfs⟩ | ⟨hf2, hfs⟩ | ⟨e2, hf2, hne, hio, hfs⟩
  · exact ⟨.inl hf2, by rw [hfs]; simp only [movedFS, hedir]⟩
  · exact ⟨.inr hf2, by rw [hfs]; simp only [movedFS, hedir]⟩
  · exfalso
    obtain ⟨he2, _, _⟩ := FS_find_some hf2
    by_cases hk : fs.kind e.ino = .dir
    · exact hne (ht.once e he e2 he2 hk hio.symm).symm
    · have hn2 := two_names he he2 hne hio
      have hlw2 := lookup_leads ht hd hpw hl hlw
      rw [hf2] at hlw2
      obtain ⟨sn, hsn, _, _⟩ := FS_lstat_lookup hlw2
      rw [hsn] at a2
      obtain ⟨_, _, g3⟩ := h6 sn a2.symm
      unfold FS.lstat at a
      rw [hlook, hfe] at a
      simp only [Option.map_some, hk, if_false, Option.some.injEq] at a
      rw [← a] at g3
      dsimp only at g3
      omega

/-- Conversely, such a rename can be done. -/
theorem rename_done {fs : FS} {level : Nat} (ht : fs.Tree B.depth B.slack) {dir n w : Bytes} {x : Ino} {e : Entry} (hd : dir = [] ∨ ∃ d, dir = d ++ [0x2F])
    (hn : PlainName n) (hw : PlainName w) (hl : fs.Leads B.depth B.slack level dir x) (hden : fs.denied (dir ++ n) = false) (hlw : fs.denied (dir ++ w) = false)
    (hf : fs.find x n = some e) (hfree : fs.find x w = none ∨ fs.find x w = some e) : fs.rename (dir ++ n) (dir ++ w) = some (movedFS fs e w) := by
  obtain ⟨_, hed, _⟩ := FS_find_some hf
  unfold FS.rename
  rw [locate_of_leads ht hd hn hl hden, locate_of_leads ht hd hw hl hlw]
  simp only [hf, endsInSlash_dir_name hn.nonempty hn.slash, endsInSlash_dir_name hw.nonempty hw.slash]
  rcases hfree with h | h
  · simp [h, movedFS, hed]
  · simp [h, movedFS, hed]

theorem Own.norm {x : Ino} {n m : Bytes} (h : Own B T x n) (hn : B.fs.norm x m = B.fs.norm x n) : Own B T x m := by
  rcases h with h | ⟨f, h1, dir, name, h2, h3, h4, h5, h6, h7⟩
  · exact .inl h
  · exact .inr ⟨f, h1, dir, name, h2, h3, h4, h5, h6, hn.trans h7⟩

theorem stays_rename {α : Type} {post : World → α → Prop} {V : World} (hB : Fits B T) (hv : View B T V.fs) {dir n w : Bytes} {x : Ino} {so : Stat}
    {rn : Option Stat} (hd : dir = [] ∨ ∃ d, dir = d ++ [0x2F]) (way : Way B T V.fs dir x) (hn : PlainName n) (own : Own B T x n) (hslw : (0x2F : Byte) ∉ w)
    (hm : PlainName w → V.fs.denied (dir ++ w) = false → Mine B T x w) (hlk : V.fs.denied (dir ++ n) = false) (a : V.fs.lstat (dir ++ n) = some so)
    (a2 : V.fs.lstat (dir ++ w) = rn) (h6 : ∀ sn, rn = some sn → sn.dev = so.dev ∧ sn.ino = so.ino ∧ so.nlink ≤ 1) {k : Bool → Prog α}
    (hk1 : ∀ e, PlainName w → Mine B T x w → V.fs.denied (dir ++ w) = false → V.fs.find x n = some e → (V.fs.find x w = none ∨ V.fs.find x w = some e) →
      StaysIn B T post (k true) (V.moved e w))
    (hk2 : StaysIn B T post (k false) V) : StaysIn B T post (.rename (dir ++ n) (dir ++ w) k) V := by
  refine fun r => ⟨fun W hW W' hs => ?_, fun V' hs => ?_⟩
  · cases hs with
    | renamed _ _ fs hr =>
      have hdg : W.fs.denied = V.fs.denied := hW.fs.same.denied
      have b1 : W.fs.lstat (dir ++ n) = some so := (lstat_of_lookup hW.fs (lookup_agree hv.tree hW.fs hd way hn.slash fun _ _ => own.mine)).trans a
      have b2 : W.fs.lstat (dir ++ w) = rn := (lstat_of_lookup hW.fs (lookup_agree hv.tree hW.fs hd way hslw hm)).trans a2
      obtain ⟨e, h1, h2, h3, h4, rfl⟩ := rename_shape hW.fs.tree hd hn (way.agree hW.fs) (by rw [hdg]; exact hlk) hslw b1 b2 h6 hr
      rw [hdg] at h3
      have hmw := hm h2 h3
      rw [hW.fs.mine hmw] at h4
      have h1g := h1
      rw [hW.fs.mine own.mine] at h1
      obtain ⟨q1, q2, q3⟩ := FS_find_some h1
      obtain ⟨q4, _, _⟩ := FS_find_some h1g
      have hown : Owns B T e := by
        unfold Owns
        rw [q2]
        rw [hv.norm] at q3
        exact own.norm q3
      have hmv : Mine B T e.dir w := by rw [q2]; exact hmw
      have h4' : V.fs.find e.dir w = none ∨ V.fs.find e.dir w = some e := by rw [q2]; exact h4
      obtain ⟨m1, m2⟩ := hW.fs.move hB hv.tree q1 q4 h4' hown hmv
      refine ⟨_, .renamed V _ _ _ (rename_done hv.tree hd hn h2 way.leads hlk h3 h1 h4), ⟨m1, ?_, hW.opened, hW.refused, ?_⟩, m2⟩
      · funext i
        simp only [hW.streams]
        cases hi : V.streams i with
        | none => rfl
        | some s =>
          simp only [Option.map_some, Stream.after]
          rw [namesIn_filter (m1.inside s.dir (hW.dirs i s hi).1)]
      · intro i s hi
        simp only at hi
        obtain ⟨s', h7, rfl⟩ := Option.map_eq_some_iff.1 hi
        exact ⟨(hW.dirs i s' h7).1, fun n hn => by simpa [Stream.after] using (List.mem_filter.1 hn).2⟩
    | renameFailed => exact ⟨V, .renameFailed V _ _, hW, .not⟩
  · cases hs with
    | renamed _ _ fs hr =>
      obtain ⟨e, h1, h2, h3, h4, rfl⟩ := rename_shape hv.tree hd hn way.leads hlk hslw a a2 h6 hr
      exact hk1 e h2 (hm h2 h3) h3 h1 h4
    | renameFailed => exact hk2

/-- What is said about a process: the names it makes are those of the renamer. -/
structure Works (T : Renamer) (P : Platform) (o : Options) : Prop where
  says : ∀ f ∈ T.args, ∀ dir n w, SplitsAs f dir n → Makes P o n w → T.R n w
  slash : ∀ n w, (0 : Byte) ∉ n → (0x2F : Byte) ∉ n → Makes P o n w → (0x2F : Byte) ∉ w
  nil : ∀ w, Makes P o [] w → w = []

theorem stays_parseFile {P : Platform} {o : Options} {post : World → Bytes → Prop} {V : World} (hB : Fits B T) (hT : Works T P o) (hv : View B T V.fs)
    {dir n : Bytes} {x : Ino} (hd : dir = [] ∨ ∃ d, dir = d ++ [0x2F]) (way : Way B T V.fs dir x) (hn : PlainName n) (h0 : (0 : Byte) ∉ n) (own : Own B T x n)
    (hm : ∀ w, Makes P o n w → PlainName w → V.fs.denied (dir ++ w) = false → Mine B T x w) (hp1 : post V (dir ++ n))
    (hp2 : ∀ e w, PlainName w → Mine B T x w → V.fs.denied (dir ++ w) = false → V.fs.find x n = some e → (V.fs.find x w = none ∨ V.fs.find x w = some e) →
      post (V.moved e w) (dir ++ w)) : StaysIn B T post (parseFile P o (dir ++ n)) V := by
  have hs : SplitsAs (dir ++ n) dir n := ⟨rfl, hn.slash, hd⟩
  obtain ⟨hdp, hbp⟩ := splitsAs_unique hs
  unfold parseFile
  dsimp only
  rw [← hdp, ← hbp]
  refine StaysIn.bind (StaysIn.ofRes fun hold hh => ?_)
  have hpr : isProtected n = false := by simp [isProtected, hn.dot, hn.dots]
  rw [hpr] at hh
  simp only [Bool.false_eq_true, if_false] at hh
  cases hold with
  | none => exact hp1
  | some w =>
    dsimp only
    split
    · exact hp1
    · have hslw := hT.slash n w h0 hn.slash hh
      have hmw := hm w hh
      unfold checkAndRename
      refine stays_lstat (fun g hg => lookup_agree hv.tree hg hd way hn.slash fun _ _ => own.mine) ?_
      cases ha : V.fs.lstat (dir ++ n) with
      | none => exact hp1
      | some so =>
        dsimp only
        have hlk : V.fs.denied (dir ++ n) = false := by
          cases hx : V.fs.denied (dir ++ n) with
          | false => rfl
          | true =>
            unfold FS.lstat at ha
            rw [lookup_denied hx] at ha
            cases ha
        refine stays_lstat (fun g hg => lookup_agree hv.tree hg hd way hslw hmw) ?_
        split
        · exact stays_err hp1
        · rename_i htk
          have h6 : ∀ sn, V.fs.lstat (dir ++ w) = some sn → sn.dev = so.dev ∧ sn.ino = so.ino ∧ so.nlink ≤ 1 := by
            intro sn hsn
            rw [hsn] at htk
            simp only [isTaken, Bool.or_eq_true, decide_eq_true_eq, not_or] at htk
            refine ⟨?_, ?_, ?_⟩
            · have := htk.1.1; simp at this; exact this.symm
            · have := htk.1.2; simp at this; exact this.symm
            · have := htk.2; omega
          have next : StaysIn B T post (doRename (dir ++ n) (dir ++ w)) V := by
            unfold doRename
            refine stays_rename hB hv hd way hn own hslw hmw hlk ha rfl h6 (fun e h1 h2 h3 h4 h5 => ?_) ?_
            · rw [if_pos rfl]
              exact hp2 e w h1 h2 h3 h4 h5
            · rw [if_neg (by simp)]
              exact stays_err hp1
          unfold announceAndRename
          dsimp only
          have both : StaysIn B T post (if o.dryRun = true then .ret (dir ++ n) else doRename (dir ++ n) (dir ++ w)) V := by
            split
            · exact hp1
            · exact next
          split
          · exact stays_out both
          · exact both

/-! ### Scanning -/

/-- The path means the same to the process and to all; if it is that of a directory, the directory belongs to the process. -/
structure Spot (B : Ground) (T : Renamer) (v : FS) (p : Bytes) : Prop where
  nonempty : p ≠ []
  look : ∀ g, AgreeOn B T v g → g.lookup p = v.lookup p
  dir : ∀ i, v.lookup p = some i → v.kind i = .dir → Way B T v p i ∧ B.fs.Inside T.args i

/-- A state the process has come to: above depth `b` all is as it was. -/
structure Onward (B : Ground) (T : Renamer) (b : Nat) (V V' : World) : Prop where
  view : View B T V'.fs
  same : SameBut V.fs V'.fs
  high : ∀ x, B.depth x < b → ∀ n, V'.fs.find x n = V.fs.find x n

theorem Onward.refl {b : Nat} {V : World} (h : View B T V.fs) : Onward B T b V V := ⟨h, ⟨_, rfl⟩, fun _ _ _ => rfl⟩

theorem Onward.trans {b c : Nat} {V V' V'' : World} (hb : c ≤ b) (h1 : Onward B T c V V') (h2 : Onward B T b V' V'') : Onward B T c V V'' :=
  ⟨h2.view, h1.same.trans h2.same, fun x hx n => (h2.high x (by omega) n).trans (h1.high x hx n)⟩

theorem Onward.of_fs {b : Nat} {V V1 V2 : World} (h : V1.fs = V.fs) (h2 : Onward B T b V1 V2) : Onward B T b V V2 :=
  ⟨h2.view, by rw [← h]; exact h2.same, by rw [← h]; exact h2.high⟩

theorem spot_entry {v : FS} {p n : Bytes} {x : Ino} {hd : p = [] ∨ ∃ d, p = d ++ [0x2F]} (hv : View B T v) (way : Way B T v p x) (hn : PlainName n)
    (hm : v.denied (p ++ n) = false → Mine B T x n) (hi : ∀ e, v.denied (p ++ n) = false → v.find x n = some e → v.kind e.ino = .dir → B.fs.Inside T.args e.ino) :
    Spot B T v (p ++ n) := by
  refine ⟨by simp [hn.nonempty], fun g hg => lookup_agree hv.tree hg hd way hn.slash fun _ => hm, fun i hl hk => ?_⟩
  have hden : v.denied (p ++ n) = false := by
    cases hx : v.denied (p ++ n) with
    | false => rfl
    | true => rw [lookup_denied hx] at hl; cases hl
  rw [lookup_leads hv.tree hd hn way.leads hden] at hl
  obtain ⟨e, he, rfl⟩ := Option.map_eq_some_iff.1 hl
  exact ⟨way.entry hv.tree hd hn (hm hden) he hk, hi e hden he hk⟩

/-- After a rename in `x`. -/
theorem later_moved {V : World} (hB : Fits B T) (hv : View B T V.fs) {x : Ino} {n w : Bytes} {e : Entry} (hf : V.fs.find x n = some e)
    (hfree : V.fs.find x w = none ∨ V.fs.find x w = some e) (hm : Mine B T x w) (hk : B.fs.kind e.ino = .dir → B.fs.Inside T.args e.ino) :
    Onward B T (B.depth x) V (V.moved e w) ∧ (V.moved e w).fs.find x w = some ⟨x, w, e.ino⟩ := by
  obtain ⟨h1, h2, _⟩ := FS_find_some hf
  subst h2
  have hv' := hv.move hB h1 hfree hm hk
  refine ⟨⟨hv', ⟨_, rfl⟩, fun y hy n => moved_find (by rintro rfl; omega) n⟩, ?_⟩
  show (movedFS V.fs e w).find e.dir w = _
  rw [moved_find_here hv.tree.unique h1 hv'.tree.unique, if_pos rfl]

theorem ignoreFile_plain {name : Bytes} {ign : Option Filelist} {q : Option Filelist × Bool} (hn : EntryName name) (h : ignoreFile name ign = .ok q)
    (hq : ¬ q.2 = true) : PlainName name := by
  have hh : name.head? ≠ some 0x2E := by
    intro hx
    unfold ignoreFile at h
    rw [if_pos hx] at h
    cases h
    exact hq rfl
  exact ⟨hn.nonempty, hn.slash, by rintro rfl; exact hh rfl, by rintro rfl; exact hh rfl⟩

theorem stays_dirLoop {P : Platform} {o : Options} (hB : Fits B T) (hT : Works T P o) {recDir : Option Filelist → Bytes → Prog (Option Filelist)}
    {h : Nat} {p : Bytes} {i : Ino} (hp : p ≠ []) (hi : B.fs.Inside T.args i)
    (hrec : ∀ ign q V, View B T V.fs → Spot B T V.fs q → (∀ j, V.fs.lookup q = some j → V.fs.kind j = .dir → B.depth i + 1 ≤ B.depth j) →
      StaysIn B T (fun V' _ => Onward B T (B.depth i + 1) V V') (recDir ign q) V) :
    ∀ (m : Nat) (st : Stat) (ign : Option Filelist) (V : World), View B T V.fs → Way B T V.fs p i →
      StaysIn B T (fun V' _ => Onward B T (B.depth i) V V') (dirLoop P o recDir h p m st ign) V := by
  intro m
  induction m with
  | zero => intro st ign V _ _; exact trivial
  | succ m ih =>
    intro st ign V hv way
    unfold dirLoop
    refine stays_readdir fun r V1 hV1 hr => ?_
    cases r with
    | none => exact stays_closedir fun V2 hV2 => Onward.of_fs (V1 := V2) (hV2.trans hV1) (.refl (by rw [hV2, hV1]; exact hv))
    | some name =>
      have hen := hr name rfl
      have hv1 : View B T V1.fs := by rw [hV1]; exact hv
      have way1 : Way B T V1.fs p i := by rw [hV1]; exact way
      refine StaysIn.mono (fun V' a hl => Onward.of_fs hV1 hl) ?_
      clear hV1 hv way V
      refine StaysIn.bind (StaysIn.ofRes fun q hq => ?_)
      -- the rest of the loop, from a state it comes to
      have go : ∀ st ign V2, Onward B T (B.depth i) V1 V2 →
          StaysIn B T (fun V' _ => Onward B T (B.depth i) V1 V') (dirLoop P o recDir h p m st ign) V2 := by
        intro st ign V2 hl
        exact (ih st ign V2 hl.view (way1.kept hl.same hl.high)).mono fun V' _ h => .trans (Nat.le_refl _) hl h
      split
      · exact go _ _ _ (.refl hv1)
      · rename_i hnot
        have hplain := ignoreFile_plain hen hq hnot
        have hpath : (p ++ [0x2F] ++ name).take (p.length + 1023) = (p ++ [0x2F]) ++ name := entryPath_short hen.short
        rw [hpath]
        dsimp only
        have hd : p ++ [0x2F] = [] ∨ ∃ d, p ++ [0x2F] = d ++ [0x2F] := .inr ⟨p, rfl⟩
        have way2 := way1.slash hp
        refine stays_lstat (fun g hg => lookup_agree hv1.tree hg hd way2 hplain.slash fun _ _ => .inl hi) ?_
        have inner : ∀ {V2 : World} {k : Bytes}, View B T V2.fs → ∀ e, V2.fs.find i k = some e → V2.fs.kind e.ino = .dir → B.fs.Inside T.args e.ino := by
          intro V2 k hv2 e he hk
          obtain ⟨h1, h2, _⟩ := FS_find_some he
          exact hv2.closed h1 (by rw [h2]; exact hi) (by rw [← hv2.kind]; exact hk)
        have file : StaysIn B T (fun V2 q => Onward B T (B.depth i) V1 V2 ∧ ∃ k, PlainName k ∧ q = p ++ [0x2F] ++ k) (parseFile P o (p ++ [0x2F] ++ name)) V1 := by
          refine stays_parseFile hB hT hv1 hd way2 hplain hen.nul (.inl hi) (fun _ _ _ _ => .inl hi) ⟨.refl hv1, name, hplain, rfl⟩
            fun e w hw hm _ hf hfree => ⟨(later_moved hB hv1 hf hfree hm fun hk => inner hv1 e hf (by rw [hv1.kind]; exact hk)).1, w, hw, rfl⟩
        split
        · refine StaysIn.bind (file.mono ?_)
          rintro V2 q2 ⟨hl, k, hk, rfl⟩
          split
          · have way3 := (way1.kept hl.same hl.high).slash hp
            have hspot : Spot B T V2.fs (p ++ [0x2F] ++ k) := spot_entry (hd := hd) hl.view way3 hk (fun _ => .inl hi) fun e _ he hk => inner hl.view e he hk
            refine StaysIn.bind ((hrec _ _ V2 hl.view hspot fun j hj hkj => ?_).mono fun V3 a h3 => go _ _ _ (.trans (Nat.le_refl _) hl ⟨h3.view, h3.same, fun x hx => h3.high x (by omega)⟩))
            have hden : V2.fs.denied (p ++ [0x2F] ++ k) = false := by
              cases hx : V2.fs.denied (p ++ [0x2F] ++ k) with
              | false => rfl
              | true => rw [lookup_denied hx] at hj; cases hj
            rw [lookup_leads hl.view.tree hd hk way3.leads hden] at hj
            obtain ⟨e, he, rfl⟩ := Option.map_eq_some_iff.1 hj
            obtain ⟨h1, h2, _⟩ := FS_find_some he
            have := hl.view.tree.level e h1 hkj
            rw [h2] at this
            omega
          · exact go _ _ _ hl
        · split
          · exact StaysIn.bind (file.mono fun V2 q2 h => go _ _ _ h.1)
          · exact go _ _ _ (.refl hv1)

theorem stays_parseDir {P : Platform} {o : Options} (hB : Fits B T) (hT : Works T P o) : ∀ (n : Nat) (ign : Option Filelist) (p : Bytes) (V : World) (b : Nat),
    View B T V.fs → Spot B T V.fs p → (∀ i, V.fs.lookup p = some i → V.fs.kind i = .dir → b ≤ B.depth i) →
    StaysIn B T (fun V' _ => Onward B T b V V') (parseDir P o n ign p) V := by
  intro n
  induction n with
  | zero => intro ign p V b _ _ _; exact trivial
  | succ n ih =>
    intro ign p V b hv hs hb
    unfold parseDir
    refine stays_lstat hs.look ?_
    cases hr : V.fs.lstat p with
    | none => exact .refl hv
    | some st =>
      dsimp only
      split
      · exact .refl hv
      · rename_i hkd
        obtain ⟨i, hi1, hi2, hi3⟩ := FS_lstat_some hr
        have hki : V.fs.kind i = .dir := by
          unfold FS.lstat at hr
          rw [hi1] at hr
          simp only [Option.map_some, Option.some.injEq] at hr
          rw [← hr] at hkd
          simpa using hkd
        obtain ⟨way, hin⟩ := hs.dir i hi1 hki
        refine stays_opendir hv way hs.nonempty hin fun r V1 hV1 => ?_
        have hv1 : View B T V1.fs := by rw [hV1]; exact hv
        have way1 : Way B T V1.fs p i := by rw [hV1]; exact way
        refine StaysIn.mono (post := fun V' _ => Onward B T b V1 V') (fun V' a hl => Onward.of_fs hV1 hl) ?_
        have hbi := hb i hi1 hki
        cases r with
        | ok h =>
          exact (stays_dirLoop hB hT hs.nonempty hin (fun ign q V hv hq hj => ih ign q V _ hv hq hj) n st ign V1 hv1 way1).mono
            fun V' _ hl => ⟨hl.view, hl.same, fun x hx => hl.high x (by omega)⟩
        | fail => exact stays_err (.refl hv1)
        | emfile => exact stays_err trivial

/-! ### Arguments -/

theorem find_of_entry {fs : FS} (hu : fs.Unique) {x : Ino} {n : Bytes} {e : Entry} (he : e ∈ fs.entries) (h1 : e.dir = x) (h2 : fs.norm x e.name = fs.norm x n) :
    fs.find x n = some e := by
  cases hf : fs.find x n with
  | none => exact absurd ⟨h1, h2⟩ (FS_find_none hf e he)
  | some y =>
    obtain ⟨q1, q2, q3⟩ := FS_find_some hf
    rw [hu.eq q1 he (q2.trans h1.symm) (by rw [q2, q3, h1]; exact h2.symm)]

theorem stays_processArg {P : Platform} {o : Options} (hB : Fits B T) (hT : Works T P o) (fuel : Nat) (ign : Option Filelist) {f : Bytes} (hf : f ∈ T.args)
    {V : World} (hv : View B T V.fs) : StaysIn B T (fun V' _ => View B T V'.fs) (processArg P o fuel ign f) V := by
  unfold processArg
  dsimp only
  suffices hbody : StaysIn B T (fun V' _ => View B T V'.fs) (.lstat f fun r =>
      match r with
      | none => .err (f ++ lit ": ") (.ret ign)
      | some st =>
        if st.kind = .dir then
          (parseFile P o f).bind fun work => parseDir P o fuel ign work
        else if st.kind = .reg then (parseFile P o f).bind fun _ => .ret ign
        else if o.special then (parseFile P o f).bind fun _ => .ret ign
        else .ret ign) V by
    split
    · exact stays_out hbody
    · exact hbody
  -- what is left to show
  have scheme : (∀ g, AgreeOn B T V.fs g → g.lookup f = V.fs.lookup f) →
      (V.fs.denied f = false → StaysIn B T (fun V' q => View B T V'.fs ∧ Spot B T V'.fs q) (parseFile P o f) V) → StaysIn B T (fun V' _ => View B T V'.fs) (.lstat f fun r =>
      match r with
      | none => .err (f ++ lit ": ") (.ret ign)
      | some st =>
        if st.kind = .dir then
          (parseFile P o f).bind fun work => parseDir P o fuel ign work
        else if st.kind = .reg then (parseFile P o f).bind fun _ => .ret ign
        else if o.special then (parseFile P o f).bind fun _ => .ret ign
        else .ret ign) V := by
    intro hlook hfile
    refine stays_lstat hlook ?_
    cases hr : V.fs.lstat f with
    | none => exact stays_err hv
    | some st =>
      have hden : V.fs.denied f = false := by
        cases hx : V.fs.denied f with
        | false => rfl
        | true =>
          unfold FS.lstat at hr
          rw [lookup_denied hx] at hr
          cases hr
      have hfile := hfile hden
      dsimp only
      split
      · exact StaysIn.bind (hfile.mono fun V2 q h => (stays_parseDir hB hT fuel ign q V2 0 h.1 h.2 fun _ _ _ => Nat.zero_le _).mono fun V3 _ h3 => h3.view)
      · split
        · exact StaysIn.bind (hfile.mono fun V2 q h => h.1)
        · split
          · exact StaysIn.bind (hfile.mono fun V2 q h => h.1)
          · exact hv
  cases hB.steady f hf with
  | name dir name x h1 h2 h3 h4 h5 h6 h7 =>
    have hn : PlainName name := ⟨h4, h3, h5, h6⟩
    have way := hv.way h7
    have slot : ∀ m, PlainName m → (m = name ∨ T.R name m) → V.fs.denied (dir ++ m) = false → Mine B T x m := by
      intro m hm hr hden
      exact .inr ⟨f, hf, dir, name, m, h1, h2, hn, h7, hm, hr, by rw [← hv.denied]; exact hden, rfl⟩
    have inner : V.fs.denied (dir ++ name) = false → ∀ e, V.fs.find x name = some e → B.fs.kind e.ino = .dir → B.fs.Inside T.args e.ino := by
      intro hden e he hk
      obtain ⟨q1, q2, q3⟩ := FS_find_some he
      rcases hv.moved e q1 with hq | hq
      · rw [hv.norm] at q3
        refine .arg f e.ino hf ?_ hk
        rw [h1, lookup_leads hB.tree h2 hn h7 (by rw [← hv.denied]; exact hden), find_of_entry hB.tree.unique hq q2 q3]
        rfl
      · exact hq hk
    refine scheme ?_ ?_
    · intro g hg
      rw [h1]
      exact lookup_agree hv.tree hg h2 way h3 fun _ hden => slot name hn (.inl rfl) hden
    · intro hden
      rw [h1] at hden ⊢
      have h0 : (0 : Byte) ∉ name := fun h => hB.nul f hf (by rw [h1]; exact List.mem_append_right _ h)
      refine stays_parseFile hB hT hv h2 way hn h0 (.inr ⟨f, hf, dir, name, h1, h2, hn, h7, by rw [← hv.denied, h1]; exact hden, rfl⟩)
        (fun w hr hw hdw => slot w hw (.inr (hT.says f hf dir name w ⟨h1, h3, h2⟩ hr)) hdw) ⟨hv, ?_⟩ fun e w hw hm hdw hfe hfree => ?_
      · exact spot_entry (hd := h2) hv way hn (slot name hn (.inl rfl)) fun e hd he hk => inner hd e he (by rw [← hv.kind]; exact hk)
      · obtain ⟨hl, hfind⟩ := later_moved hB hv hfe hfree hm (inner hden e hfe)
        refine ⟨hl.view, spot_entry (hd := h2) hl.view (hl.view.way h7) hw (fun _ => hm) fun e' _ he' hk' => ?_⟩
        rw [hfind] at he'
        cases he'
        exact inner hden e hfe (by rw [← hl.view.kind]; exact hk')
  | self dir name d h1 h2 h3 h4 h5 =>
    have hlv : V.fs.lookup f = B.fs.lookup f := lookup_same_self hv.same hB.tree h1 h2 h3 h4 h5 hv.low
    have hspot : Spot B T V.fs f := by
      refine ⟨h4, fun g hg => ?_, fun i hl hk => ?_⟩
      · rw [hlv]
        exact lookup_same_self (hv.same.trans hg.same) hB.tree h1 h2 h3 h4 h5 fun x hx n => (hg.low x hx n).trans (hv.low x hx n)
      · rw [hlv] at hl
        rw [hv.kind] at hk
        have := lookup_self h5 hl hk
        subst this
        exact ⟨hv.way h5, .arg f _ hf hl hk⟩
    refine scheme hspot.look fun _ => ?_
    have hsl : (0x2F : Byte) ∉ name := by rcases h3 with rfl | rfl | rfl <;> decide
    obtain ⟨hdp, hbp⟩ := splitsAs_unique (p := f) (d := dir) (n := name) ⟨h1, hsl, h2⟩
    unfold parseFile
    dsimp only
    rw [← hbp]
    refine StaysIn.bind (StaysIn.ofRes fun hold hh => ?_)
    cases hold with
    | none => exact ⟨hv, hspot⟩
    | some w =>
      have : name = w := by
        rcases h3 with rfl | rfl | rfl
        · exact (hT.nil w (by simpa [isProtected] using hh)).symm
        · exfalso
          simp only [isProtected, decide_true, Bool.true_or, if_true] at hh
          unfold sequenceRunFilters at hh
          split at hh <;> cases hh
        · exfalso
          simp only [isProtected, decide_true, Bool.or_true, if_true] at hh
          unfold sequenceRunFilters at hh
          split at hh <;> cases hh
      dsimp only
      rw [if_pos this]
      exact ⟨hv, hspot⟩

theorem stays_fileLoop {P : Platform} {o : Options} (hB : Fits B T) (hT : Works T P o) (fuel : Nat) : ∀ (n : Nat) (l : Filelist) (ign : Option Filelist) (k : Nat)
    (V : World), l.Holds T.args k → View B T V.fs → StaysIn B T (fun V' _ => View B T V'.fs) (fileLoop P o fuel n l ign) V := by
  intro n
  induction n with
  | zero => intro l ign k V _ _; exact trivial
  | succ n ih =>
    intro l ign k V hl hv
    unfold fileLoop
    have hg := filelistGet_holds hl
    by_cases hk : k < T.args.length
    · rw [dif_pos hk] at hg
      obtain ⟨l', h1, h2⟩ := hg
      rw [h1]
      refine StaysIn.bind (StaysIn.ofRes fun q hq => ?_)
      cases hq
      exact StaysIn.bind ((stays_processArg hB hT fuel ign (List.getElem_mem hk) hv).mono fun V2 ign' hv2 => ih l' ign' _ V2 h2 hv2)
    · rw [dif_neg hk] at hg
      obtain ⟨l', h1, h2⟩ := hg
      rw [h1]
      refine StaysIn.bind (StaysIn.ofRes fun q hq => ?_)
      cases hq
      exact hv

end Detox
