import Verif.Lemmas.EndsMain

/-!
# Lemmas for C100: an execution in which the system does what it can
-/

set_option autoImplicit false

namespace Detox
open Spec

/-- A system that does what it can: there are these files; there are enough file descriptors; `readdir` gives the names that are in the directory, each
of them once. -/
inductive Nice (files : Bytes → Option Bytes) : World → List Event → World → Prop
  | nil (W : World) : Nice files W [] W
  | cons (W W1 W2 : World) (e : Event) (tr : List Event) : World.Step W e W1 → W.Obliges e → Faithful files e → (∀ p, e ≠ .opendir p .emfile) →
      (∀ h n, e = .readdir h (some n) → ∃ s, W.streams h = some s ∧ n ∈ s.owed) → Nice files W1 tr W2 → Nice files W (e :: tr) W2

/-- What is true of such a system at all times. -/
structure NiceWorld (W : World) : Prop where
  fresh : ∃ b, ∀ k, b ≤ k → W.streams k = none
  names : ∀ e ∈ W.fs.entries, EntryName e.name
  owed : ∀ k s, W.streams k = some s → ∀ n ∈ s.owed, n ∈ W.fs.namesIn s.dir

theorem namesIn_mem {fs : FS} {d : Ino} {n : Bytes} (h : n ∈ fs.namesIn d) : ∃ e ∈ fs.entries, e.dir = d ∧ e.name = n := by
  obtain ⟨e, he, rfl⟩ := List.mem_map.1 h
  obtain ⟨h1, h2⟩ := List.mem_filter.1 he
  exact ⟨e, h1, by simpa using h2, rfl⟩

theorem NiceWorld.start {fs : FS} (h : ∀ e ∈ fs.entries, EntryName e.name) : NiceWorld (World.start fs) :=
  ⟨⟨0, fun _ _ => rfl⟩, h, fun _ _ h => by cases h⟩

/-- Whatever the program, there is an execution with such a system, to its end, or until it reads a directory that is not open. -/
theorem nice_execution {α : Type} (files : Bytes → Option Bytes) (p : Prog α) : ∀ W, NiceWorld W → ∃ tr out W', Trace p tr out ∧ Nice files W tr W' ∧
    (out = .running → ∃ d, W'.streams d = none ∧ Trace p (tr ++ [.readdir d none]) .running) := by
  induction p with
  | ret a => exact fun W _ => ⟨[], _, W, .ret a, .nil W, nofun⟩
  | exit n => exact fun W _ => ⟨[], _, W, .exit n, .nil W, nofun⟩
  | ub u => exact fun W _ => ⟨[], _, W, .ub u, .nil W, nofun⟩
  | stuck => exact fun W _ => ⟨[], _, W, .stuck, .nil W, nofun⟩
  | lstat p k ih =>
    intro W hW
    obtain ⟨tr, out, W', h1, h2, h3⟩ := ih (W.fs.lstat p) W hW
    refine ⟨_, out, W', .lstat p k _ tr out h1, .cons _ W _ _ _ (.lstat _ _ _ rfl) ⟨nofun, nofun⟩ nofun nofun nofun h2, fun ho => ?_⟩
    obtain ⟨d, h4, h5⟩ := h3 ho
    exact ⟨d, h4, .lstat p k _ _ _ h5⟩
  | rename a b k ih =>
    intro W hW
    have failed : (∀ fs, W.fs.rename a b = some fs → ∃ x ∈ fs.entries, ¬ EntryName x.name) → ∃ tr out W', Trace (Prog.rename a b k) tr out ∧
        Nice files W tr W' ∧ (out = .running → ∃ d, W'.streams d = none ∧ Trace (Prog.rename a b k) (tr ++ [.readdir d none]) .running) := by
      intro hr
      obtain ⟨tr, out, W', h1, h2, h3⟩ := ih false W hW
      refine ⟨_, out, W', .rename a b k _ tr out h1,
        .cons _ W _ _ _ (.renameFailed _ _ _) ⟨fun _ _ h => by cases h; exact hr, nofun⟩ nofun nofun nofun h2, fun ho => ?_⟩
      obtain ⟨d, h4, h5⟩ := h3 ho
      exact ⟨d, h4, .rename a b k _ _ _ h5⟩
    cases hr : W.fs.rename a b with
    | none => exact failed fun fs h => by rw [hr] at h; cases h
    | some fs =>
      by_cases hn : ∃ x ∈ fs.entries, ¬ EntryName x.name
      · exact failed fun fs' h => by rw [hr] at h; cases h; exact hn
      · have hW1 : NiceWorld { W with fs := fs, streams := fun k => (W.streams k).map (Stream.after fs) } := by
          refine ⟨?_, fun e he => Decidable.byContradiction fun h => hn ⟨e, he, h⟩, ?_⟩
          · obtain ⟨b, hb⟩ := hW.fresh
            exact ⟨b, fun k hk => by simp [hb k hk]⟩
          · intro k s hs n hm
            obtain ⟨s0, _, rfl⟩ := Option.map_eq_some_iff.1 hs
            simpa [Stream.after] using (List.mem_filter.1 hm).2
        obtain ⟨tr, out, W', h1, h2, h3⟩ := ih true _ hW1
        refine ⟨_, out, W', .rename a b k _ tr out h1, .cons _ _ _ _ _ (.renamed _ _ _ _ hr) ⟨nofun, nofun⟩ nofun nofun nofun h2, fun ho => ?_⟩
        obtain ⟨d, h4, h5⟩ := h3 ho
        exact ⟨d, h4, .rename a b k _ _ _ h5⟩
  | opendir p k ih =>
    intro W hW
    by_cases hd : ∃ d, W.fs.follow p = some d ∧ W.fs.kind d = .dir
    · obtain ⟨d, hd, hk⟩ := hd
      obtain ⟨b, hb⟩ := hW.fresh
      have hW1 : NiceWorld { W with
          streams := fun k => if k = b then some ⟨d, W.fs.namesIn d⟩ else W.streams k
          opened := (d, p) :: W.opened } := by
        refine ⟨⟨b + 1, fun k hk => ?_⟩, hW.names, fun k s hs n hn => ?_⟩
        · have : k ≠ b := by omega
          simp only [this, if_false]
          exact hb k (by omega)
        · dsimp only at hs
          split at hs
          · cases hs; exact hn
          · exact hW.owed k s hs n hn
      obtain ⟨tr, out, W', h1, h2, h3⟩ := ih (.ok b) _ hW1
      refine ⟨_, out, W', .opendir p k _ tr out h1, .cons _ _ _ _ _ (.opened _ _ _ _ hd hk (hb b (Nat.le_refl _)))
        ⟨nofun, fun _ _ h hno => by cases h; exact absurd rfl (hno b)⟩ nofun nofun nofun h2, fun ho => ?_⟩
      obtain ⟨d, h4, h5⟩ := h3 ho
      exact ⟨d, h4, .opendir p k _ _ _ h5⟩
    · have hW1 : NiceWorld { W with refused := (W.fs.follow p).toList.map (fun d => (d, p)) ++ W.refused } := ⟨hW.fresh, hW.names, hW.owed⟩
      obtain ⟨tr, out, W', h1, h2, h3⟩ := ih .fail _ hW1
      refine ⟨_, out, W', .opendir p k _ tr out h1, .cons _ _ _ _ _ (.refused _ _ _ nofun)
        ⟨nofun, fun _ _ h _ d h1 h2 => by cases h; exact hd ⟨d, h1, h2⟩⟩ nofun nofun nofun h2, fun ho => ?_⟩
      obtain ⟨d, h4, h5⟩ := h3 ho
      exact ⟨d, h4, .opendir p k _ _ _ h5⟩
  | readdir d k ih =>
    intro W hW
    cases hs : W.streams d with
    | none => exact ⟨[], .running, W, .stop _, .nil W, fun _ => ⟨d, hs, .readdir d k none [] .running (.stop _)⟩⟩
    | some s =>
      cases ho : s.owed with
      | nil =>
        obtain ⟨tr, out, W', h1, h2, h3⟩ := ih none W hW
        refine ⟨_, out, W', .readdir d k _ tr out h1, .cons _ W _ _ _ (.finished _ _ _ hs ho) ⟨nofun, nofun⟩ nofun nofun nofun h2, fun ho => ?_⟩
        obtain ⟨d', h4, h5⟩ := h3 ho
        exact ⟨d', h4, .readdir d k _ _ _ h5⟩
      | cons n rest =>
        have hn : n ∈ s.owed := by rw [ho]; simp
        obtain ⟨e, he, _, hen⟩ := namesIn_mem (hW.owed d s hs n hn)
        have hW1 : NiceWorld { W with streams := fun k => if k = d then some ⟨s.dir, s.owed.filter (· ≠ n)⟩ else W.streams k } := by
          refine ⟨?_, hW.names, fun k s' hs' m hm => ?_⟩
          · obtain ⟨b, hb⟩ := hW.fresh
            refine ⟨b, fun k hk => ?_⟩
            have : k ≠ d := by rintro rfl; rw [hb k hk] at hs; cases hs
            simp only [this, if_false]
            exact hb k hk
          · dsimp only at hs'
            split at hs'
            · cases hs'; exact hW.owed d s hs m (List.mem_filter.1 hm).1
            · exact hW.owed k s' hs' m hm
        obtain ⟨tr, out, W', h1, h2, h3⟩ := ih (some n) _ hW1
        refine ⟨_, out, W', .readdir d k _ tr out h1, .cons _ _ _ _ _ (.entry _ _ _ _ hs (hen ▸ hW.names e he)) ⟨nofun, nofun⟩ nofun nofun
          (fun _ _ h => by cases h; exact ⟨s, hs, hn⟩) h2, fun ho => ?_⟩
        obtain ⟨d', h4, h5⟩ := h3 ho
        exact ⟨d', h4, .readdir d k _ _ _ h5⟩
  | closedir d k ih =>
    intro W hW
    have hW1 : NiceWorld { W with streams := fun k => if k = d then none else W.streams k } := by
      refine ⟨?_, hW.names, fun k s hs => ?_⟩
      · obtain ⟨b, hb⟩ := hW.fresh
        refine ⟨b, fun k hk => ?_⟩
        dsimp only
        split
        · rfl
        · exact hb k hk
      · dsimp only at hs
        split at hs
        · cases hs
        · exact hW.owed k s hs
    obtain ⟨tr, out, W', h1, h2, h3⟩ := ih _ hW1
    refine ⟨_, out, W', .closedir d k tr out h1, .cons _ _ _ _ _ (.closed _ _) ⟨nofun, nofun⟩ nofun nofun nofun h2, fun ho => ?_⟩
    obtain ⟨d', h4, h5⟩ := h3 ho
    exact ⟨d', h4, .closedir d k _ _ h5⟩
  | slurp p k ih =>
    intro W hW
    obtain ⟨r, hr⟩ : ∃ r, Faithful files (.slurp p r) := by
      cases p with
      | none => exact ⟨none, nofun⟩
      | some p => exact ⟨files p, fun _ _ h => by cases h; rfl⟩
    obtain ⟨tr, out, W', h1, h2, h3⟩ := ih r W hW
    refine ⟨_, out, W', .slurp p k _ tr out h1, .cons _ W _ _ _ (.slurp _ _ _) ⟨nofun, nofun⟩ hr nofun nofun h2, fun ho => ?_⟩
    obtain ⟨d, h4, h5⟩ := h3 ho
    exact ⟨d, h4, .slurp p k _ _ _ h5⟩
  | out s k ih =>
    intro W hW
    obtain ⟨tr, out, W', h1, h2, h3⟩ := ih W hW
    refine ⟨_, out, W', .out s k tr out h1, .cons _ W _ _ _ (.out _ _) ⟨nofun, nofun⟩ nofun nofun nofun h2, fun ho => ?_⟩
    obtain ⟨d, h4, h5⟩ := h3 ho
    exact ⟨d, h4, .out s k _ _ h5⟩
  | err s k ih =>
    intro W hW
    obtain ⟨tr, out, W', h1, h2, h3⟩ := ih W hW
    refine ⟨_, out, W', .err s k tr out h1, .cons _ W _ _ _ (.err _ _) ⟨nofun, nofun⟩ nofun nofun nofun h2, fun ho => ?_⟩
    obtain ⟨d, h4, h5⟩ := h3 ho
    exact ⟨d, h4, .err s k _ _ h5⟩

/-! ### What is true of such executions -/

section
variable {files : Bytes → Option Bytes}

theorem Nice.steps {W W' : World} {tr : List Event} (h : Nice files W tr W') : World.Steps W tr W' := by
  induction h with
  | nil W => exact .nil W
  | cons W W1 W2 e tr h1 _ _ _ _ _ ih => exact .cons _ _ _ _ _ h1 ih

theorem Nice.faithful {W W' : World} {tr : List Event} (h : Nice files W tr W') : ∀ e ∈ tr, Faithful files e := by
  induction h with
  | nil W => exact nofun
  | cons W W1 W2 e tr _ _ h1 _ _ _ ih =>
    intro x hx
    rcases List.mem_cons.1 hx with rfl | hx
    · exact h1
    · exact ih x hx

theorem Nice.enough {W W' : World} {tr : List Event} (h : Nice files W tr W') : ∀ p, Event.opendir p .emfile ∉ tr := by
  induction h with
  | nil W => exact nofun
  | cons W W1 W2 e tr _ _ _ h1 _ _ ih =>
    intro p hp
    rcases List.mem_cons.1 hp with hp | hp
    · exact h1 p hp.symm
    · exact ih p hp

/-- The answers say what happens. -/
theorem step_unique {W W1 W2 : World} {e : Event} (h1 : World.Step W e W1) (h2 : World.Step W e W2) : W1 = W2 := by
  cases h1 with
  | lstat | renameFailed | finished | closed | slurp | out | err => cases h2; rfl
  | renamed _ _ fs h => cases h2 with | renamed _ _ fs' h' => rw [h] at h'; cases h'; rfl
  | opened p h d hf hk hn =>
    cases h2 with
    | opened _ _ d' hf' hk' hn' => rw [hf] at hf'; cases hf'; rfl
    | refused _ _ hr => exact absurd rfl (hr h)
  | refused p r hr =>
    cases h2 with
    | opened _ h _ _ _ _ => exact absurd rfl (hr h)
    | refused => rfl
  | entry h s n hs hn => cases h2 with | entry _ s' _ hs' _ => rw [hs] at hs'; cases hs'; rfl

theorem steps_unique {W : World} {tr : List Event} {W1 W2 : World} (h1 : World.Steps W tr W1) (h2 : World.Steps W tr W2) : W1 = W2 := by
  induction h1 with
  | nil W => cases h2; rfl
  | cons W Wa Wb e tr h _ ih =>
    cases h2 with
    | cons _ Wc _ _ _ h' h2 =>
      rw [step_unique h' h] at h2
      exact ih h2

theorem Nice.obliges {W W' : World} {tr : List Event} (h : Nice files W tr W') : W.ObligesIn tr := by
  induction h with
  | nil W => intro t1 e t2 w1 h; simp at h
  | cons W W1 W2 e tr h1 h2 _ _ _ _ ih =>
    intro t1 x t2 w1 heq hs
    cases t1 with
    | nil => cases heq; cases hs; exact h2
    | cons y t1 =>
      cases heq
      cases hs with
      | cons _ Wc _ _ _ h3 h4 =>
        rw [step_unique h3 h1] at h4
        exact ih t1 x t2 w1 rfl h4

/-! Readings -/

theorem rename_length {fs fs' : FS} {old new : Bytes} (h : fs.rename old new = some fs') : fs'.entries.length ≤ fs.entries.length := by
  obtain ⟨d1, n1, d2, n2, e1, _, _, _, h⟩ := FS_rename_cases h
  rcases h with ⟨_, _, rfl⟩ | ⟨e2, _, _, ⟨_, rfl⟩ | ⟨_, _, rfl⟩ | ⟨_, rfl⟩⟩
  · simp
  · simp
  · exact Nat.le_refl _
  · simp only [List.length_map]
    exact List.length_filter_le _ _

theorem step_length {W W1 : World} {e : Event} (h : World.Step W e W1) : W1.fs.entries.length ≤ W.fs.entries.length := by
  cases h with
  | renamed _ _ fs h => exact rename_length h
  | lstat | renameFailed | refused | finished | slurp | out | err | opened | entry | closed => exact Nat.le_refl _

theorem filter_ne_length {l : List Bytes} {n : Bytes} (h : n ∈ l) : (l.filter (· ≠ n)).length < l.length := by
  induction l with
  | nil => cases h
  | cons a l ih =>
    by_cases ha : a = n
    · simp only [List.filter_cons, ha, ne_eq, not_true_eq_false, decide_false, Bool.false_eq_true, if_false, List.length_cons]
      exact Nat.lt_succ_of_le (List.length_filter_le _ _)
    · have : n ∈ l := by
        rcases List.mem_cons.1 h with rfl | h
        · exact absurd rfl ha
        · exact h
      simp only [List.filter_cons, ha, ne_eq, not_false_eq_true, decide_true, if_true, List.length_cons]
      exact Nat.succ_lt_succ (ih this)

/-- A directory that is open gives no more names than it owes. -/
theorem Nice.gives {W W' : World} {tr : List Event} (h : Nice files W tr W') : ∀ (k : Nat) (s : Stream), W.streams k = some s → ∀ t2 n t3,
    tr = t2 ++ .readdir k (some n) :: t3 → Event.closedir k ∉ t2 → (t2.filter (givesName k)).length < s.owed.length := by
  induction h with
  | nil W => intro k s _ t2 n t3 h; simp at h
  | cons W W1 W2 e tr h1 _ _ _ h2 _ ih =>
    intro k s hs t2 n t3 heq hc
    cases t2 with
    | nil =>
      cases heq
      obtain ⟨s', h3, h4⟩ := h2 k n rfl
      rw [hs] at h3
      cases h3
      exact List.length_pos_of_mem h4
    | cons x t2 =>
      cases heq
      have hce : e ≠ .closedir k := by rintro rfl; exact hc (by simp)
      have hct : Event.closedir k ∉ t2 := fun hm => hc (by simp [hm])
      have other : givesName k e = false → ∀ s', W1.streams k = some s' → s'.owed.length ≤ s.owed.length →
          ((e :: t2).filter (givesName k)).length < s.owed.length := by
        intro hg s' hs' hle
        have := ih k s' hs' t2 n t3 rfl hct
        simp only [List.filter_cons, hg, Bool.false_eq_true, if_false]
        omega
      cases h1 with
      | lstat | renameFailed | refused | finished | slurp | out | err => exact other rfl s hs (Nat.le_refl _)
      | renamed _ _ fs => exact other rfl (s.after fs) (by simp [hs]) (List.length_filter_le _ _)
      | opened _ h d _ _ h3 =>
        have : k ≠ h := by rintro rfl; rw [h3] at hs; cases hs
        exact other rfl s (by simp [this, hs]) (Nat.le_refl _)
      | entry h s1 m h3 =>
        by_cases hkh : k = h
        · subst hkh
          rw [h3] at hs
          cases hs
          obtain ⟨s', h4, h5⟩ := h2 k m rfl
          rw [h3] at h4
          cases h4
          have := ih k ⟨s.dir, s.owed.filter (· ≠ m)⟩ (by simp) t2 n t3 rfl hct
          have hlt := filter_ne_length h5
          simp only [List.filter_cons, givesName, decide_true, if_true, List.length_cons]
          dsimp only at this
          omega
        · refine other ?_ s (by simp [hkh, hs]) (Nat.le_refl _)
          simp only [givesName, decide_eq_false_iff_not]
          exact fun h => hkh h.symm
      | closed h =>
        have : k ≠ h := by rintro rfl; exact hce rfl
        exact other rfl s (by simp [this, hs]) (Nat.le_refl _)

theorem Nice.frugal {W W' : World} {tr : List Event} (h : Nice files W tr W') : ∀ {K : Nat}, W.fs.entries.length ≤ K → Frugal K tr := by
  induction h with
  | nil W => intro K _ t1 p k t2 n t3 h; simp at h
  | cons W W1 W2 e tr h1 _ _ _ _ h2 ih =>
    intro K hK t1 p k t2 n t3 heq hc
    cases t1 with
    | nil =>
      cases heq
      cases h1 with
      | opened _ _ d hf hk hn =>
        have := h2.gives k ⟨d, W.fs.namesIn d⟩ (by simp) t2 n t3 rfl hc
        refine Nat.lt_of_lt_of_le this (Nat.le_trans ?_ hK)
        unfold FS.namesIn
        rw [List.length_map]
        exact List.length_filter_le _ _
      | refused _ _ hr => exact absurd rfl (hr k)
    | cons x t1 =>
      cases heq
      exact ih (Nat.le_trans (step_length h1) hK) t1 p k t2 n t3 rfl hc

/-! Names -/

theorem fs_locate_last {fs : FS} {dir n m : Bytes} {d : Ino} (hd : dir = [] ∨ ∃ x, dir = x ++ [0x2F]) (hn : n ≠ []) (hs : (0x2F : Byte) ∉ n)
    (h : fs.locate (dir ++ n) = some (d, m)) : m = n := by
  obtain ⟨_, _, _, h1, _⟩ := FS_locate_inv h
  rw [comps_dir_name hd hn hs, List.getLast?_concat] at h1
  exact (Option.some.inj h1).symm

/-- All names that come up are good, if there are only good ones to begin with, and good ones are replaced by good ones. -/
theorem Nice.goodNames {G : Bytes → Prop} (hplain : ∀ n, G n → n ≠ [] ∧ (0x2F : Byte) ∉ n) {W W' : World} {tr : List Event} (h : Nice files W tr W') :
    (∀ d a b, W.fs.norm d a = W.fs.norm d b → a = b) → (∀ e ∈ W.fs.entries, G e.name) →
    (∀ k s, W.streams k = some s → ∀ n ∈ s.owed, n ∈ W.fs.namesIn s.dir) →
    (∀ old new, Event.rename old new true ∈ tr → ∃ dir name v, SplitsAs old dir name ∧ name ≠ [] ∧ new = dir ++ v ∧ (G name → G v)) →
    ∀ k n, Event.readdir k (some n) ∈ tr → G n := by
  induction h with
  | nil W => intro _ _ _ _ k n h; cases h
  | cons W W1 W2 e tr h1 _ _ _ h2 _ ih =>
    intro hex hG hW hr k n hm
    have hr' : ∀ old new, Event.rename old new true ∈ tr → ∃ dir name v, SplitsAs old dir name ∧ name ≠ [] ∧ new = dir ++ v ∧ (G name → G v) :=
      fun old new h => hr old new (by simp [h])
    rcases List.mem_cons.1 hm with rfl | hm'
    · obtain ⟨s, h3, h4⟩ := h2 k n rfl
      obtain ⟨e, he, _, rfl⟩ := namesIn_mem (hW k s h3 n h4)
      exact hG e he
    · replace hm := hm'
      cases h1 with
      | lstat | renameFailed | refused | finished | slurp | out | err => exact ih hex hG hW hr' k n hm
      | renamed old new fs hren =>
        obtain ⟨dir, name, v, ⟨rfl, hsl, hdir⟩, hne, rfl, hGv⟩ := hr old new (by simp)
        obtain ⟨d1, n1, d2, n2, e1, hl1, hl2, hf1, hc⟩ := FS_rename_cases hren
        obtain rfl := fs_locate_last hdir hne hsl hl1
        obtain ⟨he1, hd1, hn1⟩ := FS_find_some hf1
        obtain rfl := hex _ _ _ hn1
        have hv := hGv (hG e1 he1)
        obtain rfl := fs_locate_last hdir (hplain _ hv).1 (hplain _ hv).2 hl2
        have hmove : ∀ x, x ∈ W.fs.entries → G (moveEntry e1 d2 n2 x).name := by
          intro x hx
          unfold moveEntry
          split
          · exact hv
          · exact hG x hx
        have key : (∀ d a b, fs.norm d a = fs.norm d b → a = b) ∧ ∀ e ∈ fs.entries, G e.name := by
          rcases hc with ⟨_, _, rfl⟩ | ⟨e2, _, _, ⟨_, rfl⟩ | ⟨_, _, rfl⟩ | ⟨_, rfl⟩⟩
          · exact ⟨hex, fun e he => by obtain ⟨x, hx, rfl⟩ := List.mem_map.1 he; exact hmove x hx⟩
          · exact ⟨hex, fun e he => by obtain ⟨x, hx, rfl⟩ := List.mem_map.1 he; exact hmove x hx⟩
          · exact ⟨hex, hG⟩
          · exact ⟨hex, fun e he => by obtain ⟨x, hx, rfl⟩ := List.mem_map.1 he; exact hmove x (List.mem_filter.1 hx).1⟩
        refine ih key.1 key.2 ?_ hr' k n hm
        intro k s hs n hm
        obtain ⟨s0, _, rfl⟩ := Option.map_eq_some_iff.1 hs
        simpa [Stream.after] using (List.mem_filter.1 hm).2
      | opened p h d hf hk hn =>
        refine ih hex hG ?_ hr' k n hm
        intro k s hs n hm
        dsimp only at hs
        split at hs
        · cases hs; exact hm
        · exact hW k s hs n hm
      | entry h s m h3 h4 =>
        refine ih hex hG ?_ hr' k n hm
        intro k s' hs n hm
        dsimp only at hs
        split at hs
        · cases hs; exact hW h s h3 n (List.mem_filter.1 hm).1
        · exact hW k s' hs n hm
      | closed h =>
        refine ih hex hG ?_ hr' k n hm
        intro k s hs n hm
        dsimp only at hs
        split at hs
        · cases hs
        · exact hW k s hs n hm

end

/-! ### Directories that are open -/

theorem steps_openDirs {fs : FS} : ∀ (tr : List Event) {W : World}, World.Steps (World.start fs) tr.reverse W →
    ((openDirs tr).map Prod.fst).Nodup ∧ ∀ k, (∃ p, (k, p) ∈ openDirs tr) ↔ W.streams k ≠ none
  | [], W, h => by cases h; simp [openDirs, World.start]
  | e :: tr, W, hst => by
    rw [List.reverse_cons] at hst
    obtain ⟨W1, h1, h2⟩ := World.Steps.append_inv hst
    clear hst
    obtain ⟨g1, g2⟩ := steps_openDirs tr h1
    cases h2 with
    | cons _ W2 _ _ _ h3 h4 =>
      cases h4
      cases h3 with
      | lstat | renameFailed | finished | slurp | out | err => exact ⟨g1, g2⟩
      | refused p r hr =>
        cases r with
        | ok h => exact absurd rfl (hr h)
        | emfile => exact ⟨g1, g2⟩
        | fail => exact ⟨g1, g2⟩
      | renamed _ _ fs => exact ⟨g1, fun k => (g2 k).trans (by simp)⟩
      | entry h s m h3 h4 =>
        refine ⟨g1, fun k => (g2 k).trans ?_⟩
        dsimp only
        split
        · next hk => subst hk; simp [h3]
        · rfl
      | opened p h d hf hk hn =>
        refine ⟨?_, fun k => ?_⟩
        · show (h :: (openDirs tr).map Prod.fst).Nodup
          refine List.nodup_cons.2 ⟨fun hm => ?_, g1⟩
          obtain ⟨x, hx, rfl⟩ := List.mem_map.1 hm
          exact absurd hn ((g2 x.1).1 ⟨x.2, hx⟩)
        · show (∃ q, (k, q) ∈ (h, p) :: openDirs tr) ↔ _
          dsimp only
          split
          · next hk => subst hk; simp
          · next hk =>
            rw [← g2 k]
            constructor
            · rintro ⟨q, hq⟩
              rcases List.mem_cons.1 hq with hq | hq
              · cases hq; exact absurd rfl hk
              · exact ⟨q, hq⟩
            · rintro ⟨q, hq⟩
              exact ⟨q, List.mem_cons_of_mem _ hq⟩
      | closed h =>
        have hsub : ((openDirs tr).eraseP fun e => e.1 == h).Sublist (openDirs tr) := List.eraseP_sublist
        refine ⟨?_, fun k => ?_⟩
        · exact List.Sublist.nodup (hsub.map Prod.fst) g1
        · show (∃ q, (k, q) ∈ (openDirs tr).eraseP fun e => e.1 == h) ↔ _
          dsimp only
          split
          · next hk =>
            subst hk
            simp only [ne_eq, not_true_eq_false, iff_false]
            rintro ⟨q, hq⟩
            exact nodup_eraseP g1 hq
          · next hk =>
            rw [← g2 k]
            constructor
            · rintro ⟨q, hq⟩
              exact ⟨q, hsub.subset hq⟩
            · rintro ⟨q, hq⟩
              refine ⟨q, ?_⟩
              rw [List.mem_eraseP_of_neg]
              · exact hq
              · simpa using hk
where
  nodup_eraseP {l : List (Nat × Bytes)} {k : Nat} {q : Bytes} (h : (l.map Prod.fst).Nodup) (hq : (k, q) ∈ l.eraseP fun e => e.1 == k) : False := by
    induction l with
    | nil => cases hq
    | cons x l ih =>
      rw [List.map_cons, List.nodup_cons] at h
      by_cases hx : x.1 = k
      · rw [List.eraseP_cons_of_pos (by simpa using hx)] at hq
        exact h.1 (List.mem_map.2 ⟨_, hq, hx.symm⟩)
      · rw [List.eraseP_cons_of_neg (by simpa using hx)] at hq
        rcases List.mem_cons.1 hq with rfl | hq
        · exact hx rfl
        · exact ih h.2 hq

end Detox
