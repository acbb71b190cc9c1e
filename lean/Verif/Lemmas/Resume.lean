import Verif.Lemmas.Tree
import Verif.Spec.Resume

/-!
# Lemmas for C108: trees in which the work is not done
-/

set_option autoImplicit false

namespace Detox
open Spec

section
variable {R : Bytes → Bytes → Prop} {o : Options} {E : List Event} {depth : Ino → Nat} {slack : Nat} {args ws : List Bytes} {fs0 : FS}

/-- What one argument does to the names, complaints or not. -/
theorem arg_names {denied : Bytes → Bool} {level : Nat} (hR : OnePass R) (S : ScanSetting R o E denied)
    (hlit : ∀ h n, Event.readdir h (some n) ∈ E → fs0.Literal R n) {f : Bytes} {seen seen' : List Bytes} {tr : List Event}
    (h : ArgScanBy R o ws f seen tr seen') (hE : ∀ e ∈ tr, e ∈ E) {W W' : World} (hden : W.fs.denied = denied) (ht0 : fs0.Tree depth slack)
    (ht : W.fs.Tree depth slack) (hst : fs0.Steady depth slack level f) (hfinds : ∀ x, depth x < level → ∀ n, W.fs.find x n = fs0.find x n)
    (h0 : (0 : Byte) ∉ f) (hf : f ∈ args) (hex : fs0.lookup f ≠ none) (hlf : ∀ dir name, SplitsAs f dir name → fs0.Literal R name)
    (hs : World.Steps W tr W') {g : Entry → Entry} (hnow : Now R o args fs0 g W.fs) : ∃ g', Now R o args fs0 g' W'.fs := by
  have hsame := hnow.sameBut
  obtain ⟨i0, hi0⟩ := Option.ne_none_iff_exists'.1 hex
  have miss : ∀ {s : Bytes}, World.Steps W [.lstat f none, .err s] W' → ∃ g', Now R o args fs0 g' W'.fs := by
    intro s hs
    obtain ⟨_, b⟩ := world_lstat hs
    rw [world_nil (world_err b)]
    exact ⟨g, hnow⟩
  cases hst with
  | self dir name d g1 g2 g3 g4 g5 =>
    have hlk := lookup_same_self hsame ht0 g1 g2 g3 g4 g5 hfinds
    have g5' := leads_same hsame g5 hfinds
    cases h with
    | missing _ => exact miss hs
    | leave st _ h1 h2 h3 =>
      obtain ⟨a, b⟩ := world_lstat hs
      rw [world_nil b]
      exact ⟨g, hnow⟩
    | file st _ mid p hk hfr =>
      obtain ⟨a, b⟩ := world_lstat hs
      obtain ⟨rfl, rfl⟩ := fileRun_self S.empty hfr g1 g2 g3
      rw [world_nil b]
      exact ⟨g, hnow⟩
    | dir st _ _ mid sub p hk hfr hsub =>
      obtain ⟨a, b⟩ := world_lstat hs
      obtain ⟨rfl, rfl⟩ := fileRun_self S.empty hfr g1 g2 g3
      rw [List.nil_append] at b
      obtain ⟨i, hi, _, _⟩ := FS_lstat_some a
      have hki := (lstat_kind hi a).1.symm.trans hk
      have hid := lookup_self g5' hi hki
      subst hid
      obtain ⟨⟨g', h1, h2⟩, _⟩ := scan_now hR S hlit hsub (fun e he => hE e (by simp [he])) W W' hden ht b g4 i (leads_level g5') hi
        (.arg p i hf (hlk.symm.trans hi) (by rw [← hnow.kind]; exact hki)) g hnow
      exact ⟨g', h1⟩
  | name dir name x g1 g2 g3 g4 g5 g6 g7 =>
    subst g1
    have hplain : PlainName name := ⟨g4, g3, g5, g6⟩
    have hallow : W.fs.denied (dir ++ name) = false := by
      rw [hden]
      cases h with
      | missing _ => exact S.allowed _ none (hE _ (by simp))
      | leave st => exact S.allowed _ (some st) (hE _ (by simp))
      | file st => exact S.allowed _ (some st) (hE _ (by simp))
      | dir st => exact S.allowed _ (some st) (hE _ (by simp))
    have hallow0 : fs0.denied (dir ++ name) = false := by rw [← hnow.denied]; exact hallow
    have g7' := leads_same hsame g7 hfinds
    have hl1 : fs0.Literal R name := hlf dir name ⟨rfl, g3, g2⟩
    have hlk0 := lookup_leads ht0 g2 hplain g7 hallow0
    have hlkW := lookup_leads ht g2 hplain g7' hallow
    rw [hi0] at hlk0
    obtain ⟨e0, hfe0, hei0⟩ := Option.map_eq_some_iff.1 hlk0.symm
    have hloc := locate_of_leads ht0 g2 hplain g7 hallow0
    have hat0 : fs0.IsAt (dir ++ name) e0 := by
      obtain ⟨_, hed0, _⟩ := FS_find_some hfe0
      exact ⟨dir, name, ⟨rfl, g3, g2⟩, g4, by rw [hloc, hed0], by rw [hed0]; exact hfe0⟩
    have key : ∀ {st : Stat}, W.fs.lstat (dir ++ name) = some st → W.fs.find x name = some e0 ∧ st.kind = fs0.kind e0.ino := by
      intro st a
      obtain ⟨i, hi, _, _⟩ := FS_lstat_some a
      have hst := (lstat_kind hi a).1
      have hi' := hi
      rw [hlkW] at hi'
      obtain ⟨e, hfe, hei⟩ := Option.map_eq_some_iff.1 hi'
      obtain ⟨rfl, h2, h3⟩ := hnow.find_back hR ht0.unique ht.unique hl1 hfe hfe0
      exact ⟨hfe, by rw [hst, hei, hnow.kind]⟩
    have file : ∀ {mid : List Event} {p : Bytes} {W3 : World} {st : Stat}, W.fs.lstat (dir ++ name) = some st → FileRunBy R o (dir ++ name) mid p →
        World.Steps W mid W3 → (∀ e ∈ mid, e ∈ E) → (st.kind = .dir ∨ st.kind = .reg ∨ o.special = true) → ∃ g', Now R o args fs0 g' W3.fs := by
      intro mid p W3 st a hfr b hmid hk
      obtain ⟨k1, k5⟩ := key a
      obtain ⟨g', h1, _⟩ := fileRun_now hR S hden ht g2 hplain (fun h => h0 (List.mem_append_right _ h)) g7' hfr b hmid hallow hl1 hnow (by
        intro e hfe he hne
        rw [k1] at hfe
        cases hfe
        exact ⟨by rw [← k5]; exact hk, .inl ⟨_, hf, hat0⟩⟩)
      exact ⟨g', h1⟩
    cases h with
    | missing _ => exact miss hs
    | leave st _ h1 h2 h3 =>
      obtain ⟨a, b⟩ := world_lstat hs
      rw [world_nil b]
      exact ⟨g, hnow⟩
    | file st _ mid p hk hfr =>
      obtain ⟨a, b⟩ := world_lstat hs
      exact file a hfr b (fun e he => hE e (by simp [he])) (by
        rcases hk with hk | hk
        · exact .inr (.inl hk)
        · exact .inr (.inr hk.2))
    | dir st _ _ mid sub p hk hfr hsub =>
      obtain ⟨a, b⟩ := world_lstat hs
      obtain ⟨W3, b, c⟩ := World.Steps.append_inv b
      obtain ⟨k1, k5⟩ := key a
      have hmid : ∀ e ∈ mid, e ∈ E := fun e he => hE e (by simp [he])
      obtain ⟨g1, h1⟩ := file a hfr b hmid (.inl hk)
      obtain ⟨m1, m2, m3, _, m5⟩ := fileRun_stays S hden ht g2 hplain (fun h => h0 (List.mem_append_right _ h)) g7' hfr b hmid hallow
      rcases m5 with ⟨m5, _⟩ | ⟨e, w, hfe, rfl, hw, hhere, hdw⟩
      · rw [k1] at m5; cases m5
      rw [k1] at hfe
      cases hfe
      have hl3 := leads_same m1 g7' m3
      have hlk3 := lookup_leads m2 g2 hw hl3 hdw
      rw [hhere] at hlk3
      have hk0 : fs0.kind e0.ino = .dir := by rw [← k5]; exact hk
      have hle := leads_entry (e := ⟨x, (if w = name then e0.name else w), e0.ino⟩) m2 g2 hw hl3 hhere (by rw [h1.kind]; exact hk0)
      obtain ⟨⟨g', h4, h5⟩, _⟩ := scan_now hR S hlit hsub (fun e he => hE e (by simp [he])) W3 W' (by rw [m1.denied]; exact hden) m2 c (by simp [hw.nonempty])
        e0.ino hle hlk3 (.arg _ e0.ino hf (by rw [hi0, hei0]) hk0) g1 h1
      exact ⟨g', h4⟩

theorem args_names {denied : Bytes → Bool} {level : Nat} (hR : OnePass R) (S : ScanSetting R o E denied)
    (hlit : ∀ h n, Event.readdir h (some n) ∈ E → fs0.Literal R n) (ht0 : fs0.Tree depth slack) {fl : List Bytes} {seen seen' : List Bytes}
    {tr : List Event} (h : ArgsScanBy R o ws fl seen tr seen') : (∀ e ∈ tr, e ∈ E) → ∀ {W W' : World}, W.fs.denied = denied → W.fs.Tree depth slack →
    (∀ f ∈ fl, fs0.Steady depth slack level f) → (∀ x, depth x < level → ∀ n, W.fs.find x n = fs0.find x n) → (∀ f ∈ fl, (0 : Byte) ∉ f) →
    (∀ f ∈ fl, f ∈ args) → (∀ f ∈ fl, fs0.lookup f ≠ none) → (∀ f ∈ fl, ∀ dir name, SplitsAs f dir name → fs0.Literal R name) →
    World.Steps W tr W' → ∀ {g : Entry → Entry}, Now R o args fs0 g W.fs → ∃ g', Now R o args fs0 g' W'.fs := by
  induction h with
  | nil seen =>
    intro _ W W' _ ht _ _ _ _ _ _ hs g hnow
    rw [world_nil hs]
    exact ⟨g, hnow⟩
  | cons f fl seen seen1 seen' t tr hf hfl ih =>
    intro hE W W' hden ht hst hfinds h0 hin hex hlf hs g hnow
    rw [List.append_assoc] at hs
    obtain ⟨W0, hs0, hs'⟩ := World.Steps.append_inv hs
    clear hs
    have : W0 = W := by
      split at hs0
      · exact world_nil hs0
      · exact world_nil (world_out hs0)
    subst this
    obtain ⟨W1, hs1, hs2⟩ := World.Steps.append_inv hs'
    have hE1 : ∀ e ∈ t, e ∈ E := fun e he => hE e (by simp [he])
    have hE2 : ∀ e ∈ tr, e ∈ E := fun e he => hE e (by simp [he])
    have hstW : ∀ f' ∈ f :: fl, W0.fs.Steady depth slack level f' := fun f' hf' => steady_same hnow.sameBut (hst f' hf') hfinds
    obtain ⟨k1, _, _⟩ := arg_goal S hf hE1 hden ht (hstW f (by simp)) (h0 f (by simp)) hs1
    obtain ⟨g1, n1⟩ := arg_names hR S hlit hf hE1 hden ht0 ht (hst f (by simp)) hfinds (h0 f (by simp)) (hin f (by simp)) (hex f (by simp))
      (hlf f (by simp)) hs1 hnow
    have hden1 : W1.fs.denied = denied := by rw [k1.same.denied]; exact hden
    have hfinds1 : ∀ x, depth x < level → ∀ n, W1.fs.find x n = fs0.find x n := fun x hx n => (k1.finds x hx n).trans (hfinds x hx n)
    exact ih hE2 hden1 k1.tree (fun f' h => hst f' (by simp [h])) hfinds1 (fun f' h => h0 f' (by simp [h])) (fun f' h => hin f' (by simp [h]))
      (fun f' h => hex f' (by simp [h])) (fun f' h => hlf f' (by simp [h])) hs2 n1

end

/-! ### From one tree to the other -/

/-- What is asked of the tree and the arguments. -/
structure Resumable (R : Bytes → Bytes → Prop) (args : List Bytes) (fs : FS) (depth : Ino → Nat) (slack level : Nat) : Prop where
  pass : OnePass R
  nul : ∀ e ∈ fs.entries, NulFree e.name
  exact : ∀ d a b, fs.norm d a = fs.norm d b → a = b
  allowed : ∀ p, fs.denied p = false
  tree : fs.Tree depth slack
  steady : ∀ f ∈ args, fs.Steady depth slack level f
  here : ∀ f ∈ args, fs.lookup f ≠ none
  clean : fs.ArgsClean R args

/-- The work is not done. -/
structure Midway (R : Bytes → Bytes → Prop) (o : Options) (args : List Bytes) (fs : FS) (depth : Ino → Nat) (slack level : Nat) (g : Entry → Entry)
    (fs1 : FS) : Prop where
  now : Now R o args fs g fs1
  tree : fs1.Tree depth slack
  finds : ∀ x, depth x < level → ∀ n, fs1.find x n = fs.find x n

section
variable {R : Bytes → Bytes → Prop} {o : Options} {depth : Ino → Nat} {slack level : Nat} {args ws : List Bytes} {fs fs1 fs2 : FS} {g g1 : Entry → Entry}

theorem Midway.fixed (hm : Midway R o args fs depth slack level g fs1) (hr : Resumable R args fs depth slack level) {e : Entry} (he : e ∈ fs.entries)
    (h : R e.name e.name) : g e = e := by
  rcases hm.now.each e he with h1 | ⟨h1, h2, _, h4, _⟩
  · exact h1
  · have := hr.pass.one _ _ _ h4 h
    cases hg : g e with
    | mk a b c =>
      rw [hg] at h1 h2 this
      simp only at h1 h2 this
      rw [h1, h2, this]

/-- The arguments mean the same. -/
theorem Midway.arg (hm : Midway R o args fs depth slack level g fs1) (hr : Resumable R args fs depth slack level) {f : Bytes} (hf : f ∈ args) :
    fs1.lookup f = fs.lookup f ∧ ∀ e, fs1.IsAt f e ↔ fs.IsAt f e := by
  have hsame := hm.now.sameBut
  cases hr.steady f hf with
  | self dir name d g1 g2 g3 g4 g5 =>
    exact ⟨lookup_same_self hsame hr.tree g1 g2 g3 g4 g5 hm.finds, fun e => ⟨fun h => absurd h (isAt_dots g1 g2 g3), fun h => absurd h (isAt_dots g1 g2 g3)⟩⟩
  | name dir name x g1 g2 g3 g4 g5 g6 g7 =>
    subst g1
    have hplain : PlainName name := ⟨g4, g3, g5, g6⟩
    have hall : fs.denied (dir ++ name) = false := hr.allowed _
    have hall1 : fs1.denied (dir ++ name) = false := by rw [hm.now.denied]; exact hall
    have g7' := leads_same hsame g7 hm.finds
    have hlk := lookup_leads hr.tree g2 hplain g7 hall
    have hlk1 := lookup_leads hm.tree g2 hplain g7' hall1
    have hloc := locate_of_leads hr.tree g2 hplain g7 hall
    have hloc1 := locate_of_leads hm.tree g2 hplain g7' hall1
    have at_iff : ∀ {fs : FS} {e : Entry}, fs.locate (dir ++ name) = some (x, name) → (fs.IsAt (dir ++ name) e ↔ fs.find x name = some e) := by
      intro fs e hloc
      constructor
      · rintro ⟨dir', name', h4, h5, h6, h7⟩
        rw [hloc] at h6
        cases h6
        exact h7
      · intro h
        obtain ⟨_, hed, _⟩ := FS_find_some h
        exact ⟨dir, name, ⟨rfl, g3, g2⟩, g4, by rw [hloc, hed], by rw [hed]; exact h⟩
    obtain ⟨i0, hi0⟩ := Option.ne_none_iff_exists'.1 (hr.here _ hf)
    obtain ⟨e0, hfe0, hei0⟩ := Option.map_eq_some_iff.1 (hlk.symm.trans hi0)
    obtain ⟨he0, hed0, hn0⟩ := FS_find_some hfe0
    have hname : e0.name = name := hr.exact _ _ _ hn0
    have hge := hm.fixed hr he0 (hr.clean _ hf e0 ((at_iff hloc).2 hfe0))
    have hin : e0 ∈ fs1.entries := by
      rw [hm.now.same]
      exact List.mem_map.2 ⟨e0, he0, hge⟩
    have hfe1 := find_exact hm.tree.unique hin
    rw [hed0, hname] at hfe1
    refine ⟨by rw [hlk, hlk1, hfe0, hfe1], fun e => ?_⟩
    rw [at_iff hloc, at_iff hloc1, hfe0, hfe1]

theorem Midway.scans (hm : Midway R o args fs depth slack level g fs1) (hr : Resumable R args fs depth slack level) {skip : Bytes → Prop}
    (hv : fs.StaysInView R skip) {d : Ino} (h : fs.Scans o args skip d) : fs1.Scans o args skip d := by
  induction h with
  | arg f d hf hl hk => exact .arg f d hf ((hm.arg hr hf).1.trans hl) (by rw [hm.now.kind]; exact hk)
  | sub e he _ hrec hk hsk ih =>
    obtain ⟨h1, h2⟩ := hm.now.place he
    rw [← h2]
    refine .sub (g e) (by rw [hm.now.same]; exact List.mem_map_of_mem he) (by rw [h1]; exact ih) hrec (by rw [h2, hm.now.kind]; exact hk) fun hs => hsk ?_
    rcases hm.now.each e he with h | h
    · rw [h] at hs; exact hs
    · exact hv e he hk _ h.2.2.2.1 hs

theorem Midway.scans_back (hm : Midway R o args fs depth slack level g fs1) (hr : Resumable R args fs depth slack level) {d : Ino}
    (h : fs1.Scans o args Hidden d) : fs.Scans o args Hidden d := by
  induction h with
  | arg f d hf hl hk => exact .arg f d hf ((hm.arg hr hf).1.symm.trans hl) (by rw [← hm.now.kind]; exact hk)
  | sub e1 he1 _ hrec hk hsk ih =>
    obtain ⟨e, he, rfl⟩ := hm.now.mem he1
    obtain ⟨h1, h2⟩ := hm.now.place he
    rw [hm.now.kind, h2] at hk
    rw [h1] at ih
    rw [h2]
    rcases hm.now.each e he with h | ⟨_, _, _, _, ⟨_, ⟨f, hf, hat⟩ | ⟨_, h3⟩⟩⟩
    · rw [h] at hsk
      exact .sub e he ih hrec hk hsk
    · obtain ⟨dir, name, h4, h5, h6, h7⟩ := hat
      have hsl : endsInSlash f = false := by rw [h4.1]; exact endsInSlash_dir_name h5 h4.2.1
      refine .arg f _ hf ?_ hk
      rw [FS_lookup_locate h6 hsl, h7]
      rfl
    · exact .sub e he ih hrec hk h3

theorem Midway.treats_back (hm : Midway R o args fs depth slack level g fs1) (hr : Resumable R args fs depth slack level) {e : Entry}
    (he : e ∈ fs.entries) (h : fs1.Treats o args Hidden (g e)) : fs.Treats o args Hidden e := by
  rcases hm.now.each e he with h1 | h1
  · rw [h1] at h
    obtain ⟨hk, h⟩ := h
    rw [hm.now.kind] at hk
    refine ⟨hk, ?_⟩
    rcases h with ⟨f, hf, hat⟩ | ⟨h2, h3⟩
    · exact .inl ⟨f, hf, ((hm.arg hr hf).2 e).1 hat⟩
    · exact .inr ⟨hm.scans_back hr h2, h3⟩
  · exact h1.2.2.2.2

theorem Midway.renamed (hm : Midway R o args fs depth slack level g fs1) (hr : Resumable R args fs depth slack level) {e : Entry} {v : Bytes}
    (he : e ∈ fs.entries) (h : R (g e).name v) : R e.name v ∧ (g e = e ∨ v = (g e).name) := by
  rcases hm.now.each e he with h1 | ⟨_, _, h3, h4, _⟩
  · rw [h1] at h
    exact ⟨h, .inl h1⟩
  · have := hr.pass.one _ _ _ h (hr.pass.pass _ _ h3 h4)
    rw [this]
    exact ⟨h4, .inr rfl⟩

/-- The work goes on from there. -/
theorem Midway.trans (hm : Midway R o args fs depth slack level g fs1) (hr : Resumable R args fs depth slack level)
    (hm1 : Midway R o args fs1 depth slack level g1 fs2) : Midway R o args fs depth slack level (fun e => g1 (g e)) fs2 := by
  refine ⟨⟨?_, fun e he => ?_⟩, hm1.tree, fun x hx n => (hm1.finds x hx n).trans (hm.finds x hx n)⟩
  · rw [hm1.now.same, hm.now.same]
    simp only [List.map_map]
    rfl
  · have hge : g e ∈ fs1.entries := by rw [hm.now.same]; exact List.mem_map_of_mem he
    rcases hm1.now.each (g e) hge with h | ⟨h1, h2, h3, h4, h5⟩
    · simp only [h]
      exact hm.now.each e he
    · obtain ⟨p1, p2⟩ := hm.now.place he
      exact .inr ⟨h1.trans p1, h2.trans p2, hr.nul e he, (hm.renamed hr he h4).1, hm.treats_back hr he h5⟩

theorem Midway.refl (hr : Resumable R args fs depth slack level) : Midway R o args fs depth slack level (fun e => e) fs :=
  ⟨⟨by simp, fun _ _ => .inl rfl⟩, hr.tree, fun _ _ _ => rfl⟩

theorem Midway.partly (hm : Midway R o args fs depth slack level g fs1) : fs.PartlyCleaned R o args fs1 := by
  refine ⟨fun e => (g e).name, ?_, fun e he => ?_⟩
  · rw [hm.now.same]
    congr 1
    refine List.map_congr_left fun e he => ?_
    obtain ⟨h1, h2⟩ := hm.now.place he
    cases hg : g e with
    | mk a b c =>
      rw [hg] at h1 h2
      simp only at h1 h2
      simp only [hg, h1, h2]
  · rcases hm.now.each e he with h | h
    · exact .inl (by simp only [h])
    · exact .inr ⟨h.2.2.2.1, h.2.2.2.2⟩

/-- What is asked of the tree is still true. -/
theorem Midway.resumable (hm : Midway R o args fs depth slack level g fs1) (hr : Resumable R args fs depth slack level)
    (hnul : ∀ e ∈ fs.entries, ∀ v, R e.name v → NulFree v) : Resumable R args fs1 depth slack level := by
  refine ⟨hr.pass, ?_, by rw [hm.now.norm]; exact hr.exact, by rw [hm.now.denied]; exact hr.allowed, hm.tree,
    fun f hf => steady_same hm.now.sameBut (hr.steady f hf) hm.finds, fun f hf => by rw [(hm.arg hr hf).1]; exact hr.here f hf, ?_⟩
  · intro e1 he1
    obtain ⟨e, he, rfl⟩ := hm.now.mem he1
    rcases hm.now.each e he with h | h
    · rw [h]; exact hr.nul e he
    · exact hnul e he _ h.2.2.2.1
  · intro f hf e hat
    exact hr.clean f hf e (((hm.arg hr hf).2 e).1 hat)

theorem Midway.view (hm : Midway R o args fs depth slack level g fs1) (hr : Resumable R args fs depth slack level) {skip : Bytes → Prop}
    (hv : fs.StaysInView R skip) : fs1.StaysInView R skip := by
  intro e1 he1 hk v hR hs
  obtain ⟨e, he, rfl⟩ := hm.now.mem he1
  obtain ⟨h1, h2⟩ := hm.renamed hr he hR
  rcases h2 with h2 | h2
  · rw [h2] at hk ⊢
    exact hv e he (by rw [← hm.now.kind]; exact hk) v h1 hs
  · rw [← h2]; exact hs

/-- If there was room for the new names, there is. -/
theorem Midway.room (hm : Midway R o args fs depth slack level g fs1) (hr : Resumable R args fs depth slack level) (h : fs.Room R o args) :
    fs1.Room R o args := by
  have mem := fun {y : Entry} => hm.now.mem (y := y)
  refine ⟨fun y hy => hm.now.entryName h hy, ?_, ?_, ?_⟩
  · intro y hy ht v hv
    obtain ⟨e, he, rfl⟩ := mem hy
    exact h.proper e he (hm.treats_back hr he ht) v (hm.renamed hr he hv).1
  · intro y hy ht v hv hne y' hy' hd hnorm
    obtain ⟨e, he, rfl⟩ := mem hy
    obtain ⟨e', he', rfl⟩ := mem hy'
    obtain ⟨h1, h2⟩ := hm.renamed hr he hv
    have h2 : g e = e := h2.resolve_right hne
    have hte := hm.treats_back hr he ht
    rw [(hm.now.place he).1, (hm.now.place he').1] at hd
    rw [h2] at hne hnorm ⊢
    have hvn := hm.now.norm
    rw [hvn] at hnorm
    have he0 : e' = e := by
      rcases hm.now.each e' he' with h3 | ⟨_, _, _, h4, h5⟩
      · rw [h3] at hnorm
        exact (h.free e he hte v h1 hne e' he' hd hnorm).1
      · exact h.apart e he hte e' he' h5 hd v _ h1 h4 hnorm
    subst he0
    refine ⟨h2, ?_⟩
    rcases hm.now.each e' he' with h3 | ⟨_, _, _, h4, _⟩
    · rw [h3] at hnorm
      have := (h.free e' he' hte v h1 hne e' he' hd hnorm).2
      rw [hm.now.kind, hm.now.names]
      exact this
    · rw [h2] at h4
      exact absurd (hr.pass.one _ _ _ h1 h4) hne
  · intro y hy ht y' hy' ht' hd v v' hv hv' hnorm
    obtain ⟨e, he, rfl⟩ := mem hy
    obtain ⟨e', he', rfl⟩ := mem hy'
    rw [(hm.now.place he).1, (hm.now.place he').1] at hd
    rw [hm.now.norm, (hm.now.place he).1] at hnorm
    rw [h.apart e he (hm.treats_back hr he ht) e' he' (hm.treats_back hr he' ht') hd v v' (hm.renamed hr he hv).1 (hm.renamed hr he' hv').1 hnorm]

/-- No name is given twice. -/
theorem Resumable.once (hr : Resumable R args fs depth slack level) : fs.NamedOnce R o args :=
  ⟨List.Pairwise.imp_of_mem (fun ha _ _ => fun e h _ => hr.clean _ ha e h) (List.pairwise_of_forall fun _ _ => trivial),
    fun f hf e hat _ => hr.clean f hf e hat⟩

/-- The work that is left, and the work that is done, are all the work. -/
theorem Midway.cleaned (hm : Midway R o args fs depth slack level g fs1) (hr : Resumable R args fs depth slack level)
    (hv : fs.StaysInView R fun n => Hidden n ∨ n ∈ ws) (h : fs1.Cleaned R o args ws fs2) : fs.Cleaned R o args ws fs2 := by
  obtain ⟨new, rfl, h⟩ := h
  have mem : ∀ e ∈ fs.entries, g e ∈ fs1.entries := fun e he => by rw [hm.now.same]; exact List.mem_map_of_mem he
  have kept : ∀ e ∈ fs.entries, R e.name (g e).name → R e.name (new (g e)) := by
    intro e he hR
    rcases (h (g e) (mem e he)).2.2 with h1 | h1
    · rw [h1]; exact hR
    · exact (hm.renamed hr he h1).1
  refine ⟨fun e => new (g e), ?_, fun e he => ⟨fun ht => ?_, fun ht => ?_, ?_⟩⟩
  · rw [hm.now.same]
    simp only [List.map_map]
    congr 1
    refine List.map_congr_left fun e he => ?_
    obtain ⟨h1, h2⟩ := hm.now.place he
    simp only [Function.comp_apply, h1, h2]
  · rcases hm.now.each e he with h1 | h1
    · have := (h (g e) (mem e he)).1
      rw [h1] at this
      simp only [h1]
      refine this ?_
      obtain ⟨hk, ht⟩ := ht
      refine ⟨by rw [hm.now.kind]; exact hk, ?_⟩
      rcases ht with ⟨f, hf, hat⟩ | ⟨h2, h3⟩
      · exact .inl ⟨f, hf, ((hm.arg hr hf).2 e).2 hat⟩
      · exact .inr ⟨hm.scans hr hv h2, h3⟩
    · exact kept e he h1.2.2.2.1
  · rcases hm.now.each e he with h1 | h1
    · have := (h (g e) (mem e he)).2.1
      rw [h1] at this
      simp only [h1]
      exact this fun ht' => ht (hm.treats_back hr he (by rw [h1]; exact ht'))
    · exact absurd h1.2.2.2.2 ht
  · rcases hm.now.each e he with h1 | h1
    · have := (h (g e) (mem e he)).2.2
      rw [h1] at this
      simp only [h1]
      exact this
    · exact .inr (kept e he h1.2.2.2.1)

end

end Detox
