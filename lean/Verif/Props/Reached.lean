import Verif.Spec.Reached
import Verif.Props.Stopped

/-!
# C122: which names entries can have after a run, with any filters that make no slashes
-/

set_option autoImplicit false

namespace Detox
open Spec

theorem Spec.Reached.trans {S : Bytes → Bytes → Prop} {a b c : Bytes} (h1 : Reached S a b) (h2 : Reached S b c) : Reached S a c := by
  induction h2 with
  | here => exact h1
  | next _ _ _ hs ih => exact .next _ _ ih hs

theorem Spec.Reached.keeps {S : Bytes → Bytes → Prop} {Q : Bytes → Prop} (hQ : ∀ a b, Q a → S a b → Q b) {a b : Bytes} (h : Reached S a b) : Q a → Q b := by
  induction h with
  | here => exact id
  | next _ _ _ hs ih => exact fun ha => hQ _ _ (ih ha) hs

/-- A rename after all checks: the names are in the same directory, and the new one is made of the old one. -/
theorem checked_places {P : Platform} {o : Options} (hseq : NoNewSlash P o) {fs fs' : FS} {old new : Bytes} (hself : ∀ e ∈ fs.entries, e.ino ≠ e.dir)
    (hnul : NulFree old) (hc : CheckedRename P o fs old new) (h : fs.rename old new = some fs') :
    ∃ d n1 n2 e1 so, fs.locate old = some (d, n1) ∧ fs.locate new = some (d, n2) ∧ fs.find d n1 = some e1 ∧ NulFree n1 ∧ Makes P o n1 n2 ∧
      endsInSlash old = false ∧ endsInSlash new = false ∧ fs.lstat old = some so ∧ (∀ sn, fs.lstat new = some sn → so.nlink ≤ 1) ∧
      (fs' = { fs with entries := fs.entries.map (moveEntry e1 d n2) } ∨ fs' = fs) := by
  obtain ⟨d1, n1, d2, n2, e1, hl1, hl2, he1, hres⟩ := hc.result h
  obtain ⟨dir, name, cleaned, so, h1, hne, h2, h6, c1, h9⟩ := hc.exists_parts
  have hnn : NulFree name := fun h => hnul (by rw [h1.1]; exact List.mem_append_right _ h)
  have hcs := hseq name cleaned hnn h1.2.1 h6
  obtain ⟨o1, o2, o3, o4, o5, o6, o7⟩ := FS_locate_inv hl1
  obtain ⟨p1, p2, p3, p4, p5, p6, p7⟩ := FS_locate_inv hl2
  have hst := start_dir_name fs (dir := dir) h1.2.1 hcs
  have hn1 : n1 = name := fs_locate_last h1.2.2 hne h1.2.1 (by rw [← h1.1]; exact hl1)
  rw [h1.1, dirOf_dir_name fs h1.2.2 hne h1.2.1] at o3
  obtain ⟨g1, g2, g3⟩ := FS_find_some he1
  have hce : cleaned ≠ [] := by
    intro hce
    subst hce
    rw [List.append_nil] at h2
    subst h2
    rcases h1.2.2 with hd | ⟨d, hd⟩
    · exact p1 hd
    · have hsl : endsInSlash new = true := by rw [hd]; simp [endsInSlash]
      rw [List.append_nil] at hst
      have hlk : fs.lookup new = some d1 := by
        unfold FS.lookup
        rw [if_neg (by simp [p1, p2]), hsl, ← hst, o3]
        simp [o5]
      have hlo : fs.lookup old = some e1.ino := by
        have hend : endsInSlash old = false := by rw [h1.1]; exact endsInSlash_dir_name hne h1.2.1
        rw [FS_lookup_locate hl1 hend, he1]
        rfl
      obtain ⟨q1, q2, _⟩ := h9 _ (by unfold FS.lstat; rw [hlk]; rfl)
      have hso : so.dev = e1.ino.dev ∧ so.ino = e1.ino.num := by
        unfold FS.lstat at c1
        rw [hlo] at c1
        cases c1
        exact ⟨rfl, rfl⟩
      refine hself e1 g1 ?_
      rw [g2]
      have w1 : d1.dev = e1.ino.dev := Eq.trans q1 hso.1
      have w2 : d1.num = e1.ino.num := Eq.trans q2 hso.2
      cases hd1 : d1
      cases hi1 : e1.ino
      rw [hd1, hi1] at w1 w2
      cases w1
      cases w2
      rfl
  have hn2 : n2 = cleaned := fs_locate_last h1.2.2 hce hcs (by rw [← h2]; exact hl2)
  have hd2 : d2 = d1 := by
    rw [h2, dirOf_dir_name fs h1.2.2 hce hcs, ← hst, o3] at p3
    cases p3; rfl
  subst hn1 hn2 hd2
  refine ⟨d2, n1, n2, e1, so, hl1, hl2, he1, hnn, h6, by rw [h1.1]; exact endsInSlash_dir_name hne h1.2.1, by rw [h2]; exact endsInSlash_dir_name hce hcs, c1,
    fun sn hsn => (h9 sn hsn).2.2, ?_⟩
  rcases hres with ⟨_, _, hx⟩ | ⟨_, hx⟩ | ⟨_, _, _, _, hx⟩
  · exact .inl hx
  · exact .inl hx
  · exact .inr hx

/-- A rename after all checks. -/
theorem checked_reached {P : Platform} {o : Options} (hseq : NoNewSlash P o) {fs fs' : FS} {old new : Bytes} (hself : ∀ e ∈ fs.entries, e.ino ≠ e.dir)
    (hnul : NulFree old) (hc : CheckedRename P o fs old new) (h : fs.rename old new = some fs') :
    fs'.norm = fs.norm ∧ fs.NamesReached (Makes P o) fs' := by
  obtain ⟨d2, n1, n2, e1, _, _, _, he1, hnn, h6, _, _, _, _, hres⟩ := checked_places hseq hself hnul hc h
  obtain ⟨g1, g2, g3⟩ := FS_find_some he1
  have moved : fs.NamesReached (Makes P o) { fs with entries := fs.entries.map (moveEntry e1 d2 n2) } := by
    refine ⟨List.length_map _, fun k e hk => ?_⟩
    by_cases hx : e = e1
    · subst hx
      refine ⟨n2, ?_, .next _ _ .here ⟨n1, by rw [g2]; exact g3.symm, hnn, h6⟩⟩
      show (fs.entries.map (moveEntry e d2 n2))[k]? = _
      rw [List.getElem?_map, hk]
      simp [moveEntry, g2]
    · refine ⟨e.name, ?_, .here⟩
      show (fs.entries.map (moveEntry e1 d2 n2))[k]? = _
      rw [List.getElem?_map, hk]
      simp [moveEntry, hx]
  rcases hres with rfl | rfl
  · exact ⟨rfl, moved⟩
  · exact ⟨rfl, rfl, fun k e hk => ⟨e.name, hk, .here⟩⟩

theorem Spec.FS.NamesReached.refl (R : Bytes → Bytes → Prop) (fs : FS) : fs.NamesReached R fs := ⟨rfl, fun _ e hk => ⟨e.name, hk, .here⟩⟩

theorem Spec.FS.NamesReached.trans {R : Bytes → Bytes → Prop} {a b c : FS} (hn : b.norm = a.norm) (h1 : a.NamesReached R b) (h2 : b.NamesReached R c) :
    a.NamesReached R c := by
  refine ⟨h2.1.trans h1.1, fun k e hk => ?_⟩
  obtain ⟨n, k1, k2⟩ := h1.2 k e hk
  obtain ⟨n', k3, k4⟩ := h2.2 k _ k1
  refine ⟨n', k3, k2.trans ?_⟩
  have : b.MadeIn R e.dir = a.MadeIn R e.dir := by unfold FS.MadeIn; rw [hn]
  rw [← this]
  exact k4

theorem Spec.FS.NamesReached.mono {R S : Bytes → Bytes → Prop} (hRS : ∀ m v, (0 : Byte) ∉ m → R m v → S m v) {a b : FS} (h : a.NamesReached R b) : a.NamesReached S b := by
  refine ⟨h.1, fun k e hk => ?_⟩
  obtain ⟨n, k1, k2⟩ := h.2 k e hk
  refine ⟨n, k1, ?_⟩
  clear k1
  generalize e.dir = d at k2 ⊢
  generalize e.name = x at k2 ⊢
  induction k2 with
  | here => exact .here
  | next b c _ hs ih =>
    obtain ⟨m, m1, m2, m3⟩ := hs
    exact .next _ _ ih ⟨m, m1, m2, hRS _ _ m2 m3⟩

/-- The work of detox, as far as it has come. -/
theorem run_reached {P : Platform} {o : Options} (hseq : NoNewSlash P o) {args ws : List Bytes} {tr : List Event} {out : Outcome (Option Filelist)}
    (ht : Run P o args ws tr out) (hnul : ∀ old new ok, .rename old new ok ∈ tr → NulFree old) {fs fs' : FS} (hself : ∀ e ∈ fs.entries, e.ino ≠ e.dir)
    (hs : FS.Steps fs tr fs') : fs.NamesReached (Makes P o) fs' := by
  refine (run_closed ht (R := fun a b => (∀ e ∈ a.entries, e.ino ≠ e.dir) → (∀ e ∈ b.entries, e.ino ≠ e.dir) ∧ b.norm = a.norm ∧ a.NamesReached (Makes P o) b)
    (fun fs h => ⟨h, rfl, .refl _ _⟩) (fun a b c h1 h2 ha => ?_) ?_ hs hself).2.2
  · obtain ⟨k1, k2, k3⟩ := h1 ha
    obtain ⟨k4, k5, k6⟩ := h2 k1
    exact ⟨k4, k5.trans k2, k3.trans k2 k6⟩
  · intro a b old new hm hc h ha
    obtain ⟨k1, k2⟩ := checked_reached hseq ha (hnul old new true hm) hc h
    refine ⟨fun e he => ?_, k1, k2⟩
    obtain ⟨k, hk⟩ := List.mem_iff_getElem?.1 he
    have hlt : k < a.entries.length := by
      rw [← k2.1]
      exact (List.getElem?_eq_some_iff.1 hk).1
    obtain ⟨n, k3, _⟩ := k2.2 k a.entries[k] (List.getElem?_eq_getElem hlt)
    have := Option.some.inj (hk.symm.trans k3)
    rw [this]
    exact ha a.entries[k] (List.getElem_mem hlt)

section
variable {P : Platform} {I : Invocation} {fuel : Nat} {ss : List Setting} {ws : List Bytes} {files : Bytes → Option Bytes} {plain : Bool} {q : Sequence}
variable {tr : List Event} {out : Outcome Unit} {fs fs' : FS}

/-- **C122.** Any well-written configuration whose filters make no slashes, one that leaves alone what it has made or not; any run, at any moment, complaints or not, on
a file system nobody else changes: every entry is where it was, and its name is what the filters make of the name it had, applied any number of times. -/
theorem C122_names_are_reached (hP : P.Benign) (hr : Renames I ss ws) (hw : Written I ss files plain q) (h : Trace (detoxMain P I fuel) tr out)
    (hf : ∀ e ∈ tr, Faithful files e) (hslash : ∀ m v, NulFree m → (0x2F : Byte) ∉ m → FiltersSay P I.ctype I.datadir files q.filters m v → (0x2F : Byte) ∉ v)
    (hnul : ∀ old new ok, Event.rename old new ok ∈ tr → NulFree old) (hself : ∀ e ∈ fs.entries, e.ino ≠ e.dir) (hs : FS.Steps fs tr fs') :
    fs.NamesReached (FiltersSay P I.ctype I.datadir files q.filters) fs' := by
  rcases main_begins hr hw h hf with ⟨_, r1, r2, o1, o2, hrd, g1, g2⟩ | ⟨reads, t, o, l, ign, rfl, hh, _, hb, hl, ⟨ignored, hi⟩, htr⟩
  · have hq : ∀ e ∈ tr, Harmless e := by
      intro e he
      rw [hrd] at he
      rcases List.mem_append.1 he with he | he
      · exact (configFileLoad_harmless _ _).trace g1 e he
      · exact (reviewSequence_harmless _ _ _).trace g2 e he
    have := steps_harmless (t := []) hq (by rw [List.append_nil]; exact hs)
    cases this
    exact .refl _ _
  · obtain ⟨out', hrun, _⟩ := main_run hl hi htr
    exact (run_reached (fun n c h0 h1 h2 => hslash n c h0 h1 (hb.says hP hw h0 h2)) hrun (fun a b c hm => hnul a b c (by simp [hm])) hself
      (steps_harmless hh hs)).mono fun m v hm => hb.says hP hw hm

/-- **C122.** So whatever the filters keep is kept: where names written differently are different, an entry whose name has a property that the filters never take away
has a name with that property, whatever detox did, and however often. -/
theorem C122_what_filters_keep (hP : P.Benign) (hr : Renames I ss ws) (hw : Written I ss files plain q) (h : Trace (detoxMain P I fuel) tr out)
    (hf : ∀ e ∈ tr, Faithful files e) (hslash : ∀ m v, NulFree m → (0x2F : Byte) ∉ m → FiltersSay P I.ctype I.datadir files q.filters m v → (0x2F : Byte) ∉ v)
    (hnul : ∀ old new ok, Event.rename old new ok ∈ tr → NulFree old) (hself : ∀ e ∈ fs.entries, e.ino ≠ e.dir)
    (hexact : ∀ d a b, fs.norm d a = fs.norm d b → a = b) (hs : FS.Steps fs tr fs')
    {Q : Bytes → Prop} (hQ : ∀ m v, NulFree m → Q m → FiltersSay P I.ctype I.datadir files q.filters m v → Q v) :
    ∀ (k : Nat) (e : Entry), fs.entries[k]? = some e → Q e.name → ∃ n, fs'.entries[k]? = some { e with name := n } ∧ Q n := by
  intro k e hk hq
  obtain ⟨n, k1, k2⟩ := (C122_names_are_reached hP hr hw h hf hslash hnul hself hs).2 k e hk
  refine ⟨n, k1, k2.keeps (fun a b ha ⟨m, m1, m2, m3⟩ => ?_) hq⟩
  rw [hexact _ _ _ m1] at m2 m3
  exact hQ a b m2 ha m3

/-- **C122.** And a new name has every property that the filters always bring about: an entry has the name it had, or one the filters make. -/
theorem C122_what_filters_bring_about (hP : P.Benign) (hr : Renames I ss ws) (hw : Written I ss files plain q) (h : Trace (detoxMain P I fuel) tr out)
    (hf : ∀ e ∈ tr, Faithful files e) (hslash : ∀ m v, NulFree m → (0x2F : Byte) ∉ m → FiltersSay P I.ctype I.datadir files q.filters m v → (0x2F : Byte) ∉ v)
    (hnul : ∀ old new ok, Event.rename old new ok ∈ tr → NulFree old) (hself : ∀ e ∈ fs.entries, e.ino ≠ e.dir) (hs : FS.Steps fs tr fs')
    {Q : Bytes → Prop} (hQ : ∀ m v, NulFree m → FiltersSay P I.ctype I.datadir files q.filters m v → Q v) :
    ∀ (k : Nat) (e : Entry), fs.entries[k]? = some e → ∃ n, fs'.entries[k]? = some { e with name := n } ∧ (n = e.name ∨ Q n) := by
  intro k e hk
  obtain ⟨n, k1, k2⟩ := (C122_names_are_reached hP hr hw h hf hslash hnul hself hs).2 k e hk
  refine ⟨n, k1, ?_⟩
  cases k2 with
  | here => exact .inl rfl
  | next b _ _ hs =>
    obtain ⟨m, _, m2, m3⟩ := hs
    exact .inr (hQ m n m2 m3)

/-- **C122.** `detox -r DIR`, with filters that leave alone what they have made or not: if there are no complaints, every name in the tree below `DIR` is hidden, or
to be ignored, or that of a special file (without `--special`), or it has every property that the filters always bring about. -/
theorem C122_silent_tree (hP : P.Benign) {f : Bytes} (hr : Renames I ss (f :: ws)) (hrec : Setting.recurse ∈ ss) (hd : Setting.dryRun ∉ ss)
    (hw : Written I ss files plain q) {ig : List Bytes} (hig : IgnoredAre I.config (lastConfig ss) files ig) (h : Trace (detoxMain P I fuel) tr (.ret ()))
    (hf : ∀ e ∈ tr, Faithful files e) (hs : Silent tr)
    (hslash : ∀ m v, NulFree m → (0x2F : Byte) ∉ m → FiltersSay P I.ctype I.datadir files q.filters m v → (0x2F : Byte) ∉ v)
    {depth : Ino → Nat} {slack level : Nat} {w : World} (hnul : ∀ g ∈ f :: ws, NulFree g) (ht : fs.Tree depth slack)
    (hst : ∀ g ∈ f :: ws, fs.Steady depth slack level g) (hsteps : World.Steps (World.start fs) tr w) (ha : ∀ p r, Event.lstat p r ∈ tr → fs.denied p = false)
    {top : Ino} (hl : fs.lookup f = some top) (hk : fs.kind top = .dir)
    {Q : Bytes → Prop} (hQ : ∀ m v, NulFree m → FiltersSay P I.ctype I.datadir files q.filters m v → Q v)
    (e : Entry) (he : e ∈ w.fs.entries) (hbe : ScanBelow ig w top e.dir) :
    Hidden e.name ∨ e.name ∈ ig ∨ (w.fs.kind e.ino ≠ .dir ∧ w.fs.kind e.ino ≠ .reg ∧ Setting.special ∉ ss) ∨ Q e.name := by
  obtain ⟨reads, t, o, a, rfl, hh, hb, hrun⟩ := configured_parts hr hw hig h hf
  obtain ⟨_, hsteps'⟩ := steps_slurps hh hsteps
  have hdry : o.dryRun = false := by
    cases hx : o.dryRun with
    | false => rfl
    | true => exact absurd (hb.asked.2.1.1 hx) hd
  have hC : CompleteRun P o (f :: ws) fs depth slack level t w :=
    ⟨hdry, fun n c h0 h1 h2 => hslash n c h0 h1 (hb.says hP hw h0 h2), hnul, ht, hst, hsteps', fun p r hm => ha p r (List.mem_append_right _ hm)⟩
  rcases C86_silent_first_argument hC hrun (hb.asked.2.2.1.2 hrec) (fun s hm => hs s (List.mem_append_right _ hm)) top hl hk e he hbe with (h1 | h1 | ⟨h1, h2, h3⟩) | ⟨m, _, _, h0, h1⟩
  · exact .inl h1
  · exact .inr (.inl h1)
  · refine .inr (.inr (.inl ⟨h1, h2, fun h4 => ?_⟩))
    rw [hb.asked.2.2.2.1.2 h4] at h3
    cases h3
  · exact .inr (.inr (.inr (hQ m _ h0 (hb.says hP hw h0 h1))))

end

/-! ### A concrete case: a table that makes `b` of `a` and `a` of `b`, and a directory that is read while its entries are renamed -/

/- The hypotheses are met; `a` is what two applications make of `a`. Those of `C122_silent_tree` (silence, `Tree`, `Steady`, `World.Steps`, nothing to be
ignored) are met by the same run: `C117_unsettled_tree`, and `swapFS.denied` is false throughout. -/
example (p : Bytes) : swapFS.denied p = false ∧ swapFS.lookup (lit "d") = some ⟨1, 2⟩ ∧ swapFS.kind ⟨1, 2⟩ = .dir := ⟨rfl, by decide +kernel, by decide +kernel⟩

example : Platform.linux.Benign ∧ Renames swapCall [.config (lit "rc"), .recurse] [lit "d"] ∧
    Written swapCall [.config (lit "rc"), .recurse] swapFiles false swapSequence ∧ Trace (detoxMain .linux swapCall 10) swapTrace (.ret ()) ∧
    (∀ e ∈ swapTrace, Faithful swapFiles e) ∧
    (∀ m v, NulFree m → (0x2F : Byte) ∉ m → FiltersSay .linux swapCall.ctype swapCall.datadir swapFiles swapSequence.filters m v → (0x2F : Byte) ∉ v) ∧
    (∀ old new ok, Event.rename old new ok ∈ swapTrace → NulFree old) ∧ (∀ e ∈ swapFS.entries, e.ino ≠ e.dir) ∧
    (∀ d a b, swapFS.norm d a = swapFS.norm d b → a = b) ∧ ∃ fs', FS.Steps swapFS swapTrace fs' ∧ fs'.entries.map Entry.name = [lit "d", lit "a"] ∧
      Event.rename (lit "d/a") (lit "d/b") true ∈ swapTrace ∧ Event.rename (lit "d/b") (lit "d/a") true ∈ swapTrace := by
  obtain ⟨h1, h2, _, h4, h5, _⟩ := C117_unsettled_tree
  refine ⟨by decide, h1, h2, h4, h5, ?_, ?_, by decide +kernel, fun _ _ _ h => h, ?_⟩
  · intro m v _ hs hsay
    have hb : ∀ c : Byte, c ≠ 0x2F → (0x2F : Byte) ∉ (TableText.mk (lastOf [(0x61, lit "b"), (0x62, lit "a")]) none).says (safeCode .linux c) [c] := by
      refine forall_byte ?_
      decide +kernel
    rw [swap_says .linux _ hsay]
    intro hm
    obtain ⟨c, hc, hx⟩ := List.mem_flatMap.1 hm
    exact hb c (fun h => hs (h ▸ hc)) hx
  · intro old new ok hm
    have : old = lit "d/a" ∨ old = lit "d/b" := by
      simp only [swapTrace, List.mem_cons, Event.rename.injEq, reduceCtorEq, false_or, List.not_mem_nil, or_false] at hm
      rcases hm with ⟨h, _⟩ | ⟨h, _⟩
      · exact .inl h
      · exact .inr h
    rcases this with rfl | rfl <;> decide +kernel
  · have h : (swapFS.exec swapTrace).map (fun fs => fs.entries.map Entry.name) = some [lit "d", lit "a"] := by decide +kernel
    cases hx : swapFS.exec swapTrace with
    | none => rw [hx] at h; cases h
    | some fs' =>
      rw [hx] at h
      exact ⟨fs', FS_exec_sound _ hx, Option.some.inj h, by decide +kernel, by decide +kernel⟩

end Detox
