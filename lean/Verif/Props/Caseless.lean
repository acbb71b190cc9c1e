import Verif.Spec.Caseless
import Verif.Props.Reached
import Verif.Props.Ends

/-!
# C124: file systems on which upper and lower case are the same
-/

set_option autoImplicit false

namespace Detox
open Spec

theorem Spec.FS.Rewritten.refl (fs : FS) : fs.Rewritten fs := ⟨rfl, fun _ e hk => ⟨e.name, hk, rfl, .inl rfl⟩⟩

theorem Spec.FS.Rewritten.trans {a b c : FS} (hn : b.norm = a.norm) (hl : ∀ i, b.linkCount i = a.linkCount i) (h1 : a.Rewritten b) (h2 : b.Rewritten c) :
    a.Rewritten c := by
  refine ⟨h2.1.trans h1.1, fun k e hk => ?_⟩
  obtain ⟨n, k1, k2, k3⟩ := h1.2 k e hk
  obtain ⟨n', k4, k5, k6⟩ := h2.2 k _ k1
  rw [hn] at k5
  rw [hl] at k6
  refine ⟨n', k4, k5.trans k2, ?_⟩
  rcases k6 with k6 | k6
  · rcases k3 with k3 | k3
    · exact .inl (k6.trans k3)
    · exact .inr k3
  · exact .inr k6

theorem FS_lstat_links {fs : FS} {p : Bytes} {i : Ino} {s : Stat} (hl : fs.lookup p = some i) (h : fs.lstat p = some s) : s.nlink = fs.linkCount i := by
  unfold FS.lstat at h
  rw [hl] at h
  cases h
  rfl

theorem names_moved (l : List Entry) (e : Entry) (d : Ino) (n : Bytes) (i : Ino) :
    ((l.map (moveEntry e d n)).filter fun x => x.ino = i).length = (l.filter fun x => x.ino = i).length := by
  induction l with
  | nil => rfl
  | cons x l ih =>
    have : (moveEntry e d n x).ino = x.ino := by
      unfold moveEntry
      split
      · next h => rw [h]
      · rfl
    simp only [List.map_cons, List.filter_cons, this]
    split <;> simp [ih]

/-- A rename after all checks, to a name that the directory takes for the old one. -/
theorem checked_rewritten {P : Platform} {o : Options} (hseq : NoNewSlash P o) {fs fs' : FS} {old new : Bytes} (hself : ∀ e ∈ fs.entries, e.ino ≠ e.dir)
    (hsame : ∀ d m v, NulFree m → Makes P o m v → fs.norm d v = fs.norm d m)
    (hnul : NulFree old) (hc : CheckedRename P o fs old new) (h : fs.rename old new = some fs') :
    fs'.norm = fs.norm ∧ (∀ i, fs'.linkCount i = fs.linkCount i) ∧ fs.Rewritten fs' := by
  obtain ⟨d, n1, n2, e1, so, l1, l2, he1, hnn, hm, s1, s2, c1, c2, hres⟩ := checked_places hseq hself hnul hc h
  obtain ⟨g1, g2, g3⟩ := FS_find_some he1
  have hn := hsame d n1 n2 hnn hm
  have hf2 : fs.find d n2 = some e1 := by
    rw [← he1]
    unfold FS.find
    rw [hn]
  have lo : fs.lookup old = some e1.ino := by rw [FS_lookup_locate l1 s1, he1]; rfl
  have ln : fs.lookup new = some e1.ino := by rw [FS_lookup_locate l2 s2, hf2]; rfl
  have hlinks : fs.linkCount e1.ino ≤ 1 := by
    rw [← FS_lstat_links lo c1]
    exact c2 _ (by unfold FS.lstat; rw [ln]; rfl)
  rcases hres with rfl | rfl
  · refine ⟨rfl, fun i => ?_, List.length_map _, fun k e hk => ?_⟩
    · simp only [FS.linkCount, FS.names, names_moved]
    · by_cases hx : e = e1
      · subst hx
        refine ⟨n2, ?_, by rw [g2, hn, g3], .inr hlinks⟩
        show (fs.entries.map (moveEntry e d n2))[k]? = _
        rw [List.getElem?_map, hk]
        simp [moveEntry, g2]
      · refine ⟨e.name, ?_, rfl, .inl rfl⟩
        show (fs.entries.map (moveEntry e1 d n2))[k]? = _
        rw [List.getElem?_map, hk]
        simp [moveEntry, hx]
  · exact ⟨rfl, fun _ => rfl, .refl _⟩

/-- The work of detox, as far as it has come. -/
theorem run_rewritten {P : Platform} {o : Options} (hseq : NoNewSlash P o) {args ws : List Bytes} {tr : List Event} {out : Outcome (Option Filelist)}
    (ht : Run P o args ws tr out) (hnul : ∀ old new ok, .rename old new ok ∈ tr → NulFree old) {fs fs' : FS} (hself : ∀ e ∈ fs.entries, e.ino ≠ e.dir)
    (hsame : ∀ d m v, NulFree m → Makes P o m v → fs.norm d v = fs.norm d m) (hs : FS.Steps fs tr fs') : fs.Rewritten fs' := by
  refine (run_closed ht (R := fun a b => (∀ e ∈ a.entries, e.ino ≠ e.dir) → (∀ d m v, NulFree m → Makes P o m v → a.norm d v = a.norm d m) →
      (∀ e ∈ b.entries, e.ino ≠ e.dir) ∧ b.norm = a.norm ∧ (∀ i, b.linkCount i = a.linkCount i) ∧ a.Rewritten b)
    (fun fs h _ => ⟨h, rfl, fun _ => rfl, .refl _⟩) (fun a b c h1 h2 ha hm => ?_) ?_ hs hself hsame).2.2.2
  · obtain ⟨k1, k2, k3, k4⟩ := h1 ha hm
    obtain ⟨k5, k6, k7, k8⟩ := h2 k1 (by rw [k2]; exact hm)
    exact ⟨k5, k6.trans k2, fun i => (k7 i).trans (k3 i), k4.trans k2 k3 k8⟩
  · intro a b old new hm hc h ha hn
    obtain ⟨k1, k2, k3⟩ := checked_rewritten hseq ha hn (hnul old new true hm) hc h
    refine ⟨fun e he => ?_, k1, k2, k3⟩
    obtain ⟨k, hk⟩ := List.mem_iff_getElem?.1 he
    have hlt : k < a.entries.length := by
      rw [← k3.1]
      exact (List.getElem?_eq_some_iff.1 hk).1
    obtain ⟨n, k4, _⟩ := k3.2 k a.entries[k] (List.getElem?_eq_getElem hlt)
    have := Option.some.inj (hk.symm.trans k4)
    rw [this]
    exact ha a.entries[k] (List.getElem_mem hlt)

section
variable {P : Platform} {I : Invocation} {fuel : Nat} {ss : List Setting} {ws : List Bytes} {files : Bytes → Option Bytes} {plain : Bool} {q : Sequence}
variable {tr : List Event} {out : Outcome Unit} {fs fs' : FS}

/-- **C124.** Any well-written configuration whose new names the file system takes for the old ones (and whose filters make no slashes); any run, at any moment: every
entry is where it was, and only objects with a single link have a name that is written differently. A directory for which `lstat` reports two links or more, as most
file systems do, keeps its name; so does a file with several names. -/
theorem C124_one_link_only (hP : P.Benign) (hr : Renames I ss ws) (hw : Written I ss files plain q) (h : Trace (detoxMain P I fuel) tr out)
    (hf : ∀ e ∈ tr, Faithful files e) (hslash : ∀ m v, NulFree m → (0x2F : Byte) ∉ m → FiltersSay P I.ctype I.datadir files q.filters m v → (0x2F : Byte) ∉ v)
    (hsame : ∀ d m v, NulFree m → FiltersSay P I.ctype I.datadir files q.filters m v → fs.norm d v = fs.norm d m)
    (hnul : ∀ old new ok, Event.rename old new ok ∈ tr → NulFree old) (hself : ∀ e ∈ fs.entries, e.ino ≠ e.dir) (hs : FS.Steps fs tr fs') :
    fs.Rewritten fs' := by
  rcases main_begins hr hw h hf with ⟨_, r1, r2, o1, o2, hrd, g1, g2⟩ | ⟨reads, t, o, l, ign, rfl, hh, _, hb, hl, ⟨ignored, hi⟩, htr⟩
  · have hq : ∀ e ∈ tr, Harmless e := by
      intro e he
      rw [hrd] at he
      rcases List.mem_append.1 he with he | he
      · exact (configFileLoad_harmless _ _).trace g1 e he
      · exact (reviewSequence_harmless _ _ _).trace g2 e he
    have := steps_harmless (t := []) hq (by rw [List.append_nil]; exact hs)
    cases this
    exact .refl _
  · obtain ⟨out', hrun, _⟩ := main_run hl hi htr
    exact run_rewritten (fun n c h0 h1 h2 => hslash n c h0 h1 (hb.says hP hw h0 h2)) hrun (fun a b c hm => hnul a b c (by simp [hm])) hself
      (fun d m v h0 h1 => hsame d m v h0 (hb.says hP hw h0 h1)) (steps_harmless hh hs)

theorem small_small : ∀ c : Byte, small (small c) = small c := forall_byte (by decide +kernel)

theorem small_slash : ∀ c : Byte, small c = 0x2F → c = 0x2F := forall_byte (by decide +kernel)

/-- What `lower` filters make is the same name, but for the case. -/
theorem lower_filters_say {locale : Bytes} {datadir : Option Bytes} {fl : List Filter} (hl : ∀ f ∈ fl, f.cleaner = .lower) {m v : Bytes}
    (h : FiltersSay P locale datadir files fl m v) : v.map small = m.map small ∧ ((0x2F : Byte) ∉ m → (0x2F : Byte) ∉ v) := by
  induction h with
  | nil => exact ⟨rfl, id⟩
  | cons f fs s mid out h1 h2 ih =>
    have hc := hl f (.head _)
    obtain ⟨i1, i2⟩ := ih fun g hg => hl g (.tail _ hg)
    have hm : mid = s.map small := by
      cases h1 <;> simp_all
    subst hm
    refine ⟨i1.trans ?_, fun hs => i2 fun hx => ?_⟩
    · rw [List.map_map]
      exact List.map_congr_left fun c _ => small_small c
    · obtain ⟨c, hc, hc'⟩ := List.mem_map.1 hx
      exact hs (small_slash c hc' ▸ hc)

/-- **C124.** Where the case of letters does not matter, a sequence of `lower` filters leaves every directory with two links or more as it is, whatever the command
line; entries have the names they had, but for the case. -/
theorem C124_lower_keeps_directories (hP : P.Benign) (hr : Renames I ss ws) (hw : Written I ss files plain q) (h : Trace (detoxMain P I fuel) tr out)
    (hf : ∀ e ∈ tr, Faithful files e) (hl : ∀ f ∈ q.filters, f.cleaner = .lower) (hi : fs.IgnoresCase)
    (hnul : ∀ old new ok, Event.rename old new ok ∈ tr → NulFree old) (hself : ∀ e ∈ fs.entries, e.ino ≠ e.dir)
    (hd : ∀ i, fs.kind i = .dir → 2 ≤ fs.dirLinks i) (hs : FS.Steps fs tr fs') :
    fs.Rewritten fs' ∧ ∀ (k : Nat) (e : Entry), fs.entries[k]? = some e → fs.kind e.ino = .dir → fs'.entries[k]? = some e := by
  have hR := C124_one_link_only hP hr hw h hf (fun m v _ hm hv => (lower_filters_say hl hv).2 hm) (fun d m v _ hv => hi d v m (lower_filters_say hl hv).1) hnul hself hs
  refine ⟨hR, fun k e hk hdir => ?_⟩
  obtain ⟨n, h1, _, h3⟩ := hR.2 k e hk
  rcases h3 with h3 | h3
  · rw [h1, h3]
  · have := hd _ hdir
    simp only [FS.linkCount, hdir, if_true] at h3
    omega

end

/-- **C124.** One file, whose new name leads to itself: it is refused, with the message that the new name exists, if it has two links or more, and otherwise the rename
is tried. -/
theorem C124_own_name {P : Platform} {o : Options} {f dir name w a : Bytes} {tr : List Event} (ht : Trace (parseFile P o f) tr (.ret a)) {fs fs' : FS}
    (hs : FS.Steps fs tr fs') (hd : o.dryRun = false) (hp : SplitsAs f dir name) (hn : name ≠ []) {d : Ino} {e : Entry}
    (hl : fs.locate f = some (d, name)) (he : fs.find d name = some e)
    (hm : Makes P o name w) (hw : w ≠ name) (hw2 : w ≠ [] ∧ w ≠ lit "." ∧ w ≠ lit "..") (hws : (0x2F : Byte) ∉ w) (ha : fs.denied (dir ++ w) = false)
    (hnorm : fs.norm d w = fs.norm d name) :
    (2 ≤ fs.linkCount e.ino → a = f ∧ fs' = fs ∧ ∃ s, tr = [.lstat f (some s), .lstat (dir ++ w) (some s),
      .err (lit "Cannot rename " ++ f ++ lit " to " ++ (dir ++ w) ++ lit ": file already exists\n")]) ∧
    (fs.linkCount e.ino ≤ 1 → ∃ ok, Event.rename f (dir ++ w) ok ∈ tr) := by
  have l2 := locate_sibling hn hp hl hw2 hws ha
  have s1 : endsInSlash f = false := by rw [hp.1]; exact endsInSlash_dir_name hn hp.2.1
  have s2 : endsInSlash (dir ++ w) = false := endsInSlash_dir_name hw2.1 hws
  have he2 : fs.find d w = some e := by
    rw [← he]
    unfold FS.find
    rw [hnorm]
  have lo : fs.lookup f = some e.ino := by rw [FS_lookup_locate hl s1, he]; rfl
  have ln : fs.lookup (dir ++ w) = some e.ino := by rw [FS_lookup_locate l2 s2, he2]; rfl
  have hst : ∀ p, fs.lookup p = some e.ino → fs.lstat p = some { dev := e.ino.dev, ino := e.ino.num, kind := fs.kind e.ino, nlink := fs.linkCount e.ino } := by
    intro p hp
    unfold FS.lstat
    rw [hp]
    rfl
  have hlo := hst f lo
  have hln := hst (dir ++ w) ln
  have uniq : ∀ {dir' name' : Bytes}, SplitsAs f dir' name' → dir' = dir ∧ name' = name := fun h =>
    ⟨(splitsAs_unique h).1.trans (splitsAs_unique hp).1.symm, (splitsAs_unique h).2.trans (splitsAs_unique hp).2.symm⟩
  have same : ∀ {dir' name' w' : Bytes}, SplitsAs f dir' name' → Makes P o name' w' → dir' = dir ∧ name' = name ∧ w' = w := by
    intro dir' name' w' h1 h2
    obtain ⟨rfl, rfl⟩ := uniq h1
    have h3 := hm.symm.trans h2
    cases h3
    exact ⟨rfl, rfl, rfl⟩
  have hne : name ≠ lit "." ∧ name ≠ lit ".." := by
    obtain ⟨_, _, _, _, _, h6, h7⟩ := FS_locate_inv hl
    exact ⟨h6, h7⟩
  have two : ∀ {r1 r2 : Option Stat} {t : List Event}, FS.Steps fs (.lstat f r1 :: .lstat (dir ++ w) r2 :: t) fs' →
      r1 = fs.lstat f ∧ r2 = fs.lstat (dir ++ w) ∧ FS.Steps fs t fs' := by
    intro r1 r2 t h
    cases h with
    | cons _ _ _ _ _ h1 h2 =>
      cases h1 with
      | lstat _ _ h1 =>
        cases h2 with
        | cons _ _ _ _ _ h3 h4 =>
          cases h3 with
          | lstat _ _ h3 => exact ⟨h1.symm, h3.symm, h4⟩
  cases C56_parse_file_exactly P o f tr a ht with
  | clean dir' name' h1 h2 =>
    obtain ⟨rfl, rfl⟩ := uniq h1
    rcases h2 with h2 | h2 | h2
    · exact absurd h2 hne.1
    · exact absurd h2 hne.2
    · have h3 := hm.symm.trans h2
      cases h3
      exact absurd rfl hw
  | gone dir' name' w' h1 _ _ h2 _ =>
    cases hs with
    | cons _ _ _ _ _ g1 g2 =>
      cases g1 with
      | lstat _ _ g1 => rw [hlo] at g1; cases g1
  | refused dir' name' w' so sn h1 _ _ h2 _ h3 =>
    obtain ⟨rfl, rfl, rfl⟩ := same h1 h2
    obtain ⟨t1, t2, t3⟩ := two hs
    rw [hlo] at t1
    rw [hln] at t2
    cases t1
    cases t2
    refine ⟨fun _ => ⟨rfl, ?_, _, rfl⟩, fun hx => absurd ⟨rfl, rfl, hx⟩ h3⟩
    cases t3 with
    | cons _ _ _ _ _ g1 g2 =>
      cases g1
      cases g2
      rfl
  | dry _ _ _ _ _ _ _ _ _ _ _ h4 => rw [hd] at h4; cases h4
  | renamed dir' name' w' so rn h1 _ _ h2 _ h3 _ =>
    obtain ⟨rfl, rfl, rfl⟩ := same h1 h2
    obtain ⟨t1, t2, t3⟩ := two hs
    rw [hlo] at t1
    rw [hln] at t2
    cases t1
    refine ⟨fun hx => ?_, fun _ => ⟨true, by simp⟩⟩
    have := (h3 _ t2).2.2
    simp only at this
    omega
  | failed dir' name' w' so rn h1 _ _ h2 _ h3 _ =>
    obtain ⟨rfl, rfl, rfl⟩ := same h1 h2
    obtain ⟨t1, t2, t3⟩ := two hs
    rw [hlo] at t1
    rw [hln] at t2
    cases t1
    refine ⟨fun hx => ?_, fun _ => ⟨false, by simp⟩⟩
    have := (h3 _ t2).2.2
    simp only at this
    omega

/-! ### A concrete case: `DETOX_SEQUENCE=lower-only detox -r Docs`, in directories that ignore the case -/

/-- `Docs` has a file `README`. -/
def docsFS : FS where
  entries := [⟨⟨1, 1⟩, lit "Docs", ⟨1, 2⟩⟩, ⟨⟨1, 2⟩, lit "README", ⟨1, 3⟩⟩]
  root := ⟨1, 1⟩
  cwd := ⟨1, 1⟩
  kind := fun i => if i = ⟨1, 1⟩ ∨ i = ⟨1, 2⟩ then .dir else .reg
  target := fun _ => []
  dirLinks := fun _ => 2
  parent := fun _ => ⟨1, 1⟩
  norm := fun _ n => n.map small
  denied := fun _ => false

def docsCall : Invocation := { program := lit "detox", args := [lit "-r", lit "Docs"], sequence := some (lit "lower-only") }

def docsTrace : List Event :=
  nothingInstalled ++ [
  .lstat (lit "Docs") (some ⟨1, 2, 2, .dir⟩), .lstat (lit "Docs") (some ⟨1, 2, 2, .dir⟩), .lstat (lit "docs") (some ⟨1, 2, 2, .dir⟩),
  .err (lit "Cannot rename Docs to docs: file already exists\n"), .lstat (lit "Docs") (some ⟨1, 2, 2, .dir⟩), .opendir (lit "Docs") (.ok 0),
  .readdir 0 (some (lit "README")), .lstat (lit "Docs/README") (some ⟨1, 3, 1, .reg⟩), .lstat (lit "Docs/README") (some ⟨1, 3, 1, .reg⟩),
  .lstat (lit "Docs/readme") (some ⟨1, 3, 1, .reg⟩), .rename (lit "Docs/README") (lit "Docs/readme") true, .readdir 0 none, .closedir 0]

/-- **C124.** (Finding.) The hypotheses are met. The file gets its name in small letters; the directory does not, because its new name "already exists": it is its
own. -/
theorem C124_directory_in_its_own_way :
    Platform.linux.Benign ∧ Renames docsCall [.recurse] [lit "Docs"] ∧
    Written docsCall [.recurse] (fun _ => none) false (generateSequence (lit "lower-only") [generateFilter .lower]) ∧
    (∀ f ∈ (generateSequence (lit "lower-only") [generateFilter .lower]).filters, f.cleaner = .lower) ∧
    Trace (detoxMain .linux docsCall 10) docsTrace (.ret ()) ∧ (∀ e ∈ docsTrace, Faithful (fun _ => none) e) ∧ docsFS.IgnoresCase ∧
    (∀ old new ok, Event.rename old new ok ∈ docsTrace → NulFree old) ∧ (∀ e ∈ docsFS.entries, e.ino ≠ e.dir) ∧
    (∀ i, docsFS.kind i = .dir → 2 ≤ docsFS.dirLinks i) ∧
    (∃ fs', FS.Steps docsFS docsTrace fs' ∧ fs'.entries.map Entry.name = [lit "Docs", lit "readme"]) ∧
    Event.err (lit "Cannot rename Docs to docs: file already exists\n") ∈ docsTrace ∧ docsFS.lookup (lit "docs") = docsFS.lookup (lit "Docs") := by
  refine ⟨by decide, ?_, C97_builtin_written rfl (by decide +kernel) ⟨spoofSequences.take 10, _, rfl, rfl, by decide +kernel⟩ (.inr (by decide +kernel)),
    by decide +kernel, Prog.result_sound _ _ _ (by decide +kernel), ?_, fun _ _ _ h => h, ?_, by decide +kernel, fun _ _ => Nat.le_refl _, ?_, by decide +kernel,
    by decide +kernel⟩
  · exact ⟨.cluster [0x72] [.recurse] _ _ [] (by simp) (.cons _ _ _ _ .recurse .nil) (.operand _ _ _ _ rfl (.inl (by decide +kernel)) .none),
      by simp [Setting.Leaves], by simp, by
        rintro (h | h)
        · rw [← posixBasename_inline] at h
          exact absurd h (by decide +kernel)
        · simp at h, by simp⟩
  · intro e he p r hpr
    subst hpr
    simp [docsTrace, nothingInstalled] at he
    rcases he with h | h <;> simp [h]
  · intro old new ok hm
    simp [docsTrace, nothingInstalled] at hm
    rw [hm.1]
    decide +kernel
  · have h : (docsFS.exec docsTrace).map (fun fs => fs.entries.map Entry.name) = some [lit "Docs", lit "readme"] := by decide +kernel
    cases hx : docsFS.exec docsTrace with
    | none => rw [hx] at h; cases h
    | some fs' =>
      rw [hx] at h
      exact ⟨fs', FS_exec_sound _ hx, Option.some.inj h⟩

/- `C124_own_name` for both of them. -/
example : let o : Options := { sequenceToUse := some (generateSequence (lit "lower-only") [generateFilter .lower]) }
    Trace (parseFile .linux o (lit "Docs")) [.lstat (lit "Docs") (some ⟨1, 2, 2, .dir⟩), .lstat (lit "docs") (some ⟨1, 2, 2, .dir⟩),
      .err (lit "Cannot rename Docs to docs: file already exists\n")] (.ret (lit "Docs")) ∧
    SplitsAs (lit "Docs") [] (lit "Docs") ∧ docsFS.locate (lit "Docs") = some (⟨1, 1⟩, lit "Docs") ∧
    docsFS.find ⟨1, 1⟩ (lit "Docs") = some ⟨⟨1, 1⟩, lit "Docs", ⟨1, 2⟩⟩ ∧ Makes .linux o (lit "Docs") (lit "docs") ∧ docsFS.linkCount ⟨1, 2⟩ = 2 :=
  ⟨Prog.result_sound _ _ _ (by decide +kernel), ⟨rfl, by decide +kernel, .inl rfl⟩, by decide +kernel, by decide +kernel, by decide +kernel, by decide +kernel⟩

example : let o : Options := { sequenceToUse := some (generateSequence (lit "lower-only") [generateFilter .lower]) }
    Trace (parseFile .linux o (lit "Docs/README")) [.lstat (lit "Docs/README") (some ⟨1, 3, 1, .reg⟩), .lstat (lit "Docs/readme") (some ⟨1, 3, 1, .reg⟩),
      .rename (lit "Docs/README") (lit "Docs/readme") true] (.ret (lit "Docs/readme")) ∧
    SplitsAs (lit "Docs/README") (lit "Docs/") (lit "README") ∧ docsFS.locate (lit "Docs/README") = some (⟨1, 2⟩, lit "README") ∧
    docsFS.find ⟨1, 2⟩ (lit "README") = some ⟨⟨1, 2⟩, lit "README", ⟨1, 3⟩⟩ ∧ Makes .linux o (lit "README") (lit "readme") ∧ docsFS.linkCount ⟨1, 3⟩ = 1 :=
  ⟨Prog.result_sound _ _ _ (by decide +kernel), ⟨rfl, by decide +kernel, .inr ⟨lit "Docs", rfl⟩⟩, by decide +kernel, by decide +kernel, by decide +kernel,
    by decide +kernel⟩

end Detox
