import Verif.Lemmas.FileSystem
import Verif.Props.Scan
import Verif.Props.Slash

/-!
# C27, C28, C60 — detox on a POSIX file system

`Run` gives the system calls with any answers at all; `FS.Steps` says that the answers are those of a file system nobody else
changes. Both hold for every prefix, so the theorems hold wherever the process is killed.
-/

set_option autoImplicit false

namespace Detox
open Spec

/-- What is known about the file system when a rename is made. -/
structure CheckedRename (P : Platform) (o : Options) (fs : FS) (old new : Bytes) : Prop where
  exists_parts : ∃ dir name cleaned so, SplitsAs old dir name ∧ name ≠ [] ∧ new = dir ++ cleaned ∧
    sequenceRunFilters P o.sequenceToUse (some name) = .ok (some cleaned) ∧ fs.lstat old = some so ∧
    (∀ sn, fs.lstat new = some sn → sn.dev = so.dev ∧ sn.ino = so.ino ∧ so.nlink ≤ 1)

/-- To show that a run changes the file system only in a certain way, look at each rename. -/
theorem run_closed {P : Platform} {o : Options} {args ws : List Bytes} {tr : List Event} {out : Outcome (Option Filelist)}
    (ht : Run P o args ws tr out) {R : FS → FS → Prop} (hrefl : ∀ fs, R fs fs) (htrans : ∀ a b c, R a b → R b c → R a c)
    (hstep : ∀ fs fs' old new, .rename old new true ∈ tr → CheckedRename P o fs old new → fs.rename old new = some fs' → R fs fs')
    {fs fs' : FS} (hs : FS.Steps fs tr fs') : R fs fs' := by
  obtain ⟨fuel, n, files, ign, _, _, ht⟩ := ht
  have key : ∀ (done todo : List Event) (fs1 : FS), tr = done ++ todo → FS.Steps fs done fs1 → R fs fs1 →
      ∀ fs', FS.Steps fs1 todo fs' → R fs fs' := by
    intro done todo
    induction todo generalizing done with
    | nil => intro fs1 _ _ hR fs' h; cases h; exact hR
    | cons e t ih =>
      intro fs1 heq hd hR fs' h
      cases h with
      | cons _ fs2 _ _ _ hst hrest =>
        refine ih (done ++ [e]) fs2 (by simp [heq]) (FS.Steps.append hd (.cons _ _ _ _ _ hst (.nil _))) ?_ fs' hrest
        cases hst with
        | renamed old new _ hren =>
          refine htrans _ _ _ hR ?_
          have hg := fileLoop_guarded P o fuel n files ign tr out ht done t old new true heq
          obtain ⟨dir, name, cleaned, h1, h2, h3, h4, h5, h6⟩ := hg.names
          obtain ⟨pre0, r0, so, rn, outs, h7, h8, h9, _⟩ := hg.checks
          rw [h7] at hd
          obtain ⟨c1, c2, _⟩ := checks_current h8 hd
          have hmem : Event.rename old new true ∈ tr := by rw [heq]; simp
          have hne := (C32_dot_dotdot_and_empty_are_never_renamed P o fuel n files ign tr out ht old new true hmem dir name h1).2.2
          refine hstep fs1 fs2 old new hmem ⟨dir, name, cleaned, so, h1, hne, h2, h6, c1, ?_⟩ hren
          intro sn hsn
          exact h9 sn (c2 ▸ hsn)
        | _ => exact hR
  exact key [] tr fs rfl (.nil fs) (hrefl fs) fs' hs

theorem CheckedRename.result {P : Platform} {o : Options} {fs fs' : FS} {old new : Bytes} (hc : CheckedRename P o fs old new)
    (h : fs.rename old new = some fs') :
    ∃ d1 n1 d2 n2 e1, fs.locate old = some (d1, n1) ∧ fs.locate new = some (d2, n2) ∧ fs.find d1 n1 = some e1 ∧
      ((fs.find d2 n2 = none ∧ fs.lookup new = none ∧ fs' = { fs with entries := fs.entries.map (moveEntry e1 d2 n2) }) ∨
       (fs.find d2 n2 = some e1 ∧ fs' = { fs with entries := fs.entries.map (moveEntry e1 d2 n2) }) ∨
       (∃ e2, fs.find d2 n2 = some e2 ∧ e2 ≠ e1 ∧ e2.ino = e1.ino ∧ fs' = fs)) := by
  obtain ⟨dir, name, cleaned, so, h1, hne, h2, h6, c1, h9⟩ := hc.exists_parts
  have hsl : endsInSlash old = false := by rw [h1.1]; exact endsInSlash_dir_name hne h1.2.1
  exact FS_guarded_rename hsl c1 rfl h9 h

/-- **C27.** On a file system nobody else changes, whatever the arguments and options, whatever `readdir` reports, whichever
renames fail and wherever the process is killed: every object keeps as many names as it had, and what it is. -/
theorem C27_nothing_is_lost (P : Platform) (o : Options) (args ws : List Bytes) (tr : List Event)
    (out : Outcome (Option Filelist)) (ht : Run P o args ws tr out) (fs fs' : FS) (hs : FS.Steps fs tr fs') :
    (∀ i, fs'.names i = fs.names i) ∧ fs'.kind = fs.kind ∧ fs'.target = fs.target := by
  have hR := run_closed ht
    (R := fun a b => b.entries.map Entry.ino = a.entries.map Entry.ino ∧ b.kind = a.kind ∧ b.target = a.target)
    (fun _ => ⟨rfl, rfl, rfl⟩)
    (fun a b c h1 h2 => ⟨h2.1.trans h1.1, h2.2.1.trans h1.2.1, h2.2.2.trans h1.2.2⟩)
    (by
      intro fs fs' old new _ hc h
      obtain ⟨d1, n1, d2, n2, e1, _, _, _, hres⟩ := hc.result h
      rcases hres with ⟨_, _, rfl⟩ | ⟨_, rfl⟩ | ⟨_, _, _, _, rfl⟩
      · exact ⟨map_moveEntry_ino _ _ _ _, rfl, rfl⟩
      · exact ⟨map_moveEntry_ino _ _ _ _, rfl, rfl⟩
      · exact ⟨rfl, rfl, rfl⟩)
    hs
  refine ⟨fun i => ?_, hR.2⟩
  rw [FS_names_eq, FS_names_eq, hR.1]

theorem Spec.FS.Unique.eq {fs : FS} (hu : fs.Unique) {a b : Entry} (ha : a ∈ fs.entries) (hb : b ∈ fs.entries)
    (hd : a.dir = b.dir) (hn : fs.norm a.dir a.name = fs.norm b.dir b.name) : a = b := by
  unfold FS.Unique at hu
  generalize fs.entries = l at *
  induction l with
  | nil => cases ha
  | cons x l ih =>
    rw [List.pairwise_cons] at hu
    rcases List.mem_cons.1 ha with rfl | ha' <;> rcases List.mem_cons.1 hb with rfl | hb'
    · rfl
    · exact absurd ⟨hd, hn⟩ (hu.1 b hb')
    · exact absurd ⟨hd.symm, hn.symm⟩ (hu.1 a ha')
    · exact ih hu.2 ha' hb'

/-- **C27.** Names stay unique in every directory: no two files end up under one name. -/
theorem C27_names_stay_unique (P : Platform) (o : Options) (args ws : List Bytes) (tr : List Event)
    (out : Outcome (Option Filelist)) (ht : Run P o args ws tr out) (fs fs' : FS) (hs : FS.Steps fs tr fs') (hu : fs.Unique) :
    fs'.Unique := by
  refine run_closed ht (R := fun a b => a.Unique → b.Unique) (fun _ h => h) (fun _ _ _ f g h => g (f h)) ?_ hs hu
  intro fs fs' old new _ hc h hu
  obtain ⟨d1, n1, d2, n2, e1, _, _, he1, hres⟩ := hc.result h
  have hm := (FS_find_some he1).1
  rcases hres with ⟨hf, _, rfl⟩ | ⟨hf, rfl⟩ | ⟨_, _, _, _, rfl⟩
  · exact FS_unique_move hu hm fun e he hd hn => absurd ⟨hd, hn⟩ (FS_find_none hf e he)
  · obtain ⟨_, q1, q2⟩ := FS_find_some hf
    refine FS_unique_move hu hm fun e he hd hn => ?_
    exact hu.eq he hm (hd.trans q1.symm) (by rw [hd, q1, hn, q2])
  · exact hu

/-- The sequence makes no slashes. -/
def NoNewSlash (P : Platform) (o : Options) : Prop :=
  ∀ name cleaned : Bytes, NulFree name → (0x2F : Byte) ∉ name →
    sequenceRunFilters P o.sequenceToUse (some name) = .ok (some cleaned) → (0x2F : Byte) ∉ cleaned

theorem start_dir_name (fs : FS) {dir x y : Bytes} (hx : (0x2F : Byte) ∉ x) (hy : (0x2F : Byte) ∉ y) :
    fs.start fs.cwd (dir ++ x) = fs.start fs.cwd (dir ++ y) := by
  unfold FS.start
  cases dir with
  | nil =>
    have : ∀ z : Bytes, (0x2F : Byte) ∉ z → z.head? ≠ some 0x2F := by
      intro z hz h
      cases z with
      | nil => cases h
      | cons c z => cases h; exact hz (List.mem_cons_self ..)
    simp [this x hx, this y hy]
  | cons c d => simp

theorem dirOf_dir_name (fs : FS) {dir x : Bytes} (hd : dir = [] ∨ ∃ d, dir = d ++ [0x2F]) (hx : x ≠ []) (hs : (0x2F : Byte) ∉ x) :
    fs.dirOf (dir ++ x) = fs.walk walkLimit (fs.start fs.cwd (dir ++ x)) (comps dir) := by
  unfold FS.dirOf
  rw [comps_dir_name hd hx hs, List.dropLast_concat]

/-- **C27.** With a sequence that makes no slashes, nothing leaves its directory: in the list of all entries nothing but
names changes. -/
theorem C27_nothing_leaves_its_directory (P : Platform) (o : Options) (hseq : NoNewSlash P o) (args ws : List Bytes)
    (tr : List Event) (out : Outcome (Option Filelist)) (ht : Run P o args ws tr out)
    (hnul : ∀ old new ok, .rename old new ok ∈ tr → NulFree old) (fs fs' : FS) (hs : FS.Steps fs tr fs') :
    fs'.entries.map (fun e => (e.dir, e.ino)) = fs.entries.map (fun e => (e.dir, e.ino)) := by
  refine run_closed ht (R := fun a b => b.entries.map (fun e => (e.dir, e.ino)) = a.entries.map (fun e => (e.dir, e.ino)))
    (fun _ => rfl) (fun a b c h1 h2 => h2.trans h1) ?_ hs
  intro fs fs' old new hmem hc h
  obtain ⟨d1, n1, d2, n2, e1, hl1, hl2, he1, hres⟩ := hc.result h
  have same : e1.dir = d2 → (fs.entries.map (moveEntry e1 d2 n2)).map (fun e => (e.dir, e.ino)) =
      fs.entries.map (fun e => (e.dir, e.ino)) := by
    intro hd
    rw [List.map_map]
    refine List.map_congr_left fun x _ => ?_
    unfold moveEntry
    by_cases hx : x = e1
    · simp [hx, hd]
    · simp [hx]
  rcases hres with ⟨hf, hlk, rfl⟩ | ⟨hf, rfl⟩ | ⟨_, _, _, _, rfl⟩
  · refine same ?_
    rw [(FS_find_some he1).2.1]
    obtain ⟨dir, name, cleaned, so, h1, hne, h2, h6, c1, h9⟩ := hc.exists_parts
    have hnn : NulFree name := fun h => hnul old new true hmem (by rw [h1.1]; exact List.mem_append_right _ h)
    have hcs := hseq name cleaned hnn h1.2.1 h6
    obtain ⟨o1, o2, o3, o4, o5, o6, o7⟩ := FS_locate_inv hl1
    obtain ⟨p1, p2, p3, p4, p5, p6, p7⟩ := FS_locate_inv hl2
    have hst := start_dir_name fs (dir := dir) h1.2.1 hcs
    rw [h1.1, dirOf_dir_name fs h1.2.2 hne h1.2.1] at o3
    by_cases hce : cleaned = []
    · exfalso
      subst hce
      rw [List.append_nil] at h2
      subst h2
      rcases h1.2.2 with hd | ⟨d, hd⟩
      · exact p1 hd
      · have hsl : endsInSlash new = true := by rw [hd]; simp [endsInSlash]
        rw [List.append_nil] at hst
        unfold FS.lookup at hlk
        rw [if_neg (by simp [p1, p2]), hsl, ← hst, o3] at hlk
        simp [o5] at hlk
    · rw [h2, dirOf_dir_name fs h1.2.2 hce hcs, ← hst, o3] at p3
      cases p3; rfl
  · exact same (FS_find_some hf).2.1
  · rfl


/-- `NoNewSlash` holds of the nine built-in sequences of C19. -/
theorem C27_builtin_sequences_make_no_slash (P : Platform) (hP : P.Benign) (E : TableEnv) (name : Bytes)
    (hname : name ∈ [lit "default", lit "iso8859_1", lit "iso8859_1-legacy", lit "utf_8", lit "uncgi", lit "lower",
      lit "iso8859_1-only", lit "cp1252-only", lit "lower-only"]) (o : Options)
    (ho : ∀ s, runBuiltin P E (some name) s = sequenceRunFilters P o.sequenceToUse (some s)) : NoNewSlash P o := by
  intro s out hs hslash h
  exact C19_no_slash P hP E name hname s out hs hslash ((ho s).trans h)

/-! ### A concrete file system -/

/-- A directory holding the regular file `x`, and, if wanted, another one. Names are compared case-insensitively if `ci`. -/
def smallFS (ci : Bool) (entries : List Entry) : FS where
  entries := entries
  root := ⟨1, 1⟩
  cwd := ⟨1, 1⟩
  kind := fun i => if i = ⟨1, 1⟩ then .dir else .reg
  target := fun _ => []
  dirLinks := fun _ => 2
  parent := fun i => i
  norm := fun _ n => if ci then n.map toLowerC else n
  denied := fun _ => false


def regStat (num : Nat) : Stat := { dev := 1, ino := num, nlink := 1, kind := .reg }

/-- `detox 'a b'`. -/
def abTrace : List Event :=
  [.lstat (lit "a b") (some (regStat 2)), .lstat (lit "a b") (some (regStat 2)), .lstat (lit "a_b") none,
   .rename (lit "a b") (lit "a_b") true]

theorem abTrace_run : Run exPlatform defaultOptions [lit "a b"] [] abTrace .running :=
  ⟨10, 10, putAll [lit "a b"], none, putAll_holds _, rfl, Prog.accepts_sound _ _ (by decide +kernel)⟩

/- Non-vacuous: a rename on a real file system... -/
example : ∃ fs', FS.Steps (smallFS false [⟨⟨1, 1⟩, lit "a b", ⟨1, 2⟩⟩]) abTrace fs' ∧ fs'.entries = [⟨⟨1, 1⟩, lit "a_b", ⟨1, 2⟩⟩] :=
  FS_exec_entries (by decide +kernel)

/- ... names in use are refused ... -/
example : (smallFS false [⟨⟨1, 1⟩, lit "a b", ⟨1, 2⟩⟩, ⟨⟨1, 1⟩, lit "a_b", ⟨1, 3⟩⟩]).exec abTrace |>.isNone := by decide +kernel

/-- `detox -s lower-only README` where names differing in case are the same. -/
def lowerOptions : Options := { sequenceToUse := some { name := lit "lower-only", filters := [lowerF] } }

def ciTrace : List Event :=
  [.lstat (lit "READ") (some (regStat 2)), .lstat (lit "READ") (some (regStat 2)), .lstat (lit "read") (some (regStat 2)),
   .rename (lit "READ") (lit "read") true]

/- ... and so is a rename to a name that is the same to the file system. -/
example : Run exPlatform lowerOptions [lit "READ"] [] ciTrace .running :=
  ⟨10, 10, putAll [lit "READ"], none, putAll_holds _, rfl, Prog.accepts_sound _ _ (by decide +kernel)⟩

example : ∃ fs', FS.Steps (smallFS true [⟨⟨1, 1⟩, lit "READ", ⟨1, 2⟩⟩]) ciTrace fs' ∧ fs'.entries = [⟨⟨1, 1⟩, lit "read", ⟨1, 2⟩⟩] :=
  FS_exec_entries (by decide +kernel)

example : NoNewSlash .linux defaultOptions :=
  C27_builtin_sequences_make_no_slash .linux ⟨rfl, rfl⟩ ⟨fun _ => none, none⟩ (lit "default") (by simp) _
    (fun s => runBuiltin_eq .linux _ s _ [safeF, wipeF] (by simp [builtinFilters]))

/-! ### C28: other processes -/

/-- **C28.** Another process creates the new name after detox looked and before it renames: its file is gone. -/
theorem C28_concurrent_creation_is_clobbered : ∃ (pre post : List Event) (fs0 fs1 fs2 fs3 : FS) (i : Ino),
    Run exPlatform defaultOptions [lit "a b"] [] (pre ++ post) .running ∧ fs0.Unique ∧
    FS.Steps fs0 pre fs1 ∧ FS.Creates fs1 fs2 ∧ FS.Steps fs2 post fs3 ∧ fs2.names i = 1 ∧ fs3.names i = 0 := by
  refine ⟨abTrace.take 3, abTrace.drop 3, smallFS false [⟨⟨1, 1⟩, lit "a b", ⟨1, 2⟩⟩],
    smallFS false [⟨⟨1, 1⟩, lit "a b", ⟨1, 2⟩⟩], _,
    smallFS false [⟨⟨1, 1⟩, lit "a_b", ⟨1, 2⟩⟩], ⟨1, 3⟩, abTrace_run, ?_, ?_, .mk _ ⟨⟨1, 1⟩, lit "a_b", ⟨1, 3⟩⟩ ?_ ?_, ?_, ?_, ?_⟩
  · simp [FS.Unique, smallFS]
  · exact FS_exec_sound _ (fs' := smallFS false [⟨⟨1, 1⟩, lit "a b", ⟨1, 2⟩⟩]) rfl
  · decide +kernel
  · decide +kernel
  · exact FS_exec_sound _ rfl
  · decide +kernel
  · decide +kernel

/-- **C61.** But only there: if nobody interferes between detox's last look at the old name and the rename, the rename destroys
nothing — whatever others do at any other time. `hist` lists the calls with the states before and after. -/
theorem C61_only_the_window_matters (P : Platform) (o : Options) (args ws : List Bytes) (hist : List (FS × Event × FS))
    (hstep : ∀ x ∈ hist, FS.Step x.1 x.2.1 x.2.2) (out : Outcome (Option Filelist))
    (ht : Run P o args ws (hist.map (·.2.1)) out) (pre post : List (FS × Event × FS)) (s s' : FS) (old new : Bytes)
    (heq : hist = pre ++ (s, .rename old new true, s') :: post) :
    ∃ pre0 window so rn outs, pre = pre0 ++ window ∧
      window.map (·.2.1) = [.lstat old (some so), .lstat new rn] ++ outs ∧ OnlyOutput outs ∧
      (Undisturbed (window ++ [(s, .rename old new true, s')]) → ∀ i, s'.names i = s.names i) := by
  obtain ⟨fuel, n, files, ign, _, _, ht⟩ := ht
  have hev : hist.map (·.2.1) = pre.map (·.2.1) ++ .rename old new true :: post.map (·.2.1) := by rw [heq]; simp
  have hg := fileLoop_guarded P o fuel n files ign _ out ht _ _ old new true hev
  obtain ⟨dir, name, cleaned, h1, h2, h3, h4, h5, h6⟩ := hg.names
  obtain ⟨pre0, r0, so, rn, outs, h7, h8, h9, _⟩ := hg.checks
  have hmem : Event.rename old new true ∈ hist.map (·.2.1) := by rw [hev]; simp
  have hne := (C32_dot_dotdot_and_empty_are_never_renamed P o fuel n files ign _ out ht old new true hmem dir name h1).2.2
  have h7' : pre.map (·.2.1) = (pre0 ++ [.lstat old r0]) ++ ([.lstat old (some so), .lstat new rn] ++ outs) := by
    rw [h7]; simp
  obtain ⟨p0, w, hp, ha, hb⟩ := List.map_eq_append_iff.1 h7'
  refine ⟨p0, w, so, rn, outs, hp, hb, h8, ?_⟩
  intro hu
  have hren : s.rename old new = some s' := by
    have := hstep (s, .rename old new true, s') (by rw [heq]; simp)
    cases this with
    | renamed _ _ _ h => exact h
  have hw : ∀ x ∈ w, FS.Step x.1 x.2.1 x.2.2 := fun x hx => hstep x (by rw [heq, hp]; simp [hx])
  -- the two lookups
  cases w with
  | nil => simp at hb
  | cons x1 w =>
    cases w with
    | nil => simp at hb
    | cons x2 w =>
      obtain ⟨a1, e1, b1⟩ := x1
      obtain ⟨a2, e2, b2⟩ := x2
      simp only [List.map_cons, List.cons_append, List.nil_append, List.cons.injEq] at hb
      obtain ⟨rfl, rfl, hb⟩ := hb
      have s1 := hw _ (List.mem_cons_self ..)
      have s2 := hw (a2, .lstat new rn, b2) (by simp)
      cases s1 with
      | lstat _ _ g1 =>
        cases s2 with
        | lstat _ _ g2 =>
          simp only [List.cons_append, Undisturbed] at hu
          obtain ⟨u1, u2⟩ := hu
          subst u1
          have quiet : ∀ (w : List (FS × Event × FS)) (a b : FS) (e : Event), (∀ x ∈ w, FS.Step x.1 x.2.1 x.2.2) →
              OnlyOutput (w.map (·.2.1)) → Undisturbed ((a, e, b) :: (w ++ [(s, .rename old new true, s')])) → s = b := by
            intro w
            induction w with
            | nil => intro a b e _ _ h; simp only [List.nil_append, Undisturbed] at h; exact h.1.symm
            | cons y w ih =>
              intro a b e hs ho h
              obtain ⟨ya, ye, yb⟩ := y
              simp only [List.cons_append, Undisturbed] at h
              obtain ⟨g, h⟩ := h
              subst g
              obtain ⟨t, hye⟩ := ho ye (by simp)
              have := hs _ (List.mem_cons_self ..)
              subst hye
              cases this
              exact ih _ _ _ (fun x hx => hs x (List.mem_cons_of_mem _ hx))
                (fun x hx => ho x (by rw [List.map_cons]; exact List.mem_cons_of_mem _ hx)) h
          have hss : s = a1 := quiet w a1 a1 _ (fun x hx => hw x (by simp [hx])) (by rw [hb]; exact h8) u2
          subst hss
          have hc : CheckedRename P o s old new := ⟨dir, name, cleaned, so, h1, hne, h2, h6, g1, fun sn hsn => h9 sn (g2 ▸ hsn)⟩
          obtain ⟨_, _, _, _, _, _, _, _, hres⟩ := hc.result hren
          intro i
          rcases hres with ⟨_, _, rfl⟩ | ⟨_, rfl⟩ | ⟨_, _, _, _, rfl⟩
          · rw [FS_names_eq, FS_names_eq, map_moveEntry_ino]
          · rw [FS_names_eq, FS_names_eq, map_moveEntry_ino]
          · rfl

/-- **C60.** detox takes any failure of `lstat` on the new name for "the name is free": if the call fails although the name is
in use, the file of that name is replaced. -/
theorem C60_failed_lstat_clobbers : ∃ (tr : List Event) (fs fs' : FS) (i : Ino),
    Run exPlatform defaultOptions [lit "a b"] [] tr .running ∧ fs.Unique ∧ FS.FlakySteps fs tr fs' ∧
    fs.names i = 1 ∧ fs'.names i = 0 := by
  refine ⟨abTrace, smallFS false [⟨⟨1, 1⟩, lit "a b", ⟨1, 2⟩⟩, ⟨⟨1, 1⟩, lit "a_b", ⟨1, 3⟩⟩],
    smallFS false [⟨⟨1, 1⟩, lit "a_b", ⟨1, 2⟩⟩], ⟨1, 3⟩, abTrace_run, ?_, ?_, ?_, ?_⟩
  · simp [FS.Unique, smallFS, lit]
  · refine .cons _ _ _ _ _ (.lstat _ _ (by decide +kernel)) (.cons _ _ _ _ _ (.lstat _ _ (by decide +kernel)) (.flaky _ _ _ _ ?_))
    exact .cons _ _ _ _ _ (.renamed _ _ _ rfl) (.nil _)
  · decide +kernel
  · decide +kernel


/-! ### C37 on a file system -/

theorem find?_moved {p : Entry → Bool} {e1 : Entry} {d : Ino} {n : Bytes} (hp : p { dir := d, name := n, ino := e1.ino } = true) :
    ∀ (l : List Entry), e1 ∈ l → (∀ e ∈ l, p e = true → e = e1) →
      (l.map (moveEntry e1 d n)).find? p = some { dir := d, name := n, ino := e1.ino }
  | [], h, _ => by cases h
  | x :: l, h, hf => by
    rw [List.map_cons, List.find?_cons]
    by_cases hx : x = e1
    · subst hx
      simp [moveEntry, hp]
    · have hpx : p x = false := by
        cases hpx : p x with
        | false => rfl
        | true => exact absurd (hf x (List.mem_cons_self ..) hpx) hx
      have hm : moveEntry e1 d n x = x := by simp [moveEntry, hx]
      rw [hm, hpx]
      refine find?_moved hp l ?_ (fun e he => hf e (List.mem_cons_of_mem _ he))
      rcases List.mem_cons.1 h with h | h
      · exact absurd h.symm hx
      · exact h

theorem find?_moved_first {p : Entry → Bool} {e1 : Entry} {d : Ino} {n : Bytes} (hp : p { dir := d, name := n, ino := e1.ino } = true) :
    ∀ (l : List Entry), l.find? p = some e1 →
      (l.map (moveEntry e1 d n)).find? p = some { dir := d, name := n, ino := e1.ino }
  | [], h => by cases h
  | x :: l, h => by
    rw [List.map_cons, List.find?_cons]
    rw [List.find?_cons] at h
    by_cases hx : x = e1
    · subst hx
      simp [moveEntry, hp]
    · have hm : moveEntry e1 d n x = x := by simp [moveEntry, hx]
      rw [hm]
      cases hpx : p x with
      | true => rw [hpx] at h; cases h; exact absurd rfl hx
      | false => rw [hpx] at h; exact find?_moved_first hp l h

/-- After a checked rename the new path leads to the object the old one led to. -/
theorem CheckedRename.lookup {P : Platform} {o : Options} {fs fs' : FS} {old new : Bytes} (hc : CheckedRename P o fs old new)
    (h : fs.rename old new = some fs') (hs : endsInSlash new = false) (hdir : fs'.dirOf new = fs.dirOf new) :
    fs'.lookup new = fs.lookup old := by
  obtain ⟨d1, n1, d2, n2, e1, hl1, hl2, he1, hres⟩ := hc.result h
  obtain ⟨dir, name, cleaned, so, h1, hne, h2, h6, c1, h9⟩ := hc.exists_parts
  have hso : endsInSlash old = false := by rw [h1.1]; exact endsInSlash_dir_name hne h1.2.1
  rw [FS_lookup_locate hl1 hso, he1]
  obtain ⟨p1, p2, p3, p4, p5, p6, p7⟩ := FS_locate_inv hl2
  have hm := (FS_find_some he1).1
  rcases hres with ⟨hf, _, rfl⟩ | ⟨hf, rfl⟩ | ⟨e2, hf, _, hi, rfl⟩
  · have hl : FS.locate { fs with entries := fs.entries.map (moveEntry e1 d2 n2) } new = some (d2, n2) := by
      unfold FS.locate
      rw [if_neg (by simp [p1, p2]), hdir, p3, p4]
      simp [p5, p6, p7]
    rw [FS_lookup_locate hl hs]
    unfold FS.find
    rw [find?_moved (by simp) _ hm]
    · rfl
    · intro e he hpe
      simp at hpe
      exact absurd hpe (FS_find_none hf e he)
  · have hl : FS.locate { fs with entries := fs.entries.map (moveEntry e1 d2 n2) } new = some (d2, n2) := by
      unfold FS.locate
      rw [if_neg (by simp [p1, p2]), hdir, p3, p4]
      simp [p5, p6, p7]
    rw [FS_lookup_locate hl hs]
    unfold FS.find
    rw [find?_moved_first (by simp) _ hf]
    rfl
  · rw [FS_lookup_locate hl2 hs, hf]
    simp [hi]

/-- **C37.** On a file system nobody else changes, the path `parse_file` returns leads to the object the given path led to —
if the path to its directory still leads to the same place (see `C62_directory_lost_from_sight`). -/
theorem C37_returned_path_leads_to_the_file (P : Platform) (o : Options) (f : Bytes) (tr : List Event) (a : Bytes)
    (ht : Trace (parseFile P o f) tr (.ret a)) (fs fs' : FS) (hs : FS.Steps fs tr fs')
    (hbase : ∀ dir name, SplitsAs f dir name → name ≠ []) (ha : endsInSlash a = false) (hdir : fs'.dirOf a = fs.dirOf a) :
    fs'.lookup a = fs.lookup f := by
  have hrun := C56_parse_file_exactly P o f tr a ht
  have nil : ∀ {fs fs' : FS}, FS.Steps fs [] fs' → fs' = fs := fun h => by cases h; rfl
  have ls : ∀ {p r t} {fs fs' : FS}, FS.Steps fs (.lstat p r :: t) fs' → fs.lstat p = r ∧ FS.Steps fs t fs' := by
    intro p r t fs fs' h
    cases h with
    | cons _ _ _ _ _ h1 h2 => cases h1 with | lstat _ _ h => exact ⟨h, h2⟩
  have outs : ∀ {s t} {fs fs' : FS}, FS.Steps fs (.out s :: t) fs' → FS.Steps fs t fs' := by
    intro s t fs fs' h
    cases h with
    | cons _ _ _ _ _ h1 h2 => cases h1; exact h2
  have errs : ∀ {s t} {fs fs' : FS}, FS.Steps fs (.err s :: t) fs' → FS.Steps fs t fs' := by
    intro s t fs fs' h
    cases h with
    | cons _ _ _ _ _ h1 h2 => cases h1; exact h2
  cases hrun with
  | clean => rw [nil hs]
  | gone => rw [nil (ls hs).2]
  | refused => rw [nil (errs (ls (ls hs).2).2)]
  | dry => rw [nil (outs (ls (ls hs).2).2)]
  | renamed dir name w so rn h1 h2 h3 h4 h5 h6 h7 =>
    simp only [List.append_assoc, List.cons_append, List.nil_append] at hs
    obtain ⟨c1, hs⟩ := ls hs
    obtain ⟨c2, hs⟩ := ls hs
    have hs' : FS.Steps fs [.rename f (dir ++ w) true] fs' := by
      by_cases hv : o.verbose = 0
      · simpa [hv] using hs
      · simp only [hv, if_false] at hs; exact outs hs
    have hren := FS.Steps.single_inv hs'
    cases hren with
    | renamed _ _ _ hren =>
      exact CheckedRename.lookup (P := P) (o := o)
        ⟨dir, name, w, so, h1, hbase dir name h1, rfl, h4, c1, fun sn hsn => h6 sn (c2 ▸ hsn)⟩ hren ha hdir
  | failed dir name w so rn h1 h2 h3 h4 h5 h6 h7 =>
    generalize lit "Cannot rename " ++ f ++ lit " to " ++ (dir ++ w) ++ lit ": " = msg at hs
    simp only [List.append_assoc, List.cons_append, List.nil_append] at hs
    obtain ⟨c1, hs⟩ := ls hs
    obtain ⟨c2, hs⟩ := ls hs
    have hs' : FS.Steps fs [.rename f (dir ++ w) false, .err msg] fs' := by
      by_cases hv : o.verbose = 0
      · simpa [hv] using hs
      · simp only [hv, if_false] at hs; exact outs hs
    cases hs' with
    | cons _ _ _ _ _ q1 q2 =>
      cases q1
      rw [nil (errs q2)]

/- Non-vacuous: `a b`, in the current directory. -/
example : Trace (parseFile exPlatform defaultOptions (lit "a b")) (abTrace.drop 1) (.ret (lit "a_b")) :=
  Prog.result_sound _ _ _ (by decide +kernel)

/-- A directory `d d` in the root directory. -/
def ddFS (name : Bytes) : FS where
  entries := [⟨⟨1, 1⟩, name, ⟨1, 2⟩⟩]
  root := ⟨1, 1⟩
  cwd := ⟨1, 1⟩
  kind := fun _ => .dir
  target := fun _ => []
  dirLinks := fun _ => 2
  parent := fun _ => ⟨1, 1⟩
  norm := fun _ n => n
  denied := fun _ => false

def ddTrace : List Event :=
  let st : Stat := { dev := 1, ino := 2, nlink := 2, kind := .dir }
  [.lstat (lit "d d/../d d") (some st), .lstat (lit "d d/../d d") (some st), .lstat (lit "d d/../d_d") none,
   .rename (lit "d d/../d d") (lit "d d/../d_d") true, .lstat (lit "d d/../d_d") none]

/-- **C62.** A directory given by a path that leads through itself is renamed, but then not found again: detox finishes without
scanning it, silently. -/
theorem C62_directory_lost_from_sight : ∃ fs fs', Run exPlatform defaultOptions [lit "d d/../d d"] [] ddTrace (.ret none) ∧
    FS.Steps fs ddTrace fs' ∧ fs'.lookup (lit "d_d") = fs.lookup (lit "d d") ∧ fs.lookup (lit "d d") = some ⟨1, 2⟩ :=
  ⟨ddFS (lit "d d"), ddFS (lit "d_d"),
    ⟨10, 10, putAll [lit "d d/../d d"], none, putAll_holds _, rfl, Prog.result_sound _ _ _ (by decide +kernel)⟩,
    FS_exec_sound _ rfl, by decide +kernel, by decide +kernel⟩


/-- **C36** on a file system nobody else changes: without `--special` only regular files and directories are renamed. Missing
compared to C36: the case of interference, in which it is false (`C36_special_file_renamed_in_a_race`). -/
theorem C36_only_files_and_directories_are_renamed_partial (P : Platform) (o : Options) (hsp : o.special = false)
    (args ws : List Bytes) (pre post : List Event) (out : Outcome (Option Filelist)) (old new : Bytes) (ok : Bool)
    (ht : Run P o args ws (pre ++ .rename old new ok :: post) out) (fs fs' : FS) (hs : FS.Steps fs pre fs') :
    ∃ i, fs'.lookup old = some i ∧ (fs'.kind i = .reg ∨ fs'.kind i = .dir) := by
  obtain ⟨fuel, n, files, ign, _, _, ht⟩ := ht
  have hg := fileLoop_guarded P o fuel n files ign _ out ht pre post old new ok rfl
  obtain ⟨pre0, r0, so, rn, outs, h7, h8, h9, h10⟩ := hg.checks
  rw [h7] at hs
  obtain ⟨c1, c2, c3⟩ := checks_current h8 hs
  have hr0 : r0 = some so := by
    obtain ⟨fa, ha, hb⟩ := FS.Steps.append_inv hs
    have hq := FS.Steps.quiet h8 hb
    subst hq
    obtain ⟨fc, hc, hd⟩ := FS.Steps.append_inv ha
    cases hd with
    | cons _ _ _ _ _ s1 t1 =>
      cases s1 with
      | lstat _ _ g1 =>
        cases t1 with
        | cons _ _ _ _ _ s2 t2 =>
          cases s2 with
          | lstat _ _ g2 => rw [← g1, g2]
  have hk := h10 so hr0
  rw [hsp] at hk
  obtain ⟨i, hi, _, _⟩ := FS_lstat_some c1
  refine ⟨i, hi, ?_⟩
  have hkind : so.kind = fs'.kind i := by
    unfold FS.lstat at c1
    rw [hi] at c1
    cases c1
    rfl
  rw [hkind] at hk
  simpa using hk

end Detox
