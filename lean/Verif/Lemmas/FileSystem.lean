import Verif.Spec.FileSystem
import Verif.Spec.Run

/-!
# Lemmas on the file system
-/

set_option autoImplicit false

namespace Detox
open Spec

theorem Spec.FS.Steps.append_inv {tr1 tr2 : List Event} : ∀ {fs fs2 : FS}, FS.Steps fs (tr1 ++ tr2) fs2 →
    ∃ fs1, FS.Steps fs tr1 fs1 ∧ FS.Steps fs1 tr2 fs2 := by
  induction tr1 with
  | nil => intro fs fs2 h; exact ⟨fs, .nil fs, h⟩
  | cons e t ih =>
    intro fs fs2 h
    cases h with
    | cons _ fsm _ _ _ hs ht =>
      obtain ⟨fs1, a, b⟩ := ih ht
      exact ⟨fs1, .cons _ _ _ _ _ hs a, b⟩

theorem Spec.FS.Steps.append {tr1 tr2 : List Event} {fs fs1 fs2 : FS} (h1 : FS.Steps fs tr1 fs1) (h2 : FS.Steps fs1 tr2 fs2) :
    FS.Steps fs (tr1 ++ tr2) fs2 := by
  induction h1 with
  | nil => exact h2
  | cons _ _ _ _ _ hs _ ih => exact .cons _ _ _ _ _ hs (ih h2)

theorem Spec.FS.Steps.single_inv {e : Event} {fs fs2 : FS} (h : FS.Steps fs [e] fs2) : FS.Step fs e fs2 := by
  cases h with
  | cons _ _ _ _ _ hs ht => cases ht; exact hs

theorem Spec.FS.Steps.quiet {outs : List Event} (ho : OnlyOutput outs) : ∀ {fs fs2 : FS}, FS.Steps fs outs fs2 → fs2 = fs := by
  induction outs with
  | nil => intro fs fs2 h; cases h; rfl
  | cons e t ih =>
    intro fs fs2 h
    obtain ⟨s, rfl⟩ := ho e (List.mem_cons_self ..)
    cases h with
    | cons _ fsm _ _ _ hs ht =>
      cases hs
      exact ih (fun x hx => ho x (List.mem_cons_of_mem _ hx)) ht

/-- Right before a guarded rename the file system is the one the checks saw. -/
theorem checks_current {fs fs1 : FS} {pre0 outs : List Event} {old new : Bytes} {r0 rn : Option Stat} {so : Stat}
    (ho : OnlyOutput outs)
    (h : FS.Steps fs (pre0 ++ [.lstat old r0, .lstat old (some so), .lstat new rn] ++ outs) fs1) :
    fs1.lstat old = some so ∧ fs1.lstat new = rn ∧ FS.Steps fs pre0 fs1 := by
  obtain ⟨fa, ha, hb⟩ := FS.Steps.append_inv h
  have hq := FS.Steps.quiet ho hb
  subst hq
  obtain ⟨fc, hc, hd⟩ := FS.Steps.append_inv ha
  cases hd with
  | cons _ _ _ _ _ s1 t1 =>
    cases s1
    cases t1 with
    | cons _ _ _ _ _ s2 t2 =>
      cases s2 with
      | lstat _ _ h2 =>
        cases t2 with
        | cons _ _ _ _ _ s3 t3 =>
          cases s3 with
          | lstat _ _ h3 =>
            cases t3
            exact ⟨h2, h3, hc⟩

/-! ### Components -/

theorem comps_slash (p : Bytes) : comps (0x2F :: p) = comps p := by rw [comps.eq_def]; simp

/-- A name without slash at the end of a path. -/
theorem comps_name : ∀ (x : Bytes), x ≠ [] → 0x2F ∉ x → comps x = [x]
  | [], h, _ => absurd rfl h
  | [c], _, hs => by
    have : c ≠ 0x2F := fun h => hs (by simp [h])
    simp [comps, this]
  | c :: d :: r, _, hs => by
    have hc : c ≠ 0x2F := fun h => hs (by simp [h])
    have hd : d ≠ 0x2F := fun h => hs (by simp [h])
    have ih := comps_name (d :: r) (by simp) (fun h => hs (List.mem_cons_of_mem _ h))
    rw [comps]
    simp [hc, hd, ih]

theorem comps_append_slash (x : Bytes) : ∀ (d : Bytes), comps (d ++ 0x2F :: x) = comps (d ++ [0x2F]) ++ comps x
  | [] => by simp [comps_slash, comps]
  | c :: d => by
    have ih := comps_append_slash x d
    by_cases hc : c = 0x2F
    · subst hc
      rw [List.cons_append, List.cons_append, comps_slash, comps_slash, ih]
    · cases d with
      | nil => simp [comps, hc]
      | cons e d =>
        by_cases he : e = 0x2F
        · subst he
          rw [List.cons_append, List.cons_append, List.cons_append, List.cons_append, comps, comps]
          simp only [hc, if_false, if_true]
          simp only [List.cons_append] at ih
          rw [ih]; simp
        · rw [List.cons_append, List.cons_append, List.cons_append, List.cons_append, comps, comps]
          simp only [hc, he, if_false]
          simp only [List.cons_append] at ih
          rw [ih]
          have hne : comps (e :: (d ++ [0x2F])) ≠ [] := by
            rw [comps.eq_def]
            simp only [he, if_false]
            cases hd : d ++ [0x2F] with
            | nil => simp
            | cons a b =>
              dsimp only
              split
              · simp
              · split <;> simp
          cases h : comps (e :: (d ++ [0x2F])) with
          | nil => exact absurd h hne
          | cons w ws => simp

/-- Components of a directory part followed by a name. -/
theorem comps_dir_name {dir x : Bytes} (hd : dir = [] ∨ ∃ d, dir = d ++ [0x2F]) (hx : x ≠ []) (hs : 0x2F ∉ x) :
    comps (dir ++ x) = comps dir ++ [x] := by
  cases hd with
  | inl h => subst h; simp [comps_name x hx hs, comps]
  | inr h =>
    obtain ⟨d, rfl⟩ := h
    rw [List.append_assoc, List.singleton_append, comps_append_slash, comps_name x hx hs]

/-! ### Walking -/

theorem FS_walk_snoc (fs : FS) (n : Bytes) : ∀ (fuel : Nat) (s : Ino) (cs : List Bytes) (i : Ino),
    fs.walk fuel s (cs ++ [n]) = some i → ∃ d, fs.walk fuel s cs = some d ∧ fs.step d n ≠ none
  | 0, s, cs, i, h => by cases cs <;> simp [FS.walk] at h
  | fuel + 1, s, [], i, h => by
    refine ⟨s, by simp [FS.walk], ?_⟩
    intro hn
    simp [FS.walk, hn] at h
  | fuel + 1, s, c :: cs, i, h => by
    rw [List.cons_append, FS.walk] at h
    rw [FS.walk]
    cases hst : fs.step s c with
    | none => simp [hst] at h
    | some j =>
      simp only [hst] at h ⊢
      by_cases hk : fs.kind j = .link
      · simp only [hk, if_true] at h ⊢
        rw [← List.append_assoc] at h
        exact FS_walk_snoc fs n fuel _ _ i h
      · simp only [hk, if_false] at h ⊢
        exact FS_walk_snoc fs n fuel _ _ i h

/-! ### A guarded rename -/

theorem moveEntry_ino (e : Entry) (d : Ino) (n : Bytes) (x : Entry) : (moveEntry e d n x).ino = x.ino := by
  unfold moveEntry; split
  · rename_i h; rw [h]
  · rfl

theorem FS_find_some {fs : FS} {d : Ino} {n : Bytes} {e : Entry} (h : fs.find d n = some e) :
    e ∈ fs.entries ∧ e.dir = d ∧ fs.norm d e.name = fs.norm d n := by
  have h1 := List.find?_some h
  have h2 := List.mem_of_find?_eq_some h
  simp at h1
  exact ⟨h2, h1.1, h1.2⟩

theorem FS_find_none {fs : FS} {d : Ino} {n : Bytes} (h : fs.find d n = none) :
    ∀ e ∈ fs.entries, ¬ (e.dir = d ∧ fs.norm d e.name = fs.norm d n) := by
  intro e he hc
  have := List.find?_eq_none.1 h e he
  simp [hc.1, hc.2] at this

theorem FS_locate_inv {fs : FS} {p : Bytes} {d : Ino} {n : Bytes} (h : fs.locate p = some (d, n)) :
    p ≠ [] ∧ fs.denied p = false ∧ fs.dirOf p = some d ∧ (comps p).getLast? = some n ∧ fs.kind d = .dir ∧
    n ≠ [0x2E] ∧ n ≠ [0x2E, 0x2E] := by
  unfold FS.locate at h
  split at h
  · cases h
  · rename_i h0
    split at h
    · rename_i d' n' h1 h2
      split at h
      · cases h
      · rename_i h3
        cases h
        refine ⟨fun x => h0 (.inl x), ?_, h1, h2, ?_, fun x => h3 (.inl x), fun x => h3 (.inr (.inl x))⟩
        · cases hd : fs.denied p with
          | false => rfl
          | true => exact absurd (.inr hd) h0
        · exact Decidable.not_not.1 fun x => h3 (.inr (.inr x))
    · cases h

theorem FS_step_find {fs : FS} {d : Ino} {n : Bytes} (hk : fs.kind d = .dir) (h1 : n ≠ [0x2E]) (h2 : n ≠ [0x2E, 0x2E]) :
    fs.step d n = (fs.find d n).map Entry.ino := by
  simp [FS.step, hk, h1, h2]

/-- Looking up a path without trailing slash finds the entry `rename` would touch. -/
theorem FS_lookup_locate {fs : FS} {p : Bytes} {d : Ino} {n : Bytes} (h : fs.locate p = some (d, n))
    (hs : endsInSlash p = false) : fs.lookup p = (fs.find d n).map Entry.ino := by
  obtain ⟨h0, hd, hdir, hl, hk, h1, h2⟩ := FS_locate_inv h
  unfold FS.lookup
  simp only [h0, hd, hs, hdir, hl, FS_step_find hk h1 h2]
  simp

theorem FS_lookup_slash {fs : FS} {p : Bytes} {d : Ino} {n : Bytes} (h : fs.locate p = some (d, n))
    (hs : endsInSlash p = true) (hf : fs.find d n = none) : fs.lookup p = none := by
  obtain ⟨h0, hd, hdir, hl, hk, h1, h2⟩ := FS_locate_inv h
  unfold FS.lookup
  simp only [h0, hd, hs]
  simp only [Bool.false_eq_true, or_self, if_false, if_true]
  cases hw : fs.walk walkLimit (fs.start fs.cwd p) (comps p) with
  | none => rfl
  | some i =>
    exfalso
    obtain ⟨cs, hcs⟩ := List.getLast?_eq_some_iff.1 hl
    rw [hcs] at hw
    obtain ⟨d', hd', hst⟩ := FS_walk_snoc fs n _ _ _ _ hw
    rw [FS.dirOf, hcs, List.dropLast_concat] at hdir
    rw [hdir] at hd'
    cases hd'
    rw [FS_step_find hk h1 h2, hf] at hst
    exact hst rfl

/-- The object at the target, if any, is what `lstat` saw — or the path has a trailing slash and `rename` refuses. -/
theorem FS_rename_cases {fs fs' : FS} {old new : Bytes} (h : fs.rename old new = some fs') :
    ∃ d1 n1 d2 n2 e1, fs.locate old = some (d1, n1) ∧ fs.locate new = some (d2, n2) ∧ fs.find d1 n1 = some e1 ∧
      ((fs.find d2 n2 = none ∧ fs.lookup new = none ∧ fs' = { fs with entries := fs.entries.map (moveEntry e1 d2 n2) }) ∨
       (∃ e2, fs.find d2 n2 = some e2 ∧ fs.lookup new = some e2.ino ∧
        ((e2 = e1 ∧ fs' = { fs with entries := fs.entries.map (moveEntry e1 d2 n2) }) ∨
         (e2 ≠ e1 ∧ e2.ino = e1.ino ∧ fs' = fs) ∨
         (e2.ino ≠ e1.ino ∧
           fs' = { fs with entries := (fs.entries.filter (· ≠ e2)).map (moveEntry e1 d2 n2) })))) := by
  unfold FS.rename at h
  split at h
  case h_2 => cases h
  rename_i d1 n1 d2 n2 hl1 hl2
  split at h
  · cases h
  rename_i e1 he1
  refine ⟨d1, n1, d2, n2, e1, hl1, hl2, he1, ?_⟩
  split at h
  · cases h
  split at h
  · cases h
  split at h
  · cases h
  split at h
  · rename_i hf
    cases h
    refine .inl ⟨hf, ?_, rfl⟩
    cases hs : endsInSlash new with
    | true => exact FS_lookup_slash hl2 hs hf
    | false => rw [FS_lookup_locate hl2 hs, hf]; rfl
  · rename_i e2 hf
    refine .inr ⟨e2, hf, ?_⟩
    split at h
    · cases h
    rename_i hsl
    refine ⟨?_, ?_⟩
    · cases hs : endsInSlash new with
      | true =>
        exact Decidable.not_not.1 fun hx => hsl ⟨hs, hx⟩
      | false => rw [FS_lookup_locate hl2 hs, hf]; rfl
    · split at h
      · rename_i hee; cases h; exact .inl ⟨hee, rfl⟩
      · rename_i hne
        split at h
        · rename_i hi; cases h; exact .inr (.inl ⟨hne, hi, rfl⟩)
        · rename_i hi; cases h; exact .inr (.inr ⟨hi, rfl⟩)


theorem FS_lstat_some {fs : FS} {p : Bytes} {st : Stat} (h : fs.lstat p = some st) :
    ∃ i, fs.lookup p = some i ∧ st.dev = i.dev ∧ st.ino = i.num := by
  unfold FS.lstat at h
  cases hl : fs.lookup p with
  | none => rw [hl] at h; cases h
  | some i => rw [hl] at h; cases h; exact ⟨i, rfl, rfl, rfl⟩

theorem FS_lstat_lookup {fs : FS} {p : Bytes} {i : Ino} (h : fs.lookup p = some i) :
    ∃ st, fs.lstat p = some st ∧ st.dev = i.dev ∧ st.ino = i.num := by
  unfold FS.lstat
  rw [h]
  exact ⟨_, rfl, rfl, rfl⟩

/-- What a rename does that found the target free or the file itself. -/
theorem FS_guarded_rename {fs fs' : FS} {old new : Bytes} {so : Stat} {rn : Option Stat}
    (hs : endsInSlash old = false) (ho : fs.lstat old = some so) (hn : fs.lstat new = rn)
    (hg : ∀ sn, rn = some sn → sn.dev = so.dev ∧ sn.ino = so.ino ∧ so.nlink ≤ 1)
    (h : fs.rename old new = some fs') :
    ∃ d1 n1 d2 n2 e1, fs.locate old = some (d1, n1) ∧ fs.locate new = some (d2, n2) ∧ fs.find d1 n1 = some e1 ∧
      ((fs.find d2 n2 = none ∧ fs.lookup new = none ∧ fs' = { fs with entries := fs.entries.map (moveEntry e1 d2 n2) }) ∨
       (fs.find d2 n2 = some e1 ∧ fs' = { fs with entries := fs.entries.map (moveEntry e1 d2 n2) }) ∨
       (∃ e2, fs.find d2 n2 = some e2 ∧ e2 ≠ e1 ∧ e2.ino = e1.ino ∧ fs' = fs)) := by
  obtain ⟨d1, n1, d2, n2, e1, hl1, hl2, he1, hc⟩ := FS_rename_cases h
  refine ⟨d1, n1, d2, n2, e1, hl1, hl2, he1, ?_⟩
  rcases hc with hc | ⟨e2, hf, hlk, hc⟩
  · exact .inl hc
  · rcases hc with ⟨rfl, rfl⟩ | ⟨hne, hi, rfl⟩ | ⟨hi, _⟩
    · exact .inr (.inl ⟨hf, rfl⟩)
    · exact .inr (.inr ⟨e2, hf, hne, hi, rfl⟩)
    · exfalso
      obtain ⟨i, hlo, hd, hin⟩ := FS_lstat_some ho
      rw [FS_lookup_locate hl1 hs, he1] at hlo
      cases hlo
      obtain ⟨sn, hsn, hsd, hsi⟩ := FS_lstat_lookup hlk
      obtain ⟨ga, gb, _⟩ := hg sn (hn.symm.trans hsn)
      apply hi
      cases h1 : e1.ino with
      | mk a b =>
        cases h2 : e2.ino with
        | mk c d =>
          rw [h1] at hd hin; rw [h2] at hsd hsi
          simp only at hd hin hsd hsi
          have e1 : c = a := by rw [← hsd, ga, hd]
          have e2 : d = b := by rw [← hsi, gb, hin]
          rw [e1, e2]

theorem map_moveEntry_ino (e : Entry) (d : Ino) (n : Bytes) (l : List Entry) :
    (l.map (moveEntry e d n)).map Entry.ino = l.map Entry.ino := by
  rw [List.map_map]
  exact List.map_congr_left fun x _ => moveEntry_ino e d n x

/-- The number of names of an object only depends on the column of objects. -/
theorem FS_names_eq (fs : FS) (i : Ino) : fs.names i = ((fs.entries.map Entry.ino).filter (· = i)).length := by
  unfold FS.names
  rw [List.filter_map, List.length_map]
  rfl

theorem endsInSlash_dir_name {dir x : Bytes} (hx : x ≠ []) (hs : 0x2F ∉ x) : endsInSlash (dir ++ x) = false := by
  unfold endsInSlash
  rw [List.getLast?_append, List.getLast?_eq_some_getLast hx]
  simp
  intro h
  exact hs (h ▸ List.getLast_mem hx)

/-- Moving an entry to a free name keeps names unique. -/
theorem FS_unique_move {fs : FS} {e1 : Entry} {d2 : Ino} {n2 : Bytes} (hu : fs.Unique) (h1 : e1 ∈ fs.entries)
    (hf : ∀ e ∈ fs.entries, e.dir = d2 → fs.norm d2 e.name = fs.norm d2 n2 → e = e1) :
    FS.Unique { fs with entries := fs.entries.map (moveEntry e1 d2 n2) } := by
  unfold FS.Unique at hu ⊢
  have hnd : fs.entries.Nodup := hu.imp (fun {a b} h hab => h (by rw [hab]; exact ⟨rfl, rfl⟩))
  rw [List.pairwise_map]
  have key : fs.entries.Pairwise fun a b => a ≠ b ∧ ¬ (a.dir = b.dir ∧ fs.norm a.dir a.name = fs.norm b.dir b.name) := by
    exact List.Pairwise.and hnd hu
  refine List.Pairwise.imp_of_mem ?_ key
  intro a b ha hb hab hc
  obtain ⟨hab, hne⟩ := hab
  unfold moveEntry at hc
  by_cases ea : a = e1
  · subst ea
    have eb : b ≠ a := fun h => hab h.symm
    simp only [if_true, eb, if_false] at hc
    exact eb (hf b hb hc.1.symm (by rw [hc.2, hc.1]))
  · by_cases eb : b = e1
    · subst eb
      simp only [if_true, ea, if_false] at hc
      exact ea (hf a ha hc.1 (by rw [← hc.2, hc.1]))
    · simp only [ea, eb, if_false] at hc
      exact hne hc


theorem FS_exec_sound : ∀ (tr : List Event) {fs fs' : FS}, fs.exec tr = some fs' → FS.Steps fs tr fs'
  | [], fs, fs', h => by cases h; exact .nil _
  | e :: tr, fs, fs', h => by
    cases e with
    | lstat p r =>
      simp only [FS.exec] at h
      split at h
      · rename_i hr; exact .cons _ _ _ _ _ (.lstat _ _ hr) (FS_exec_sound tr h)
      · cases h
    | rename old new ok =>
      cases ok with
      | true =>
        simp only [FS.exec] at h
        split at h
        · cases h
        · rename_i fs1 hr; exact .cons _ _ _ _ _ (.renamed _ _ _ hr) (FS_exec_sound tr h)
      | false => simp only [FS.exec] at h; exact .cons _ _ _ _ _ (.renameFailed _ _) (FS_exec_sound tr h)
    | opendir p r => simp only [FS.exec] at h; exact .cons _ _ _ _ _ (.opendir _ _) (FS_exec_sound tr h)
    | readdir p r => simp only [FS.exec] at h; exact .cons _ _ _ _ _ (.readdir _ _) (FS_exec_sound tr h)
    | closedir p => simp only [FS.exec] at h; exact .cons _ _ _ _ _ (.closedir _) (FS_exec_sound tr h)
    | slurp p r => simp only [FS.exec] at h; exact .cons _ _ _ _ _ (.slurp _ _) (FS_exec_sound tr h)
    | out s => simp only [FS.exec] at h; exact .cons _ _ _ _ _ (.out _) (FS_exec_sound tr h)
    | err s => simp only [FS.exec] at h; exact .cons _ _ _ _ _ (.err _) (FS_exec_sound tr h)

/-- An execution whose outcome has the entries `es`. -/
theorem FS_exec_entries {fs : FS} {tr : List Event} {es : List Entry} (h : (fs.exec tr).map FS.entries = some es) :
    ∃ fs', FS.Steps fs tr fs' ∧ fs'.entries = es := by
  cases hx : fs.exec tr with
  | none => rw [hx] at h; cases h
  | some fs' => rw [hx] at h; cases h; exact ⟨fs', FS_exec_sound tr hx, rfl⟩

end Detox
